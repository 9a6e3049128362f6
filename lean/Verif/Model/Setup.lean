import Verif.Model.Frac
import Verif.Model.Startup
import Verif.Model.Auth
import Verif.Model.Mon

/-!
# From the command line to the program

What the three programs make of their flags before they go to work: `run` of stayrtr (cmd/stayrtr/stayrtr.go:737-974), `main` of rtrmon (cmd/rtrmon/rtrmon.go:914-1014) and of rtrdump (cmd/rtrdump/rtrdump.go:140-235). The
records below hold what the rest of the program can see of the flags: a flag that is read only under a condition is in a part that is there only under that condition.

Simplifications: a file that is read twice has the same contents both times; the texts of log entries about the settings are left out.
-/

namespace StayRTR

/-- What the programs find when they start: the default of `-useragent`, which holds the version of the build (cmd/stayrtr/stayrtr.go:87, cmd/rtrmon/rtrmon.go:54), the environment (`os.Getenv`, cmd/stayrtr/stayrtr.go:903, 921),
files (`os.ReadFile`, 888, 923), whether two of them are a certificate and its key (`tls.LoadX509KeyPair`, 873), and whether one is a private key (`ssh.ParsePrivateKey`, 892). -/
structure Outside where
  userAgent : Str
  env : Str → Str
  read : Str → Option Bytes
  keyPair : Bytes → Bytes → Bool
  privateKey : Bytes → Bool

/-- `*flag` for a duration (cmd/rtrmon/rtrmon.go:929). -/
def FlagSet.duration (fs : FlagSet) (name : Str) : Int := match fs.get name with
  | some (.duration n) => n
  | _ => 0

/-- `visibilityThresholds` (cmd/rtrmon/rtrmon.go:928). -/
def FlagSet.thresholds (fs : FlagSet) : List Int := match fs.get "visibility.thresholds".toList with
  | some (.thresholds l) => l
  | _ => []

/-- How a program begins: it exits (`os.Exit`), ends with `log.Fatal`, panics, or goes to work (cmd/stayrtr/stayrtr.go:742, 746, 874; cmd/rtrmon/rtrmon.go:928, 943). -/
inductive Begun (α : Type) where
  | exits (status : Nat)
  | fatal
  | panic
  | runs (a : α)
  deriving DecidableEq, Repr

/-! ## stayrtr -/

/-- The flags of `Model/Startup.lean`, cmd/stayrtr/stayrtr.go:49-97; there are no stray arguments, as `launch` ends the program with them (740-746). -/
def FlagSet.start (fs : FlagSet) : StartFlags where
  args := false
  version := fs.bool "version".toList
  metricsAddr := fs.str "metrics.addr".toList
  metricsPath := fs.str "metrics.path".toList
  exportPath := fs.str "export.path".toList
  updateEndpoint := fs.bool "update.endpoint".toList
  bind := fs.str "bind".toList
  bindTLS := fs.str "tls.bind".toList
  bindSSH := fs.str "ssh.bind".toList
  enableKey := fs.bool "ssh.method.key".toList
  keysFile := fs.str "ssh.auth.key.file".toList
  interval := BitVec.ofInt 64 (fs.int "refresh".toList)

/-- What the program finds in the files that its flags name, cmd/stayrtr/stayrtr.go:873, 888, 892, 923. -/
def FlagSet.world (fs : FlagSet) (o : Outside) (listenOk : List Str → Str → Bool) : StartWorld where
  listenOk := listenOk
  certificate := match o.read (fs.str "tls.cert".toList), o.read (fs.str "tls.key".toList) with
    | some c, some k => o.keyPair c k
    | _, _ => false
  hostKeyRead := (o.read (fs.str "ssh.key".toList)).isSome
  hostKeyParsed := ((o.read (fs.str "ssh.key".toList)).map o.privateKey).getD false
  keysRead := (o.read (fs.str "ssh.auth.key.file".toList)).isSome

/-- The flags of `Model/Auth.lean`, cmd/stayrtr/stayrtr.go:73-79, 903, 921. -/
def FlagSet.ssh (fs : FlagSet) (o : Outside) : SshFlags where
  enablePassword := fs.bool "ssh.method.password".toList
  user := utf8Str (fs.str "ssh.auth.user".toList)
  password := utf8Str (fs.str "ssh.auth.password".toList)
  envPassword := utf8Str (o.env "STAYRTR_SSH_PASSWORD".toList)
  enableKey := fs.bool "ssh.method.key".toList
  bypass := fs.bool "ssh.auth.key.bypass".toList
  keysFile := utf8Str (fs.str "ssh.auth.key.file".toList)
  envKeys := utf8Str (o.env "STAYRTR_SSH_AUTHORIZEDKEYS".toList)

/-- The HTTP server, cmd/stayrtr/stayrtr.go:173-174, 772-775, 798-806. -/
structure HttpSetup where
  addr : Str
  metricsPath : Str
  exportPath : Option Str
  updateEndpoint : Bool
  deriving DecidableEq, Repr

/-- The SSH server, cmd/stayrtr/stayrtr.go:886-971: user and password, and the list of keys, by its file or (`none`) from the environment, and whether it is passed over. -/
structure SshSetup where
  addr : Str
  hostKey : Str
  password : Option (Str × Str)
  keys : Option (Option Str × Bool)
  noClientAuth : Bool
  deriving DecidableEq, Repr

/-- All that stayrtr makes of its flags, cmd/stayrtr/stayrtr.go:748-974. -/
structure StayrtrSetup where
  level : LogLevel
  verbose : Bool
  server : Server
  keepDifference : Int
  http : Option HttpSetup
  notify : Bool
  checktime : Bool
  userAgent : Str
  mime : Str
  etags : Bool
  lastModified : Bool
  cache : Str
  slurm : Option (Str × Bool)
  tcp : Option Str
  /-- address, certificate and key -/
  tls : Option (Str × Str × Str)
  ssh : Option SshSetup
  interval : BitVec 64
  deriving DecidableEq, Repr

/-- `if *flag != ""`, cmd/stayrtr/stayrtr.go:772, 799, 832, 861, 872, 886. -/
def ifGiven {α : Type} (s : Str) (a : α) : Option α := if s = [] then none else some a

/-- `run`, cmd/stayrtr/stayrtr.go:748-974; `sid` is the random session id. -/
def FlagSet.stayrtr (fs : FlagSet) (o : Outside) (sid : U16) : StayrtrSetup where
  level := parseLevel (fs.str "loglevel".toList)
  verbose := fs.bool "log.verbose".toList
  server := newServer fs.server.serverConfiguration sid
  keepDifference := fs.server.serverConfiguration.keepDifference
  http := ifGiven (fs.str "metrics.addr".toList)
    ⟨fs.str "metrics.addr".toList, fs.str "metrics.path".toList, ifGiven (fs.str "export.path".toList) (fs.str "export.path".toList), fs.bool "update.endpoint".toList⟩
  notify := fs.bool "notifications".toList
  checktime := fs.bool "checktime".toList
  userAgent := fs.str "useragent".toList
  mime := fs.str "mime".toList
  etags := fs.bool "etag".toList
  lastModified := fs.bool "last.modified".toList
  cache := fs.str "cache".toList
  slurm := ifGiven (fs.str "slurm".toList) (fs.str "slurm".toList, fs.bool "slurm.refresh".toList)
  tcp := ifGiven (fs.str "bind".toList) (fs.str "bind".toList)
  tls := ifGiven (fs.str "tls.bind".toList) (fs.str "tls.bind".toList, fs.str "tls.cert".toList, fs.str "tls.key".toList)
  ssh := ifGiven (fs.str "ssh.bind".toList)
    ⟨fs.str "ssh.bind".toList, fs.str "ssh.key".toList,
      if fs.bool "ssh.method.password".toList then
        some (fs.str "ssh.auth.user".toList, if fs.str "ssh.auth.password".toList = [] then o.env "STAYRTR_SSH_PASSWORD".toList else fs.str "ssh.auth.password".toList) else none,
      if fs.bool "ssh.method.key".toList then some (ifGiven (fs.str "ssh.auth.key.file".toList) (fs.str "ssh.auth.key.file".toList), fs.bool "ssh.auth.key.bypass".toList) else none,
      !(fs.bool "ssh.method.key".toList || fs.bool "ssh.method.password".toList)⟩
  interval := BitVec.ofInt 64 (fs.int "refresh".toList)

/-- stayrtr from its command line to its settings; without an address it ends at once, cmd/stayrtr/stayrtr.go:737-974, 808-810. -/
def stayrtrProgram (o : Outside) (sid : U16) (args : List Str) : Begun StayrtrSetup :=
  match launch goFrac (stayrtrFlags o.userAgent) args with
  | .exits n => .exits n
  | .runs fs => if fs.str "bind".toList = [] ∧ fs.str "tls.bind".toList = [] ∧ fs.str "ssh.bind".toList = [] then .fatal else .runs (fs.stayrtr o sid)

/-! ## rtrmon -/

/-- `METHOD_NONE`, `METHOD_PASSWORD`, `METHOD_KEY`, cmd/rtrmon/rtrmon.go:37-39, cmd/rtrdump/rtrdump.go:24-26. -/
inductive SshMethod where
  | none | password | key
  deriving DecidableEq, Repr

/-- `authToId`, cmd/rtrmon/rtrmon.go:88-92, cmd/rtrdump/rtrdump.go:62-66. -/
def authToId (s : Str) : Option SshMethod := if s = "none".toList then some .none else if s = "password".toList then some .password else if s = "key".toList then some .key else none

/-- A source, `Client` of cmd/rtrmon/rtrmon.go:209-225, as `main` leaves it (939-1001). -/
structure MonSource where
  transport : MonTransport
  method : SshMethod
  keyBytes : Bytes
  path : Str
  refresh : Int
  breakRTR : Bool
  deriving DecidableEq, Repr

/-- The flags of a source for `Model/Mon.lean`, cmd/rtrmon/rtrmon.go:58-67, 69-78, 954, 986: `prefix` is that of their names, `number` that at the end of the names of the environment variables. -/
def FlagSet.source (fs : FlagSet) (o : Outside) (pfx number : Str) : MonFlags where
  validateCert := fs.bool (pfx ++ ".tls.validate".toList)
  validateSSH := fs.bool (pfx ++ ".ssh.validate".toList)
  serverKey := fs.str (pfx ++ ".ssh.validate.key".toList)
  method := fs.str (pfx ++ ".ssh.method".toList)
  user := fs.str (pfx ++ ".ssh.auth.user".toList)
  password := fs.str (pfx ++ ".ssh.auth.password".toList)
  envPassword := o.env ("RTR_SSH_PASSWORD_".toList ++ number)

/-- The bytes of the key, cmd/rtrmon/rtrmon.go:957-970, 989-1002, cmd/rtrdump/rtrdump.go:204-214; `none`: the file cannot be read, and the program ends. -/
def keyBytesOf (o : Outside) (file var : Str) : Option Bytes := if file = [] then some (utf8Str (o.env var)) else o.read file

/-- A source after `main`, cmd/rtrmon/rtrmon.go:939-970, 972-1002; `none`: the program ends. -/
def FlagSet.monSource (fs : FlagSet) (o : Outside) (pfx number : Str) (transport : MonFlags → MonTransport) : Option MonSource :=
  match authToId (fs.str (pfx ++ ".ssh.method".toList)) with
  | none => none
  | some m =>
    match if m = .key then keyBytesOf o (fs.str (pfx ++ ".ssh.auth.key".toList)) ("RTR_SSH_KEY_".toList ++ number) else some [] with
    | none => none
    | some k => some ⟨transport (fs.source o pfx number), m, k, fs.str (pfx ++ ".host".toList), fs.duration (pfx ++ ".refresh".toList), fs.bool (pfx ++ ".rtr.break".toList)⟩

/-- All that rtrmon makes of its flags, cmd/rtrmon/rtrmon.go:925-1014. -/
structure MonSetup where
  level : LogLevel
  thresholds : List Int
  /-- in nanoseconds, 928-932 -/
  grace : Int
  conditional : Bool
  userAgent : Str
  primary : MonSource
  secondary : MonSource
  addr : Str
  outFile : Str
  metricsPath : Str
  /-- `Comparator.OneOff`, which `main` does not set, 644, 1004 -/
  oneOff : Bool
  deriving DecidableEq, Repr

/-- `main`, cmd/rtrmon/rtrmon.go:925-1014. -/
def FlagSet.rtrmon (fs : FlagSet) (o : Outside) : Begun MonSetup :=
  match fs.thresholds.getLast? with
  | none => .panic
  | some t =>
    match fs.monSource o "primary".toList "1".toList monPrimary, fs.monSource o "secondary".toList "2".toList monSecondary with
    | some p, some s => .runs
      { level := parseLevel (fs.str "loglevel".toList), thresholds := fs.thresholds,
        grace := if 1000000000 * t > fs.duration "grace.period".toList then 1000000000 * t else fs.duration "grace.period".toList,
        conditional := !fs.bool "disable.conditional.requests".toList, userAgent := fs.str "useragent".toList, primary := p, secondary := s,
        addr := fs.str "addr".toList, outFile := fs.str "file".toList, metricsPath := fs.str "metrics".toList, oneOff := false }
    | _, _ => .fatal

/-- rtrmon from its command line to its settings, cmd/rtrmon/rtrmon.go:914-1014. -/
def rtrmonProgram (o : Outside) (args : List Str) : Begun MonSetup :=
  match launch goFrac (rtrmonFlags o.userAgent) args with
  | .exits n => .exits n
  | .runs fs => fs.rtrmon o

/-! ## rtrdump -/

/-- How rtrdump shows who it is, cmd/rtrdump/rtrdump.go:195-223. -/
inductive DumpAuth where
  | none
  | password (p : Str)
  | key (b : Bytes)
  deriving DecidableEq, Repr

/-- The connection, lib/client.go:199-210, cmd/rtrdump/rtrdump.go:178-194, 226; the fingerprint of an SSH server is compared if there is one given. -/
inductive DumpConn where
  | plain
  | tls (validate : Bool)
  | ssh (user : Str) (auth : DumpAuth) (fingerprint : Option Str)
  deriving DecidableEq, Repr

/-- All that rtrdump makes of its flags, cmd/rtrdump/rtrdump.go:151-235. -/
structure DumpSetup where
  level : LogLevel
  dataPdu : Bool
  version : U8
  /-- session and serial number, if a Serial Query is sent -/
  query : Option (U16 × U32)
  addr : Str
  conn : DumpConn
  /-- `none`: the standard output -/
  file : Option Str
  deriving DecidableEq, Repr

/-- The authentication of rtrdump, cmd/rtrdump/rtrdump.go:195-223; `none`: the program ends. -/
def FlagSet.dumpAuth (fs : FlagSet) (o : Outside) : Option DumpAuth :=
  match authToId (fs.str "ssh.method".toList) with
  | none => none
  | some .none => some .none
  | some .password => some (.password (if fs.str "ssh.auth.password".toList = [] then o.env "RTR_SSH_PASSWORD".toList else fs.str "ssh.auth.password".toList))
  | some .key =>
    match keyBytesOf o (fs.str "ssh.auth.key".toList) "RTR_SSH_KEY".toList with
    | none => none
    | some b => if o.privateKey b then some (.key b) else none

/-- `typeToId` and `Start`, cmd/rtrdump/rtrdump.go:57-61, 226, lib/client.go:199-210; `none` for an unknown type. -/
def FlagSet.dumpConn (fs : FlagSet) (auth : DumpAuth) : Option DumpConn :=
  if fs.str "type".toList = "plain".toList then some .plain
  else if fs.str "type".toList = "tls".toList then some (.tls (fs.bool "tls.validate".toList))
  else if fs.str "type".toList = "ssh".toList then some (.ssh (fs.str "ssh.auth.user".toList) auth (if fs.bool "ssh.validate".toList then some (fs.str "ssh.validate.key".toList) else none))
  else none

/-- `main`, cmd/rtrdump/rtrdump.go:151-235. -/
def FlagSet.rtrdump (fs : FlagSet) (o : Outside) : Begun DumpSetup :=
  match dumpVersion fs.dump with
  | none => .fatal
  | some v =>
    match fs.dumpAuth o with
    | none => .fatal
    | some auth =>
      match fs.dumpConn auth with
      | none => .fatal
      | some conn => .runs
        { level := parseLevel (fs.str "loglevel".toList), dataPdu := fs.bool "datapdu".toList, version := v,
          query := if fs.bool "serial".toList then some (BitVec.ofInt 16 (fs.int "session.id".toList), BitVec.ofInt 32 (fs.int "serial.value".toList)) else none,
          addr := fs.str "connect".toList, conn := conn, file := ifGiven (fs.str "file".toList) (fs.str "file".toList) }

/-- rtrdump from its command line to its settings, cmd/rtrdump/rtrdump.go:140-235. -/
def rtrdumpProgram (o : Outside) (args : List Str) : Begun DumpSetup :=
  match launch goFrac rtrdumpFlags args with
  | .exits n => .exits n
  | .runs fs => fs.rtrdump o

end StayRTR
