import Verif.Model.Mon
import Verif.Model.Dump
import Verif.Model.Hub

/-!
# Command lines

Package `flag` as the three programs use it: `flag.Parse`, the values of their flags, and the first lines of their `main` (cmd/stayrtr/stayrtr.go:49-97, 737-750, cmd/rtrmon/rtrmon.go:49-81, 150-198, 914-927,
cmd/rtrdump/rtrdump.go:32-55, 140-158). Written down from knowledge of the packages flag, strconv, time and logrus. Texts are characters, not bytes: nothing outside ASCII has a meaning for these parsers, but for µ in durations.
-/

namespace StayRTR

/-- `strconv.ParseBool`, which the boolean flags use (cmd/stayrtr/stayrtr.go:53-97). -/
def parseBool (s : Str) : Option Bool :=
  if s ∈ ["1".toList, "t".toList, "T".toList, "TRUE".toList, "true".toList, "True".toList] then some true
  else if s ∈ ["0".toList, "f".toList, "F".toList, "FALSE".toList, "false".toList, "False".toList] then some false
  else none

/-- `lower` of package strconv, for letters of ASCII (used for cmd/stayrtr/stayrtr.go:55-58, 89-90). -/
def lowerChar (c : Char) : Char := if 'A'.toNat ≤ c.toNat ∧ c.toNat ≤ 'Z'.toNat then Char.ofNat (c.toNat + 32) else c

/-- The digit that a character stands for, in any base (`strconv.ParseUint`, used for cmd/stayrtr/stayrtr.go:55-58, 89-90). -/
def anyDigit (c : Char) : Option Nat :=
  if isDec c then some (c.toNat - '0'.toNat)
  else if 'a'.toNat ≤ (lowerChar c).toNat ∧ (lowerChar c).toNat ≤ 'z'.toNat then some ((lowerChar c).toNat - 'a'.toNat + 10) else none

/-- The loop of `strconv.ParseUint` with base 0, where underscores are skipped (used for cmd/stayrtr/stayrtr.go:55-58, 89-90); `none` for an error of syntax or range. -/
def uintLoop (base : Nat) : Nat → Str → Option Nat
  | n, [] => some n
  | n, c :: s =>
    if c = '_' then uintLoop base n s
    else match anyDigit c with
      | none => none
      | some d => if d ≥ base then none else if n * base + d < 2 ^ 64 then uintLoop base (n * base + d) s else none

/-- What `underscoreOK` saw last, package strconv (used for cmd/stayrtr/stayrtr.go:55-58, 89-90). -/
inductive Saw where
  | start
  | digit
  | underscore
  | other
  deriving DecidableEq, Repr

/-- The loop of `underscoreOK`, package strconv (used for cmd/stayrtr/stayrtr.go:55-58, 89-90). -/
def underscoreLoop (hex : Bool) : Saw → Str → Bool
  | saw, [] => saw != .underscore
  | saw, c :: s =>
    if isDec c ∨ hex = true ∧ 'a'.toNat ≤ (lowerChar c).toNat ∧ (lowerChar c).toNat ≤ 'f'.toNat then underscoreLoop hex .digit s
    else if c = '_' then (if saw ≠ .digit then false else underscoreLoop hex .underscore s)
    else if saw = .underscore then false
    else underscoreLoop hex .other s

/-- `underscoreOK` without the sign, which `ParseInt` has cut off, package strconv (used for cmd/stayrtr/stayrtr.go:55-58, 89-90). -/
def underscoreOK : Str → Bool
  | '0' :: c :: s =>
    if lowerChar c = 'b' ∨ lowerChar c = 'o' ∨ lowerChar c = 'x' then underscoreLoop (lowerChar c == 'x') .digit s else underscoreLoop false .start ('0' :: c :: s)
  | s => underscoreLoop false .start s

/-- The base that a text without sign is in, and its digits: `strconv.ParseUint` with base 0 (used for cmd/stayrtr/stayrtr.go:55-58, 89-90). -/
def baseOf : Str → Nat × Str
  | '0' :: c :: d :: s =>
    if lowerChar c = 'b' then (2, d :: s) else if lowerChar c = 'o' then (8, d :: s) else if lowerChar c = 'x' then (16, d :: s) else (8, c :: d :: s)
  | '0' :: s => (8, s)
  | s => (10, s)

/-- `strconv.ParseUint(s, 0, 64)` (used for cmd/stayrtr/stayrtr.go:55-58, 89-90). -/
def parseUint0 (s : Str) : Option Nat :=
  if s = [] then none
  else match uintLoop (baseOf s).1 0 (baseOf s).2 with
    | none => none
    | some n => if '_' ∈ s ∧ underscoreOK s = false then none else some n

/-- `strconv.ParseInt(s, 0, 64)`, which the integer flags use (cmd/stayrtr/stayrtr.go:55-58, 89-90, cmd/rtrdump/rtrdump.go:36-39, 51). -/
def parseInt0 : Str → Option Int
  | '-' :: s => match parseUint0 s with
    | some n => if n ≤ 2 ^ 63 then some (-(n : Int)) else none
    | none => none
  | '+' :: s => match parseUint0 s with
    | some n => if n < 2 ^ 63 then some n else none
    | none => none
  | s => match parseUint0 s with
    | some n => if n < 2 ^ 63 then some n else none
    | none => none

/-- `leadingInt` of package time: the number and the rest (used for cmd/rtrmon/rtrmon.go:56, 66, 77). -/
def leadingInt : Nat → Str → Option (Nat × Str)
  | x, [] => some (x, [])
  | x, c :: s =>
    if isDec c then
      if x > 2 ^ 63 / 10 then none
      else if x * 10 + (c.toNat - '0'.toNat) > 2 ^ 63 then none
      else leadingInt (x * 10 + (c.toNat - '0'.toNat)) s
    else some (x, c :: s)

/-- `leadingFraction` of package time: the digits as a number, how many of them count, and the rest (used for cmd/rtrmon/rtrmon.go:56, 66, 77). -/
def leadingFraction : Bool → Nat → Nat → Str → Nat × Nat × Str
  | _, x, k, [] => (x, k, [])
  | overflow, x, k, c :: s =>
    if isDec c then
      if overflow = true then leadingFraction true x k s
      else if x > (2 ^ 63 - 1) / 10 then leadingFraction true x k s
      else if x * 10 + (c.toNat - '0'.toNat) > 2 ^ 63 then leadingFraction true x k s
      else leadingFraction false (x * 10 + (c.toNat - '0'.toNat)) (k + 1) s
    else (x, k, c :: s)

/-- `unitMap` of package time, in nanoseconds (used for cmd/rtrmon/rtrmon.go:56, 66, 77). -/
def durationUnit (u : Str) : Option Nat :=
  if u = "ns".toList then some 1
  else if u = "us".toList ∨ u = ['µ', 's'] ∨ u = ['μ', 's'] then some 1000
  else if u = "ms".toList then some 1000000
  else if u = "s".toList then some 1000000000
  else if u = "m".toList then some 60000000000
  else if u = "h".toList then some 3600000000000
  else none

/-- The fraction after a point, if there is one: as `leadingFraction` gives it, and whether it has digits, package time (used for cmd/rtrmon/rtrmon.go:56, 66, 77). -/
def fractionOf : Str → Nat × Nat × Bool × Str
  | '.' :: r => ((leadingFraction false 0 0 r).1, (leadingFraction false 0 0 r).2.1, (leadingFraction false 0 0 r).2.2.length != r.length, (leadingFraction false 0 0 r).2.2)
  | r => (0, 0, false, r)

/-- The loop of `time.ParseDuration` (used for cmd/rtrmon/rtrmon.go:56, 66, 77), over at most as many parts as the first argument says; `frac f k unit` is what `float64(f) * (float64(unit) / 10^k)` is as an integer. -/
def durationLoop (frac : Nat → Nat → Nat → Nat) : Nat → Nat → Str → Option Nat
  | _, d, [] => some d
  | 0, _, _ => none
  | fuel + 1, d, c :: s =>
    if ¬ (c = '.' ∨ isDec c) then none
    else match leadingInt 0 (c :: s) with
      | none => none
      | some (v, rest) =>
        match fractionOf rest with
        | (f, k, post, r) =>
          if (rest.length != (c :: s).length) = false ∧ post = false then none
          else match durationUnit (r.takeWhile fun c => !(c == '.' || isDec c)) with
            | none => none
            | some unit =>
              if v > 2 ^ 63 / unit then none
              else if v * unit + (if f > 0 then frac f k unit else 0) > 2 ^ 63 then none
              else if d + (v * unit + (if f > 0 then frac f k unit else 0)) > 2 ^ 63 then none
              else durationLoop frac fuel (d + (v * unit + (if f > 0 then frac f k unit else 0))) (r.dropWhile fun c => !(c == '.' || isDec c))

/-- `time.ParseDuration` without the sign, in nanoseconds (used for cmd/rtrmon/rtrmon.go:56, 66, 77). -/
def parseUnsignedDuration (frac : Nat → Nat → Nat → Nat) (s : Str) : Option Nat :=
  if s = ['0'] then some 0 else if s = [] then none else durationLoop frac s.length 0 s

/-- `time.ParseDuration`, in nanoseconds, which the flags for durations use (cmd/rtrmon/rtrmon.go:56, 66, 77). -/
def parseDuration (frac : Nat → Nat → Nat → Nat) : Str → Option Int
  | '-' :: s => (parseUnsignedDuration frac s).map fun d => -(d : Int)
  | '+' :: s => match parseUnsignedDuration frac s with
    | some d => if d > 2 ^ 63 - 1 then none else some d
    | none => none
  | s => match parseUnsignedDuration frac s with
    | some d => if d > 2 ^ 63 - 1 then none else some d
    | none => none

/-- The value of a flag: `boolValue`, `intValue`, `stringValue`, `durationValue` of package flag, and `thresholds` (cmd/stayrtr/stayrtr.go:49-97, cmd/rtrmon/rtrmon.go:49-81, 150, 162). -/
inductive FlagValue where
  | bool (b : Bool)
  | int (n : Int)
  | str (s : Str)
  | duration (ns : Int)
  | thresholds (l : List Int)
  deriving DecidableEq, Repr

/-- `IsBoolFlag` of package flag (used for cmd/stayrtr/stayrtr.go:738). -/
def FlagValue.isBool : FlagValue → Bool
  | .bool _ => true
  | _ => false

/-- `Set` of a flag (package flag, and cmd/rtrmon/rtrmon.go:178-198 for the thresholds); `none` for an error, on which the program ends. -/
def FlagValue.set (frac : Nat → Nat → Nat → Nat) (text : Str) : FlagValue → Option FlagValue
  | .bool _ => (parseBool text).map .bool
  | .int _ => (parseInt0 text).map .int
  | .str _ => some (.str text)
  | .duration _ => (parseDuration frac text).map .duration
  | .thresholds _ => (thresholdsSet text).map .thresholds

/-- The flags of a program with their values, `flag.CommandLine` (cmd/stayrtr/stayrtr.go:49-97, 738). -/
abbrev FlagSet := List (Str × FlagValue)

/-- `f.formal[name]` of package flag (used for cmd/stayrtr/stayrtr.go:738). -/
def FlagSet.get (fs : FlagSet) (name : Str) : Option FlagValue := (fs.find? fun x => x.1 == name).map (·.2)

/-- A flag gets a value, package flag (used for cmd/stayrtr/stayrtr.go:738). -/
def FlagSet.put (fs : FlagSet) (name : Str) (v : FlagValue) : FlagSet := fs.map fun x => if x.1 == name then (x.1, v) else x

/-- What an argument is where a flag may stand, first part of `parseOne` of package flag (used for cmd/stayrtr/stayrtr.go:738). -/
inductive ArgKind where
  /-- not a flag: the flags end before it -/
  | positional
  /-- the flags end after it -/
  | stop
  | bad
  | flag (name : Str) (value : Option Str)
  deriving DecidableEq, Repr

/-- The name and the value joined to it, `parseOne` of package flag (used for cmd/stayrtr/stayrtr.go:738). -/
def nameAndValue (name : Str) : ArgKind :=
  match name with
  | [] => .bad
  | '-' :: _ => .bad
  | '=' :: _ => .bad
  | name => match splitFirst '=' name with
    | some (n, v) => .flag n (some v)
    | none => .flag name none

/-- The first part of `parseOne`, package flag (used for cmd/stayrtr/stayrtr.go:738). -/
def argKind : Str → ArgKind
  | '-' :: '-' :: [] => .stop
  | '-' :: '-' :: name => nameAndValue name
  | '-' :: c :: name => nameAndValue (c :: name)
  | _ => .positional

/-- What `flag.Parse` comes to: the flags and the arguments left, or the help text, or an error (cmd/stayrtr/stayrtr.go:738). -/
inductive FlagsResult where
  | ok (fs : FlagSet) (args : List Str)
  | help
  | bad
  deriving DecidableEq, Repr

/-- `parseOne` for a flag that is not defined, package flag (used for cmd/stayrtr/stayrtr.go:738). -/
def undefinedFlag (name : Str) : FlagsResult := if name = "help".toList ∨ name = "h".toList then .help else .bad

/-- `flag.Parse` (cmd/stayrtr/stayrtr.go:738, cmd/rtrmon/rtrmon.go:915, cmd/rtrdump/rtrdump.go:141). -/
def parseFlags (frac : Nat → Nat → Nat → Nat) : FlagSet → List Str → FlagsResult
  | fs, [] => .ok fs []
  | fs, s :: rest =>
    match argKind s with
    | .positional => .ok fs (s :: rest)
    | .stop => .ok fs rest
    | .bad => .bad
    | .flag name (some value) =>
      match fs.get name with
      | none => undefinedFlag name
      | some v => match v.set frac value with
        | none => .bad
        | some v' => parseFlags frac (fs.put name v') rest
    | .flag name none =>
      match fs.get name with
      | none => undefinedFlag name
      | some v =>
        if v.isBool then match v.set frac "true".toList with
          | none => .bad
          | some v' => parseFlags frac (fs.put name v') rest
        else match rest with
          | [] => .bad
          | value :: rest => match v.set frac value with
            | none => .bad
            | some v' => parseFlags frac (fs.put name v') rest

/-- What a program does with its command line: it ends with a status, or it goes on with these flags (cmd/stayrtr/stayrtr.go:738-746, cmd/rtrmon/rtrmon.go:915-923, cmd/rtrdump/rtrdump.go:141-149). -/
inductive Launch where
  | exits (status : Nat)
  | runs (fs : FlagSet)
  deriving DecidableEq, Repr

/-- The first lines of the three programs, cmd/stayrtr/stayrtr.go:738-746, cmd/rtrmon/rtrmon.go:915-923, cmd/rtrdump/rtrdump.go:141-149. -/
def launch (frac : Nat → Nat → Nat → Nat) (fs : FlagSet) (args : List Str) : Launch :=
  match parseFlags frac fs args with
  | .bad => .exits 2
  | .help => .exits 0
  | .ok fs rest => if rest ≠ [] then .exits 2 else if fs.get "version".toList = some (.bool true) then .exits 0 else .runs fs

/-- The flags of stayrtr, cmd/stayrtr/stayrtr.go:49-97; `userAgent` is the default of `-useragent`, which has the version of the program in it (87). -/
def stayrtrFlags (userAgent : Str) : FlagSet :=
  [("metrics.addr".toList, .str ":9847".toList),
   ("metrics.path".toList, .str "/metrics".toList),
   ("export.path".toList, .str "/rpki.json".toList),
   ("update.endpoint".toList, .bool false),
   ("protocol".toList, .int 1),
   ("rtr.refresh".toList, .int 3600),
   ("rtr.retry".toList, .int 600),
   ("rtr.expire".toList, .int 7200),
   ("notifications".toList, .bool true),
   ("enforce.version".toList, .bool false),
   ("disable.bgpsec".toList, .bool false),
   ("enable.nodelay".toList, .bool false),
   ("bind".toList, .str ":8282".toList),
   ("tls.bind".toList, .str "".toList),
   ("tls.cert".toList, .str "".toList),
   ("tls.key".toList, .str "".toList),
   ("ssh.bind".toList, .str "".toList),
   ("ssh.key".toList, .str "private.pem".toList),
   ("ssh.method.password".toList, .bool false),
   ("ssh.auth.user".toList, .str "rpki".toList),
   ("ssh.auth.password".toList, .str "".toList),
   ("ssh.method.key".toList, .bool false),
   ("ssh.auth.key.bypass".toList, .bool false),
   ("ssh.auth.key.file".toList, .str "".toList),
   ("checktime".toList, .bool true),
   ("cache".toList, .str "https://console.rpki-client.org/rpki.json".toList),
   ("etag".toList, .bool true),
   ("last.modified".toList, .bool true),
   ("useragent".toList, .str userAgent),
   ("mime".toList, .str "application/json".toList),
   ("refresh".toList, .int 600),
   ("maxconn".toList, .int 0),
   ("slurm".toList, .str "".toList),
   ("slurm.refresh".toList, .bool true),
   ("loglevel".toList, .str "info".toList),
   ("log.verbose".toList, .bool true),
   ("version".toList, .bool false)]

/-- The flags of rtrmon, cmd/rtrmon/rtrmon.go:49-81, 162. -/
def rtrmonFlags (userAgent : Str) : FlagSet :=
  [("oneoff".toList, .bool false),
   ("addr".toList, .str ":9866".toList),
   ("metrics".toList, .str "/metrics".toList),
   ("file".toList, .str "diff.json".toList),
   ("useragent".toList, .str userAgent),
   ("disable.conditional.requests".toList, .bool false),
   ("grace.period".toList, .duration (3600 * 1000000000)),
   ("primary.host".toList, .str "tcp://rtr.rpki.cloudflare.com:8282".toList),
   ("primary.tls.validate".toList, .bool true),
   ("primary.ssh.validate".toList, .bool false),
   ("primary.ssh.validate.key".toList, .str "".toList),
   ("primary.ssh.method".toList, .str "none".toList),
   ("primary.ssh.auth.user".toList, .str "rpki".toList),
   ("primary.ssh.auth.password".toList, .str "".toList),
   ("primary.ssh.auth.key".toList, .str "id_rsa".toList),
   ("primary.refresh".toList, .duration (600 * 1000000000)),
   ("primary.rtr.break".toList, .bool false),
   ("secondary.host".toList, .str "https://rpki.cloudflare.com/rpki.json".toList),
   ("secondary.tls.validate".toList, .bool true),
   ("secondary.ssh.validate".toList, .bool false),
   ("secondary.ssh.validate.key".toList, .str "".toList),
   ("secondary.ssh.method".toList, .str "none".toList),
   ("secondary.ssh.auth.user".toList, .str "rpki".toList),
   ("secondary.ssh.auth.password".toList, .str "".toList),
   ("secondary.ssh.auth.key".toList, .str "id_rsa".toList),
   ("secondary.refresh".toList, .duration (600 * 1000000000)),
   ("secondary.rtr.break".toList, .bool false),
   ("loglevel".toList, .str "info".toList),
   ("version".toList, .bool false),
   ("visibility.thresholds".toList, .thresholds defaultThresholds)]

/-- The flags of rtrdump, cmd/rtrdump/rtrdump.go:32-55. -/
def rtrdumpFlags : FlagSet :=
  [("connect".toList, .str "127.0.0.1:8282".toList),
   ("file".toList, .str "output.json".toList),
   ("serial".toList, .bool false),
   ("serial.value".toList, .int 0),
   ("session.id".toList, .int 0),
   ("rtr.version".toList, .int 1),
   ("type".toList, .str "plain".toList),
   ("tls.validate".toList, .bool true),
   ("ssh.validate".toList, .bool false),
   ("ssh.validate.key".toList, .str "".toList),
   ("ssh.method".toList, .str "none".toList),
   ("ssh.auth.user".toList, .str "rpki".toList),
   ("ssh.auth.password".toList, .str "".toList),
   ("ssh.auth.key".toList, .str "id_rsa".toList),
   ("refresh".toList, .int 600),
   ("loglevel".toList, .str "info".toList),
   ("datapdu".toList, .bool false),
   ("version".toList, .bool false)]

/-- `*flag` for a boolean flag (cmd/stayrtr/stayrtr.go:743). -/
def FlagSet.bool (fs : FlagSet) (name : Str) : Bool := match fs.get name with
  | some (.bool b) => b
  | _ => false

/-- `*flag` for an integer flag (cmd/stayrtr/stayrtr.go:756). -/
def FlagSet.int (fs : FlagSet) (name : Str) : Int := match fs.get name with
  | some (.int n) => n
  | _ => 0

/-- `*flag` for a flag with a text (cmd/stayrtr/stayrtr.go:748). -/
def FlagSet.str (fs : FlagSet) (name : Str) : Str := match fs.get name with
  | some (.str s) => s
  | _ => []

/-- The flags that the server is built from, cmd/stayrtr/stayrtr.go:55-62, 90, 755-768. -/
def FlagSet.server (fs : FlagSet) : Flags where
  protocol := fs.int "protocol".toList
  refresh := fs.int "rtr.refresh".toList
  retry := fs.int "rtr.retry".toList
  expire := fs.int "rtr.expire".toList
  enforceVersion := fs.bool "enforce.version".toList
  disableBGPSec := fs.bool "disable.bgpsec".toList
  enableNODELAY := fs.bool "enable.nodelay".toList
  maxConn := fs.int "maxconn".toList

/-- The flags that rtrdump reads, cmd/rtrdump/rtrdump.go:36-39, 42-44, 151-157, 171-173, 179, 187. -/
def FlagSet.dump (fs : FlagSet) : DumpFlags where
  version := fs.int "rtr.version".toList
  initSerial := fs.bool "serial".toList
  serial := fs.int "serial.value".toList
  session := fs.int "session.id".toList
  validateCert := fs.bool "tls.validate".toList
  validateSSH := fs.bool "ssh.validate".toList
  serverKey := fs.str "ssh.validate.key".toList

/-- rtrdump from its command line on: `none` if it ends at once, cmd/rtrdump/rtrdump.go:140-248. -/
def dumpProgram (frac : Nat → Nat → Nat → Nat) (args : List Str) (input : Bytes) : Option (DumpResult × List Pdu) :=
  match launch frac rtrdumpFlags args with
  | .exits _ => none
  | .runs fs => some (dumpMain fs.dump input)

/-- The levels of logrus, `log.SetLevel` (cmd/stayrtr/stayrtr.go:748-749). -/
inductive LogLevel where
  | panic | fatal | error | warn | info | debug | trace
  deriving DecidableEq, Repr

/-- `strings.ToLower` of a character, as far as it can make one that is in the name of a level (cmd/stayrtr/stayrtr.go:748): letters of ASCII, and U+0130. -/
def toLowerChar (c : Char) : Char := if c = 'İ' then 'i' else lowerChar c

/-- `lvl, _ := log.ParseLevel(..)`, cmd/stayrtr/stayrtr.go:748, cmd/rtrmon/rtrmon.go:925, cmd/rtrdump/rtrdump.go:159: for other names an error, which is ignored, and level 0. -/
def parseLevel (s : Str) : LogLevel :=
  let l := s.map toLowerChar
  if l = "panic".toList then .panic
  else if l = "fatal".toList then .fatal
  else if l = "error".toList then .error
  else if l = "warn".toList ∨ l = "warning".toList then .warn
  else if l = "info".toList then .info
  else if l = "debug".toList then .debug
  else if l = "trace".toList then .trace
  else .panic

end StayRTR
