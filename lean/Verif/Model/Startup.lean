import Verif.Model.Accept
import Verif.Model.Loop
import Verif.Model.Json

/-!
# The start of the program

`run`, cmd/stayrtr/stayrtr.go:737-977, up to the update loop, with the goroutines it starts: the HTTP server (172-175) and one listener for each transport (862-884, 966-971). What the two fetches of the first load
do is in `Model/Update.lean`; here the load is one step, which need not come (C84). The HTTP server of rtrmon registers its paths in the same way (cmd/rtrmon/rtrmon.go:1005-1011).

Simplifications: the paths of the HTTP server have no wildcards (braces), methods (blanks) or escapes (percent signs), which are in `Model/ServeMux.lean`; whether an address can be listened on depends on the addresses already taken, by the function `listenOk`.
-/

namespace StayRTR

/-! ## `http.ServeMux` -/

/-- What is registered: `s.exporter`, `s.updateNow`, `promhttp.Handler()` (cmd/stayrtr/stayrtr.go:173, 800, 803), `ServeDiff` and `ServeIndex` (cmd/rtrmon/rtrmon.go:1006, 1008). -/
inductive HttpHandler where
  | exporter
  | updateNow
  | metrics
  | diff
  | index
  deriving DecidableEq, Repr

/-- `http.DefaultServeMux`: the patterns in the order of their registration (cmd/stayrtr/stayrtr.go:173, 800, 803). -/
abbrev Mux := List (Str × HttpHandler)

/-- The host of a pattern: what comes before the first slash (`parsePattern` of net/http; cmd/stayrtr/stayrtr.go:800). -/
def patternHost (p : Str) : Str := p.takeWhile (· ≠ '/')

/-- The path of a pattern (`parsePattern` of net/http; cmd/stayrtr/stayrtr.go:800). -/
def patternPath (p : Str) : Str := p.dropWhile (· ≠ '/')

/-- `http.Handle`, `http.HandleFunc` (cmd/stayrtr/stayrtr.go:173, 800, 803): a panic if there is no slash, or if the pattern conflicts with another, which without wildcards means that they are equal. -/
def Mux.handle (m : Mux) (p : Str) (h : HttpHandler) : GoRes Mux :=
  if patternPath p = [] then .panic
  else if m.any (fun x => x.1 == p) then .panic
  else .ok (m ++ [(p, h)])

/-- Whether a path of a request matches the path of a pattern: exactly, or below a pattern that ends with a slash (`match` of net/http; cmd/stayrtr/stayrtr.go:174). -/
def pathMatches (pattern path : Str) : Bool := pattern == path || (pattern.getLast? == some '/' && pattern.isPrefixOf path)

/-- The longest of the patterns that match (`match` of net/http; cmd/stayrtr/stayrtr.go:174). -/
def Mux.best (m : Mux) (path : Str) : Option HttpHandler :=
  (m.foldl (fun (b : Option (Nat × HttpHandler)) x =>
    if pathMatches (patternPath x.1) path then
      match b with
      | some (n, h) => if n < (patternPath x.1).length then some ((patternPath x.1).length, x.2) else some (n, h)
      | none => some ((patternPath x.1).length, x.2)
    else b) none).map (·.2)

/-- Which handler answers a request with a clean path: patterns with the host first (`match` of net/http; cmd/stayrtr/stayrtr.go:174); `none`: a redirection or "not found". -/
def Mux.serve (m : Mux) (host path : Str) : Option HttpHandler :=
  match Mux.best (m.filter fun x => patternHost x.1 ≠ [] ∧ patternHost x.1 = host) path with
  | some h => some h
  | none => Mux.best (m.filter fun x => patternHost x.1 = []) path

/-- The goroutine of rtrmon's HTTP server up to `ListenAndServe`, cmd/rtrmon/rtrmon.go:1005-1008. -/
def monMux (outFile metricsPath : Str) : GoRes Mux :=
  (Mux.handle [] ('/' :: outFile) .diff).bind fun m => (m.handle metricsPath .metrics).bind fun m => m.handle ['/'] .index

/-! ## `run` -/

/-- The flags that decide how the program starts, cmd/stayrtr/stayrtr.go:50-104, 740. -/
structure StartFlags where
  /-- arguments that are no flags, 740 -/
  args : Bool
  version : Bool
  metricsAddr : Str
  metricsPath : Str
  exportPath : Str
  updateEndpoint : Bool
  bind : Str
  bindTLS : Str
  bindSSH : Str
  enableKey : Bool
  keysFile : Str
  interval : BitVec 64
  deriving DecidableEq, Repr

/-- What the program finds: whether an address can be listened on when others are taken, whether the certificate with its key loads (cmd/stayrtr/stayrtr.go:874), the host key can be read (887) and
parsed (891), the list of keys can be read (923). -/
structure StartWorld where
  listenOk : List Str → Str → Bool
  certificate : Bool
  hostKeyRead : Bool
  hostKeyParsed : Bool
  keysRead : Bool

/-- Where the main goroutine is, cmd/stayrtr/stayrtr.go:737-977. -/
inductive RunAt where
  /-- 738-747 -/
  | flags
  /-- 771-806 -/
  | http
  /-- 808-810 -/
  | binds
  /-- 812-859 -/
  | loading
  /-- 861-871 -/
  | plain
  /-- 872-885 -/
  | tls
  /-- 886-972 -/
  | ssh
  /-- 974 -/
  | routine
  /-- in the loop of `routineUpdate`, 545-628 -/
  | loop
  deriving DecidableEq, Repr

/-- Where a goroutine with a listener is (cmd/stayrtr/stayrtr.go:867, 880, 967). -/
inductive ListenAt where
  | off
  | starting
  | listening
  deriving DecidableEq, Repr

/-- Where the goroutine `serveHTTP` is, cmd/stayrtr/stayrtr.go:172-175. -/
inductive HttpAt where
  | off
  | registering
  | binding
  | serving
  deriving DecidableEq, Repr

/-- How the program ends: `os.Exit` (cmd/stayrtr/stayrtr.go:742, 746), `log.Fatal` (809, 869, 876, 882, 889, 893, 925, 969), a panic (`http.Handle`, 173, 800, 803; `time.NewTicker`, 543). -/
inductive Ending where
  | exit (code : Nat)
  | fatal
  | panic
  deriving DecidableEq, Repr

/-- The program while it starts (cmd/stayrtr/stayrtr.go:737-977). -/
structure Prog where
  pos : RunAt
  mux : Mux
  http : HttpAt
  listener : Transport → ListenAt
  taken : List Str
  /-- the first load is over, 859 -/
  loaded : Bool
  ended : Option Ending

namespace Prog

/-- The start, cmd/stayrtr/stayrtr.go:731. -/
def init : Prog := ⟨.flags, [], .off, fun _ => .off, [], false, none⟩

/-- A goroutine with a listener is where it is (cmd/stayrtr/stayrtr.go:867, 880, 967). -/
def setListener (p : Prog) (t : Transport) (l : ListenAt) : Prog := { p with listener := fun t' => if t' = t then l else p.listener t' }

/-- The address for a transport, cmd/stayrtr/stayrtr.go:867, 880, 967. -/
def address (f : StartFlags) : Transport → Str
  | .tcp => f.bind
  | .tls => f.bindTLS
  | .ssh => f.bindSSH

/-- The paths of the HTTP server that `run` registers, cmd/stayrtr/stayrtr.go:799-804. -/
def runPaths (f : StartFlags) : GoRes Mux :=
  (if f.exportPath ≠ [] then Mux.handle [] f.exportPath .exporter else .ok []).bind fun m =>
    if f.updateEndpoint then m.handle "/api/update".toList .updateNow else .ok m

/-- The next step of the main goroutine; `none`: it is in the loop, or the program has ended (cmd/stayrtr/stayrtr.go:737-977). -/
def mainStep (f : StartFlags) (w : StartWorld) (p : Prog) : Option Prog :=
  if p.ended.isSome then none
  else match p.pos with
    | .flags => some (if f.args then { p with ended := some (.exit 2) } else if f.version then { p with ended := some (.exit 0) } else { p with pos := .http })
    | .http => some <|
      if f.metricsAddr = [] then { p with pos := .binds }
      else match runPaths f with
        | .ok m => { p with pos := .binds, mux := m, http := .registering }
        | _ => { p with ended := some .panic }
    | .binds => some (if f.bind = [] ∧ f.bindTLS = [] ∧ f.bindSSH = [] then { p with ended := some .fatal } else { p with pos := .loading })
    | .loading => some { p with pos := .plain, loaded := true }
    | .plain => some (if f.bind ≠ [] then { p.setListener .tcp .starting with pos := .tls } else { p with pos := .tls })
    | .tls => some <|
      if f.bindTLS ≠ [] then
        if w.certificate then { p.setListener .tls .starting with pos := .ssh } else { p with ended := some .fatal }
      else { p with pos := .ssh }
    | .ssh => some <|
      if f.bindSSH ≠ [] then
        if w.hostKeyRead ∧ w.hostKeyParsed ∧ (f.enableKey = true → f.keysFile ≠ [] → w.keysRead = true) then { p.setListener .ssh .starting with pos := .routine } else { p with ended := some .fatal }
      else { p with pos := .routine }
    | .routine => some <|
      match newTicker f.interval with
      | .ok _ => { p with pos := .loop }
      | _ => { p with ended := some .panic }
    | .loop => none

/-- The next step of `serveHTTP`, cmd/stayrtr/stayrtr.go:172-175. -/
def httpStep (f : StartFlags) (w : StartWorld) (p : Prog) : Option Prog :=
  if p.ended.isSome then none
  else match p.http with
    | .registering => some <|
      match p.mux.handle f.metricsPath .metrics with
      | .ok m => { p with mux := m, http := .binding }
      | _ => { p with ended := some .panic }
    | .binding => some (if w.listenOk p.taken f.metricsAddr then { p with http := .serving, taken := p.taken ++ [f.metricsAddr] } else { p with ended := some .fatal })
    | _ => none

/-- The next step of the goroutine of a listener, cmd/stayrtr/stayrtr.go:867-870, 880-883, 967-970; lib/server.go:482-487, 607-621. -/
def listenStep (f : StartFlags) (w : StartWorld) (t : Transport) (p : Prog) : Option Prog :=
  if p.ended.isSome then none
  else match p.listener t with
    | .starting => some <|
      if w.listenOk p.taken (address f t) then { p.setListener t .listening with taken := p.taken ++ [address f t] } else { p with ended := some .fatal }
    | _ => none

/-- A step of one of the goroutines (cmd/stayrtr/stayrtr.go:172-175, 737-977). -/
inductive Step (f : StartFlags) (w : StartWorld) : Prog → Prog → Prop
  | main {p q : Prog} (h : p.mainStep f w = some q) : Step f w p q
  | http {p q : Prog} (h : p.httpStep f w = some q) : Step f w p q
  | listen {p q : Prog} (t : Transport) (h : p.listenStep f w t = some q) : Step f w p q

/-- A run of `n` steps (cmd/stayrtr/stayrtr.go:737-977). -/
inductive Runs (f : StartFlags) (w : StartWorld) : Nat → Prog → Prog → Prop
  | nil (p : Prog) : Runs f w 0 p p
  | snoc {n : Nat} {p q r : Prog} (h : Runs f w n p q) (hs : Step f w q r) : Runs f w (n + 1) p r

/-- Routers can connect (cmd/stayrtr/stayrtr.go:867, 880, 967). -/
def serves (p : Prog) (t : Transport) : Prop := p.ended = none ∧ p.listener t = .listening

end Prog

/-! ## `/api/update` -/

/-- `TriggerUpdate`, cmd/stayrtr/stayrtr.go:656-665. -/
def Loop.triggerUpdate (l : Loop) : Loop × Bool := if l.pending then (l, false) else ({ l with pending := true }, true)

/-- `updateNow`, cmd/stayrtr/stayrtr.go:639-654: the status and the body; the names of a map are written in order. -/
def Loop.updateNow (l : Loop) : Loop × Nat × Bytes :=
  let (l', ok) := l.triggerUpdate
  if ok then (l', 200, encodeFile (.obj [("message".toList, .str "Update triggered successfully".toList), ("status".toList, .str "success".toList)]))
  else (l', 500, encodeFile (.obj [("message".toList, .str (["Update not triggered. ", "Queue is full or not ready"].flatMap String.toList)), ("status".toList, .str "error".toList)]))

end StayRTR
