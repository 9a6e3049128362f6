import Verif.Model.Process
import Verif.Model.Store
import Verif.Model.Fetch

/-!
# The refresh loop

`state` and `routineUpdate`, cmd/stayrtr/stayrtr.go:332-629, 667-689, 781-792. The clock, the decoders (see `Model/Json.lean`), SHA-256 and RFC 3339 are parameters. Times are nanoseconds since 1970.
The two fetches of one refresh run concurrently (lines 566-605) but touch different parts of the state, except for the maps of the fetcher (`Model/MapRace.lean`) and `lastts`,
which only labels metrics; here the SLURM file comes first.
-/

namespace StayRTR

/-- `MetaData`, prefixfile/prefixfile.go:17-24: the fields the program uses. -/
structure Metadata where
  counts : Int
  buildtime : Str
  generated : Option Int
  deriving DecidableEq, Repr

/-- `RPKIList`, prefixfile/prefixfile.go:11-15; `none` is a nil slice. -/
structure RPKIList where
  metadata : Metadata
  roas : Option (List VRPJson)
  keys : Option (List BgpSecKeyJson)
  deriving DecidableEq, Repr

/-- The empty list, cmd/stayrtr/stayrtr.go:783. -/
def RPKIList.empty : RPKIList := ⟨⟨0, [], none⟩, none, none⟩

/-- What the refresh loop gets from outside: conversions left to the machine (prefixfile/prefixfile.go:67), `sort.Slice` (cmd/stayrtr/stayrtr.go:269), `time.Parse(time.RFC3339, ..)`
(cmd/stayrtr/stayrtr.go:345), `newSHA256` (179), `decodeJSON` (184), `DecodeJSONSlurm` (prefixfile/slurm.go:82), and the flags `-checktime`, `-notifications`, whether metrics are on (770-776). -/
structure Env where
  wide : WideFloat
  sort : Sorter
  parseTime : Str → Option Int
  sha : Bytes → Bytes
  decode : Bytes → Option RPKIList
  decodeSlurm : Bytes → Option Slurm
  checktime : Bool
  sendNotifs : Bool
  metrics : Bool

/-- The gauges set by `UpdateMetrics`, cmd/stayrtr/stayrtr.go:712-722; `change` is `rpki_change`, in seconds. -/
structure Gauges where
  brks : Nat
  vrps : Nat
  effective : Nat
  v4filtered : Nat
  v4unfiltered : Nat
  v6filtered : Nat
  v6unfiltered : Nat
  change : Option Int
  deriving DecidableEq, Repr

/-- `state`, cmd/stayrtr/stayrtr.go:667-689, with the metrics it sets: `LastRefresh`, `RefreshStatusCode`, the gauges, `CurrentSerial`; and the serials announced by `NotifyClientsLatest`. -/
structure UState where
  lastdata : RPKIList
  hashCache : Option Bytes
  hashSlurm : Option Bytes
  lastchange : Option Int
  lastts : Int
  exported : RPKIList
  slurm : Option Slurm
  store : Store
  fetch : FetchConfig
  notified : List U32
  lastRefresh : Str → Option Int
  statusCodes : List (Str × Int)
  gauges : Option Gauges
  serialGauge : U32

/-- The initial state, cmd/stayrtr/stayrtr.go:781-796; the server keeps three diffs (757). -/
def UState.init (etags lastModified : Bool) : UState :=
  ⟨.empty, none, none, none, 0, .empty, none, Store.init 3, FetchConfig.new etags lastModified, [], fun _ => none, [], none, 0⟩

/-- Nanoseconds of a day (`time.Hour * 24`, cmd/stayrtr/stayrtr.go:353, 390, 616). -/
def day : Int := 86400 * 1000000000

/-- `Unix()` of a time, cmd/stayrtr/stayrtr.go:217: whole seconds. -/
def unix (t : Int) : Int := t / 1000000000

/-- The build time used for the check, cmd/stayrtr/stayrtr.go:345-348, 382-385. -/
def buildTime (e : Env) (m : Metadata) : Option Int :=
  match m.generated with
  | some g => some (g * 1000000000)
  | none => e.parseTime m.buildtime

/-- The three ways the check of the build time ends, cmd/stayrtr/stayrtr.go:349-358, 386-395. -/
inductive AgeCheck where
  | fine
  | unreadable
  | tooOld
  deriving DecidableEq, Repr

/-- The check of the build time, cmd/stayrtr/stayrtr.go:345-358, 382-395. -/
def ageCheck (e : Env) (now : Int) (m : Metadata) : AgeCheck :=
  if e.checktime then
    match buildTime e m with
    | none => .unreadable
    | some b => if now > b + day then .tooOld else .fine
  else .fine

/-- SLURM applied to the loaded file, cmd/stayrtr/stayrtr.go:340-343, 360-362 and 377-380, 397-399. -/
def applySlurm (e : Env) (slurm : Option Slurm) (vrps : List VRPJson) (keys : Option (List BgpSecKeyJson)) : List VRPJson × List BgpSecKeyJson :=
  let keys := keys.getD []
  match slurm with
  | some c => c.filterAssert e.wide vrps keys
  | none => (vrps, keys)

/-- `applyUpdateFromNewState`, cmd/stayrtr/stayrtr.go:410-459. -/
def applyUpdate (e : Env) (r : Processed) (vrpsjson : List VRPJson) (brksjson : List BgpSecKeyJson) (s : UState) : UState :=
  let (store, changed) := s.store.addData r.sds
  if changed = false then { s with store := store }
  else
    let serial := store.getCurrentSerial.1
    { s with
      store := store
      notified := if e.sendNotifs then s.notified ++ [serial] else s.notified
      serialGauge := serial
      exported := ⟨⟨vrpsjson.length, s.lastdata.metadata.buildtime, none⟩, some vrpsjson, some brksjson⟩
      gauges := if e.metrics then
          let v4 := (r.vrps.filter (fun v => v.pfx.ip.is4)).length
          let v6 := (r.vrps.filter (fun v => !v.pfx.ip.is4 && v.pfx.ip.is6)).length
          some ⟨r.brks.length, r.countv4 + r.countv6, v4 + v6, v4, r.countv4, v6, r.countv6, s.lastchange.map (· / 1000000000)⟩
        else s.gauges }

/-- `updateFromNewState`, cmd/stayrtr/stayrtr.go:335-369: the new state, and whether the error is "too old". `check` and `proc` are the times read at lines 354 and 217. -/
def updateFromNewState (e : Env) (check proc : Int) (s : UState) : UState × AgeCheck :=
  match s.lastdata.roas with
  | none => (s, .fine)
  | some vrps =>
    match ageCheck e check s.lastdata.metadata with
    | .fine =>
      let (vrpsjson, brksjson) := applySlurm e s.slurm vrps s.lastdata.keys
      let r := processData e.wide e.sort (unix proc) vrpsjson brksjson
      (applyUpdate e r vrpsjson brksjson s, .fine)
    | bad => (s, bad)

/-- `reloadFromCurrentState`, cmd/stayrtr/stayrtr.go:372-408: as `updateFromNewState`, but only if the number of records differs. -/
def reloadFromCurrentState (e : Env) (check proc : Int) (s : UState) : UState × AgeCheck :=
  match s.lastdata.roas with
  | none => (s, .fine)
  | some vrps =>
    match ageCheck e check s.lastdata.metadata with
    | .fine =>
      let (vrpsjson, brksjson) := applySlurm e s.slurm vrps s.lastdata.keys
      let r := processData e.wide e.sort (unix proc) vrpsjson brksjson
      let count := r.vrps.length + r.brks.length
      if s.store.countSDs ≠ count then (applyUpdate e r vrpsjson brksjson s, .fine) else (s, .fine)
    | bad => (s, bad)

/-- The part that `updateFile` and `updateSlurm` share, cmd/stayrtr/stayrtr.go:465-474, 500-509: fetch, and the metrics if there was no error. -/
def fetchStep (file : Str) (o : Outcome) (s : UState) : UState × Option Bytes :=
  let (cfg, r) := s.fetch.fetchFile file o
  let s := { s with fetch := cfg }
  match r.err with
  | some _ => (s, none)
  | none =>
    let s := if r.lastRefresh then { s with lastRefresh := fun f => if f = file then some (s.lastts / 1000000000) else s.lastRefresh f } else s
    let s := if r.code ≠ -1 then { s with statusCodes := s.statusCodes ++ [(file, r.code)] } else s
    (s, some r.data)

/-- `updateFile`, cmd/stayrtr/stayrtr.go:461-496; the hash is stored before decoding (485). `start` and `change` are the times read at lines 464 and 492. -/
def updateFile (e : Env) (start change : Int) (file : Str) (o : Outcome) (s : UState) : UState × Bool :=
  let (s, data) := fetchStep file o { s with lastts := start }
  match data with
  | none => (s, false)
  | some data =>
    if s.hashCache = some (e.sha data) then (s, false)
    else
      let s := { s with hashCache := some (e.sha data) }
      match e.decode data with
      | none => (s, false)
      | some l => ({ s with lastchange := some change, lastdata := l }, true)

/-- `updateSlurm`, cmd/stayrtr/stayrtr.go:498-529. -/
def updateSlurm (e : Env) (file : Str) (o : Outcome) (s : UState) : UState × Bool :=
  let (s, data) := fetchStep file o s
  match data with
  | none => (s, false)
  | some data =>
    if s.hashSlurm = some (e.sha data) then (s, false)
    else
      let s := { s with hashSlurm := some (e.sha data) }
      match e.decodeSlurm data with
      | none => (s, false)
      | some c => ({ s with slurm := some c }, true)

/-- The times read in one refresh (cmd/stayrtr/stayrtr.go:464, 492, 354 or 391, 217, 616). -/
structure Times where
  start : Int
  change : Int
  check : Int
  proc : Int
  drop : Int
  deriving DecidableEq, Repr

/-- The zero `time.Time`: the start of year 1 (`IsZero`, cmd/stayrtr/stayrtr.go:616). -/
def zeroTime : Int := -62135596800 * 1000000000

/-- The build time consulted before dropping everything, cmd/stayrtr/stayrtr.go:615-616 and prefixfile/prefixfile.go:47-53: only the text counts; `none` for the zero time, also given for text that does
not parse. -/
def exportedBuildTime (e : Env) (s : UState) : Option Int :=
  match e.parseTime s.exported.metadata.buildtime with
  | some b => if b = zeroTime then none else some b
  | none => none

/-- What one refresh fetches: the cache file, and the SLURM file if one is refreshed (cmd/stayrtr/stayrtr.go:571-573, 591). -/
structure Fetched where
  file : Str
  cache : Outcome
  slurm : Option (Str × Outcome)
  deriving DecidableEq, Repr

/-- The two fetches of one refresh, cmd/stayrtr/stayrtr.go:564-605: whether there is something new. -/
def fetchBoth (e : Env) (t : Times) (f : Fetched) (s : UState) : UState × Bool :=
  let (s, slurmUpdated) := match f.slurm with
    | some (file, o) => updateSlurm e file o s
    | none => (s, false)
  let (s, cacheUpdated) := updateFile e t.start t.change f.file f.cache s
  (s, cacheUpdated || slurmUpdated)

/-- What follows the fetches, cmd/stayrtr/stayrtr.go:607-627. Everything is dropped only if new data is too old and the exported build time is more than 24 hours ago. -/
def afterFetch (e : Env) (t : Times) (fresh : Bool) (s : UState) : UState :=
  if fresh then
    let (s, res) := updateFromNewState e t.check t.proc s
    match res with
    | .tooOld =>
      match exportedBuildTime e s with
      | some b => if t.drop - b > day then { s with store := (s.store.addData []).1 } else s
      | none => s
    | _ => s
  else (reloadFromCurrentState e t.check t.proc s).1

/-- One pass of the loop of `routineUpdate`, cmd/stayrtr/stayrtr.go:564-627. -/
def refresh (e : Env) (t : Times) (f : Fetched) (s : UState) : UState :=
  let (s, fresh) := fetchBoth e t f s
  afterFetch e t fresh s

/-- The start of the program, cmd/stayrtr/stayrtr.go:812-859: both fetches, then `updateFromNewState`, whose error is only logged. -/
def startup (e : Env) (t : Times) (f : Fetched) (s : UState) : UState :=
  let (s, _) := fetchBoth e t f s
  (updateFromNewState e t.check t.proc s).1

end StayRTR
