import Verif.Model.Update
import Verif.Model.Metrics
import Verif.Model.Mon
import Verif.Model.JsonText

/-!
# Registering and recording metrics

The declarations of the metrics (cmd/stayrtr/stayrtr.go:99-153, cmd/rtrmon/rtrmon.go:94-142), their registration (161-170 and 154-160) and every place where one is recorded. `MustRegister`, `WithLabelValues` and `With` of client_golang
end the program with a panic: at names that are not allowed or are there already, at a wrong number of values or wrong names of labels, and at values that are not UTF-8. File names and addresses are bytes here: they come from the
command line and the system.
-/

namespace StayRTR

/-- `GaugeOpts.Name` and the names of the labels (cmd/stayrtr/stayrtr.go:99-153). -/
structure MetricDesc where
  name : Str
  labels : List Str
  deriving DecidableEq, Repr

/-- cmd/stayrtr/stayrtr.go:99-105 -/
def numberOfVRPs : MetricDesc := ⟨"rpki_vrps".toList, ["ip_version".toList, "filtered".toList, "path".toList]⟩
/-- cmd/stayrtr/stayrtr.go:106-112 -/
def numberOfObjects : MetricDesc := ⟨"rpki_objects".toList, ["type".toList]⟩
/-- cmd/stayrtr/stayrtr.go:113-119 -/
def lastRefreshMetric : MetricDesc := ⟨"rpki_refresh".toList, ["path".toList]⟩
/-- cmd/stayrtr/stayrtr.go:120-126 -/
def lastChangeMetric : MetricDesc := ⟨"rpki_change".toList, ["path".toList]⟩
/-- cmd/stayrtr/stayrtr.go:127-133 -/
def refreshStatusCode : MetricDesc := ⟨"refresh_requests_total".toList, ["path".toList, "code".toList]⟩
/-- cmd/stayrtr/stayrtr.go:134-140 -/
def clientsMetric : MetricDesc := ⟨"rtr_clients".toList, ["bind".toList]⟩
/-- cmd/stayrtr/stayrtr.go:141-147 -/
def pdusRecv : MetricDesc := ⟨"rtr_pdus".toList, ["type".toList]⟩
/-- cmd/stayrtr/stayrtr.go:148-153 -/
def currentSerialMetric : MetricDesc := ⟨"rtr_serial".toList, []⟩

/-- `initMetrics`, cmd/stayrtr/stayrtr.go:161-170, in this order. -/
def stayrtrMetrics : List MetricDesc :=
  [numberOfObjects, numberOfVRPs, lastChangeMetric, lastRefreshMetric, refreshStatusCode, clientsMetric, pdusRecv, currentSerialMetric]

/-- cmd/rtrmon/rtrmon.go:94-100 -/
def vrpCount : MetricDesc := ⟨"rpki_vrps".toList, ["server".toList, "url".toList, "type".toList]⟩
/-- cmd/rtrmon/rtrmon.go:101-107 -/
def vrpDifferenceForDuration : MetricDesc := ⟨"vrp_diff".toList, ["lhs_url".toList, "rhs_url".toList, "visibility_seconds".toList]⟩
/-- cmd/rtrmon/rtrmon.go:108-114 -/
def vrpInGracePeriod : MetricDesc := ⟨"rpki_grace_period_vrps".toList, ["url".toList]⟩
/-- cmd/rtrmon/rtrmon.go:115-121 -/
def rtrStateMetric : MetricDesc := ⟨"rtr_state".toList, ["server".toList, "url".toList]⟩
/-- cmd/rtrmon/rtrmon.go:122-128 -/
def rtrSerialMetric : MetricDesc := ⟨"rtr_serial".toList, ["server".toList, "url".toList]⟩
/-- cmd/rtrmon/rtrmon.go:129-135 -/
def rtrSessionMetric : MetricDesc := ⟨"rtr_session".toList, ["server".toList, "url".toList]⟩
/-- cmd/rtrmon/rtrmon.go:136-142 -/
def lastUpdateMetric : MetricDesc := ⟨"update".toList, ["server".toList, "url".toList]⟩

/-- `init`, cmd/rtrmon/rtrmon.go:153-160, in this order. -/
def rtrmonMetrics : List MetricDesc :=
  [vrpCount, vrpDifferenceForDuration, vrpInGracePeriod, rtrStateMetric, rtrSerialMetric, rtrSessionMetric, lastUpdateMetric]

/-- A letter or an underscore: how names of labels begin (`model.LabelName`, inside `MustRegister`, cmd/stayrtr/stayrtr.go:162). -/
def labelStart (c : Char) : Bool := ('a' ≤ c && c ≤ 'z') || ('A' ≤ c && c ≤ 'Z') || c == '_'

/-- `model.LabelName.IsValid` and the check for reserved names, inside `NewDesc` (cmd/stayrtr/stayrtr.go:104); in the strict form, `[a-zA-Z_][a-zA-Z0-9_]*`. -/
def validLabelName : Str → Bool
  | [] => false
  | c :: l => labelStart c && l.all (fun c => labelStart c || ('0' ≤ c && c ≤ '9')) && !(c == '_' && l.head? == some '_')

/-- `model.IsValidMetricName` inside `NewDesc` (cmd/stayrtr/stayrtr.go:101), in the strict form, `[a-zA-Z_:][a-zA-Z0-9_:]*`. -/
def validMetricName : Str → Bool
  | [] => false
  | c :: l => (labelStart c || c == ':') && l.all (fun c => labelStart c || c == ':' || ('0' ≤ c && c ≤ '9'))

/-- `MustRegister` of one metric (cmd/stayrtr/stayrtr.go:162, cmd/rtrmon/rtrmon.go:154): a panic if a name is not allowed, a label is there twice or the name is registered already. -/
def mustRegister (reg : List MetricDesc) (d : MetricDesc) : GoRes (List MetricDesc) :=
  if validMetricName d.name && d.labels.all validLabelName && decide d.labels.Nodup && !(reg.map MetricDesc.name).contains d.name then .ok (reg ++ [d]) else .panic

/-- `MustRegister` of several, one after the other (cmd/stayrtr/stayrtr.go:161-170, cmd/rtrmon/rtrmon.go:153-160). -/
def mustRegisterAll (reg : List MetricDesc) : List MetricDesc → GoRes (List MetricDesc)
  | [] => .ok reg
  | d :: l => do mustRegisterAll (← mustRegister reg d) l

/-- `utf8.ValidString`, inside `WithLabelValues` and `With` (cmd/stayrtr/stayrtr.go:470). `skip` counts the bytes that belong to the character before. -/
def validUtf8 : Nat → Bytes → Bool
  | _, [] => true
  | skip + 1, _ :: l => validUtf8 skip l
  | 0, b :: l => decide (decodeRune b l ≠ (runeError, 0)) && validUtf8 (decodeRune b l).2 l

/-- A series: the metric and its labels with their values (cmd/stayrtr/stayrtr.go:713). -/
structure Labelled where
  name : Str
  labels : List (Str × Bytes)
  deriving DecidableEq, Repr

/-- `WithLabelValues` (cmd/stayrtr/stayrtr.go:470-721): the values in the order of the labels. -/
def MetricDesc.withLabelValues (d : MetricDesc) (vals : List Bytes) : GoRes Labelled :=
  if vals.length = d.labels.length ∧ vals.all (validUtf8 0) then .ok ⟨d.name, d.labels.zip vals⟩ else .panic

/-- `With` (cmd/rtrmon/rtrmon.go:350-879): the values by the names of the labels, in a map; a missing entry is a panic, too. -/
def MetricDesc.withLabels (d : MetricDesc) (m : List (Str × Bytes)) : GoRes Labelled :=
  if m.length = d.labels.length ∧ m.all (fun x => validUtf8 0 x.2) ∧ d.labels.all (fun n => (m.lookup n).isSome) then .ok ⟨d.name, d.labels.map fun n => (n, (m.lookup n).getD [])⟩ else .panic

/-- One call after the other, up to the first panic (cmd/stayrtr/stayrtr.go:713-721). -/
def recordAll : List (GoRes Labelled) → GoRes (List Labelled)
  | [] => .ok []
  | c :: l => do
    let x ← c
    let xs ← recordAll l
    return x :: xs

/-! ## stayrtr -/

/-- `UpdateMetrics`, cmd/stayrtr/stayrtr.go:712-722. -/
def updateMetricsCalls (file : Bytes) : List (GoRes Labelled) :=
  [numberOfObjects.withLabelValues [utf8Str "bgpsec_pubkeys".toList], numberOfObjects.withLabelValues [utf8Str "vrps".toList], numberOfObjects.withLabelValues [utf8Str "effective_vrps".toList],
   numberOfVRPs.withLabelValues [utf8Str "ipv4".toList, utf8Str "filtered".toList, file], numberOfVRPs.withLabelValues [utf8Str "ipv4".toList, utf8Str "unfiltered".toList, file],
   numberOfVRPs.withLabelValues [utf8Str "ipv6".toList, utf8Str "filtered".toList, file], numberOfVRPs.withLabelValues [utf8Str "ipv6".toList, utf8Str "unfiltered".toList, file],
   lastChangeMetric.withLabelValues [file]]

/-- `HandlePDU` of `metricsEvent`, cmd/stayrtr/stayrtr.go:702-710. -/
def handlePduCall (t : U8) : GoRes Labelled := pdusRecv.withLabelValues [utf8Str (pduLabel t)]

/-- `ClientConnected` and `ClientDisconnected` of `metricsEvent`, cmd/stayrtr/stayrtr.go:694-700, with the text of the local address. -/
def clientCall (addr : Bytes) : GoRes Labelled := clientsMetric.withLabelValues [addr]

/-- The metrics of a fetch without error, cmd/stayrtr/stayrtr.go:469-474, 504-509. -/
def fetchCalls (file : Bytes) (r : FetchResult) : List (GoRes Labelled) :=
  match r.err with
  | some _ => []
  | none => (if r.lastRefresh then [lastRefreshMetric.withLabelValues [file]] else []) ++
      if r.code ≠ -1 then [refreshStatusCode.withLabelValues [file, utf8Str (intStr r.code)]] else []

/-- The two fetches of one refresh (`fetchBoth`) with what they record, cmd/stayrtr/stayrtr.go:564-605. The names of the files are given as bytes besides. -/
def fetchBothM (e : Env) (cache slurm : Bytes) (t : Times) (f : Fetched) (s : UState) : GoRes (UState × Bool) := do
  let s1 := match f.slurm with
    | some (file, o) => (updateSlurm e file o s).1
    | none => s
  let _ ← match f.slurm with
    | some (file, o) => recordAll (fetchCalls slurm (s.fetch.fetchFile file o).2)
    | none => .ok []
  let _ ← recordAll (fetchCalls cache (s1.fetch.fetchFile f.file f.cache).2)
  return fetchBoth e t f s

/-- `applyUpdateFromNewState` with what it records, cmd/stayrtr/stayrtr.go:410-459. -/
def applyUpdateM (e : Env) (cache : Bytes) (r : Processed) (vrpsjson : List VRPJson) (brksjson : List BgpSecKeyJson) (s : UState) : GoRes UState := do
  let _ ← if (s.store.addData r.sds).2 && e.metrics then recordAll (updateMetricsCalls cache) else .ok []
  return applyUpdate e r vrpsjson brksjson s

/-- `updateFromNewState` with what it records, cmd/stayrtr/stayrtr.go:335-369. -/
def updateFromNewStateM (e : Env) (cache : Bytes) (check proc : Int) (s : UState) : GoRes (UState × AgeCheck) :=
  match s.lastdata.roas with
  | none => .ok (s, .fine)
  | some vrps =>
    match ageCheck e check s.lastdata.metadata with
    | .fine => do
      let x := applySlurm e s.slurm vrps s.lastdata.keys
      return (← applyUpdateM e cache (processData e.wide e.sort (unix proc) x.1 x.2) x.1 x.2 s, .fine)
    | bad => .ok (s, bad)

/-- `reloadFromCurrentState` with what it records, cmd/stayrtr/stayrtr.go:372-408. -/
def reloadFromCurrentStateM (e : Env) (cache : Bytes) (check proc : Int) (s : UState) : GoRes (UState × AgeCheck) :=
  match s.lastdata.roas with
  | none => .ok (s, .fine)
  | some vrps =>
    match ageCheck e check s.lastdata.metadata with
    | .fine =>
      let x := applySlurm e s.slurm vrps s.lastdata.keys
      let r := processData e.wide e.sort (unix proc) x.1 x.2
      if s.store.countSDs ≠ r.vrps.length + r.brks.length then do return (← applyUpdateM e cache r x.1 x.2 s, .fine) else .ok (s, .fine)
    | bad => .ok (s, bad)

/-- `afterFetch` with what it records, cmd/stayrtr/stayrtr.go:607-627. -/
def afterFetchM (e : Env) (cache : Bytes) (t : Times) (fresh : Bool) (s : UState) : GoRes UState :=
  if fresh then do
    let x ← updateFromNewStateM e cache t.check t.proc s
    return match x.2 with
      | .tooOld =>
        match exportedBuildTime e x.1 with
        | some b => if t.drop - b > day then { x.1 with store := (x.1.store.addData []).1 } else x.1
        | none => x.1
      | _ => x.1
  else do return (← reloadFromCurrentStateM e cache t.check t.proc s).1

/-- One pass of the loop of `routineUpdate` with what it records, cmd/stayrtr/stayrtr.go:564-627. -/
def refreshM (e : Env) (cache slurm : Bytes) (t : Times) (f : Fetched) (s : UState) : GoRes UState := do
  let x ← fetchBothM e cache slurm t f s
  afterFetchM e cache t x.2 x.1

/-- The start of the program with what it records, cmd/stayrtr/stayrtr.go:812-859. -/
def startupM (e : Env) (cache slurm : Bytes) (t : Times) (f : Fetched) (s : UState) : GoRes UState := do
  let x ← fetchBothM e cache slurm t f s
  return (← updateFromNewStateM e cache t.check t.proc x.1).1

/-! ## rtrmon -/

/-- `idToInfo`, cmd/rtrmon/rtrmon.go:144-148: 1 and 2 are the sources. -/
def idToInfo (id : Int) : Str := if id = 0 then "unknown".toList else if id = 1 then "primary".toList else if id = 2 then "secondary".toList else []

/-- cmd/rtrmon/rtrmon.go:350 -/
def graceCall (path : Bytes) : GoRes Labelled := vrpInGracePeriod.withLabels [("url".toList, path)]

/-- cmd/rtrmon/rtrmon.go:573-577, 588-592 -/
def stateCall (id : Int) (path : Bytes) : GoRes Labelled := rtrStateMetric.withLabels [("server".toList, utf8Str (idToInfo id)), ("url".toList, path)]

/-- The labels of a source, cmd/rtrmon/rtrmon.go:838-841. -/
def sourceLabels (server : Str) (url : Bytes) : List (Str × Bytes) := [("server".toList, utf8Str server), ("url".toList, url)]

/-- What one comparison records, cmd/rtrmon/rtrmon.go:788-879; `shown` are the thresholds within the time that the program runs. -/
def compareCalls (id : Int) (url1 url2 : Bytes) (shown : List Int) : List (GoRes Labelled) :=
  [vrpCount.withLabels (sourceLabels "primary".toList url1 ++ [("type".toList, utf8Str "total".toList)]), vrpCount.withLabels (sourceLabels "primary".toList url1 ++ [("type".toList, utf8Str "diff".toList)]),
   vrpCount.withLabels (sourceLabels "secondary".toList url2 ++ [("type".toList, utf8Str "total".toList)]), vrpCount.withLabels (sourceLabels "secondary".toList url2 ++ [("type".toList, utf8Str "diff".toList)])] ++
  (shown.flatMap fun v =>
    [vrpDifferenceForDuration.withLabels [("lhs_url".toList, url1), ("rhs_url".toList, url2), ("visibility_seconds".toList, utf8Str (intStr v))],
     vrpDifferenceForDuration.withLabels [("lhs_url".toList, url2), ("rhs_url".toList, url1), ("visibility_seconds".toList, utf8Str (intStr v))]]) ++
  [rtrSerialMetric.withLabels (sourceLabels "primary".toList url1), rtrSerialMetric.withLabels (sourceLabels "secondary".toList url2),
   rtrSessionMetric.withLabels (sourceLabels "primary".toList url1), rtrSessionMetric.withLabels (sourceLabels "secondary".toList url2)] ++
  if id = 1 then [lastUpdateMetric.withLabels (sourceLabels "primary".toList url1)]
  else if id = 2 then [lastUpdateMetric.withLabels (sourceLabels "secondary".toList url2)] else []

end StayRTR
