import Verif.Model.MonSys
import Verif.Model.MonGo

/-!
# The metrics of rtrmon

cmd/rtrmon/rtrmon.go:92-141: gauges with labels. A series is a name with the values of its labels; series that are equal are one and the same, whoever writes them. Values are integers here: counts, serials (32 bits) and times
in seconds are below 2^53 and so exact as `float64`.
-/

namespace StayRTR

/-- A series: the gauge and the values of its labels, cmd/rtrmon/rtrmon.go:92-141. -/
inductive MonSeries where
  /-- `rpki_vrps`, lines 92-98 -/
  | vrps (server url type : Str)
  /-- `vrp_diff`, lines 99-105 -/
  | vrpDiff (lhs rhs seconds : Str)
  /-- `rpki_grace_period_vrps`, lines 106-112 -/
  | grace (url : Str)
  /-- `rtr_state`, lines 113-119 -/
  | rtrState (server url : Str)
  /-- `rtr_serial`, lines 120-126 -/
  | rtrSerial (server url : Str)
  /-- `rtr_session`, lines 127-133 -/
  | rtrSession (server url : Str)
  /-- `update`, lines 134-140 -/
  | update (server url : Str)
  deriving DecidableEq, Repr

/-- What is exported: the series that exist, with their values (cmd/rtrmon/rtrmon.go:92-141, 1007). -/
abbrev MonGauges := MonSeries → Option Int

/-- No series exists before it is first set (cmd/rtrmon/rtrmon.go:153-163). -/
def MonGauges.init : MonGauges := fun _ => none

/-- `With(labels).Set(value)` (cmd/rtrmon/rtrmon.go:350, 573, 791). -/
def MonGauges.set (g : MonGauges) (s : MonSeries) (v : Int) : MonGauges := fun s' => if s' = s then some v else g s'

/-- `idToInfo` of the two sources, cmd/rtrmon/rtrmon.go:144-148, with the names of lines 793-872. -/
def serverName (id : Bool) : Str := if id then "secondary".toList else "primary".toList

/-- What a comparison sets, in order, cmd/rtrmon/rtrmon.go:791-876; `id` is the source that started it. -/
def compareWrites (id : Bool) (r : RefReport) : List (MonSeries × Int) :=
  [(MonSeries.vrps (serverName false) r.md1.url "total".toList, (r.total1 : Int)), (.vrps (serverName false) r.md1.url "diff".toList, (r.diff1 : Int)),
   (.vrps (serverName true) r.md2.url "total".toList, (r.total2 : Int)), (.vrps (serverName true) r.md2.url "diff".toList, (r.diff2 : Int))] ++
  (r.unmatched.flatMap fun u => [(MonSeries.vrpDiff r.md1.url r.md2.url (intStr u.1), (u.2.1 : Int)), (.vrpDiff r.md2.url r.md1.url (intStr u.1), (u.2.2 : Int))]) ++
  [(MonSeries.rtrSerial (serverName false) r.md1.url, (r.md1.serial.toNat : Int)), (.rtrSerial (serverName true) r.md2.url, (r.md2.serial.toNat : Int)),
   (.rtrSession (serverName false) r.md1.url, (r.md1.sessionID.toNat : Int)), (.rtrSession (serverName true) r.md2.url, (r.md2.sessionID.toNat : Int)),
   (if id then (.update (serverName true) r.md2.url, r.md2.lastFetch) else (.update (serverName false) r.md1.url, r.md1.lastFetch))]

/-- The gauges after the settings of a list (cmd/rtrmon/rtrmon.go:791-876). -/
def MonGauges.setAll (g : MonGauges) (l : List (MonSeries × Int)) : MonGauges := l.foldl (fun g x => g.set x.1 x.2) g

/-- What a step of the sources and the comparator does to the gauges: only the publishing of a comparison sets any (cmd/rtrmon/rtrmon.go:781-877). -/
def MonGauges.after (g : MonGauges) (s s' : MonSys) : MonGauges :=
  match s.comp, s'.comp, s'.published with
  | .diff2 id .., .waiting, some r => g.setAll (compareWrites id r)
  | _, _, _ => g

/-- A run of the sources and the comparator with the gauges (cmd/rtrmon/rtrmon.go:763-912). -/
inductive MonSys.GaugeReach (work : Work) (startedAt : Int) (thresholds : List Int) (path : Bool → Str) : MonSys → MonGauges → Prop
  | start : GaugeReach work startedAt thresholds path (MonSys.start path) .init
  | step {s s' : MonSys} {g : MonGauges} (h : GaugeReach work startedAt thresholds path s g) (hs : MonSys.Step work startedAt thresholds s s') :
      GaugeReach work startedAt thresholds path s' (g.after s s')

/-- A source with a file sets its count of the entries in the grace period, cmd/rtrmon/rtrmon.go:350. -/
def MonGauges.graceSet (g : MonGauges) (path : Str) (n : Nat) : MonGauges := g.set (.grace path) n

/-- What a move of the goroutines of an RTR source does to `rtr_state`: 1 at the end of `ClientConnected`, 0 at the end of `ClientDisconnected` (cmd/rtrmon/rtrmon.go:569-593). `none`: it does not exist yet. -/
def stateGauge (g : Option Int) (s s' : MonGo) : Option Int :=
  match s.main, s'.main with
  | .hello, .check => some 1
  | .disc .look _, .disc .quit _ => some 0
  | .disc .closing _, .disc .quit _ => some 0
  | _, _ => g

/-- A run of the goroutines of an RTR source with `rtr_state` (cmd/rtrmon/rtrmon.go:254-326, 569-593). -/
inductive MonGo.StateRuns (breakRTR : Bool) : MonGo → Option Int → Prop
  | start : StateRuns breakRTR MonGo.init none
  | step {s s' : MonGo} {g : Option Int} (h : StateRuns breakRTR s g) (m : GoMove) (e : s.exec breakRTR m = some s') : StateRuns breakRTR s' (stateGauge g s s')

end StayRTR
