import Verif.Model.Update
import Verif.Model.Loop

/-!
# The times of the refreshes

`routineUpdate` with its `time.Ticker`, cmd/stayrtr/stayrtr.go:531-629: `Model/Loop.lean` says in what order refreshes, triggers and signals happen, here it is said when. Times are nanoseconds; the clock of the ticker and the one of
`time.Now` are the same here. A trigger or signal may wake the loop at any time.
-/

namespace StayRTR

/-- `time.Ticker` of Go 1.23 (cmd/stayrtr/stayrtr.go:543): the time between ticks, and when the next one is due. From then on it can be received; ticks nobody waits for are not kept beyond the first. -/
structure GoTicker where
  period : Int
  due : Int
  deriving DecidableEq, Repr

/-- `time.NewTicker`, cmd/stayrtr/stayrtr.go:543. -/
def GoTicker.new (d now : Int) : GoTicker := ⟨d, now + d⟩

/-- `Reset`, cmd/stayrtr/stayrtr.go:533, 535, 548, 552: a tick that was due is discarded. -/
def GoTicker.reset (_ : GoTicker) (d now : Int) : GoTicker := ⟨d, now + d⟩

/-- `<-delay.C` at a time, cmd/stayrtr/stayrtr.go:556: the next tick is the first one of the series that lies ahead (`t.when += t.period * (1 + delta/t.period)` of the runtime). -/
def GoTicker.receive (t : GoTicker) (now : Int) : GoTicker := ⟨t.period, t.due + t.period * (1 + (now - t.due) / t.period)⟩

/-- `30 * time.Second`, cmd/stayrtr/stayrtr.go:533, 548. -/
def initialDelay : Int := 30 * 1000000000

/-- `time.Duration(interval) * time.Second`, cmd/stayrtr/stayrtr.go:535, 543, 552. -/
def refreshDelay (interval : BitVec 64) : Int := (tickerDuration interval).toInt

/-- The variables of `routineUpdate`, cmd/stayrtr/stayrtr.go:539-544; `entered` and `ticks` record when it was called and how many refreshes its timer has started. -/
structure Routine where
  state : UState
  ticker : GoTicker
  /-- `initialSyncNotComplete` -/
  incomplete : Bool
  entered : Int
  ticks : Nat

namespace Routine

/-- From the top of the loop to the `select`, cmd/stayrtr/stayrtr.go:545-555. -/
def top (delay : Int) (now : Int) (r : Routine) : Routine :=
  if r.state.lastchange = none then { r with ticker := r.ticker.reset initialDelay now, incomplete := true }
  else if r.incomplete then { r with ticker := r.ticker.reset delay now }
  else r

/-- Before the loop, cmd/stayrtr/stayrtr.go:543-544. -/
def enter (delay : Int) (now : Int) (s : UState) : Routine := ⟨s, GoTicker.new delay now, false, now, 0⟩

/-- `updateDelay`, cmd/stayrtr/stayrtr.go:531-537. -/
def updateDelay (delay : Int) (now : Int) (r : Routine) : Routine :=
  if r.state.lastchange = none then { r with ticker := r.ticker.reset initialDelay now } else { r with ticker := r.ticker.reset delay now }

end Routine

/-- What ends the `select`, cmd/stayrtr/stayrtr.go:555-563. -/
inductive Wake where
  | tick
  /-- a signal or a trigger -/
  | asked
  deriving DecidableEq, Repr

/-- The `select` ends, cmd/stayrtr/stayrtr.go:555-563. -/
def Routine.wake (delay : Int) (now : Int) (r : Routine) : Wake → Routine
  | .tick => { r with ticker := r.ticker.receive now, ticks := r.ticks + 1 }
  | .asked => r.updateDelay delay now

/-- Where the loop is: in the `select` (cmd/stayrtr/stayrtr.go:555), or in a refresh (564-627). -/
inductive RoutineAt where
  | waiting
  | refreshing
  deriving DecidableEq, Repr

/-- The runs of the program, cmd/stayrtr/stayrtr.go:539-629, 812-859, with the time since when the loop is where it is; `delay` is `refreshDelay` of the flag. -/
inductive RoutineRun (e : Env) (delay : Int) : RoutineAt → Int → Routine → Prop
  /-- The first load, then the loop is entered. -/
  | enter (etags lastModified : Bool) (t : Times) (f : Fetched) (now : Int) :
      RoutineRun e delay .waiting now ((Routine.enter delay now (startup e t f (UState.init etags lastModified))).top delay now)
  /-- The `select` ends; a tick can be received once it is due. -/
  | wake {since : Int} {r : Routine} (h : RoutineRun e delay .waiting since r) (w : Wake) (now : Int) (hnow : since ≤ now) (hw : w = .tick → r.ticker.due ≤ now) :
      RoutineRun e delay .refreshing now (r.wake delay now w)
  /-- The refresh ends. -/
  | refreshed {since : Int} {r : Routine} (h : RoutineRun e delay .refreshing since r) (t : Times) (f : Fetched) (now : Int) (hnow : since ≤ now) :
      RoutineRun e delay .waiting now ({ r with state := refresh e t f r.state }.top delay now)

end StayRTR
