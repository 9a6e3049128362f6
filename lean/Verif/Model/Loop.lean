import Verif.Model.Go

/-!
# The update loop as a state machine

`run` and `routineUpdate`, cmd/stayrtr/stayrtr.go:539-629, 656-665, 781-859: when refreshes start. What a refresh does is in `Model/Update.lean`.
-/

namespace StayRTR

/-- Where the main goroutine is (cmd/stayrtr/stayrtr.go:539-629, 781-859). -/
inductive LoopAt where
  /-- The first load, cmd/stayrtr/stayrtr.go:812-859 (the HTTP server runs already, 798-806). -/
  | starting
  /-- Waiting in the `select`, cmd/stayrtr/stayrtr.go:555-563. -/
  | waiting
  /-- A refresh, cmd/stayrtr/stayrtr.go:564-627. -/
  | refreshing
  /-- Ended by a signal. -/
  | ended
  deriving DecidableEq, Repr

/-- The loop with its two channels, both of capacity 1 (cmd/stayrtr/stayrtr.go:541, 791). -/
structure Loop where
  at_ : LoopAt
  /-- `triggerUpdate` holds a value. -/
  pending : Bool
  /-- `signals` holds a value. -/
  hup : Bool
  deriving DecidableEq, Repr

/-- The initial state, cmd/stayrtr/stayrtr.go:781-796. -/
def Loop.init : Loop := ⟨.starting, false, false⟩

/-- What can happen. `start` and `finish` are the loop's own; the others come from outside (cmd/stayrtr/stayrtr.go:555-563, 656-665). -/
inductive LoopEvent where
  | trigger (accepted : Bool)
  | signal
  | start
  | finish
  deriving DecidableEq, Repr

/-- One step (cmd/stayrtr/stayrtr.go:539-629, 656-665). -/
inductive LoopStep : Loop → LoopEvent → Loop → Prop
  /-- `TriggerUpdate`, cmd/stayrtr/stayrtr.go:656-660: there is room. -/
  | accept (l : Loop) (h : l.pending = false) (ha : l.at_ ≠ .ended) : LoopStep l (.trigger true) { l with pending := true }
  /-- `TriggerUpdate`, cmd/stayrtr/stayrtr.go:661-664: full. -/
  | refuse (l : Loop) (h : l.pending = true) (ha : l.at_ ≠ .ended) : LoopStep l (.trigger false) l
  /-- SIGHUP before `signal.Notify` (cmd/stayrtr/stayrtr.go:542): the default action. -/
  | kill (l : Loop) (h : l.at_ = .starting) : LoopStep l .signal { l with at_ := .ended }
  /-- SIGHUP after `signal.Notify`: sent to the channel unless it is full. -/
  | signal (l : Loop) (h : l.at_ = .waiting ∨ l.at_ = .refreshing) : LoopStep l .signal { l with hup := true }
  /-- The first load ends (859) and the loop is entered (539-556). -/
  | enter (l : Loop) (h : l.at_ = .starting) : LoopStep l .finish { l with at_ := .waiting }
  /-- The timer fires, cmd/stayrtr/stayrtr.go:556. -/
  | tick (l : Loop) (h : l.at_ = .waiting) : LoopStep l .start { l with at_ := .refreshing }
  /-- The signal is received, cmd/stayrtr/stayrtr.go:557-559. -/
  | onHup (l : Loop) (h : l.at_ = .waiting) (hp : l.hup = true) : LoopStep l .start { l with at_ := .refreshing, hup := false }
  /-- The trigger is received, cmd/stayrtr/stayrtr.go:560-562. -/
  | onTrigger (l : Loop) (h : l.at_ = .waiting) (hp : l.pending = true) : LoopStep l .start { l with at_ := .refreshing, pending := false }
  /-- The refresh ends, once both fetches have ended (cmd/stayrtr/stayrtr.go:607). -/
  | done (l : Loop) (h : l.at_ = .refreshing) : LoopStep l .finish { l with at_ := .waiting }

/-- A run of the loop: the events in order (cmd/stayrtr/stayrtr.go:545-628). -/
inductive LoopRun : Loop → List LoopEvent → Loop → Prop
  | nil (l : Loop) : LoopRun l [] l
  | cons {l l1 l2 : Loop} {ev : LoopEvent} {evs : List LoopEvent} (h : LoopStep l ev l1) (hr : LoopRun l1 evs l2) : LoopRun l (ev :: evs) l2

/-- `time.Duration(interval) * time.Second` in 64 bits, cmd/stayrtr/stayrtr.go:543. -/
def tickerDuration (interval : BitVec 64) : BitVec 64 := interval * 1000000000#64

/-- `time.NewTicker` and `Reset` panic unless the duration is positive (cmd/stayrtr/stayrtr.go:543, 535, 552). -/
def newTicker (interval : BitVec 64) : GoRes Unit := if 0 < (tickerDuration interval).toInt then .ok () else .panic

end StayRTR
