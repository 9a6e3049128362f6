import Verif.Model.MonGo
import Verif.Model.Update

/-!
# The times of rtrmon's queries

The goroutines of one RTR source (Model/MonGo.lean) with the two timers they wait for: `time.After(c.RefreshInterval)` before a new session
(cmd/rtrmon/rtrmon.go:269-271) and between polls (609). Times are nanoseconds. A timer does not fire early; it may fire late, and everything
else may take as long as it likes.

Simplifications: the clock of the timers and the one of `time.Now` are the same, and `time.After` does not overflow.
-/

namespace StayRTR

/-- One RTR source (cmd/rtrmon/rtrmon.go:209-243) and the time; `slept` is when line 270 was reached last, `armed k` when the `select` of session
`k`'s `continuousRTR` was entered last (606-609). -/
structure MonTimed where
  go : MonGo
  now : Int
  slept : Int
  armed : Nat → Int

namespace MonTimed

/-- Before `Start`, at a time (cmd/rtrmon/rtrmon.go:245-263). -/
def start (t : Int) : MonTimed := ⟨.init, t, t, fun _ => t⟩

/-- May the move happen at that time? `bypass` holds before the first session only (cmd/rtrmon/rtrmon.go:265-272, 606-611); `time.Now` is read
in `HandlePDU` (474, 546). -/
def due (interval : Int) (s : MonTimed) (t : Int) : GoMove → Bool
  | .main => decide (s.go.main = .sleeping → s.go.cur = 0 ∨ s.slept + interval ≤ t)
  | .timer k => decide (s.armed k + interval ≤ t)
  | .handle now => decide (now = unix t)
  | _ => true

/-- Does the move make `continuousRTR` of session `k` enter the `select` of its loop (cmd/rtrmon/rtrmon.go:605-606)? -/
def arms (s : MonTimed) (k : Nat) : GoMove → Bool
  | .tick j => decide (j = k ∧ (s.go.conns k).ticker = .loop)
  | _ => false

/-- A move at a time (cmd/rtrmon/rtrmon.go:254-326, 467-613). -/
def exec (interval : Int) (breakRTR : Bool) (s : MonTimed) (t : Int) (m : GoMove) : Option MonTimed :=
  if s.now ≤ t ∧ s.due interval t m = true then
    (s.go.exec breakRTR m).map fun g =>
      ⟨g, t, if g.main = .sleeping ∧ s.go.main ≠ .sleeping then t else s.slept, fun k => if s.arms k m then t else s.armed k⟩
  else none

/-- A run (cmd/rtrmon/rtrmon.go:254-326). -/
inductive Runs (interval : Int) (breakRTR : Bool) : MonTimed → MonTimed → Prop where
  | refl {s : MonTimed} : Runs interval breakRTR s s
  | tail {s u v : MonTimed} (h : Runs interval breakRTR s u) (t : Int) (m : GoMove) (e : u.exec interval breakRTR t m = some v) :
      Runs interval breakRTR s v

/-- A given schedule; `none` if a move is not possible then (cmd/rtrmon/rtrmon.go:254-326). -/
def sched (interval : Int) (breakRTR : Bool) (s : MonTimed) : List (Int × GoMove) → Option MonTimed
  | [] => some s
  | (t, m) :: l => (s.exec interval breakRTR t m).bind fun u => u.sched interval breakRTR l

end MonTimed

end StayRTR
