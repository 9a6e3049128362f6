import Verif.Props.Notifies
import Verif.Props.Exact

/-! C134 again, with the outcome of the first load in place of the variable `initialSyncNotComplete`. -/

namespace StayRTR
open Spec

/-- The runs of the refresh loop, with the state after the first load (before the loop is entered). -/
inductive Spec.RunFrom (e : Env) (delay : Int) (first : UState) : RoutineAt → Int → Routine → Prop
  | enter (etags lastModified : Bool) (t : Times) (f : Fetched) (now : Int) (h : first = startup e t f (UState.init etags lastModified)) :
      RunFrom e delay first .waiting now ((Routine.enter delay now first).top delay now)
  | wake {since : Int} {r : Routine} (h : RunFrom e delay first .waiting since r) (w : Wake) (now : Int) (hnow : since ≤ now) (hw : w = .tick → r.ticker.due ≤ now) :
      RunFrom e delay first .refreshing now (r.wake delay now w)
  | refreshed {since : Int} {r : Routine} (h : RunFrom e delay first .refreshing since r) (t : Times) (f : Fetched) (now : Int) (hnow : since ≤ now) :
      RunFrom e delay first .waiting now ({ r with state := refresh e t f r.state }.top delay now)

theorem Spec.RunFrom.run {e : Env} {delay : Int} {first : UState} {a : RoutineAt} {since : Int} {r : Routine} (h : RunFrom e delay first a since r) : RoutineRun e delay a since r := by
  induction h with
  | enter a b t f now h => subst h; exact .enter a b t f now
  | wake h w now hnow hw ih => exact .wake ih w now hnow hw
  | refreshed h t f now hnow ih => exact .refreshed ih t f now hnow

/-- Every run has a first load. -/
theorem run_from {e : Env} {delay : Int} {a : RoutineAt} {since : Int} {r : Routine} (h : RoutineRun e delay a since r) : ∃ first, RunFrom e delay first a since r := by
  induction h with
  | enter a b t f now => exact ⟨_, .enter a b t f now rfl⟩
  | wake h w now hnow hw ih => exact ih.imp fun _ i => .wake i w now hnow hw
  | refreshed h t f now hnow ih => exact ih.imp fun _ i => .refreshed i t f now hnow

theorem wake_incomplete (delay now : Int) (r : Routine) (w : Wake) : (r.wake delay now w).incomplete = r.incomplete := by
  cases w with
  | tick => rfl
  | asked => simp only [Routine.wake, Routine.updateDelay]; split_ifs <;> rfl

theorem first_inv {e : Env} {delay : Int} {first : UState} {a : RoutineAt} {since : Int} {r : Routine} (h : RunFrom e delay first a since r) :
    (r.incomplete = true ↔ first.lastchange = none) ∧ (first.lastchange ≠ none → r.state.lastchange ≠ none) := by
  induction h with
  | enter a b t f now h =>
    unfold Routine.top
    split_ifs with h1 h2
    · exact ⟨⟨fun _ => h1, fun _ => rfl⟩, fun hn => hn⟩
    · exact absurd h2 (by simp [Routine.enter])
    · exact ⟨⟨fun hi => absurd hi (by simp [Routine.enter]), fun hl => absurd hl h1⟩, fun hn => hn⟩
  | wake h w now hnow hw ih => rw [wake_incomplete, wake_state]; exact ih
  | @refreshed since r h t f now hnow ih =>
    have hk := fun hn => lastchange_kept e t f (ih.2 hn)
    refine ⟨?_, by rw [top_state]; exact hk⟩
    unfold Routine.top
    split_ifs with h1 h2
    · refine ⟨fun _ => ?_, fun _ => rfl⟩
      by_contra hn
      exact hk hn h1
    · exact ih.1
    · exact ih.1

/-- The timer never starts more refreshes than there were intervals of `-refresh` since the loop was entered if the first load succeeded; if it failed, the intervals are of 30 seconds if that is less. -/
theorem C134_first (e : Env) (interval : BitVec 64) (h1 : 1 ≤ interval.toNat) (h2 : interval.toNat ≤ 9223372036) {first : UState} {a : RoutineAt} {since : Int} {r : Routine}
    (h : RunFrom e (refreshDelay interval) first a since r) :
    (first.lastchange ≠ none → r.ticks * (interval.toNat : Int) * 1000000000 ≤ since - r.entered) ∧
    (first.lastchange = none → r.ticks * (min interval.toNat 30 : Int) * 1000000000 ≤ since - r.entered) := by
  have hr := C134_rate e interval h1 h2 h.run
  have hi := (first_inv h).1
  refine ⟨fun hl => ?_, fun hl => ?_⟩
  · rw [if_neg (fun hc => hl (hi.mp hc)), Int.min_self] at hr
    exact hr
  · rw [if_pos (hi.mpr hl)] at hr
    exact hr

/-- An interval of an hour, and the first load failed: the timer starts a refresh after 30 seconds. -/
example : ∃ first r, RunFrom (exEnv true) (refreshDelay 3600) first .refreshing 30000000000 r ∧ first.lastchange = none ∧ r.ticks = 1 ∧ r.entered = 0 := by
  refine ⟨_, _, .wake (.enter true true (exAt 0) ⟨exFile, .failed, none⟩ 0 rfl) .tick 30000000000 (by decide) (fun _ => ?_), startup_failed (exEnv true) true true (exAt 0) exFile, ?_, ?_⟩
  · unfold Routine.top
    rw [if_pos (show (Routine.enter _ _ (startup (exEnv true) (exAt 0) ⟨exFile, .failed, none⟩ (UState.init true true))).state.lastchange = none from startup_failed (exEnv true) true true (exAt 0) exFile)]
    decide
  · unfold Routine.top
    rw [if_pos (show (Routine.enter _ _ (startup (exEnv true) (exAt 0) ⟨exFile, .failed, none⟩ (UState.init true true))).state.lastchange = none from startup_failed (exEnv true) true true (exAt 0) exFile)]
    rfl
  · unfold Routine.top
    rw [if_pos (show (Routine.enter _ _ (startup (exEnv true) (exAt 0) ⟨exFile, .failed, none⟩ (UState.init true true))).state.lastchange = none from startup_failed (exEnv true) true true (exAt 0) exFile)]
    rfl

/-! ### C85: the time between two refreshes with any value of the flag -/

/-- With any value of `-refresh`, the routine of refreshes comes to life exactly if the time between two of them is positive, and that time is then so many seconds modulo 2^64 nanoseconds. -/
theorem C85_delay (n : Int) : (newTicker (BitVec.ofInt 64 n) = .ok () ↔ 0 < refreshDelay (BitVec.ofInt 64 n)) ∧
    (newTicker (BitVec.ofInt 64 n) = .ok () → refreshDelay (BitVec.ofInt 64 n) = n * 1000000000 % 2 ^ 64) := by
  have h0 : newTicker (BitVec.ofInt 64 n) = .ok () ↔ 0 < refreshDelay (BitVec.ofInt 64 n) := by
    unfold newTicker refreshDelay
    split_ifs with h
    · exact ⟨fun _ => h, fun _ => rfl⟩
    · exact ⟨fun hc => (by cases hc), fun hc => absurd hc h⟩
  refine ⟨h0, fun h => ?_⟩
  have hp := h0.mp h
  obtain ⟨h1, h2⟩ := (C85_exact_partial n).mp h
  have he : ((tickerDuration (BitVec.ofInt 64 n)).toNat : Int) = n * 1000000000 % 2 ^ 64 := by
    unfold tickerDuration
    have hm : BitVec.ofInt 64 n * 1000000000#64 = BitVec.ofInt 64 (n * 1000000000) := by rw [BitVec.ofInt_mul]; rfl
    rw [hm, BitVec.toNat_ofInt]
    exact Int.toNat_of_nonneg (Int.emod_nonneg _ (by decide))
  unfold refreshDelay
  rw [BitVec.toInt_eq_toNat_cond, if_pos (by omega), he]

/-- A negative number that is a long time. -/
example : newTicker (BitVec.ofInt 64 (-18446744073)) = .ok () ∧ refreshDelay (BitVec.ofInt 64 (-18446744073)) = 709551616 := by decide

end StayRTR
