import Verif.Props.Ticker
import Verif.Props.Report

/-! C156: how often Serial Notifies are sent. -/

namespace StayRTR
open Spec

namespace Spec

/-- The runs of the refresh loop, with how often it was woken by a trigger or a signal, and with the times at which Serial Notifies were sent (the first load is over before any router can connect). -/
inductive NotifyingRun (e : Env) (delay : Int) : RoutineAt → Int → Routine → Nat → List Int → Prop
  | enter (etags lastModified : Bool) (t : Times) (f : Fetched) (now : Int) :
      NotifyingRun e delay .waiting now ((Routine.enter delay now (startup e t f (UState.init etags lastModified))).top delay now) 0 []
  | wake {since : Int} {r : Routine} {asked : Nat} {log : List Int} (h : NotifyingRun e delay .waiting since r asked log) (w : Wake) (now : Int) (hnow : since ≤ now)
      (hw : w = .tick → r.ticker.due ≤ now) : NotifyingRun e delay .refreshing now (r.wake delay now w) (if w = .asked then asked + 1 else asked) log
  | quiet {since : Int} {r : Routine} {asked : Nat} {log : List Int} (h : NotifyingRun e delay .refreshing since r asked log) (t : Times) (f : Fetched) (now : Int) (hnow : since ≤ now)
      (hn : (refresh e t f r.state).notified = r.state.notified) : NotifyingRun e delay .waiting now ({ r with state := refresh e t f r.state }.top delay now) asked log
  | notify {since : Int} {r : Routine} {asked : Nat} {log : List Int} (h : NotifyingRun e delay .refreshing since r asked log) (t : Times) (f : Fetched) (now : Int) (hnow : since ≤ now)
      (hn : (refresh e t f r.state).notified ≠ r.state.notified) : NotifyingRun e delay .waiting now ({ r with state := refresh e t f r.state }.top delay now) asked (log ++ [now])

/-- RFC 8210, 5.2: "The cache MUST rate-limit Serial Notifies to no more frequently than one per minute." -/
def AMinuteApart (log : List Int) : Prop := log.Pairwise (fun a b => a + 60 * 1000000000 ≤ b)

end Spec

theorem Spec.NotifyingRun.run {e : Env} {delay : Int} {a : RoutineAt} {since : Int} {r : Routine} {asked : Nat} {log : List Int} (h : NotifyingRun e delay a since r asked log) :
    RoutineRun e delay a since r := by
  induction h with
  | enter a b t f now => exact .enter a b t f now
  | wake _ w now hnow hw ih => exact .wake ih w now hnow hw
  | quiet _ t f now hnow _ ih => exact .refreshed ih t f now hnow
  | notify _ t f now hnow _ ih => exact .refreshed ih t f now hnow

/-- Every run is such a run. -/
theorem RoutineRun.notifying {e : Env} {delay : Int} {a : RoutineAt} {since : Int} {r : Routine} (h : RoutineRun e delay a since r) :
    ∃ asked log, NotifyingRun e delay a since r asked log := by
  induction h with
  | enter a b t f now => exact ⟨_, _, .enter a b t f now⟩
  | wake _ w now hnow hw ih => obtain ⟨n, l, ih⟩ := ih; exact ⟨_, _, .wake ih w now hnow hw⟩
  | @refreshed since r _ t f now hnow ih =>
    obtain ⟨n, l, ih⟩ := ih
    by_cases hn : (refresh e t f r.state).notified = r.state.notified
    · exact ⟨_, _, .quiet ih t f now hnow hn⟩
    · exact ⟨_, _, .notify ih t f now hnow hn⟩

theorem top_ticks (delay now : Int) (r : Routine) : (r.top delay now).ticks = r.ticks := by
  unfold Routine.top; split_ifs <;> rfl

theorem wake_ticks (delay now : Int) (r : Routine) (w : Wake) : (r.wake delay now w).ticks = if w = .tick then r.ticks + 1 else r.ticks := by
  cases w
  · rfl
  · simp only [Routine.wake, Routine.updateDelay, reduceCtorEq, if_false]; split_ifs <;> rfl

/-- Between two Serial Notifies a refresh was started, by the timer or because somebody asked. -/
theorem C156_counted {e : Env} {delay : Int} {a : RoutineAt} {since : Int} {r : Routine} {asked : Nat} {log : List Int} (h : NotifyingRun e delay a since r asked log) :
    log.length ≤ r.ticks + asked ∧ (a = .refreshing → log.length < r.ticks + asked) := by
  induction h with
  | enter a b t f now => exact ⟨Nat.zero_le _, nofun⟩
  | wake _ w now hnow hw ih =>
    rw [wake_ticks]
    cases w <;> simp <;> omega
  | quiet _ t f now hnow _ ih => rw [top_ticks]; exact ⟨ih.1, nofun⟩
  | notify _ t f now hnow _ ih =>
    rw [top_ticks, List.length_append]
    have := ih.2 rfl
    simp only [List.length_singleton]
    exact ⟨this, nofun⟩

/-- With a refresh interval of a minute or more, and if the first load succeeded, there are no more Serial Notifies than minutes since the loop was entered, but for those that triggers and signals brought about.
Missing: that also two that follow each other are a minute apart, which is false. -/
theorem C156_rate_partial (e : Env) (interval : BitVec 64) (h1 : 60 ≤ interval.toNat) (h2 : interval.toNat ≤ 9223372036) {a : RoutineAt} {since : Int} {r : Routine} {asked : Nat} {log : List Int}
    (h : NotifyingRun e (refreshDelay interval) a since r asked log) (hi : r.incomplete = false) :
    (log.length : Int) ≤ asked + (since - r.entered) / (60 * 1000000000) := by
  have hr := C134_rate e interval (by omega) h2 h.run
  have hc := (C156_counted h).1
  rw [hi] at hr
  simp only [Bool.false_eq_true, if_false] at hr
  have hm : (r.ticks : Int) * (60 * 1000000000) ≤ since - r.entered := by
    refine Int.le_trans ?_ hr
    rw [Int.mul_assoc]
    exact Int.mul_le_mul_of_nonneg_left (by omega) (Int.natCast_nonneg _)
  have : (r.ticks : Int) ≤ (since - r.entered) / (60 * 1000000000) := (Int.le_ediv_iff_mul_le (by decide)).2 hm
  omega

/-! After a failed first load the timer is set anew at the end of every refresh, so then the rule is kept. -/

theorem routine_reached {e : Env} {delay : Int} {a : RoutineAt} {since : Int} {r : Routine} (h : RoutineRun e delay a since r) : Reached e r.state := by
  induction h with
  | enter a b t f now => rw [top_state]; exact .startup _ _ _ (.init _ _)
  | wake _ w now hnow hw ih => rw [wake_state]; exact ih
  | refreshed _ t f now hnow ih => rw [top_state]; exact .refresh _ _ _ ih

/-- Serial Notifies are sent only once a file has been loaded. -/
theorem notified_loaded {e : Env} {t : Times} {f : Fetched} {s : UState} (h : Reached e s) (hn : (refresh e t f s).notified ≠ s.notified) : (refresh e t f s).lastchange ≠ none := by
  intro hl
  have he := lastchange_inv (.refresh s t f h) hl
  have hsame := (fetchBoth_frame e t f s).1
  have hr : refresh e t f s = afterFetch e t (fetchBoth e t f s).2 (fetchBoth e t f s).1 := rfl
  rw [hr] at hn he
  rcases afterFetch_cases e t (fetchBoth e t f s).2 (fetchBoth e t f s).1 with h' | ⟨h', h2, _⟩ | ⟨h', _, h2, _⟩
  · rw [h'] at hn; exact hn hsame.notified
  · have : (applied e t.proc (fetchBoth e t f s).1).lastdata = (fetchBoth e t f s).1.lastdata := by unfold applied applyUpdate; simp only; split <;> rfl
    rw [h', this] at he
    rw [he] at h2
    exact h2 rfl
  · rw [h'] at he
    have : (dropped (fetchBoth e t f s).1).lastdata = (fetchBoth e t f s).1.lastdata := rfl
    rw [this] at he
    rw [he] at h2
    exact h2 rfl

theorem lastchange_kept (e : Env) (t : Times) (f : Fetched) {s : UState} (hs : s.lastchange ≠ none) : (refresh e t f s).lastchange ≠ none := by
  have hu : ∀ s : UState, s.lastchange ≠ none → (updateFile e t.start t.change f.file f.cache s).1.lastchange ≠ none := by
    intro s h
    rw [updateFile_eq]
    simp only
    split
    · exact h
    · split
      · exact h
      · split
        · exact h
        · simp
  have hf : (fetchBoth e t f s).1.lastchange ≠ none := by
    unfold fetchBoth
    cases f.slurm with
    | none => exact hu s hs
    | some x =>
      apply hu
      simp only [updateSlurm, fetchStep_eq]
      split
      · exact hs
      · split
        · exact hs
        · split
          · exact hs
          · exact hs
  show (afterFetch e t (fetchBoth e t f s).2 (fetchBoth e t f s).1).lastchange ≠ none
  rcases afterFetch_cases e t (fetchBoth e t f s).2 (fetchBoth e t f s).1 with h | ⟨h, _⟩ | ⟨h, _⟩ <;> rw [h]
  · exact hf
  · rw [applied_lastchange]; exact hf
  · exact hf

theorem apart_inv {e : Env} {delay : Int} (hd : 0 < delay) {a : RoutineAt} {since : Int} {r : Routine} {asked : Nat} {log : List Int} (h : NotifyingRun e delay a since r asked log) (h0 : asked = 0)
    (hi : r.incomplete = true) :
    log.Pairwise (fun a b => a + delay ≤ b) ∧ (∀ x ∈ log, x + delay ≤ if a = .waiting then r.ticker.due else since) ∧ (r.state.lastchange = none → log = []) := by
  have loaded : ∀ {a : RoutineAt} {since : Int} {r : Routine} {log : List Int} {asked : Nat}, NotifyingRun e delay a since r asked log → r.state.lastchange = none → r.incomplete = true := by
    intro a since r log asked h hl
    cases hi : r.incomplete with
    | true => rfl
    | false => exact absurd hl ((ticker_inv e delay hd h.run).1 hi).1
  induction h with
  | enter a b t f now => exact ⟨.nil, nofun, fun _ => rfl⟩
  | @wake since r asked log h w now hnow hw ih =>
    cases w with
    | asked => simp at h0
    | tick =>
      obtain ⟨i1, i2, i3⟩ := ih h0 hi
      refine ⟨i1, fun x hx => ?_, i3⟩
      have := i2 x hx
      rw [if_pos rfl] at this
      rw [if_neg (by decide)]
      exact Int.le_trans this (hw rfl)
  | @quiet since r asked log h t f now hnow hn ih =>
    rw [top_state]
    by_cases hl : (refresh e t f r.state).lastchange = none
    · have hl' : r.state.lastchange = none := Classical.byContradiction (fun hc => lastchange_kept e t f hc hl)
      obtain ⟨_, _, i3⟩ := ih h0 (loaded h hl')
      have := i3 hl'
      subst this
      exact ⟨.nil, nofun, fun _ => rfl⟩
    · refine (fun hi' => ?_ : r.incomplete = true → _) ?_
      · obtain ⟨i1, i2, i3⟩ := ih h0 hi'
        refine ⟨i1, fun x hx => ?_, fun h => absurd h hl⟩
        have := i2 x hx
        unfold Routine.top
        rw [if_pos rfl, if_neg hl, if_pos hi']
        rw [if_neg (by decide)] at this
        simp only [GoTicker.reset]
        omega
      · unfold Routine.top at hi
        rw [if_neg hl] at hi
        cases hr : r.incomplete with
        | true => rfl
        | false => rw [hr] at hi; simp at hi
  | @notify since r asked log h t f now hnow hn ih =>
    rw [top_state]
    have hl := notified_loaded (t := t) (f := f) (routine_reached h.run) hn
    refine (fun hi' => ?_ : r.incomplete = true → _) ?_
    · obtain ⟨i1, i2, i3⟩ := ih h0 hi'
      refine ⟨List.pairwise_append.2 ⟨i1, List.pairwise_singleton _ _, fun x hx y hy => ?_⟩, fun x hx => ?_, fun h => absurd h hl⟩
      · have := i2 x hx
        rw [List.mem_singleton.1 hy]
        rw [if_neg (by decide)] at this
        omega
      · have : x ≤ now := by
          rcases List.mem_append.1 hx with hx | hx
          · have := i2 x hx
            rw [if_neg (by decide)] at this
            omega
          · rw [List.mem_singleton.1 hx]; exact Int.le_refl _
        unfold Routine.top
        rw [if_pos rfl, if_neg hl, if_pos hi']
        simp only [GoTicker.reset]
        omega
    · unfold Routine.top at hi
      rw [if_neg hl] at hi
      cases hr : r.incomplete with
      | true => rfl
      | false => rw [hr] at hi; simp at hi

/-- If the first load failed, and nobody asks for refreshes, Serial Notifies are a minute apart if the refresh interval is.
Missing: runs whose first load succeeded (`C156_close_false`), and those with triggers or signals (`C156_asked_false`). -/
theorem C156_apart_partial (e : Env) (interval : BitVec 64) (h1 : 60 ≤ interval.toNat) (h2 : interval.toNat ≤ 9223372036) {a : RoutineAt} {since : Int} {r : Routine} {log : List Int}
    (h : NotifyingRun e (refreshDelay interval) a since r 0 log) (hi : r.incomplete = true) : AMinuteApart log := by
  have hd := refreshDelay_eq interval h2
  refine (apart_inv (by omega) h rfl hi).1.imp ?_
  intro x y hxy
  omega

/-- With a refresh interval of ten minutes and no triggers: the refresh of the first tick takes 599 seconds, the next one begins a second later, and both bring changes. -/
theorem C156_close_false : (∃ r, NotifyingRun (exEnv false) (refreshDelay 600) .waiting (1200 * 1000000000) r 0 [1199 * 1000000000, 1200 * 1000000000]) ∧
    ¬ AMinuteApart [1199 * 1000000000, 1200 * 1000000000] := by
  refine ⟨⟨_, .notify (.wake (.notify (.wake (.enter true true (exAt 0) (exGet [3]) 0) .tick (600 * 1000000000) (by decide) (fun _ => ?_)) (exAt 1199) (exGet [1]) (1199 * 1000000000) (by decide) ?_)
    .tick (1200 * 1000000000) (by decide) (fun _ => ?_)) (exAt 1200) (exGet [8]) (1200 * 1000000000) (by decide) ?_⟩, ?_⟩
  · decide +kernel
  · decide +kernel
  · decide +kernel
  · decide +kernel
  · simp [AMinuteApart]

/-- Two signals a second apart. -/
theorem C156_asked_false : (∃ r, NotifyingRun (exEnv false) (refreshDelay 600) .waiting (2 * 1000000000) r 2 [1 * 1000000000, 2 * 1000000000]) ∧ ¬ AMinuteApart [1 * 1000000000, 2 * 1000000000] := by
  refine ⟨⟨_, .notify (.wake (.notify (.wake (.enter true true (exAt 0) (exGet [1]) 0) .asked (1 * 1000000000) (by decide) nofun) (exAt 1) (exGet [2]) (1 * 1000000000) (by decide) ?_)
    .asked (2 * 1000000000) (by decide) nofun) (exAt 2) (exGet [3]) (2 * 1000000000) (by decide) ?_⟩, ?_⟩
  · decide +kernel
  · decide +kernel
  · simp [AMinuteApart]

/-- A run that begins with a failed load, and in which two Serial Notifies are sent. -/
example : ∃ r, NotifyingRun (exEnv false) (refreshDelay 600) .waiting (631 * 1000000000) r 0 [30 * 1000000000, 631 * 1000000000] ∧ r.incomplete = true := by
  refine ⟨_, .notify (.wake (.notify (.wake (.enter true true (exAt 0) exFail 0) .tick (30 * 1000000000) (by decide) (fun _ => ?_)) (exAt 30) (exGet [2]) (30 * 1000000000) (by decide) ?_)
    .tick (630 * 1000000000) (by decide) (fun _ => ?_)) (exAt 630) (exGet [3]) (631 * 1000000000) (by decide) ?_, ?_⟩
  · decide +kernel
  · decide +kernel
  · decide +kernel
  · decide +kernel
  · decide +kernel

end StayRTR
