import Verif.Model.Writers
import Verif.Props.Store

/-!
# Concurrent updates of the store: C146
-/

namespace StayRTR

/-- The two halves of `AddSDsDiff`, without anything in between, are the whole. -/
theorem commit_prepare (diff : List SD) (s : Store) : s.commit diff (s.prepare diff).1 (s.prepare diff).2 = s.addSDsDiff diff := rfl

/-- **C146**, the full statement: whatever calls of `AddData` run at the same time, the store is what the calls that are through make of it one after the other. -/
def Spec.OneAfterTheOther (k : Int) : Prop := ∀ s, WSteps (.start k) s → (∀ i, s.phase i = .idle) → s.store = (Store.init k).run s.through

/-- Runs in which a call begins only when no other is under way, as with a single updating goroutine. -/
inductive Spec.WAlone (k : Int) : WSys → Prop
  | start : WAlone k (.start k)
  | step {s t : WSys} (h : WAlone k s) (h' : WStep s t) (alone : ∀ i, s.phase i = .idle → t.phase i ≠ .idle → ∀ j, s.phase j = .idle) : WAlone k t

open Spec

theorem wrun_snoc (s : Store) (l : List (List SD)) (new : List SD) : s.run (l ++ [new]) = ((s.run l).addData new).1 := by
  induction l generalizing s with
  | nil => rfl
  | cons x l ih => exact ih _

/-- In such a run the store is at all times what the calls that are through make of it, and the one under way has read this store. -/
theorem walone_inv {k : Int} {s : WSys} (h : WAlone k s) : s.store = (Store.init k).run s.through ∧
    (∀ i new diff, s.phase i = .diffed new diff → diff = (computeDiff new s.store.current false).1 ++ (computeDiff new s.store.current false).2.1 ∧ diff.length ≠ 0) ∧
    (∀ i new diff nd nc, s.phase i = .prepared new diff nd nc → diff = (computeDiff new s.store.current false).1 ++ (computeDiff new s.store.current false).2.1 ∧ diff.length ≠ 0 ∧ (nd, nc) = s.store.prepare diff) ∧
    (∀ i j, s.phase i ≠ .idle → s.phase j ≠ .idle → i = j) := by
  induction h with
  | start =>
    refine ⟨rfl, ?_, ?_, ?_⟩
    · intro i new diff h; exact WPhase.noConfusion h
    · intro i new diff nd nc h; exact WPhase.noConfusion h
    · intro i j h; exact absurd rfl h
  | @step s t h h' alone ih =>
    obtain ⟨h1, h2, h3, h4⟩ := ih
    cases h' with
    | same i new hi he =>
      refine ⟨?_, h2, h3, h4⟩
      show s.store = _
      rw [wrun_snoc, ← h1]
      unfold Store.addData
      simp only [he, if_true]
    | diff i new hi he =>
      have hall := alone i hi (by simp [WSys.at])
      refine ⟨h1, ?_, ?_, ?_⟩
      · intro j n d hj
        simp only [WSys.at] at hj
        split at hj
        · cases hj
          exact ⟨rfl, he⟩
        · rw [hall j] at hj; cases hj
      · intro j n d nd nc hj
        simp only [WSys.at] at hj
        split at hj
        · cases hj
        · rw [hall j] at hj; cases hj
      · intro a b ha hb
        simp only [WSys.at] at ha hb
        split at ha
        · split at hb
          · omega
          · exact absurd (hall b) hb
        · exact absurd (hall a) ha
    | prepare i new diff hi =>
      obtain ⟨hd, hl⟩ := h2 i new diff hi
      have hother : ∀ j, j ≠ i → s.phase j = .idle := by
        intro j hj
        by_contra hne
        exact hj (h4 j i hne (by rw [hi]; simp))
      refine ⟨h1, ?_, ?_, ?_⟩
      · intro j n d hj
        simp only [WSys.at] at hj
        split at hj
        · cases hj
        · rename_i hne
          rw [hother j hne] at hj; cases hj
      · intro j n d nd nc hj
        simp only [WSys.at] at hj
        split at hj
        · cases hj
          exact ⟨hd, hl, rfl⟩
        · rename_i hne
          rw [hother j hne] at hj; cases hj
      · intro a b ha hb
        simp only [WSys.at] at ha hb
        split at ha
        · split at hb
          · omega
          · rename_i hne
            exact absurd (hother b hne) hb
        · rename_i hne
          exact absurd (hother a hne) ha
    | commit i new diff nd nc hi =>
      obtain ⟨hd, hl, hp⟩ := h3 i new diff nd nc hi
      have hother : ∀ j, j ≠ i → s.phase j = .idle := by
        intro j hj
        by_contra hne
        exact hj (h4 j i hne (by rw [hi]; simp))
      have hidle : ∀ j, s.at i .idle j = .idle := by
        intro j
        simp only [WSys.at]
        split
        · rfl
        · rename_i hne
          exact hother j hne
      have e1 : nd = (s.store.prepare diff).1 := congrArg Prod.fst hp
      have e2 : nc = (s.store.prepare diff).2 := congrArg Prod.snd hp
      refine ⟨?_, ?_, ?_, ?_⟩
      · show s.store.commit diff nd nc = _
        rw [e1, e2, commit_prepare, wrun_snoc, ← h1]
        unfold Store.addData
        simp only [← hd, if_neg hl]
      · intro j n d hj
        exact WPhase.noConfusion ((hidle j).symm.trans hj)
      · intro j n d nd nc hj
        exact WPhase.noConfusion ((hidle j).symm.trans hj)
      · intro a b ha
        exact absurd (hidle a) ha

/-- **C146** (partial: calls that do not overlap, as with the one updating goroutine of stayrtr). Then at all times, also with a call under way, the store is what the calls that are through make of it one after the other. -/
theorem C146_alone_partial {k : Int} {s : WSys} (h : WAlone k s) : s.store = (Store.init k).run s.through := (walone_inv h).1

/-- A set to be served. -/
def exOne : List SD := [.vrp ⟨⟨.v4 0x0a000000, 9⟩, 65000, 8, 1⟩]
/-- Another one. -/
def exTwo : List SD := [.vrp ⟨⟨.v4 0x0b000000, 9⟩, 65001, 8, 1⟩]

/-- One goroutine, two calls one after the other, the second under way. -/
example : ∃ s : WSys, WAlone 3 s ∧ s.through = [exOne] ∧ s.phase 0 = .diffed exTwo [.vrp ⟨⟨.v4 0x0b000000, 9⟩, 65001, 8, 1⟩, .vrp ⟨⟨.v4 0x0a000000, 9⟩, 65000, 8, 0⟩] := by
  have h1 := WAlone.step (.start (k := 3)) (.diff 0 exOne rfl (by decide)) (fun _ _ _ _ => rfl)
  have h2 := WAlone.step h1 (.prepare 0 exOne exOne (by decide)) (fun i hi hn => by
    by_cases h : i = 0
    · subst h; cases hi
    · exact absurd (by simp [WSys.at, h, WSys.start]) hn)
  have h3 := WAlone.step h2 (.commit 0 exOne exOne [[]] exOne (by decide)) (fun i hi hn => by
    by_cases h : i = 0
    · subst h; cases hi
    · exact absurd (by simp [WSys.at, h, WSys.start]) hn)
  have h4 := WAlone.step h3 (.diff 0 exTwo (by decide) (by decide)) (fun i hi hn j => by
    simp only [WSys.at, WSys.start]
    split
    · rfl
    · rfl)
  exact ⟨_, h4, rfl, by decide⟩

/-- The store that loses an update. -/
theorem lost_update : ∃ s : WSys, WSteps (.start 3) s ∧ (∀ i, s.phase i = .idle) ∧ s.through = [exOne, exTwo] ∧ s.store = ⟨[[], exTwo], exTwo, 1, 3⟩ := by
  have h1 := WSteps.step (.refl (.start 3)) (.diff 0 exOne rfl (by decide))
  have h2 := WSteps.step h1 (.prepare 0 exOne exOne (by decide))
  have h3 := WSteps.step h2 (.diff 1 exTwo (by decide) (by decide))
  have h4 := WSteps.step h3 (.prepare 1 exTwo exTwo (by decide))
  have h5 := WSteps.step h4 (.commit 0 exOne exOne [[]] exOne (by decide))
  have h6 := WSteps.step h5 (.commit 1 exTwo exTwo [[]] exTwo (by decide))
  refine ⟨_, h6, fun i => ?_, rfl, by decide⟩
  simp only [WSys.at, WSys.start]
  split
  · rfl
  · split <;> rfl

/-- **C146.** The code does not have the property: the lock is given up between the three parts of an update. -/
theorem C146_lost_false : ¬ OneAfterTheOther 3 := by
  intro h
  obtain ⟨s, hs, hi, ht, he⟩ := lost_update
  have := h s hs hi
  rw [ht, he] at this
  exact absurd this (by decide)

/-- **C146.** What that does: both sets were served, the first under the serial 0 and the second under 1, but a router with the first is told of no withdrawal and keeps a record that is not served. -/
theorem C146_router_false : ∃ s : WSys, WSteps (.start 3) s ∧ (∀ i, s.phase i = .idle) ∧ s.through = [exOne, exTwo] ∧ s.store.current = exTwo ∧ s.store.serial = 1 ∧
    s.store.getSDsSerialDiff 0 = .ok (some exTwo) ∧ ∃ r ∈ records exOne, routerApply (fun r => r ∈ records exOne) exTwo r ∧ r ∉ records s.store.current := by
  obtain ⟨s, hs, hi, ht, he⟩ := lost_update
  refine ⟨s, hs, hi, ht, by rw [he], by rw [he], by rw [he]; decide, .vrp ⟨.v4 0x0a000000, 9⟩ 8 65000, by decide, ?_, by rw [he]; decide⟩
  simp only [routerApply, exTwo, List.foldl_cons, List.foldl_nil, routerStep]
  decide

/-- **C146.** And the set that is served in the end need not be one that was asked for. -/
theorem C146_mixed_false : ∃ s : WSys, WSteps (.start 3) s ∧ (∀ i, s.phase i = .idle) ∧ s.through = [exOne, exTwo] ∧ s.store.current = exOne ++ exTwo := by
  have h1 := WSteps.step (.refl (.start 3)) (.diff 0 exOne rfl (by decide))
  have h2 := WSteps.step h1 (.diff 1 exTwo (by decide) (by decide))
  have h3 := WSteps.step h2 (.prepare 0 exOne exOne (by decide))
  have h4 := WSteps.step h3 (.commit 0 exOne exOne [[]] exOne (by decide))
  have h5 := WSteps.step h4 (.prepare 1 exTwo exTwo (by decide))
  have h6 := WSteps.step h5 (.commit 1 exTwo exTwo [exTwo, exOne ++ exTwo, []] (exOne ++ exTwo) (by decide))
  refine ⟨_, h6, fun i => ?_, rfl, by decide⟩
  simp only [WSys.at, WSys.start]
  split
  · rfl
  · split <;> rfl

end StayRTR
