import Verif.Model.Sort
import Mathlib.Data.List.Nodup
import Mathlib.Logic.Equiv.Basic

/-!
# `sort.Slice` sorts

For every comparison function that follows some order, whether it answers yes or no, or one now and the other then, of elements that are equal in the order.
-/

namespace StayRTR.GoSort
open Sorting

variable {α : Type}

/-- The comparison function follows the order: of elements that are not equal in it, it says which comes first. -/
structure Follows (less : α → α → Bool) (le : α → α → Prop) : Prop where
  trans : ∀ {a b c}, le a b → le b c → le a c
  yes : ∀ {a b}, less a b = true → le a b
  no : ∀ {a b}, less a b = false → le b a

theorem Follows.refl {less : α → α → Bool} {le : α → α → Prop} (H : Follows less le) (a : α) : le a a := by
  cases h : less a a with
  | true => exact H.yes h
  | false => exact H.no h

/-- In order, from `a` up to but not including `b`. -/
def Ordered (le : α → α → Prop) (a b : Nat) (d : Cells α) : Prop := ∀ i j, a ≤ i → i ≤ j → j < b → le (d i) (d j)

/-- What is before `k` comes before what is from `k` on. -/
def Cut (le : α → α → Prop) (n k : Nat) (d : Cells α) : Prop := ∀ i j, i < k → k ≤ j → j < n → le (d i) (d j)

/-- The elements from `a` to `b` are exchanged with each other, and elements equal in the order anywhere. -/
inductive Moves (le : α → α → Prop) (n a b : Nat) : Cells α → Cells α → Prop
  | refl (d : Cells α) : Moves le n a b d d
  | inside {d d' : Cells α} (i j : Nat) (h : Moves le n a b d d') (hi : a ≤ i) (hi' : i < b) (hj : a ≤ j) (hj' : j < b) : Moves le n a b d (swapped d' i j)
  | same {d d' : Cells α} (i j : Nat) (h : Moves le n a b d d') (hi : i < n) (hj : j < n) (h1 : le (d' i) (d' j)) (h2 : le (d' j) (d' i)) : Moves le n a b d (swapped d' i j)

theorem swapped_left (d : Cells α) (i j : Nat) : swapped d i j i = d j := by simp [swapped]

theorem swapped_right (d : Cells α) (i j : Nat) : swapped d i j j = d i := by
  unfold swapped
  split
  · next h => rw [h]
  · simp

theorem swapped_other (d : Cells α) {i j k : Nat} (h1 : k ≠ i) (h2 : k ≠ j) : swapped d i j k = d k := by simp [swapped, h1, h2]

section
variable {le : α → α → Prop} {less : α → α → Bool} {n a b : Nat}

theorem Moves.trans {d d' d'' : Cells α} (h : Moves le n a b d d') (h' : Moves le n a b d' d'') : Moves le n a b d d'' := by
  induction h' with
  | refl => exact h
  | inside i j _ hi hi' hj hj' ih => exact ih.inside i j hi hi' hj hj'
  | same i j _ hi hj h1 h2 ih => exact ih.same i j hi hj h1 h2

theorem Moves.mono {d d' : Cells α} (h : Moves le n a b d d') {a' b' : Nat} (ha : a' ≤ a) (hb : b ≤ b') : Moves le n a' b' d d' := by
  induction h with
  | refl => exact .refl _
  | inside i j _ hi hi' hj hj' ih => exact ih.inside i j (by omega) (by omega) (by omega) (by omega)
  | same i j _ hi hj h1 h2 ih => exact ih.same i j hi hj h1 h2

/-- If the range is empty, so is every other. -/
theorem Moves.none {d d' : Cells α} (h : Moves le n 0 0 d d') (a b : Nat) : Moves le n a b d d' := by
  induction h with
  | refl => exact .refl _
  | inside i j _ _ hi' _ _ _ => omega
  | same i j _ hi hj h1 h2 ih => exact ih.same i j hi hj h1 h2

theorem Moves.one (d : Cells α) {i j : Nat} (hi : a ≤ i) (hi' : i < b) (hj : a ≤ j) (hj' : j < b) : Moves le n a b d (swapped d i j) := (Moves.refl d).inside i j hi hi' hj hj'

/-- Elements equal in the order. -/
def Eqv (le : α → α → Prop) (x y : α) : Prop := le x y ∧ le y x

theorem same_eqv (H : Follows less le) {d : Cells α} {i j : Nat} (h1 : le (d i) (d j)) (h2 : le (d j) (d i)) (k : Nat) : Eqv le (d k) (swapped d i j k) := by
  unfold swapped
  split
  · next h => subst h; exact ⟨h1, h2⟩
  · split
    · next h => subst h; exact ⟨h2, h1⟩
    · exact ⟨H.refl _, H.refl _⟩

theorem Moves.outside (H : Follows less le) {d d' : Cells α} (h : Moves le n a b d d') {k : Nat} (hk : k < a ∨ b ≤ k) : Eqv le (d k) (d' k) := by
  induction h with
  | refl => exact ⟨H.refl _, H.refl _⟩
  | inside i j _ hi hi' hj hj' ih => rw [swapped_other _ (by omega) (by omega)]; exact ih
  | same i j _ _ _ h1 h2 ih =>
    have := same_eqv H h1 h2 k
    exact ⟨H.trans ih.1 this.1, H.trans this.2 ih.2⟩

/-- What holds of all elements of the range, and does not tell equal ones apart, still does. -/
theorem Moves.inRange (H : Follows less le) {d d' : Cells α} (h : Moves le n a b d d') {P : α → Prop} (hP : ∀ x y, Eqv le x y → P x → P y) (h0 : ∀ k, a ≤ k → k < b → P (d k)) : ∀ k, a ≤ k → k < b → P (d' k) := by
  induction h with
  | refl => exact h0
  | inside i j _ hi hi' hj hj' ih =>
    intro k hk hk'
    unfold swapped
    split
    · exact ih j hj hj'
    · split
      · exact ih i hi hi'
      · exact ih k hk hk'
  | same i j _ _ _ h1 h2 ih => exact fun k hk hk' => hP _ _ (same_eqv H h1 h2 k) (ih k hk hk')

theorem Ordered.moves (H : Follows less le) {d d' : Cells α} {p q : Nat} (ho : Ordered le p q d) (h : Moves le n a b d d') (hd : q ≤ a ∨ b ≤ p) : Ordered le p q d' := by
  intro i j hi hij hj
  exact H.trans (h.outside H (k := i) (by omega)).2 (H.trans (ho i j hi hij hj) (h.outside H (k := j) (by omega)).1)

theorem Cut.moves (H : Follows less le) {d d' : Cells α} {k : Nat} (hc : Cut le n k d) (h : Moves le n a b d d') (hb : b ≤ n) (hd : k ≤ a ∨ b ≤ k) : Cut le n k d' := by
  induction h with
  | refl => exact hc
  | @inside d' i j _ hi hi' hj hj' ih =>
    intro p q hp hq hqn
    have key : ∀ m, m < n → ∃ m', swapped d' i j m = d' m' ∧ m' < n ∧ (m < k ↔ m' < k) := by
      intro m hm
      unfold swapped
      split
      · exact ⟨j, rfl, by omega, by omega⟩
      · split
        · exact ⟨i, rfl, by omega, by omega⟩
        · exact ⟨m, rfl, hm, Iff.rfl⟩
    obtain ⟨p', e1, _, h1⟩ := key p (by omega)
    obtain ⟨q', e2, hn', h2⟩ := key q hqn
    rw [e1, e2]
    exact ih p' q' (h1.1 hp) (by omega) hn'
  | same i j _ _ _ h1 h2 ih =>
    intro p q hp hq hqn
    exact H.trans (same_eqv H h1 h2 p).2 (H.trans (ih p q hp hq hqn) (same_eqv H h1 h2 q).1)

theorem Cut.zero (d : Cells α) : Cut le n 0 d := fun _ _ h => absurd h (Nat.not_lt_zero _)

theorem Cut.all (d : Cells α) : Cut le n n d := fun _ _ _ h h' => absurd h' (by omega)

theorem swapped_perm (d : Cells α) {i j : Nat} (hi : i < n) (hj : j < n) : ((List.range n).map (swapped d i j)).Perm ((List.range n).map d) := by
  have e : swapped d i j = d ∘ Equiv.swap i j := by
    funext k
    simp only [swapped, Function.comp, Equiv.swap_apply_def]
    split
    · rfl
    · split <;> rfl
  rw [e, ← List.map_map]
  refine List.Perm.map d ?_
  refine (List.perm_ext_iff_of_nodup (List.Nodup.map (Equiv.swap i j).injective List.nodup_range) List.nodup_range).2 fun k => ?_
  rw [List.mem_map, List.mem_range]
  constructor
  · rintro ⟨m, hm, rfl⟩
    rw [List.mem_range] at hm
    rw [Equiv.swap_apply_def]
    split
    · exact hj
    · split
      · exact hi
      · exact hm
  · intro hk
    refine ⟨Equiv.swap i j k, ?_, by simp⟩
    rw [List.mem_range, Equiv.swap_apply_def]
    split
    · exact hj
    · split
      · exact hi
      · exact hk

theorem Moves.perm {d d' : Cells α} (h : Moves le n a b d d') (hb : b ≤ n) : ((List.range n).map d').Perm ((List.range n).map d) := by
  induction h with
  | refl => exact List.Perm.refl _
  | inside i j _ hi hi' hj hj' ih => exact (swapped_perm _ (by omega) (by omega)).trans ih
  | same i j _ hi hj _ _ ih => exact (swapped_perm _ hi hj).trans ih

end

variable {S : Sorting α} {le : α → α → Prop}

theorem lessAt_ok {d : Cells α} {i j : Nat} (hi : i < S.n) (hj : j < S.n) : S.lessAt d i j = .ok (S.less (d i) (d j)) := if_pos ⟨hi, hj⟩

theorem swapAt_ok {d : Cells α} {i j : Nat} (hi : i < S.n) (hj : j < S.n) : S.swapAt d i j = .ok (swapped d i j) := if_pos ⟨hi, hj⟩

/-! ## Insertion -/

/-- An element that is not less than any before it is exchanged with equal ones only. -/
theorem sink_below (H : Follows S.less le) (c : Nat) : ∀ (j : Nat) (d : Cells α), j < S.n → (∀ k < j, le (d k) (d j)) → ∃ d', S.sink c j d = .ok d' ∧ Moves le S.n 0 0 d d' := by
  intro j
  induction j with
  | zero => exact fun d _ _ => ⟨d, rfl, .refl d⟩
  | succ j ih =>
    intro d hj hk
    unfold sink
    split
    · rw [lessAt_ok hj (by omega)]
      show ∃ d', (if S.less (d (j + 1)) (d j) = true then (S.swapAt d (j + 1) j).bind fun d => S.sink c j d else .ok d) = .ok d' ∧ _
      split
      · next hl =>
        rw [swapAt_ok hj (by omega)]
        obtain ⟨d', h1, h2⟩ := ih (swapped d (j + 1) j) (by omega) (fun k hkj => by
          rw [swapped_right, swapped_other _ (by omega) (by omega)]
          exact hk k (by omega))
        exact ⟨d', h1, (Moves.same (j + 1) j (.refl d) hj (by omega) (H.yes hl) (hk j (by omega))).trans h2⟩
      · exact ⟨d, rfl, .refl d⟩
    · exact ⟨d, rfl, .refl d⟩

/-- The element at `j` goes to its place among those before it, which are in order as are those after it. -/
theorem sink_ok (H : Follows S.less le) {a c top : Nat} (hca : c ≤ a) (htop : top < S.n) : ∀ (j : Nat) (d : Cells α), a ≤ j → j ≤ top → (∀ i k, a ≤ i → i ≤ k → k ≤ top → i ≠ j → k ≠ j → le (d i) (d k)) →
    (∀ k, j < k → k ≤ top → le (d j) (d k)) → (∀ k < a, le (d k) (d j)) → ∃ d', S.sink c j d = .ok d' ∧ Moves le S.n a (top + 1) d d' ∧ Ordered le a (top + 1) d' := by
  intro j
  induction j with
  | zero =>
    intro d ha ht h1 h2 _
    refine ⟨d, rfl, .refl d, fun i k hi hik hk => ?_⟩
    by_cases h : i = 0
    · subst h
      rcases Nat.eq_zero_or_pos k with rfl | hk'
      · exact H.refl _
      · exact h2 k hk' (by omega)
    · exact h1 i k hi hik (by omega) h (by omega)
  | succ j ih =>
    intro d ha ht h1 h2 h3
    have last : (∀ k, a ≤ k → k ≤ j → le (d k) (d (j + 1))) → Ordered le a (top + 1) d := by
      intro h i k hi hik hk
      by_cases e : i = j + 1
      · subst e
        rcases Nat.eq_or_lt_of_le hik with rfl | hlt
        · exact H.refl _
        · exact h2 k hlt (by omega)
      · by_cases e' : k = j + 1
        · subst e'
          exact h i hi (by omega)
        · exact h1 i k hi hik (by omega) e e'
    rcases Nat.eq_or_lt_of_le ha with he | hlt
    · have ho := last (fun k hk hk' => by omega)
      obtain ⟨d', e1, e2⟩ := sink_below H c (j + 1) d (by omega) (fun k hk => h3 k (by omega))
      refine ⟨d', e1, e2.none _ _, ?_⟩
      exact ho.moves H e2 (.inr (by omega))
    · unfold sink
      rw [if_pos (by omega), lessAt_ok (by omega) (by omega)]
      show ∃ d', (if S.less (d (j + 1)) (d j) = true then (S.swapAt d (j + 1) j).bind fun d => S.sink c j d else .ok d) = .ok d' ∧ _
      split
      · next hl =>
        rw [swapAt_ok (by omega) (by omega)]
        obtain ⟨d', e1, e2, e3⟩ := ih (swapped d (j + 1) j) (by omega) (by omega)
          (fun i k hi hik hk hij hkj => by
            by_cases hi' : i = j + 1
            · subst hi'
              rw [swapped_left]
              by_cases hk' : k = j + 1
              · subst hk'; rw [swapped_left]; exact H.refl _
              · rw [swapped_other _ hk' hkj]
                exact h1 j k (by omega) (by omega) hk (by omega) hk'
            · rw [swapped_other _ hi' hij]
              by_cases hk' : k = j + 1
              · subst hk'; rw [swapped_left]
                exact h1 i j hi (by omega) (by omega) hi' (by omega)
              · rw [swapped_other _ hk' hkj]
                exact h1 i k hi hik hk hi' hk')
          (fun k hjk hk => by
            rw [swapped_right]
            by_cases hk' : k = j + 1
            · subst hk'; rw [swapped_left]; exact H.yes hl
            · rw [swapped_other _ hk' (by omega)]
              exact h2 k (by omega) hk)
          (fun k hk => by
            rw [swapped_right, swapped_other _ (by omega) (by omega)]
            exact h3 k hk)
        exact ⟨d', e1, (Moves.one d (by omega) (by omega) (by omega) (by omega)).trans e2, e3⟩
      · next hl =>
        have hl : S.less (d (j + 1)) (d j) = false := by simpa using hl
        refine ⟨d, rfl, .refl d, last fun k hk hkj => ?_⟩
        exact H.trans (h1 k j hk hkj (by omega) (by omega) (by omega)) (H.no hl)

theorem insertAll_ok (H : Follows S.less le) {a b : Nat} (hb : b ≤ S.n) : ∀ (k i : Nat) (d : Cells α), a < i → i + k ≤ b → Ordered le a i d → Cut le S.n a d →
    ∃ d', S.insertAll a k i d = .ok d' ∧ Moves le S.n a b d d' ∧ Ordered le a (i + k) d' := by
  intro k
  induction k with
  | zero => exact fun i d _ _ ho _ => ⟨d, rfl, .refl d, ho⟩
  | succ k ih =>
    intro i d hi hk ho hc
    unfold insertAll
    obtain ⟨d1, e1, m1, o1⟩ := sink_ok H (a := a) (c := a) (top := i) (Nat.le_refl _) (by omega) i d (by omega) (Nat.le_refl _)
      (fun p q hp hpq hq _ hqi => ho p q hp hpq (by omega)) (fun q hq hq' => by omega) (fun q hq => hc q i hq (by omega) (by omega))
    rw [e1]
    have m1' := m1.mono (Nat.le_refl a) (show i + 1 ≤ b by omega)
    obtain ⟨d2, e2, m2, o2⟩ := ih (i + 1) d1 (by omega) (by omega) o1 (hc.moves H m1' hb (.inl (Nat.le_refl _)))
    exact ⟨d2, e2, m1'.trans m2, by rw [show i + (k + 1) = i + 1 + k by omega]; exact o2⟩

theorem insertionSort_ok (H : Follows S.less le) {a b : Nat} (hb : b ≤ S.n) (d : Cells α) (hc : Cut le S.n a d) :
    ∃ d', S.insertionSort a b d = .ok d' ∧ Moves le S.n a b d d' ∧ Ordered le a b d' := by
  unfold insertionSort
  by_cases h : a + 1 ≤ b
  · obtain ⟨d', e, m, o⟩ := insertAll_ok H hb (b - (a + 1)) (a + 1) d (by omega) (by omega) (fun i j hi hij hj => by rw [show i = j by omega]; exact H.refl _) hc
    exact ⟨d', e, m, by rwa [show a + 1 + (b - (a + 1)) = b by omega] at o⟩
  · rw [show b - (a + 1) = 0 by omega]
    exact ⟨d, rfl, .refl d, fun i j hi hij hj => by rw [show i = j by omega]; exact H.refl _⟩

/-! ## The heap -/

/-- `c` is a child of `p`. -/
def ChildOf (p c : Nat) : Prop := c = 2 * p + 1 ∨ c = 2 * p + 2

/-- From `lo` on, no node of the heap is less than its children. -/
def Heap (le : α → α → Prop) (lo hi first : Nat) (d : Cells α) : Prop := ∀ p c, lo ≤ p → ChildOf p c → c < hi → le (d (first + c)) (d (first + p))

theorem largerChild_ok (H : Follows S.less le) {hi first root : Nat} (hn : first + hi ≤ S.n) (d : Cells α) (hc : 2 * root + 1 < hi) :
    ∃ m, S.largerChild hi first (2 * root + 1) d = .ok m ∧ ChildOf root m ∧ m < hi ∧ ∀ c, ChildOf root c → c < hi → le (d (first + c)) (d (first + m)) := by
  unfold largerChild ChildOf
  split
  · next h =>
    rw [lessAt_ok (by omega) (by omega)]
    show ∃ m, GoRes.ok (if S.less (d (first + (2 * root + 1))) (d (first + (2 * root + 1) + 1)) = true then 2 * root + 1 + 1 else 2 * root + 1) = .ok m ∧ _
    cases hl : S.less (d (first + (2 * root + 1))) (d (first + (2 * root + 1) + 1)) with
    | true =>
      refine ⟨2 * root + 1 + 1, rfl, by omega, h, ?_⟩
      rintro c (rfl | rfl) _
      · exact H.yes hl
      · exact H.refl _
    | false =>
      refine ⟨2 * root + 1, rfl, by omega, hc, ?_⟩
      rintro c (rfl | rfl) _
      · exact H.refl _
      · exact H.no hl
  · next h =>
    refine ⟨2 * root + 1, rfl, by omega, hc, ?_⟩
    rintro c (rfl | rfl) h'
    · exact H.refl _
    · omega

theorem siftDown_ok (H : Follows S.less le) {lo hi first : Nat} (hn : first + hi ≤ S.n) : ∀ (f root : Nat) (d : Cells α), lo ≤ root → hi ≤ f + root →
    (∀ p c, lo ≤ p → p ≠ root → ChildOf p c → c < hi → le (d (first + c)) (d (first + p))) →
    (∀ p c, lo ≤ p → ChildOf p root → ChildOf root c → c < hi → le (d (first + c)) (d (first + p))) →
    ∃ d', S.siftDown hi first f root d = .ok d' ∧ Moves le S.n first (first + hi) d d' ∧ Heap le lo hi first d' := by
  intro f
  induction f with
  | zero =>
    intro root d _ hf h1 _
    refine ⟨d, rfl, .refl d, fun p c hp hpc hc => ?_⟩
    by_cases e : p = root
    · unfold ChildOf at hpc; omega
    · exact h1 p c hp e hpc hc
  | succ f ih =>
    intro root d hroot hf h1 h2
    unfold siftDown
    split
    · next h =>
      refine ⟨d, rfl, .refl d, fun p c hp hpc hc => ?_⟩
      by_cases e : p = root
      · unfold ChildOf at hpc; omega
      · exact h1 p c hp e hpc hc
    · next h =>
      obtain ⟨m, em, hm, hmh, hmax⟩ := largerChild_ok H hn d (root := root) (by omega)
      rw [em]
      show ∃ d', ((S.lessAt d (first + root) (first + m)).bind fun b => if b = true then (S.swapAt d (first + root) (first + m)).bind fun d => S.siftDown hi first f m d else .ok d) = .ok d' ∧ _
      have hrm : root < m := by unfold ChildOf at hm; omega
      rw [lessAt_ok (by omega) (by omega)]
      show ∃ d', (if S.less (d (first + root)) (d (first + m)) = true then (S.swapAt d (first + root) (first + m)).bind fun d => S.siftDown hi first f m d else .ok d) = .ok d' ∧ _
      split
      · next hl =>
        rw [swapAt_ok (by omega) (by omega)]
        obtain ⟨d', e1, e2, e3⟩ := ih m (swapped d (first + root) (first + m)) (by omega) (by omega)
          (fun p c hp hpm hpc hc => by
            by_cases hpr : p = root
            · subst hpr
              rw [swapped_left]
              by_cases hcm : c = m
              · subst hcm; rw [swapped_right]; exact H.yes hl
              · rw [swapped_other _ (by unfold ChildOf at hpc; omega) (by omega)]
                exact hmax c hpc hc
            · rw [swapped_other (k := first + p) _ (by omega) (by omega)]
              by_cases hcr : c = root
              · subst hcr; rw [swapped_left]
                exact h2 p m hp hpc hm hmh
              · rw [swapped_other _ (by omega) (by unfold ChildOf at hpc hm; omega)]
                exact h1 p c hp hpr hpc hc)
          (fun p c hp hpm hmc hc => by
            have hpr : p = root := by unfold ChildOf at hpm hm; omega
            subst hpr
            rw [swapped_left, swapped_other _ (by unfold ChildOf at hmc; omega) (by unfold ChildOf at hmc; omega)]
            exact h1 m c (by omega) (by omega) hmc hc)
        exact ⟨d', e1, (Moves.one d (by omega) (by omega) (by omega) (by omega)).trans e2, e3⟩
      · next hl =>
        have hl : S.less (d (first + root)) (d (first + m)) = false := by simpa using hl
        refine ⟨d, rfl, .refl d, fun p c hp hpc hc => ?_⟩
        by_cases e : p = root
        · subst e
          exact H.trans (hmax c hpc hc) (H.no hl)
        · exact h1 p c hp e hpc hc

theorem heapify_ok (H : Follows S.less le) {hi first : Nat} (hn : first + hi ≤ S.n) : ∀ (i : Nat) (d : Cells α), Heap le (i + 1) hi first d →
    ∃ d', S.heapify hi first i d = .ok d' ∧ Moves le S.n first (first + hi) d d' ∧ Heap le 0 hi first d' := by
  intro i
  induction i with
  | zero =>
    intro d hh
    unfold heapify
    exact siftDown_ok H hn hi 0 d (Nat.le_refl _) (by omega) (fun p c _ hp => hh p c (by omega)) (fun p c _ hp => by unfold ChildOf at hp; omega)
  | succ i ih =>
    intro d hh
    unfold heapify
    obtain ⟨d1, e1, m1, h1⟩ := siftDown_ok H (lo := i + 1) hn hi (i + 1) d (Nat.le_refl _) (by omega) (fun p c _ hp => hh p c (by omega)) (fun p c _ hp => by unfold ChildOf at hp; omega)
    rw [e1]
    obtain ⟨d2, e2, m2, h2⟩ := ih d1 h1
    exact ⟨d2, e2, m1.trans m2, h2⟩

theorem heap_max (H : Follows S.less le) {hi first : Nat} {d : Cells α} (h : Heap le 0 hi first d) : ∀ k, k < hi → le (d (first + k)) (d first) := by
  intro k
  induction k using Nat.strongRecOn with
  | _ k ih =>
    intro hk
    rcases Nat.eq_zero_or_pos k with rfl | hpos
    · exact H.refl _
    · refine H.trans (h ((k - 1) / 2) k (Nat.zero_le _) ?_ hk) (ih _ (by omega) (by omega))
      unfold ChildOf
      omega

theorem popAll_ok (H : Follows S.less le) {first m : Nat} (hn : first + m ≤ S.n) : ∀ (i : Nat) (d : Cells α), i ≤ m → Heap le 0 i first d → Ordered le (first + i) (first + m) d →
    (∀ p q, p < i → i ≤ q → q < m → le (d (first + p)) (d (first + q))) → ∃ d', S.popAll first i d = .ok d' ∧ Moves le S.n first (first + m) d d' ∧ Ordered le first (first + m) d' := by
  intro i
  induction i with
  | zero => exact fun d _ _ ho _ => ⟨d, rfl, .refl d, ho⟩
  | succ i ih =>
    intro d hi hh ho hx
    unfold popAll
    rw [swapAt_ok (by omega) (by omega)]
    show ∃ d', ((S.siftDown i first i 0 (swapped d first (first + i))).bind fun d => S.popAll first i d) = .ok d' ∧ _
    have hmax := heap_max H hh
    have hsw : ∀ k, k ≠ 0 → k ≠ i → swapped d first (first + i) (first + k) = d (first + k) := fun k h1 h2 => swapped_other _ (by omega) (by omega)
    obtain ⟨d1, e1, m1, h1⟩ := siftDown_ok H (lo := 0) (hi := i) (first := first) (by omega) i 0 (swapped d first (first + i)) (Nat.le_refl _) (by omega)
      (fun p c _ hp hpc hc => by
        rw [hsw c (by unfold ChildOf at hpc; omega) (by omega), hsw p hp (by unfold ChildOf at hpc; omega)]
        exact hh p c (Nat.zero_le _) hpc (by omega))
      (fun p c _ hp => by unfold ChildOf at hp; omega)
    rw [e1]
    have last : swapped d first (first + i) (first + i) = d first := swapped_right _ _ _
    have low : ∀ p, p < i → ∃ p', p' ≤ i ∧ swapped d first (first + i) (first + p) = d (first + p') := by
      intro p hp
      rcases Nat.eq_zero_or_pos p with rfl | hpos
      · exact ⟨i, Nat.le_refl _, swapped_left _ _ _⟩
      · exact ⟨p, by omega, hsw p (by omega) (by omega)⟩
    have o1 : Ordered le (first + i) (first + m) (swapped d first (first + i)) := by
      intro p q hp hpq hq
      obtain ⟨p, rfl⟩ := Nat.exists_eq_add_of_le (show first ≤ p by omega)
      obtain ⟨q, rfl⟩ := Nat.exists_eq_add_of_le (show first ≤ q by omega)
      by_cases hpi : p = i
      · subst hpi
        rw [last]
        by_cases hqi : q = p
        · subst hqi; rw [last]; exact H.refl _
        · rw [show swapped d first (first + p) (first + q) = d (first + q) from swapped_other _ (by omega) (by omega)]
          have := hx 0 q (by omega) (by omega) (by omega)
          rwa [Nat.add_zero] at this
      · rw [hsw p (by omega) hpi, hsw q (by omega) (by omega)]
        exact ho _ _ (by omega) hpq hq
    have o2 := o1.moves H m1 (.inr (Nat.le_refl _))
    obtain ⟨d2, e2, m2, h2⟩ := ih d1 (by omega) h1 o2 (fun p q hp hq hqm => by
      have hd : Eqv le (swapped d first (first + i) (first + q)) (d1 (first + q)) := m1.outside H (.inr (by omega))
      refine H.trans ?_ hd.1
      refine m1.inRange H (P := fun x => le x (swapped d first (first + i) (first + q))) (fun x y hxy h => H.trans hxy.2 h) ?_ (first + p) (by omega) (by omega)
      intro k hk hk'
      obtain ⟨k, rfl⟩ := Nat.exists_eq_add_of_le hk
      obtain ⟨p', hp', e⟩ := low k (by omega)
      rw [e]
      by_cases hqi : q = i
      · subst hqi; rw [last]; exact hmax p' (by omega)
      · rw [hsw q (by omega) hqi]
        exact hx p' q (by omega) (by omega) hqm)
    exact ⟨d2, e2, ((Moves.one d (by omega) (by omega) (by omega) (by omega)).trans (m1.mono (Nat.le_refl _) (by omega))).trans m2, h2⟩

theorem heapSort_ok (H : Follows S.less le) {a b : Nat} (hab : a ≤ b) (hb : b ≤ S.n) (d : Cells α) : ∃ d', S.heapSort a b d = .ok d' ∧ Moves le S.n a b d d' ∧ Ordered le a b d' := by
  unfold heapSort
  have hn : a + (b - a) ≤ S.n := by omega
  obtain ⟨d1, e1, m1, h1⟩ := heapify_ok H hn ((b - a - 1) / 2) d (fun p c hp hpc hc => by unfold ChildOf at hpc; omega)
  rw [e1]
  obtain ⟨d2, e2, m2, h2⟩ := popAll_ok H hn (b - a) d1 (Nat.le_refl _) h1 (fun i j hi hij hj => by omega) (fun p q _ hq hq' => by omega)
  rw [show a + (b - a) = b by omega] at m1 m2 h2
  exact ⟨d2, e2, m1.trans m2, h2⟩

/-! ## The partition -/

theorem skipLess_ok {a j : Nat} (d : Cells α) (ha : a < S.n) (hj : j < S.n) : ∀ (f i : Nat), j + 1 - i ≤ f →
    ∃ i', S.skipLess a j d f i = .ok i' ∧ i ≤ i' ∧ (i ≤ j + 1 → i' ≤ j + 1) ∧ (∀ k, i ≤ k → k < i' → S.less (d k) (d a) = true) ∧ (i' ≤ j → S.less (d i') (d a) = false) := by
  intro f
  induction f with
  | zero => exact fun i hf => ⟨i, rfl, Nat.le_refl _, fun h => h, fun k h h' => by omega, fun h => by omega⟩
  | succ f ih =>
    intro i hf
    unfold skipLess
    split
    · next h =>
      rw [lessAt_ok (by omega) ha]
      show ∃ i', (if S.less (d i) (d a) = true then S.skipLess a j d f (i + 1) else .ok i) = .ok i' ∧ _
      split
      · next hl =>
        obtain ⟨i', e, h1, h2, h3, h4⟩ := ih (i + 1) (by omega)
        refine ⟨i', e, by omega, fun _ => h2 (by omega), fun k hk hk' => ?_, h4⟩
        by_cases he : k = i
        · subst he; exact hl
        · exact h3 k (by omega) hk'
      · next hl => exact ⟨i, rfl, Nat.le_refl _, fun h => h, fun k h h' => by omega, fun _ => by simpa using hl⟩
    · next h => exact ⟨i, rfl, Nat.le_refl _, fun h => h, fun k h h' => by omega, fun h' => absurd h' h⟩

theorem skipNotLess_ok {a i : Nat} (d : Cells α) (ha : a < S.n) (hi : 1 ≤ i) : ∀ (f j : Nat), j < S.n → j + 1 - i ≤ f →
    ∃ j', S.skipNotLess a i d f j = .ok j' ∧ j' ≤ j ∧ (i ≤ j + 1 → i ≤ j' + 1) ∧ (∀ k, j' < k → k ≤ j → S.less (d k) (d a) = false) ∧ (i ≤ j' → S.less (d j') (d a) = true) := by
  intro f
  induction f with
  | zero => exact fun j _ hf => ⟨j, rfl, Nat.le_refl _, fun h => h, fun k h h' => by omega, fun h => by omega⟩
  | succ f ih =>
    intro j hj hf
    unfold skipNotLess
    split
    · next h =>
      rw [lessAt_ok hj ha]
      show ∃ j', (if S.less (d j) (d a) = true then .ok j else S.skipNotLess a i d f (j - 1)) = .ok j' ∧ _
      split
      · next hl => exact ⟨j, rfl, Nat.le_refl _, fun h => h, fun k h h' => by omega, fun _ => hl⟩
      · next hl =>
        obtain ⟨j', e, h1, h2, h3, h4⟩ := ih (j - 1) (by omega) (by omega)
        refine ⟨j', e, by omega, fun _ => h2 (by omega), fun k hk hk' => ?_, h4⟩
        by_cases he : k = j
        · subst he; simpa using hl
        · exact h3 k hk (by omega)
    · next h => exact ⟨j, rfl, Nat.le_refl _, fun h => h, fun k h h' => by omega, fun h' => absurd h' h⟩

/-- What is between `a` and `i` comes before the element at `a`, what is after `j` comes after it. -/
structure Parted (le : α → α → Prop) (a b i j : Nat) (d : Cells α) : Prop where
  low : ∀ k, a < k → k < i → le (d k) (d a)
  high : ∀ k, j < k → k < b → le (d a) (d k)

theorem Parted.swap {a b i j : Nat} {d : Cells α} (h : Parted le a b i j d) (ha : a < i) (hij : i < j) (hj : j < b) (h1 : le (d j) (d a)) (h2 : le (d a) (d i)) :
    Parted le a b (i + 1) (j - 1) (swapped d i j) where
  low := by
    intro k hk hki
    rw [swapped_other (k := a) _ (by omega) (by omega)]
    by_cases e : k = i
    · subst e; rw [swapped_left]; exact h1
    · rw [swapped_other _ e (by omega)]; exact h.low k hk (by omega)
  high := by
    intro k hk hkb
    rw [swapped_other (k := a) _ (by omega) (by omega)]
    by_cases e : k = j
    · subst e; rw [swapped_right]; exact h2
    · rw [swapped_other _ (by omega) e]; exact h.high k (by omega) hkb

/-- One round of the two inner loops of the partition. -/
theorem scan_ok (H : Follows S.less le) {a b i j : Nat} (hb : b ≤ S.n) (ha : a < i) (hij : i ≤ j + 1) (hj : j < b) (d : Cells α) (hp : Parted le a b i j d) {f : Nat} (hf : j + 1 - i ≤ f) :
    ∃ i', S.skipLess a j d f i = .ok i' ∧ i ≤ i' ∧ i' ≤ j + 1 ∧ ∀ g, j + 1 - i' ≤ g → ∃ j', S.skipNotLess a i' d g j = .ok j' ∧ j' ≤ j ∧ i' ≤ j' + 1 ∧ Parted le a b i' j' d ∧ i' ≠ j' ∧
      (i' ≤ j' → le (d j') (d a) ∧ le (d a) (d i')) := by
  obtain ⟨i', e1, h1, h2, h3, h4⟩ := skipLess_ok (S := S) (a := a) (j := j) d (by omega) (by omega) f i hf
  refine ⟨i', e1, h1, h2 hij, fun g hg => ?_⟩
  obtain ⟨j', e2, g1, g2, g3, g4⟩ := skipNotLess_ok (S := S) (a := a) (i := i') d (by omega) (by omega) g j (by omega) hg
  refine ⟨j', e2, g1, g2 (h2 hij), ⟨fun k hk hki => ?_, fun k hk hkb => ?_⟩, ?_, ?_⟩
  · by_cases e : k < i
    · exact hp.low k hk e
    · exact H.yes (h3 k (by omega) hki)
  · by_cases e : j < k
    · exact hp.high k e hkb
    · exact H.no (g3 k hk (by omega))
  · intro e
    have e1 := h4 (by omega)
    rw [e] at e1
    rw [g4 (by omega)] at e1
    exact absurd e1 (by simp)
  · exact fun h => ⟨H.yes (g4 h), H.no (h4 (by omega))⟩

theorem partLoop_ok (H : Follows S.less le) {a b : Nat} (hb : b ≤ S.n) : ∀ (f i j : Nat) (d : Cells α), j + 1 - i < f → a < i → i ≤ j + 1 → j < b → Parted le a b i j d →
    ∃ d' j', S.partLoop a f i j d = .ok (d', j') ∧ Moves le S.n a b d d' ∧ a ≤ j' ∧ j' < b ∧ Parted le a b (j' + 1) j' d' := by
  intro f
  induction f with
  | zero => intro i j d hf; omega
  | succ f ih =>
    intro i j d hf ha hij hj hp
    obtain ⟨i', e1, h1, h2, h3⟩ := scan_ok H hb ha hij hj d hp (f := j + 1 - i) (Nat.le_refl _)
    obtain ⟨j', e2, g1, g2, g3, g4, g5⟩ := h3 (j + 1 - i') (Nat.le_refl _)
    unfold partLoop
    rw [e1]
    show ∃ d' j', ((S.skipNotLess a i' d (j + 1 - i') j).bind fun j => if j < i' then .ok (d, j) else (S.swapAt d i' j).bind fun d => S.partLoop a f (i' + 1) (j - 1) d) = .ok (d', j') ∧ _
    rw [e2]
    show ∃ d'' j'', (if j' < i' then .ok (d, j') else (S.swapAt d i' j').bind fun d => S.partLoop a f (i' + 1) (j' - 1) d) = .ok (d'', j'') ∧ _
    split
    · next hlt =>
      have e : i' = j' + 1 := by omega
      rw [e] at g3
      exact ⟨d, j', rfl, .refl d, by omega, by omega, g3⟩
    · next hlt =>
      rw [swapAt_ok (by omega) (by omega)]
      have hg := g5 (by omega)
      obtain ⟨d', j'', e3, m3, k1, k2, k3⟩ := ih (i' + 1) (j' - 1) (swapped d i' j') (by omega) (by omega) (by omega) (by omega) (g3.swap (by omega) (by omega) (by omega) hg.1 hg.2)
      exact ⟨d', j'', e3, (Moves.one d (by omega) (by omega) (by omega) (by omega)).trans m3, k1, k2, k3⟩

/-- What is before `mid` comes before the element there, what is after `mid` after it. -/
structure Split (le : α → α → Prop) (a b mid : Nat) (d : Cells α) : Prop where
  low : ∀ k, a ≤ k → k < mid → le (d k) (d mid)
  high : ∀ k, mid < k → k < b → le (d mid) (d k)

theorem Parted.place {a b j : Nat} {d : Cells α} (h : Parted le a b (j + 1) j d) (ha : a ≤ j) : Split le a b j (swapped d j a) where
  low := by
    intro k hk hkj
    rw [swapped_left]
    by_cases e : k = a
    · subst e; rw [swapped_right]; exact h.low j hkj (by omega)
    · rw [swapped_other _ (by omega) e]; exact h.low k (by omega) (by omega)
  high := by
    intro k hk hkb
    rw [swapped_left, swapped_other _ (by omega) (by omega)]
    exact h.high k hk hkb

theorem partition_ok (H : Follows S.less le) {a b pivot : Nat} (hb : b ≤ S.n) (hab : a + 1 < b) (hp : a ≤ pivot) (hp' : pivot < b) (d : Cells α) :
    ∃ d' mid t, S.partition a b pivot d = .ok (d', mid, t) ∧ Moves le S.n a b d d' ∧ a ≤ mid ∧ mid < b ∧ Split le a b mid d' := by
  unfold partition
  rw [swapAt_ok (by omega) (by omega)]
  have m0 : Moves le S.n a b d (swapped d a pivot) := Moves.one d (by omega) (by omega) (by omega) (by omega)
  generalize swapped d a pivot = d0 at m0
  obtain ⟨i', e1, h1, h2, h3⟩ := scan_ok H hb (a := a) (i := a + 1) (j := b - 1) (by omega) (by omega) (by omega) d0 ⟨fun k _ _ => by omega, fun k _ _ => by omega⟩ (f := b - (a + 1)) (by omega)
  obtain ⟨j', e2, g1, g2, g3, g4, g5⟩ := h3 (b - i') (by omega)
  show ∃ d' mid t, ((S.skipLess a (b - 1) d0 (b - (a + 1)) (a + 1)).bind fun i => (S.skipNotLess a i d0 (b - i) (b - 1)).bind fun j =>
    if j < i then (S.swapAt d0 j a).bind fun d => .ok (d, j, true)
    else (S.swapAt d0 i j).bind fun d => (S.partLoop a (b - a) (i + 1) (j - 1) d).bind fun r => (S.swapAt r.1 r.2 a).bind fun d => .ok (d, r.2, false)) = .ok (d', mid, t) ∧ _
  rw [e1]
  show ∃ d' mid t, ((S.skipNotLess a i' d0 (b - i') (b - 1)).bind fun j =>
    if j < i' then (S.swapAt d0 j a).bind fun d => .ok (d, j, true)
    else (S.swapAt d0 i' j).bind fun d => (S.partLoop a (b - a) (i' + 1) (j - 1) d).bind fun r => (S.swapAt r.1 r.2 a).bind fun d => .ok (d, r.2, false)) = .ok (d', mid, t) ∧ _
  rw [e2]
  show ∃ d' mid t, (if j' < i' then (S.swapAt d0 j' a).bind fun d => .ok (d, j', true)
    else (S.swapAt d0 i' j').bind fun d => (S.partLoop a (b - a) (i' + 1) (j' - 1) d).bind fun r => (S.swapAt r.1 r.2 a).bind fun d => .ok (d, r.2, false)) = .ok (d', mid, t) ∧ _
  split
  · next hlt =>
    have e : i' = j' + 1 := by omega
    rw [e] at g3
    rw [swapAt_ok (by omega) (by omega)]
    exact ⟨_, _, _, rfl, m0.trans (Moves.one d0 (by omega) (by omega) (by omega) (by omega)), by omega, by omega, g3.place (by omega)⟩
  · next hlt =>
    rw [swapAt_ok (by omega) (by omega)]
    have hg := g5 (by omega)
    obtain ⟨d', j'', e3, m3, k1, k2, k3⟩ := partLoop_ok H hb (b - a) (i' + 1) (j' - 1) (swapped d0 i' j') (by omega) (by omega) (by omega) (by omega) (g3.swap (by omega) (by omega) (by omega) hg.1 hg.2)
    show ∃ d' mid t, ((S.partLoop a (b - a) (i' + 1) (j' - 1) (swapped d0 i' j')).bind fun r => (S.swapAt r.1 r.2 a).bind fun d => .ok (d, r.2, false)) = .ok (d', mid, t) ∧ _
    rw [e3]
    show ∃ d'' mid t, ((S.swapAt d' j'' a).bind fun d => .ok (d, j'', false)) = .ok (d'', mid, t) ∧ _
    rw [swapAt_ok (by omega) (by omega)]
    exact ⟨_, _, _, rfl, ((m0.trans (Moves.one d0 (by omega) (by omega) (by omega) (by omega))).trans m3).trans (Moves.one d' (by omega) (by omega) (by omega) (by omega)), by omega, by omega, k3.place k1⟩

theorem skipNotMore_ok {a j : Nat} (d : Cells α) (ha : a < S.n) (hj : j < S.n) : ∀ (f i : Nat), j + 1 - i ≤ f →
    ∃ i', S.skipNotMore a j d f i = .ok i' ∧ i ≤ i' ∧ (i ≤ j + 1 → i' ≤ j + 1) ∧ (∀ k, i ≤ k → k < i' → S.less (d a) (d k) = false) ∧ (i' ≤ j → S.less (d a) (d i') = true) := by
  intro f
  induction f with
  | zero => exact fun i hf => ⟨i, rfl, Nat.le_refl _, fun h => h, fun k h h' => by omega, fun h => by omega⟩
  | succ f ih =>
    intro i hf
    unfold skipNotMore
    split
    · next h =>
      rw [lessAt_ok ha (by omega)]
      show ∃ i', (if S.less (d a) (d i) = true then .ok i else S.skipNotMore a j d f (i + 1)) = .ok i' ∧ _
      split
      · next hl => exact ⟨i, rfl, Nat.le_refl _, fun h => h, fun k h h' => by omega, fun _ => hl⟩
      · next hl =>
        obtain ⟨i', e, h1, h2, h3, h4⟩ := ih (i + 1) (by omega)
        refine ⟨i', e, by omega, fun _ => h2 (by omega), fun k hk hk' => ?_, h4⟩
        by_cases he : k = i
        · subst he; simpa using hl
        · exact h3 k (by omega) hk'
    · next h => exact ⟨i, rfl, Nat.le_refl _, fun h => h, fun k h h' => by omega, fun h' => absurd h' h⟩

theorem skipMore_ok {a i : Nat} (d : Cells α) (ha : a < S.n) (hi : 1 ≤ i) : ∀ (f j : Nat), j < S.n → j + 1 - i ≤ f →
    ∃ j', S.skipMore a i d f j = .ok j' ∧ j' ≤ j ∧ (i ≤ j + 1 → i ≤ j' + 1) ∧ (∀ k, j' < k → k ≤ j → S.less (d a) (d k) = true) ∧ (i ≤ j' → S.less (d a) (d j') = false) := by
  intro f
  induction f with
  | zero => exact fun j _ hf => ⟨j, rfl, Nat.le_refl _, fun h => h, fun k h h' => by omega, fun h => by omega⟩
  | succ f ih =>
    intro j hj hf
    unfold skipMore
    split
    · next h =>
      rw [lessAt_ok ha hj]
      show ∃ j', (if S.less (d a) (d j) = true then S.skipMore a i d f (j - 1) else .ok j) = .ok j' ∧ _
      split
      · next hl =>
        obtain ⟨j', e, h1, h2, h3, h4⟩ := ih (j - 1) (by omega) (by omega)
        refine ⟨j', e, by omega, fun _ => h2 (by omega), fun k hk hk' => ?_, h4⟩
        by_cases he : k = j
        · subst he; exact hl
        · exact h3 k hk (by omega)
      · next hl => exact ⟨j, rfl, Nat.le_refl _, fun h => h, fun k h h' => by omega, fun _ => by simpa using hl⟩
    · next h => exact ⟨j, rfl, Nat.le_refl _, fun h => h, fun k h h' => by omega, fun h' => absurd h' h⟩

theorem equalLoop_ok (H : Follows S.less le) {a b : Nat} (hb : b ≤ S.n) : ∀ (f i j : Nat) (d : Cells α), j + 1 - i < f → a < i → i ≤ j + 1 → j < b → Parted le a b i j d →
    ∃ d' i', S.equalLoop a f i j d = .ok (d', i') ∧ Moves le S.n a b d d' ∧ d' a = d a ∧ a < i' ∧ i' ≤ b ∧ Parted le a b i' (i' - 1) d' := by
  intro f
  induction f with
  | zero => intro i j d hf; omega
  | succ f ih =>
    intro i j d hf ha hij hj hp
    obtain ⟨i', e1, h1, h2, h3, h4⟩ := skipNotMore_ok (S := S) (a := a) (j := j) d (by omega) (by omega) (j + 1 - i) i (Nat.le_refl _)
    have h2 := h2 hij
    obtain ⟨j', e2, g1, g2, g3, g4⟩ := skipMore_ok (S := S) (a := a) (i := i') d (by omega) (by omega) (j + 1 - i') j (by omega) (Nat.le_refl _)
    have g2 := g2 h2
    have hp' : Parted le a b i' j' d := by
      refine ⟨fun k hk hki => ?_, fun k hk hkb => ?_⟩
      · by_cases e : k < i
        · exact hp.low k hk e
        · exact H.no (h3 k (by omega) hki)
      · by_cases e : j < k
        · exact hp.high k e hkb
        · exact H.yes (g3 k hk (by omega))
    have hne : i' ≠ j' := by
      intro e
      have e1 := h4 (by omega)
      rw [e] at e1
      rw [g4 (by omega)] at e1
      exact absurd e1 (by simp)
    unfold equalLoop
    rw [e1]
    show ∃ d' j', ((S.skipMore a i' d (j + 1 - i') j).bind fun j => if j < i' then .ok (d, i') else (S.swapAt d i' j).bind fun d => S.equalLoop a f (i' + 1) (j - 1) d) = .ok (d', j') ∧ _
    rw [e2]
    show ∃ d'' j'', (if j' < i' then .ok (d, i') else (S.swapAt d i' j').bind fun d => S.equalLoop a f (i' + 1) (j' - 1) d) = .ok (d'', j'') ∧ _
    split
    · next hlt =>
      have e : j' = i' - 1 := by omega
      rw [e] at hp'
      exact ⟨d, i', rfl, .refl d, rfl, by omega, by omega, hp'⟩
    · next hlt =>
      rw [swapAt_ok (by omega) (by omega)]
      obtain ⟨d', j'', e3, m3, k0, k1, k2, k3⟩ := ih (i' + 1) (j' - 1) (swapped d i' j') (by omega) (by omega) (by omega) (by omega)
        (hp'.swap (by omega) (by omega) (by omega) (H.no (g4 (by omega))) (H.yes (h4 (by omega))))
      exact ⟨d', j'', e3, (Moves.one d (by omega) (by omega) (by omega) (by omega)).trans m3, by rw [k0, swapped_other _ (by omega) (by omega)], k1, k2, k3⟩

/-- If nothing comes before the pivot, what is put to the left is equal to it. -/
theorem partitionEqual_ok (H : Follows S.less le) {a b pivot : Nat} (hb : b ≤ S.n) (hab : a + 1 < b) (hp : a ≤ pivot) (hp' : pivot < b) (d : Cells α) (hmin : ∀ k, a ≤ k → k < b → le (d pivot) (d k)) :
    ∃ d' mid, S.partitionEqual a b pivot d = .ok (d', mid) ∧ Moves le S.n a b d d' ∧ a < mid ∧ mid ≤ b ∧ Ordered le a mid d' ∧ (∀ i j, a ≤ i → i < mid → mid ≤ j → j < b → le (d' i) (d' j)) := by
  unfold partitionEqual
  rw [swapAt_ok (by omega) (by omega)]
  have m0 : Moves le S.n a b d (swapped d a pivot) := Moves.one d (by omega) (by omega) (by omega) (by omega)
  obtain ⟨d', mid, e, m, h0, h1, h2, h3⟩ := equalLoop_ok H (a := a) hb (b - a) (a + 1) (b - 1) (swapped d a pivot) (by omega) (by omega) (by omega) (by omega) ⟨fun k _ _ => by omega, fun k _ _ => by omega⟩
  have m' := m0.trans m
  have hle : ∀ k, a ≤ k → k < b → le (d pivot) (d' k) := m'.inRange H (P := fun x => le (d pivot) x) (fun x y hxy h => H.trans h hxy.1) hmin
  have hbefore : ∀ i, a ≤ i → i < mid → le (d' i) (d pivot) := by
    rw [swapped_left] at h0
    rw [← h0]
    intro i hi him
    by_cases e : i = a
    · subst e; exact H.refl _
    · exact h3.low i (by omega) him
  refine ⟨d', mid, e, m', h1, h2, ?_, ?_⟩
  · exact fun i j hi hij hj => H.trans (hbefore i hi (by omega)) (hle j (by omega) (by omega))
  · exact fun i j hi hi' hj hj' => H.trans (hbefore i hi hi') (hle j (by omega) hj')

/-! ## The attempt to finish at once -/

theorem skipOrdered_ok (H : Follows S.less le) {a b : Nat} (hb : b ≤ S.n) (d : Cells α) : ∀ (f i : Nat), b - i ≤ f → a < i → i ≤ b → Ordered le a i d →
    ∃ i', S.skipOrdered b d f i = .ok i' ∧ i ≤ i' ∧ i' ≤ b ∧ Ordered le a i' d := by
  intro f
  induction f with
  | zero => exact fun i _ _ hi' ho => ⟨i, rfl, Nat.le_refl _, hi', ho⟩
  | succ f ih =>
    intro i hf hi hi' ho
    unfold skipOrdered
    split
    · next h =>
      rw [lessAt_ok (by omega) (by omega)]
      show ∃ i', (if S.less (d i) (d (i - 1)) = true then .ok i else S.skipOrdered b d f (i + 1)) = .ok i' ∧ _
      split
      · exact ⟨i, rfl, Nat.le_refl _, hi', ho⟩
      · next hl =>
        have hl : S.less (d i) (d (i - 1)) = false := by simpa using hl
        obtain ⟨i', e, h1, h2, h3⟩ := ih (i + 1) (by omega) (by omega) (by omega) (fun p q hp hpq hq => by
          by_cases e : q = i
          · subst e
            by_cases e' : p = q
            · subst e'; exact H.refl _
            · exact H.trans (ho p (q - 1) hp (by omega) (by omega)) (H.no hl)
          · exact ho p q hp hpq (by omega))
        exact ⟨i', e, by omega, h2, h3⟩
    · exact ⟨i, rfl, Nat.le_refl _, hi', ho⟩

theorem rise_ok {i b : Nat} (hb : b ≤ S.n) : ∀ (f j : Nat) (d : Cells α), i < j → ∃ d', S.rise b f j d = .ok d' ∧ Moves le S.n i b d d' := by
  intro f
  induction f with
  | zero => exact fun j d _ => ⟨d, rfl, .refl d⟩
  | succ f ih =>
    intro j d hj
    unfold rise
    split
    · next h =>
      rw [lessAt_ok (by omega) (by omega)]
      show ∃ d', (if S.less (d j) (d (j - 1)) = true then (S.swapAt d j (j - 1)).bind fun d => S.rise b f (j + 1) d else .ok d) = .ok d' ∧ _
      split
      · rw [swapAt_ok (by omega) (by omega)]
        obtain ⟨d', e, m⟩ := ih (j + 1) (swapped d j (j - 1)) (by omega)
        exact ⟨d', e, (Moves.one d (by omega) (by omega) (by omega) (by omega)).trans m⟩
      · exact ⟨d, rfl, .refl d⟩
    · exact ⟨d, rfl, .refl d⟩

theorem partialLoop_ok (H : Follows S.less le) {a b : Nat} (hb : b ≤ S.n) : ∀ (f i : Nat) (d : Cells α), a < i → i ≤ b → Cut le S.n a d → Ordered le a i d →
    ∃ d' t, S.partialLoop a b f i d = .ok (d', t) ∧ Moves le S.n a b d d' ∧ (t = true → Ordered le a b d') := by
  intro f
  induction f with
  | zero => exact fun i d _ _ _ _ => ⟨d, false, rfl, .refl d, fun h => by simp at h⟩
  | succ f ih =>
    intro i d hi hi' hc ho
    obtain ⟨i', e1, h1, h2, h3⟩ := skipOrdered_ok H hb d (b - i) i (Nat.le_refl _) hi hi' ho
    unfold partialLoop
    rw [e1]
    show ∃ d' t, (if i' = b then .ok (d, true) else if b - a < 50 then .ok (d, false) else (S.swapAt d i' (i' - 1)).bind fun d =>
        (if 2 ≤ i' - a then S.sink 0 (i' - 1) d else .ok d).bind fun d =>
          (if 2 ≤ b - i' then S.rise b (b - (i' + 1)) (i' + 1) d else .ok d).bind fun d => S.partialLoop a b f i' d) = .ok (d', t) ∧ _
    split
    · next he => exact ⟨d, true, rfl, .refl d, fun _ => he ▸ h3⟩
    · split
      · exact ⟨d, false, rfl, .refl d, fun h => by simp at h⟩
      · rw [swapAt_ok (by omega) (by omega)]
        have m1 : Moves le S.n a b d (swapped d i' (i' - 1)) := Moves.one d (by omega) (by omega) (by omega) (by omega)
        have c1 := hc.moves H m1 hb (.inl (Nat.le_refl _))
        have o1 : Ordered le a (i' - 1) (swapped d i' (i' - 1)) := by
          intro p q hp hpq hq
          rw [swapped_other _ (by omega) (by omega), swapped_other _ (by omega) (by omega)]
          exact h3 p q hp hpq (by omega)
        generalize swapped d i' (i' - 1) = d1 at m1 c1 o1
        have step2 : ∃ d2, (if 2 ≤ i' - a then S.sink 0 (i' - 1) d1 else .ok d1) = .ok d2 ∧ Moves le S.n a b d1 d2 ∧ Ordered le a i' d2 := by
          split
          · obtain ⟨d2, e2, m2, o2⟩ := sink_ok H (a := a) (c := 0) (top := i' - 1) (Nat.zero_le _) (by omega) (i' - 1) d1 (by omega) (Nat.le_refl _)
              (fun p q hp hpq hq _ hqi => o1 p q hp hpq (by omega)) (fun q hq hq' => by omega) (fun q hq => c1 q (i' - 1) hq (by omega) (by omega))
            rw [show i' - 1 + 1 = i' by omega] at m2 o2
            exact ⟨d2, e2, m2.mono (Nat.le_refl _) h2, o2⟩
          · exact ⟨d1, rfl, .refl d1, fun p q hp hpq hq => by rw [show p = q by omega]; exact H.refl _⟩
        obtain ⟨d2, e2, m2, o2⟩ := step2
        have step3 : ∃ d3, (if 2 ≤ b - i' then S.rise b (b - (i' + 1)) (i' + 1) d2 else .ok d2) = .ok d3 ∧ Moves le S.n i' b d2 d3 := by
          split
          · exact rise_ok hb _ _ d2 (by omega)
          · exact ⟨d2, rfl, .refl d2⟩
        obtain ⟨d3, e3, m3⟩ := step3
        have m23 := m2.trans (m3.mono (show a ≤ i' by omega) (Nat.le_refl b))
        obtain ⟨d4, t, e4, m4, o4⟩ := ih i' d3 (by omega) h2 (c1.moves H m23 hb (.inl (Nat.le_refl _))) (o2.moves H m3 (.inl (Nat.le_refl _)))
        refine ⟨d4, t, ?_, (m1.trans m23).trans m4, o4⟩
        show ((if 2 ≤ i' - a then S.sink 0 (i' - 1) d1 else .ok d1).bind fun d =>
          (if 2 ≤ b - i' then S.rise b (b - (i' + 1)) (i' + 1) d else .ok d).bind fun d => S.partialLoop a b f i' d) = .ok (d4, t)
        rw [e2]
        show ((if 2 ≤ b - i' then S.rise b (b - (i' + 1)) (i' + 1) d2 else .ok d2).bind fun d => S.partialLoop a b f i' d) = .ok (d4, t)
        rw [e3]
        exact e4

/-! ## The pivot -/

theorem bitsLen_pow {n : Nat} (h : 1 ≤ n) : 2 ^ bitsLen n ≤ 2 * n := by
  unfold bitsLen
  rw [if_neg (by omega), Nat.pow_succ]
  have := Nat.log2_self_le (n := n) (by omega)
  omega

theorem drawn_lt {length : Nat} (h : 1 ≤ length) (r : BitVec 64) : drawn length r < length := by
  unfold drawn
  have h1 := bitsLen_pow h
  have h2 : r.toNat % 2 ^ bitsLen length < 2 ^ bitsLen length := Nat.mod_lt _ (Nat.two_pow_pos _)
  show (if length ≤ r.toNat % 2 ^ bitsLen length then r.toNat % 2 ^ bitsLen length - length else r.toNat % 2 ^ bitsLen length) < length
  split <;> omega

theorem breakPatterns_ok {a b : Nat} (hb : b ≤ S.n) (d : Cells α) : ∃ d', S.breakPatterns a b d = .ok d' ∧ Moves le S.n a b d d' := by
  unfold breakPatterns
  dsimp only
  split
  · next h =>
    have h1 := drawn_lt (length := b - a) (by omega) (S.next (BitVec.ofNat 64 (b - a)))
    have h2 := drawn_lt (length := b - a) (by omega) (S.next (S.next (BitVec.ofNat 64 (b - a))))
    have h3 := drawn_lt (length := b - a) (by omega) (S.next (S.next (S.next (BitVec.ofNat 64 (b - a)))))
    generalize drawn (b - a) (S.next (BitVec.ofNat 64 (b - a))) = r1 at h1
    generalize drawn (b - a) (S.next (S.next (BitVec.ofNat 64 (b - a)))) = r2 at h2
    generalize drawn (b - a) (S.next (S.next (S.next (BitVec.ofNat 64 (b - a))))) = r3 at h3
    have hq : 2 ≤ (b - a) / 4 := by omega
    have hq' : (b - a) / 4 * 2 + 1 ≤ b - a := by omega
    rw [swapAt_ok (by omega) (by omega)]
    show ∃ d', ((S.swapAt _ (a + (b - a) / 4 * 2 - 1) (a + r2)).bind fun d => S.swapAt d (a + (b - a) / 4 * 2 - 1 + 1) (a + r3)) = .ok d' ∧ _
    rw [swapAt_ok (by omega) (by omega)]
    show ∃ d', S.swapAt _ (a + (b - a) / 4 * 2 - 1 + 1) (a + r3) = .ok d' ∧ _
    rw [swapAt_ok (by omega) (by omega)]
    exact ⟨_, rfl, (((Moves.refl d).inside _ _ (by omega) (by omega) (by omega) (by omega)).inside _ _ (by omega) (by omega) (by omega) (by omega)).inside _ _ (by omega) (by omega) (by omega) (by omega)⟩
  · exact ⟨d, rfl, .refl d⟩

theorem order2_ok {d : Cells α} {a b s lo hi : Nat} (hn : hi ≤ S.n) (ha : lo ≤ a ∧ a < hi) (hb : lo ≤ b ∧ b < hi) :
    ∃ x, S.order2 d a b s = .ok x ∧ (lo ≤ x.1 ∧ x.1 < hi) ∧ (lo ≤ x.2.1 ∧ x.2.1 < hi) := by
  unfold order2
  rw [lessAt_ok (by omega) (by omega)]
  show ∃ x, GoRes.ok (if S.less (d b) (d a) = true then (b, a, s + 1) else (a, b, s)) = .ok x ∧ _
  split
  · exact ⟨_, rfl, hb, ha⟩
  · exact ⟨_, rfl, ha, hb⟩

theorem median_ok {d : Cells α} {a b c s lo hi : Nat} (hn : hi ≤ S.n) (ha : lo ≤ a ∧ a < hi) (hb : lo ≤ b ∧ b < hi) (hc : lo ≤ c ∧ c < hi) :
    ∃ x, S.median d a b c s = .ok x ∧ (lo ≤ x.1 ∧ x.1 < hi) := by
  unfold median
  obtain ⟨x, e1, x1, x2⟩ := order2_ok (d := d) (s := s) hn ha hb
  rw [e1]
  show ∃ r, ((S.order2 d x.2.1 c x.2.2).bind fun y => (S.order2 d x.1 y.1 y.2.2).bind fun z => .ok (z.2.1, z.2.2)) = .ok r ∧ _
  obtain ⟨y, e2, y1, y2⟩ := order2_ok (d := d) (s := x.2.2) hn x2 hc
  rw [e2]
  show ∃ r, ((S.order2 d x.1 y.1 y.2.2).bind fun z => .ok (z.2.1, z.2.2)) = .ok r ∧ _
  obtain ⟨z, e3, z1, z2⟩ := order2_ok (d := d) (s := y.2.2) hn x1 y1
  rw [e3]
  exact ⟨_, rfl, z2⟩

theorem choosePivot_ok {a b : Nat} (hb : b ≤ S.n) (hab : a < b) (d : Cells α) : ∃ x, S.choosePivot a b d = .ok x ∧ (a ≤ x.1 ∧ x.1 < b) := by
  unfold choosePivot
  dsimp only
  split
  · split
    · obtain ⟨x, e1, x1⟩ := median_ok (S := S) (d := d) (a := a + (b - a) / 4 * 1 - 1) (b := a + (b - a) / 4 * 1) (c := a + (b - a) / 4 * 1 + 1) (s := 0) (lo := a) hb (by omega) (by omega) (by omega)
      rw [e1]
      show ∃ r, ((S.median d (a + (b - a) / 4 * 2 - 1) (a + (b - a) / 4 * 2) (a + (b - a) / 4 * 2 + 1) x.2).bind fun y => (S.median d (a + (b - a) / 4 * 3 - 1) (a + (b - a) / 4 * 3) (a + (b - a) / 4 * 3 + 1) y.2).bind fun z =>
        (S.median d x.1 y.1 z.1 z.2).bind fun r => .ok (r.1, hintOf r.2)) = .ok r ∧ _
      obtain ⟨y, e2, y1⟩ := median_ok (S := S) (d := d) (a := a + (b - a) / 4 * 2 - 1) (b := a + (b - a) / 4 * 2) (c := a + (b - a) / 4 * 2 + 1) (s := x.2) (lo := a) hb (by omega) (by omega) (by omega)
      rw [e2]
      show ∃ r, ((S.median d (a + (b - a) / 4 * 3 - 1) (a + (b - a) / 4 * 3) (a + (b - a) / 4 * 3 + 1) y.2).bind fun z => (S.median d x.1 y.1 z.1 z.2).bind fun r => .ok (r.1, hintOf r.2)) = .ok r ∧ _
      obtain ⟨z, e3, z1⟩ := median_ok (S := S) (d := d) (a := a + (b - a) / 4 * 3 - 1) (b := a + (b - a) / 4 * 3) (c := a + (b - a) / 4 * 3 + 1) (s := y.2) (lo := a) hb (by omega) (by omega) (by omega)
      rw [e3]
      show ∃ r, ((S.median d x.1 y.1 z.1 z.2).bind fun r => .ok (r.1, hintOf r.2)) = .ok r ∧ _
      obtain ⟨r, e4, r1⟩ := median_ok (S := S) (d := d) (s := z.2) hb x1 y1 z1
      rw [e4]
      exact ⟨_, rfl, r1⟩
    · obtain ⟨r, e4, r1⟩ := median_ok (S := S) (d := d) (a := a + (b - a) / 4 * 1) (b := a + (b - a) / 4 * 2) (c := a + (b - a) / 4 * 3) (s := 0) (lo := a) hb (by omega) (by omega) (by omega)
      rw [e4]
      exact ⟨_, rfl, r1⟩
  · exact ⟨_, rfl, by dsimp only; omega⟩

theorem reverseLoop_ok {a b : Nat} (hb : b ≤ S.n) : ∀ (f i j : Nat) (d : Cells α), a ≤ i → j < b → ∃ d', S.reverseLoop f i j d = .ok d' ∧ Moves le S.n a b d d' := by
  intro f
  induction f with
  | zero => exact fun i j d _ _ => ⟨d, rfl, .refl d⟩
  | succ f ih =>
    intro i j d hi hj
    unfold reverseLoop
    split
    · rw [swapAt_ok (by omega) (by omega)]
      obtain ⟨d', e, m⟩ := ih (i + 1) (j - 1) (swapped d i j) (by omega) (by omega)
      exact ⟨d', e, (Moves.one d (by omega) (by omega) (by omega) (by omega)).trans m⟩
    · exact ⟨d, rfl, .refl d⟩

theorem unbalanced_ok {v : Vars} (hb : v.b ≤ S.n) (d : Cells α) : ∃ r, S.unbalanced v d = .ok r ∧ Moves le S.n v.a v.b d r.1 := by
  unfold unbalanced
  split
  · exact ⟨_, rfl, .refl d⟩
  · obtain ⟨d', e, m⟩ := breakPatterns_ok (S := S) (le := le) (a := v.a) hb d
    rw [e]
    exact ⟨_, rfl, m⟩

theorem oriented_ok {v : Vars} (hb : v.b ≤ S.n) (hab : v.a < v.b) (d : Cells α) : ∃ r, S.oriented v d = .ok r ∧ Moves le S.n v.a v.b d r.1 ∧ v.a ≤ r.2.1 ∧ r.2.1 < v.b := by
  unfold oriented
  obtain ⟨p, e, h1, h2⟩ := choosePivot_ok (S := S) hb hab d
  rw [e]
  show ∃ r, (match p.2 with
    | .decreasing => (S.reverseRange v.a v.b d).bind fun d => GoRes.ok (d, v.b - 1 - (p.1 - v.a), true)
    | .increasing => .ok (d, p.1, true)
    | .unknown => .ok (d, p.1, false)) = .ok r ∧ _
  cases p.2 with
  | unknown => exact ⟨_, rfl, .refl d, h1, h2⟩
  | increasing => exact ⟨_, rfl, .refl d, h1, h2⟩
  | decreasing =>
    obtain ⟨d', e, m⟩ := reverseLoop_ok (S := S) (le := le) (a := v.a) hb (v.b - v.a) v.a (v.b - 1) d (Nat.le_refl _) (by omega)
    show ∃ r, ((S.reverseRange v.a v.b d).bind fun d => GoRes.ok (d, v.b - 1 - (p.1 - v.a), true)) = .ok r ∧ _
    unfold reverseRange
    rw [e]
    exact ⟨_, rfl, m, by dsimp only; omega, by dsimp only; omega⟩

/-! ## The whole -/

/-- A range is in order if its two parts around an element are. -/
theorem Split.ordered (H : Follows S.less le) {a b mid : Nat} {d : Cells α} (h : Split le a b mid d) (h1 : Ordered le a mid d) (h2 : Ordered le (mid + 1) b d) : Ordered le a b d := by
  intro i j hi hij hj
  rcases Nat.lt_trichotomy i mid with hi' | rfl | hi'
  · rcases Nat.lt_trichotomy j mid with hj' | rfl | hj'
    · exact h1 i j hi hij hj'
    · exact h.low i hi hi'
    · exact H.trans (h.low i hi hi') (h.high j hj' hj)
  · rcases Nat.eq_or_lt_of_le hij with rfl | hj'
    · exact H.refl _
    · exact h.high j hj' hj
  · exact h2 i j hi' hij hj

theorem Split.moves (H : Follows S.less le) {a b mid p q : Nat} {d d' : Cells α} (h : Split le a b mid d) (hm : Moves le S.n p q d d') (hr : (p = a ∧ q = mid) ∨ (p = mid + 1 ∧ q = b)) : Split le a b mid d' := by
  have hd : Eqv le (d mid) (d' mid) := hm.outside H (by omega)
  rcases hr with ⟨rfl, rfl⟩ | ⟨rfl, rfl⟩
  · refine ⟨?_, fun k hk hkb => H.trans hd.2 (H.trans (h.high k hk hkb) (hm.outside H (.inr (by omega))).1)⟩
    exact hm.inRange H (P := fun x => le x (d' q)) (fun x y hxy hx => H.trans hxy.2 hx) (fun k hk hk' => H.trans (h.low k hk hk') hd.1)
  · refine ⟨fun k hk hkm => H.trans (hm.outside H (.inl (by omega))).2 (H.trans (h.low k hk hkm) hd.1), ?_⟩
    exact hm.inRange H (P := fun x => le (d' mid) x) (fun x y hxy hx => H.trans hx hxy.1) (fun k hk hk' => H.trans hd.2 (h.high k hk hk'))

theorem Split.cutMid (H : Follows S.less le) {a b mid : Nat} {d : Cells α} (h : Split le a b mid d) (ha : a ≤ mid) (hm : mid < b) (ca : Cut le S.n a d) (cb : Cut le S.n b d) (hb : b ≤ S.n) : Cut le S.n mid d ∧ Cut le S.n (mid + 1) d := by
  have low : ∀ i, i ≤ mid → le (d i) (d mid) := by
    intro i hi
    by_cases h1 : i < a
    · exact ca i mid h1 ha (by omega)
    · rcases Nat.eq_or_lt_of_le hi with rfl | hlt
      · exact H.refl _
      · exact h.low i (by omega) hlt
  have high : ∀ j, mid ≤ j → j < S.n → le (d mid) (d j) := by
    intro j hj hj'
    by_cases h1 : b ≤ j
    · exact cb mid j hm h1 hj'
    · rcases Nat.eq_or_lt_of_le hj with rfl | hlt
      · exact H.refl _
      · exact h.high j hlt (by omega)
  exact ⟨fun i j hi hj hj' => H.trans (low i (by omega)) (high j hj hj'), fun i j hi hj hj' => H.trans (low i (by omega)) (high j (by omega) hj')⟩

theorem pdqsort_ok (H : Follows S.less le) : ∀ (f : Nat) (v : Vars) (d : Cells α), v.a ≤ v.b → v.b ≤ S.n → v.b - v.a < f → Cut le S.n v.a d → Cut le S.n v.b d →
    ∃ d', S.pdqsort f v d = .ok d' ∧ Moves le S.n v.a v.b d d' ∧ Ordered le v.a v.b d' := by
  intro f
  induction f with
  | zero => intro v d _ _ hf; omega
  | succ f ih =>
    intro v d hab hb hf ca cb
    unfold pdqsort
    split
    · exact insertionSort_ok H hb d ca
    · next hlen =>
    split
    · exact heapSort_ok H hab hb d
    · obtain ⟨r, e1, m1⟩ := unbalanced_ok (S := S) (le := le) hb d
      obtain ⟨p, e2, m2, p1, p2⟩ := oriented_ok (S := S) (le := le) hb (by omega) r.1
      rw [e1, GoRes.bind]
      try dsimp only
      rw [e2, GoRes.bind]
      have m12 := m1.trans m2
      have step3 : ∃ q, (if (v.wasBalanced && v.wasPartitioned && p.2.2) = true then S.partialInsertionSort v.a v.b p.1 else .ok (p.1, false)) = .ok q ∧ Moves le S.n v.a v.b p.1 q.1 ∧ (q.2 = true → Ordered le v.a v.b q.1) := by
        split
        · obtain ⟨d', t, e, m, o⟩ := partialLoop_ok H hb 5 (v.a + 1) p.1 (by omega) (by omega) (ca.moves H m12 hb (.inl (Nat.le_refl _))) (fun i j hi hij hj => by rw [show i = j by omega]; exact H.refl _)
          exact ⟨(d', t), e, m, o⟩
        · exact ⟨_, rfl, .refl _, fun h => by simp at h⟩
      obtain ⟨q, e3, m3, o3⟩ := step3
      rw [e3, GoRes.bind]
      try dsimp only
      have m13 := m12.trans m3
      have ca3 := ca.moves H m13 hb (.inl (Nat.le_refl _))
      have cb3 := cb.moves H m13 hb (.inr (Nat.le_refl _))
      split
      · next hq => exact ⟨q.1, rfl, m13, o3 hq⟩
      · have step4 : ∃ t, (if 0 < v.a then (S.lessAt q.1 (v.a - 1) p.2.1).bind fun c => .ok (!c) else .ok false) = .ok t ∧ (t = true → 0 < v.a ∧ S.less (q.1 (v.a - 1)) (q.1 p.2.1) = false) := by
          split
          · next h =>
            rw [lessAt_ok (by omega) (by omega)]
            exact ⟨_, rfl, fun h' => ⟨h, by simpa using h'⟩⟩
          · exact ⟨_, rfl, fun h => by simp at h⟩
        obtain ⟨t, e4, ht⟩ := step4
        rw [e4, GoRes.bind]
        try dsimp only
        split
        · next heq =>
          obtain ⟨h0, hl⟩ := ht heq
          obtain ⟨d4, mid, e5, m5, k1, k2, o5, x5⟩ := partitionEqual_ok H hb (by omega) p1 p2 q.1 (fun k hk hk' => H.trans (H.no hl) (ca3 (v.a - 1) k (by omega) hk (by omega)))
          rw [e5, GoRes.bind]
          try dsimp only
          have ca5 := ca3.moves H m5 hb (.inl (Nat.le_refl _))
          have cb5 := cb3.moves H m5 hb (.inr (Nat.le_refl _))
          have cm5 : Cut le S.n mid d4 := by
            intro i j hi hj hjn
            by_cases hia : i < v.a
            · exact ca5 i j hia (by omega) hjn
            · by_cases hjb : v.b ≤ j
              · exact cb5 i j (by omega) hjb hjn
              · exact x5 i j (by omega) hi hj (by omega)
          obtain ⟨d6, e6, m6, o6⟩ := ih { v with a := mid, limit := r.2 } d4 k2 hb (by dsimp only; omega) cm5 cb5
          dsimp only at m6 o6
          refine ⟨d6, e6, (m13.trans m5).trans (m6.mono (by omega) (Nat.le_refl _)), ?_⟩
          have o5' := o5.moves H m6 (.inl (Nat.le_refl _))
          have cm6 := cm5.moves H m6 hb (.inl (Nat.le_refl _))
          intro i j hi hij hj
          by_cases hj' : j < mid
          · exact o5' i j hi hij hj'
          · by_cases hi' : i < mid
            · exact cm6 i j hi' (by omega) (by omega)
            · exact o6 i j (by omega) hij hj
        · obtain ⟨d4, mid, w, e5, m5, k1, k2, sp⟩ := partition_ok H hb (by omega) p1 p2 q.1
          rw [e5, GoRes.bind]
          try dsimp only
          have ca5 := ca3.moves H m5 hb (.inl (Nat.le_refl _))
          have cb5 := cb3.moves H m5 hb (.inr (Nat.le_refl _))
          obtain ⟨cm, cm'⟩ := sp.cutMid H k1 k2 ca5 cb5 hb
          split
          · obtain ⟨d6, e6, m6, o6⟩ := ih ⟨v.a, mid, r.2, true, true⟩ d4 k1 (by dsimp only; omega) (by dsimp only; omega) ca5 cm
            dsimp only at m6 o6
            rw [e6, GoRes.bind]
            try dsimp only
            have sp6 := sp.moves H m6 (.inl ⟨rfl, rfl⟩)
            obtain ⟨d7, e7, m7, o7⟩ := ih ⟨mid + 1, v.b, r.2, decide ((v.b - v.a) / 8 ≤ mid - v.a), w⟩ d6 k2 hb (by dsimp only; omega) (cm'.moves H m6 (by omega) (.inr (by omega))) (cb5.moves H m6 (by omega) (.inr (by omega)))
            dsimp only at m7 o7
            exact ⟨d7, e7, ((m13.trans m5).trans (m6.mono (Nat.le_refl _) (by omega))).trans (m7.mono (by omega) (Nat.le_refl _)),
              (sp6.moves H m7 (.inr ⟨rfl, rfl⟩)).ordered H (o6.moves H m7 (.inl (by omega))) o7⟩
          · obtain ⟨d6, e6, m6, o6⟩ := ih ⟨mid + 1, v.b, r.2, true, true⟩ d4 k2 hb (by dsimp only; omega) cm' cb5
            dsimp only at m6 o6
            rw [e6, GoRes.bind]
            try dsimp only
            have sp6 := sp.moves H m6 (.inr ⟨rfl, rfl⟩)
            obtain ⟨d7, e7, m7, o7⟩ := ih ⟨v.a, mid, r.2, decide ((v.b - v.a) / 8 ≤ v.b - mid), w⟩ d6 k1 (by dsimp only; omega) (by dsimp only; omega) (ca5.moves H m6 hb (.inl (by omega))) (cm.moves H m6 hb (.inl (by omega)))
            dsimp only at m7 o7
            exact ⟨d7, e7, ((m13.trans m5).trans (m6.mono (by omega) (Nat.le_refl _))).trans (m7.mono (Nat.le_refl _) (by omega)),
              (sp6.moves H m7 (.inl ⟨rfl, rfl⟩)).ordered H o7 (o6.moves H m7 (.inr (by omega)))⟩

theorem range_map_getD (l : List α) (x : α) : (List.range l.length).map (fun i => l.getD i x) = l := by
  apply List.ext_getElem
  · simp
  · intro i h1 h2
    simp [List.getD_eq_getElem?_getD, h2]

/-- The result is a permutation of the slice, in order. -/
theorem sortSlice_ok {less : α → α → Bool} (H : Follows less le) (next : BitVec 64 → BitVec 64) (l : List α) : ∃ l', sortSlice less next l = .ok l' ∧ l'.Perm l ∧ l'.Pairwise le := by
  cases l with
  | nil => exact ⟨[], rfl, List.Perm.refl _, List.Pairwise.nil⟩
  | cons x l =>
    obtain ⟨d', e, m, o⟩ := pdqsort_ok (S := ⟨l.length + 1, less, next⟩) H (l.length + 2) ⟨0, l.length + 1, bitsLen (l.length + 1), true, true⟩ (fun i => (x :: l).getD i x)
      (Nat.zero_le _) (Nat.le_refl _) (by dsimp only; omega) (Cut.zero _) (Cut.all _)
    unfold sortSlice
    dsimp only
    rw [e]
    refine ⟨(List.range (l.length + 1)).map d', rfl, ?_, ?_⟩
    · have := m.perm (Nat.le_refl _)
      dsimp only at this
      rwa [show (List.range (l.length + 1)).map (fun i => (x :: l).getD i x) = x :: l from range_map_getD (x :: l) x] at this
    · rw [List.pairwise_map]
      refine List.Pairwise.imp_of_mem ?_ (List.pairwise_lt_range (n := l.length + 1))
      intro i j _ hj hij
      exact o i j (Nat.zero_le _) (by omega) (by simpa using hj)

end StayRTR.GoSort
