import Verif.Proofs.Sort
import Verif.Props.Update
import Verif.Props.Mon

/-!
# C149: the VRPs are sorted although the comparison is no strict order
-/

namespace StayRTR

/-! ## What is asked -/

/-- The order in which VRPs are to be sent (cmd/stayrtr/stayrtr.go:270-289, draft-ietf-sidrops-8210bis section 11): longer prefixes first, then greater maximum lengths, then IPv4, then lower addresses. -/
def Spec.SendOrder (a b : VRP) : Prop :=
  b.pfx.bits < a.pfx.bits ∨ a.pfx.bits = b.pfx.bits ∧ (b.maxLen.toNat < a.maxLen.toNat ∨ a.maxLen.toNat = b.maxLen.toNat ∧
    (a.pfx.ip.bitLen < b.pfx.ip.bitLen ∨ a.pfx.ip.bitLen = b.pfx.ip.bitLen ∧ a.pfx.ip.value ≤ b.pfx.ip.value))

/-- What the documentation of `sort.Slice` requires of the comparison: a strict weak order. -/
structure Spec.StrictWeakOrder {α : Type} (less : α → α → Bool) : Prop where
  irrefl : ∀ a, less a a = false
  trans : ∀ a b c, less a b = true → less b c = true → less a c = true
  incomparable : ∀ a b c, less a b = false → less b a = false → less b c = false → less c b = false → less a c = false ∧ less c a = false

open Spec GoSort

/-! ## What is proved -/

/-- The comparison of `processData` is not what the documentation requires: a VRP is less than itself. -/
theorem C149_contract_false : ¬ StrictWeakOrder vrpLess := by
  intro h
  have := h.irrefl ⟨⟨.v4 0x0a000000, 9⟩, 1, 8, 0⟩
  revert this
  decide

/-- Whatever the comparison answers, even if it follows no order: no index is out of range, the sort ends, and the same elements are in the slice. -/
theorem C149_any {α : Type} (less : α → α → Bool) (next : BitVec 64 → BitVec 64) (l : List α) : ∃ l', sortSlice less next l = .ok l' ∧ l'.Perm l := by
  obtain ⟨l', h1, h2, _⟩ := sortSlice_ok (le := fun _ _ => True) (less := less) ⟨fun _ _ => trivial, fun _ => trivial, fun _ => trivial⟩ next l
  exact ⟨l', h1, h2⟩

/-- If the comparison tells elements that are not equal in some order apart as in that order, the slice ends up in that order, whatever the comparison says of elements that are equal in it. -/
theorem C149_follows {α : Type} {less : α → α → Bool} {le : α → α → Prop} (H : Follows less le) (next : BitVec 64 → BitVec 64) (l : List α) :
    ∃ l', sortSlice less next l = .ok l' ∧ l'.Perm l ∧ l'.Pairwise le := sortSlice_ok H next l

/-- A comparison as the documentation requires is one of these. -/
theorem C149_strict {α : Type} {less : α → α → Bool} (h : StrictWeakOrder less) : Follows less (fun a b => less b a = false) where
  trans := by
    intro a b c h1 h2
    cases hb : less a b with
    | true =>
      cases hc : less c a with
      | false => rfl
      | true => rw [h.trans _ _ _ hc hb] at h2; exact h2
    | false =>
      cases hc : less b c with
      | true =>
        cases hd : less c a with
        | false => rfl
        | true => rw [h.trans _ _ _ hc hd] at h1; exact h1
      | false => exact (h.incomparable a b c hb h1 hc h2).2
  yes := by
    intro a b hab
    cases hb : less b a with
    | false => rfl
    | true =>
      have := h.trans _ _ _ hab hb
      rw [h.irrefl] at this
      exact this.symm
  no := fun h => h

theorem sendOrder_iff (a b : VRP) : SendOrder a b ↔ vrpLess a b = true := by rw [vrpLess_iff]; exact Iff.rfl

theorem vrpLess_follows : Follows vrpLess SendOrder where
  trans := by
    intro a b c h1 h2
    rw [sendOrder_iff] at *
    exact vrpLess_trans a b c h1 h2
  yes := fun h => (sendOrder_iff ..).2 h
  no := by
    intro a b h
    have := vrpLess_total a b
    rw [h, Bool.false_or] at this
    exact (sendOrder_iff ..).2 this

/-- The sort of `processData` does not panic. -/
theorem C149_no_panic (next : BitVec 64 → BitVec 64) (l : List VRP) : sortSlice vrpLess next l = .ok (goSorter next l) := by
  obtain ⟨l', h, _⟩ := C149_any vrpLess next l
  unfold goSorter
  rw [h]

/-- It leaves the same VRPs, each as often as before, in the order in which they are to be sent. -/
theorem C149_sorted (next : BitVec 64 → BitVec 64) (l : List VRP) : (goSorter next l).Perm l ∧ (goSorter next l).Pairwise SendOrder := by
  obtain ⟨l', h, h1, h2⟩ := sortSlice_ok vrpLess_follows next l
  have := C149_no_panic next l
  rw [h] at this
  rw [← GoRes.ok.inj this]
  exact ⟨h1, h2⟩

/-- What all theorems on the cache file assume of `sort.Slice`, for its implementation. -/
theorem goSorter_ok (next : BitVec 64 → BitVec 64) : (goSorter next).Ok := fun l =>
  ⟨(C149_sorted next l).1, (C149_sorted next l).2.imp fun {_ _} h => (sendOrder_iff ..).1 h⟩

/-- The VRPs of every file come out in this order. -/
theorem C149_process (wide : WideFloat) (next : BitVec 64 → BitVec 64) (now : Int) (vs : List VRPJson) (ks : List BgpSecKeyJson) : (processData wide (goSorter next) now vs ks).vrps.Pairwise SendOrder := (C149_sorted next _).2

/-- The thresholds of rtrmon: their comparison is strict, and the result that of the model. -/
theorem C149_thresholds (next : BitVec 64 → BitVec 64) (l : List Int) : sortSlice (fun a b : Int => decide (a < b)) next l = .ok (l.foldr insertThreshold []) := by
  obtain ⟨l', h, h1, h2⟩ := sortSlice_ok (le := fun a b : Int => a ≤ b) (less := fun a b : Int => decide (a < b))
    ⟨fun h1 h2 => Int.le_trans h1 h2, fun h => by have := of_decide_eq_true h; omega, fun h => by have := of_decide_eq_false h; omega⟩ next l
  obtain ⟨g1, g2⟩ := sortThresholds l
  rw [h, List.Perm.eq_of_pairwise (le := fun a b : Int => a ≤ b) (fun a b _ _ h1 h2 => Int.le_antisymm h1 h2) h2 g2 (h1.trans g1.symm)]

theorem sort_two (next : BitVec 64 → BitVec 64) {x y : VRP} (h : vrpLess y x = true) : goSorter next [x, y] = [y, x] := by
  have e : sortSlice vrpLess next [x, y] = .ok [y, x] := by
    unfold sortSlice
    simp only [List.length_cons, List.length_nil]
    unfold Sorting.pdqsort
    simp [Sorting.insertionSort, Sorting.insertAll, Sorting.sink, Sorting.lessAt, Sorting.swapAt, GoRes.bind, h, List.range_succ, swapped]
  rw [C149_no_panic] at e
  exact GoRes.ok.inj e

/-- Two VRPs that differ in their AS only come out in the other order. -/
theorem C149_exchanged (next : BitVec 64 → BitVec 64) (p : Prefix) (m f : U8) (a b : U32) : goSorter next [⟨p, a, m, f⟩, ⟨p, b, m, f⟩] = [⟨p, b, m, f⟩, ⟨p, a, m, f⟩] :=
  sort_two next (by rw [vrpLess_iff]; dsimp only; omega)

/-- So VRPs that are in order already are not left as they are, and sorting twice is not sorting once. -/
theorem C149_stable_false (next : BitVec 64 → BitVec 64) : ¬ (∀ l : List VRP, l.Pairwise SendOrder → goSorter next l = l) ∧ ¬ (∀ l, goSorter next (goSorter next l) = goSorter next l) := by
  have e1 := C149_exchanged next ⟨.v4 0x0a000000, 9⟩ 8 0 1 2
  have e2 := C149_exchanged next ⟨.v4 0x0a000000, 9⟩ 8 0 2 1
  refine ⟨fun h => ?_, fun h => ?_⟩
  · rw [h _ (by simp [SendOrder])] at e1
    revert e1
    decide
  · have := h [⟨⟨.v4 0x0a000000, 9⟩, 1, 8, 0⟩, ⟨⟨.v4 0x0a000000, 9⟩, 2, 8, 0⟩]
    rw [e1, e2] at this
    revert this
    decide

/-! ## Examples -/

/-- A list that is long enough for partitions, with repetitions. -/
def exLong : List Int := [5, 3, 9, 1, 5, 7, 2, 8, 5, 6, 4, 0, 5, 11, 10, 5, 3]

/-- Sorted with `<` and with `≤`, by Go's generator. -/
example : sortSlice (fun a b : Int => decide (a < b)) xorshift exLong = .ok [0, 1, 2, 3, 3, 4, 5, 5, 5, 5, 5, 6, 7, 8, 9, 10, 11] ∧
    sortSlice (fun a b : Int => decide (a ≤ b)) xorshift exLong = .ok [0, 1, 2, 3, 3, 4, 5, 5, 5, 5, 5, 6, 7, 8, 9, 10, 11] := by decide +kernel

/-- The comparison that is no strict order follows the order. -/
example : Follows (fun a b : Int => decide (a ≤ b)) (fun a b => a ≤ b) ∧ ¬ StrictWeakOrder (fun a b : Int => decide (a ≤ b)) :=
  ⟨⟨fun h1 h2 => Int.le_trans h1 h2, fun h => of_decide_eq_true h, fun h => by have := of_decide_eq_false h; omega⟩, fun h => by have := h.irrefl 0; simp at this⟩

/-- A comparison that follows no order: nothing is lost, but nothing is sorted either. -/
example : sortSlice (fun a b : Int => decide ((a - b) % 3 = 1)) xorshift exLong ≠ .panic ∧ ¬ Follows (fun a b : Int => decide ((a - b) % 3 = 1)) (fun a b => a ≤ b) :=
  ⟨by obtain ⟨_, h, _⟩ := C149_any (fun a b : Int => decide ((a - b) % 3 = 1)) xorshift exLong; rw [h]; simp, fun h => by have := h.yes (a := 1) (b := 0) (by decide); simp at this⟩

/-- A strict comparison, of `C149_strict`. -/
example : StrictWeakOrder (fun a b : Int => decide (a < b)) where
  irrefl := by simp
  trans := by
    intro a b c h1 h2
    have := of_decide_eq_true h1
    have := of_decide_eq_true h2
    exact decide_eq_true (by omega)
  incomparable := by
    intro a b c h1 h2 h3 h4
    have := of_decide_eq_false h1
    have := of_decide_eq_false h2
    have := of_decide_eq_false h3
    have := of_decide_eq_false h4
    exact ⟨decide_eq_false (by omega), decide_eq_false (by omega)⟩

end StayRTR
