import Verif.Proofs.History
import Verif.Props.Diff

/-! C11-C17, C19, C25, C26: the store over all histories of `AddData`. -/

namespace StayRTR

/-- A store reached by calls of `AddData` with valid records. -/
def Reachable (k : Int) (s : Store) : Prop := ∃ hist : List (List SD), (∀ l ∈ hist, AllValid l) ∧ s = (Store.init k).run hist

theorem Reachable.evolves {k : Int} {s : Store} (h : Reachable k s) : ∃ t, Evolves k s t := by
  obtain ⟨hist, hv, rfl⟩ := h
  exact Evolves.run Evolves.init hist hv

/-- **C11.** The served set afterwards is the given one; the result tells whether it changed; a no-op leaves everything untouched. -/
theorem C11_addData {k : Int} {s : Store} (h : Reachable k s) {new : List SD} (hn : AllValid new) :
    SameSet (s.addData new).1.current new ∧
    ((s.addData new).2 = true ↔ ¬ SameSet s.current new) ∧
    ((s.addData new).2 = false → (s.addData new).1 = s) := by
  obtain ⟨t, ht⟩ := h.evolves
  refine ⟨addData_sameSet ht.ok hn, ?_, addData_false⟩
  rw [addData_effective, ne_eq, curDiff_nil_iff hn ht.ok.valid]

example : Reachable 3 ((Store.init 3).run [[exA], [exA, exB]]) ∧
    (((Store.init 3).run [[exA], [exA, exB]]).addData [exB, exC]).1.current = [exB, exC] ∧
    (((Store.init 3).run [[exA], [exA, exB]]).addData [exB, exC]).2 = true ∧
    (((Store.init 3).run [[exA], [exA, exB]]).addData [exB, exA, exB]).2 = false :=
  ⟨⟨_, by decide, rfl⟩, by decide, by decide, by decide⟩

/-- **C12.** One step: the serial moves by exactly one (modulo 2^32) when a non-empty store changes, and not otherwise. -/
theorem C12_serial_step {k : Int} {s : Store} (h : Reachable k s) {new : List SD} (hn : AllValid new) :
    (Store.init k).serial = 0 ∧
    (s.current ≠ [] → ¬ SameSet s.current new → (s.addData new).1.serial = s.serial + 1 ∧ (s.addData new).1.serial ≠ s.serial) ∧
    (SameSet s.current new → (s.addData new).1.serial = s.serial) ∧
    (s.current = [] → (s.addData new).1.serial = s.serial) := by
  obtain ⟨t, ht⟩ := h.evolves
  have hiff : (s.addData new).2 = true ↔ ¬ SameSet s.current new := (C11_addData h hn).2.1
  refine ⟨rfl, fun h1 h2 => ?_, fun h1 => ?_, fun h1 => ?_⟩
  · have hs := addData_serial (hiff.mpr h2)
    rw [if_neg h1] at hs
    refine ⟨hs, fun he => ?_⟩
    rw [hs] at he
    have := congrArg BitVec.toNat he
    rw [BitVec.toNat_add] at this
    have h1 : BitVec.toNat (1 : U32) = 1 := rfl
    rw [h1] at this
    have := s.serial.isLt
    omega
  · cases hb : (s.addData new).2 with
    | false => rw [addData_false hb]
    | true => exact absurd h1 (hiff.mp hb)
  · cases hb : (s.addData new).2 with
    | false => rw [addData_false hb]
    | true => rw [addData_serial hb, if_pos h1]

/-- **C12.** Over a whole history: the serial is the number of changes made to a non-empty set, modulo 2^32. -/
theorem C12_serial_counts {k : Int} {s : Store} {t} (h : Evolves k s t) :
    s.serial = BitVec.ofNat 32 ((t.tail.filter (fun p => decide (p.2 ≠ []))).length) := by
  induction h with
  | init => rfl
  | @add s t new h hv ih =>
    obtain ⟨t', ht⟩ := h.head
    cases hb : (s.addData new).2 with
    | false => rw [addData_false hb]; simpa using ih
    | true =>
      rw [if_pos rfl, addData_serial hb, ih]
      subst ht
      simp only [List.tail_cons]
      by_cases hc : s.current = []
      · simp [hc]
      · rw [if_neg hc, List.filter_cons_of_pos (by simpa using hc), List.length_cons]
        apply BitVec.eq_of_toNat_eq
        simp [BitVec.toNat_add]

example : Reachable 3 ((Store.init 3).run [[exA], [exA, exB]]) ∧ ((Store.init 3).run [[exA], [exA, exB]]).serial = 1 ∧
    ((Store.init 3).run [[exA], [exA, exB], [exB]]).serial = 2 := ⟨⟨_, by decide, rfl⟩, by decide, by decide⟩

/-- **C13.** The full set only ever contains announcements. -/
theorem C13_full_set_announced {k : Int} {s : Store} (h : Reachable k s) : ∀ x ∈ s.current, x.getFlag = 1 := by
  obtain ⟨t, ht⟩ := h.evolves
  exact ht.ok.added

/-- Input flags do not matter: the second list carries a withdraw flag. -/
example : ((Store.init 3).run [[exA], [exA.withFlag 0, exB.withFlag 0]]).current = [exA, exB] := by decide

/-! ### Incremental answers -/

/-- **C14** in full: a router that holds what was served under serial `m` and gets an incremental answer to a query for `m`
ends up with what is served now. -/
def IncrementalCorrect (k : Int) : Prop :=
  ∀ s t m S E, Evolves k s t → (m, S) ∈ t → S ≠ [] → s.current ≠ [] → s.getSDsSerialDiff m = .ok (some E) →
    ∀ r, routerApply (fun r => r ∈ records S) E r ↔ r ∈ records s.current

/-- The code does not have this property, for any retention limit: emptying and refilling the store loses the withdrawals. -/
theorem C14_incremental_false (k : Int) : ¬ IncrementalCorrect k := by
  intro h
  obtain ⟨s1, e1, c1, n1, _⟩ := Evolves.change (Evolves.init (k := k)) [exA] (by decide) (c := []) (c' := [exA]) (d := [exA]) (n := 0) (n' := 0)
    rfl rfl (by decide) (by simp) (by decide) (by decide)
  obtain ⟨s2, e2, c2, n2, _⟩ := Evolves.change e1 [] (by decide) (c' := []) (d := [exA.withFlag 0]) (n' := 1)
    c1 n1 (by decide) (by simp) (by decide) (by decide)
  obtain ⟨s3, e3, c3, n3, _, hl⟩ := Evolves.change e2 [exB] (by decide) (c' := [exB]) (d := [exB]) (n' := 1)
    c2 n2 (by decide) (by simp) (by decide) (by decide)
  have hq : s3.getSDsSerialDiff 0 = .ok (some [exB]) := by
    rw [getSDsSerialDiff_eq, n3, if_neg (by decide), if_neg (by decide)]
    exact congrArg GoRes.ok hl
  have := h _ _ 0 [exA] [exB] e3 (by simp) (by simp) (by rw [c3]; simp) hq exA.record
  have h1 : routerApply (fun r => r ∈ records [exA]) [exB] exA.record := by
    rw [routerApply_iff (by unfold Consistent; decide)]
    right; decide
  rw [c3] at this
  exact absurd (this.mp h1) (by decide)

/-- Even without emptying the store: with the retention limit of 3 that stayrtr configures (cmd/stayrtr/stayrtr.go:757), a router that
missed two changes gets an empty update and keeps its old data under the new serial. -/
theorem C14_two_behind_false : ∃ s t S, Evolves 3 s t ∧ (0, S) ∈ t ∧ (∀ p ∈ t.dropLast, p.2 ≠ []) ∧ S ≠ [] ∧
    s.getSDsSerialDiff 0 = .ok (some []) ∧ ¬ SameSet S s.current := by
  obtain ⟨s1, e1, c1, n1, d1, _⟩ := Evolves.change (Evolves.init (k := 3)) [exA] (by decide) (c := []) (c' := [exA]) (d := [exA]) (n := 0) (n' := 0)
    rfl rfl (by decide) (by simp) (by decide) (by decide)
  obtain ⟨s2, e2, c2, n2, d2, _⟩ := Evolves.change e1 [exA, exB] (by decide) (c' := [exA, exB]) (d := [exB]) (n' := 1)
    c1 n1 (by decide) (by simp) (by decide) (by decide)
  obtain ⟨s3, e3, c3, n3, d3, hl⟩ := Evolves.change e2 [exB, exC] (by decide) (c' := [exB, exC]) (d := [exC, exA.withFlag 0]) (n' := 2)
    c2 n2 (by decide) (by simp) (by decide) (by decide)
  refine ⟨s3, _, [exA], e3, by simp, by simp, by simp, ?_, ?_⟩
  · rw [d3, d2, d1]; decide
  · rw [c3]
    intro h
    exact absurd ((h exA.record).mp (by decide)) (by decide)

/-- **C14**, partial: a router that missed only the last change. Missing: routers further behind (refuted above), and a store that was
emptied in between (`S ≠ []` excludes it; refuted above). An answer exists whenever the serial did not wrap. -/
theorem C14_last_change_partial {k : Int} {s : Store} {n m : U32} {c S : List SD} {t}
    (h : Evolves k s ((n, c) :: (m, S) :: t)) (hS : S ≠ []) :
    (m ≠ BitVec.allOnes 32 → ∃ E, s.getSDsSerialDiff m = .ok (some E)) ∧
    ∀ E, s.getSDsSerialDiff m = .ok (some E) → ∀ r, routerApply (fun r => r ∈ records S) E r ↔ r ∈ records s.current := by
  have hser := h.serial_step
  obtain ⟨t', ht'⟩ := h.head
  simp only [List.cons.injEq] at ht'
  dsimp only at hser
  rw [if_neg hS] at hser
  have hn : s.serial = m + 1 := by rw [← hser]; exact (congrArg Prod.fst ht'.1).symm
  have hc : s.current = c := (congrArg Prod.snd ht'.1).symm
  constructor
  · intro hm
    have hlen := h.length
    have hpos : 0 < s.listDiff.reverse.length := by
      rw [List.length_reverse, hlen]
      simp only [List.length_cons]
      split <;> omega
    refine ⟨s.listDiff.reverse[0], ?_⟩
    have h1 : BitVec.toNat (1 : U32) = 1 := rfl
    have hm' : m.toNat ≠ 2 ^ 32 - 1 := fun he => hm (BitVec.eq_of_toNat_eq (by simpa using he))
    have hlt := m.isLt
    have hs : s.serial.toNat = m.toNat + 1 := by
      rw [hn, BitVec.toNat_add, h1, Nat.mod_eq_of_lt (by omega)]
    rw [getSDsSerialDiff_eq, if_neg (fun he => by rw [← he] at hs; omega), if_neg (by omega)]
    have : (s.serial - m).toNat - 1 = 0 := by
      rw [hn, BitVec.add_comm, BitVec.add_sub_cancel]; rfl
    rw [this, List.getElem?_eq_getElem hpos]
  · intro E hE r
    have := h.retained 0 E (getSDsSerialDiff_prev hn hE)
    rw [hc]
    exact router_last this.good this.meaning r

example : ∃ s t, Evolves 3 s ((1, [exA, exB]) :: (0, [exA]) :: t) := by
  obtain ⟨s1, e1, c1, n1, d1, _⟩ := Evolves.change (Evolves.init (k := 3)) [exA] (by decide) (c := []) (c' := [exA]) (d := [exA]) (n := 0) (n' := 0)
    rfl rfl (by decide) (by simp) (by decide) (by decide)
  obtain ⟨s2, e2, c2, n2, d2, _⟩ := Evolves.change e1 [exA, exB] (by decide) (c' := [exA, exB]) (d := [exB]) (n' := 1)
    c1 n1 (by decide) (by simp) (by decide) (by decide)
  exact ⟨s2, _, e2⟩

/-- **C14**, partial: with a retention limit of one and a store that is never emptied (and fewer than 2^32 changes, so that serials are
unambiguous) every incremental answer is right. Missing: larger limits and emptied stores (refuted above). -/
theorem C14_keep_one_partial {s : Store} {t m S E} (h : Evolves 1 s t) (hne : ∀ p ∈ t.dropLast, p.2 ≠ []) (hlen : t.length ≤ 2 ^ 32)
    (hm : (m, S) ∈ t) (hS : S ≠ []) (hE : s.getSDsSerialDiff m = .ok (some E)) (r : Rec) :
    routerApply (fun r => r ∈ records S) E r ↔ r ∈ records s.current := by
  obtain ⟨pre, post, rfl⟩ := List.append_of_mem hm
  have hne' : ∀ p ∈ pre, p.2 ≠ [] := by
    intro p hp
    refine hne p ?_
    rw [List.dropLast_append_of_ne_nil (by simp)]
    exact List.mem_append_left _ hp
  have hser := Evolves.serials pre h (fun _ => hS) (fun p hp => hne' p (List.mem_of_mem_tail hp))
  dsimp only at hser
  have hpl : pre.length < 2 ^ 32 := by
    simp only [List.length_append, List.length_cons] at hlen
    omega
  match pre with
  | [] =>
    obtain ⟨t', ht'⟩ := h.head
    simp only [List.nil_append, List.cons.injEq, Prod.mk.injEq] at ht'
    rw [getSDsSerialDiff_eq, if_pos ht'.1.1] at hE
    simp only [GoRes.ok.injEq, Option.some.injEq] at hE
    subst hE
    rw [ht'.1.2]
    rfl
  | [p] => exact (C14_last_change_partial h hS).2 E hE r
  | p :: q :: pre =>
    exfalso
    have hd : (s.serial - m).toNat = pre.length + 2 := by
      rw [hser, BitVec.add_comm, BitVec.add_sub_cancel, BitVec.toNat_ofNat, Nat.mod_eq_of_lt hpl]
      simp
    rw [getSDsSerialDiff_eq, if_neg (fun he => by rw [he] at hd; simp at hd)] at hE
    split at hE
    · simp at hE
    · simp only [GoRes.ok.injEq] at hE
      have hl := h.length
      rw [if_pos (by decide)] at hl
      have h1 : (1 : Int).toNat = 1 := rfl
      rw [h1] at hl
      have := (List.getElem?_eq_some_iff.mp hE).1
      rw [List.length_reverse] at this
      omega

/-- **C15.** Exactly which changes are served at each distance `d`: the last `changesCovered d` of them, composed as
`DescribesWindow` says. `changesCovered` is 1, 0, 2, 1, 3, 2, ... -/
theorem C15_served_change_set {k : Int} {s : Store} {t} (h : Evolves k s t) {n : U32} {E : List SD} (hn : n ≠ s.serial)
    (hE : s.getSDsSerialDiff n = .ok (some E)) :
    changesCovered (s.serial - n).toNat + 1 ≤ t.length ∧
    DescribesWindow E ((t.map Prod.snd).take (changesCovered (s.serial - n).toNat + 1)) := by
  rw [getSDsSerialDiff_eq, if_neg hn] at hE
  split at hE
  · simp at hE
  · rename_i h2
    simp only [GoRes.ok.injEq] at hE
    have := h.retained _ E hE
    have hpos : 0 < (s.serial - n).toNat := by
      rw [BitVec.toNat_sub_of_le (by rw [BitVec.le_def]; omega)]
      have : n.toNat ≠ s.serial.toNat := fun h => hn (BitVec.eq_of_toNat_eq h)
      omega
    have he : (s.serial - n).toNat - 1 + 1 = (s.serial - n).toNat := by omega
    have hf := this.fits
    have hm := this.meaning
    rw [he] at hf hm
    exact ⟨hf, hm⟩

example : [1, 2, 3, 4, 5, 6].map changesCovered = [1, 0, 2, 1, 3, 2] := by decide

/-- The specification asks for `d` changes at distance `d`; the code does not do that. -/
theorem C15_distance_is_changes_false : ¬ ∀ k s t n E, Evolves k s t → n ≠ s.serial → s.getSDsSerialDiff n = .ok (some E) →
    DescribesWindow E ((t.map Prod.snd).take ((s.serial - n).toNat + 1)) := by
  intro h
  obtain ⟨s1, e1, c1, n1, d1, _⟩ := Evolves.change (Evolves.init (k := 3)) [exA] (by decide) (c := []) (c' := [exA]) (d := [exA]) (n := 0) (n' := 0)
    rfl rfl (by decide) (by simp) (by decide) (by decide)
  obtain ⟨s2, e2, c2, n2, d2, _⟩ := Evolves.change e1 [exA, exB] (by decide) (c' := [exA, exB]) (d := [exB]) (n' := 1)
    c1 n1 (by decide) (by simp) (by decide) (by decide)
  obtain ⟨s3, e3, c3, n3, d3, hl⟩ := Evolves.change e2 [exB, exC] (by decide) (c' := [exB, exC]) (d := [exC, exA.withFlag 0]) (n' := 2)
    c2 n2 (by decide) (by simp) (by decide) (by decide)
  have hq : s3.getSDsSerialDiff 0 = .ok (some []) := by rw [d3, d2, d1]; decide
  have := (h 3 s3 _ 0 [] e3 (by rw [n3]; decide) hq).announced exC.record
  obtain ⟨x, hx, _⟩ := this.mpr ⟨[exB, exC], [[exA, exB], [exA]], by rw [n3]; rfl, by decide, [exA], by simp, by decide⟩
  cases hx

/-- **C16.** The lookup never panics; a newer serial, or one further back than what is retained, has no data; and the number of retained
versions is exactly the number of changes times two, capped by a positive limit. -/
theorem C16_unknown_serials {k : Int} {s : Store} {t} (h : Evolves k s t) (n : U32) :
    s.getSDsSerialDiff n ≠ .panic ∧ s.getSDsSerialDiff n ≠ .err ∧
    (s.serial.toNat < n.toNat → s.getSDsSerialDiff n = .ok none) ∧
    (n.toNat < s.serial.toNat → s.listDiff.length < s.serial.toNat - n.toNat → s.getSDsSerialDiff n = .ok none) ∧
    (0 < k → (s.listDiff.length : Int) ≤ k) ∧
    (0 < k → n.toNat < s.serial.toNat → k < (s.serial.toNat : Int) - n.toNat → s.getSDsSerialDiff n = .ok none) ∧
    s.listDiff.length = (if 0 < k then min k.toNat (2 * (t.length - 1)) else 2 * (t.length - 1)) := by
  have hlen := h.length
  have hold : n.toNat < s.serial.toNat → s.listDiff.length < s.serial.toNat - n.toNat → s.getSDsSerialDiff n = .ok none := by
    intro h1 h2
    rw [getSDsSerialDiff_eq, if_neg (fun he => by rw [he] at h1; omega), if_neg (by omega)]
    rw [List.getElem?_eq_none]
    rw [BitVec.toNat_sub_of_le (by rw [BitVec.le_def]; omega), List.length_reverse]
    omega
  have hk : 0 < k → (s.listDiff.length : Int) ≤ k := by
    intro hk; rw [hlen, if_pos hk]; omega
  refine ⟨?_, ?_, ?_, hold, hk, fun h1 h2 h3 => hold h2 ?_, hlen⟩
  · rw [getSDsSerialDiff_eq]; split
    · simp
    · split <;> simp
  · rw [getSDsSerialDiff_eq]; split
    · simp
    · split <;> simp
  · intro h1
    rw [getSDsSerialDiff_eq, if_neg (fun he => by rw [he] at h1; omega), if_pos h1]
  · have := hk h1; omega

example : ((Store.init 3).run [[exA], [exA, exB], [exB, exC]]).listDiff.length = 3 ∧
    ((Store.init 3).run [[exA], [exA, exB], [exB, exC]]).getSDsSerialDiff 3 = .ok none ∧
    ((Store.init 1).run [[exA], [exA, exB], [exB, exC]]).getSDsSerialDiff 0 = .ok none ∧
    ((Store.init 3).run [[exA], [exA, exB], [exB, exC]]).getSDsSerialDiff 1 = .ok (some [exC, exA.withFlag 0]) := by decide

/-! ### Duplicate announcements and unknown withdrawals -/

/-- A router that processes the updates in order sees no announcement of a record it holds and no withdrawal of one it does not hold. -/
def CleanUpdate (held : Rec → Prop) : List SD → Prop
  | [] => True
  | x :: l => (x.getFlag = 1 → ¬ held x.record) ∧ (x.getFlag = 0 → held x.record) ∧ CleanUpdate (routerStep held x) l

/-- **C17** fails: a record that was withdrawn and announced again is announced to a router that still holds it. -/
theorem C17_duplicate_announcement_false : ∃ s t S E, Evolves 3 s t ∧ (0, S) ∈ t ∧ (∀ p ∈ t.dropLast, p.2 ≠ []) ∧
    s.getSDsSerialDiff 0 = .ok (some E) ∧ ¬ CleanUpdate (fun r => r ∈ records S) E := by
  obtain ⟨s1, e1, c1, n1, d1, _⟩ := Evolves.change (Evolves.init (k := 3)) [exA] (by decide) (c := []) (c' := [exA]) (d := [exA]) (n := 0) (n' := 0)
    rfl rfl (by decide) (by simp) (by decide) (by decide)
  obtain ⟨s2, e2, c2, n2, d2, _⟩ := Evolves.change e1 [exA, exB] (by decide) (c' := [exA, exB]) (d := [exB]) (n' := 1)
    c1 n1 (by decide) (by simp) (by decide) (by decide)
  obtain ⟨s3, e3, c3, n3, d3, _⟩ := Evolves.change e2 [exB] (by decide) (c' := [exB]) (d := [exA.withFlag 0]) (n' := 2)
    c2 n2 (by decide) (by simp) (by decide) (by decide)
  obtain ⟨s4, e4, c4, n4, d4, _⟩ := Evolves.change e3 [exB, exA] (by decide) (c' := [exB, exA]) (d := [exA]) (n' := 3)
    c3 n3 (by decide) (by simp) (by decide) (by decide)
  refine ⟨s4, _, [exA], [exA], e4, by simp, by simp, ?_, ?_⟩
  · rw [d4, d3, d2, d1]; decide
  · intro h
    exact h.1 rfl (by decide)

theorem cleanUpdate_of {l : List SD} {held : Rec → Prop} (hnd : (records l).Nodup)
    (h1 : ∀ x ∈ l, x.getFlag = 1 → ¬ held x.record) (h0 : ∀ x ∈ l, x.getFlag = 0 → held x.record) : CleanUpdate held l := by
  induction l generalizing held with
  | nil => trivial
  | cons x l ih =>
    simp only [records, List.map_cons, List.nodup_cons] at hnd
    have hstep : ∀ y ∈ l, (routerStep held x) y.record ↔ held y.record := by
      intro y hy
      unfold routerStep
      rw [if_neg]
      intro he
      exact hnd.1 (he ▸ List.mem_map.mpr ⟨y, hy, rfl⟩)
    refine ⟨h1 x List.mem_cons_self, h0 x List.mem_cons_self, ih hnd.2 ?_ ?_⟩
    · intro y hy hf
      rw [hstep y hy]
      exact h1 y (List.mem_cons_of_mem _ hy) hf
    · intro y hy hf
      rw [hstep y hy]
      exact h0 y (List.mem_cons_of_mem _ hy) hf

/-- **C17**, partial: the update for the last change is clean (served lists without duplicates). Missing: routers further behind (refuted above). -/
theorem C17_last_change_partial {k : Int} {s : Store} {n m : U32} {c S E : List SD} {t}
    (h : Evolves k s ((n, c) :: (m, S) :: t)) (hS : S ≠ []) (hd1 : (records S).Nodup) (hd2 : (records c).Nodup)
    (hE : s.getSDsSerialDiff m = .ok (some E)) : CleanUpdate (fun r => r ∈ records S) E := by
  obtain ⟨s0, new, h0, hv, hb, rfl⟩ := h.last
  obtain ⟨t', ht'⟩ := h.head
  obtain ⟨t'', ht''⟩ := h0.head
  simp only [List.cons.injEq, Prod.mk.injEq] at ht' ht''
  obtain ⟨⟨_, rfl⟩, _⟩ := ht'
  obtain ⟨⟨rfl, rfl⟩, _⟩ := ht''
  have hser := addData_serial hb
  rw [if_neg hS] at hser
  have hE' := getSDsSerialDiff_prev hser hE
  rw [addData_true hb, addSDsDiff_list] at hE'
  have hEq : E = curDiff new s0.current := by
    dsimp only at hE'
    split at hE'
    · rw [List.getElem?_take] at hE'
      split at hE'
      · simpa using hE'.symm
      · cases hE'
    · simpa using hE'.symm
  have hok := h0.ok
  rw [addData_current hok hv hb, records_append, records_map_withFlag, List.nodup_append] at hd2
  subst hEq
  have hg := curDiff_good hv hok.valid
  apply cleanUpdate_of
  · rw [curDiff_eq hv hok.valid, records_append, records_map_withFlag, records_map_withFlag, List.nodup_append]
    refine ⟨hd2.2.1, ?_, ?_⟩
    · have : records (s0.current.filter (fun x => decide (x.record ∉ records new))) = (records s0.current).filter (fun r => decide (r ∉ records new)) := by
        simp only [records, List.filter_map]; rfl
      rw [this]; exact hd1.filter _
    · intro a ha b hb' hab
      subst hab
      rw [mem_records_filter (p := fun r => decide (r ∉ records s0.current))] at ha
      rw [mem_records_filter (p := fun r => decide (r ∉ records new))] at hb'
      exact absurd hb'.1 (of_decide_eq_true ha.2)
  · intro x hx hf
    exact ((curDiff_added hv hok.valid).mp ⟨x, hx, rfl, hf⟩).2
  · intro x hx hf
    exact ((curDiff_removed hv hok.valid).mp ⟨x, hx, rfl, hf⟩).1

/-! ### Serial numbers as evidence of change -/

/-- **C19.** Two sets served at different moments, both non-empty, carry different serials, also when the store was emptied in between
(as long as fewer than 2^32 changes lie between them); the exact distance is the number of non-empty sets left behind. -/
theorem C19_serial_distinguishes {k : Int} {s : Store} {pre mid post : List (U32 × List SD)} {n m : U32} {A B : List SD}
    (h : Evolves k s (pre ++ (n, A) :: (mid ++ (m, B) :: post))) (hB : B ≠ []) (hlen : mid.length + 1 < 2 ^ 32) :
    n ≠ m ∧ n = m + BitVec.ofNat 32 ((mid.filter (fun p => decide (p.2 ≠ []))).length + 1) := by
  obtain ⟨s1, h1⟩ := Evolves.drop pre h (by simp)
  obtain ⟨s2, h2⟩ := Evolves.drop ((n, A) :: mid) (t := (m, B) :: post) h1 (by simp)
  have c1 := C12_serial_counts h1
  have c2 := C12_serial_counts h2
  obtain ⟨t1, ht1⟩ := h1.head
  obtain ⟨t2, ht2⟩ := h2.head
  simp only [List.cons.injEq, Prod.mk.injEq] at ht1 ht2
  rw [← ht1.1.1] at c1
  rw [← ht2.1.1] at c2
  simp only [List.tail_cons, List.filter_append, List.length_append] at c1 c2
  rw [List.filter_cons_of_pos (by simpa using hB), List.length_cons] at c1
  have hle := List.length_filter_le (fun p : U32 × List SD => decide (p.2 ≠ [])) mid
  generalize (mid.filter (fun p => decide (p.2 ≠ []))).length = a at *
  generalize (post.filter (fun p => decide (p.2 ≠ []))).length = b at *
  subst c1 c2
  constructor
  · intro he
    have := congrArg BitVec.toNat he
    simp only [BitVec.toNat_ofNat] at this
    omega
  · apply BitVec.eq_of_toNat_eq
    simp only [BitVec.toNat_add, BitVec.toNat_ofNat]
    omega

/-- The case with an emptied store in between: the serials are 0 and 1. -/
example : ∃ s, Evolves 3 s ([] ++ (1, [exB]) :: ([(1, [])] ++ (0, [exA]) :: [(0, [])])) := by
  obtain ⟨s1, e1, c1, n1, _⟩ := Evolves.change (Evolves.init (k := 3)) [exA] (by decide) (c := []) (c' := [exA]) (d := [exA]) (n := 0) (n' := 0)
    rfl rfl (by decide) (by simp) (by decide) (by decide)
  obtain ⟨s2, e2, c2, n2, _⟩ := Evolves.change e1 [] (by decide) (c' := []) (d := [exA.withFlag 0]) (n' := 1)
    c1 n1 (by decide) (by simp) (by decide) (by decide)
  obtain ⟨s3, e3, c3, n3, _⟩ := Evolves.change e2 [exB] (by decide) (c' := [exB]) (d := [exB]) (n' := 1)
    c2 n2 (by decide) (by simp) (by decide) (by decide)
  exact ⟨s3, e3⟩

/-! ### Duplicates, order and multiplicity -/

theorem addData_nodup {new : List SD} {s : Store} (hs : StoreOk s) (hn : AllValid new) (h1 : (records s.current).Nodup)
    (h2 : (records new).Nodup) : (records (s.addData new).1.current).Nodup := by
  have hf : ∀ (l : List SD) (p : Rec → Bool), records (l.filter (fun x => p x.record)) = (records l).filter p := by
    intro l p; simp only [records, List.filter_map]; rfl
  cases hb : (s.addData new).2 with
  | false => rw [addData_false hb]; exact h1
  | true =>
    rw [addData_current hs hn hb, records_append, records_map_withFlag, List.nodup_append,
      hf s.current (fun r => decide (r ∈ records new)), hf new (fun r => decide (r ∉ records s.current))]
    refine ⟨h1.filter _, h2.filter _, ?_⟩
    intro a ha b hb hab
    subst hab
    simp only [List.mem_filter, decide_eq_true_eq] at ha hb
    exact hb.2 ha.1

/-- **C25.** Duplicate-free inputs give a duplicate-free served set in every reachable state. -/
theorem C25_no_duplicates (k : Int) (hist : List (List SD)) (hv : ∀ l ∈ hist, AllValid l ∧ (records l).Nodup) :
    (records ((Store.init k).run hist).current).Nodup := by
  suffices H : ∀ (hist : List (List SD)) (s : Store), StoreOk s → (records s.current).Nodup →
      (∀ l ∈ hist, AllValid l ∧ (records l).Nodup) → (records (s.run hist).current).Nodup by
    exact H hist _ (StoreOk.init k) (by simp [Store.init, records]) hv
  intro hist
  induction hist with
  | nil => intro s _ h _; exact h
  | cons new hist ih =>
    intro s hs h hv
    have hn := hv new List.mem_cons_self
    exact ih _ (hs.addData hn.1) (addData_nodup hs hn.1 h hn.2) (fun l hl => hv l (List.mem_cons_of_mem _ hl))

example : ∀ l ∈ [[exA, exB], [exC, exB]], AllValid l ∧ (records l).Nodup := by decide

/-- The results returned by a history of `AddData` calls. -/
def runResults (s : Store) : List (List SD) → List Bool
  | [] => []
  | new :: h => (s.addData new).2 :: runResults (s.addData new).1 h

/-- **C26.** Histories whose lists agree as sets, call by call, give the same served set, the same serial and the same results,
whatever the order and multiplicity of the records in each list. -/
theorem C26_order_irrelevant (k : Int) (h1 h2 : List (List SD)) (hv1 : ∀ l ∈ h1, AllValid l) (hv2 : ∀ l ∈ h2, AllValid l)
    (hlen : h1.length = h2.length) (hs : ∀ p ∈ h1.zip h2, SameSet p.1 p.2) :
    SameSet ((Store.init k).run h1).current ((Store.init k).run h2).current ∧
    ((Store.init k).run h1).serial = ((Store.init k).run h2).serial ∧
    runResults (Store.init k) h1 = runResults (Store.init k) h2 := by
  suffices H : ∀ (h1 h2 : List (List SD)) (s1 s2 : Store), StoreOk s1 → StoreOk s2 → SameSet s1.current s2.current → s1.serial = s2.serial →
      (∀ l ∈ h1, AllValid l) → (∀ l ∈ h2, AllValid l) → h1.length = h2.length → (∀ p ∈ h1.zip h2, SameSet p.1 p.2) →
      SameSet (s1.run h1).current (s2.run h2).current ∧ (s1.run h1).serial = (s2.run h2).serial ∧ runResults s1 h1 = runResults s2 h2 by
    exact H h1 h2 _ _ (StoreOk.init k) (StoreOk.init k) (fun r => Iff.rfl) rfl hv1 hv2 hlen hs
  intro h1
  induction h1 with
  | nil =>
    intro h2 s1 s2 _ _ hc hser _ _ hl _
    cases h2 with
    | nil => exact ⟨hc, hser, rfl⟩
    | cons => simp at hl
  | cons a h1 ih =>
    intro h2 s1 s2 o1 o2 hc hser hv1 hv2 hl hp
    cases h2 with
    | nil => simp at hl
    | cons b h2 =>
      have va := hv1 a List.mem_cons_self
      have vb := hv2 b List.mem_cons_self
      have hab : SameSet a b := hp (a, b) (by simp)
      have hnil : s1.current = [] ↔ s2.current = [] := by
        have key : ∀ l : List SD, l = [] ↔ ∀ r, r ∉ records l := by
          intro l
          cases l with
          | nil => simp [records]
          | cons x l => simp only [reduceCtorEq, false_iff, not_forall, not_not]; exact ⟨x.record, by simp [records]⟩
        rw [key, key]
        exact forall_congr' fun r => not_congr (hc r)
      have hres : (s1.addData a).2 = (s2.addData b).2 := by
        rw [Bool.eq_iff_iff, addData_effective, addData_effective, ne_eq, ne_eq, curDiff_nil_iff va o1.valid, curDiff_nil_iff vb o2.valid]
        refine not_congr (forall_congr' fun r => ?_)
        rw [hc r, hab r]
      have hser' : (s1.addData a).1.serial = (s2.addData b).1.serial := by
        cases hb : (s1.addData a).2 with
        | false => rw [addData_false hb, addData_false (hres ▸ hb), hser]
        | true =>
          rw [addData_serial hb, addData_serial (hres ▸ hb), hser]
          by_cases h : s1.current = []
          · rw [if_pos h, if_pos (hnil.mp h)]
          · rw [if_neg h, if_neg (fun h' => h (hnil.mpr h'))]
      have hc' : SameSet (s1.addData a).1.current (s2.addData b).1.current := fun r => by
        rw [addData_sameSet o1 va r, addData_sameSet o2 vb r, hab r]
      obtain ⟨r1, r2, r3⟩ := ih h2 _ _ (o1.addData va) (o2.addData vb) hc' hser'
        (fun l h => hv1 l (List.mem_cons_of_mem _ h)) (fun l h => hv2 l (List.mem_cons_of_mem _ h))
        (by simpa using hl) (fun p h => hp p (by simp [h]))
      refine ⟨r1, r2, ?_⟩
      simp only [runResults, hres, r3]

example : SameSet [exA, exB, exA] [exB, exA] ∧ runResults (Store.init 3) [[exA, exB, exA], [exA, exC]] = [true, true] ∧
    ((Store.init 3).run [[exA, exB, exA], [exA, exC]]).serial = 1 := by
  refine ⟨fun r => ?_, by decide, by decide⟩
  simp [records]; tauto

end StayRTR
