import Verif.Proofs.Store

/-! Serial numbers and the last change of a history; the router's view of an update. -/

namespace StayRTR

/-- The last step of a history with at least one change. -/
theorem Evolves.last {k : Int} {s : Store} {p q} {t} (h : Evolves k s (p :: q :: t)) :
    ∃ s0 new, Evolves k s0 (q :: t) ∧ AllValid new ∧ (s0.addData new).2 = true ∧ s = (s0.addData new).1 := by
  generalize ht : p :: q :: t = t0 at h
  induction h with
  | init => simp at ht
  | @add s t' new h hv ih =>
    cases hb : (s.addData new).2 with
    | false =>
      rw [hb] at ht
      simp only [Bool.false_eq_true, if_false] at ht
      rw [addData_false hb]
      exact ih ht
    | true =>
      rw [hb, if_pos rfl] at ht
      simp only [List.cons.injEq] at ht
      refine ⟨s, new, ?_, hv, hb, rfl⟩
      rw [ht.2]; exact h

theorem Evolves.serial_step {k : Int} {s : Store} {p q} {t} (h : Evolves k s (p :: q :: t)) :
    p.1 = if q.2 = [] then q.1 else q.1 + 1 := by
  obtain ⟨s0, new, h0, hv, hb, rfl⟩ := h.last
  obtain ⟨t', ht'⟩ := h.head
  obtain ⟨t'', ht''⟩ := h0.head
  simp only [List.cons.injEq] at ht' ht''
  rw [ht'.1, ht''.1]
  exact addData_serial hb

/-- Every tail of a history is a history. -/
theorem Evolves.tail {k : Int} {s : Store} {p} {t} (h : Evolves k s (p :: t)) (ht : t ≠ []) : ∃ s0, Evolves k s0 t := by
  cases t with
  | nil => exact absurd rfl ht
  | cons q t =>
    obtain ⟨s0, _, h0, _⟩ := h.last
    exact ⟨s0, h0⟩

theorem Evolves.drop {k : Int} (pre : List (U32 × List SD)) {s : Store} {t} (h : Evolves k s (pre ++ t)) (ht : t ≠ []) :
    ∃ s0, Evolves k s0 t := by
  induction pre generalizing s with
  | nil => exact ⟨s, h⟩
  | cons p pre ih =>
    obtain ⟨s0, h0⟩ := Evolves.tail h (by simp [ht])
    exact ih h0

/-- Serial numbers along a stretch of history in which nothing was emptied. -/
theorem Evolves.serials {k : Int} (mid : List (U32 × List SD)) {s : Store} {q : U32 × List SD} {post}
    (h : Evolves k s (mid ++ q :: post)) (hq : mid ≠ [] → q.2 ≠ []) (hmid : ∀ p ∈ mid.tail, p.2 ≠ []) :
    s.serial = q.1 + BitVec.ofNat 32 mid.length := by
  induction mid generalizing s with
  | nil =>
    obtain ⟨t', ht'⟩ := h.head
    simp only [List.nil_append, List.cons.injEq] at ht'
    simp [ht'.1]
  | cons p mid ih =>
    obtain ⟨t', ht'⟩ := h.head
    simp only [List.cons_append, List.cons.injEq] at ht'
    cases mid with
    | nil =>
      have hs := h.serial_step
      rw [if_neg (hq (by simp)), ht'.1] at hs
      simpa using hs
    | cons p' mid =>
      have hs := h.serial_step
      obtain ⟨s0, new, h0, _, _, _⟩ := h.last
      have h1 := ih (s := s0) h0 (fun _ => hq (by simp)) (fun x hx => hmid x (List.mem_of_mem_tail hx))
      obtain ⟨t'', ht''⟩ := h0.head
      simp only [List.cons_append, List.cons.injEq] at ht''
      rw [if_neg (hmid p' (by simp)), ht'.1, ht''.1] at hs
      dsimp only at hs
      rw [hs, h1]
      simp only [List.length_cons]
      apply BitVec.eq_of_toNat_eq
      simp [BitVec.toNat_add]
      congr 1

/-- One effective step, for building concrete histories. -/
theorem Evolves.change {k : Int} {s : Store} {t} (h : Evolves k s t) (new : List SD) (hv : AllValid new) {c c' d : List SD} {n n' : U32}
    (hc : s.current = c) (hn : s.serial = n) (hd : curDiff new c = d) (hne : d ≠ []) (hc' : applyDiff d c = c')
    (hn' : (if c = [] then n else n + 1) = n') :
    ∃ s', Evolves k s' ((n', c') :: t) ∧ s'.current = c' ∧ s'.serial = n' ∧ s' = (s.addData new).1 ∧
      s'.listDiff.reverse[0]? = some d := by
  subst hc hn hd hc' hn'
  have hb := (addData_effective new s).mpr hne
  have hadd := Evolves.add new h hv
  rw [hb, if_pos rfl] at hadd
  have hs := addData_serial hb
  have hcur : (s.addData new).1.current = applyDiff (curDiff new s.current) s.current := by rw [addData_true hb]; rfl
  refine ⟨_, ?_, hcur, hs, rfl, ?_⟩
  · rw [hs, hcur] at hadd; exact hadd
  · rw [addData_true hb, addSDsDiff_list]
    dsimp only
    split
    · rename_i hk
      rw [List.getElem?_take, if_pos (by omega)]
      rfl
    · rfl

/-! ### Routers -/

theorem routerApply_cons (held : Rec → Prop) (x : SD) (l : List SD) :
    routerApply held (x :: l) = routerApply (routerStep held x) l := rfl

/-- A consistent update, as seen by a router. -/
theorem routerApply_iff {l : List SD} (hc : Consistent l) (held : Rec → Prop) (r : Rec) :
    routerApply held l r ↔ Announces l r ∨ (r ∉ records l ∧ held r) := by
  induction l generalizing held with
  | nil => simp [routerApply, Announces, records]
  | cons x l ih =>
    have hcl : Consistent l := fun a ha b hb => hc a (List.mem_cons_of_mem _ ha) b (List.mem_cons_of_mem _ hb)
    rw [routerApply_cons, ih hcl]
    unfold routerStep
    by_cases hx : x.record = r
    · rw [if_pos hx]
      by_cases hl : r ∈ records l
      · obtain ⟨y, hy, hyr⟩ := mem_records.mp hl
        have hf := hc x List.mem_cons_self y (List.mem_cons_of_mem _ hy) (hx.trans hyr.symm)
        constructor
        · rintro (⟨z, hz, h⟩ | ⟨h, _⟩)
          · exact Or.inl ⟨z, List.mem_cons_of_mem _ hz, h⟩
          · exact absurd hl h
        · rintro (⟨z, hz, h1, h2⟩ | ⟨h, _⟩)
          · rcases List.mem_cons.mp hz with rfl | hz
            · exact Or.inl ⟨y, hy, hyr, hf ▸ h2⟩
            · exact Or.inl ⟨z, hz, h1, h2⟩
          · exact absurd (mem_records.mpr ⟨x, List.mem_cons_self, hx⟩) h
      · constructor
        · rintro (⟨z, hz, h⟩ | ⟨_, h⟩)
          · exact Or.inl ⟨z, List.mem_cons_of_mem _ hz, h⟩
          · exact Or.inl ⟨x, List.mem_cons_self, hx, h⟩
        · rintro (⟨z, hz, h1, h2⟩ | ⟨h, _⟩)
          · rcases List.mem_cons.mp hz with rfl | hz
            · exact Or.inr ⟨hl, h2⟩
            · exact absurd (mem_records.mpr ⟨z, hz, h1⟩) hl
          · exact absurd (mem_records.mpr ⟨x, List.mem_cons_self, hx⟩) h
    · rw [if_neg hx]
      have h1 : r ∈ records (x :: l) ↔ r ∈ records l := by
        simp only [records, List.map_cons, List.mem_cons]
        constructor
        · rintro (h | h)
          · exact absurd h.symm hx
          · exact h
        · exact Or.inr
      have h2 : Announces (x :: l) r ↔ Announces l r := by
        constructor
        · rintro ⟨z, hz, h3, h4⟩
          rcases List.mem_cons.mp hz with rfl | hz
          · exact absurd h3 hx
          · exact ⟨z, hz, h3, h4⟩
        · rintro ⟨z, hz, h⟩; exact ⟨z, List.mem_cons_of_mem _ hz, h⟩
      rw [h1, h2]

/-- A router that holds the set served before the last change ends up with the current set. -/
theorem router_last {E c S : List SD} (hg : GoodDiff E) (hd : DescribesWindow E [c, S]) (r : Rec) :
    routerApply (fun r => r ∈ records S) E r ↔ r ∈ records c := by
  have hA : Announces E r ↔ r ∈ records c ∧ r ∉ records S := by
    rw [hd.announced]
    constructor
    · rintro ⟨c', rest, he, h1, o, ho, h2⟩
      simp only [List.cons.injEq] at he
      obtain ⟨rfl, rfl⟩ := he
      simp only [List.mem_singleton] at ho
      exact ⟨h1, ho ▸ h2⟩
    · rintro ⟨h1, h2⟩
      exact ⟨c, [S], rfl, h1, S, by simp, h2⟩
  have hW : Withdraws E r ↔ r ∉ records c ∧ r ∈ records S := by
    rw [hd.withdrawn]
    constructor
    · rintro ⟨newer, older, he, h1, h2, h3, h4⟩
      cases newer with
      | nil => exact absurd rfl h1
      | cons a newer =>
        simp only [List.cons_append, List.cons.injEq] at he
        obtain ⟨rfl, he⟩ := he
        refine ⟨h3 _ List.mem_cons_self, ?_⟩
        cases newer with
        | nil =>
          simp only [List.nil_append] at he
          exact h4 S (by rw [← he]; simp)
        | cons b newer =>
          simp only [List.cons_append, List.cons.injEq] at he
          have := he.2.symm
          simp only [List.append_eq_nil_iff] at this
          exact absurd this.2 h2
    · rintro ⟨h1, h2⟩
      exact ⟨[c], [S], rfl, by simp, by simp, by simpa using h1, by simpa using h2⟩
  rw [routerApply_iff hg.cons, hA]
  have hM : r ∈ records E ↔ Announces E r ∨ Withdraws E r := hg.mem_iff
  rw [hM, hA, hW]
  tauto

theorem getSDsSerialDiff_prev {s : Store} {m : U32} (h : s.serial = m + 1) {E : List SD}
    (hE : s.getSDsSerialDiff m = .ok (some E)) : s.listDiff.reverse[0]? = some E := by
  rw [getSDsSerialDiff_eq] at hE
  have hne : m ≠ s.serial := by
    rw [h]; intro he
    have := congrArg BitVec.toNat he
    rw [BitVec.toNat_add] at this
    have h1 : BitVec.toNat (1 : U32) = 1 := rfl
    rw [h1] at this
    have := m.isLt
    omega
  rw [if_neg hne] at hE
  split at hE
  · simp at hE
  · have : (s.serial - m).toNat - 1 = 0 := by
      rw [h, BitVec.add_comm, BitVec.add_sub_cancel]
      rfl
    rw [this] at hE
    simpa using hE

end StayRTR
