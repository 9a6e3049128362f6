import Verif.Proofs.Diff
import Verif.Spec.History
import Mathlib.Tactic.ByContra
import Mathlib.Tactic.Tauto

/-! Invariants of reachable stores. -/

namespace StayRTR

theorem addData_eq (new : List SD) (s : Store) :
    s.addData new = if (curDiff new s.current).length = 0 then (s, false) else (s.addSDsDiff (curDiff new s.current), true) := rfl

theorem addData_effective (new : List SD) (s : Store) : (s.addData new).2 = true ↔ curDiff new s.current ≠ [] := by
  rw [addData_eq]
  split <;> simp_all

theorem addData_false {new : List SD} {s : Store} (h : (s.addData new).2 = false) : (s.addData new).1 = s := by
  rw [addData_eq] at h ⊢
  split at h
  · rw [if_pos ‹_›]
  · simp at h

theorem addData_true {new : List SD} {s : Store} (h : (s.addData new).2 = true) :
    (s.addData new).1 = s.addSDsDiff (curDiff new s.current) := by
  rw [addData_eq] at h ⊢
  split at h
  · simp at h
  · rw [if_neg ‹_›]

theorem curDiff_nil_iff {new prev : List SD} (hn : AllValid new) (hp : AllValid prev) :
    curDiff new prev = [] ↔ SameSet prev new := by
  have key : curDiff new prev = [] ↔ ∀ r, r ∉ records (curDiff new prev) := by
    constructor
    · intro h r; simp [h, records]
    · intro h
      cases hc : curDiff new prev with
      | nil => rfl
      | cons x l => exact absurd (mem_records.mpr ⟨x, by rw [hc]; exact List.mem_cons_self, rfl⟩) (h x.record)
  rw [key]
  constructor
  · intro h r
    have := h r
    rw [curDiff_records hn hp] at this
    constructor
    · intro h1; by_contra h2; exact this (Or.inr ⟨h1, h2⟩)
    · intro h1; by_contra h2; exact this (Or.inl ⟨h1, h2⟩)
  · intro h r
    rw [curDiff_records hn hp]
    rintro (⟨h1, h2⟩ | ⟨h1, h2⟩)
    · exact h2 ((h r).mpr h1)
    · exact h2 ((h r).mp h1)

theorem addSDsDiff_current (d : List SD) (s : Store) : (s.addSDsDiff d).current = applyDiff d s.current := rfl
theorem addSDsDiff_serial (d : List SD) (s : Store) : (s.addSDsDiff d).serial = s.generateSerial := rfl
theorem addSDsDiff_keep (d : List SD) (s : Store) : (s.addSDsDiff d).keepDiff = s.keepDiff := rfl

theorem addSDsDiff_list (d : List SD) (s : Store) :
    (s.addSDsDiff d).listDiff.reverse =
      let l := d :: [] :: s.listDiff.reverse.map (applyDiff d)
      if s.keepDiff > 0 then l.take s.keepDiff.toNat else l := by
  have hl : s.listDiff.map (applyDiff d) ++ [[]] ++ [d] = (d :: [] :: s.listDiff.reverse.map (applyDiff d)).reverse := by
    simp
  simp only [Store.addSDsDiff]
  rw [hl]
  generalize d :: [] :: s.listDiff.reverse.map (applyDiff d) = l
  by_cases h1 : s.keepDiff > 0
  · rw [if_pos h1]
    by_cases h2 : ((l.reverse.length : Nat) : Int) > s.keepDiff
    · rw [if_pos ⟨h1, h2⟩, List.reverse_drop, List.reverse_reverse]
      congr 1
      simp only [List.length_reverse] at *
      omega
    · rw [if_neg (fun h => h2 h.2), List.reverse_reverse, List.take_of_length_le]
      simp only [List.length_reverse] at h2
      omega
  · rw [if_neg h1, if_neg (fun h => h1 h.1), List.reverse_reverse]

/-- The basic invariant of the served set. -/
structure StoreOk (s : Store) : Prop where
  valid : AllValid s.current
  added : AllAdded s.current

theorem StoreOk.init (k : Int) : StoreOk (Store.init k) :=
  ⟨(by intro x hx; cases hx), (by intro x hx; cases hx)⟩

theorem addData_current {new : List SD} {s : Store} (hs : StoreOk s) (hn : AllValid new) (h : (s.addData new).2 = true) :
    (s.addData new).1.current =
      s.current.filter (fun x => decide (x.record ∈ records new)) ++
      (new.filter (fun x => decide (x.record ∉ records s.current))).map (SD.withFlag flagAdded) := by
  rw [addData_true h, addSDsDiff_current, applyDiff_curDiff hn hs.valid hs.added]

theorem StoreOk.addData {new : List SD} {s : Store} (hs : StoreOk s) (hn : AllValid new) : StoreOk (s.addData new).1 := by
  cases h : (s.addData new).2 with
  | false => rw [addData_false h]; exact hs
  | true =>
    constructor
    · rw [addData_current hs hn h]
      exact (hs.valid.filter _).append ((hn.filter _).mapFlag _)
    · rw [addData_current hs hn h]
      intro x hx
      rcases List.mem_append.mp hx with h | h
      · exact hs.added x (List.mem_filter.mp h).1
      · obtain ⟨y, _, rfl⟩ := List.mem_map.mp h
        exact withFlag_getFlag _ _

theorem addData_sameSet {new : List SD} {s : Store} (hs : StoreOk s) (hn : AllValid new) :
    SameSet (s.addData new).1.current new := by
  cases h : (s.addData new).2 with
  | false =>
    rw [addData_false h]
    have : ¬ curDiff new s.current ≠ [] := by rw [← addData_effective, h]; decide
    exact (curDiff_nil_iff hn hs.valid).mp (Classical.not_not.mp this)
  | true =>
    intro r
    rw [addData_current hs hn h, records_append, records_map_withFlag, List.mem_append,
      mem_records_filter (p := fun r => decide (r ∈ records new)), mem_records_filter (p := fun r => decide (r ∉ records s.current))]
    by_cases h1 : r ∈ records s.current <;> by_cases h2 : r ∈ records new <;> simp [h1, h2]

theorem addData_serial {new : List SD} {s : Store} (h : (s.addData new).2 = true) :
    (s.addData new).1.serial = if s.current = [] then s.serial else s.serial + 1 := by
  rw [addData_true h, addSDsDiff_serial]
  unfold Store.generateSerial
  cases s.current <;> simp

theorem addData_keep (new : List SD) (s : Store) : (s.addData new).1.keepDiff = s.keepDiff := by
  cases h : (s.addData new).2 with
  | false => rw [addData_false h]
  | true => rw [addData_true h, addSDsDiff_keep]

theorem Evolves.ok {k : Int} {s : Store} {t} (h : Evolves k s t) : StoreOk s := by
  induction h with
  | init => exact StoreOk.init k
  | add new _ hv ih => exact ih.addData hv

theorem Evolves.keep {k : Int} {s : Store} {t} (h : Evolves k s t) : s.keepDiff = k := by
  induction h with
  | init => rfl
  | add new _ hv ih => rw [addData_keep, ih]

theorem Evolves.head {k : Int} {s : Store} {t} (h : Evolves k s t) : ∃ t', t = (s.serial, s.current) :: t' := by
  induction h with
  | init => exact ⟨[], rfl⟩
  | @add s t new _ hv ih =>
    cases hb : (s.addData new).2 with
    | false => rw [addData_false hb]; simpa using ih
    | true => exact ⟨_, by rw [if_pos rfl]⟩

theorem Evolves.valid {k : Int} {s : Store} {t} (h : Evolves k s t) : ∀ p ∈ t, AllValid p.2 ∧ AllAdded p.2 := by
  induction h with
  | init => intro p hp; simp only [List.mem_singleton] at hp; subst hp; exact ⟨AllValid.nil, by intro x hx; cases hx⟩
  | @add s t new h hv ih =>
    have ho := (h.ok).addData hv
    intro p hp
    split at hp
    · rcases List.mem_cons.mp hp with rfl | hp
      · exact ⟨ho.valid, ho.added⟩
      · exact ih p hp
    · exact ih p hp

/-- Every history of `AddData` calls on a new server is covered by `Evolves`. -/
theorem Evolves.run {k : Int} {s : Store} {t} (h : Evolves k s t) (hist : List (List SD)) (hv : ∀ l ∈ hist, AllValid l) :
    ∃ t', Evolves k (s.run hist) t' := by
  induction hist generalizing s t with
  | nil => exact ⟨t, h⟩
  | cons new hist ih =>
    exact ih (Evolves.add new h (hv new List.mem_cons_self)) (fun l hl => hv l (List.mem_cons_of_mem _ hl))

/-! ### The retained changes -/

theorem changesCovered_add_two (d : Nat) (h : 0 < d) : changesCovered (d + 2) = changesCovered d + 1 := by
  unfold changesCovered
  have : (d + 2) % 2 = d % 2 := by omega
  rw [this]
  split <;> omega

theorem describes_nil (c : List SD) : DescribesWindow [] [c] := by
  constructor
  · intro r
    constructor
    · rintro ⟨x, hx, _⟩; cases hx
    · rintro ⟨c', rest, h, _, o, ho, _⟩
      simp only [List.cons.injEq] at h
      rw [← h.2] at ho
      cases ho
  · intro r
    constructor
    · rintro ⟨x, hx, _⟩; cases hx
    · rintro ⟨newer, older, h, h1, h2, _⟩
      cases newer with
      | nil => exact absurd rfl h1
      | cons a newer =>
        cases older with
        | nil => exact absurd rfl h2
        | cons b older => simp at h

/-- Adding one more change to a window. -/
theorem describes_step {E new w0 c : List SD} {ws : List (List SD)} (hE : GoodDiff E) (hn : AllValid new) (h0 : AllValid w0)
    (hc : SameSet c new) (h : DescribesWindow E (w0 :: ws)) :
    DescribesWindow (applyDiff (curDiff new w0) E) (c :: w0 :: ws) := by
  have hg := curDiff_good hn h0
  have hA : ∀ r, Has E r flagAdded ↔ r ∈ records w0 ∧ ∃ o ∈ ws, r ∉ records o := by
    intro r
    refine (h.announced r).trans ?_
    constructor
    · rintro ⟨c', rest, he, h1, h2⟩
      simp only [List.cons.injEq] at he
      rw [he.1, he.2]; exact ⟨h1, h2⟩
    · rintro ⟨h1, h2⟩; exact ⟨w0, ws, rfl, h1, h2⟩
  constructor
  · intro r
    have hdA := curDiff_added hn h0 (r := r)
    have hdM := curDiff_records hn h0 (r := r)
    refine (has_applyDiff hg hE (r := r) (f := flagAdded)).trans ?_
    rw [hA, hdA, hdM]
    constructor
    · rintro (⟨h1, h2, o, ho, ho'⟩ | ⟨⟨h1, h2⟩, _⟩)
      · refine ⟨c, w0 :: ws, rfl, ?_, o, List.mem_cons_of_mem _ ho, ho'⟩
        rw [hc]
        by_contra h3
        exact h1 (Or.inr ⟨h2, h3⟩)
      · exact ⟨c, w0 :: ws, rfl, (hc r).mpr h1, w0, List.mem_cons_self, h2⟩
    · rintro ⟨c', rest, he, h1, o, ho, ho'⟩
      simp only [List.cons.injEq] at he
      obtain ⟨rfl, rfl⟩ := he
      rw [hc] at h1
      by_cases h2 : r ∈ records w0
      · left
        refine ⟨by simp [h1, h2], h2, ?_⟩
        rcases List.mem_cons.mp ho with rfl | ho
        · exact absurd h2 ho'
        · exact ⟨o, ho, ho'⟩
      · exact Or.inr ⟨⟨h1, h2⟩, Or.inl rfl⟩
  · intro r
    have hdR := curDiff_removed hn h0 (r := r)
    have hdM := curDiff_records hn h0 (r := r)
    refine (has_applyDiff hg hE (r := r) (f := flagRemoved)).trans ?_
    rw [hA, hdR, hdM]
    constructor
    · rintro (⟨h1, h2⟩ | ⟨⟨h1, h2⟩, h3⟩)
      · obtain ⟨newer, older, he, hne, hoe, hnw, hol⟩ := (h.withdrawn r).mp h2
        cases newer with
        | nil => exact absurd rfl hne
        | cons x newer =>
          have hx : x = w0 := by simp only [List.cons_append, List.cons.injEq] at he; exact he.1.symm
          have h0' : r ∉ records w0 := hx ▸ hnw x List.mem_cons_self
          refine ⟨c :: x :: newer, older, by rw [he]; rfl, by simp, hoe, ?_, hol⟩
          intro y hy
          rcases List.mem_cons.mp hy with rfl | hy
          · rw [hc]; intro h5; exact h1 (Or.inl ⟨h5, h0'⟩)
          · exact hnw y hy
      · refine ⟨[c], w0 :: ws, rfl, by simp, by simp, ?_, ?_⟩
        · intro y hy
          simp only [List.mem_singleton] at hy
          subst hy
          rw [hc]; exact h2
        · intro y hy
          rcases List.mem_cons.mp hy with rfl | hy
          · exact h1
          · rcases h3 with h3 | ⟨_, h3⟩
            · exact absurd h3.symm flags_ne
            · by_contra h4; exact h3 ⟨h1, y, hy, h4⟩
    · rintro ⟨newer, older, he, hne, hoe, hnw, hol⟩
      cases newer with
      | nil => exact absurd rfl hne
      | cons x newer =>
        simp only [List.cons_append, List.cons.injEq] at he
        obtain ⟨rfl, he⟩ := he
        have hcr : r ∉ records new := by rw [← hc]; exact hnw _ List.mem_cons_self
        cases newer with
        | nil =>
          right
          simp only [List.nil_append] at he
          subst he
          refine ⟨⟨hol w0 List.mem_cons_self, hcr⟩, Or.inr ⟨rfl, ?_⟩⟩
          rintro ⟨_, o, ho, ho'⟩
          exact ho' (hol o (List.mem_cons_of_mem _ ho))
        | cons y newer =>
          left
          have hy : y = w0 := by simp only [List.cons_append, List.cons.injEq] at he; exact he.1.symm
          have h0' : r ∉ records w0 := hy ▸ hnw y (by simp)
          refine ⟨by simp [hcr, h0'], ?_⟩
          exact (h.withdrawn r).mpr ⟨y :: newer, older, he, by simp, hoe, fun z hz => hnw z (List.mem_cons_of_mem _ hz), hol⟩

theorem applyDiff_nil {d : List SD} (h : GoodDiff d) : applyDiff d [] = d := by
  unfold applyDiff
  dsimp only
  rw [List.filter_nil, List.nil_append, List.filter_eq_self]
  intro x hx
  refine (applyDiff_survives h GoodDiff.nil hx).mpr ?_
  rcases h.flags x hx with h | h
  · exact Or.inl h
  · refine Or.inr ⟨h, ?_⟩
    rintro ⟨y, hy, _⟩; cases hy

/-- What the entry at (0-based, from the newest) position `i` of the retained list means. -/
structure RetainedOk (E : List SD) (i : Nat) (t : List (U32 × List SD)) : Prop where
  good : GoodDiff E
  fits : changesCovered (i + 1) + 1 ≤ t.length
  meaning : DescribesWindow E ((t.map Prod.snd).take (changesCovered (i + 1) + 1))

theorem retained_step {s : Store} {t : List (U32 × List SD)} {new : List SD} (hs : StoreOk s) (hn : AllValid new)
    (ht : ∃ t', t = (s.serial, s.current) :: t') {c : List SD} {n : U32} (hc : SameSet c new)
    (ih : ∀ i E, s.listDiff.reverse[i]? = some E → RetainedOk E i t) :
    ∀ i E, (curDiff new s.current :: [] :: s.listDiff.reverse.map (applyDiff (curDiff new s.current)))[i]? = some E →
      RetainedOk E i ((n, c) :: t) := by
  obtain ⟨t', rfl⟩ := ht
  have hg := curDiff_good hn hs.valid
  intro i E hE
  match i with
  | 0 =>
    simp only [List.getElem?_cons_zero, Option.some.injEq] at hE
    subst hE
    refine ⟨hg, by simp [changesCovered], ?_⟩
    simp only [changesCovered, List.map_cons, List.take_succ_cons]
    have := describes_step (new := new) (c := c) GoodDiff.nil hn hs.valid hc (describes_nil s.current)
    rw [applyDiff_nil hg] at this
    exact this
  | 1 =>
    simp only [List.getElem?_cons_succ, List.getElem?_cons_zero, Option.some.injEq] at hE
    subst hE
    refine ⟨GoodDiff.nil, by simp [changesCovered], ?_⟩
    simp only [changesCovered, List.map_cons, List.take_succ_cons]
    exact describes_nil c
  | i + 2 =>
    simp only [List.getElem?_cons_succ, List.getElem?_map, Option.map_eq_some_iff] at hE
    obtain ⟨E', hE', rfl⟩ := hE
    obtain ⟨g, f, m⟩ := ih i E' hE'
    have hcov := changesCovered_add_two (i + 1) (by omega)
    rw [show i + 1 + 2 = i + 2 + 1 by omega] at hcov
    refine ⟨hg.applyDiff g, ?_, ?_⟩
    · rw [hcov]; simp only [List.length_cons] at f ⊢; omega
    · rw [hcov, List.map_cons, List.take_succ_cons]
      simp only [List.map_cons, List.take_succ_cons] at m ⊢
      exact describes_step g hn hs.valid hc m

theorem Evolves.retained {k : Int} {s : Store} {t} (h : Evolves k s t) :
    ∀ i E, s.listDiff.reverse[i]? = some E → RetainedOk E i t := by
  induction h with
  | init => intro i E hE; simp [Store.init] at hE
  | @add s t new h hv ih =>
    cases hb : (s.addData new).2 with
    | false => rw [addData_false hb]; simpa using ih
    | true =>
      intro i E hE
      rw [if_pos rfl]
      refine retained_step h.ok hv h.head (addData_sameSet h.ok hv) ih i E ?_
      rw [addData_true hb, addSDsDiff_list] at hE
      dsimp only at hE
      split at hE
      · rw [List.getElem?_take] at hE
        split at hE
        · exact hE
        · cases hE
      · exact hE

theorem Evolves.length {k : Int} {s : Store} {t} (h : Evolves k s t) :
    s.listDiff.length = if 0 < k then min k.toNat (2 * (t.length - 1)) else 2 * (t.length - 1) := by
  induction h with
  | init => simp [Store.init]
  | @add s t new h hv ih =>
    obtain ⟨t', ht⟩ := h.head
    cases hb : (s.addData new).2 with
    | false => rw [addData_false hb]; simpa using ih
    | true =>
      rw [if_pos rfl, ← List.length_reverse, addData_true hb, addSDsDiff_list, h.keep]
      dsimp only
      split
      · rename_i hk
        rw [if_pos hk] at ih
        simp only [List.length_take, List.length_cons, List.length_map, List.length_reverse, ih, ht]
        omega
      · rename_i hk
        rw [if_neg hk] at ih
        simp only [List.length_cons, List.length_map, List.length_reverse, ih, ht]
        omega

/-- The entry at distance `d`. -/
theorem getSDsSerialDiff_eq (s : Store) (n : U32) :
    s.getSDsSerialDiff n =
      if n = s.serial then .ok (some [])
      else if n.toNat > s.serial.toNat then .ok none
      else .ok (s.listDiff.reverse[(s.serial - n).toNat - 1]?) := by
  unfold Store.getSDsSerialDiff
  split
  · rfl
  · split
    · rfl
    · rename_i h1 h2
      have hpos : 0 < (s.serial - n).toNat := by
        rw [BitVec.toNat_sub_of_le (by rw [BitVec.le_def]; omega)]
        have : n.toNat ≠ s.serial.toNat := fun h => h1 (BitVec.eq_of_toNat_eq h)
        omega
      dsimp only
      split
      · rename_i h3
        rw [List.getElem?_eq_none]
        simp only [List.length_reverse]; omega
      · rename_i h3
        rw [List.getElem?_reverse (by omega)]
        have : s.listDiff.length - 1 - ((s.serial - n).toNat - 1) = s.listDiff.length - (s.serial - n).toNat := by omega
        rw [this]
        unfold goIndex
        cases hh : s.listDiff[s.listDiff.length - (s.serial - n).toNat]? with
        | some x => rfl
        | none =>
          rw [List.getElem?_eq_none_iff] at hh
          omega

end StayRTR
