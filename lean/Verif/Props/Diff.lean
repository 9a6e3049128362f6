import Verif.Proofs.Diff

/-! C09, C10: the diff functions. -/

namespace StayRTR

/-- **C09.** The three results of `ComputeDiff`, as sets of records with their flags. -/
theorem C09_computeDiff_exact {new prev : List SD} (hn : AllValid new) (hp : AllValid prev) (pu : Bool) :
    (∀ r, r ∈ records (computeDiff new prev pu).1 ↔ r ∈ records new ∧ r ∉ records prev) ∧
    (∀ x ∈ (computeDiff new prev pu).1, x.getFlag = 1) ∧
    (∀ r, r ∈ records (computeDiff new prev pu).2.1 ↔ r ∈ records prev ∧ r ∉ records new) ∧
    (∀ x ∈ (computeDiff new prev pu).2.1, x.getFlag = 0) ∧
    (pu = true → ∀ r, r ∈ records (computeDiff new prev pu).2.2 ↔ r ∈ records prev ∧ r ∈ records new) ∧
    (pu = false → (computeDiff new prev pu).2.2 = []) := by
  rw [computeDiff_eq hn hp]
  refine ⟨fun r => ?_, ?_, fun r => ?_, ?_, fun h r => ?_, ?_⟩
  · rw [records_map_withFlag, mem_records_filter (p := fun r => decide (r ∉ records prev))]; simp
  · intro x hx; obtain ⟨y, _, rfl⟩ := List.mem_map.mp hx; exact withFlag_getFlag _ _
  · rw [records_map_withFlag, mem_records_filter (p := fun r => decide (r ∉ records new))]; simp
  · intro x hx; obtain ⟨y, _, rfl⟩ := List.mem_map.mp hx; exact withFlag_getFlag _ _
  · dsimp only; rw [if_pos h, mem_records_filter (p := fun r => decide (r ∈ records new))]; simp
  · rintro rfl; rfl

/-- **C09.** Order and multiplicity: the added records are those of `new` in order, the removed ones those of `prev` in order,
and unchanged ones are taken from `prev` as they are. -/
theorem C09_computeDiff_order {new prev : List SD} (hn : AllValid new) (hp : AllValid prev) (pu : Bool) :
    records (computeDiff new prev pu).1 = (records new).filter (fun r => decide (r ∉ records prev)) ∧
    records (computeDiff new prev pu).2.1 = (records prev).filter (fun r => decide (r ∉ records new)) ∧
    (∀ x ∈ (computeDiff new prev pu).2.2, x ∈ prev) := by
  have hf : ∀ (l : List SD) (p : Rec → Bool), records (l.filter (fun x => p x.record)) = (records l).filter p := by
    intro l p; simp only [records, List.filter_map]; rfl
  rw [computeDiff_eq hn hp]
  refine ⟨?_, ?_, ?_⟩
  · rw [records_map_withFlag]; exact hf new (fun r => decide (r ∉ records prev))
  · rw [records_map_withFlag]; exact hf prev (fun r => decide (r ∉ records new))
  · intro x hx
    dsimp only at hx
    split at hx
    · exact (List.mem_filter.mp hx).1
    · cases hx

/-- **C10.** Applying the computed diff to a served (announced) set gives exactly the records of the new one. -/
theorem C10_apply_computed_diff {new prev : List SD} (hn : AllValid new) (hp : AllValid prev) (ha : ∀ x ∈ prev, x.getFlag = 1) :
    SameSet (applyDiff ((computeDiff new prev false).1 ++ (computeDiff new prev false).2.1) prev) new := by
  intro r
  change r ∈ records (applyDiff (curDiff new prev) prev) ↔ _
  rw [applyDiff_curDiff hn hp ha, records_append, records_map_withFlag, List.mem_append,
    mem_records_filter (p := fun r => decide (r ∈ records new)), mem_records_filter (p := fun r => decide (r ∉ records prev))]
  by_cases h1 : r ∈ records prev <;> by_cases h2 : r ∈ records new <;> simp [h1, h2]

/-- **C10.** The result is announced throughout, keeps the order of `prev` and then of `new`, and is duplicate free if both lists were. -/
theorem C10_apply_computed_diff_order {new prev : List SD} (hn : AllValid new) (hp : AllValid prev) (ha : ∀ x ∈ prev, x.getFlag = 1) :
    (∀ x ∈ applyDiff ((computeDiff new prev false).1 ++ (computeDiff new prev false).2.1) prev, x.getFlag = 1) ∧
    records (applyDiff ((computeDiff new prev false).1 ++ (computeDiff new prev false).2.1) prev) =
      (records prev).filter (fun r => decide (r ∈ records new)) ++ (records new).filter (fun r => decide (r ∉ records prev)) := by
  have hf : ∀ (l : List SD) (p : Rec → Bool), records (l.filter (fun x => p x.record)) = (records l).filter p := by
    intro l p; simp only [records, List.filter_map]; rfl
  change (∀ x ∈ applyDiff (curDiff new prev) prev, x.getFlag = 1) ∧ records (applyDiff (curDiff new prev) prev) = _
  rw [applyDiff_curDiff hn hp ha]
  constructor
  · intro x hx
    rcases List.mem_append.mp hx with h | h
    · exact ha x (List.mem_filter.mp h).1
    · obtain ⟨y, _, rfl⟩ := List.mem_map.mp h; exact withFlag_getFlag _ _
  · rw [records_append, records_map_withFlag]
    rw [hf prev (fun r => decide (r ∈ records new)), hf new (fun r => decide (r ∉ records prev))]

/-- The flag hypothesis of C10 is needed: a withdrawn record in `prev` survives its removal. -/
theorem C10_withdrawn_prev_false : ∃ new prev : List SD, AllValid new ∧ AllValid prev ∧
    ¬ SameSet (applyDiff ((computeDiff new prev false).1 ++ (computeDiff new prev false).2.1) prev) new := by
  refine ⟨[], [.vrp ⟨⟨.v4 0x0a000000#32, 9⟩, 65000#32, 8#8, 0#8⟩], by decide, by decide, ?_⟩
  intro h
  have := h (.vrp ⟨.v4 0x0a000000#32, 9⟩ 8#8 65000#32)
  revert this
  decide

/-! Concrete cases. -/

/-- 10.0.0.0/8, AS65000. -/
def exA : SD := .vrp ⟨⟨.v4 0x0a000000#32, 9⟩, 65000#32, 8#8, 1#8⟩
/-- 2001:db8::/32-48, AS65001. -/
def exB : SD := .vrp ⟨⟨.v6 0x20010db8000000000000000000000000#128, 33⟩, 65001#32, 48#8, 1#8⟩
/-- A router key. -/
def exC : SD := .brk ⟨65002#32, [1#8, 2#8], List.replicate 20 7#8, 1#8⟩

example : AllValid [exA, exB, exC] ∧ AllValid [exB] ∧
    (computeDiff [exB, exC, exC] [exA, exB] true) = ([exC, exC], [exA.withFlag 0], [exB]) ∧
    applyDiff [exC, exA.withFlag 0] [exA, exB] = [exB, exC] := by decide

end StayRTR
