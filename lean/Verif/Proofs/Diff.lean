import Verif.Props.Identity
import Verif.Model.Store

/-! Characterisation of the diff functions in terms of records. -/

namespace StayRTR

theorem withFlag_record (f : U8) (x : SD) : (x.withFlag f).record = x.record := by cases x <;> rfl
theorem withFlag_getFlag (f : U8) (x : SD) : (x.withFlag f).getFlag = f := by cases x <;> rfl
theorem withFlag_valid {f : U8} {x : SD} (h : x.Valid) : (x.withFlag f).Valid := by cases x <;> exact h
theorem withFlag_self {x : SD} (f : U8) (h : x.getFlag = f) : x.withFlag f = x := by
  subst h; cases x <;> rfl

theorem mem_records {l : List SD} {r : Rec} : r ∈ records l ↔ ∃ x ∈ l, x.record = r := by
  simp [records]

theorem records_append (a b : List SD) : records (a ++ b) = records a ++ records b := by simp [records]

theorem records_map_withFlag (f : U8) (l : List SD) : records (l.map (SD.withFlag f)) = records l := by
  simp [records, withFlag_record]

/-- The map built from a list, as a search for the last occurrence. -/
theorem convert_foldl (l : List SD) (m : FlagMap) (k : Str) :
    l.foldl (fun m v => fun k => if k = v.hashKey then some v.getFlag else m k) m k =
      match (l.reverse.find? (fun x => decide (k = x.hashKey))) with
      | some x => some x.getFlag
      | none => m k := by
  induction l generalizing m with
  | nil => simp
  | cons a l ih =>
    rw [List.foldl_cons, ih, List.reverse_cons, List.find?_append]
    cases h : l.reverse.find? (fun x => decide (k = x.hashKey)) with
    | some x => simp
    | none => by_cases hk : k = a.hashKey <;> simp [hk]

theorem convert_eq (l : List SD) (k : Str) :
    convertSDListToMap l k = (l.reverse.find? (fun x => decide (k = x.hashKey))).map SD.getFlag := by
  unfold convertSDListToMap
  rw [convert_foldl]
  cases l.reverse.find? (fun x => decide (k = x.hashKey)) <;> rfl

theorem convert_none_iff {l : List SD} (hl : AllValid l) {x : SD} (hx : x.Valid) :
    convertSDListToMap l x.hashKey = none ↔ x.record ∉ records l := by
  rw [convert_eq]
  simp only [Option.map_eq_none_iff, List.find?_eq_none, List.mem_reverse, decide_eq_true_eq, mem_records, not_exists, not_and]
  constructor
  · intro h y hy he
    exact h y hy ((C08_hash_key_identifies hx (hl y hy)).mpr he.symm)
  · intro h y hy he
    exact h y hy ((C08_hash_key_identifies hx (hl y hy)).mp he).symm

theorem convert_isNone {l : List SD} (hl : AllValid l) {x : SD} (hx : x.Valid) :
    (convertSDListToMap l x.hashKey).isNone = decide (x.record ∉ records l) := by
  rw [Bool.eq_iff_iff]
  simp only [Option.isNone_iff_eq_none, decide_eq_true_eq]
  exact convert_none_iff hl hx

theorem convert_some {l : List SD} (hl : AllValid l) {x : SD} (hx : x.Valid) {f : U8}
    (h : convertSDListToMap l x.hashKey = some f) : ∃ y ∈ l, y.record = x.record ∧ y.getFlag = f := by
  rw [convert_eq] at h
  simp only [Option.map_eq_some_iff] at h
  obtain ⟨y, hy, hf⟩ := h
  have hm := List.mem_of_find?_eq_some hy
  have hk := List.find?_some hy
  simp only [List.mem_reverse] at hm
  simp only [decide_eq_true_eq] at hk
  exact ⟨y, hm, ((C08_hash_key_identifies hx (hl y hm)).mp hk).symm, hf⟩

theorem AllValid.append {a b : List SD} (ha : AllValid a) (hb : AllValid b) : AllValid (a ++ b) := by
  intro x hx
  rcases List.mem_append.mp hx with h | h
  · exact ha x h
  · exact hb x h

theorem AllValid.filter {a : List SD} (ha : AllValid a) (p : SD → Bool) : AllValid (a.filter p) :=
  fun x hx => ha x (List.mem_filter.mp hx).1

theorem AllValid.mapFlag {a : List SD} (ha : AllValid a) (f : U8) : AllValid (a.map (SD.withFlag f)) := by
  intro x hx
  obtain ⟨y, hy, rfl⟩ := List.mem_map.mp hx
  exact withFlag_valid (ha y hy)

theorem AllValid.nil : AllValid [] := by intro x hx; cases hx

theorem filter_congr' {l : List SD} {p q : SD → Bool} (h : ∀ x ∈ l, p x = q x) : l.filter p = l.filter q :=
  List.filter_congr h

theorem computeDiff_eq {new prev : List SD} (hn : AllValid new) (hp : AllValid prev) (pu : Bool) :
    computeDiff new prev pu =
      ((new.filter (fun x => decide (x.record ∉ records prev))).map (SD.withFlag flagAdded),
       (prev.filter (fun x => decide (x.record ∉ records new))).map (SD.withFlag flagRemoved),
       if pu then prev.filter (fun x => decide (x.record ∈ records new)) else []) := by
  unfold computeDiff
  refine Prod.ext ?_ (Prod.ext ?_ ?_)
  · exact congrArg (List.map _) (filter_congr' fun x hx => convert_isNone hp (hn x hx))
  · exact congrArg (List.map _) (filter_congr' fun x hx => convert_isNone hn (hp x hx))
  · dsimp only
    split
    · refine filter_congr' fun x hx => ?_
      have := convert_isNone hn (hp x hx)
      rw [← Option.not_isNone, this]
      simp
    · rfl

/-- Whether a diff item survives in `ApplyDiff`. -/
theorem applyDiff_item {diff prev : List SD} (hp : AllValid prev) {x : SD} (hx : x.Valid) :
    (if x.getFlag = flagAdded then true
      else if x.getFlag = flagRemoved then
        match convertSDListToMap prev x.hashKey with
        | none => true
        | some f => f == flagRemoved
      else false) = true →
    x.getFlag = flagAdded ∨ (x.getFlag = flagRemoved ∧
      (x.record ∉ records prev ∨ ∃ y ∈ prev, y.record = x.record ∧ y.getFlag = flagRemoved)) := by
  intro h
  split at h
  · exact Or.inl ‹_›
  · split at h
    · refine Or.inr ⟨‹_›, ?_⟩
      cases hc : convertSDListToMap prev x.hashKey with
      | none => exact Or.inl ((convert_none_iff hp hx).mp hc)
      | some f =>
        rw [hc] at h
        simp only [beq_iff_eq] at h
        obtain ⟨y, hy, hr, hf⟩ := convert_some hp hx hc
        exact Or.inr ⟨y, hy, hr, hf.trans h⟩
    · exact absurd h (by decide)

/-- All occurrences of a record in a list carry the same flag. -/
def Consistent (l : List SD) : Prop := ∀ x ∈ l, ∀ y ∈ l, x.record = y.record → x.getFlag = y.getFlag

/-- Flags are announce or withdraw. -/
def FlagsOk (l : List SD) : Prop := ∀ x ∈ l, x.getFlag = flagAdded ∨ x.getFlag = flagRemoved

/-- `r` occurs in `l` with flag `f`. -/
def Has (l : List SD) (r : Rec) (f : U8) : Prop := ∃ x ∈ l, x.record = r ∧ x.getFlag = f

instance Has.dec (l : List SD) (r : Rec) (f : U8) : Decidable (Has l r f) := by unfold Has; infer_instance

theorem Has.mem {l : List SD} {r : Rec} {f : U8} (h : Has l r f) : r ∈ records l := by
  obtain ⟨x, hx, hr, _⟩ := h
  exact mem_records.mpr ⟨x, hx, hr⟩

/-- A well-formed diff list. -/
structure GoodDiff (l : List SD) : Prop where
  valid : AllValid l
  cons : Consistent l
  flags : FlagsOk l

theorem GoodDiff.nil : GoodDiff [] := ⟨by simp [AllValid], by simp [Consistent], by simp [FlagsOk]⟩

theorem flags_ne : flagAdded ≠ flagRemoved := by decide

theorem GoodDiff.not_both {l : List SD} (h : GoodDiff l) {r : Rec} (h1 : Has l r flagAdded) (h2 : Has l r flagRemoved) : False := by
  obtain ⟨x, hx, rfl, fx⟩ := h1
  obtain ⟨y, hy, hr, fy⟩ := h2
  have := h.cons x hx y hy hr.symm
  rw [fx, fy] at this
  exact flags_ne this

theorem GoodDiff.mem_iff {l : List SD} (h : GoodDiff l) {r : Rec} : r ∈ records l ↔ Has l r flagAdded ∨ Has l r flagRemoved := by
  constructor
  · intro hr
    obtain ⟨x, hx, rfl⟩ := mem_records.mp hr
    rcases h.flags x hx with hf | hf
    · exact Or.inl ⟨x, hx, rfl, hf⟩
    · exact Or.inr ⟨x, hx, rfl, hf⟩
  · rintro (h | h) <;> exact h.mem

theorem applyDiff_survives {diff prev : List SD} (hd : GoodDiff diff) (hp : GoodDiff prev) {x : SD} (hx : x ∈ diff) :
    (if x.getFlag = flagAdded then true
      else if x.getFlag = flagRemoved then
        match convertSDListToMap prev x.hashKey with
        | none => true
        | some f => f == flagRemoved
      else false) = true ↔
    (x.getFlag = flagAdded ∨ (x.getFlag = flagRemoved ∧ ¬ Has prev x.record flagAdded)) := by
  constructor
  · intro h
    rcases applyDiff_item (diff := diff) hp.valid (hd.valid x hx) h with h | ⟨h1, h2⟩
    · exact Or.inl h
    · refine Or.inr ⟨h1, fun hc => ?_⟩
      rcases h2 with h2 | h2
      · exact h2 hc.mem
      · exact hp.not_both hc h2
  · rintro (h | ⟨h1, h2⟩)
    · simp [h]
    · rw [if_neg (by rw [h1]; exact flags_ne.symm), if_pos h1]
      cases hc : convertSDListToMap prev x.hashKey with
      | none => rfl
      | some f =>
        obtain ⟨y, hy, hr, hf⟩ := convert_some hp.valid (hd.valid x hx) hc
        rcases hp.flags y hy with hfy | hfy
        · exact absurd ⟨y, hy, hr, hfy⟩ h2
        · simp [← hf, hfy]

theorem mem_applyDiff {diff prev : List SD} (hd : GoodDiff diff) (hp : GoodDiff prev) {x : SD} :
    x ∈ applyDiff diff prev ↔
      (x ∈ prev ∧ x.record ∉ records diff) ∨
      (x ∈ diff ∧ (x.getFlag = flagAdded ∨ (x.getFlag = flagRemoved ∧ ¬ Has prev x.record flagAdded))) := by
  unfold applyDiff
  dsimp only
  rw [List.mem_append, List.mem_filter, List.mem_filter]
  apply or_congr
  · constructor
    · rintro ⟨h1, h2⟩
      rw [convert_isNone hd.valid (hp.valid x h1)] at h2
      exact ⟨h1, of_decide_eq_true h2⟩
    · rintro ⟨h1, h2⟩
      rw [convert_isNone hd.valid (hp.valid x h1)]
      exact ⟨h1, decide_eq_true h2⟩
  · constructor
    · rintro ⟨h1, h2⟩
      exact ⟨h1, (applyDiff_survives hd hp h1).mp h2⟩
    · rintro ⟨h1, h2⟩
      exact ⟨h1, (applyDiff_survives hd hp h1).mpr h2⟩

theorem has_applyDiff {diff prev : List SD} (hd : GoodDiff diff) (hp : GoodDiff prev) {r : Rec} {f : U8} :
    Has (applyDiff diff prev) r f ↔
      (r ∉ records diff ∧ Has prev r f) ∨
      (Has diff r f ∧ (f = flagAdded ∨ (f = flagRemoved ∧ ¬ Has prev r flagAdded))) := by
  constructor
  · rintro ⟨x, hx, rfl, rfl⟩
    rcases (mem_applyDiff hd hp).mp hx with ⟨h1, h2⟩ | ⟨h1, h2⟩
    · exact Or.inl ⟨h2, x, h1, rfl, rfl⟩
    · exact Or.inr ⟨⟨x, h1, rfl, rfl⟩, h2⟩
  · rintro (⟨h2, x, h1, rfl, rfl⟩ | ⟨⟨x, h1, rfl, rfl⟩, h2⟩)
    · exact ⟨x, (mem_applyDiff hd hp).mpr (Or.inl ⟨h1, h2⟩), rfl, rfl⟩
    · exact ⟨x, (mem_applyDiff hd hp).mpr (Or.inr ⟨h1, h2⟩), rfl, rfl⟩

theorem GoodDiff.applyDiff {diff prev : List SD} (hd : GoodDiff diff) (hp : GoodDiff prev) : GoodDiff (applyDiff diff prev) := by
  refine ⟨?_, ?_, ?_⟩
  · intro x hx
    rcases (mem_applyDiff hd hp).mp hx with ⟨h1, _⟩ | ⟨h1, _⟩
    · exact hp.valid x h1
    · exact hd.valid x h1
  · intro x hx y hy hr
    rcases (mem_applyDiff hd hp).mp hx with ⟨h1, h2⟩ | ⟨h1, _⟩ <;>
    rcases (mem_applyDiff hd hp).mp hy with ⟨h3, h4⟩ | ⟨h3, _⟩
    · exact hp.cons x h1 y h3 hr
    · exact absurd (mem_records.mpr ⟨y, h3, hr.symm⟩) h2
    · exact absurd (mem_records.mpr ⟨x, h1, hr⟩) h4
    · exact hd.cons x h1 y h3 hr
  · intro x hx
    rcases (mem_applyDiff hd hp).mp hx with ⟨h1, _⟩ | ⟨h1, _⟩
    · exact hp.flags x h1
    · exact hd.flags x h1

/-- Every record is announced. -/
def AllAdded (l : List SD) : Prop := ∀ x ∈ l, x.getFlag = flagAdded

theorem AllAdded.good {l : List SD} (hv : AllValid l) (h : AllAdded l) : GoodDiff l :=
  ⟨hv, fun x hx y hy _ => (h x hx).trans (h y hy).symm, fun x hx => Or.inl (h x hx)⟩

theorem AllAdded.has {l : List SD} (h : AllAdded l) {r : Rec} : Has l r flagAdded ↔ r ∈ records l := by
  constructor
  · exact Has.mem
  · intro hr
    obtain ⟨x, hx, rfl⟩ := mem_records.mp hr
    exact ⟨x, hx, rfl, h x hx⟩

/-- The diff computed by `AddData`. -/
def curDiff (new prev : List SD) : List SD := (computeDiff new prev false).1 ++ (computeDiff new prev false).2.1

theorem curDiff_eq {new prev : List SD} (hn : AllValid new) (hp : AllValid prev) :
    curDiff new prev =
      (new.filter (fun x => decide (x.record ∉ records prev))).map (SD.withFlag flagAdded) ++
      (prev.filter (fun x => decide (x.record ∉ records new))).map (SD.withFlag flagRemoved) := by
  unfold curDiff; rw [computeDiff_eq hn hp]

theorem mem_records_filter {l : List SD} {p : Rec → Bool} {r : Rec} :
    r ∈ records (l.filter (fun x => p x.record)) ↔ r ∈ records l ∧ p r = true := by
  simp only [mem_records, List.mem_filter]
  constructor
  · rintro ⟨x, ⟨h1, h2⟩, rfl⟩; exact ⟨⟨x, h1, rfl⟩, h2⟩
  · rintro ⟨⟨x, h1, rfl⟩, h2⟩; exact ⟨x, ⟨h1, h2⟩, rfl⟩

theorem has_map_withFlag {l : List SD} {r : Rec} {f g : U8} : Has (l.map (SD.withFlag f)) r g ↔ r ∈ records l ∧ g = f := by
  constructor
  · rintro ⟨x, hx, rfl, rfl⟩
    obtain ⟨y, hy, rfl⟩ := List.mem_map.mp hx
    exact ⟨mem_records.mpr ⟨y, hy, (withFlag_record _ _).symm⟩, withFlag_getFlag _ _⟩
  · rintro ⟨hr, rfl⟩
    obtain ⟨y, hy, rfl⟩ := mem_records.mp hr
    exact ⟨y.withFlag g, List.mem_map.mpr ⟨y, hy, rfl⟩, withFlag_record _ _, withFlag_getFlag _ _⟩

theorem has_append {a b : List SD} {r : Rec} {f : U8} : Has (a ++ b) r f ↔ Has a r f ∨ Has b r f := by
  simp only [Has, List.mem_append]
  constructor
  · rintro ⟨x, h | h, h2⟩
    · exact Or.inl ⟨x, h, h2⟩
    · exact Or.inr ⟨x, h, h2⟩
  · rintro (⟨x, h, h2⟩ | ⟨x, h, h2⟩)
    · exact ⟨x, Or.inl h, h2⟩
    · exact ⟨x, Or.inr h, h2⟩

theorem curDiff_added {new prev : List SD} (hn : AllValid new) (hp : AllValid prev) {r : Rec} :
    Has (curDiff new prev) r flagAdded ↔ r ∈ records new ∧ r ∉ records prev := by
  rw [curDiff_eq hn hp, has_append, has_map_withFlag, has_map_withFlag,
    mem_records_filter (p := fun r => decide (r ∉ records prev)), mem_records_filter (p := fun r => decide (r ∉ records new))]
  have := flags_ne
  simp [this]

theorem curDiff_removed {new prev : List SD} (hn : AllValid new) (hp : AllValid prev) {r : Rec} :
    Has (curDiff new prev) r flagRemoved ↔ r ∈ records prev ∧ r ∉ records new := by
  rw [curDiff_eq hn hp, has_append, has_map_withFlag, has_map_withFlag,
    mem_records_filter (p := fun r => decide (r ∉ records prev)), mem_records_filter (p := fun r => decide (r ∉ records new))]
  have := flags_ne.symm
  simp [this]

theorem curDiff_records {new prev : List SD} (hn : AllValid new) (hp : AllValid prev) {r : Rec} :
    r ∈ records (curDiff new prev) ↔ (r ∈ records new ∧ r ∉ records prev) ∨ (r ∈ records prev ∧ r ∉ records new) := by
  rw [curDiff_eq hn hp, records_append, records_map_withFlag, records_map_withFlag, List.mem_append,
    mem_records_filter (p := fun r => decide (r ∉ records prev)), mem_records_filter (p := fun r => decide (r ∉ records new))]
  simp

theorem curDiff_good {new prev : List SD} (hn : AllValid new) (hp : AllValid prev) : GoodDiff (curDiff new prev) := by
  have hfl : FlagsOk (curDiff new prev) := by
    rw [curDiff_eq hn hp]
    intro x hx
    rcases List.mem_append.mp hx with h | h
    · obtain ⟨y, _, rfl⟩ := List.mem_map.mp h; exact Or.inl (withFlag_getFlag _ _)
    · obtain ⟨y, _, rfl⟩ := List.mem_map.mp h; exact Or.inr (withFlag_getFlag _ _)
  refine ⟨?_, ?_, hfl⟩
  · rw [curDiff_eq hn hp]
    exact ((hn.filter _).mapFlag _).append ((hp.filter _).mapFlag _)
  · intro x hx y hy hr
    rcases hfl x hx with h1 | h1 <;> rcases hfl y hy with h2 | h2
    · exact h1.trans h2.symm
    · have a := (curDiff_added hn hp).mp ⟨x, hx, rfl, h1⟩
      have b := (curDiff_removed hn hp).mp ⟨y, hy, rfl, h2⟩
      rw [hr] at a
      exact absurd a.1 b.2
    · have a := (curDiff_added hn hp).mp ⟨y, hy, rfl, h2⟩
      have b := (curDiff_removed hn hp).mp ⟨x, hx, rfl, h1⟩
      rw [hr] at b
      exact absurd a.1 b.2
    · exact h1.trans h2.symm

/-- Applying the computed diff to an announced list: the kept records in order, then the new ones in order. -/
theorem applyDiff_curDiff {new prev : List SD} (hn : AllValid new) (hp : AllValid prev) (ha : AllAdded prev) :
    applyDiff (curDiff new prev) prev =
      prev.filter (fun x => decide (x.record ∈ records new)) ++
      (new.filter (fun x => decide (x.record ∉ records prev))).map (SD.withFlag flagAdded) := by
  have hg := curDiff_good hn hp
  have hpg := AllAdded.good hp ha
  unfold applyDiff
  dsimp only
  congr 1
  · refine filter_congr' fun x hx => ?_
    rw [convert_isNone hg.valid (hp x hx)]
    rw [decide_eq_decide, curDiff_records hn hp]
    have : x.record ∈ records prev := mem_records.mpr ⟨x, hx, rfl⟩
    by_cases h : x.record ∈ records new <;> simp [this, h]
  · rw [filter_congr' (q := fun x => decide (x.getFlag = flagAdded ∨ (x.getFlag = flagRemoved ∧ ¬ Has prev x.record flagAdded)))
      (fun x hx => by rw [Bool.eq_iff_iff, decide_eq_true_eq]; exact applyDiff_survives hg hpg hx)]
    rw [curDiff_eq hn hp, List.filter_append]
    have h1 : ∀ l : List SD, (l.map (SD.withFlag flagAdded)).filter
        (fun x => decide (x.getFlag = flagAdded ∨ (x.getFlag = flagRemoved ∧ ¬ Has prev x.record flagAdded))) = l.map (SD.withFlag flagAdded) := by
      intro l
      rw [List.filter_eq_self]
      intro x hx
      obtain ⟨y, hy, rfl⟩ := List.mem_map.mp hx
      simp [withFlag_getFlag]
    have h2 : ((prev.filter (fun x => decide (x.record ∉ records new))).map (SD.withFlag flagRemoved)).filter
        (fun x => decide (x.getFlag = flagAdded ∨ (x.getFlag = flagRemoved ∧ ¬ Has prev x.record flagAdded))) = [] := by
      rw [List.filter_eq_nil_iff]
      intro x hx
      obtain ⟨y, hy, rfl⟩ := List.mem_map.mp hx
      simp only [withFlag_getFlag, withFlag_record, decide_eq_true_eq, ha.has]
      have : y.record ∈ records prev := mem_records.mpr ⟨y, (List.mem_filter.mp hy).1, rfl⟩
      simp [this, flags_ne.symm]
    rw [h1, h2, List.append_nil]

end StayRTR
