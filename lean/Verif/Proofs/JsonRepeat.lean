import Verif.Spec.JsonRepeat
import Verif.Proofs.Json
import Mathlib.Data.List.GetD

/-! # Decoding files with repeated names -/

namespace StayRTR

open Spec

/-- The numbers in a value are good, if that matters. -/
def Nums (P : Prop) (j : Json) : Prop := P → ∀ lit, Within (.num lit) j → NumText lit

theorem nums_elem {P : Prop} {l : List Json} {j : Json} (h : Nums P (.arr l)) (hj : j ∈ l) : Nums P j := fun hP lit hw => h hP lit (.elem hj hw)

theorem nums_member {P : Prop} {l : List (Str × Json)} {n : Str} {j : Json} (h : Nums P (.obj l)) (hj : (n, j) ∈ l) : Nums P j := fun hP lit hw => h hP lit (.member hj hw)

/-- A decoder fed with a history comes to what the history says. -/
structure Hist (P : Prop) {σ α : Type} (S : List Json → α → Prop) (ok : Json → Prop) (dec : σ → Json → Option σ) (zero : σ) (f : σ → α) : Prop where
  some_iff : ∀ js : List Json, (∀ j ∈ js, Nums P j) → ((∃ st, js.foldlM dec zero = some st) ↔ ∀ j ∈ js, ok j)
  view : ∀ js : List Json, (∀ j ∈ js, Nums P j) → ∀ st, js.foldlM dec zero = some st → ∀ x, S js x ↔ x = f st

theorem Hist.iff {P : Prop} {σ α : Type} {S : List Json → α → Prop} {ok : Json → Prop} {dec : σ → Json → Option σ} {zero : σ} {f : σ → α} (h : Hist P S ok dec zero f) (js : List Json) (hj : ∀ j ∈ js, Nums P j) (x : α) :
    (∃ st, js.foldlM dec zero = some st ∧ f st = x) ↔ (∀ j ∈ js, ok j) ∧ S js x := by
  constructor
  · rintro ⟨st, h1, rfl⟩
    exact ⟨(h.some_iff js hj).1 ⟨st, h1⟩, (h.view js hj st h1 _).2 rfl⟩
  · rintro ⟨h1, h2⟩
    obtain ⟨st, hs⟩ := (h.some_iff js hj).2 h1
    exact ⟨st, hs, ((h.view js hj st hs x).1 h2).symm⟩

theorem foldlM_snoc {σ : Type} (dec : σ → Json → Option σ) (js : List Json) (j : Json) (z : σ) : (js ++ [j]).foldlM dec z = (js.foldlM dec z).bind fun st => dec st j := by
  rw [List.foldlM_append]
  cases js.foldlM dec z with
  | none => rfl
  | some y => simp

/-! ## Scalars -/

theorem lastSays_snoc {α : Type} (R : Json → α → Prop) (z : α) (js : List Json) (j : Json) (x : α) : LastSays R z (js ++ [j]) x ↔ (j = .null ∧ LastSays R z js x) ∨ (j ≠ .null ∧ R j x) := by
  unfold LastSays
  rw [List.filter_append]
  cases j <;> simp

theorem lastHist {P : Prop} {α : Type} {R : Json → α → Prop} {dec : α → Json → Option α} (hd : ∀ j, Nums P j → ∀ z x, dec z j = some x ↔ OrNull R z j x) (z : α) : Hist P (LastSays R z) (ValueFits R) dec z id where
  some_iff := by
    intro js
    induction js using List.reverseRecOn with
    | nil => intro _; simp
    | append_singleton js j ih =>
      intro hj
      have ih := ih fun i hi => hj i (List.mem_append_left _ hi)
      have hd := hd j (hj j (by simp))
      simp only [foldlM_snoc, Option.bind_eq_some_iff, List.mem_append, List.mem_singleton, or_imp, forall_and, forall_eq, hd, ← ih]
      constructor
      · rintro ⟨st, a, ha, h⟩
        refine ⟨⟨a, ha⟩, ?_⟩
        rcases h with ⟨h, -⟩ | ⟨-, h⟩
        · exact .inl h
        · exact .inr ⟨_, h⟩
      · rintro ⟨⟨a, ha⟩, h⟩
        by_cases hn : j = .null
        · exact ⟨a, a, ha, .inl ⟨hn, rfl⟩⟩
        · obtain ⟨x, hx⟩ := h.resolve_left hn
          exact ⟨x, a, ha, .inr ⟨hn, hx⟩⟩
  view := by
    intro js
    induction js using List.reverseRecOn with
    | nil => intro _ st h x; simp [LastSays] at h ⊢; rw [h]
    | append_singleton js j ih =>
      intro hj st h x
      rw [foldlM_snoc, Option.bind_eq_some_iff] at h
      obtain ⟨a, ha, h⟩ := h
      have ih := ih (fun i hi => hj i (List.mem_append_left _ hi)) a ha
      have hd := hd j (hj j (by simp))
      rw [lastSays_snoc]
      by_cases hn : j = .null
      · simp only [hn, ne_eq, not_true, false_and, or_false, true_and, ih]
        have := (hd a st).1 h
        simp only [OrNull, hn, ne_eq, not_true, false_and, or_false, true_and] at this
        rw [this]
      · simp only [hn, ne_eq, not_false_eq_true, true_and, false_and, false_or]
        have h1 : R j x ↔ dec a j = some x := by rw [hd a x]; simp [OrNull, hn]
        rw [h1, h]
        simp [eq_comm]

theorem newestHist {P : Prop} {α : Type} {R : Json → α → Prop} {dec : α → Json → Option α} {zero : α} (hd : ∀ j, Nums P j → ∀ z x, dec z j = some x ↔ OrNull R zero j x) : Hist P (NewestSays R zero) (ValueFits R) dec zero id where
  some_iff := by
    intro js
    induction js using List.reverseRecOn with
    | nil => intro _; simp
    | append_singleton js j ih =>
      intro hj
      have ih := ih fun i hi => hj i (List.mem_append_left _ hi)
      have hd := hd j (hj j (by simp))
      simp only [foldlM_snoc, Option.bind_eq_some_iff, List.mem_append, List.mem_singleton, or_imp, forall_and, forall_eq, hd, ← ih]
      constructor
      · rintro ⟨st, a, ha, h⟩
        refine ⟨⟨a, ha⟩, ?_⟩
        rcases h with ⟨h, -⟩ | ⟨-, h⟩
        · exact .inl h
        · exact .inr ⟨_, h⟩
      · rintro ⟨⟨a, ha⟩, h⟩
        by_cases hn : j = .null
        · exact ⟨zero, a, ha, .inl ⟨hn, rfl⟩⟩
        · obtain ⟨x, hx⟩ := h.resolve_left hn
          exact ⟨x, a, ha, .inr ⟨hn, hx⟩⟩
  view := by
    intro js
    rcases List.eq_nil_or_concat js with rfl | ⟨js, j, rfl⟩
    · intro _ st h x; simp [NewestSays] at h ⊢; rw [h]
    · rw [List.concat_eq_append]
      intro hj st h x
      rw [foldlM_snoc, Option.bind_eq_some_iff] at h
      obtain ⟨a, ha, h⟩ := h
      simp only [NewestSays, List.getLast?_append, List.getLast?_singleton, Option.some_or]
      rw [← hd j (hj j (by simp)) a x, h]
      simp [eq_comm]

/-! ## Lists -/

theorem sinceReset_snoc (js : List Json) (e : Json) (l : List Json) : sinceReset (js ++ [.arr (e :: l)]) = sinceReset js ++ [.arr (e :: l)] := by
  simp [sinceReset]

theorem sinceReset_snoc_nil (js : List Json) : sinceReset (js ++ [.arr []]) = [] := by
  simp [sinceReset]

theorem sinceReset_snoc_other (js : List Json) (j : Json) (h : ∀ l, j ≠ .arr l) : sinceReset (js ++ [j]) = [] := by
  cases j with
  | arr l => exact absurd rfl (h l)
  | _ => simp [sinceReset]

theorem sinceReset_mem {js : List Json} {j : Json} (h : j ∈ sinceReset js) : j ∈ js := by
  unfold sinceReset at h
  rw [List.mem_reverse] at h
  exact List.mem_reverse.1 (List.takeWhile_subset _ h)

theorem column_append (i : Nat) (a b : List Json) : column i (a ++ b) = column i a ++ column i b := by
  simp [column]

theorem column_one (i : Nat) (l : List Json) : column i [.arr l] = (l[i]?).toList := by
  cases h : l[i]? <;> simp [column, h]

theorem column_mem {i : Nat} {js : List Json} {e : Json} (h : e ∈ column i js) : ∃ l, .arr l ∈ js ∧ e ∈ l := by
  unfold column at h
  obtain ⟨j, hj, h⟩ := List.mem_filterMap.1 h
  cases j with
  | arr l => exact ⟨l, hj, List.mem_of_getElem? h⟩
  | _ => simp at h

theorem decElems_get {α : Type} (zero : α) (dec : α → Json → Option α) (old : List α) (l : List Json) (r : List α) :
    decElems zero dec old l = some r ↔ r.length = l.length ∧ ∀ i (h : i < l.length) (h' : i < r.length), dec (old.getD i zero) l[i] = some r[i] := by
  induction l generalizing old r with
  | nil => cases r <;> simp [decElems]
  | cons j l ih =>
    cases r with
    | nil =>
      simp only [decElems, List.length_nil, List.length_cons]
      constructor
      · intro h; split at h
        · cases h
        · split at h <;> cases h
      · rintro ⟨h, -⟩; omega
    | cons a r =>
      have hh : old.headD zero = old.getD 0 zero := by cases old <;> rfl
      have ht : ∀ i, old.tail.getD i zero = old.getD (i + 1) zero := by intro i; cases old <;> simp
      have : decElems zero dec old (j :: l) = some (a :: r) ↔ dec (old.headD zero) j = some a ∧ decElems zero dec old.tail l = some r := by
        rw [decElems]
        generalize old.headD zero = o
        split
        · rename_i h; simp [h]
        · rename_i b h
          split
          · rename_i h'; simp [h']
          · rename_i b' h'; simp [h, h']
      rw [this, ih, hh]
      simp only [List.length_cons, Nat.add_right_cancel_iff, ht]
      constructor
      · rintro ⟨h1, h2, h3⟩
        refine ⟨h2, fun i h h' => ?_⟩
        cases i with
        | zero => exact h1
        | succ i => exact h3 i (by omega) (by omega)
      · rintro ⟨h2, h3⟩
        refine ⟨h3 0 (by omega) (by omega), h2, fun i h h' => h3 (i + 1) (by omega) (by omega)⟩

theorem getD_replace {α : Type} (zero : α) (old r : List α) (n : Nat) (hr : r.length = n) (i : Nat) : (r ++ old.drop n).getD i zero = if h : i < r.length then r[i] else old.getD i zero := by
  split
  · rename_i h; rw [List.getD_append _ _ _ _ h, List.getD_eq_getElem _ _ h]
  · rename_i h
    rw [List.getD_append_right _ _ _ _ (by omega), hr]
    simp only [List.getD_eq_getElem?_getD, List.getElem?_drop]
    congr 2; omega

/-- What a slice holds after a history that began with `base`. -/
def Filled {σ : Type} (dec : σ → Json → Option σ) (base : Nat → σ) (zero : σ) (since : List Json) (m : Arr σ) : Prop :=
  ∀ i, (column i since).foldlM dec (base i) = some ((m.1 ++ m.2).getD i zero)

theorem filled_step {σ : Type} {dec : σ → Json → Option σ} {base : Nat → σ} {zero : σ} {since : List Json} {m m' : Arr σ} {l : List Json} (h : Filled dec base zero since m) (hl : l ≠ [])
    (hm : decArray zero dec m l = some m') : m'.1.length = l.length ∧ Filled dec base zero (since ++ [.arr l]) m' := by
  cases l with
  | nil => exact absurd rfl hl
  | cons e l =>
    simp only [decArray, Option.map_eq_some_iff] at hm
    obtain ⟨r, hr, rfl⟩ := hm
    rw [decElems_get] at hr
    refine ⟨hr.1, fun i => ?_⟩
    rw [column_append, column_one, List.foldlM_append, h i, getD_replace zero _ r _ hr.1 i]
    by_cases hi : i < r.length
    · have hi' : i < (e :: l).length := by rw [← hr.1]; exact hi
      rw [dif_pos hi, List.getElem?_eq_getElem hi', ← hr.2 i hi' hi]
      simp
    · have hi' : (e :: l).length ≤ i := by rw [← hr.1]; omega
      rw [dif_neg hi, List.getElem?_eq_none hi']
      simp

theorem filled_some {σ : Type} {dec : σ → Json → Option σ} {base : Nat → σ} {zero : σ} {since : List Json} {m : Arr σ} (l : List Json) (h : Filled dec base zero since m)
    (hs : ∀ i e, l[i]? = some e → ∃ st, (column i since ++ [e]).foldlM dec (base i) = some st) : ∃ m', decArray zero dec m l = some m' := by
  cases l with
  | nil => exact ⟨_, rfl⟩
  | cons e l =>
    generalize hL : e :: l = L at *
    have hs' : ∀ i (hi : i < L.length), ∃ st, dec ((m.1 ++ m.2).getD i zero) L[i] = some st := by
      intro i hi
      obtain ⟨st, hst⟩ := hs i L[i] (List.getElem?_eq_getElem hi)
      rw [foldlM_snoc, h i] at hst
      exact ⟨st, hst⟩
    have : ∃ r, decElems zero dec (m.1 ++ m.2) L = some r := by
      choose g hg using hs'
      refine ⟨List.ofFn fun i : Fin L.length => g i.1 i.2, (decElems_get _ _ _ _ _).2 ⟨by simp, fun i h h' => ?_⟩⟩
      rw [hg i h]; simp
    obtain ⟨r, hr⟩ := this
    subst hL
    exact ⟨(r, (m.1 ++ m.2).drop (e :: l).length), by simp only [decArray, hr, Option.map_some]⟩

/-- What a list holds after a history. -/
def ListHolds {σ : Type} (dec : σ → Json → Option σ) (zero : σ) (js : List Json) (st : Option (Arr σ)) : Prop :=
  Filled dec (fun _ => zero) zero (sinceReset js) (st.getD ([], [])) ∧
  match js.getLast? with
  | some (.arr l) => ∃ m, st = some m ∧ m.1.length = l.length
  | _ => st = none

theorem filled_nil {σ : Type} (dec : σ → Json → Option σ) (zero : σ) : Filled dec (fun _ => zero) zero [] ([], []) := by
  intro i; simp [column]

theorem listed_step {P : Prop} {σ α : Type} {S : List Json → α → Prop} {ok : Json → Prop} {dec : σ → Json → Option σ} {zero : σ} {f : σ → α} (h : Hist P S ok dec zero f) (js : List Json)
    (hj : ∀ j ∈ js, Nums P j) : ((∃ st, js.foldlM (decSlice zero dec) none = some st) ↔ ∀ j ∈ js, ListFits ok j) ∧ ∀ st, js.foldlM (decSlice zero dec) none = some st → ListHolds dec zero js st := by
  induction js using List.reverseRecOn with
  | nil =>
    refine ⟨by simp, fun st hs => ?_⟩
    simp only [List.foldlM_nil] at hs
    cases hs
    exact ⟨filled_nil dec zero, rfl⟩
  | append_singleton js j ih =>
    obtain ⟨ih1, ih2⟩ := ih fun i hi => hj i (List.mem_append_left _ hi)
    have hcol : ∀ i, ∀ e ∈ column i (sinceReset js), Nums P e := by
      intro i e he
      obtain ⟨l, hl, he⟩ := column_mem he
      exact nums_elem (hj _ (List.mem_append_left _ (sinceReset_mem hl))) he
    have hstep : ∀ st, js.foldlM (decSlice zero dec) none = some st → ∀ st', decSlice zero dec st j = some st' → ListFits ok j ∧ ListHolds dec zero (js ++ [j]) st' := by
      intro st hst st' hst'
      have hL := ih2 st hst
      cases j with
      | null =>
        cases hst'
        refine ⟨.inl rfl, ?_, ?_⟩
        · rw [sinceReset_snoc_other _ _ (by intro l h; cases h)]; exact filled_nil dec zero
        · simp
      | arr l =>
        simp only [decSlice, Option.map_eq_some_iff] at hst'
        obtain ⟨m, hm, rfl⟩ := hst'
        cases l with
        | nil =>
          cases hm
          refine ⟨.inr ⟨[], rfl, by simp⟩, ?_, ?_⟩
          · rw [sinceReset_snoc_nil]; exact filled_nil dec zero
          · simp
        | cons e l =>
          obtain ⟨h1, h2⟩ := filled_step hL.1 (by simp) hm
          refine ⟨.inr ⟨_, rfl, fun x hx => ?_⟩, ?_, ?_⟩
          · obtain ⟨i, hi, rfl⟩ := List.getElem_of_mem hx
            have h3 := h2 i
            rw [column_append, column_one, List.getElem?_eq_getElem hi, Option.toList_some] at h3
            refine (h.some_iff _ ?_).1 ⟨_, h3⟩ _ (by simp)
            intro y hy
            rcases List.mem_append.1 hy with hy | hy
            · exact hcol i y hy
            · rw [List.mem_singleton.1 hy]; exact nums_elem (hj (.arr (e :: l)) (by simp)) hx
          · rw [sinceReset_snoc]; exact h2
          · simpa using h1
      | _ => cases hst'
    refine ⟨⟨?_, ?_⟩, ?_⟩
    · rintro ⟨st', hst'⟩
      rw [foldlM_snoc, Option.bind_eq_some_iff] at hst'
      obtain ⟨st, hst, hst'⟩ := hst'
      intro i hi
      rcases List.mem_append.1 hi with hi | hi
      · exact ih1.1 ⟨st, hst⟩ i hi
      · rw [List.mem_singleton.1 hi]; exact (hstep st hst st' hst').1
    · intro hok
      obtain ⟨st, hst⟩ := ih1.2 fun i hi => hok i (List.mem_append_left _ hi)
      rw [foldlM_snoc, hst, Option.bind_some]
      have hall : ∀ i, ∀ e ∈ column i (sinceReset js), ok e := by
        intro i e he
        obtain ⟨l, hl, he⟩ := column_mem he
        obtain h' | ⟨l', h', h''⟩ := hok (.arr l) (List.mem_append_left _ (sinceReset_mem hl))
        · cases h'
        · cases h'; exact h'' e he
      rcases hok j (by simp) with rfl | ⟨l, rfl, hl⟩
      · exact ⟨none, rfl⟩
      · obtain ⟨m, hm⟩ := filled_some l (ih2 st hst).1 (fun i e he => by
          refine (h.some_iff _ ?_).2 ?_
          · intro y hy
            rcases List.mem_append.1 hy with hy | hy
            · exact hcol i y hy
            · rw [List.mem_singleton.1 hy]; exact nums_elem (hj (.arr l) (by simp)) (List.mem_of_getElem? he)
          · intro y hy
            rcases List.mem_append.1 hy with hy | hy
            · exact hall i y hy
            · rw [List.mem_singleton.1 hy]; exact hl _ (List.mem_of_getElem? he))
        exact ⟨some m, by simp only [decSlice, hm, Option.map_some]⟩
    · intro st' hst'
      rw [foldlM_snoc, Option.bind_eq_some_iff] at hst'
      obtain ⟨st, hst, hst'⟩ := hst'
      exact (hstep st hst st' hst').2

theorem listHist {P : Prop} {σ α : Type} {S : List Json → α → Prop} {ok : Json → Prop} {dec : σ → Json → Option σ} {zero : σ} {f : σ → α} (h : Hist P S ok dec zero f) :
    Hist P (ListSays S) (ListFits ok) (decSlice zero dec) none (fun st => st.map fun m : Arr σ => m.1.map f) where
  some_iff := fun js hj => (listed_step h js hj).1
  view := by
    intro js hj st hst x
    obtain ⟨h1, h2⟩ := (listed_step h js hj).2 st hst
    have hcol : ∀ i, ∀ e ∈ column i (sinceReset js), Nums P e := by
      intro i e he
      obtain ⟨l, hl, he⟩ := column_mem he
      exact nums_elem (hj _ (sinceReset_mem hl)) he
    unfold ListSays
    split
    · rename_i l hl
      rw [hl] at h2
      obtain ⟨m, rfl, hm⟩ := h2
      have key : ∀ i (hi : i < m.1.length) x, S (column i (sinceReset js)) x ↔ x = f m.1[i] := by
        intro i hi x
        have := h1 i
        rw [Option.getD_some, List.getD_append _ _ _ _ hi, List.getD_eq_getElem _ _ hi] at this
        exact h.view _ (hcol i) _ this x
      simp only [Option.map_some]
      constructor
      · rintro ⟨xs, rfl, hx, hS⟩
        congr 1
        apply List.ext_getElem
        · simp [hx, hm]
        · intro i hi hi'
          rw [List.getElem_map]
          exact (key i (by simpa using hi') _).1 (hS i hi)
      · rintro rfl
        refine ⟨_, rfl, by simp [hm], fun i hi => ?_⟩
        rw [key i (by simpa using hi)]
        simp
    · rename_i hne
      have : st = none := by
        cases hg : js.getLast? with
        | none => rw [hg] at h2; exact h2
        | some j => cases j with
          | arr l => exact absurd hg (hne l)
          | _ => rw [hg] at h2; exact h2
      subst this
      simp

/-! ## Bytes -/

theorem base64_unique {s : Str} {a b : Bytes} (ha : Base64Text s a) (hb : Base64Text s b) : a = b := by
  rw [← b64Decode_iff] at ha hb
  exact Option.some.inj (ha.symm.trans hb)

theorem bytesBefore_unique {js : List Json} {a b : Bytes} (ha : BytesBefore js a) (hb : BytesBefore js b) : a = b := by
  unfold BytesBefore at ha hb
  split at ha
  · rename_i s hs
    rw [hs] at hb
    exact base64_unique ha hb
  · rename_i hne
    have : b = [] := by
      revert hb
      split
      · rename_i s hs; exact absurd hs (hne s)
      · exact id
    rw [ha, this]

theorem arrayFits (l : List Json) : (∃ b, List.Forall₂ (OrNull (UintIs 8) 0) l b) ↔ ∀ e ∈ l, ValueFits (UintIs 8) e := by
  induction l with
  | nil => simp
  | cons j l ih =>
    simp only [List.mem_cons, forall_eq_or_imp, ← ih, List.forall₂_cons_left_iff]
    constructor
    · rintro ⟨_, x, b, h1, h2, rfl⟩
      refine ⟨?_, b, h2⟩
      rcases h1 with ⟨h, -⟩ | ⟨-, h⟩
      · exact .inl h
      · exact .inr ⟨x, h⟩
    · rintro ⟨h1, b, h2⟩
      by_cases hn : j = .null
      · exact ⟨_, 0, b, .inl ⟨hn, rfl⟩, h2, rfl⟩
      · obtain ⟨x, hx⟩ := h1.resolve_left hn
        exact ⟨_, x, b, .inr ⟨hn, hx⟩, h2, rfl⟩

theorem uintHist (P : Prop) (w : Nat) (z : BitVec w) : Hist P (LastSays (UintIs w) z) (ValueFits (UintIs w)) (decUint w) z id := lastHist (fun j _ z x => decUint_iff w j z x) z

/-- What bytes hold after a history. -/
def BytesHold (js : List Json) (st : Arr U8) : Prop :=
  (∃ before base, js = before ++ sinceReset js ∧ BytesBefore before base ∧ Filled (decUint 8) (fun i => base.getD i 0) 0 (sinceReset js) st) ∧
  match js.getLast? with
  | some (.str s) => Base64Text s st.1
  | some (.arr l) => st.1.length = l.length
  | _ => st.1 = []

theorem byted_step (js : List Json) : ((∃ st, js.foldlM decBytes ([], []) = some st) ↔ ∀ j ∈ js, ValueFits BytesIs j) ∧ ∀ st, js.foldlM decBytes ([], []) = some st → BytesHold js st := by
  induction js using List.reverseRecOn with
  | nil =>
    refine ⟨by simp, fun st hs => ?_⟩
    simp only [List.foldlM_nil] at hs
    cases hs
    exact ⟨⟨[], [], rfl, rfl, fun i => by simp [column, sinceReset]⟩, rfl⟩
  | append_singleton js j ih =>
    obtain ⟨ih1, ih2⟩ := ih
    have hno : ∀ e : Json, Nums False e := fun e h => h.elim
    have hstep : ∀ st, BytesHold js st → ∀ st', decBytes st j = some st' → ValueFits BytesIs j ∧ BytesHold (js ++ [j]) st' := by
      intro st hL st' hst'
      cases j with
      | null =>
        cases hst'
        refine ⟨.inl rfl, ⟨js ++ [.null], [], ?_, ?_, ?_⟩, ?_⟩
        · rw [sinceReset_snoc_other _ _ (by intro l h; cases h), List.append_nil]
        · simp [BytesBefore]
        · rw [sinceReset_snoc_other _ _ (by intro l h; cases h)]; intro i; simp [column]
        · simp
      | str s =>
        simp only [decBytes, Option.map_eq_some_iff] at hst'
        obtain ⟨b, hb, rfl⟩ := hst'
        rw [b64Decode_iff] at hb
        refine ⟨.inr ⟨b, .inl ⟨s, rfl, hb⟩⟩, ⟨js ++ [.str s], b, ?_, ?_, ?_⟩, ?_⟩
        · rw [sinceReset_snoc_other _ _ (by intro l h; cases h), List.append_nil]
        · simpa [BytesBefore] using hb
        · rw [sinceReset_snoc_other _ _ (by intro l h; cases h)]; intro i; simp [column]
        · simpa using hb
      | arr l =>
        cases l with
        | nil =>
          cases hst'
          refine ⟨.inr ⟨[], .inr ⟨[], rfl, .nil⟩⟩, ⟨js ++ [.arr []], [], ?_, ?_, ?_⟩, ?_⟩
          · rw [sinceReset_snoc_nil, List.append_nil]
          · simp [BytesBefore]
          · rw [sinceReset_snoc_nil]; intro i; simp [column]
          · simp
        | cons e l =>
          obtain ⟨⟨before, base, h1, h2, h3⟩, -⟩ := hL
          obtain ⟨h4, h5⟩ := filled_step (l := e :: l) h3 (by simp) (show decArray 0 (decUint 8) st (e :: l) = some st' from hst')
          refine ⟨.inr ?_, ⟨before, base, ?_, h2, ?_⟩, ?_⟩
          · obtain ⟨b, hb⟩ := (arrayFits (e :: l)).2 fun x hx => by
              obtain ⟨i, hi, rfl⟩ := List.getElem_of_mem hx
              have h3 := h5 i
              rw [column_append, column_one, List.getElem?_eq_getElem hi, Option.toList_some] at h3
              exact ((uintHist False 8 (base.getD i 0)).some_iff _ fun e _ => hno e).1 ⟨_, h3⟩ _ (by simp)
            exact ⟨b, .inr ⟨_, rfl, hb⟩⟩
          · rw [sinceReset_snoc, ← List.append_assoc, ← h1]
          · rw [sinceReset_snoc]; exact h5
          · simpa using h4
      | _ => cases hst'
    refine ⟨⟨?_, ?_⟩, ?_⟩
    · rintro ⟨st', hst'⟩
      rw [foldlM_snoc, Option.bind_eq_some_iff] at hst'
      obtain ⟨st, hst, hst'⟩ := hst'
      intro i hi
      rcases List.mem_append.1 hi with hi | hi
      · exact ih1.1 ⟨st, hst⟩ i hi
      · rw [List.mem_singleton.1 hi]; exact (hstep st (ih2 st hst) st' hst').1
    · intro hok
      obtain ⟨st, hst⟩ := ih1.2 fun i hi => hok i (List.mem_append_left _ hi)
      rw [foldlM_snoc, hst, Option.bind_some]
      rcases hok j (by simp) with rfl | ⟨b, ⟨s, rfl, hb⟩ | ⟨l, rfl, hb⟩⟩
      · exact ⟨_, rfl⟩
      · rw [← b64Decode_iff] at hb
        exact ⟨(b, []), by simp only [decBytes, hb, Option.map_some]⟩
      · have hl := (arrayFits l).1 ⟨b, hb⟩
        obtain ⟨⟨before, base, h1, h2, h3⟩, -⟩ := ih2 st hst
        refine filled_some l h3 fun i e he => ?_
        refine ((uintHist False 8 (base.getD i 0)).some_iff _ fun e _ => hno e).2 ?_
        intro y hy
        rcases List.mem_append.1 hy with hy | hy
        · obtain ⟨l', hl', hy'⟩ := column_mem hy
          rcases hok (.arr l') (List.mem_append_left _ (sinceReset_mem hl')) with h' | ⟨b', ⟨s, h', -⟩ | ⟨l'', h', hb'⟩⟩
          · cases h'
          · cases h'
          · cases h'; exact (arrayFits l').1 ⟨b', hb'⟩ y hy'
        · rw [List.mem_singleton.1 hy]; exact hl _ (List.mem_of_getElem? he)
    · intro st' hst'
      rw [foldlM_snoc, Option.bind_eq_some_iff] at hst'
      obtain ⟨st, hst, hst'⟩ := hst'
      exact (hstep st (ih2 st hst) st' hst').2

theorem bytesHist (P : Prop) : Hist P BytesSays (ValueFits BytesIs) decBytes ([], []) Prod.fst where
  some_iff := fun js _ => (byted_step js).1
  view := by
    intro js _ st hst x
    obtain ⟨⟨before, base, h1, h2, h3⟩, h4⟩ := (byted_step js).2 st hst
    unfold BytesSays
    split
    · rename_i s hs
      rw [hs] at h4
      exact ⟨fun h => base64_unique h h4, fun h => h ▸ h4⟩
    · rename_i l hl
      rw [hl] at h4
      have key : ∀ i (hi : i < st.1.length) x, LastSays (UintIs 8) (base.getD i 0) (column i (sinceReset js)) x ↔ x = st.1[i] := by
        intro i hi x
        have := h3 i
        rw [List.getD_append _ _ _ _ hi, List.getD_eq_getElem _ _ hi] at this
        exact (uintHist False 8 (base.getD i 0)).view _ (fun _ _ h => h.elim) _ this x
      constructor
      · rintro ⟨hx, before', b, g1, g2, g3⟩
        have : before' = before := List.append_cancel_right (g1.symm.trans h1)
        subst this
        have := bytesBefore_unique g2 h2
        subst this
        apply List.ext_getElem
        · rw [hx]; exact h4.symm
        · intro i hi hi'
          exact (key i hi' _).1 (g3 i hi)
      · rintro rfl
        exact ⟨h4, before, base, h1, h2, fun i hi => (key i hi _).2 rfl⟩
    · rename_i hne1 hne2
      have : st.1 = [] := by
        cases hg : js.getLast? with
        | none => rw [hg] at h4; exact h4
        | some j => cases j with
          | arr l => exact absurd hg (hne2 l)
          | str l => exact absurd hg (hne1 l)
          | _ => rw [hg] at h4; exact h4
      rw [this]

/-! ## Structures -/

/-- All are objects, or `null`. -/
def Shape (js : List Json) : Prop := ∀ j ∈ js, j = .null ∨ ∃ o, j = .obj o

theorem saidOf_null (name : String) (js : List Json) : saidOf name (.null :: js) = saidOf name js := rfl

theorem saidOf_cons (name : String) (o : List (Str × Json)) (js : List Json) : saidOf name (.obj o :: js) = saidOf name [.obj o] ++ saidOf name js := by
  simp [saidOf]

theorem jsonField_said {σ : Type} {name name' : String} (hn : AsciiName name') (he : foldName name.toList = foldName name'.toList) (o : List (Str × Json)) (dec : σ → Json → Option σ) (z : σ) :
    jsonField o name dec z = (saidOf name' [.obj o]).foldlM dec z := by
  unfold jsonField
  have h : (o.filter fun m => foldName m.1 == foldName name.toList) = o.filter fun m => decide (Spells m.1 name') := by
    apply List.filter_congr
    intro m _
    rw [he, Bool.eq_iff_iff, beq_iff_eq, decide_eq_true_eq, spells_iff _ _ hn]
  rw [h]
  simp [saidOf, List.foldlM_map]

theorem said_obj {σ : Type} (name name' : String) (o : List (Str × Json)) (js : List Json) (dec : σ → Json → Option σ) (z x : σ)
    (hn : AsciiName name' := by unfold AsciiName; decide +kernel) (he : foldName name.toList = foldName name'.toList := by decide +kernel) :
    (saidOf name' (.obj o :: js)).foldlM dec z = some x ↔ ∃ y, jsonField o name dec z = some y ∧ (saidOf name' js).foldlM dec y = some x := by
  rw [saidOf_cons, List.foldlM_append, jsonField_said hn he]
  cases List.foldlM dec z (saidOf name' [.obj o]) <;> simp

theorem said_obj_all {σ α : Type} {S : List Json → α → Prop} {ok : Json → Prop} {dec : σ → Json → Option σ} {z : σ} {f : σ → α} (h : Hist False S ok dec z f) (name name' : String) (o : List (Str × Json)) (js : List Json)
    (hn : AsciiName name' := by unfold AsciiName; decide +kernel) (he : foldName name.toList = foldName name'.toList := by decide +kernel) :
    (∀ k ∈ saidOf name' (.obj o :: js), ok k) ↔ (∃ y, jsonField o name dec z = some y) ∧ ∀ k ∈ saidOf name' js, ok k := by
  rw [saidOf_cons, jsonField_said hn he, h.some_iff _ (fun _ _ h => h.elim)]
  simp only [List.mem_append, or_imp, forall_and]

theorem saidOf_mem {name : String} {js : List Json} {k : Json} : k ∈ saidOf name js ↔ ∃ o n, .obj o ∈ js ∧ (n, k) ∈ o ∧ Spells n name := by
  unfold saidOf
  rw [List.mem_flatMap]
  constructor
  · rintro ⟨j, hj, hk⟩
    cases j with
    | obj o =>
      simp only [List.mem_map, List.mem_filter, decide_eq_true_eq] at hk
      obtain ⟨⟨n, k'⟩, ⟨h1, h2⟩, rfl⟩ := hk
      exact ⟨o, n, hj, h1, h2⟩
    | _ => cases hk
  · rintro ⟨o, n, h1, h2, h3⟩
    exact ⟨_, h1, by simp only [List.mem_map, List.mem_filter, decide_eq_true_eq]; exact ⟨(n, k), ⟨h2, h3⟩, rfl⟩⟩

theorem said_nums {P : Prop} {name : String} {js : List Json} (h : ∀ j ∈ js, Nums P j) : ∀ j ∈ saidOf name js, Nums P j := by
  intro j hj
  obtain ⟨o, n, h1, h2, -⟩ := saidOf_mem.1 hj
  exact nums_member (h _ h1) h2

theorem membersFit_all (fs : List (String × (Json → Prop))) (js : List Json) : (∀ j ∈ js, MembersFit fs j) ↔ Shape js ∧ ∀ f ∈ fs, ∀ k ∈ saidOf f.1 js, f.2 k := by
  constructor
  · intro h
    refine ⟨fun j hj => ?_, fun f hf k hk => ?_⟩
    · rcases h j hj with h | ⟨o, h, -⟩
      · exact .inl h
      · exact .inr ⟨o, h⟩
    · obtain ⟨o, n, h1, h2, h3⟩ := saidOf_mem.1 hk
      rcases h _ h1 with h | ⟨o', h, h'⟩
      · cases h
      · cases h; exact h' n k h2 f hf h3
  · rintro ⟨h1, h2⟩ j hj
    rcases h1 j hj with h | ⟨o, rfl⟩
    · exact .inl h
    · exact .inr ⟨o, rfl, fun n k hk f hf hs => h2 f hf k (saidOf_mem.2 ⟨o, n, hj, hk, hs⟩)⟩

theorem shape_null (js : List Json) : Shape (.null :: js) ↔ Shape js := by simp [Shape]

theorem shape_obj (o : List (Str × Json)) (js : List Json) : Shape (.obj o :: js) ↔ Shape js := by simp [Shape]

theorem struct_fold {σ : Type} (members : σ → List (Str × Json) → Option σ) (Q : List Json → σ → σ → Prop) (hnil : ∀ z st, z = st ↔ Q [] z st) (hnull : ∀ js z st, Q (.null :: js) z st ↔ Q js z st)
    (hobj : ∀ o js z st, Q (.obj o :: js) z st ↔ ∃ y, members z o = some y ∧ Q js y st) (js : List Json) (z st : σ) : js.foldlM (decStruct members) z = some st ↔ Shape js ∧ Q js z st := by
  induction js generalizing z with
  | nil => simp [Shape, ← hnil]
  | cons j js ih =>
    rw [List.foldlM_cons]
    cases j with
    | null => rw [shape_null, hnull, ← ih]; rfl
    | obj o =>
      rw [shape_obj, hobj]
      change ((members z o).bind fun y => js.foldlM (decStruct members) y) = some st ↔ _
      simp only [Option.bind_eq_some_iff, ih]
      exact ⟨fun ⟨y, h1, h2, h3⟩ => ⟨h2, y, h1, h3⟩, fun ⟨h2, y, h1, h3⟩ => ⟨y, h1, h2, h3⟩⟩
    | _ =>
      constructor
      · intro h; cases h
      · rintro ⟨h, -⟩; rcases h _ List.mem_cons_self with h | ⟨o, h⟩ <;> cases h

theorem textHist (P : Prop) (z : Str) : Hist P (LastSays TextIs z) (ValueFits TextIs) decText z id := lastHist (fun j _ z x => decText_iff j z x) z

theorem intHist (P : Prop) (z : Int) : Hist P (LastSays IntIs z) (ValueFits IntIs) decInt z id := lastHist (fun j _ z x => decInt_iff j z x) z

theorem decPtr_any {α : Type} {zero : α} {dec : α → Json → Option α} {R : Json → α → Prop} {S : Json → Option α → Prop} (hS : ∀ j x, S j x ↔ ∃ n, x = some n ∧ R j n) (hd : ∀ j z x, dec z j = some x ↔ OrNull R z j x)
    (j : Json) (z x : Option α) : decPtr zero dec z j = some x ↔ OrNull S none j x := by
  by_cases hj : j = .null
  · subst hj; simp [decPtr, OrNull, eq_comm]
  · have : decPtr zero dec z j = (dec (z.getD zero) j).map some := by cases j <;> first | rfl | exact absurd rfl hj
    rw [this]
    simp only [Option.map_eq_some_iff, hd, OrNull, hj, false_and, false_or, ne_eq, not_false_eq_true, true_and, hS]
    exact ⟨fun ⟨a, h1, h2⟩ => ⟨a, h2.symm, h1⟩, fun ⟨a, h1, h2⟩ => ⟨a, h2, h1.symm⟩⟩

theorem intOptHist (P : Prop) : Hist P (NewestSays IntOptIs none) (ValueFits IntOptIs) (decPtr 0 decInt) none id := newestHist fun j _ z x => decPtr_any (fun _ _ => Iff.rfl) decInt_iff j z x

theorem u32OptHist (P : Prop) : Hist P (NewestSays Uint32OptIs none) (ValueFits Uint32OptIs) (decPtr 0 (decUint 32)) none id := newestHist fun j _ z x => decPtr_any (fun _ _ => Iff.rfl) (decUint_iff 32) j z x

theorem decAsn_reads (j : Json) (hp : ∀ lit, Within (.num lit) j → NumText lit) (z x : AsnJson) : decAsn z j = some x ↔ OrNull JsonAsnReads .other j x := by
  have hf : floatsFit j = true ↔ ∀ lit, Within (.num lit) j → ∃ x, FloatRead lit x := by
    rw [floatsFit_iff]
    refine forall_congr' fun lit => forall_congr' fun hw => ?_
    rw [Option.isSome_iff_exists]
    exact exists_congr fun x => litFloat_read (hp lit hw) x
  cases j with
  | null => simp [decAsn, OrNull, floatsFit, eq_comm]
  | bool b =>
    have : ∀ lit, ¬ Within (.num lit) (.bool b) := fun lit h => nomatch h
    simp [decAsn, OrNull, floatsFit, JsonAsnReads, this, eq_comm]
  | str _ => simp [decAsn, OrNull, JsonAsnReads, eq_comm]
  | arr l =>
    simp only [decAsn, OrNull, JsonAsnReads, reduceCtorEq, false_and, false_or, ne_eq, not_false_eq_true, true_and, exists_false, implies_true]
    rw [← hf]
    by_cases h : floatsFit (.arr l) = true <;> simp [h, eq_comm]
  | obj l =>
    simp only [decAsn, OrNull, JsonAsnReads, reduceCtorEq, false_and, false_or, ne_eq, not_false_eq_true, true_and, exists_false, implies_true]
    rw [← hf]
    by_cases h : floatsFit (.obj l) = true <;> simp [h, eq_comm]
  | num lit =>
    simp only [decAsn, OrNull, JsonAsnReads, reduceCtorEq, false_and, false_or, ne_eq, not_false_eq_true, true_and, exists_false, Json.num.injEq, Option.map_eq_some_iff]
    constructor
    · rintro ⟨y, hy, rfl⟩
      exact .inl ⟨lit, y, rfl, (litFloat_read (hp lit .self) y).1 hy, rfl⟩
    · rintro (⟨l, y, rfl, hy, rfl⟩ | ⟨-, h, -⟩)
      · exact ⟨y, (litFloat_read (hp lit .self) y).2 hy, rfl⟩
      · exact (h _ rfl).elim

theorem asnHist : Hist True (NewestSays JsonAsnReads .other) (ValueFits JsonAsnReads) decAsn .other id := newestHist fun j h z x => decAsn_reads j (h trivial) z x

theorem idListHist {P : Prop} {σ : Type} {S : List Json → σ → Prop} {ok : Json → Prop} {dec : σ → Json → Option σ} {zero : σ} (h : Hist P S ok dec zero id) :
    Hist P (ListSays S) (ListFits ok) (decSlice zero dec) none (fun st => st.map fun m : Arr σ => m.1) := by
  have := listHist h
  simpa using this

/-- The fields after a history. -/
def VrpFold (js : List Json) (z st : VRPJson) : Prop :=
  (saidOf "prefix" js).foldlM decText z.pfx = some st.pfx ∧ (saidOf "maxLength" js).foldlM (decUint 8) z.length = some st.length ∧ (saidOf "asn" js).foldlM decAsn z.asn = some st.asn ∧ (saidOf "ta" js).foldlM decText z.ta = some st.ta ∧ (saidOf "expires" js).foldlM (decPtr 0 decInt) z.expires = some st.expires

theorem vrp_fold (js : List Json) (z st : VRPJson) : js.foldlM decVrp z = some st ↔ Shape js ∧ VrpFold js z st := by
  refine struct_fold _ VrpFold ?_ ?_ ?_ js z st
  · rintro ⟨⟩ ⟨⟩; simp [VrpFold, saidOf]
  · intro js z st; rfl
  · intro o js z st
    simp only [VrpFold, said_obj "prefix" "prefix", said_obj "maxLength" "maxLength", said_obj "asn" "asn", said_obj "ta" "ta", said_obj "expires" "expires", Option.bind_eq_bind, Option.bind_eq_some_iff, Option.some.injEq]
    constructor
    · rintro ⟨⟨a, a1, a2⟩, ⟨b, b1, b2⟩, ⟨c, c1, c2⟩, ⟨d, d1, d2⟩, ⟨e, e1, e2⟩⟩
      exact ⟨_, ⟨a, a1, b, b1, c, c1, d, d1, e, e1, rfl⟩, a2, b2, c2, d2, e2⟩
    · rintro ⟨_, ⟨a, a1, b, b1, c, c1, d, d1, e, e1, rfl⟩, a2, b2, c2, d2, e2⟩
      exact ⟨⟨a, a1, a2⟩, ⟨b, b1, b2⟩, ⟨c, c1, c2⟩, ⟨d, d1, d2⟩, ⟨e, e1, e2⟩⟩

theorem vrpHist : Hist True VrpSays VrpFits decVrp .zero id := by
  have hS : ∀ js : List Json, (∀ j ∈ js, VrpFits j) ↔ Shape js ∧ (∀ k ∈ saidOf "prefix" js, ValueFits TextIs k) ∧ (∀ k ∈ saidOf "maxLength" js, ValueFits (UintIs 8) k) ∧ (∀ k ∈ saidOf "asn" js, ValueFits JsonAsnReads k) ∧ (∀ k ∈ saidOf "ta" js, ValueFits TextIs k) ∧ (∀ k ∈ saidOf "expires" js, ValueFits IntOptIs k) := fun js => by
    refine (membersFit_all _ js).trans ?_
    simp only [List.mem_cons, List.not_mem_nil, or_false, forall_eq_or_imp, forall_eq]
  refine ⟨fun js hj => ?_, fun js hj st hst x => ?_⟩
  · rw [hS]
    rw [← (textHist _ []).some_iff _ (said_nums (name := "prefix") hj)]
    rw [← (uintHist _ _ 0).some_iff _ (said_nums (name := "maxLength") hj)]
    rw [← (asnHist).some_iff _ (said_nums (name := "asn") hj)]
    rw [← (textHist _ []).some_iff _ (said_nums (name := "ta") hj)]
    rw [← (intOptHist _).some_iff _ (said_nums (name := "expires") hj)]
    simp only [vrp_fold, VrpFold]
    constructor
    · rintro ⟨st, h, a, b, c, d, e⟩
      exact ⟨h, ⟨_, a⟩, ⟨_, b⟩, ⟨_, c⟩, ⟨_, d⟩, ⟨_, e⟩⟩
    · rintro ⟨h, ⟨a, a1⟩, ⟨b, b1⟩, ⟨c, c1⟩, ⟨d, d1⟩, ⟨e, e1⟩⟩
      exact ⟨⟨a, b, c, d, e⟩, h, a1, b1, c1, d1, e1⟩
  · rw [vrp_fold] at hst
    obtain ⟨-, a, b, c, d, e⟩ := hst
    have a := (textHist _ []).view _ (said_nums (name := "prefix") hj) _ a
    have b := (uintHist _ _ 0).view _ (said_nums (name := "maxLength") hj) _ b
    have c := (asnHist).view _ (said_nums (name := "asn") hj) _ c
    have d := (textHist _ []).view _ (said_nums (name := "ta") hj) _ d
    have e := (intOptHist _).view _ (said_nums (name := "expires") hj) _ e
    simp only [VrpSays, a, b, c, d, e, id]
    obtain ⟨_, _, _, _, _⟩ := x
    obtain ⟨_, _, _, _, _⟩ := st
    simp

/-- The fields after a history. -/
def KeyFold (js : List Json) (z st : MemKey) : Prop :=
  (saidOf "asn" js).foldlM (decUint 32) z.asn = some st.asn ∧ (saidOf "expires" js).foldlM (decPtr 0 decInt) z.expires = some st.expires ∧ (saidOf "ta" js).foldlM decText z.ta = some st.ta ∧ (saidOf "pubkey" js).foldlM decBytes z.pubkey = some st.pubkey ∧ (saidOf "ski" js).foldlM decText z.ski = some st.ski

theorem key_fold (js : List Json) (z st : MemKey) : js.foldlM decKey z = some st ↔ Shape js ∧ KeyFold js z st := by
  refine struct_fold _ KeyFold ?_ ?_ ?_ js z st
  · rintro ⟨⟩ ⟨⟩; simp [KeyFold, saidOf]
  · intro js z st; rfl
  · intro o js z st
    simp only [KeyFold, said_obj "asn" "asn", said_obj "expires" "expires", said_obj "ta" "ta", said_obj "pubkey" "pubkey", said_obj "ski" "ski", Option.bind_eq_bind, Option.bind_eq_some_iff, Option.some.injEq]
    constructor
    · rintro ⟨⟨a, a1, a2⟩, ⟨b, b1, b2⟩, ⟨c, c1, c2⟩, ⟨d, d1, d2⟩, ⟨e, e1, e2⟩⟩
      exact ⟨_, ⟨a, a1, b, b1, c, c1, d, d1, e, e1, rfl⟩, a2, b2, c2, d2, e2⟩
    · rintro ⟨_, ⟨a, a1, b, b1, c, c1, d, d1, e, e1, rfl⟩, a2, b2, c2, d2, e2⟩
      exact ⟨⟨a, a1, a2⟩, ⟨b, b1, b2⟩, ⟨c, c1, c2⟩, ⟨d, d1, d2⟩, ⟨e, e1, e2⟩⟩

theorem keyHist (P : Prop) : Hist P KeySays KeyFits decKey .zero MemKey.key := by
  have hS : ∀ js : List Json, (∀ j ∈ js, KeyFits j) ↔ Shape js ∧ (∀ k ∈ saidOf "asn" js, ValueFits (UintIs 32) k) ∧ (∀ k ∈ saidOf "expires" js, ValueFits IntOptIs k) ∧ (∀ k ∈ saidOf "ta" js, ValueFits TextIs k) ∧ (∀ k ∈ saidOf "pubkey" js, ValueFits BytesIs k) ∧ (∀ k ∈ saidOf "ski" js, ValueFits TextIs k) := fun js => by
    refine (membersFit_all _ js).trans ?_
    simp only [List.mem_cons, List.not_mem_nil, or_false, forall_eq_or_imp, forall_eq]
  refine ⟨fun js hj => ?_, fun js hj st hst x => ?_⟩
  · rw [hS]
    rw [← (uintHist _ _ 0).some_iff _ (said_nums (name := "asn") hj)]
    rw [← (intOptHist _).some_iff _ (said_nums (name := "expires") hj)]
    rw [← (textHist _ []).some_iff _ (said_nums (name := "ta") hj)]
    rw [← (bytesHist _).some_iff _ (said_nums (name := "pubkey") hj)]
    rw [← (textHist _ []).some_iff _ (said_nums (name := "ski") hj)]
    simp only [key_fold, KeyFold]
    constructor
    · rintro ⟨st, h, a, b, c, d, e⟩
      exact ⟨h, ⟨_, a⟩, ⟨_, b⟩, ⟨_, c⟩, ⟨_, d⟩, ⟨_, e⟩⟩
    · rintro ⟨h, ⟨a, a1⟩, ⟨b, b1⟩, ⟨c, c1⟩, ⟨d, d1⟩, ⟨e, e1⟩⟩
      exact ⟨⟨a, b, c, d, e⟩, h, a1, b1, c1, d1, e1⟩
  · rw [key_fold] at hst
    obtain ⟨-, a, b, c, d, e⟩ := hst
    have a := (uintHist _ _ 0).view _ (said_nums (name := "asn") hj) _ a
    have b := (intOptHist _).view _ (said_nums (name := "expires") hj) _ b
    have c := (textHist _ []).view _ (said_nums (name := "ta") hj) _ c
    have d := (bytesHist _).view _ (said_nums (name := "pubkey") hj) _ d
    have e := (textHist _ []).view _ (said_nums (name := "ski") hj) _ e
    simp only [KeySays, a, b, c, d, e, id]
    obtain ⟨_, _, _, _, _⟩ := x
    obtain ⟨_, _, _, _, _⟩ := st
    simp [MemKey.key]

/-- The fields after a history. -/
def MetaFold (js : List Json) (z st : Metadata) : Prop :=
  (saidOf "vrps" js).foldlM decInt z.counts = some st.counts ∧ (∀ k ∈ saidOf "bgpsec_pubkeys" js, ValueFits IntIs k) ∧ (saidOf "buildtime" js).foldlM decText z.buildtime = some st.buildtime ∧ (saidOf "generated" js).foldlM (decPtr 0 decInt) z.generated = some st.generated ∧ (∀ k ∈ saidOf "sessionid" js, ValueFits IntIs k) ∧ (∀ k ∈ saidOf "serial" js, ValueFits IntIs k)

theorem meta_fold (js : List Json) (z st : Metadata) : js.foldlM decMeta z = some st ↔ Shape js ∧ MetaFold js z st := by
  refine struct_fold _ MetaFold ?_ ?_ ?_ js z st
  · rintro ⟨⟩ ⟨⟩; simp [MetaFold, saidOf]
  · intro js z st; rfl
  · intro o js z st
    simp only [MetaFold, said_obj "vrps" "vrps", said_obj_all (intHist False 0) "bgpsec_pubkeys" "bgpsec_pubkeys", said_obj "buildtime" "buildtime", said_obj "generated" "generated", said_obj_all (intHist False 0) "sessionid" "sessionid", said_obj_all (intHist False 0) "serial" "serial", Option.bind_eq_bind, Option.bind_eq_some_iff, Option.some.injEq]
    constructor
    · rintro ⟨⟨a, a1, a2⟩, ⟨⟨b, b1⟩, b2⟩, ⟨c, c1, c2⟩, ⟨d, d1, d2⟩, ⟨⟨e, e1⟩, e2⟩, ⟨⟨f, f1⟩, f2⟩⟩
      exact ⟨_, ⟨a, a1, b, b1, c, c1, d, d1, e, e1, f, f1, rfl⟩, a2, b2, c2, d2, e2, f2⟩
    · rintro ⟨_, ⟨a, a1, b, b1, c, c1, d, d1, e, e1, f, f1, rfl⟩, a2, b2, c2, d2, e2, f2⟩
      exact ⟨⟨a, a1, a2⟩, ⟨⟨b, b1⟩, b2⟩, ⟨c, c1, c2⟩, ⟨d, d1, d2⟩, ⟨⟨e, e1⟩, e2⟩, ⟨⟨f, f1⟩, f2⟩⟩

theorem metaHist (P : Prop) : Hist P MetadataSays MetaFits decMeta ⟨0, [], none⟩ id := by
  have hS : ∀ js : List Json, (∀ j ∈ js, MetaFits j) ↔ Shape js ∧ (∀ k ∈ saidOf "vrps" js, ValueFits IntIs k) ∧ (∀ k ∈ saidOf "bgpsec_pubkeys" js, ValueFits IntIs k) ∧ (∀ k ∈ saidOf "buildtime" js, ValueFits TextIs k) ∧ (∀ k ∈ saidOf "generated" js, ValueFits IntOptIs k) ∧ (∀ k ∈ saidOf "sessionid" js, ValueFits IntIs k) ∧ (∀ k ∈ saidOf "serial" js, ValueFits IntIs k) := fun js => by
    refine (membersFit_all _ js).trans ?_
    simp only [List.mem_cons, List.not_mem_nil, or_false, forall_eq_or_imp, forall_eq]
  refine ⟨fun js hj => ?_, fun js hj st hst x => ?_⟩
  · rw [hS]
    rw [← (intHist _ 0).some_iff _ (said_nums (name := "vrps") hj)]
    rw [← (textHist _ []).some_iff _ (said_nums (name := "buildtime") hj)]
    rw [← (intOptHist _).some_iff _ (said_nums (name := "generated") hj)]
    simp only [meta_fold, MetaFold]
    constructor
    · rintro ⟨st, h, a, b, c, d, e, f⟩
      exact ⟨h, ⟨_, a⟩, b, ⟨_, c⟩, ⟨_, d⟩, e, f⟩
    · rintro ⟨h, ⟨a, a1⟩, b, ⟨c, c1⟩, ⟨d, d1⟩, e, f⟩
      exact ⟨⟨a, c, d⟩, h, a1, b, c1, d1, e, f⟩
  · rw [meta_fold] at hst
    obtain ⟨-, a, -, c, d, -, -⟩ := hst
    have a := (intHist _ 0).view _ (said_nums (name := "vrps") hj) _ a
    have c := (textHist _ []).view _ (said_nums (name := "buildtime") hj) _ c
    have d := (intOptHist _).view _ (said_nums (name := "generated") hj) _ d
    simp only [MetadataSays, a, c, d, id]
    obtain ⟨_, _, _⟩ := x
    obtain ⟨_, _, _⟩ := st
    simp

/-- The fields after a history. -/
def PrefixFilterFold (js : List Json) (z st : PrefixFilter) : Prop :=
  (saidOf "prefix" js).foldlM decText z.pfx = some st.pfx ∧ (saidOf "asn" js).foldlM (decPtr 0 (decUint 32)) z.asn = some st.asn ∧ (∀ k ∈ saidOf "comment" js, ValueFits TextIs k)

theorem prefixFilter_fold (js : List Json) (z st : PrefixFilter) : js.foldlM decPrefixFilter z = some st ↔ Shape js ∧ PrefixFilterFold js z st := by
  refine struct_fold _ PrefixFilterFold ?_ ?_ ?_ js z st
  · rintro ⟨⟩ ⟨⟩; simp [PrefixFilterFold, saidOf]
  · intro js z st; rfl
  · intro o js z st
    simp only [PrefixFilterFold, said_obj "Prefix" "prefix", said_obj "asn" "asn", said_obj_all (textHist False []) "Comment" "comment", Option.bind_eq_bind, Option.bind_eq_some_iff, Option.some.injEq]
    constructor
    · rintro ⟨⟨a, a1, a2⟩, ⟨b, b1, b2⟩, ⟨⟨c, c1⟩, c2⟩⟩
      exact ⟨_, ⟨a, a1, b, b1, c, c1, rfl⟩, a2, b2, c2⟩
    · rintro ⟨_, ⟨a, a1, b, b1, c, c1, rfl⟩, a2, b2, c2⟩
      exact ⟨⟨a, a1, a2⟩, ⟨b, b1, b2⟩, ⟨⟨c, c1⟩, c2⟩⟩

theorem prefixFilterHist (P : Prop) : Hist P PrefixFilterSays PrefixFilterFits decPrefixFilter ⟨[], none⟩ id := by
  have hS : ∀ js : List Json, (∀ j ∈ js, PrefixFilterFits j) ↔ Shape js ∧ (∀ k ∈ saidOf "prefix" js, ValueFits TextIs k) ∧ (∀ k ∈ saidOf "asn" js, ValueFits Uint32OptIs k) ∧ (∀ k ∈ saidOf "comment" js, ValueFits TextIs k) := fun js => by
    refine (membersFit_all _ js).trans ?_
    simp only [List.mem_cons, List.not_mem_nil, or_false, forall_eq_or_imp, forall_eq]
  refine ⟨fun js hj => ?_, fun js hj st hst x => ?_⟩
  · rw [hS]
    rw [← (textHist _ []).some_iff _ (said_nums (name := "prefix") hj)]
    rw [← (u32OptHist _).some_iff _ (said_nums (name := "asn") hj)]
    simp only [prefixFilter_fold, PrefixFilterFold]
    constructor
    · rintro ⟨st, h, a, b, c⟩
      exact ⟨h, ⟨_, a⟩, ⟨_, b⟩, c⟩
    · rintro ⟨h, ⟨a, a1⟩, ⟨b, b1⟩, c⟩
      exact ⟨⟨a, b⟩, h, a1, b1, c⟩
  · rw [prefixFilter_fold] at hst
    obtain ⟨-, a, b, -⟩ := hst
    have a := (textHist _ []).view _ (said_nums (name := "prefix") hj) _ a
    have b := (u32OptHist _).view _ (said_nums (name := "asn") hj) _ b
    simp only [PrefixFilterSays, a, b, id]
    obtain ⟨_, _⟩ := x
    obtain ⟨_, _⟩ := st
    simp

/-- The fields after a history. -/
def BgpsecFilterFold (js : List Json) (z st : MemFilter) : Prop :=
  (saidOf "asn" js).foldlM (decPtr 0 (decUint 32)) z.asn = some st.asn ∧ (saidOf "SKI" js).foldlM decBytes z.ski = some st.ski ∧ (∀ k ∈ saidOf "comment" js, ValueFits TextIs k)

theorem bgpsecFilter_fold (js : List Json) (z st : MemFilter) : js.foldlM decBgpsecFilter z = some st ↔ Shape js ∧ BgpsecFilterFold js z st := by
  refine struct_fold _ BgpsecFilterFold ?_ ?_ ?_ js z st
  · rintro ⟨⟩ ⟨⟩; simp [BgpsecFilterFold, saidOf]
  · intro js z st; rfl
  · intro o js z st
    simp only [BgpsecFilterFold, said_obj "asn" "asn", said_obj "SKI" "SKI", said_obj_all (textHist False []) "comment" "comment", Option.bind_eq_bind, Option.bind_eq_some_iff, Option.some.injEq]
    constructor
    · rintro ⟨⟨a, a1, a2⟩, ⟨b, b1, b2⟩, ⟨⟨c, c1⟩, c2⟩⟩
      exact ⟨_, ⟨a, a1, b, b1, c, c1, rfl⟩, a2, b2, c2⟩
    · rintro ⟨_, ⟨a, a1, b, b1, c, c1, rfl⟩, a2, b2, c2⟩
      exact ⟨⟨a, a1, a2⟩, ⟨b, b1, b2⟩, ⟨⟨c, c1⟩, c2⟩⟩

theorem bgpsecFilterHist (P : Prop) : Hist P BgpsecFilterSays BgpsecFilterFits decBgpsecFilter ⟨none, ([], [])⟩ MemFilter.filter := by
  have hS : ∀ js : List Json, (∀ j ∈ js, BgpsecFilterFits j) ↔ Shape js ∧ (∀ k ∈ saidOf "asn" js, ValueFits Uint32OptIs k) ∧ (∀ k ∈ saidOf "SKI" js, ValueFits BytesIs k) ∧ (∀ k ∈ saidOf "comment" js, ValueFits TextIs k) := fun js => by
    refine (membersFit_all _ js).trans ?_
    simp only [List.mem_cons, List.not_mem_nil, or_false, forall_eq_or_imp, forall_eq]
  refine ⟨fun js hj => ?_, fun js hj st hst x => ?_⟩
  · rw [hS]
    rw [← (u32OptHist _).some_iff _ (said_nums (name := "asn") hj)]
    rw [← (bytesHist _).some_iff _ (said_nums (name := "SKI") hj)]
    simp only [bgpsecFilter_fold, BgpsecFilterFold]
    constructor
    · rintro ⟨st, h, a, b, c⟩
      exact ⟨h, ⟨_, a⟩, ⟨_, b⟩, c⟩
    · rintro ⟨h, ⟨a, a1⟩, ⟨b, b1⟩, c⟩
      exact ⟨⟨a, b⟩, h, a1, b1, c⟩
  · rw [bgpsecFilter_fold] at hst
    obtain ⟨-, a, b, -⟩ := hst
    have a := (u32OptHist _).view _ (said_nums (name := "asn") hj) _ a
    have b := (bytesHist _).view _ (said_nums (name := "SKI") hj) _ b
    simp only [BgpsecFilterSays, a, b, id]
    obtain ⟨_, _⟩ := x
    obtain ⟨_, _⟩ := st
    simp [MemFilter.filter]

/-- The fields after a history. -/
def PrefixAssertionFold (js : List Json) (z st : PrefixAssertion) : Prop :=
  (saidOf "prefix" js).foldlM decText z.pfx = some st.pfx ∧ (saidOf "asn" js).foldlM (decUint 32) z.asn = some st.asn ∧ (saidOf "maxPrefixLength" js).foldlM decInt z.maxPrefixLength = some st.maxPrefixLength ∧ (saidOf "comment" js).foldlM decText z.comment = some st.comment

theorem prefixAssertion_fold (js : List Json) (z st : PrefixAssertion) : js.foldlM decPrefixAssertion z = some st ↔ Shape js ∧ PrefixAssertionFold js z st := by
  refine struct_fold _ PrefixAssertionFold ?_ ?_ ?_ js z st
  · rintro ⟨⟩ ⟨⟩; simp [PrefixAssertionFold, saidOf]
  · intro js z st; rfl
  · intro o js z st
    simp only [PrefixAssertionFold, said_obj "Prefix" "prefix", said_obj "ASN" "asn", said_obj "MaxPrefixLength" "maxPrefixLength", said_obj "Comment" "comment", Option.bind_eq_bind, Option.bind_eq_some_iff, Option.some.injEq]
    constructor
    · rintro ⟨⟨a, a1, a2⟩, ⟨b, b1, b2⟩, ⟨c, c1, c2⟩, ⟨d, d1, d2⟩⟩
      exact ⟨_, ⟨a, a1, b, b1, c, c1, d, d1, rfl⟩, a2, b2, c2, d2⟩
    · rintro ⟨_, ⟨a, a1, b, b1, c, c1, d, d1, rfl⟩, a2, b2, c2, d2⟩
      exact ⟨⟨a, a1, a2⟩, ⟨b, b1, b2⟩, ⟨c, c1, c2⟩, ⟨d, d1, d2⟩⟩

theorem prefixAssertionHist (P : Prop) : Hist P PrefixAssertionSays PrefixAssertionFits decPrefixAssertion ⟨[], 0, 0, []⟩ id := by
  have hS : ∀ js : List Json, (∀ j ∈ js, PrefixAssertionFits j) ↔ Shape js ∧ (∀ k ∈ saidOf "prefix" js, ValueFits TextIs k) ∧ (∀ k ∈ saidOf "asn" js, ValueFits (UintIs 32) k) ∧ (∀ k ∈ saidOf "maxPrefixLength" js, ValueFits IntIs k) ∧ (∀ k ∈ saidOf "comment" js, ValueFits TextIs k) := fun js => by
    refine (membersFit_all _ js).trans ?_
    simp only [List.mem_cons, List.not_mem_nil, or_false, forall_eq_or_imp, forall_eq]
  refine ⟨fun js hj => ?_, fun js hj st hst x => ?_⟩
  · rw [hS]
    rw [← (textHist _ []).some_iff _ (said_nums (name := "prefix") hj)]
    rw [← (uintHist _ _ 0).some_iff _ (said_nums (name := "asn") hj)]
    rw [← (intHist _ 0).some_iff _ (said_nums (name := "maxPrefixLength") hj)]
    rw [← (textHist _ []).some_iff _ (said_nums (name := "comment") hj)]
    simp only [prefixAssertion_fold, PrefixAssertionFold]
    constructor
    · rintro ⟨st, h, a, b, c, d⟩
      exact ⟨h, ⟨_, a⟩, ⟨_, b⟩, ⟨_, c⟩, ⟨_, d⟩⟩
    · rintro ⟨h, ⟨a, a1⟩, ⟨b, b1⟩, ⟨c, c1⟩, ⟨d, d1⟩⟩
      exact ⟨⟨a, b, c, d⟩, h, a1, b1, c1, d1⟩
  · rw [prefixAssertion_fold] at hst
    obtain ⟨-, a, b, c, d⟩ := hst
    have a := (textHist _ []).view _ (said_nums (name := "prefix") hj) _ a
    have b := (uintHist _ _ 0).view _ (said_nums (name := "asn") hj) _ b
    have c := (intHist _ 0).view _ (said_nums (name := "maxPrefixLength") hj) _ c
    have d := (textHist _ []).view _ (said_nums (name := "comment") hj) _ d
    simp only [PrefixAssertionSays, a, b, c, d, id]
    obtain ⟨_, _, _, _⟩ := x
    obtain ⟨_, _, _, _⟩ := st
    simp

/-- The fields after a history. -/
def BgpsecAssertionFold (js : List Json) (z st : MemAssertion) : Prop :=
  (saidOf "SKI" js).foldlM decBytes z.ski = some st.ski ∧ (saidOf "asn" js).foldlM (decUint 32) z.asn = some st.asn ∧ (∀ k ∈ saidOf "comment" js, ValueFits TextIs k) ∧ (saidOf "routerPublicKey" js).foldlM decBytes z.routerPublicKey = some st.routerPublicKey

theorem bgpsecAssertion_fold (js : List Json) (z st : MemAssertion) : js.foldlM decBgpsecAssertion z = some st ↔ Shape js ∧ BgpsecAssertionFold js z st := by
  refine struct_fold _ BgpsecAssertionFold ?_ ?_ ?_ js z st
  · rintro ⟨⟩ ⟨⟩; simp [BgpsecAssertionFold, saidOf]
  · intro js z st; rfl
  · intro o js z st
    simp only [BgpsecAssertionFold, said_obj "SKI" "SKI", said_obj "asn" "asn", said_obj_all (textHist False []) "comment" "comment", said_obj "routerPublicKey" "routerPublicKey", Option.bind_eq_bind, Option.bind_eq_some_iff, Option.some.injEq]
    constructor
    · rintro ⟨⟨a, a1, a2⟩, ⟨b, b1, b2⟩, ⟨⟨c, c1⟩, c2⟩, ⟨d, d1, d2⟩⟩
      exact ⟨_, ⟨a, a1, b, b1, c, c1, d, d1, rfl⟩, a2, b2, c2, d2⟩
    · rintro ⟨_, ⟨a, a1, b, b1, c, c1, d, d1, rfl⟩, a2, b2, c2, d2⟩
      exact ⟨⟨a, a1, a2⟩, ⟨b, b1, b2⟩, ⟨⟨c, c1⟩, c2⟩, ⟨d, d1, d2⟩⟩

theorem bgpsecAssertionHist (P : Prop) : Hist P BgpsecAssertionSays BgpsecAssertionFits decBgpsecAssertion ⟨([], []), 0, ([], [])⟩ MemAssertion.assertion := by
  have hS : ∀ js : List Json, (∀ j ∈ js, BgpsecAssertionFits j) ↔ Shape js ∧ (∀ k ∈ saidOf "SKI" js, ValueFits BytesIs k) ∧ (∀ k ∈ saidOf "asn" js, ValueFits (UintIs 32) k) ∧ (∀ k ∈ saidOf "comment" js, ValueFits TextIs k) ∧ (∀ k ∈ saidOf "routerPublicKey" js, ValueFits BytesIs k) := fun js => by
    refine (membersFit_all _ js).trans ?_
    simp only [List.mem_cons, List.not_mem_nil, or_false, forall_eq_or_imp, forall_eq]
  refine ⟨fun js hj => ?_, fun js hj st hst x => ?_⟩
  · rw [hS]
    rw [← (bytesHist _).some_iff _ (said_nums (name := "SKI") hj)]
    rw [← (uintHist _ _ 0).some_iff _ (said_nums (name := "asn") hj)]
    rw [← (bytesHist _).some_iff _ (said_nums (name := "routerPublicKey") hj)]
    simp only [bgpsecAssertion_fold, BgpsecAssertionFold]
    constructor
    · rintro ⟨st, h, a, b, c, d⟩
      exact ⟨h, ⟨_, a⟩, ⟨_, b⟩, c, ⟨_, d⟩⟩
    · rintro ⟨h, ⟨a, a1⟩, ⟨b, b1⟩, c, ⟨d, d1⟩⟩
      exact ⟨⟨a, b, d⟩, h, a1, b1, c, d1⟩
  · rw [bgpsecAssertion_fold] at hst
    obtain ⟨-, a, b, -, d⟩ := hst
    have a := (bytesHist _).view _ (said_nums (name := "SKI") hj) _ a
    have b := (uintHist _ _ 0).view _ (said_nums (name := "asn") hj) _ b
    have d := (bytesHist _).view _ (said_nums (name := "routerPublicKey") hj) _ d
    simp only [BgpsecAssertionSays, a, b, d, id]
    obtain ⟨_, _, _⟩ := x
    obtain ⟨_, _, _⟩ := st
    simp [MemAssertion.assertion]

/-- The fields after a history. -/
def FiltersFold (js : List Json) (z st : Option (Arr PrefixFilter) × Option (Arr MemFilter)) : Prop :=
  (saidOf "prefixFilters" js).foldlM (decSlice ⟨[], none⟩ decPrefixFilter) z.1 = some st.1 ∧ (saidOf "bgpsecFilters" js).foldlM (decSlice ⟨none, ([], [])⟩ decBgpsecFilter) z.2 = some st.2

theorem filters_fold (js : List Json) (z st : Option (Arr PrefixFilter) × Option (Arr MemFilter)) : js.foldlM decFilters z = some st ↔ Shape js ∧ FiltersFold js z st := by
  refine struct_fold _ FiltersFold ?_ ?_ ?_ js z st
  · rintro ⟨⟩ ⟨⟩; simp [FiltersFold, saidOf]
  · intro js z st; rfl
  · intro o js z st
    simp only [FiltersFold, said_obj "PrefixFilters" "prefixFilters", said_obj "BgpsecFilters" "bgpsecFilters", Option.bind_eq_bind, Option.bind_eq_some_iff, Option.some.injEq]
    constructor
    · rintro ⟨⟨a, a1, a2⟩, ⟨b, b1, b2⟩⟩
      exact ⟨_, ⟨a, a1, b, b1, rfl⟩, a2, b2⟩
    · rintro ⟨_, ⟨a, a1, b, b1, rfl⟩, a2, b2⟩
      exact ⟨⟨a, a1, a2⟩, ⟨b, b1, b2⟩⟩

theorem filtersHist (P : Prop) : Hist P (fun js (x : Option (List PrefixFilter) × Option (List BgpsecFilter)) => ListSays PrefixFilterSays (saidOf "prefixFilters" js) x.1 ∧ ListSays BgpsecFilterSays (saidOf "bgpsecFilters" js) x.2) FiltersFit decFilters (none, none) (fun st : Option (Arr PrefixFilter) × Option (Arr MemFilter) => (st.1.map fun m : Arr PrefixFilter => m.1, st.2.map fun m : Arr MemFilter => m.1.map MemFilter.filter)) := by
  have hS : ∀ js : List Json, (∀ j ∈ js, FiltersFit j) ↔ Shape js ∧ (∀ k ∈ saidOf "prefixFilters" js, ListFits PrefixFilterFits k) ∧ (∀ k ∈ saidOf "bgpsecFilters" js, ListFits BgpsecFilterFits k) := fun js => by
    refine (membersFit_all _ js).trans ?_
    simp only [List.mem_cons, List.not_mem_nil, or_false, forall_eq_or_imp, forall_eq]
  refine ⟨fun js hj => ?_, fun js hj st hst x => ?_⟩
  · rw [hS]
    rw [← (idListHist (prefixFilterHist _)).some_iff _ (said_nums (name := "prefixFilters") hj)]
    rw [← (listHist (bgpsecFilterHist _)).some_iff _ (said_nums (name := "bgpsecFilters") hj)]
    simp only [filters_fold, FiltersFold]
    constructor
    · rintro ⟨st, h, a, b⟩
      exact ⟨h, ⟨_, a⟩, ⟨_, b⟩⟩
    · rintro ⟨h, ⟨a, a1⟩, ⟨b, b1⟩⟩
      exact ⟨⟨a, b⟩, h, a1, b1⟩
  · rw [filters_fold] at hst
    obtain ⟨-, a, b⟩ := hst
    have a := (idListHist (prefixFilterHist _)).view _ (said_nums (name := "prefixFilters") hj) _ a
    have b := (listHist (bgpsecFilterHist _)).view _ (said_nums (name := "bgpsecFilters") hj) _ b
    simp only [a, b]
    obtain ⟨_, _⟩ := x
    obtain ⟨_, _⟩ := st
    simp

/-- The fields after a history. -/
def AssertionsFold (js : List Json) (z st : Option (Arr PrefixAssertion) × Option (Arr MemAssertion)) : Prop :=
  (saidOf "prefixAssertions" js).foldlM (decSlice ⟨[], 0, 0, []⟩ decPrefixAssertion) z.1 = some st.1 ∧ (saidOf "bgpsecAssertions" js).foldlM (decSlice ⟨([], []), 0, ([], [])⟩ decBgpsecAssertion) z.2 = some st.2

theorem assertions_fold (js : List Json) (z st : Option (Arr PrefixAssertion) × Option (Arr MemAssertion)) : js.foldlM decAssertions z = some st ↔ Shape js ∧ AssertionsFold js z st := by
  refine struct_fold _ AssertionsFold ?_ ?_ ?_ js z st
  · rintro ⟨⟩ ⟨⟩; simp [AssertionsFold, saidOf]
  · intro js z st; rfl
  · intro o js z st
    simp only [AssertionsFold, said_obj "PrefixAssertions" "prefixAssertions", said_obj "BgpsecAssertions" "bgpsecAssertions", Option.bind_eq_bind, Option.bind_eq_some_iff, Option.some.injEq]
    constructor
    · rintro ⟨⟨a, a1, a2⟩, ⟨b, b1, b2⟩⟩
      exact ⟨_, ⟨a, a1, b, b1, rfl⟩, a2, b2⟩
    · rintro ⟨_, ⟨a, a1, b, b1, rfl⟩, a2, b2⟩
      exact ⟨⟨a, a1, a2⟩, ⟨b, b1, b2⟩⟩

theorem assertionsHist (P : Prop) : Hist P (fun js (x : Option (List PrefixAssertion) × Option (List BgpsecAssertion)) => ListSays PrefixAssertionSays (saidOf "prefixAssertions" js) x.1 ∧ ListSays BgpsecAssertionSays (saidOf "bgpsecAssertions" js) x.2) AssertionsFit decAssertions (none, none) (fun st : Option (Arr PrefixAssertion) × Option (Arr MemAssertion) => (st.1.map fun m : Arr PrefixAssertion => m.1, st.2.map fun m : Arr MemAssertion => m.1.map MemAssertion.assertion)) := by
  have hS : ∀ js : List Json, (∀ j ∈ js, AssertionsFit j) ↔ Shape js ∧ (∀ k ∈ saidOf "prefixAssertions" js, ListFits PrefixAssertionFits k) ∧ (∀ k ∈ saidOf "bgpsecAssertions" js, ListFits BgpsecAssertionFits k) := fun js => by
    refine (membersFit_all _ js).trans ?_
    simp only [List.mem_cons, List.not_mem_nil, or_false, forall_eq_or_imp, forall_eq]
  refine ⟨fun js hj => ?_, fun js hj st hst x => ?_⟩
  · rw [hS]
    rw [← (idListHist (prefixAssertionHist _)).some_iff _ (said_nums (name := "prefixAssertions") hj)]
    rw [← (listHist (bgpsecAssertionHist _)).some_iff _ (said_nums (name := "bgpsecAssertions") hj)]
    simp only [assertions_fold, AssertionsFold]
    constructor
    · rintro ⟨st, h, a, b⟩
      exact ⟨h, ⟨_, a⟩, ⟨_, b⟩⟩
    · rintro ⟨h, ⟨a, a1⟩, ⟨b, b1⟩⟩
      exact ⟨⟨a, b⟩, h, a1, b1⟩
  · rw [assertions_fold] at hst
    obtain ⟨-, a, b⟩ := hst
    have a := (idListHist (prefixAssertionHist _)).view _ (said_nums (name := "prefixAssertions") hj) _ a
    have b := (listHist (bgpsecAssertionHist _)).view _ (said_nums (name := "bgpsecAssertions") hj) _ b
    simp only [a, b]
    obtain ⟨_, _⟩ := x
    obtain ⟨_, _⟩ := st
    simp

/-- The fields after a history. -/
def CacheFold (js : List Json) (z st : MemList) : Prop :=
  (saidOf "metadata" js).foldlM decMeta z.metadata = some st.metadata ∧ (saidOf "roas" js).foldlM (decSlice .zero decVrp) z.roas = some st.roas ∧ (saidOf "bgpsec_keys" js).foldlM (decSlice .zero decKey) z.keys = some st.keys

theorem cache_fold (js : List Json) (z st : MemList) : js.foldlM decList z = some st ↔ Shape js ∧ CacheFold js z st := by
  refine struct_fold _ CacheFold ?_ ?_ ?_ js z st
  · rintro ⟨⟩ ⟨⟩; simp [CacheFold, saidOf]
  · intro js z st; rfl
  · intro o js z st
    simp only [CacheFold, said_obj "metadata" "metadata", said_obj "roas" "roas", said_obj "bgpsec_keys" "bgpsec_keys", Option.bind_eq_bind, Option.bind_eq_some_iff, Option.some.injEq]
    constructor
    · rintro ⟨⟨a, a1, a2⟩, ⟨b, b1, b2⟩, ⟨c, c1, c2⟩⟩
      exact ⟨_, ⟨a, a1, b, b1, c, c1, rfl⟩, a2, b2, c2⟩
    · rintro ⟨_, ⟨a, a1, b, b1, c, c1, rfl⟩, a2, b2, c2⟩
      exact ⟨⟨a, a1, a2⟩, ⟨b, b1, b2⟩, ⟨c, c1, c2⟩⟩

theorem cacheHist : Hist True CacheSays CacheFits decList ⟨⟨0, [], none⟩, none, none⟩ MemList.list := by
  have hS : ∀ js : List Json, (∀ j ∈ js, CacheFits j) ↔ Shape js ∧ (∀ k ∈ saidOf "metadata" js, MetaFits k) ∧ (∀ k ∈ saidOf "roas" js, ListFits VrpFits k) ∧ (∀ k ∈ saidOf "bgpsec_keys" js, ListFits KeyFits k) := fun js => by
    refine (membersFit_all _ js).trans ?_
    simp only [List.mem_cons, List.not_mem_nil, or_false, forall_eq_or_imp, forall_eq]
  refine ⟨fun js hj => ?_, fun js hj st hst x => ?_⟩
  · rw [hS]
    rw [← (metaHist _).some_iff _ (said_nums (name := "metadata") hj)]
    rw [← (idListHist vrpHist).some_iff _ (said_nums (name := "roas") hj)]
    rw [← (listHist (keyHist _)).some_iff _ (said_nums (name := "bgpsec_keys") hj)]
    simp only [cache_fold, CacheFold]
    constructor
    · rintro ⟨st, h, a, b, c⟩
      exact ⟨h, ⟨_, a⟩, ⟨_, b⟩, ⟨_, c⟩⟩
    · rintro ⟨h, ⟨a, a1⟩, ⟨b, b1⟩, ⟨c, c1⟩⟩
      exact ⟨⟨a, b, c⟩, h, a1, b1, c1⟩
  · rw [cache_fold] at hst
    obtain ⟨-, a, b, c⟩ := hst
    have a := (metaHist _).view _ (said_nums (name := "metadata") hj) _ a
    have b := (idListHist vrpHist).view _ (said_nums (name := "roas") hj) _ b
    have c := (listHist (keyHist _)).view _ (said_nums (name := "bgpsec_keys") hj) _ c
    simp only [CacheSays, a, b, c, id]
    obtain ⟨_, _, _⟩ := x
    obtain ⟨_, _, _⟩ := st
    simp [MemList.list]

theorem slurm_iff (j : Json) (x : Slurm) : decSlurm j = some x ↔ SlurmFits j ∧ SlurmSays [j] x := by
  have hS := membersFit_all [("slurmVersion", ValueFits IntIs), ("validationOutputFilters", FiltersFit), ("locallyAddedAssertions", AssertionsFit)] [j]
  simp only [List.mem_cons, List.not_mem_nil, or_false, forall_eq_or_imp, forall_eq] at hS
  unfold SlurmFits
  rw [hS]
  have hno : ∀ (js : List Json), ∀ e ∈ js, Nums False e := fun _ _ _ h => h.elim
  cases j with
  | null =>
    simp only [decSlurm, decStruct, Option.some.injEq, SlurmSays, saidOf, ListSays]
    simp [Shape, eq_comm]
  | obj o =>
    simp only [decSlurm, decStruct, Option.bind_eq_bind, Option.bind_eq_some_iff, Option.some.injEq]
    rw [jsonField_said (name' := "slurmVersion") (by unfold AsciiName; decide +kernel) (by decide +kernel), jsonField_said (name' := "validationOutputFilters") (by unfold AsciiName; decide +kernel) (by decide +kernel),
      jsonField_said (name' := "locallyAddedAssertions") (by unfold AsciiName; decide +kernel) (by decide +kernel)]
    rw [← (intHist False 0).some_iff _ (hno _)]
    have hf := fun y => (filtersHist False).iff (saidOf "validationOutputFilters" [.obj o]) (hno _) y
    have ha := fun y => (assertionsHist False).iff (saidOf "locallyAddedAssertions" [.obj o]) (hno _) y
    have hsh : Shape [.obj o] := by simp [Shape]
    constructor
    · rintro ⟨v, hv, f, h1, a, h2, rfl⟩
      obtain ⟨f1, f2⟩ := (hf _).1 ⟨f, h1, rfl⟩
      obtain ⟨a1, a2⟩ := (ha _).1 ⟨a, h2, rfl⟩
      refine ⟨⟨hsh, ⟨v, hv⟩, f1, a1⟩, _, _, _, _, f2.1, f2.2, a2.1, a2.2, ?_⟩
      obtain ⟨p, b⟩ := f
      obtain ⟨q, c⟩ := a
      cases p <;> cases b <;> cases q <;> cases c <;> rfl
    · rintro ⟨⟨-, ⟨v, hv⟩, f1, a1⟩, pf, bf, pa, ba, g1, g2, g3, g4, rfl⟩
      obtain ⟨f, h1, h1'⟩ := (hf (pf, bf)).2 ⟨f1, g1, g2⟩
      obtain ⟨a, h2, h2'⟩ := (ha (pa, ba)).2 ⟨a1, g3, g4⟩
      refine ⟨v, hv, f, h1, a, h2, ?_⟩
      obtain ⟨p, b⟩ := f
      obtain ⟨q, c⟩ := a
      cases h1'; cases h2'
      cases p <;> cases b <;> cases q <;> cases c <;> rfl
  | _ =>
    constructor
    · intro h; cases h
    · rintro ⟨⟨h, -⟩, -⟩; rcases h _ List.mem_cons_self with h | ⟨o, h⟩ <;> cases h

theorem cache_iff (j : Json) (hj : ∀ lit, Within (.num lit) j → NumText lit) (x : RPKIList) : (decList ⟨⟨0, [], none⟩, none, none⟩ j).map MemList.list = some x ↔ CacheFits j ∧ CacheSays [j] x := by
  have := cacheHist.iff [j] (by intro i hi _; rw [List.mem_singleton.1 hi]; exact hj) x
  have h1 : [j].foldlM decList ⟨⟨0, [], none⟩, none, none⟩ = decList ⟨⟨0, [], none⟩, none, none⟩ j := by
    rw [List.foldlM_cons]
    cases decList ⟨⟨0, [], none⟩, none, none⟩ j <;> rfl
  simpa only [h1, List.mem_singleton, forall_eq, Option.map_eq_some_iff] using this

theorem firstValue_numText {s : Str} {j : Json} (h : FirstValue s j) : ∀ lit, Within (.num lit) j → NumText lit := by
  obtain ⟨w, t, r, -, -, ht⟩ := h
  intro lit hw
  obtain ⟨n', t', h⟩ := jText_numbers hw ht
  cases h with
  | num h => exact h

end StayRTR
