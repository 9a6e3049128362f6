import Verif.Model.Text

/-! Injectivity of the text forms. -/

namespace StayRTR

/-- The digits used by `Nat.digitChar`. -/
def IsDigit (c : Char) : Prop := c ∈ ['0', '1', '2', '3', '4', '5', '6', '7', '8', '9', 'a', 'b', 'c', 'd', 'e', 'f']

def digitValue (c : Char) : Nat := if c.toNat < 97 then c.toNat - 48 else c.toNat - 87

theorem digitChar_isDigit {d : Nat} (h : d < 16) : IsDigit (Nat.digitChar d) := by
  have : ∀ d : Fin 16, IsDigit (Nat.digitChar d.val) := by unfold IsDigit; decide
  exact this ⟨d, h⟩

theorem digitValue_digitChar {d : Nat} (h : d < 16) : digitValue (Nat.digitChar d) = d := by
  have : ∀ d : Fin 16, digitValue (Nat.digitChar d.val) = d.val := by decide
  exact this ⟨d, h⟩

def radixValue (b : Nat) (s : Str) : Nat := s.foldl (fun acc c => acc * b + digitValue c) 0

theorem radixAux_value {b : Nat} (hb : 2 ≤ b) (hb' : b ≤ 16) (fuel n : Nat) (h : n ≤ fuel) :
    radixValue b (radixAux b fuel n) = n := by
  induction fuel generalizing n with
  | zero =>
    have : n = 0 := by omega
    subst this
    simp [radixAux, radixValue, digitValue_digitChar]
  | succ f ih =>
    simp only [radixAux]
    split
    · simp [radixValue, digitValue_digitChar (show n < 16 by omega)]
    · have hlt : n / b < n := Nat.div_lt_self (by omega) (by omega)
      have hm : n % b < b := Nat.mod_lt _ (by omega)
      have := ih (n / b) (by omega)
      simp only [radixValue, List.foldl_append, List.foldl_cons, List.foldl_nil] at this ⊢
      rw [this, digitValue_digitChar (by omega)]
      exact Nat.div_add_mod' n b

theorem radixAux_digits {b : Nat} (hb : 2 ≤ b) (hb' : b ≤ 16) (fuel n : Nat) (h : n ≤ fuel) :
    ∀ c ∈ radixAux b fuel n, IsDigit c := by
  induction fuel generalizing n with
  | zero =>
    have : n = 0 := by omega
    subst this
    intro c hc
    simp only [radixAux, List.mem_singleton] at hc
    subst hc
    exact digitChar_isDigit (by omega)
  | succ f ih =>
    simp only [radixAux]
    split
    · intro c hc
      simp only [List.mem_singleton] at hc
      subst hc
      exact digitChar_isDigit (by omega)
    · have hlt : n / b < n := Nat.div_lt_self (by omega) (by omega)
      have hm : n % b < b := Nat.mod_lt _ (by omega)
      intro c hc
      rcases List.mem_append.mp hc with hc | hc
      · exact ih _ (by omega) c hc
      · simp only [List.mem_singleton] at hc
        subst hc
        exact digitChar_isDigit (by omega)

theorem radixAux_ne_nil (b fuel n : Nat) : radixAux b fuel n ≠ [] := by
  cases fuel with
  | zero => simp [radixAux]
  | succ f => simp only [radixAux]; split <;> simp

theorem decStr_inj {a b : Nat} (h : decStr a = decStr b) : a = b := by
  rw [← radixAux_value (b := 10) (by omega) (by omega) a a (Nat.le_refl _), ← radixAux_value (b := 10) (by omega) (by omega) b b (Nat.le_refl _)]
  exact congrArg _ h

theorem hexStr_inj {a b : Nat} (h : hexStr a = hexStr b) : a = b := by
  rw [← radixAux_value (b := 16) (by omega) (by omega) a a (Nat.le_refl _), ← radixAux_value (b := 16) (by omega) (by omega) b b (Nat.le_refl _)]
  exact congrArg _ h

theorem decStr_digits (n : Nat) : ∀ c ∈ decStr n, IsDigit c := radixAux_digits (by omega) (by omega) _ _ (Nat.le_refl _)
theorem hexStr_digits (n : Nat) : ∀ c ∈ hexStr n, IsDigit c := radixAux_digits (by omega) (by omega) _ _ (Nat.le_refl _)
theorem decStr_ne_nil (n : Nat) : decStr n ≠ [] := radixAux_ne_nil _ _ _
theorem hexStr_ne_nil (n : Nat) : hexStr n ≠ [] := radixAux_ne_nil _ _ _

theorem not_mem_of_digits {s : Str} (h : ∀ c ∈ s, IsDigit c) {x : Char} (hx : ¬ IsDigit x) : x ∉ s :=
  fun hm => hx (h x hm)

instance IsDigit.dec (c : Char) : Decidable (IsDigit c) := by unfold IsDigit; infer_instance

/-- Splitting at the first separator is unique. -/
theorem append_sep_inj {x : Char} {a b a' b' : Str} (ha : x ∉ a) (ha' : x ∉ a') (h : a ++ x :: b = a' ++ x :: b') :
    a = a' ∧ b = b' := by
  induction a generalizing a' with
  | nil =>
    cases a' with
    | nil => simp at h; exact ⟨rfl, h⟩
    | cons c a' =>
      simp only [List.nil_append, List.cons_append, List.cons.injEq] at h
      exact absurd (h.1 ▸ List.mem_cons_self) ha'
  | cons c a ih =>
    cases a' with
    | nil =>
      simp only [List.nil_append, List.cons_append, List.cons.injEq] at h
      exact absurd (h.1 ▸ List.mem_cons_self) ha
    | cons c' a' =>
      simp only [List.cons_append, List.cons.injEq] at h
      obtain ⟨rfl, h⟩ := h
      obtain ⟨rfl, rfl⟩ := ih (fun hm => ha (List.mem_cons_of_mem _ hm)) (fun hm => ha' (List.mem_cons_of_mem _ hm)) h
      exact ⟨rfl, rfl⟩

theorem joinWith_inj {x : Char} {l l' : List Str} (hl : ∀ s ∈ l, s ≠ [] ∧ x ∉ s) (hl' : ∀ s ∈ l', s ≠ [] ∧ x ∉ s)
    (h : joinWith x l = joinWith x l') : l = l' := by
  induction l generalizing l' with
  | nil =>
    match l', hl', h with
    | [], _, _ => rfl
    | [s], hl', h => simp only [joinWith] at h; exact absurd h.symm (hl' s (by simp)).1
    | s :: t :: r, hl', h => simp [joinWith] at h
  | cons a l ih =>
    cases l with
    | nil =>
      match l', hl', h with
      | [], hl', h => simp only [joinWith] at h; exact absurd h (hl a (by simp)).1
      | [s], hl', h => simp only [joinWith] at h; rw [h]
      | s :: t :: r, hl', h =>
        simp only [joinWith] at h
        exact absurd (h ▸ List.mem_append_right _ List.mem_cons_self) (hl a (by simp)).2
    | cons b l =>
      match l', hl', h with
      | [], hl', h => simp [joinWith] at h
      | [s], hl', h =>
        simp only [joinWith] at h
        exact absurd (h ▸ List.mem_append_right _ List.mem_cons_self) (hl' s (by simp)).2
      | s :: t :: r, hl', h =>
        simp only [joinWith] at h
        obtain ⟨e1, e2⟩ := append_sep_inj (hl a (by simp)).2 (hl' s (by simp)).2 h
        rw [e1, ih (fun s hs => hl s (List.mem_cons_of_mem _ hs)) (fun s hs => hl' s (List.mem_cons_of_mem _ hs)) e2]

theorem mem_joinWith {x c : Char} {l : List Str} (h : c ∈ joinWith x l) : c = x ∨ ∃ s ∈ l, c ∈ s := by
  induction l with
  | nil => simp [joinWith] at h
  | cons a l ih =>
    cases l with
    | nil => simp only [joinWith] at h; exact Or.inr ⟨a, by simp, h⟩
    | cons b l =>
      simp only [joinWith, List.mem_append, List.mem_cons] at h
      rcases h with h | h | h
      · exact Or.inr ⟨a, by simp, h⟩
      · exact Or.inl h
      · rcases ih h with h | ⟨s, hs, hc⟩
        · exact Or.inl h
        · exact Or.inr ⟨s, List.mem_cons_of_mem _ hs, hc⟩

/-! ### Dotted decimal -/

theorem string4_chars {a : BitVec 32} {c : Char} (h : c ∈ Addr.string4 a) : c = '.' ∨ IsDigit c := by
  rcases mem_joinWith h with h | ⟨s, hs, hc⟩
  · exact Or.inl h
  · right
    simp only [List.mem_cons, List.not_mem_nil, or_false] at hs
    rcases hs with rfl | rfl | rfl | rfl <;> exact decStr_digits _ _ hc

theorem string4_inj {a b : BitVec 32} (h : Addr.string4 a = Addr.string4 b) : a = b := by
  have hd : ¬ IsDigit '.' := by decide
  have := joinWith_inj (l := [_, _, _, _]) (l' := [_, _, _, _])
    (by simp only [List.mem_cons, List.not_mem_nil, or_false]; rintro s (rfl | rfl | rfl | rfl) <;>
          exact ⟨decStr_ne_nil _, not_mem_of_digits (decStr_digits _) hd⟩)
    (by simp only [List.mem_cons, List.not_mem_nil, or_false]; rintro s (rfl | rfl | rfl | rfl) <;>
          exact ⟨decStr_ne_nil _, not_mem_of_digits (decStr_digits _) hd⟩) h
  simp only [List.cons.injEq, and_true] at this
  obtain ⟨h1, h2, h3, h4⟩ := this
  have h1 := decStr_inj h1
  have h2 := decStr_inj h2
  have h3 := decStr_inj h3
  have h4 := decStr_inj h4
  apply BitVec.eq_of_toNat_eq
  omega

theorem string4_dot (a : BitVec 32) : '.' ∈ Addr.string4 a := by
  simp [Addr.string4, joinWith]

/-! ### RFC 5952 text -/

/-- Splits at the first double colon. -/
def splitDbl : Str → Option (Str × Str)
  | [] => none
  | c :: t => if c = ':' ∧ t.head? = some ':' then some ([], t.tail) else (splitDbl t).map (fun r => (c :: r.1, r.2))

theorem splitDbl_token {t : Str} (ht : ':' ∉ t) (x : Str) :
    splitDbl (t ++ x) = (splitDbl x).map (fun r => (t ++ r.1, r.2)) := by
  induction t with
  | nil => simp
  | cons c t ih =>
    have hc : c ≠ ':' := fun h => ht (h ▸ List.mem_cons_self)
    have ih := ih (fun h => ht (List.mem_cons_of_mem _ h))
    simp only [List.cons_append, splitDbl]
    rw [if_neg (by simp [hc]), ih]
    cases splitDbl x <;> simp

theorem splitDbl_join {l : List Str} (hl : ∀ s ∈ l, s ≠ [] ∧ ':' ∉ s) (w : Str) :
    splitDbl (joinWith ':' l ++ ':' :: ':' :: w) = some (joinWith ':' l, w) := by
  induction l with
  | nil => simp [joinWith, splitDbl]
  | cons a l ih =>
    have ih := ih (fun s hs => hl s (List.mem_cons_of_mem _ hs))
    match l, hl, ih with
    | [], hl, ih =>
      simp only [joinWith]
      rw [splitDbl_token (hl a (by simp)).2]
      simp [splitDbl]
    | b :: l, hl, ih =>
      simp only [joinWith, List.append_assoc]
      rw [splitDbl_token (hl a (by simp)).2]
      have hb := hl b (by simp)
      have hhead : (joinWith ':' (b :: l) ++ ':' :: ':' :: w).head? ≠ some ':' := by
        obtain ⟨hne, hnm⟩ := hb
        cases b with
        | nil => exact absurd rfl hne
        | cons c b =>
          have : c ≠ ':' := fun h => hnm (h ▸ List.mem_cons_self)
          cases l <;> simpa [joinWith] using this
      simp only [List.cons_append, splitDbl]
      rw [if_neg (by simp only [true_and]; exact hhead)]
      rw [ih]
      simp

theorem splitDbl_join_none {l : List Str} (hl : ∀ s ∈ l, s ≠ [] ∧ ':' ∉ s) : splitDbl (joinWith ':' l) = none := by
  induction l with
  | nil => simp [joinWith, splitDbl]
  | cons a l ih =>
    have ih := ih (fun s hs => hl s (List.mem_cons_of_mem _ hs))
    match l, hl, ih with
    | [], hl, ih =>
      simp only [joinWith]
      have := splitDbl_token (hl a (by simp)).2 []
      simpa [splitDbl] using this
    | b :: l, hl, ih =>
      simp only [joinWith]
      rw [splitDbl_token (hl a (by simp)).2]
      have hb := hl b (by simp)
      have hhead : (joinWith ':' (b :: l)).head? ≠ some ':' := by
        obtain ⟨hne, hnm⟩ := hb
        cases b with
        | nil => exact absurd rfl hne
        | cons c b =>
          have : c ≠ ':' := fun h => hnm (h ▸ List.mem_cons_self)
          cases l <;> simpa [joinWith] using this
      simp only [splitDbl]
      rw [if_neg (by simp only [true_and]; exact hhead), ih]
      simp

theorem zeroRun_spec (gs : List Nat) : ∀ x ∈ gs.take (Addr.zeroRun gs), x = 0 := by
  induction gs with
  | nil => simp
  | cons g gs ih =>
    unfold Addr.zeroRun
    by_cases h : g = 0
    · subst h
      simp only [List.takeWhile_cons, beq_self_eq_true, if_true, List.length_cons, List.take_succ_cons, List.mem_cons]
      rintro x (rfl | hx)
      · rfl
      · exact ih x hx
    · simp [h]

theorem zeroRun_le (gs : List Nat) : Addr.zeroRun gs ≤ gs.length := by
  unfold Addr.zeroRun
  induction gs with
  | nil => simp
  | cons g gs ih => simp only [List.takeWhile_cons]; split <;> simp; exact ih

/-- The chosen run consists of zero groups and lies inside the list. -/
theorem bestRun_spec {gs : List Nat} {s e : Nat} (h : Addr.bestRun gs = some (s, e)) :
    s ≤ e ∧ e ≤ gs.length ∧ ∀ x ∈ (gs.drop s).take (e - s), x = 0 := by
  suffices H : ∀ (l : List Nat) (best : Option (Nat × Nat)),
      (∀ i ∈ l, i < gs.length) →
      (∀ s e, best = some (s, e) → s ≤ e ∧ e ≤ gs.length ∧ ∀ x ∈ (gs.drop s).take (e - s), x = 0) →
      ∀ s e, l.foldl (fun best i =>
        let l := Addr.zeroRun (gs.drop i)
        let cur := match best with
          | some (s, e) => e - s
          | none => 0
        if 2 ≤ l ∧ cur < l then some (i, i + l) else best) best = some (s, e) →
      s ≤ e ∧ e ≤ gs.length ∧ ∀ x ∈ (gs.drop s).take (e - s), x = 0 by
    exact H _ none (by simp) (by simp) s e h
  intro l
  induction l with
  | nil => intro best _ hb s e h; exact hb s e h
  | cons i l ih =>
    intro best hl hb s e h
    rw [List.foldl_cons] at h
    refine ih _ (fun j hj => hl j (List.mem_cons_of_mem _ hj)) ?_ s e h
    intro s e h
    dsimp only at h
    generalize (match best with
          | some (s, e) => e - s
          | none => 0) = cur at h
    by_cases hc : 2 ≤ Addr.zeroRun (gs.drop i) ∧ cur < Addr.zeroRun (gs.drop i)
    · rw [if_pos hc] at h
      simp only [Option.some.injEq, Prod.mk.injEq] at h
      obtain ⟨rfl, rfl⟩ := h
      have hi := hl i List.mem_cons_self
      have hz := zeroRun_le (gs.drop i)
      simp only [List.length_drop] at hz
      refine ⟨by omega, by omega, ?_⟩
      rw [Nat.add_sub_cancel_left]
      exact zeroRun_spec _
    · rw [if_neg hc] at h
      exact hb s e h

theorem list_decomp (gs : List Nat) {s e : Nat} (h1 : s ≤ e) (h2 : e ≤ gs.length)
    (h3 : ∀ x ∈ (gs.drop s).take (e - s), x = 0) :
    gs = gs.take s ++ (List.replicate (e - s) 0 ++ gs.drop e) := by
  have hr : (gs.drop s).take (e - s) = List.replicate (e - s) 0 := by
    rw [List.eq_replicate_iff]
    exact ⟨by simp; omega, h3⟩
  rw [← hr]
  have : gs.drop e = (gs.drop s).drop (e - s) := by rw [List.drop_drop]; congr 1; omega
  rw [this, List.take_append_drop, List.take_append_drop]

theorem groups_length (a : BitVec 128) : (Addr.groups a).length = 8 := rfl

theorem groups_inj {a b : BitVec 128} (h : Addr.groups a = Addr.groups b) : a = b := by
  simp only [Addr.groups, List.cons.injEq, and_true] at h
  obtain ⟨h1, h2, h3, h4, h5, h6, h7, h8⟩ := h
  apply BitVec.eq_of_toNat_eq
  omega

theorem hex_tokens (l : List Nat) : ∀ s ∈ l.map hexStr, s ≠ [] ∧ ':' ∉ s := by
  intro s hs
  obtain ⟨n, _, rfl⟩ := List.mem_map.mp hs
  exact ⟨hexStr_ne_nil n, not_mem_of_digits (hexStr_digits n) (by decide)⟩

theorem map_hex_inj {l l' : List Nat} (h : l.map hexStr = l'.map hexStr) : l = l' := by
  induction l generalizing l' with
  | nil => cases l' with
    | nil => rfl
    | cons => simp at h
  | cons a l ih => cases l' with
    | nil => simp at h
    | cons b l' =>
      simp only [List.map_cons, List.cons.injEq] at h
      rw [hexStr_inj h.1, ih h.2]

theorem string6_inj {a b : BitVec 128} (h : Addr.string6 a = Addr.string6 b) : a = b := by
  apply groups_inj
  unfold Addr.string6 at h
  dsimp only at h
  have la := groups_length a
  have lb := groups_length b
  generalize Addr.groups a = ga at *
  generalize Addr.groups b = gb at *
  have hs := congrArg splitDbl h
  cases ha : Addr.bestRun ga with
  | none =>
    cases hb : Addr.bestRun gb with
    | none =>
      simp only [ha, hb] at h
      exact map_hex_inj (joinWith_inj (hex_tokens _) (hex_tokens _) h)
    | some se =>
      obtain ⟨s, e⟩ := se
      simp only [ha, hb] at hs
      rw [splitDbl_join_none (hex_tokens _), splitDbl_join (hex_tokens _)] at hs
      simp at hs
  | some se =>
    obtain ⟨s, e⟩ := se
    obtain ⟨h1, h2, h3⟩ := bestRun_spec ha
    cases hb : Addr.bestRun gb with
    | none =>
      simp only [ha, hb] at hs
      rw [splitDbl_join_none (hex_tokens _), splitDbl_join (hex_tokens _)] at hs
      simp at hs
    | some se' =>
      obtain ⟨s', e'⟩ := se'
      obtain ⟨h1', h2', h3'⟩ := bestRun_spec hb
      simp only [ha, hb] at hs
      rw [splitDbl_join (hex_tokens _), splitDbl_join (hex_tokens _)] at hs
      simp only [Option.some.injEq, Prod.mk.injEq] at hs
      have hL := map_hex_inj (joinWith_inj (hex_tokens _) (hex_tokens _) hs.1)
      have hR := map_hex_inj (joinWith_inj (hex_tokens _) (hex_tokens _) hs.2)
      have e1 := congrArg List.length hL
      have e2 := congrArg List.length hR
      simp only [List.length_take, List.length_drop] at e1 e2
      have : s = s' := by omega
      have : e = e' := by omega
      rw [list_decomp ga h1 h2 h3, list_decomp gb h1' h2' h3', hL, hR]
      subst_vars
      rfl

theorem string6_chars {a : BitVec 128} {c : Char} (h : c ∈ Addr.string6 a) : c = ':' ∨ IsDigit c := by
  have hj : ∀ l : List Nat, c ∈ joinWith ':' (l.map hexStr) → c = ':' ∨ IsDigit c := by
    intro l hl
    rcases mem_joinWith hl with h | ⟨s, hs, hc⟩
    · exact Or.inl h
    · obtain ⟨n, _, rfl⟩ := List.mem_map.mp hs
      exact Or.inr (hexStr_digits n c hc)
  unfold Addr.string6 at h
  dsimp only at h
  split at h
  · exact hj _ h
  · simp only [List.mem_append, List.mem_cons] at h
    rcases h with h | h | h | h
    · exact hj _ h
    · exact Or.inl h
    · exact Or.inl h
    · exact hj _ h

theorem string6_colon (a : BitVec 128) : ':' ∈ Addr.string6 a := by
  unfold Addr.string6
  dsimp only
  split
  · simp [Addr.groups, joinWith]
  · simp

/-! ### Addresses and prefixes -/

theorem Addr.toStr_inj {a b : Addr} (ha : a ≠ .zero) (hb : b ≠ .zero) (h : a.toStr = b.toStr) : a = b := by
  have dot : ¬ IsDigit '.' := by decide
  have col : ¬ IsDigit ':' := by decide
  have n4 : ∀ x, ':' ∉ Addr.string4 x := fun x hx => by
    rcases string4_chars hx with h | h
    · exact absurd h (by decide)
    · exact col h
  have n6 : ∀ x, '.' ∉ Addr.string6 x := fun x hx => by
    rcases string6_chars hx with h | h
    · exact absurd h (by decide)
    · exact dot h
  cases a with
  | zero => exact absurd rfl ha
  | v4 a =>
    cases b with
    | zero => exact absurd rfl hb
    | v4 b => rw [string4_inj h]
    | v6 b =>
      simp only [Addr.toStr] at h
      split at h
      · exact absurd (h ▸ List.mem_append_left _ (by decide)) (n4 a)
      · exact absurd (h ▸ string6_colon b) (n4 a)
  | v6 a =>
    cases b with
    | zero => exact absurd rfl hb
    | v4 b =>
      simp only [Addr.toStr] at h
      split at h
      · exact absurd (h.symm ▸ List.mem_append_left _ (by decide)) (n4 b)
      · exact absurd (h.symm ▸ string6_colon a) (n4 b)
    | v6 b =>
      simp only [Addr.toStr] at h
      split at h
      · rename_i h1
        split at h
        · rename_i h2
          have := string4_inj (List.append_cancel_left h)
          have hx := congrArg BitVec.toNat this
          simp only [Addr.is4In6, beq_iff_eq] at h1 h2
          simp only [BitVec.toNat_setWidth] at hx
          congr 1
          apply BitVec.eq_of_toNat_eq
          omega
        · exact absurd (h ▸ List.mem_append_right _ (string4_dot _)) (n6 b)
      · split at h
        · exact absurd (h.symm ▸ List.mem_append_right _ (string4_dot _)) (n6 a)
        · rw [string6_inj h]

theorem Addr.toStr_chars {a : Addr} (ha : a ≠ .zero) {c : Char} (h : c ∈ a.toStr) : c = '.' ∨ c = ':' ∨ IsDigit c := by
  cases a with
  | zero => exact absurd rfl ha
  | v4 a =>
    rcases string4_chars h with h | h
    · exact Or.inl h
    · exact Or.inr (Or.inr h)
  | v6 a =>
    simp only [Addr.toStr] at h
    split at h
    · rcases List.mem_append.mp h with h | h
      · have : ∀ c ∈ [':', ':', 'f', 'f', 'f', 'f', ':'], c = '.' ∨ c = ':' ∨ IsDigit c := by decide
        exact this c h
      · rcases string4_chars h with h | h
        · exact Or.inl h
        · exact Or.inr (Or.inr h)
    · rcases string6_chars h with h | h
      · exact Or.inr (Or.inl h)
      · exact Or.inr (Or.inr h)

/-- A prefix of the `netip` API that is valid. -/
def Prefix.Valid (p : Prefix) : Prop := p.WF ∧ p.bitsPlusOne ≠ 0

instance Prefix.decValid (p : Prefix) : Decidable p.Valid := by unfold Prefix.Valid; infer_instance

theorem Prefix.Valid.ip_ne {p : Prefix} (h : p.Valid) : p.ip ≠ .zero := by
  obtain ⟨h1, h2⟩ := h
  rcases h1 with h1 | h1
  · exact absurd h1 h2
  · exact h1.1

theorem Prefix.toStr_inj {p q : Prefix} (hp : p.Valid) (hq : q.Valid) (h : p.toStr = q.toStr) : p = q := by
  have sl : ¬ IsDigit '/' := by decide
  have ns : ∀ a : Addr, a ≠ .zero → '/' ∉ a.toStr := fun a ha hm => by
    rcases Addr.toStr_chars ha hm with h | h | h
    · exact absurd h (by decide)
    · exact absurd h (by decide)
    · exact sl h
  have vp : p.isValid = true := by simp [Prefix.isValid, hp.2]
  have vq : q.isValid = true := by simp [Prefix.isValid, hq.2]
  simp only [Prefix.toStr, vp, vq, if_true] at h
  obtain ⟨h1, h2⟩ := append_sep_inj (ns _ hp.ip_ne) (ns _ hq.ip_ne) h
  have h1 := Addr.toStr_inj hp.ip_ne hq.ip_ne h1
  have h2 := decStr_inj h2
  have := hp.2
  have := hq.2
  cases p; cases q
  simp only [Prefix.mk.injEq] at *
  exact ⟨h1, by omega⟩

theorem Prefix.toStr_chars {p : Prefix} (hp : p.Valid) {c : Char} (h : c ∈ p.toStr) : c = '/' ∨ c = '.' ∨ c = ':' ∨ IsDigit c := by
  have vp : p.isValid = true := by simp [Prefix.isValid, hp.2]
  simp only [Prefix.toStr, vp, if_true, List.mem_append, List.mem_cons] at h
  rcases h with h | h | h
  · exact Or.inr (Addr.toStr_chars hp.ip_ne h)
  · exact Or.inl h
  · exact Or.inr (Or.inr (Or.inr (decStr_digits _ _ h)))

theorem Prefix.toStr_slash {p : Prefix} (hp : p.Valid) : '/' ∈ p.toStr := by
  have vp : p.isValid = true := by simp [Prefix.isValid, hp.2]
  simp [Prefix.toStr, vp]

/-! ### Hexadecimal byte strings -/

theorem hexBytes_digits (b : Bytes) : ∀ c ∈ hexBytes b, IsDigit c := by
  intro c hc
  simp only [hexBytes, List.mem_flatMap] at hc
  obtain ⟨x, _, hc⟩ := hc
  have hx := x.isLt
  simp only [hexByte, List.mem_cons, List.not_mem_nil, or_false] at hc
  rcases hc with rfl | rfl
  · exact digitChar_isDigit (by omega)
  · exact digitChar_isDigit (by omega)

theorem hexBytes_inj {a b : Bytes} (h : hexBytes a = hexBytes b) : a = b := by
  induction a generalizing b with
  | nil =>
    cases b with
    | nil => rfl
    | cons y b => simp [hexBytes, hexByte] at h
  | cons x a ih =>
    cases b with
    | nil => simp [hexBytes, hexByte] at h
    | cons y b =>
      simp only [hexBytes, List.flatMap_cons, hexByte, List.cons_append, List.nil_append, List.cons.injEq] at h
      obtain ⟨h1, h2, h3⟩ := h
      have hx := x.isLt
      have hy := y.isLt
      have h1 := congrArg digitValue h1
      have h2 := congrArg digitValue h2
      rw [digitValue_digitChar (by omega), digitValue_digitChar (by omega)] at h1 h2
      have : x = y := BitVec.eq_of_toNat_eq (by omega)
      rw [this, ih h3]

end StayRTR
