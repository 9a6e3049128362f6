import Verif.Proofs.Json
import Verif.Proofs.JsonSound
import Verif.Proofs.ParsePrint

/-!
# The texts that are written are read back
-/

namespace StayRTR
open Spec

/-! ## Strings -/

theorem hexValueOf_digit : ∀ n : Fin 16, hexValueOf (Nat.digitChar n.val) = some n.val := by decide

theorem hexValueOf_digitChar {n : Nat} (h : n < 16) : hexValueOf (Nat.digitChar n) = some n := hexValueOf_digit ⟨n, h⟩

theorem quoteChar_text (c : Char) {r s : Str} (h : RawText r s) : RawText (quoteChar c ++ r) (c :: s) := by
  have h0 : hexValueOf '0' = some 0 := by decide
  have h2 : hexValueOf '2' = some 2 := by decide
  unfold quoteChar
  simp only
  split
  · rename_i hc; subst hc; exact .escape (n := 0x22) (by decide) rfl h
  split
  · rename_i hc; subst hc; exact .escape (n := 0x5C) (by decide) rfl h
  split
  · rename_i hc; subst hc; exact .escape (n := 8) (by decide) rfl h
  split
  · rename_i hc; subst hc; exact .escape (n := 12) (by decide) rfl h
  split
  · rename_i hc; subst hc; exact .escape (n := 10) (by decide) rfl h
  split
  · rename_i hc; subst hc; exact .escape (n := 13) (by decide) rfl h
  split
  · rename_i hc; subst hc; exact .escape (n := 9) (by decide) rfl h
  split
  · rename_i hc
    have hlt : c.toNat < 64 := by
      rcases hc with hc | rfl | rfl | rfl
      · omega
      all_goals decide
    refine RawText.code (ds := ['0', '0', Nat.digitChar (c.toNat / 16), Nat.digitChar (c.toNat % 16)]) (n := c.toNat) ⟨0, 0, c.toNat / 16, c.toNat % 16, ?_, by omega⟩ rfl h
    simp only [List.map_cons, List.map_nil, h0, hexValueOf_digitChar (show c.toNat / 16 < 16 by omega), hexValueOf_digitChar (show c.toNat % 16 < 16 by omega)]
  split
  · rename_i hc
    have hn : c.toNat = 0x2020 + c.toNat % 16 := by rcases hc with rfl | rfl <;> decide
    refine RawText.code (ds := ['2', '0', '2', Nat.digitChar (c.toNat % 16)]) (n := c.toNat) ⟨2, 0, 2, c.toNat % 16, ?_, by omega⟩ rfl h
    simp only [List.map_cons, List.map_nil, h0, h2, hexValueOf_digitChar (show c.toNat % 16 < 16 by omega)]
  · rename_i h1 h2 _ _ _ _ _ h3 _
    exact .plain (by omega) h1 h2 h

theorem quote_text (s : Str) : RawText (s.flatMap quoteChar) s := by
  induction s with
  | nil => exact .nil
  | cons c s ih => rw [List.flatMap_cons]; exact quoteChar_text c ih

theorem quoteStr_quoted (s : Str) : Quoted (quoteStr s) s := ⟨_, rfl, quote_text s⟩

/-! ## Values -/

/-- A value whose numbers are numbers, nested at most `n` deep. -/
def Printable : Nat → Json → Prop
  | _, .num l => NumText l
  | 0, .arr _ => False
  | 0, .obj _ => False
  | n + 1, .arr l => ∀ v ∈ l, Printable n v
  | n + 1, .obj l => ∀ m ∈ l, Printable n m.2
  | _, _ => True

theorem printElems_text {n : Nat} (ih : ∀ v, Printable n v → JText n v (printJson v)) : ∀ (l : List Json), l ≠ [] → (∀ v ∈ l, Printable n v) → JElems n l (printElems l)
  | [], h, _ => absurd rfl h
  | [v], _, h => by
    have := JElems.one ws_nil (ih v (h v (by simp))) ws_nil
    simpa [printElems] using this
  | v :: w :: l, _, h => by
    have := JElems.cons ws_nil (ih v (h v (by simp))) ws_nil (printElems_text ih (w :: l) (by simp) (fun x hx => h x (List.mem_cons_of_mem _ hx)))
    simpa [printElems] using this

theorem printMembers_text {n : Nat} (ih : ∀ v, Printable n v → JText n v (printJson v)) : ∀ (l : List (Str × Json)), l ≠ [] → (∀ m ∈ l, Printable n m.2) → JMembers n l (printMembers l)
  | [], h, _ => absurd rfl h
  | [(k, v)], _, h => by
    have := JMembers.one ws_nil (quoteStr_quoted k) ws_nil ws_nil (ih v (h (k, v) (by simp))) ws_nil
    simpa [printMembers] using this
  | (k, v) :: m :: l, _, h => by
    have := JMembers.cons ws_nil (quoteStr_quoted k) ws_nil ws_nil (ih v (h (k, v) (by simp))) ws_nil (printMembers_text ih (m :: l) (by simp) (fun x hx => h x (List.mem_cons_of_mem _ hx)))
    simpa [printMembers] using this

/-- What is printed is a JSON text for the value. -/
theorem print_text : ∀ (n : Nat) (v : Json), Printable n v → JText n v (printJson v) := by
  intro n
  induction n with
  | zero =>
    intro v h
    cases v with
    | null => exact .null
    | bool b => cases b <;> constructor
    | num l => exact .num (by simpa [Printable] using h)
    | str s => exact .str (quoteStr_quoted s)
    | arr l => exact absurd h (by simp [Printable])
    | obj l => exact absurd h (by simp [Printable])
  | succ n ih =>
    intro v h
    cases v with
    | null => exact .null
    | bool b => cases b <;> constructor
    | num l => exact .num (by simpa [Printable] using h)
    | str s => exact .str (quoteStr_quoted s)
    | arr l =>
      by_cases hl : l = []
      · subst hl; exact .noElems ws_nil
      · exact .elems (printElems_text ih l hl (by simpa [Printable] using h))
    | obj l =>
      by_cases hl : l = []
      · subst hl; exact .noMembers ws_nil
      · exact .members (printMembers_text ih l hl (by simpa only [Printable] using h))

theorem print_first {v : Json} (h : Printable 10000 v) (r : Str) : FirstValue (printJson v ++ r) v := ⟨[], printJson v, r, rfl, ws_nil, print_text _ v h⟩

/-- The bytes that are written are read back as the value. -/
theorem read_encoded {v : Json} (h : Printable 10000 v) (hv : ∀ l, v ≠ .num l) : readJson (goRunes 0 (encodeFile v)) = some v := by
  unfold encodeFile
  rw [goRunes_utf8 (utf8_str _)]
  exact readJson_complete (print_first h _) hv

/-! ## Numbers -/

theorem decStr_intPart (n : Nat) : IntPart (decStr n) := by
  obtain ⟨h1, -⟩ := radixAux_dec n n (Nat.le_refl _)
  refine ⟨⟨decStr_ne_nil n, fun c hc => ?_⟩, fun h0 => ?_⟩
  · rw [digit_isSome, jsonDigit_iff]
    have := h1 c hc
    simpa [isDec] using this
  · rcases Nat.eq_zero_or_pos n with rfl | hn
    · rfl
    · exact absurd h0 (radixAux_head (by omega) (by omega) (Nat.le_refl _) hn)

theorem encInt_text (n : Int) : ∃ lit, encInt n = .num lit ∧ NumText lit := by
  refine ⟨_, rfl, ?_⟩
  split
  · exact ⟨['-'], decStr n.natAbs, [], [], by simp, .inr rfl, decStr_intPart _, .inl rfl, .inl rfl⟩
  · exact ⟨[], decStr n.natAbs, [], [], by simp, .inl rfl, decStr_intPart _, .inl rfl, .inl rfl⟩

theorem encInt_printable (k : Nat) (n : Int) : Printable k (encInt n) := by
  obtain ⟨lit, h, ht⟩ := encInt_text n
  rw [h]
  cases k <;> simpa [Printable] using ht

theorem encInt_nat (n : Nat) : encInt n = .num (decStr n) := by
  unfold encInt
  rw [if_neg (by omega)]
  rfl

theorem litInt_enc (n : Int) : ∃ lit, encInt n = .num lit ∧ litInt lit = some n := by
  refine ⟨_, rfl, ?_⟩
  rw [litInt_iff]
  split
  · exact .inr ⟨decStr n.natAbs, n.natAbs, rfl, (denotes_iff _ _).2 (parseDec_decStr _), by omega⟩
  · exact .inl ⟨n.natAbs, (denotes_iff _ _).2 (parseDec_decStr _), by omega⟩

theorem decInt_enc (old n : Int) (h : -2 ^ 63 ≤ n ∧ n < 2 ^ 63) : decInt old (encInt n) = some n := by
  obtain ⟨lit, h1, h2⟩ := litInt_enc n
  rw [h1]
  simp only [decInt, h2, h, and_self, if_true]

theorem decUint_enc (w : Nat) (old n : BitVec w) : decUint w old (encInt n.toNat) = some n := by
  rw [encInt_nat]
  simp only [decUint, litNat, parseDec_decStr, n.isLt, if_true, BitVec.ofNat_toNat, BitVec.setWidth_eq]

/-! ## Numbers into an interface and back -/

/-- The integer part of a `float64`: 53 bits, and zeros. -/
def IsFloat (n : Nat) : Prop := ∃ m k, m ≤ 2 ^ 53 ∧ n = m * 2 ^ k ∧ n < 2 ^ 1024

theorem divEven_exact {n d q : Nat} (hd : 0 < d) (h : n = q * d) : divEven n d = q := by
  unfold divEven
  have h1 : n / d = q := by rw [h]; exact Nat.mul_div_cancel _ hd
  have h2 : n % d = 0 := by rw [h]; exact Nat.mul_mod_left _ _
  simp only [h1, h2]
  rw [if_pos (by omega)]

theorem divEven_le {n d q : Nat} (h : n < q * d) : divEven n d ≤ q := by
  have h1 : n / d < q := Nat.div_lt_of_lt_mul (by rwa [Nat.mul_comm])
  unfold divEven
  simp only
  split
  · omega
  split
  · omega
  split <;> omega

theorem floatTrunc_exact {n : Nat} (h : IsFloat n) : floatTrunc n 1 = some n := by
  obtain ⟨m, k, hm, hn, hlt⟩ := h
  unfold floatTrunc
  simp only [Nat.div_one, Nat.mul_one, Nat.one_mul]
  by_cases h0 : n = 0
  · subst h0; decide
  · rw [if_neg h0]
    by_cases hl : n.log2 ≤ 52
    · simp only [if_pos hl, divEven_exact (d := 1) (by omega) (Nat.mul_one _).symm, Nat.mul_div_cancel _ (Nat.two_pow_pos _), if_pos hlt]
    · have hdiv : 2 ^ (n.log2 - 52) ∣ n := by
        have hle : 2 ^ n.log2 ≤ n := Nat.log2_self_le h0
        have hup : n ≤ 2 ^ (53 + k) := by rw [hn, Nat.pow_add]; exact Nat.mul_le_mul_right _ hm
        have hlk : n.log2 ≤ 53 + k := (Nat.pow_le_pow_iff_right (by omega)).1 (hle.trans hup)
        rcases Nat.lt_or_ge n.log2 (53 + k) with hk | hk
        · have hd : 2 ^ (n.log2 - 52) ∣ 2 ^ k := Nat.pow_dvd_pow 2 (by omega)
          exact Nat.dvd_trans hd ⟨m, hn.trans (Nat.mul_comm _ _)⟩
        · have he : n = 2 ^ (53 + k) := by
            have : n.log2 = 53 + k := by omega
            rw [this] at hle
            exact Nat.le_antisymm hup hle
          rw [he, Nat.log2_two_pow]
          exact Nat.pow_dvd_pow 2 (by omega)
      obtain ⟨q, hq⟩ := hdiv
      have he := divEven_exact (n := n) (d := 2 ^ (n.log2 - 52)) (q := q) (Nat.two_pow_pos _) (by rw [Nat.mul_comm]; exact hq)
      simp only [if_neg hl, he]
      rw [Nat.mul_comm q, ← hq, if_pos hlt]

theorem floatTrunc_isFloat {n d t : Nat} (hd : 0 < d) (h : floatTrunc n d = some t) : IsFloat t := by
  have h1024 : 2 ^ 1 ≤ 2 ^ 1024 := Nat.pow_le_pow_right (by omega) (by omega)
  unfold IsFloat
  unfold floatTrunc at h
  generalize 2 ^ 1024 = B at h h1024 ⊢
  by_cases h0 : n / d = 0
  · rw [if_pos h0, Option.some.injEq] at h
    subst h
    split
    · exact ⟨1, 0, by omega, by omega, by omega⟩
    · exact ⟨0, 0, by omega, by omega, by omega⟩
  · rw [if_neg h0] at h
    have hlog : n / d < 2 ^ ((n / d).log2 + 1) := Nat.lt_log2_self
    simp only at h
    generalize (n / d).log2 = l at h hlog
    have hn : n < 2 ^ (l + 1) * d := (Nat.div_lt_iff_lt_mul hd).1 hlog
    by_cases h52 : l ≤ 52
    · rw [if_pos h52] at h
      split at h
      · rename_i hlt
        rw [Option.some.injEq] at h
        rw [h] at hlt
        refine ⟨t, 0, ?_, (Nat.mul_one _).symm, hlt⟩
        rw [← h]
        refine (Nat.div_le_self _ _).trans (divEven_le ?_)
        calc n * 2 ^ (52 - l) < 2 ^ (l + 1) * d * 2 ^ (52 - l) := Nat.mul_lt_mul_of_pos_right hn (Nat.two_pow_pos _)
          _ = 2 ^ (l + 1) * 2 ^ (52 - l) * d := by rw [Nat.mul_right_comm]
          _ = 2 ^ 53 * d := by rw [← Nat.pow_add, show l + 1 + (52 - l) = 53 by omega]
      · cases h
    · rw [if_neg h52] at h
      split at h
      · rename_i hlt
        rw [Option.some.injEq] at h
        rw [h] at hlt
        refine ⟨_, l - 52, ?_, h.symm, hlt⟩
        refine divEven_le ?_
        calc n < 2 ^ (l + 1) * d := hn
          _ = 2 ^ 53 * 2 ^ (l - 52) * d := by rw [← Nat.pow_add, show 53 + (l - 52) = l + 1 by omega]
          _ = 2 ^ 53 * (d * 2 ^ (l - 52)) := by rw [Nat.mul_assoc, Nat.mul_comm d]
      · cases h

/-- A number written as an integer, into an interface. -/
theorem litFloat_dec {ds : Str} {n : Nat} (h : parseDec ds = some n) (hn : IsFloat n) : litFloat ds = some (n : Int) ∧ litFloat ('-' :: ds) = some (-(n : Int)) := by
  obtain ⟨ha, hv⟩ := parseDec_all h
  obtain ⟨h1, h2, h3, h4, h5⟩ := dec_plain ha
  have h1' : (ds.head? == some '-') = false := by simpa using h1
  have hm : litMantissa ds = (n, 0) := by simp [litMantissa, h4, h5, hv]
  have p1 : litParts ds = (false, n, 0) := by
    unfold litParts
    simp only [h1', Bool.false_eq_true, if_false]
    rw [h2, h3, hm]
    rfl
  have p2 : litParts ('-' :: ds) = (true, n, 0) := by
    unfold litParts
    simp only [List.head?_cons, beq_self_eq_true, if_true, List.drop_one, List.tail_cons]
    rw [h2, h3, hm]
    rfl
  unfold litFloat
  rw [p1, p2]
  simp [floatTrunc_exact hn]

theorem litFloat_enc {x : Int} (h : IsFloat x.natAbs) : ∃ lit, encInt x = .num lit ∧ litFloat lit = some x := by
  refine ⟨_, rfl, ?_⟩
  obtain ⟨h1, h2⟩ := litFloat_dec (parseDec_decStr x.natAbs) h
  split
  · rw [h2]; congr 1; omega
  · rw [h1]; congr 1; omega

/-- What a number becomes in an interface is the integer part of a `float64`. -/
theorem litFloat_isFloat {lit : Str} {x : Int} (h : litFloat lit = some x) : IsFloat x.natAbs := by
  unfold litFloat at h
  rcases hp : litParts lit with ⟨neg, m, e⟩
  rw [hp] at h
  simp only at h
  split at h
  · cases h
  · rename_i t ht
    have hf : IsFloat t := by
      split at ht
      · exact floatTrunc_isFloat (by omega) ht
      · exact floatTrunc_isFloat (Nat.pow_pos (by omega)) ht
    rw [Option.some.injEq] at h
    subst h
    split
    · rw [show (-(t : Int)).natAbs = t by omega]; exact hf
    · rw [show ((t : Int)).natAbs = t by omega]; exact hf

theorem isFloat_small {n : Nat} (h : n ≤ 2 ^ 53) : IsFloat n :=
  ⟨n, 0, h, (Nat.mul_one _).symm, Nat.lt_of_le_of_lt h (Nat.pow_lt_pow_right (by omega) (by omega))⟩

/-! ## Base64 -/

theorem b64Value_char : ∀ s : BitVec 6, b64Value (Char.ofNat (b64Char s).toNat) = some s := by decide

/-- The characters of the encoding, as digits. -/
theorem raw_digits (b : Bytes) : ∃ (ds : List (BitVec 6)) (k : Nat), ((rawBase64 b).map fun c => Char.ofNat c.toNat).map sextetOf = ds.map some ∧ ds.flatMap bits = bitsOf b ++ List.replicate k false ∧ k < 6 ∧
    (rawBase64 b).length + (3 - b.length % 3) % 3 = 4 * ((b.length + 2) / 3) := by
  fun_induction rawBase64 b with
  | case1 a b c l ih =>
    obtain ⟨ds, k, h1, h2, h3, h4⟩ := ih
    refine ⟨b64Six (b64Val a b c) 18 :: b64Six (b64Val a b c) 12 :: b64Six (b64Val a b c) 6 :: b64Six (b64Val a b c) 0 :: ds, k, ?_, ?_, h3, ?_⟩
    · simp only [List.map_cons, sextetOf_eq, b64Value_char] at h1 ⊢
      rw [← h1]
    · have := bits_group a b c
      simp only [List.flatMap_cons, bitsOf_cons, h2, List.append_assoc] at this ⊢
      rw [← List.append_assoc, ← List.append_assoc, ← List.append_assoc, ← List.append_assoc, ← List.append_assoc, ← List.append_assoc, ← List.append_assoc]
      simp only [← List.append_assoc] at this
      rw [this]
    · simp only [List.length_cons] at h4 ⊢
      omega
  | case2 a b =>
    refine ⟨[b64Six (b64Val a b 0) 18, b64Six (b64Val a b 0) 12, b64Six (b64Val a b 0) 6], 2, ?_, ?_, by omega, by simp⟩
    · simp only [List.map_cons, List.map_nil, sextetOf_eq, b64Value_char]
    · have := bits_two a b
      simp only [List.flatMap_cons, List.flatMap_nil, bitsOf_cons, List.append_assoc, List.append_nil] at this ⊢
      rw [this]
      simp [bitsOf]
  | case3 a =>
    refine ⟨[b64Six (b64Val a 0 0) 18, b64Six (b64Val a 0 0) 12], 4, ?_, ?_, by omega, by simp⟩
    · simp only [List.map_cons, List.map_nil, sextetOf_eq, b64Value_char]
    · have := bits_one a
      simp only [List.flatMap_cons, List.flatMap_nil, bitsOf_cons, List.append_assoc, List.append_nil] at this ⊢
      rw [this]
      simp [bitsOf]
  | case4 => exact ⟨[], 0, rfl, rfl, by omega, rfl⟩

theorem b64Char_plain : ∀ s : BitVec 6, (Char.ofNat (b64Char s).toNat) ≠ '\n' ∧ (Char.ofNat (b64Char s).toNat) ≠ '\r' := by decide

theorem raw_plain (b : Bytes) : ∀ c ∈ (rawBase64 b).map (fun c => Char.ofNat c.toNat), c ≠ '\n' ∧ c ≠ '\r' := by
  fun_induction rawBase64 b with
  | case1 a b c l ih =>
    intro x hx
    simp only [List.map_cons, List.mem_cons] at hx
    rcases hx with rfl | rfl | rfl | rfl | hx
    iterate 4 exact b64Char_plain _
    exact ih x hx
  | case2 a b =>
    intro x hx
    simp only [List.map_cons, List.map_nil, List.mem_cons, List.not_mem_nil, or_false] at hx
    rcases hx with rfl | rfl | rfl <;> exact b64Char_plain _
  | case3 a =>
    intro x hx
    simp only [List.map_cons, List.map_nil, List.mem_cons, List.not_mem_nil, or_false] at hx
    rcases hx with rfl | rfl <;> exact b64Char_plain _
  | case4 => intro x hx; simp at hx

/-- What is written for bytes is base64 for them. -/
theorem encBytes_text (b : Bytes) : ∃ s, encBytes b = .str s ∧ Base64Text s b := by
  obtain ⟨ds, k, h1, h2, h3, h4⟩ := raw_digits b
  refine ⟨_, rfl, (rawBase64 b).map (fun c => Char.ofNat c.toNat), (3 - b.length % 3) % 3, ds, List.replicate k false, ?_, by omega, by rw [List.length_map, h4]; omega, h1, h2, by simp; omega⟩
  rw [List.filter_eq_self]
  intro c hc
  rcases List.mem_append.1 hc with h | h
  · simpa using raw_plain b c h
  · obtain rfl := List.eq_of_mem_replicate h
    decide

theorem decBytes_enc (old : Arr U8) (b : Bytes) : decBytes old (encBytes b) = some (b, []) := by
  obtain ⟨s, h1, h2⟩ := encBytes_text b
  rw [h1]
  simp only [decBytes, (b64Decode_iff s b).2 h2, Option.map_some]

/-! ## Structures -/

/-- An AS number after writing and reading: numbers are numbers of any kind. -/
def rereadAsn : AsnJson → AsnJson
  | .uint32 n => .float n.toNat
  | .int n => .float n
  | a => a

/-- What can be written and read back. -/
def WritableAsn : AsnJson → Prop
  | .float t => IsFloat t.natAbs
  | .int t => IsFloat t.natAbs
  | _ => True

theorem decAsn_enc (old a : AsnJson) (h : WritableAsn a) : decAsn old (encAsn a) = some (rereadAsn a) := by
  cases a with
  | str s => rfl
  | other => rfl
  | float t =>
    obtain ⟨lit, h1, h2⟩ := litFloat_enc (x := t) h
    simp only [encAsn, h1, decAsn, h2, Option.map_some, rereadAsn]
  | int t =>
    obtain ⟨lit, h1, h2⟩ := litFloat_enc (x := t) h
    simp only [encAsn, h1, decAsn, h2, Option.map_some, rereadAsn]
  | uint32 n =>
    obtain ⟨lit, h1, h2⟩ := litFloat_enc (x := (n.toNat : Int)) (isFloat_small (by have := n.isLt; omega))
    simp only [encAsn, h1, decAsn, h2, Option.map_some, rereadAsn]

theorem jsonField_nil {α : Type} (name : String) (dec : α → Json → Option α) (old : α) : jsonField [] name dec old = some old := rfl

theorem jsonField_append {α : Type} (a b : List (Str × Json)) (name : String) (dec : α → Json → Option α) (old : α) :
    jsonField (a ++ b) name dec old = (jsonField a name dec old).bind (jsonField b name dec) := by
  unfold jsonField
  rw [List.filter_append, List.foldlM_append]
  rfl

theorem jsonField_cons {α : Type} (n : Str) (j : Json) (o : List (Str × Json)) (name : String) (dec : α → Json → Option α) (old : α) :
    jsonField ((n, j) :: o) name dec old = if (foldName n == foldName name.toList) = true then (dec old j).bind (jsonField o name dec) else jsonField o name dec old := by
  unfold jsonField
  rw [List.filter_cons]
  split
  · rw [List.foldlM_cons]; rfl
  · rfl

/-- A number of 64 bits. -/
def Fits64 (n : Int) : Prop := -2 ^ 63 ≤ n ∧ n < 2 ^ 63

theorem names_vrp :
    (foldName "prefix".toList == foldName "maxLength".toList) = false ∧
    (foldName "prefix".toList == foldName "asn".toList) = false ∧
    (foldName "prefix".toList == foldName "ta".toList) = false ∧
    (foldName "prefix".toList == foldName "expires".toList) = false ∧
    (foldName "maxLength".toList == foldName "prefix".toList) = false ∧
    (foldName "maxLength".toList == foldName "asn".toList) = false ∧
    (foldName "maxLength".toList == foldName "ta".toList) = false ∧
    (foldName "maxLength".toList == foldName "expires".toList) = false ∧
    (foldName "asn".toList == foldName "prefix".toList) = false ∧
    (foldName "asn".toList == foldName "maxLength".toList) = false ∧
    (foldName "asn".toList == foldName "ta".toList) = false ∧
    (foldName "asn".toList == foldName "expires".toList) = false ∧
    (foldName "ta".toList == foldName "prefix".toList) = false ∧
    (foldName "ta".toList == foldName "maxLength".toList) = false ∧
    (foldName "ta".toList == foldName "asn".toList) = false ∧
    (foldName "ta".toList == foldName "expires".toList) = false ∧
    (foldName "expires".toList == foldName "prefix".toList) = false ∧
    (foldName "expires".toList == foldName "maxLength".toList) = false ∧
    (foldName "expires".toList == foldName "asn".toList) = false ∧
    (foldName "expires".toList == foldName "ta".toList) = false := by
  repeat' apply And.intro
  all_goals decide +kernel

theorem names_key :
    (foldName "asn".toList == foldName "expires".toList) = false ∧
    (foldName "asn".toList == foldName "ta".toList) = false ∧
    (foldName "asn".toList == foldName "pubkey".toList) = false ∧
    (foldName "asn".toList == foldName "ski".toList) = false ∧
    (foldName "expires".toList == foldName "asn".toList) = false ∧
    (foldName "expires".toList == foldName "ta".toList) = false ∧
    (foldName "expires".toList == foldName "pubkey".toList) = false ∧
    (foldName "expires".toList == foldName "ski".toList) = false ∧
    (foldName "ta".toList == foldName "asn".toList) = false ∧
    (foldName "ta".toList == foldName "expires".toList) = false ∧
    (foldName "ta".toList == foldName "pubkey".toList) = false ∧
    (foldName "ta".toList == foldName "ski".toList) = false ∧
    (foldName "pubkey".toList == foldName "asn".toList) = false ∧
    (foldName "pubkey".toList == foldName "expires".toList) = false ∧
    (foldName "pubkey".toList == foldName "ta".toList) = false ∧
    (foldName "pubkey".toList == foldName "ski".toList) = false ∧
    (foldName "ski".toList == foldName "asn".toList) = false ∧
    (foldName "ski".toList == foldName "expires".toList) = false ∧
    (foldName "ski".toList == foldName "ta".toList) = false ∧
    (foldName "ski".toList == foldName "pubkey".toList) = false := by
  repeat' apply And.intro
  all_goals decide +kernel

theorem names_meta :
    (foldName "vrps".toList == foldName "bgpsec_pubkeys".toList) = false ∧
    (foldName "vrps".toList == foldName "buildtime".toList) = false ∧
    (foldName "vrps".toList == foldName "generated".toList) = false ∧
    (foldName "vrps".toList == foldName "sessionid".toList) = false ∧
    (foldName "vrps".toList == foldName "serial".toList) = false ∧
    (foldName "bgpsec_pubkeys".toList == foldName "vrps".toList) = false ∧
    (foldName "bgpsec_pubkeys".toList == foldName "buildtime".toList) = false ∧
    (foldName "bgpsec_pubkeys".toList == foldName "generated".toList) = false ∧
    (foldName "bgpsec_pubkeys".toList == foldName "sessionid".toList) = false ∧
    (foldName "bgpsec_pubkeys".toList == foldName "serial".toList) = false ∧
    (foldName "buildtime".toList == foldName "vrps".toList) = false ∧
    (foldName "buildtime".toList == foldName "bgpsec_pubkeys".toList) = false ∧
    (foldName "buildtime".toList == foldName "generated".toList) = false ∧
    (foldName "buildtime".toList == foldName "sessionid".toList) = false ∧
    (foldName "buildtime".toList == foldName "serial".toList) = false ∧
    (foldName "generated".toList == foldName "vrps".toList) = false ∧
    (foldName "generated".toList == foldName "bgpsec_pubkeys".toList) = false ∧
    (foldName "generated".toList == foldName "buildtime".toList) = false ∧
    (foldName "generated".toList == foldName "sessionid".toList) = false ∧
    (foldName "generated".toList == foldName "serial".toList) = false ∧
    (foldName "sessionid".toList == foldName "vrps".toList) = false ∧
    (foldName "sessionid".toList == foldName "bgpsec_pubkeys".toList) = false ∧
    (foldName "sessionid".toList == foldName "buildtime".toList) = false ∧
    (foldName "sessionid".toList == foldName "generated".toList) = false ∧
    (foldName "sessionid".toList == foldName "serial".toList) = false ∧
    (foldName "serial".toList == foldName "vrps".toList) = false ∧
    (foldName "serial".toList == foldName "bgpsec_pubkeys".toList) = false ∧
    (foldName "serial".toList == foldName "buildtime".toList) = false ∧
    (foldName "serial".toList == foldName "generated".toList) = false ∧
    (foldName "serial".toList == foldName "sessionid".toList) = false := by
  repeat' apply And.intro
  all_goals decide +kernel

theorem names_list :
    (foldName "metadata".toList == foldName "roas".toList) = false ∧
    (foldName "metadata".toList == foldName "bgpsec_keys".toList) = false ∧
    (foldName "roas".toList == foldName "metadata".toList) = false ∧
    (foldName "roas".toList == foldName "bgpsec_keys".toList) = false ∧
    (foldName "bgpsec_keys".toList == foldName "metadata".toList) = false ∧
    (foldName "bgpsec_keys".toList == foldName "roas".toList) = false := by
  repeat' apply And.intro
  all_goals decide +kernel

theorem decPtr_enc (x : Int) (h : Fits64 x) : decPtr 0 decInt none (encInt x) = some (some x) := by
  have := decInt_enc 0 x h
  obtain ⟨lit, h1, -⟩ := encInt_text x
  rw [h1] at this ⊢
  simp only [decPtr, Option.getD_none, this, Option.map_some]

theorem decText_str (old s : Str) : decText old (.str s) = some s := rfl

theorem decVrp_enc (v : VRPJson) (ha : WritableAsn v.asn) (he : ∀ x, v.expires = some x → Fits64 x) : decVrp .zero (encVrp v) = some { v with asn := rereadAsn v.asn } := by
  obtain ⟨n0, n1, n2, n3, n4, n5, n6, n7, n8, n9, n10, n11, n12, n13, n14, n15, n16, n17, n18, n19⟩ := names_vrp
  obtain ⟨pfx, len, asn, ta, exp⟩ := v
  have ha' := decAsn_enc .other asn ha
  unfold decVrp encVrp decStruct omitText
  cases exp with
  | none => by_cases ht : ta = [] <;> simp only [ht, VRPJson.zero, omitPtr, jsonField_cons, jsonField_nil, List.cons_append, List.nil_append, List.append_nil, beq_self_eq_true, if_true, if_false, Bool.false_eq_true, decText_str, Option.bind_some, Option.bind_eq_bind, n0, n1, n2, n3, n4, n5, n6, n7, n8, n9, n10, n11, n12, n13, n14, n15, n16, n17, n18, n19, decUint_enc, ha']
  | some x => by_cases ht : ta = [] <;> simp only [ht, VRPJson.zero, omitPtr, jsonField_cons, jsonField_nil, List.cons_append, List.nil_append, List.append_nil, beq_self_eq_true, if_true, if_false, Bool.false_eq_true, decText_str, Option.bind_some, Option.bind_eq_bind, n0, n1, n2, n3, n4, n5, n6, n7, n8, n9, n10, n11, n12, n13, n14, n15, n16, n17, n18, n19, decUint_enc, ha', decPtr_enc x (he x rfl)]

/-- A key that has just been read. -/
def freshKey (k : BgpSecKeyJson) : MemKey := ⟨k.asn, k.expires, k.ta, (k.pubkey, []), k.ski⟩

theorem decKey_enc (k : BgpSecKeyJson) (he : ∀ x, k.expires = some x → Fits64 x) : decKey .zero (encKey k) = some (freshKey k) := by
  obtain ⟨n0, n1, n2, n3, n4, n5, n6, n7, n8, n9, n10, n11, n12, n13, n14, n15, n16, n17, n18, n19⟩ := names_key
  obtain ⟨asn, exp, ta, key, ski⟩ := k
  unfold decKey encKey decStruct omitText
  cases exp with
  | none => by_cases ht : ta = [] <;> simp only [ht, MemKey.zero, freshKey, omitPtr, jsonField_cons, jsonField_nil, List.cons_append, List.nil_append, List.append_nil, beq_self_eq_true, if_true, if_false, Bool.false_eq_true, decText_str, Option.bind_some, Option.bind_eq_bind, n0, n1, n2, n3, n4, n5, n6, n7, n8, n9, n10, n11, n12, n13, n14, n15, n16, n17, n18, n19, decUint_enc, decBytes_enc]
  | some x => by_cases ht : ta = [] <;> simp only [ht, MemKey.zero, freshKey, omitPtr, jsonField_cons, jsonField_nil, List.cons_append, List.nil_append, List.append_nil, beq_self_eq_true, if_true, if_false, Bool.false_eq_true, decText_str, Option.bind_some, Option.bind_eq_bind, n0, n1, n2, n3, n4, n5, n6, n7, n8, n9, n10, n11, n12, n13, n14, n15, n16, n17, n18, n19, decUint_enc, decBytes_enc, decPtr_enc x (he x rfl)]

theorem decMeta_enc (m : Metadata) (countKeys sessionID serial : Int) (hc : Fits64 m.counts) (hg : ∀ x, m.generated = some x → Fits64 x) (hk : Fits64 countKeys) (hi : Fits64 sessionID) (hs : Fits64 serial) :
    decMeta ⟨0, [], none⟩ (encMeta m countKeys sessionID serial) = some m := by
  obtain ⟨n0, n1, n2, n3, n4, n5, n6, n7, n8, n9, n10, n11, n12, n13, n14, n15, n16, n17, n18, n19, n20, n21, n22, n23, n24, n25, n26, n27, n28, n29⟩ := names_meta
  obtain ⟨counts, bt, gen⟩ := m
  unfold decMeta encMeta decStruct omitText
  cases gen with
  | none => by_cases ht : bt = [] <;> by_cases h0 : sessionID = 0 <;> simp only [ht, h0, omitPtr, jsonField_cons, jsonField_nil, List.cons_append, List.nil_append, List.append_nil, beq_self_eq_true, if_true, if_false, Bool.false_eq_true, decText_str, Option.bind_some, Option.bind_eq_bind, n0, n1, n2, n3, n4, n5, n6, n7, n8, n9, n10, n11, n12, n13, n14, n15, n16, n17, n18, n19, n20, n21, n22, n23, n24, n25, n26, n27, n28, n29, decInt_enc _ _ hc, decInt_enc _ _ hk, decInt_enc _ _ hi, decInt_enc _ _ hs]
  | some x =>
    by_cases ht : bt = [] <;> by_cases h0 : sessionID = 0 <;> simp only [ht, h0, omitPtr, jsonField_cons, jsonField_nil, List.cons_append, List.nil_append, List.append_nil, beq_self_eq_true, if_true, if_false, Bool.false_eq_true, decText_str, Option.bind_some, Option.bind_eq_bind, n0, n1, n2, n3, n4, n5, n6, n7, n8, n9, n10, n11, n12, n13, n14, n15, n16, n17, n18, n19, n20, n21, n22, n23, n24, n25, n26, n27, n28, n29, decInt_enc _ _ hc, decInt_enc _ _ hk, decInt_enc _ _ hi, decInt_enc _ _ hs, decPtr_enc x (hg x rfl)]

theorem decElems_enc {α σ : Type} {zero : σ} {dec : σ → Json → Option σ} {enc : α → Json} {f : α → σ} (l : List α) (h : ∀ a ∈ l, dec zero (enc a) = some (f a)) : decElems zero dec [] (l.map enc) = some (l.map f) := by
  induction l with
  | nil => rfl
  | cons a l ih =>
    simp only [List.map_cons, decElems, List.headD_nil, h a (by simp), List.tail_nil, ih fun x hx => h x (by simp [hx])]

theorem decSlice_enc {α σ : Type} {zero : σ} {dec : σ → Json → Option σ} {enc : α → Json} {f : α → σ} (l : Option (List α)) (h : ∀ a ∈ l.getD [], dec zero (enc a) = some (f a)) :
    decSlice zero dec none (encSlice enc l) = some (l.map fun l => (l.map f, [])) := by
  cases l with
  | none => rfl
  | some l =>
    cases l with
    | nil => rfl
    | cons a l =>
      have := decElems_enc (f := f) (a :: l) h
      simp only [encSlice, decSlice, Option.getD_none, List.map_cons, decArray, List.append_nil, List.drop_nil, Option.map_some] at this ⊢
      rw [this]
      rfl

/-- What can be written and read back: the numbers fit. -/
structure Writable (l : RPKIList) : Prop where
  counts : Fits64 l.metadata.counts
  generated : ∀ x, l.metadata.generated = some x → Fits64 x
  asns : ∀ v ∈ l.roas.getD [], WritableAsn v.asn
  vrpExpires : ∀ v ∈ l.roas.getD [], ∀ x, v.expires = some x → Fits64 x
  keyExpires : ∀ k ∈ l.keys.getD [], ∀ x, k.expires = some x → Fits64 x

/-- A list after writing and reading. -/
def rereadList (l : RPKIList) : RPKIList :=
  ⟨l.metadata, l.roas.map (List.map fun v => { v with asn := rereadAsn v.asn }), if l.keys.getD [] = [] then none else l.keys⟩

theorem decList_enc (l : RPKIList) (h : Writable l) (countKeys sessionID serial : Int) (hk : Fits64 countKeys) (hi : Fits64 sessionID) (hs : Fits64 serial) :
    (decList ⟨⟨0, [], none⟩, none, none⟩ (encList l countKeys sessionID serial)).map MemList.list = some (rereadList l) := by
  obtain ⟨n0, n1, n2, n3, n4, n5⟩ := names_list
  have hm := decMeta_enc l.metadata countKeys sessionID serial h.counts h.generated hk hi hs
  have hr := decSlice_enc (zero := VRPJson.zero) (dec := decVrp) (enc := encVrp) (f := fun v => { v with asn := rereadAsn v.asn }) l.roas (fun v hv => decVrp_enc v (h.asns v hv) (h.vrpExpires v hv))
  have hks := decSlice_enc (zero := MemKey.zero) (dec := decKey) (enc := encKey) (f := freshKey) l.keys (fun k hk => decKey_enc k (h.keyExpires k hk))
  obtain ⟨md, roas, keys⟩ := l
  simp only at hm hr hks
  have hfresh : ∀ k, (freshKey k).key = k := fun k => rfl
  unfold decList encList decStruct rereadList
  rcases keys with _ | _ | ⟨k, ks⟩
  · simp only [MemList.list, omitSlice, jsonField_cons, jsonField_nil, List.cons_append, List.nil_append, List.append_nil, beq_self_eq_true, if_true, if_false, Bool.false_eq_true, decText_str, Option.bind_some, Option.bind_eq_bind, n0, n1, n2, n3, n4, n5, hm, hr, Option.getD_none, Option.map_some, Option.map_map, Function.comp_def, Option.map_none]
  · simp only [MemList.list, omitSlice, jsonField_cons, jsonField_nil, List.cons_append, List.nil_append, List.append_nil, beq_self_eq_true, if_true, if_false, Bool.false_eq_true, decText_str, Option.bind_some, Option.bind_eq_bind, n0, n1, n2, n3, n4, n5, hm, hr, Option.getD_some, Option.map_some, Option.map_map, Function.comp_def, Option.map_none]
  · simp only [encSlice] at hks
    simp only [MemList.list, omitSlice, jsonField_cons, jsonField_nil, List.cons_append, List.nil_append, List.append_nil, beq_self_eq_true, if_true, if_false, Bool.false_eq_true, decText_str, Option.bind_some, Option.bind_eq_bind, n0, n1, n2, n3, n4, n5, hm, hr, hks, Option.getD_some, reduceCtorEq, Option.map_some, Option.map_map, Function.comp_def, List.map_map, hfresh, List.map_id']

theorem encAsn_printable (n : Nat) (a : AsnJson) : Printable n (encAsn a) := by
  cases a
  case str => cases n <;> simp [encAsn, Printable]
  case other => cases n <;> simp [encAsn, Printable]
  all_goals exact encInt_printable _ _

theorem str_printable (n : Nat) (s : Str) : Printable n (.str s) := by cases n <;> simp [Printable]

theorem omitText_printable {n : Nat} {name : String} {s : Str} : ∀ m ∈ omitText name s, Printable n m.2 := by
  intro m hm
  unfold omitText at hm
  split at hm
  · simp at hm
  · rw [List.mem_singleton] at hm; subst hm; exact str_printable n s

theorem omitPtr_printable {n : Nat} {name : String} {p : Option Int} : ∀ m ∈ omitPtr name p, Printable n m.2 := by
  intro m hm
  cases p with
  | none => simp [omitPtr] at hm
  | some x => simp only [omitPtr, List.mem_singleton] at hm; subst hm; exact encInt_printable n x

theorem encVrp_printable (n : Nat) (v : VRPJson) : Printable (n + 1) (encVrp v) := by
  simp only [encVrp, Printable, List.cons_append, List.nil_append, List.mem_cons, List.mem_append]
  rintro m (rfl | rfl | rfl | h | h)
  · exact str_printable _ _
  · exact encInt_printable _ _
  · exact encAsn_printable _ _
  · exact omitText_printable m h
  · exact omitPtr_printable m h

theorem encKey_printable (n : Nat) (k : BgpSecKeyJson) : Printable (n + 1) (encKey k) := by
  simp only [encKey, Printable, List.cons_append, List.nil_append, List.mem_cons, List.mem_append, List.not_mem_nil, or_false]
  rintro m (rfl | (h | h) | rfl | rfl)
  · exact encInt_printable _ _
  · exact omitPtr_printable m h
  · exact omitText_printable m h
  · exact str_printable _ _
  · exact str_printable _ _

theorem encMeta_printable (n : Nat) (m : Metadata) (a b c : Int) : Printable (n + 1) (encMeta m a b c) := by
  simp only [encMeta, Printable, List.cons_append, List.nil_append, List.mem_cons, List.mem_append, List.not_mem_nil, or_false]
  rintro m (rfl | rfl | ((h | h) | h) | rfl)
  · exact encInt_printable _ _
  · exact encInt_printable _ _
  · exact omitText_printable m h
  · exact omitPtr_printable m h
  · split at h
    · simp at h
    · rw [List.mem_singleton] at h; subst h; exact encInt_printable _ _
  · exact encInt_printable _ _

theorem encList_printable (l : RPKIList) (a b c : Int) : Printable 10000 (encList l a b c) := by
  obtain ⟨md, roas, keys⟩ := l
  show Printable (9997 + 1 + 1 + 1) _
  simp only [encList, Printable, List.cons_append, List.nil_append, List.mem_cons]
  rintro m (rfl | rfl | h)
  · exact encMeta_printable _ _ _ _ _
  · cases roas with
    | none => simp [encSlice, Printable]
    | some vs =>
      simp only [encSlice, Printable, List.mem_map]
      rintro v ⟨x, -, rfl⟩
      exact encVrp_printable _ x
  · rcases keys with _ | _ | ⟨k, ks⟩
    · simp [omitSlice] at h
    · simp [omitSlice] at h
    · simp only [omitSlice, List.mem_singleton] at h
      subst h
      simp only [Printable, List.mem_map]
      rintro v ⟨x, -, rfl⟩
      exact encKey_printable _ x

/-- A list that is written is read back. -/
theorem decodeFile_enc (l : RPKIList) (h : Writable l) (countKeys sessionID serial : Int) (hk : Fits64 countKeys) (hi : Fits64 sessionID) (hs : Fits64 serial) :
    decodeFile (encodeFile (encList l countKeys sessionID serial)) = some (rereadList l) := by
  unfold decodeFile
  rw [read_encoded (encList_printable _ _ _ _) (by intro l hl; cases hl)]
  exact decList_enc l h countKeys sessionID serial hk hi hs

end StayRTR
