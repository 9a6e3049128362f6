import Verif.Proofs.Float
import Verif.Proofs.Parse
import Mathlib.Data.List.TakeWhile

/-! # The number that a JSON number stands for -/

namespace StayRTR

open Spec

theorem denotes_dec {ds : Str} {n : ℕ} (h : Denotes ds n) : ds ≠ [] ∧ (∀ c ∈ ds, isDec c = true) ∧ decVal ds = n := by
  rw [denotes_iff] at h
  unfold parseDec at h
  split at h
  · rename_i hh
    exact ⟨hh.1, List.all_eq_true.mp hh.2, Option.some.inj h⟩
  · cases h

theorem digits_denote {ds : Str} (h : Digits ds) : ∃ n, Denotes ds n := by
  obtain ⟨h1, h2⟩ := h
  have h3 : ds.all isDec = true := List.all_eq_true.mpr fun c hc => by
    have := h2 c hc
    rw [digit_eq] at this
    split at this
    · rename_i h3
      simpa [isDec] using h3
    · cases this
  refine ⟨decVal ds, (denotes_iff _ _).mpr ?_⟩
  unfold parseDec
  rw [if_pos ⟨h1, h3⟩]

theorem isDec_plain {c : Char} (h : isDec c = true) : c ≠ 'e' ∧ c ≠ 'E' ∧ c ≠ '.' ∧ c ≠ '-' ∧ c ≠ '+' := by
  refine ⟨?_, ?_, ?_, ?_, ?_⟩ <;> rintro rfl <;> revert h <;> decide

theorem litExp_small {ds : Str} {n : ℕ} (h : Denotes ds n) (hn : n < 100000) : litExp ds = n := by
  have hd : ∀ {c : Char} {d : ℕ}, digit c = some d → d = c.toNat - '0'.toNat := by
    intro c d h
    rw [digit_eq] at h
    split at h
    · exact (Option.some.inj h).symm
    · cases h
  unfold litExp
  induction h with
  | @one c d hc => simp [hd hc]
  | @snoc s m c d hs hc ih =>
    rw [List.foldl_append, ih (by omega)]
    simp only [List.foldl_cons, List.foldl_nil]
    rw [if_pos (by omega), hd hc]
    omega

/-- The exponent as it is read. -/
def readExp (e : Str) : Int := match e.drop 1 with
  | '-' :: ds => -(litExp ds : Int)
  | '+' :: ds => litExp ds
  | ds => litExp ds

theorem readExp_digits {c : Char} {sign ds : Str} {n : Nat} {x : Int} (hn : litExp ds = n) (hne : ds ≠ []) (hdec : ∀ c ∈ ds, isDec c = true) (hx : (sign = [] ∧ x = n) ∨ (sign = ['+'] ∧ x = n) ∨ (sign = ['-'] ∧ x = -n)) :
    readExp (c :: (sign ++ ds)) = x := by
  unfold readExp
  rcases hx with ⟨rfl, rfl⟩ | ⟨rfl, rfl⟩ | ⟨rfl, rfl⟩
  · simp only [List.nil_append, List.drop_succ_cons, List.drop_zero]
    cases ds with
    | nil => exact absurd rfl hne
    | cons y l =>
      obtain ⟨-, -, -, h1, h2⟩ := isDec_plain (hdec y List.mem_cons_self)
      split
      · rename_i heq; cases heq; exact absurd rfl h1
      · rename_i heq; cases heq; exact absurd rfl h2
      · rw [hn]
  · simp only [List.cons_append, List.nil_append, List.drop_succ_cons, List.drop_zero, hn]
  · simp only [List.cons_append, List.nil_append, List.drop_succ_cons, List.drop_zero, hn]

theorem readExp_value {a e : Str} {x : Int} (h : ExpValue e x) (hs : SmallExp (a ++ e)) : readExp e = x := by
  rcases h with ⟨rfl, rfl⟩ | ⟨c, sign, ds, n, rfl, hc, hd, hx⟩
  · rfl
  · have hsign : sign = [] ∨ sign = ['+'] ∨ sign = ['-'] := by rcases hx with ⟨h, -⟩ | ⟨h, -⟩ | ⟨h, -⟩ <;> simp [h]
    have hn := litExp_small hd (hs a c sign ds n rfl hc hsign hd)
    obtain ⟨hne, hdec, -⟩ := denotes_dec hd
    exact readExp_digits hn hne hdec hx

theorem litExp_stop {a b : Str} (h : 10000 ≤ litExp a) : litExp (a ++ b) = litExp a := by
  unfold litExp at *
  rw [List.foldl_append]
  generalize List.foldl _ 0 a = k at *
  induction b with
  | nil => rfl
  | cons c b ih => rw [List.foldl_cons, if_neg (by omega), ih]

theorem digits_dec {ds : Str} (h : Digits ds) : ∀ c ∈ ds, isDec c = true := by
  obtain ⟨n, hn⟩ := digits_denote h
  exact (denotes_dec hn).2.1

theorem expDigits_read {ds : Str} {n : ℕ} (h : ExpDigitsRead ds n) : litExp ds = n ∧ ds ≠ [] ∧ ∀ c ∈ ds, isDec c = true := by
  rcases h with ⟨h, hn⟩ | ⟨a, b, rfl, hd, ha, h1, h2⟩
  · exact ⟨litExp_small h (by omega), (denotes_dec h).1, (denotes_dec h).2.1⟩
  · have := litExp_small ha h2
    exact ⟨by rw [litExp_stop (by omega), this], hd.1, digits_dec hd⟩

theorem readExp_read {e : Str} {x : Int} (h : ExpRead e x) : readExp e = x := by
  rcases h with ⟨rfl, rfl⟩ | ⟨c, sign, ds, n, rfl, hc, hd, hx⟩
  · rfl
  · obtain ⟨h1, h2, h3⟩ := expDigits_read hd
    exact readExp_digits h1 h2 h3 hx

theorem digits_read {ds : Str} (h : Digits ds) : ExpDigitsRead ds (litExp ds) := by
  induction ds using List.reverseRecOn with
  | nil => exact absurd rfl h.1
  | append_singleton a c ih =>
    obtain ⟨k, hk⟩ := digits_denote (ds := [c]) ⟨by simp, fun x hx => h.2 x (List.mem_append_right _ hx)⟩
    by_cases ha : a = []
    · subst ha
      rw [List.nil_append] at h ⊢
      have hk9 : k < 10 := by
        have := (denotes_dec hk).2.2
        have hc := (denotes_dec hk).2.1 c (by simp)
        simp only [isDec, Bool.and_eq_true, decide_eq_true_eq] at hc
        simp only [decVal, List.foldl_cons, List.foldl_nil] at this
        have h9 : '9'.toNat = 57 := rfl
        have h0 : '0'.toNat = 48 := rfl
        omega
      exact .inl ⟨by rw [litExp_small hk (by omega)]; exact hk, by rw [litExp_small hk (by omega)]; omega⟩
    · have hda : Digits a := ⟨ha, fun x hx => h.2 x (List.mem_append_left _ hx)⟩
      rcases ih hda with ⟨h1, h2⟩ | ⟨p, q, hpq, -, h1, h2, h3⟩
      · obtain ⟨n, hn⟩ := digits_denote h
        have hlt : n < 100000 ∧ n = litExp a * 10 + (c.toNat - '0'.toNat) := by
          have e1 := (denotes_dec h1).2.2
          have e2 := (denotes_dec hn).2.2
          have hc := (denotes_dec hn).2.1 c (by simp)
          simp only [isDec, Bool.and_eq_true, decide_eq_true_eq] at hc
          rw [decVal, List.foldl_append] at e2
          rw [decVal] at e1
          rw [e1] at e2
          simp only [List.foldl_cons, List.foldl_nil] at e2
          have h9 : '9'.toNat = 57 := rfl
          have h0 : '0'.toNat = 48 := rfl
          omega
        have hl : litExp (a ++ [c]) = n := litExp_small hn hlt.1
        rw [hl]
        by_cases h4 : n < 10000
        · exact .inl ⟨hn, h4⟩
        · exact .inr ⟨a ++ [c], [], by simp, h, hn, by omega, hlt.1⟩
      · rw [litExp_stop h2]
        exact .inr ⟨p, q ++ [c], by rw [← List.append_assoc, ← hpq], h, h1, h2, h3⟩

theorem expRead_head {e : Str} {x : Int} (h : ExpRead e x) : e = [] ∨ ∃ c l, e = c :: l ∧ (c = 'e' ∨ c = 'E') := by
  rcases h with ⟨h, -⟩ | ⟨c, sign, ds, n, rfl, hc, -⟩
  · exact .inl h
  · exact .inr ⟨c, _, rfl, hc⟩

theorem expValue_head {e : Str} {x : Int} (h : ExpValue e x) : e = [] ∨ ∃ c l, e = c :: l ∧ (c = 'e' ∨ c = 'E') := by
  rcases h with ⟨h, -⟩ | ⟨c, sign, ds, n, rfl, hc, -⟩
  · exact .inl h
  · exact .inr ⟨c, _, rfl, hc⟩

theorem takeWhile_split {p : Char → Bool} {a b : Str} (ha : ∀ c ∈ a, p c = true) (hb : b = [] ∨ ∃ c l, b = c :: l ∧ p c = false) : (a ++ b).takeWhile p = a ∧ (a ++ b).dropWhile p = b := by
  rw [List.takeWhile_append_of_pos ha, List.dropWhile_append_of_pos ha]
  rcases hb with rfl | ⟨c, l, rfl, hc⟩
  · simp
  · simp [List.takeWhile_cons, List.dropWhile_cons, hc]

/-- The parts of a number are those of its text. -/
theorem litParts_value {m i p f e : Str} {n : ℕ} {x : Int} (hm : m = [] ∨ m = ['-']) (hp : p = [] ∧ f = [] ∨ p = ['.']) (hd : Denotes (i ++ f) n) (he : e = [] ∨ ∃ c l, e = c :: l ∧ (c = 'e' ∨ c = 'E'))
    (hexp : readExp e = x) : litParts (m ++ (i ++ (p ++ (f ++ e)))) = (decide (m ≠ []), n, x - f.length) := by
  obtain ⟨hne, hdec, hval⟩ := denotes_dec hd
  have hi : ∀ c ∈ i, isDec c = true := fun c hc => hdec c (List.mem_append_left _ hc)
  have hf : ∀ c ∈ f, isDec c = true := fun c hc => hdec c (List.mem_append_right _ hc)
  have hbody : ∀ c ∈ i ++ (p ++ f), isDec c = true ∨ c = '.' := by
    intro c hc
    rcases List.mem_append.mp hc with hc | hc
    · exact .inl (hi c hc)
    · rcases List.mem_append.mp hc with hc | hc
      · rcases hp with ⟨rfl, -⟩ | rfl
        · cases hc
        · exact .inr (by simpa using hc)
      · exact .inl (hf c hc)
  -- the sign
  have hhead : (i ++ (p ++ (f ++ e))).head? ≠ some '-' := by
    intro h
    have hb : i ++ (p ++ f) ≠ [] := by
      intro h0
      rw [List.append_eq_nil_iff, List.append_eq_nil_iff] at h0
      exact hne (by rw [h0.1, h0.2.2]; rfl)
    have h' : (i ++ (p ++ f)).head? = some '-' := by
      rw [← List.append_assoc p, ← List.append_assoc] at h
      cases hl : i ++ (p ++ f) with
      | nil => exact absurd hl hb
      | cons y l => rw [hl] at h; simpa using h
    rcases hbody '-' (List.mem_of_mem_head? h') with h | h
    · exact absurd h (by decide)
    · exact absurd h (by decide)
  have hneg : ((m ++ (i ++ (p ++ (f ++ e)))).head? == some '-') = decide (m ≠ []) := by
    rcases hm with rfl | rfl
    · simpa using hhead
    · simp
  have hdrop : (if decide (m ≠ []) = true then (m ++ (i ++ (p ++ (f ++ e)))).drop 1 else m ++ (i ++ (p ++ (f ++ e)))) = i ++ (p ++ (f ++ e)) := by
    rcases hm with rfl | rfl
    · simp
    · simp
  have hsplit := takeWhile_split (p := fun c => !(c == 'e' || c == 'E')) (a := i ++ (p ++ f)) (b := e) (fun c hc => by
      rcases hbody c hc with h | rfl
      · obtain ⟨h1, h2, -⟩ := isDec_plain h
        simp [h1, h2]
      · decide) (by
      rcases he with h | ⟨c, l, rfl, h⟩
      · exact .inl h
      · refine .inr ⟨c, l, rfl, ?_⟩
        rcases h with rfl | rfl <;> decide)
  rw [List.append_assoc i, List.append_assoc p] at hsplit
  have hmant : litMantissa (i ++ (p ++ f)) = (n, f.length) := by
    unfold litMantissa
    have hsp := takeWhile_split (p := fun c => c != '.') (a := i) (b := p ++ f) (fun c hc => by simpa using (isDec_plain (hi c hc)).2.2.1) (by
      rcases hp with ⟨rfl, rfl⟩ | rfl
      · exact .inl rfl
      · exact .inr ⟨'.', f, rfl, by decide⟩)
    simp only [hsp.1, hsp.2]
    have : (p ++ f).drop 1 = f := by rcases hp with ⟨rfl, rfl⟩ | rfl <;> rfl
    rw [this, hval]
  unfold litParts
  simp only [hneg, hdrop, hsplit.1, hsplit.2, hmant]
  rw [← hexp]
  rfl

/-- The sign and the parts of a number give its value. -/
theorem litValue_parts {lit : Str} {q : ℚ} (h : LitValue lit q) (hs : SmallExp lit) : q = (if (litParts lit).1 = true then -1 else 1) * ((litParts lit).2.1 * (10 : ℚ) ^ (litParts lit).2.2) := by
  obtain ⟨m, i, p, f, e, n, x, rfl, hm, hp, hd, he, rfl⟩ := h
  rw [litParts_value hm hp hd (expValue_head he) (readExp_value (a := m ++ (i ++ (p ++ f))) he (by simpa using hs))]
  rcases hm with rfl | rfl <;> simp

theorem litRead_parts {lit : Str} {q : ℚ} (h : LitRead lit q) : q = (if (litParts lit).1 = true then -1 else 1) * ((litParts lit).2.1 * (10 : ℚ) ^ (litParts lit).2.2) := by
  obtain ⟨m, i, p, f, e, n, x, rfl, hm, hp, hd, he, rfl⟩ := h
  rw [litParts_value hm hp hd (expRead_head he) (readExp_read he)]
  rcases hm with rfl | rfl <;> simp

/-- Every JSON number is read as a number. -/
theorem numText_read {t : Str} (h : NumText t) : ∃ q, LitRead t q := by
  obtain ⟨m, i, fp, e, rfl, hm, hi, hf, he⟩ := h
  have hx : ∃ x, ExpRead e x := by
    rcases he with rfl | ⟨c, sign, ds, rfl, hc, hsign, hds⟩
    · exact ⟨0, .inl ⟨rfl, rfl⟩⟩
    · have hn := digits_read hds
      rcases hsign with rfl | rfl | rfl
      · exact ⟨_, .inr ⟨c, [], ds, _, rfl, hc, hn, .inl ⟨rfl, rfl⟩⟩⟩
      · exact ⟨_, .inr ⟨c, ['+'], ds, _, rfl, hc, hn, .inr (.inl ⟨rfl, rfl⟩)⟩⟩
      · exact ⟨_, .inr ⟨c, ['-'], ds, _, rfl, hc, hn, .inr (.inr ⟨rfl, rfl⟩)⟩⟩
  obtain ⟨x, hx⟩ := hx
  rcases hf with rfl | ⟨f, rfl, hf⟩
  · obtain ⟨n, hn⟩ := digits_denote hi.1
    exact ⟨_, m, i, [], [], e, n, x, by simp, hm, .inl ⟨rfl, rfl⟩, by simpa using hn, hx, rfl⟩
  · obtain ⟨n, hn⟩ := digits_denote (ds := i ++ f) ⟨by simp [hf.1], fun c hc => (List.mem_append.mp hc).elim (hi.1.2 c) (hf.2 c)⟩
    exact ⟨_, m, i, ['.'], f, e, n, x, by simp, hm, .inr rfl, hn, hx, rfl⟩

/-- Every JSON number stands for a number. -/
theorem numText_value {t : Str} (h : NumText t) : ∃ q, LitValue t q := by
  obtain ⟨m, i, fp, e, rfl, hm, hi, hf, he⟩ := h
  have hx : ∃ x, ExpValue e x := by
    rcases he with rfl | ⟨c, sign, ds, rfl, hc, hsign, hds⟩
    · exact ⟨0, .inl ⟨rfl, rfl⟩⟩
    · obtain ⟨n, hn⟩ := digits_denote hds
      rcases hsign with rfl | rfl | rfl
      · exact ⟨n, .inr ⟨c, [], ds, n, rfl, hc, hn, .inl ⟨rfl, rfl⟩⟩⟩
      · exact ⟨n, .inr ⟨c, ['+'], ds, n, rfl, hc, hn, .inr (.inl ⟨rfl, rfl⟩)⟩⟩
      · exact ⟨-n, .inr ⟨c, ['-'], ds, n, rfl, hc, hn, .inr (.inr ⟨rfl, rfl⟩)⟩⟩
  obtain ⟨x, hx⟩ := hx
  rcases hf with rfl | ⟨f, rfl, hf⟩
  · obtain ⟨n, hn⟩ := digits_denote hi.1
    exact ⟨_, m, i, [], [], e, n, x, by simp, hm, .inl ⟨rfl, rfl⟩, by simpa using hn, hx, rfl⟩
  · obtain ⟨n, hn⟩ := digits_denote (ds := i ++ f) ⟨by simp [hf.1], fun c hc => (List.mem_append.mp hc).elim (hi.1.2 c) (hf.2 c)⟩
    exact ⟨_, m, i, ['.'], f, e, n, x, by simp, hm, .inr rfl, hn, hx, rfl⟩

theorem Spec.Truncated.unique {v : ℚ} {x y : Int} (hx : Truncated v x) (hy : Truncated v y) : x = y := by
  rcases hx with ⟨a1, a2, a3⟩ | ⟨a1, a2, a3⟩ <;> rcases hy with ⟨b1, b2, b3⟩ | ⟨b1, b2, b3⟩
  · have h1 : (x : ℚ) < y + 1 := by linarith
    have h2 : (y : ℚ) < x + 1 := by linarith
    have h1 : x < y + 1 := by exact_mod_cast h1
    have h2 : y < x + 1 := by exact_mod_cast h2
    omega
  · have h1 : (x : ℚ) ≤ 0 := by linarith
    have h2 : (-1 : ℚ) < x := by linarith
    have h3 : (0 : ℚ) ≤ y := by linarith
    have h4 : (y : ℚ) < 1 := by linarith
    have h1 : x ≤ 0 := by exact_mod_cast h1
    have h2 : -1 < x := by exact_mod_cast h2
    have h3 : 0 ≤ y := by exact_mod_cast h3
    have h4 : y < 1 := by exact_mod_cast h4
    omega
  · have h1 : (y : ℚ) ≤ 0 := by linarith
    have h2 : (-1 : ℚ) < y := by linarith
    have h3 : (0 : ℚ) ≤ x := by linarith
    have h4 : (x : ℚ) < 1 := by linarith
    have h1 : y ≤ 0 := by exact_mod_cast h1
    have h2 : -1 < y := by exact_mod_cast h2
    have h3 : 0 ≤ x := by exact_mod_cast h3
    have h4 : x < 1 := by exact_mod_cast h4
    omega
  · have h1 : (x : ℚ) < y + 1 := by linarith
    have h2 : (y : ℚ) < x + 1 := by linarith
    have h1 : x < y + 1 := by exact_mod_cast h1
    have h2 : y < x + 1 := by exact_mod_cast h2
    omega

theorem Spec.Truncated.neg {v : ℚ} {x : Int} (h : Truncated v x) : Truncated (-v) (-x) := by
  rcases h with ⟨a1, a2, a3⟩ | ⟨a1, a2, a3⟩
  · exact .inr ⟨by linarith, by push_cast; linarith, by push_cast; linarith⟩
  · exact .inl ⟨by linarith, by push_cast; linarith, by push_cast; linarith⟩

/-- The nearest `float64` of what `litFloat` reads. -/
theorem litFloat_spec {lit : Str} {q : ℚ} (hq : q = (if (litParts lit).1 = true then -1 else 1) * ((litParts lit).2.1 * (10 : ℚ) ^ (litParts lit).2.2)) : ∃ v, Rounded q v ∧ (litFloat lit = none → ¬ |v| < 2 ^ 1024) ∧ ∀ x, litFloat lit = some x → |v| < 2 ^ 1024 ∧ Truncated v x := by
  unfold litFloat
  generalize litParts lit = r at hq
  obtain ⟨neg, n, e⟩ := r
  simp only at hq ⊢
  have key : ∃ v, Rounded ((n : ℚ) * 10 ^ e) v ∧ 0 ≤ v ∧ FloatRes v (if 0 ≤ e then floatTrunc (n * 10 ^ e.toNat) 1 else floatTrunc n (10 ^ (-e).toNat)) := by
    by_cases he : 0 ≤ e
    · rw [if_pos he]
      have := floatTrunc_spec (n := n * 10 ^ e.toNat) (d := 1) (by omega)
      rwa [show (((n * 10 ^ e.toNat : ℕ) : ℚ) / ((1 : ℕ) : ℚ)) = (n : ℚ) * 10 ^ e by
        obtain ⟨k, rfl⟩ := Int.eq_ofNat_of_zero_le he
        rw [Int.toNat_natCast, zpow_natCast]
        push_cast
        rw [div_one]] at this
    · rw [if_neg he]
      have := floatTrunc_spec (n := n) (d := 10 ^ (-e).toNat) (Nat.pow_pos (by omega))
      rwa [show ((n : ℚ) / ((10 ^ (-e).toNat : ℕ) : ℚ)) = (n : ℚ) * 10 ^ e by
        obtain ⟨k, hk⟩ := Int.eq_ofNat_of_zero_le (show 0 ≤ -e by omega)
        rw [show e = -(k : ℤ) by omega, neg_neg, Int.toNat_natCast, zpow_neg, zpow_natCast]
        push_cast
        rw [div_eq_mul_inv]] at this
  obtain ⟨v, hv, hv0, hres⟩ := key
  generalize (if 0 ≤ e then floatTrunc (n * 10 ^ e.toNat) 1 else floatTrunc n (10 ^ (-e).toNat)) = r at hres
  have hr : ∀ t, r = some t → |v| < 2 ^ 1024 ∧ Truncated v t := by rintro t rfl; exact hres
  have hn : r = none → ¬ |v| < 2 ^ 1024 := by
    rintro rfl
    have : v = 2 ^ 1024 := hres
    rw [abs_of_nonneg hv0, this]
    exact lt_irrefl _
  cases neg with
  | false =>
    simp only [Bool.false_eq_true, if_false, one_mul] at hq ⊢
    refine ⟨v, hq ▸ hv, ?_, ?_⟩
    · cases r with
      | none => exact fun _ => hn rfl
      | some t => intro h; cases h
    · cases r with
      | none => intro x h; cases h
      | some t => intro x h; cases h; exact hr t rfl
  | true =>
    simp only [if_true] at hq ⊢
    refine ⟨-v, by rw [hq, neg_one_mul]; exact hv.neg, ?_, ?_⟩
    · rw [abs_neg]
      cases r with
      | none => exact fun _ => hn rfl
      | some t => intro h; cases h
    · rw [abs_neg]
      cases r with
      | none => intro x h; cases h
      | some t =>
        intro x h
        cases h
        exact ⟨(hr t rfl).1, (hr t rfl).2.neg⟩

/-- `litFloat` gives the integer part of the nearest `float64`, if that is finite. -/
theorem litFloat_of {lit : Str} (hs : SmallExp lit) {x : Int} (h : FloatInt lit x) : litFloat lit = some x := by
  obtain ⟨q', v', hq', h1', h2', h3'⟩ := h
  obtain ⟨v, h1, h2, h3⟩ := litFloat_spec (litValue_parts hq' hs)
  have e := h1.unique h1'
  subst e
  cases hl : litFloat lit with
  | none => exact absurd h2' (h2 hl)
  | some y => rw [(h3 y hl).2.unique h3']

theorem litFloat_iff {lit : Str} (h : NumText lit) (hs : SmallExp lit) (x : Int) : litFloat lit = some x ↔ FloatInt lit x := by
  obtain ⟨q, hq⟩ := numText_value h
  obtain ⟨v, h1, h2, h3⟩ := litFloat_spec (litValue_parts hq hs)
  constructor
  · intro hx
    exact ⟨q, v, hq, h1, h3 x hx⟩
  · exact litFloat_of hs

theorem litFloat_read {lit : Str} (h : NumText lit) (x : Int) : litFloat lit = some x ↔ FloatRead lit x := by
  constructor
  · intro hx
    obtain ⟨q, hq⟩ := numText_read h
    obtain ⟨v, h1, h2, h3⟩ := litFloat_spec (litRead_parts hq)
    exact ⟨q, v, hq, h1, h3 x hx⟩
  · rintro ⟨q', v', hq', h1', h2', h3'⟩
    obtain ⟨v, h1, h2, h3⟩ := litFloat_spec (litRead_parts hq')
    have e := h1.unique h1'
    subst e
    cases hl : litFloat lit with
    | none => exact absurd h2' (h2 hl)
    | some y => rw [(h3 y hl).2.unique h3']

/-- A number whose exponent is below 100000 is read as what it stands for. -/
theorem floatRead_small {lit : Str} (h : NumText lit) (hs : SmallExp lit) (x : Int) : FloatRead lit x ↔ FloatInt lit x := by
  rw [← litFloat_read h, litFloat_iff h hs]

end StayRTR
