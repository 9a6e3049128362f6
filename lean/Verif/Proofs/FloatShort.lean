import Verif.Proofs.FloatLit
import Mathlib.Tactic.NormNum
import Mathlib.Tactic.Positivity

/-! # Numbers of ordinary length -/

namespace StayRTR

open Spec

/-- The two numbers come to the same integer part. -/
def SameInt (q q' : ℚ) : Prop := ∀ x : Int, (∃ v, Rounded q v ∧ |v| < 2 ^ 1024 ∧ Truncated v x) ↔ ∃ v, Rounded q' v ∧ |v| < 2 ^ 1024 ∧ Truncated v x

theorem huge_not {q : ℚ} (h : 2 ^ 1025 ≤ |q|) (v : ℚ) (hv : Rounded q v) : ¬ |v| < 2 ^ 1024 := by
  intro h1
  have hp : (2 : ℚ) ^ 1025 = 2 * 2 ^ 1024 := by rw [pow_succ, mul_comm]
  have hp0 : (0 : ℚ) < 2 ^ 1024 := by positivity
  have key : ∀ s : ℚ, (s = 1 ∨ s = -1) → |q| = s * q → False := by
    intro s hs hq
    have hw : Float64 (s * 2 ^ 1024) := by
      refine ⟨if s = 1 then 1 else -1, 1024, ?_, ?_, by omega, ?_⟩
      · rcases hs with rfl | rfl
        · simp
        · norm_num
      · rcases hs with rfl | rfl <;> norm_num
      · rcases hs with rfl | rfl
        · rw [one_mul, abs_of_nonneg (by positivity)]
        · rw [neg_one_mul, abs_neg, abs_of_nonneg (by positivity)]
    have hne : s * 2 ^ 1024 ≠ v := by
      rintro rfl
      rcases hs with rfl | rfl
      · rw [one_mul, abs_of_nonneg (by positivity)] at h1; exact lt_irrefl _ h1
      · rw [neg_one_mul, abs_neg, abs_of_nonneg (by positivity)] at h1; exact lt_irrefl _ h1
    have h2 := hv.2 _ hw hne
    have h3 : |q - v| ≤ |q - s * 2 ^ 1024| := by
      rcases h2 with h2 | h2
      · exact h2.le
      · exact h2.1.le
    have h4 : ∀ B : ℚ, 0 < B → 2 * B ≤ |q| → |q - s * B| = |q| - B := by
      intro B hB hq'
      clear h h1 hp hp0 h2 h3 hne hw hv
      rcases hs with rfl | rfl
      · rw [one_mul] at hq ⊢
        rw [abs_of_nonneg (by linarith), hq]
      · rw [abs_of_nonpos (by linarith)]
        linarith
    have h5 : |q| - |v| ≤ |q - v| := abs_sub_abs_le_abs_sub q v
    have h6 := h4 _ hp0 (hp ▸ h)
    rw [h6] at h3
    have : ∀ a b c d : ℚ, a - b ≤ c → c ≤ a - d → b < d → False := fun a b c d h1 h2 h3 => by linarith
    exact this _ _ _ _ h5 h3 h1
  rcases le_total 0 q with h0 | h0
  · exact key 1 (.inl rfl) (by rw [one_mul, abs_of_nonneg h0])
  · exact key (-1) (.inr rfl) (by rw [neg_one_mul, abs_of_nonpos h0])

theorem tiny_zero {q : ℚ} (h : |q| < (2 : ℚ) ^ (-1076 : ℤ)) : (∀ v, Rounded q v → v = 0) ∧ Rounded q 0 := by
  have hz : Float64 0 := ⟨0, 0, by simp, by norm_num, by omega, by simp⟩
  have hfar : ∀ v, Float64 v → v ≠ 0 → |q| < |q - v| := by
    rintro v ⟨m, k, rfl, h1, h2, h3⟩ h4
    have hm : m ≠ 0 := by rintro rfl; simp at h4
    have hm1 : (1 : ℚ) ≤ |(m : ℚ)| := by exact_mod_cast Int.one_le_abs hm
    have hk : (2 : ℚ) ^ (-1074 : ℤ) ≤ (2 : ℚ) ^ k := zpow_le_zpow_right₀ (by norm_num) h2
    have h5 : (2 : ℚ) ^ (-1074 : ℤ) ≤ |(m : ℚ) * 2 ^ k| := by
      rw [abs_mul, abs_of_pos (show (0 : ℚ) < 2 ^ k by positivity)]
      calc (2 : ℚ) ^ (-1074 : ℤ) ≤ 1 * 2 ^ k := by rw [one_mul]; exact hk
        _ ≤ _ := by gcongr
    have h6 : |(m : ℚ) * 2 ^ k| - |q| ≤ |q - m * 2 ^ k| := by rw [abs_sub_comm]; exact abs_sub_abs_le_abs_sub _ _
    have h7 : (2 : ℚ) ^ (-1074 : ℤ) = 4 * 2 ^ (-1076 : ℤ) := by
      rw [show (-1074 : ℤ) = 2 + (-1076) by norm_num, zpow_add₀ (by norm_num)]; norm_num
    have h8 : (0 : ℚ) < 2 ^ (-1076 : ℤ) := by positivity
    linarith
  refine ⟨fun v hv => ?_, hz, fun w hw hne => .inl ?_⟩
  · by_contra hv0
    have h1 := hfar v hv.1 hv0
    rcases hv.2 0 hz (fun h => hv0 h.symm) with h2 | h2
    · rw [sub_zero] at h2; linarith
    · rw [sub_zero] at h2; linarith [h2.1]
  · rw [sub_zero]; exact hfar w hw hne

theorem tiny_int {q : ℚ} (h : |q| < (2 : ℚ) ^ (-1076 : ℤ)) (x : Int) : (∃ v, Rounded q v ∧ |v| < 2 ^ 1024 ∧ Truncated v x) ↔ x = 0 := by
  obtain ⟨h1, h2⟩ := tiny_zero h
  have h0 : Truncated 0 0 := .inl ⟨le_refl _, by simp, by simp⟩
  constructor
  · rintro ⟨v, hv, -, ht⟩
    rw [h1 v hv] at ht
    exact ht.unique h0
  · rintro rfl
    exact ⟨0, h2, by simp, h0⟩

theorem sameInt_huge {q q' : ℚ} (h : 2 ^ 1025 ≤ |q|) (h' : 2 ^ 1025 ≤ |q'|) : SameInt q q' := fun _ =>
  ⟨fun ⟨v, hv, h1, _⟩ => absurd h1 (huge_not h v hv), fun ⟨v, hv, h1, _⟩ => absurd h1 (huge_not h' v hv)⟩

theorem sameInt_tiny {q q' : ℚ} (h : |q| < (2 : ℚ) ^ (-1076 : ℤ)) (h' : |q'| < (2 : ℚ) ^ (-1076 : ℤ)) : SameInt q q' := fun x => by rw [tiny_int h, tiny_int h']

theorem ten_huge : (2 : ℚ) ^ 1025 ≤ 10 ^ (1000 : ℤ) := by
  have : (2 : ℚ) ^ 1025 ≤ 10 ^ 1000 := by exact_mod_cast (by decide +kernel : 2 ^ 1025 ≤ 10 ^ 1000)
  exact_mod_cast this

theorem ten_tiny : (10 : ℚ) ^ (-1000 : ℤ) < 2 ^ (-1076 : ℤ) := by
  rw [zpow_neg, zpow_neg]
  apply inv_strictAnti₀ (by positivity)
  have : (2 : ℚ) ^ 1076 < 10 ^ 1000 := by exact_mod_cast (by decide +kernel : 2 ^ 1076 < 10 ^ 1000)
  exact_mod_cast this

theorem scaled_huge {n fl : ℕ} {x : Int} {s : ℚ} (hs : |s| = 1) (hn : n ≠ 0) (hf : fl < 9000) (hx : 10000 ≤ x) : (2 : ℚ) ^ 1025 ≤ |s * (n * (10 : ℚ) ^ (x - fl))| := by
  rw [abs_mul, hs, one_mul, abs_of_nonneg (by positivity)]
  have h1 : (1 : ℚ) ≤ n := by exact_mod_cast Nat.one_le_iff_ne_zero.2 hn
  calc (2 : ℚ) ^ 1025 ≤ 10 ^ (1000 : ℤ) := ten_huge
    _ ≤ 10 ^ (x - fl) := zpow_le_zpow_right₀ (by norm_num) (by omega)
    _ = 1 * 10 ^ (x - fl) := (one_mul _).symm
    _ ≤ n * 10 ^ (x - fl) := by gcongr

theorem scaled_tiny {n fl : ℕ} {x : Int} {s : ℚ} (hs : |s| = 1) {K : ℕ} (hn : n < 10 ^ K) (hK : K ≤ 9000) (hx : x ≤ -10000) : |s * (n * (10 : ℚ) ^ (x - fl))| < (2 : ℚ) ^ (-1076 : ℤ) := by
  rw [abs_mul, hs, one_mul, abs_of_nonneg (by positivity)]
  have h1 : (n : ℚ) < (10 : ℚ) ^ (K : ℤ) := by
    have : ((n : ℕ) : ℚ) < ((10 ^ K : ℕ) : ℚ) := by exact_mod_cast hn
    rw [Nat.cast_pow] at this
    exact_mod_cast this
  calc (n : ℚ) * 10 ^ (x - fl) < 10 ^ (K : ℤ) * 10 ^ (x - fl) := by
        apply mul_lt_mul_of_pos_right h1; positivity
    _ = 10 ^ ((K : ℤ) + (x - fl)) := by rw [zpow_add₀ (by norm_num)]
    _ ≤ 10 ^ (-1000 : ℤ) := zpow_le_zpow_right₀ (by norm_num) (by omega)
    _ < _ := ten_tiny

theorem sameInt_scaled {n fl : ℕ} {x y : Int} {s : ℚ} (hs : |s| = 1) {K : ℕ} (hn : n < 10 ^ K) (hK : K ≤ 9000) (hf : fl < 9000) (h : x = y ∨ (10000 ≤ x ∧ 10000 ≤ y) ∨ (x ≤ -10000 ∧ y ≤ -10000)) :
    SameInt (s * (n * (10 : ℚ) ^ (x - fl))) (s * (n * (10 : ℚ) ^ (y - fl))) := by
  rcases h with rfl | ⟨h1, h2⟩ | ⟨h1, h2⟩
  · exact fun _ => Iff.rfl
  · by_cases h0 : n = 0
    · subst h0; simp only [Nat.cast_zero, zero_mul]; exact fun _ => Iff.rfl
    · exact sameInt_huge (scaled_huge hs h0 hf h1) (scaled_huge hs h0 hf h2)
  · exact sameInt_tiny (scaled_tiny hs hn hK h1) (scaled_tiny hs hn hK h2)

theorem denotes_unique {ds : Str} {a b : ℕ} (ha : Denotes ds a) (hb : Denotes ds b) : a = b := by
  rw [← (denotes_dec ha).2.2, ← (denotes_dec hb).2.2]

theorem denotes_digits {ds : Str} {n : ℕ} (h : Denotes ds n) : Digits ds := by
  induction h with
  | @one c d hc => exact ⟨by simp, by simp [hc]⟩
  | @snoc s m c d hs hc ih =>
    refine ⟨by simp, fun x hx => ?_⟩
    rcases List.mem_append.1 hx with hx | hx
    · exact ih.2 x hx
    · rw [List.mem_singleton.1 hx, hc]; rfl

theorem read_long {ds : Str} {k r : ℕ} (h : Denotes ds k) (hr : ExpDigitsRead ds r) : k = r ∨ (10000 ≤ k ∧ 10000 ≤ r) := by
  rcases hr with ⟨h1, -⟩ | ⟨a, b, rfl, -, h1, h2, -⟩
  · exact .inl (denotes_unique h h1)
  · refine .inr ⟨?_, h2⟩
    have e1 := (denotes_dec h1).2.2
    have e2 := (denotes_dec h).2.2
    have : ∀ (b : Str) (k : ℕ), k ≤ b.foldl (fun n c => n * 10 + (c.toNat - '0'.toNat)) k := by
      intro b
      induction b with
      | nil => intro k; exact le_refl k
      | cons c b ih => intro k; rw [List.foldl_cons]; exact le_trans (by omega) (ih _)
    have h3 := this b (decVal a)
    rw [decVal, List.foldl_append] at e2
    rw [decVal] at e1 h3
    omega

theorem expValue_read {e : Str} {x : Int} (h : ExpValue e x) : ∃ y, ExpRead e y ∧ (x = y ∨ (10000 ≤ x ∧ 10000 ≤ y) ∨ (x ≤ -10000 ∧ y ≤ -10000)) := by
  rcases h with ⟨rfl, rfl⟩ | ⟨c, sign, ds, n, rfl, hc, hd, hx⟩
  · exact ⟨0, .inl ⟨rfl, rfl⟩, .inl rfl⟩
  · have hr := digits_read (denotes_digits hd)
    have hl := read_long hd hr
    rcases hx with ⟨rfl, rfl⟩ | ⟨rfl, rfl⟩ | ⟨rfl, rfl⟩
    · exact ⟨_, .inr ⟨c, [], ds, _, rfl, hc, hr, .inl ⟨rfl, rfl⟩⟩, by omega⟩
    · exact ⟨_, .inr ⟨c, ['+'], ds, _, rfl, hc, hr, .inr (.inl ⟨rfl, rfl⟩)⟩, by omega⟩
    · exact ⟨_, .inr ⟨c, ['-'], ds, _, rfl, hc, hr, .inr (.inr ⟨rfl, rfl⟩)⟩, by omega⟩

theorem expDigits_value {ds : Str} {r : ℕ} (hr : ExpDigitsRead ds r) : ∃ k, Denotes ds k ∧ (k = r ∨ (10000 ≤ k ∧ 10000 ≤ r)) := by
  have : ∃ k, Denotes ds k := by
    rcases hr with ⟨h1, -⟩ | ⟨a, b, -, h, -⟩
    · exact ⟨r, h1⟩
    · exact digits_denote h
  obtain ⟨k, hk⟩ := this
  exact ⟨k, hk, read_long hk hr⟩

theorem expRead_value {e : Str} {x : Int} (h : ExpRead e x) : ∃ y, ExpValue e y ∧ (x = y ∨ (10000 ≤ x ∧ 10000 ≤ y) ∨ (x ≤ -10000 ∧ y ≤ -10000)) := by
  rcases h with ⟨rfl, rfl⟩ | ⟨c, sign, ds, n, rfl, hc, hd, hx⟩
  · exact ⟨0, .inl ⟨rfl, rfl⟩, .inl rfl⟩
  · obtain ⟨k, hk, hl⟩ := expDigits_value hd
    rcases hx with ⟨rfl, rfl⟩ | ⟨rfl, rfl⟩ | ⟨rfl, rfl⟩
    · exact ⟨_, .inr ⟨c, [], ds, _, rfl, hc, hk, .inl ⟨rfl, rfl⟩⟩, by omega⟩
    · exact ⟨_, .inr ⟨c, ['+'], ds, _, rfl, hc, hk, .inr (.inl ⟨rfl, rfl⟩)⟩, by omega⟩
    · exact ⟨_, .inr ⟨c, ['-'], ds, _, rfl, hc, hk, .inr (.inr ⟨rfl, rfl⟩)⟩, by omega⟩

theorem denotes_lt {ds : Str} {n : Nat} (h : Denotes ds n) : n < 10 ^ ds.length := by
  obtain ⟨-, hd, rfl⟩ := denotes_dec h
  clear h
  induction ds using List.reverseRecOn with
  | nil => simp [decVal]
  | append_singleton ds c ih =>
    have h1 := ih fun x hx => hd x (by simp [hx])
    have h2 := hd c (by simp)
    have h2 : c.toNat ≤ 57 := by
      unfold isDec at h2
      rw [Bool.and_eq_true, decide_eq_true_eq, decide_eq_true_eq] at h2
      exact h2.2
    rw [decVal_snoc, List.length_append, List.length_singleton, Nat.pow_succ]
    omega

/-- A number of fewer than 9000 characters is read as what it stands for, whatever its exponent. -/
theorem floatRead_short (lit : Str) (hs : lit.length < 9000) (x : Int) : FloatRead lit x ↔ FloatInt lit x := by
  have sgn : ∀ m : Str, |(if m = [] then (1 : ℚ) else -1)| = 1 := by intro m; split <;> simp
  constructor
  · rintro ⟨q, v, ⟨m, i, p, f, e, n, y, rfl, hm, hp, hd, he, rfl⟩, h1, h2, h3⟩
    obtain ⟨z, hz, hc⟩ := expRead_value he
    have hl : (i ++ f).length ≤ 9000 := by simp only [List.length_append] at hs ⊢; omega
    obtain ⟨w, a, b, c⟩ := ((sameInt_scaled (sgn m) (denotes_lt hd) hl (fl := f.length) (by simp only [List.length_append] at hs; omega) hc) x).1 ⟨v, h1, h2, h3⟩
    exact ⟨_, w, ⟨m, i, p, f, e, n, z, rfl, hm, hp, hd, hz, rfl⟩, a, b, c⟩
  · rintro ⟨q, v, ⟨m, i, p, f, e, n, y, rfl, hm, hp, hd, he, rfl⟩, h1, h2, h3⟩
    obtain ⟨z, hz, hc⟩ := expValue_read he
    have hl : (i ++ f).length ≤ 9000 := by simp only [List.length_append] at hs ⊢; omega
    obtain ⟨w, a, b, c⟩ := ((sameInt_scaled (sgn m) (denotes_lt hd) hl (fl := f.length) (by simp only [List.length_append] at hs; omega) hc) x).1 ⟨v, h1, h2, h3⟩
    exact ⟨_, w, ⟨m, i, p, f, e, n, z, rfl, hm, hp, hd, hz, rfl⟩, a, b, c⟩

theorem litFloat_ordinary {lit : Str} (h : NumText lit) (hs : lit.length < 9000 ∨ SmallExp lit) (x : Int) : litFloat lit = some x ↔ FloatInt lit x := by
  rcases hs with hs | hs
  · rw [litFloat_read h, floatRead_short lit hs]
  · exact litFloat_iff h hs x

end StayRTR
