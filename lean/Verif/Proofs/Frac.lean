import Verif.Model.Frac
import Verif.Proofs.Float

/-! Fractions in durations: rounding and its errors. -/

namespace StayRTR
open Spec

/-- The value of a fraction. -/
def fval (p : ℕ × ℕ) : ℚ := (p.1 : ℚ) / p.2

/-- A rounded fraction: a multiple of a power of two with 53 bits, the nearest. -/
def Near53 (q v : ℚ) : Prop := ∃ (k : ℤ) (D : ℕ), v = D * 2 ^ k ∧ (2 : ℚ) ^ (k + 52) ≤ q ∧ q < 2 ^ (k + 53) ∧ NearInt (q * 2 ^ (-k)) D

theorem f64Norm_near {n d : ℕ} (hd : 0 < d) (h0 : n / d ≠ 0) : Near53 ((n : ℚ) / d) (fval (f64Norm n d)) ∧ 0 < (f64Norm n d).2 := by
  have hdq : (0 : ℚ) < d := by exact_mod_cast hd
  unfold f64Norm
  simp only
  have hl1 : 2 ^ (n / d).log2 ≤ n / d := Nat.log2_self_le h0
  have hl2 : n / d < 2 ^ ((n / d).log2 + 1) := Nat.lt_log2_self
  generalize (n / d).log2 = l at hl1 hl2
  have hq1 : (2 : ℚ) ^ (l : ℤ) ≤ (n : ℚ) / d := by
    rw [le_div_iff₀ hdq, zpow_natCast]
    have := (Nat.le_div_iff_mul_le hd).mp hl1
    exact_mod_cast this
  have hq2 : (n : ℚ) / d < 2 ^ ((l : ℤ) + 1) := by
    rw [div_lt_iff₀ hdq]
    have h3 : n < 2 ^ (l + 1) * d := (Nat.div_lt_iff_lt_mul hd).mp hl2
    exact_mod_cast h3
  by_cases h52 : l ≤ 52
  · simp only [if_pos h52]
    have hnear : NearInt ((n : ℚ) / d * 2 ^ (-((l : ℤ) - 52))) (divEven (n * 2 ^ (52 - l)) d : ℕ) := by
      have := divEven_near (n := n * 2 ^ (52 - l)) hd
      have e : ((n * 2 ^ (52 - l) : ℕ) : ℚ) / d = (n : ℚ) / d * 2 ^ (-((l : ℤ) - 52)) := by
        rw [show -((l : ℤ) - 52) = ((52 - l : ℕ) : ℤ) by omega, zpow_natCast]
        push_cast
        ring
      rwa [e] at this
    refine ⟨⟨(l : ℤ) - 52, _, ?_, ?_, ?_, hnear⟩, Nat.two_pow_pos _⟩
    · unfold fval
      rw [show (l : ℤ) - 52 = -((52 - l : ℕ) : ℤ) by omega, zpow_neg, zpow_natCast, div_eq_mul_inv]
      push_cast
      rfl
    · rw [show (l : ℤ) - 52 + 52 = l by ring]; exact hq1
    · rw [show (l : ℤ) - 52 + 53 = l + 1 by ring]; exact hq2
  · simp only [if_neg h52]
    have hdd : 0 < d * 2 ^ (l - 52) := Nat.mul_pos hd (Nat.two_pow_pos _)
    have hnear : NearInt ((n : ℚ) / d * 2 ^ (-((l : ℤ) - 52))) (divEven n (d * 2 ^ (l - 52)) : ℕ) := by
      have := divEven_near (n := n) hdd
      have e : (n : ℚ) / ((d * 2 ^ (l - 52) : ℕ) : ℚ) = (n : ℚ) / d * 2 ^ (-((l : ℤ) - 52)) := by
        rw [show ((l : ℤ) - 52) = ((l - 52 : ℕ) : ℤ) by omega, zpow_neg, zpow_natCast]
        push_cast
        rw [div_mul_eq_div_div, div_eq_mul_inv _ ((2 : ℚ) ^ (l - 52))]
      rwa [e] at this
    refine ⟨⟨(l : ℤ) - 52, _, ?_, ?_, ?_, hnear⟩, Nat.one_pos⟩
    · unfold fval
      rw [show (l : ℤ) - 52 = ((l - 52 : ℕ) : ℤ) by omega, zpow_natCast]
      push_cast
      simp
    · rw [show (l : ℤ) - 52 + 52 = l by ring]; exact hq1
    · rw [show (l : ℤ) - 52 + 53 = l + 1 by ring]; exact hq2

theorem f64_near {n d : ℕ} (hn : 0 < n) (hd : 0 < d) : Near53 ((n : ℚ) / d) (fval (f64 n d)) ∧ 0 < (f64 n d).2 := by
  unfold f64
  by_cases h0 : n / d = 0
  · rw [if_pos h0]
    simp only
    generalize hs : Nat.log2 (d / n) + 1 = s
    have hlt : d / n < 2 ^ s := by rw [← hs]; exact Nat.lt_log2_self
    have h1 : n * 2 ^ s / d ≠ 0 := by
      have h2 : d < 2 ^ s * n := (Nat.div_lt_iff_lt_mul hn).mp hlt
      have h3 : d ≤ n * 2 ^ s := by rw [Nat.mul_comm]; omega
      have := Nat.div_pos h3 hd
      omega
    obtain ⟨⟨k, D, e, h2, h3, h4⟩, hp⟩ := f64Norm_near hd h1
    have hsh : ((n * 2 ^ s : ℕ) : ℚ) / d = (n : ℚ) / d * 2 ^ (s : ℤ) := by rw [zpow_natCast]; push_cast; ring
    rw [hsh] at h2 h3 h4
    have hps := two_pos (s : ℤ)
    refine ⟨⟨k - s, D, ?_, ?_, ?_, ?_⟩, Nat.mul_pos hp (Nat.two_pow_pos _)⟩
    · have e' : fval ((f64Norm (n * 2 ^ s) d).1, (f64Norm (n * 2 ^ s) d).2 * 2 ^ s) = fval (f64Norm (n * 2 ^ s) d) * 2 ^ (-(s : ℤ)) := by
        unfold fval
        rw [zpow_neg, zpow_natCast]
        push_cast
        rw [div_mul_eq_div_div, div_eq_mul_inv _ ((2 : ℚ) ^ s)]
      rw [e', e, mul_assoc, ← two_split, sub_eq_add_neg]
    · have : (2 : ℚ) ^ (k - s + 52) * 2 ^ (s : ℤ) ≤ (n : ℚ) / d * 2 ^ (s : ℤ) := by rw [← two_split, show k - s + 52 + s = k + 52 by ring]; exact h2
      exact le_of_mul_le_mul_right this hps
    · have : (n : ℚ) / d * 2 ^ (s : ℤ) < (2 : ℚ) ^ (k - s + 53) * 2 ^ (s : ℤ) := by rw [← two_split, show k - s + 53 + s = k + 53 by ring]; exact h3
      exact lt_of_mul_lt_mul_right this hps.le
    · rw [show -(k - (s : ℤ)) = s + -k by ring, two_split, ← mul_assoc]; exact h4
  · rw [if_neg h0]
    exact f64Norm_near hd h0

theorem near53_rel {q v : ℚ} (h : Near53 q v) : |v - q| ≤ q * 2 ^ (-53 : ℤ) := by
  obtain ⟨k, D, e, h1, h2, h3, -⟩ := h
  have hp := two_pos k
  have e1 : |v - q| = |q * 2 ^ (-k) - ((D : ℕ) : ℤ)| * 2 ^ k := by
    rw [← scaled_abs k (q * 2 ^ (-k)), mul_assoc, ← two_split, neg_add_cancel, zpow_zero, mul_one, abs_sub_comm, e]
    push_cast
    rfl
  rw [e1]
  calc |q * 2 ^ (-k) - ((D : ℕ) : ℤ)| * 2 ^ k ≤ 1 / 2 * 2 ^ k := mul_le_mul_of_nonneg_right h3 hp.le
    _ = 2 ^ (k + 52) * 2 ^ (-53 : ℤ) := by rw [← two_split, show k + 52 + -53 = k + -1 by ring, two_split]; norm_num; ring
    _ ≤ q * 2 ^ (-53 : ℤ) := mul_le_mul_of_nonneg_right h1 (two_pos _).le

theorem near53_exact {q v : ℚ} (h : Near53 q v) {m : ℕ} {j : ℤ} (hq : q = m * 2 ^ j) (hm : m < 2 ^ 53) : v = q := by
  obtain ⟨k, D, e, h1, h2, h3⟩ := h
  have hkj : k ≤ j := by
    by_contra hc
    have h4 : (2 : ℚ) ^ (53 + j) ≤ 2 ^ (k + 52) := two_le (by omega)
    have h5 : (m : ℚ) * 2 ^ j < 2 ^ (53 : ℤ) * 2 ^ j := mul_lt_mul_of_pos_right (by exact_mod_cast hm) (two_pos j)
    rw [← two_split, ← hq] at h5
    linarith
  obtain ⟨i, hi⟩ := Int.le.dest hkj
  have hy : q * 2 ^ (-k) = ((m * 2 ^ i : ℕ) : ℤ) := by
    rw [hq, mul_assoc, ← two_split, show j + -k = (i : ℤ) by omega, zpow_natCast]
    push_cast
    rfl
  obtain ⟨n1, n2⟩ := near_mono (m := ((m * 2 ^ i : ℕ) : ℤ)) h3
  have hD : ((D : ℕ) : ℤ) = ((m * 2 ^ i : ℕ) : ℤ) := le_antisymm (n1 (le_of_eq hy)) (n2 (le_of_eq hy.symm))
  rw [e]
  have : (D : ℚ) = ((m * 2 ^ i : ℕ) : ℤ) := by rw [← hD]; push_cast; rfl
  rw [this, ← hy, mul_assoc, ← two_split, neg_add_cancel, zpow_zero, mul_one]

theorem near53_rounded {q v : ℚ} (h : Near53 q v) (h1 : (2 : ℚ) ^ (-1022 : ℤ) ≤ q) (h2 : q < 2 ^ (1024 : ℤ)) : Rounded q v := by
  obtain ⟨k, D, e, h3, h4, h5⟩ := h
  have lt : ∀ {a b : ℤ}, (2 : ℚ) ^ a < 2 ^ b → a < b := fun h => (zpow_lt_zpow_iff_right₀ (by norm_num)).mp h
  have k1 := lt (lt_of_le_of_lt h1 h4)
  have k2 := lt (lt_of_le_of_lt h3 h2)
  have := rounded_of_near (d := (D : ℤ)) (by omega) (by omega) (le_trans (two_pos _).le h1) h4 (.inr h3) h5
  rw [e]
  exact_mod_cast this

theorem f64_pos {n d : ℕ} (hn : 0 < n) (hd : 0 < d) : 0 < (f64 n d).1 := by
  obtain ⟨h, hp⟩ := f64_near hn hd
  have hq : (0 : ℚ) < (n : ℚ) / d := by positivity
  have hr := near53_rel h
  have : (0 : ℚ) < fval (f64 n d) := by
    have h1 := abs_le.mp hr
    have h2 : (n : ℚ) / d * 2 ^ (-53 : ℤ) < (n : ℚ) / d * 1 := mul_lt_mul_of_pos_left (by norm_num) hq
    linarith [h1.1]
  unfold fval at this
  by_contra hc
  rw [Nat.eq_zero_of_not_pos hc] at this
  simp at this

theorem fracScale_pos : ∀ k, 0 < (fracScale k).1 ∧ 0 < (fracScale k).2
  | 0 => by decide
  | k + 1 => by
    obtain ⟨h1, h2⟩ := fracScale_pos k
    exact ⟨f64_pos (by omega) h2, (f64_near (by omega) h2).2⟩

theorem fval_mul (a b : ℕ × ℕ) : fval (a.1 * b.1, a.2 * b.2) = fval a * fval b := by
  unfold fval
  push_cast
  rw [mul_div_mul_comm]

theorem fval_div (a b : ℕ × ℕ) : fval (a.1 * b.2, a.2 * b.1) = fval a / fval b := by
  unfold fval
  push_cast
  rw [div_div_div_eq]

/-- The product before it is cut off. -/
def goProduct (f k unit : ℕ) : ℕ × ℕ :=
  f64 ((f64 f 1).1 * (f64 ((f64 unit 1).1 * (fracScale k).2) ((f64 unit 1).2 * (fracScale k).1)).1) ((f64 f 1).2 * (f64 ((f64 unit 1).1 * (fracScale k).2) ((f64 unit 1).2 * (fracScale k).1)).2)

/-- The roundings. -/
theorem goProduct_near {f unit : ℕ} (hf : 0 < f) (hu : 0 < unit) (k : ℕ) : ∃ A U Q : ℚ, Near53 f A ∧ Near53 unit U ∧ Near53 (U / fval (fracScale k)) Q ∧ Near53 (A * Q) (fval (goProduct f k unit)) ∧ 0 < (goProduct f k unit).2 := by
  obtain ⟨s1, s2⟩ := fracScale_pos k
  obtain ⟨a1, a2⟩ := f64_near hf Nat.one_pos
  obtain ⟨u1, u2⟩ := f64_near hu Nat.one_pos
  have a3 := f64_pos hf Nat.one_pos
  have u3 := f64_pos hu Nat.one_pos
  obtain ⟨q1, q2⟩ := f64_near (Nat.mul_pos u3 s2) (Nat.mul_pos u2 s1)
  have q3 := f64_pos (Nat.mul_pos u3 s2) (Nat.mul_pos u2 s1)
  obtain ⟨p1, p2⟩ := f64_near (Nat.mul_pos a3 q3) (Nat.mul_pos a2 q2)
  refine ⟨fval (f64 f 1), fval (f64 unit 1), fval (f64 ((f64 unit 1).1 * (fracScale k).2) ((f64 unit 1).2 * (fracScale k).1)), by simpa using a1, by simpa using u1, ?_, ?_, p2⟩
  · rw [← fval_div]; exact q1
  · rw [← fval_mul]; exact p1

theorem goFrac_floor (f k unit : ℕ) (h : 0 < (goProduct f k unit).2) : (goFrac f k unit : ℚ) ≤ fval (goProduct f k unit) ∧ fval (goProduct f k unit) < goFrac f k unit + 1 := by
  have e : goFrac f k unit = (goProduct f k unit).1 / (goProduct f k unit).2 := rfl
  rw [e]
  unfold fval
  generalize (goProduct f k unit).1 = a, (goProduct f k unit).2 = b at h
  have hb : (0 : ℚ) < b := by exact_mod_cast h
  constructor
  · rw [le_div_iff₀ hb]
    exact_mod_cast Nat.div_mul_le_self a b
  · rw [div_lt_iff₀ hb]
    have := Nat.lt_div_mul_add (a := a) (b := b) h
    have h6 : a < (a / b + 1) * b := by rw [Nat.add_mul, Nat.one_mul]; exact this
    exact_mod_cast h6

theorem near53_nat {n : ℕ} {v : ℚ} (h : Near53 n v) (hn : n < 2 ^ 53) : v = n := near53_exact h (j := 0) (by simp) hn

theorem fracScale_exact : ∀ k, k ≤ 22 → fval (fracScale k) = 10 ^ k
  | 0, _ => by norm_num [fracScale, fval]
  | k + 1, h => by
    have ih := fracScale_exact k (by omega)
    obtain ⟨h1, h2⟩ := fracScale_pos k
    have hn := (f64_near (n := (fracScale k).1 * 10) (by omega) h2).1
    have e : (((fracScale k).1 * 10 : ℕ) : ℚ) / (fracScale k).2 = 10 ^ (k + 1) := by
      rw [pow_succ, ← ih]
      unfold fval
      push_cast
      ring
    rw [e] at hn
    have h5 : 5 ^ (k + 1) < 2 ^ 53 := lt_of_le_of_lt (Nat.pow_le_pow_right (by omega) h) (by norm_num)
    exact near53_exact hn (m := 5 ^ (k + 1)) (j := ((k + 1 : ℕ) : ℤ)) (by rw [zpow_natCast]; push_cast; rw [← mul_pow]; norm_num) h5

theorem goFrac_exact {f k unit : ℕ} (hf : 0 < f) (hfk : f < 10 ^ k) (hu : 0 < unit) (hu' : unit < 2 ^ 53) (hk : k ≤ 22) (hd : 10 ^ k ∣ unit) : goFrac f k unit = f * (unit / 10 ^ k) := by
  obtain ⟨A, U, Q, h1, h2, h3, h4, h5⟩ := goProduct_near hf hu k
  obtain ⟨c, hc⟩ := hd
  have hp : 0 < 10 ^ k := Nat.pow_pos (by omega)
  have hcp : 0 < c := by
    rcases Nat.eq_zero_or_pos c with rfl | h
    · simp at hc; omega
    · exact h
  have hle : 10 ^ k ≤ unit := by rw [hc]; exact Nat.le_mul_of_pos_right _ hcp
  have hcu : c ≤ unit := by rw [hc]; exact Nat.le_mul_of_pos_left _ hp
  have hA := near53_nat h1 (by omega)
  have hU := near53_nat h2 hu'
  rw [hU, fracScale_exact k hk, show (unit : ℚ) / 10 ^ k = c by rw [hc]; push_cast; field_simp] at h3
  have hQ := near53_nat h3 (by omega)
  rw [hA, hQ, ← Nat.cast_mul] at h4
  have hfc : f * c < unit := by
    calc f * c < 10 ^ k * c := Nat.mul_lt_mul_of_pos_right hfk hcp
      _ = unit := hc.symm
  have hP := near53_nat h4 (by omega)
  have hfl := goFrac_floor f k unit h5
  rw [hP] at hfl
  have g1 : goFrac f k unit ≤ f * c := by exact_mod_cast hfl.1
  have g2 : f * c < goFrac f k unit + 1 := by exact_mod_cast hfl.2
  rw [show unit / 10 ^ k = c by rw [hc]; exact Nat.mul_div_cancel_left _ hp]
  omega

/-! ### Errors -/

/-- The relative error of one rounding. -/
abbrev eps : ℚ := 2 ^ (-53 : ℤ)

theorem near53_bounds {q v : ℚ} (h : Near53 q v) : q * (1 - eps) ≤ v ∧ v ≤ q * (1 + eps) := by
  have := abs_le.mp (near53_rel h)
  constructor <;> linarith [this.1, this.2]

theorem fracScale_bounds (k : ℕ) : 10 ^ k * (1 - eps) ^ k ≤ fval (fracScale k) ∧ fval (fracScale k) ≤ 10 ^ k * (1 + eps) ^ k := by
  induction k with
  | zero => norm_num [fracScale, fval]
  | succ k ih =>
    obtain ⟨h1, h2⟩ := fracScale_pos k
    have hn := (f64_near (n := (fracScale k).1 * 10) (by omega) h2).1
    have e : (((fracScale k).1 * 10 : ℕ) : ℚ) / (fracScale k).2 = fval (fracScale k) * 10 := by
      unfold fval
      push_cast
      ring
    rw [e] at hn
    obtain ⟨b1, b2⟩ := near53_bounds hn
    have e0 : (0 : ℚ) < 1 - eps := by norm_num
    have e1 : (0 : ℚ) < 1 + eps := by norm_num
    constructor
    · calc (10 : ℚ) ^ (k + 1) * (1 - eps) ^ (k + 1) = (10 ^ k * (1 - eps) ^ k) * 10 * (1 - eps) := by ring
        _ ≤ fval (fracScale k) * 10 * (1 - eps) := by
          refine mul_le_mul_of_nonneg_right (mul_le_mul_of_nonneg_right ih.1 (by norm_num)) e0.le
        _ ≤ _ := b1
    · calc fval (fracScale (k + 1)) ≤ fval (fracScale k) * 10 * (1 + eps) := b2
        _ ≤ (10 ^ k * (1 + eps) ^ k) * 10 * (1 + eps) := mul_le_mul_of_nonneg_right (mul_le_mul_of_nonneg_right ih.2 (by norm_num)) e1.le
        _ = _ := by ring

/-- The product is near the exact one, however many digits there are. -/
theorem goProduct_error {f k unit : ℕ} (hf : 0 < f) (hfk : f < 10 ^ k) (hf' : f ≤ 2 ^ 63) (hu : 0 < unit) (hu' : unit ≤ 3600 * 10 ^ 9) :
    |fval (goProduct f k unit) - f * unit / 10 ^ k| ≤ 1 / 50 := by
  obtain ⟨A, U, Q, h1, h2, h3, h4, h5⟩ := goProduct_near hf hu k
  have hU := near53_nat h2 (by omega)
  rw [hU] at h3
  obtain ⟨a1, a2⟩ := near53_bounds h1
  obtain ⟨q1, q2⟩ := near53_bounds h3
  obtain ⟨p1, p2⟩ := near53_bounds h4
  obtain ⟨s1, s2⟩ := fracScale_bounds k
  generalize fval (fracScale k) = S at *
  generalize fval (goProduct f k unit) = P at *
  have e0 : (0 : ℚ) < 1 - eps := by norm_num
  have e1 : (0 : ℚ) < 1 + eps := by norm_num
  have fq : (0 : ℚ) < f := by exact_mod_cast hf
  have uq : (0 : ℚ) < unit := by exact_mod_cast hu
  have uq' : (unit : ℚ) ≤ 3600 * 10 ^ 9 := by exact_mod_cast hu'
  have fq' : (f : ℚ) ≤ 2 ^ 63 := by exact_mod_cast hf'
  have fk : (f : ℚ) < 10 ^ k := by exact_mod_cast hfk
  have tk : (0 : ℚ) < 10 ^ k := by positivity
  have sk : (0 : ℚ) < S := lt_of_lt_of_le (by positivity) s1
  have A0 : 0 < A := lt_of_lt_of_le (by positivity) a1
  have Q0 : 0 < Q := lt_of_lt_of_le (by positivity) q1
  have up : P ≤ f * unit / S * (1 + eps) ^ 3 := by
    calc P ≤ A * Q * (1 + eps) := p2
      _ ≤ (f * (1 + eps)) * (unit / S * (1 + eps)) * (1 + eps) := mul_le_mul_of_nonneg_right (mul_le_mul a2 q2 Q0.le (by positivity)) e1.le
      _ = _ := by ring
  have lo : f * unit / S * (1 - eps) ^ 3 ≤ P := by
    calc f * unit / S * (1 - eps) ^ 3 = (f * (1 - eps)) * (unit / S * (1 - eps)) * (1 - eps) := by ring
      _ ≤ A * Q * (1 - eps) := mul_le_mul_of_nonneg_right (mul_le_mul a1 q1 (by positivity) A0.le) e0.le
      _ ≤ P := p1
  have y0 : 0 ≤ (f : ℚ) * unit / 10 ^ k := by positivity
  by_cases hk : k ≤ 40
  · have y1 : (f : ℚ) * unit / 10 ^ k ≤ 3600 * 10 ^ 9 := by
      rw [div_le_iff₀ tk]
      calc (f : ℚ) * unit ≤ 10 ^ k * (3600 * 10 ^ 9) := mul_le_mul fk.le uq' uq.le tk.le
        _ = _ := by ring
    have S1 : 10 ^ k * (1 - eps) ^ 40 ≤ S := le_trans (mul_le_mul_of_nonneg_left (pow_le_pow_of_le_one e0.le (by norm_num) hk) tk.le) s1
    have S2 : S ≤ 10 ^ k * (1 + eps) ^ 40 := le_trans s2 (mul_le_mul_of_nonneg_left (pow_le_pow_right₀ (by norm_num) hk) tk.le)
    have d1 : f * unit / S ≤ (f : ℚ) * unit / 10 ^ k / (1 - eps) ^ 40 := by
      rw [div_div]
      exact div_le_div_of_nonneg_left (by positivity) (by positivity) S1
    have d2 : (f : ℚ) * unit / 10 ^ k / (1 + eps) ^ 40 ≤ f * unit / S := by
      rw [div_div]
      exact div_le_div_of_nonneg_left (by positivity) sk S2
    generalize (f : ℚ) * unit / 10 ^ k = y at *
    have up' : P ≤ y * ((1 + eps) ^ 3 / (1 - eps) ^ 40) := by
      calc P ≤ f * unit / S * (1 + eps) ^ 3 := up
        _ ≤ y / (1 - eps) ^ 40 * (1 + eps) ^ 3 := mul_le_mul_of_nonneg_right d1 (by positivity)
        _ = _ := by ring
    have lo' : y * ((1 - eps) ^ 3 / (1 + eps) ^ 40) ≤ P := by
      calc y * ((1 - eps) ^ 3 / (1 + eps) ^ 40) = y / (1 + eps) ^ 40 * (1 - eps) ^ 3 := by ring
        _ ≤ f * unit / S * (1 - eps) ^ 3 := mul_le_mul_of_nonneg_right d2 (by positivity)
        _ ≤ P := lo
    have c1 : (1 + eps) ^ 3 / (1 - eps) ^ 40 ≤ 1 + 1 / (50 * (3600 * 10 ^ 9)) := by
      rw [div_le_iff₀ (by positivity)]
      norm_num
    have c2 : 1 - 1 / (50 * (3600 * 10 ^ 9)) ≤ (1 - eps) ^ 3 / (1 + eps) ^ 40 := by
      rw [le_div_iff₀ (by positivity)]
      norm_num
    have c3 := mul_le_mul_of_nonneg_left c1 y0
    have c4 := mul_le_mul_of_nonneg_left c2 y0
    rw [abs_le]
    constructor
    · have : y * (1 - 1 / (50 * (3600 * 10 ^ 9))) = y - y * (1 / (50 * (3600 * 10 ^ 9))) := by ring
      have h6 : y * (1 / (50 * (3600 * 10 ^ 9))) ≤ 3600 * 10 ^ 9 * (1 / (50 * (3600 * 10 ^ 9))) := mul_le_mul_of_nonneg_right y1 (by norm_num)
      norm_num at *
      linarith
    · have : y * (1 + 1 / (50 * (3600 * 10 ^ 9))) = y + y * (1 / (50 * (3600 * 10 ^ 9))) := by ring
      have h6 : y * (1 / (50 * (3600 * 10 ^ 9))) ≤ 3600 * 10 ^ 9 * (1 / (50 * (3600 * 10 ^ 9))) := mul_le_mul_of_nonneg_right y1 (by norm_num)
      norm_num at *
      linarith
  · have n9 : (9 : ℚ) ^ 41 ≤ 9 ^ k := pow_le_pow_right₀ (by norm_num) (by omega)
    have S1 : (9 : ℚ) ^ 41 ≤ S := by
      refine le_trans n9 (le_trans ?_ s1)
      rw [← mul_pow]
      exact pow_le_pow_left₀ (by norm_num) (by norm_num) _
    have T1 : (9 : ℚ) ^ 41 ≤ 10 ^ k := le_trans n9 (pow_le_pow_left₀ (by norm_num) (by norm_num) _)
    have num : (f : ℚ) * unit ≤ 2 ^ 63 * (3600 * 10 ^ 9) := mul_le_mul fq' uq' uq.le (by norm_num)
    have d1 : f * unit / S ≤ 2 ^ 63 * (3600 * 10 ^ 9) / 9 ^ 41 := div_le_div₀ (by norm_num) num (by norm_num) S1
    have d2 : (f : ℚ) * unit / 10 ^ k ≤ 2 ^ 63 * (3600 * 10 ^ 9) / 9 ^ 41 := div_le_div₀ (by norm_num) num (by norm_num) T1
    have P0 : 0 ≤ P := le_trans (by positivity) lo
    have P1 : P ≤ 2 ^ 63 * (3600 * 10 ^ 9) / 9 ^ 41 * (1 + eps) ^ 3 := le_trans up (mul_le_mul_of_nonneg_right d1 (by positivity))
    have P2 : P ≤ 1 / 50 := le_trans P1 (by norm_num)
    have y2 : (f : ℚ) * unit / 10 ^ k ≤ 1 / 50 := le_trans d2 (by norm_num)
    rw [abs_le]
    constructor <;> linarith

end StayRTR
