import Verif.Model.Json
import Verif.Spec.Float
import Mathlib.Algebra.Order.Archimedean.Basic
import Mathlib.Tactic.Linarith
import Mathlib.Tactic.Positivity
import Mathlib.Tactic.FieldSimp
import Mathlib.Tactic.NormNum
import Mathlib.Tactic.Ring
import Mathlib.Tactic.ByContra
import Mathlib.Data.Rat.Floor

/-! # Rounding to `float64` -/

namespace StayRTR

open Spec

theorem two_pos (k : ℤ) : (0 : ℚ) < 2 ^ k := by positivity

theorem two_le {a b : ℤ} (h : a ≤ b) : (2 : ℚ) ^ a ≤ 2 ^ b := zpow_le_zpow_right₀ (by norm_num) h

theorem two_split (a b : ℤ) : (2 : ℚ) ^ (a + b) = 2 ^ a * 2 ^ b := zpow_add₀ (by norm_num) a b

theorem abs_lt_cast {m : ℤ} {b : ℕ} (h : |m| < 2 ^ b) : |(m : ℚ)| < 2 ^ b := by exact_mod_cast h

/-- A difference of multiples of `2 ^ k`. -/
theorem multiple_le {m m' : ℤ} {k k' : ℤ} (hk : k ≤ k') (h : (m : ℚ) * 2 ^ k < m' * 2 ^ k') : (m : ℚ) * 2 ^ k + 2 ^ k ≤ m' * 2 ^ k' := by
  obtain ⟨j, rfl⟩ := Int.le.dest hk
  rw [two_split, ← mul_assoc] at h ⊢
  have hp := two_pos k
  rw [show (m' : ℚ) * 2 ^ k * 2 ^ ((j : ℕ) : ℤ) = ((m' * 2 ^ j : ℤ) : ℚ) * 2 ^ k by push_cast; rw [zpow_natCast]; ring] at h ⊢
  have h1 : m < m' * 2 ^ j := by exact_mod_cast lt_of_mul_lt_mul_right h hp.le
  have h2 : ((m + 1 : ℤ) : ℚ) ≤ ((m' * 2 ^ j : ℤ) : ℚ) := by exact_mod_cast h1
  have := mul_le_mul_of_nonneg_right h2 hp.le
  push_cast at this ⊢
  linarith

/-- Between two even numbers there is another one. -/
theorem even_between {v w : ℚ} (hv : EvenFloat v) (hw : EvenFloat w) (hvb : |v| ≤ 2 ^ 1024) (hwb : |w| ≤ 2 ^ 1024) (h : v < w) : ∃ u, Float64 u ∧ v < u ∧ u < w := by
  obtain ⟨m, k, rfl, hm, hk⟩ := hv
  obtain ⟨m', k', rfl, hm', hk'⟩ := hw
  rw [abs_lt] at hm hm'
  rw [abs_le] at hvb hwb
  rcases le_total k k' with hle | hle
  · have h1 := multiple_le hle h
    have hh : (2 : ℚ) ^ k = 2 * 2 ^ (k - 1) := by rw [show k = 1 + (k - 1) by ring, two_split]; norm_num
    have hp := two_pos (k - 1)
    refine ⟨(m : ℚ) * 2 ^ k + 2 ^ (k - 1), ⟨2 * m + 1, k - 1, by push_cast; rw [hh]; ring, by rw [abs_lt]; constructor <;> omega, by omega, ?_⟩, by linarith, by linarith⟩
    rw [abs_le]
    constructor <;> linarith
  · have h1 : (m : ℚ) * 2 ^ k + 2 ^ k' ≤ m' * 2 ^ k' := by
      have h2 : ((-m' : ℤ) : ℚ) * 2 ^ k' < ((-m : ℤ) : ℚ) * 2 ^ k := by push_cast; linarith
      have := multiple_le hle h2
      push_cast at this
      linarith
    have hh : (2 : ℚ) ^ k' = 2 * 2 ^ (k' - 1) := by rw [show k' = 1 + (k' - 1) by ring, two_split]; norm_num
    have hp := two_pos (k' - 1)
    refine ⟨(m' : ℚ) * 2 ^ k' - 2 ^ (k' - 1), ⟨2 * m' - 1, k' - 1, by push_cast; rw [hh]; ring, by rw [abs_lt]; constructor <;> omega, by omega, ?_⟩, by linarith, by linarith⟩
    rw [abs_le]
    constructor <;> linarith

/-- What a float is above 0 and below a power of two. -/
theorem Spec.Float64.bound {v : ℚ} (h : Float64 v) : |v| ≤ 2 ^ 1024 := by obtain ⟨m, k, -, -, -, h⟩ := h; exact h

theorem Spec.Rounded.le {q v w : ℚ} (h : Rounded q v) (hw : Float64 w) : |q - v| ≤ |q - w| := by
  by_cases e : w = v
  · rw [e]
  · rcases h.2 w hw e with h | ⟨h, -⟩
    · exact h.le
    · exact h.le

/-- There is only one nearest `float64`. -/
theorem Spec.Rounded.unique {q v w : ℚ} (hv : Rounded q v) (hw : Rounded q w) : v = w := by
  have key : ∀ v w, Rounded q v → Rounded q w → ¬ v < w := by
    intro v w hv hw hlt
    have e := le_antisymm (hv.le hw.1) (hw.le hv.1)
    have ev : EvenFloat v := by
      rcases hv.2 w hw.1 (ne_of_gt hlt) with h | ⟨-, h⟩
      · exact absurd e (ne_of_lt h)
      · exact h
    have ew : EvenFloat w := by
      rcases hw.2 v hv.1 (ne_of_lt hlt) with h | ⟨-, h⟩
      · exact absurd e (ne_of_gt h)
      · exact h
    obtain ⟨u, hu, h1, h2⟩ := even_between ev ew hv.1.bound hw.1.bound hlt
    have h3 := hv.le hu
    rcases abs_cases (q - v) with ⟨a, a'⟩ | ⟨a, a'⟩ <;> rcases abs_cases (q - w) with ⟨b, b'⟩ | ⟨b, b'⟩ <;> rcases abs_cases (q - u) with ⟨c, c'⟩ | ⟨c, c'⟩ <;>
      rw [a] at h3 e <;> rw [b] at e <;> rw [c] at h3 <;> linarith
  rcases lt_trichotomy v w with h | h | h
  · exact absurd h (key v w hv hw)
  · exact h
  · exact absurd h (key w v hw hv)

theorem Spec.Float64.neg {v : ℚ} (h : Float64 v) : Float64 (-v) := by
  obtain ⟨m, k, rfl, h1, h2, h3⟩ := h
  exact ⟨-m, k, by push_cast; ring, by rwa [abs_neg], h2, by rwa [abs_neg]⟩

theorem Spec.EvenFloat.neg {v : ℚ} (h : EvenFloat v) : EvenFloat (-v) := by
  obtain ⟨m, k, rfl, h1, h2⟩ := h
  exact ⟨-m, k, by push_cast; ring, by rwa [abs_neg], h2⟩

theorem Spec.Rounded.neg {q v : ℚ} (h : Rounded q v) : Rounded (-q) (-v) := by
  refine ⟨h.1.neg, fun w hw hne => ?_⟩
  have := h.2 (-w) hw.neg (fun e => hne (by rw [← e, neg_neg]))
  rw [show -q - -v = -(q - v) by ring, abs_neg, show -q - w = -(q - -w) by ring, abs_neg]
  rcases this with h | ⟨h, h'⟩
  · exact .inl h
  · exact .inr ⟨h, h'.neg⟩

/-- `d` is the integer nearest to `y`, the even one if there are two. -/
def NearInt (y : ℚ) (d : ℤ) : Prop := |y - d| ≤ 1 / 2 ∧ (|y - d| = 1 / 2 → 2 ∣ d)

theorem nearInt_other {y : ℚ} {d m : ℤ} (h : NearInt y d) (hne : m ≠ d) : |y - d| < |y - m| ∨ (|y - d| = |y - m| ∧ 2 ∣ d) := by
  have h1 : (1 : ℚ) ≤ |(m : ℚ) - d| := by
    have : 1 ≤ |m - d| := Int.one_le_abs (by omega)
    exact_mod_cast this
  have h2 : |(m : ℚ) - d| ≤ |y - d| + |y - m| := by
    rw [show (m : ℚ) - d = (y - d) - (y - m) by ring]
    exact abs_sub _ _
  rcases lt_or_eq_of_le h.1 with h3 | h3
  · exact .inl (by linarith)
  · rcases lt_or_eq_of_le (show |y - d| ≤ |y - m| by linarith) with h4 | h4
    · exact .inl h4
    · exact .inr ⟨h4, h.2 h3⟩

theorem near_le {y : ℚ} {d m : ℤ} (h : NearInt y d) : |y - d| ≤ |y - m| := by
  by_cases e : m = d
  · rw [e]
  · rcases nearInt_other h e with h | ⟨h, -⟩ <;> exact h.le

theorem near_mono {y : ℚ} {d m : ℤ} (h : NearInt y d) : (y ≤ m → d ≤ m) ∧ ((m : ℚ) ≤ y → m ≤ d) := by
  have h1 := h.1
  rw [abs_le] at h1
  constructor
  · intro hy
    have : (d : ℚ) < m + 1 := by linarith
    have : d < m + 1 := by exact_mod_cast this
    omega
  · intro hy
    have : (m : ℚ) - 1 < d := by linarith
    have : m - 1 < d := by exact_mod_cast this
    omega

theorem scaled_abs (k : ℤ) (y : ℚ) (d : ℚ) : |y * 2 ^ k - d * 2 ^ k| = |y - d| * 2 ^ k := by
  rw [← sub_mul, abs_mul, abs_of_pos (two_pos k)]

/-- Rounding to a multiple of the right power of two. -/
theorem rounded_of_near {q : ℚ} {k d : ℤ} (hk : -1074 ≤ k) (hk' : k ≤ 971) (h0 : 0 ≤ q) (hu : q < 2 ^ (k + 53)) (hl : k = -1074 ∨ (2 : ℚ) ^ (k + 52) ≤ q) (hd : NearInt (q * 2 ^ (-k)) d) :
    Rounded q (d * 2 ^ k) := by
  have hp := two_pos k
  have hpp : (2 : ℚ) ^ (-k) * 2 ^ k = 1 := by rw [← two_split]; simp
  obtain ⟨y, rfl⟩ : ∃ y, q = y * 2 ^ k := ⟨q * 2 ^ (-k), by rw [mul_assoc, hpp, mul_one]⟩
  rw [mul_assoc, mul_comm ((2 : ℚ) ^ k), hpp, mul_one] at hd
  have hy0 : 0 ≤ y := nonneg_of_mul_nonneg_left h0 hp
  rw [add_comm k, two_split] at hu
  have hyu : y < 2 ^ (53 : ℤ) := lt_of_mul_lt_mul_right hu hp.le
  have hd0 : 0 ≤ d := (near_mono (m := 0) hd).2 (by simpa using hy0)
  have hdu : d ≤ 2 ^ 53 := (near_mono (m := 2 ^ 53) hd).1 (by push_cast; exact_mod_cast hyu.le)
  have hb : |(d : ℚ) * 2 ^ k| ≤ 2 ^ 1024 := by
    rw [abs_of_nonneg (mul_nonneg (by exact_mod_cast hd0) hp.le)]
    calc (d : ℚ) * 2 ^ k ≤ 2 ^ (53 : ℤ) * 2 ^ k := mul_le_mul_of_nonneg_right (by exact_mod_cast hdu) hp.le
      _ = 2 ^ (53 + k) := (two_split _ _).symm
      _ ≤ 2 ^ (1024 : ℤ) := two_le (by omega)
      _ = 2 ^ 1024 := zpow_ofNat _ _
  constructor
  · rcases lt_or_eq_of_le hdu with h | h
    · exact ⟨d, k, rfl, by rwa [abs_of_nonneg hd0], hk, hb⟩
    · refine ⟨2 ^ 52, k + 1, ?_, by norm_num, by omega, hb⟩
      rw [h, two_split]
      push_cast
      ring
  · rintro w ⟨m, j, rfl, hm, hj, hwb⟩ hne
    -- a multiple of `2 ^ k`, or below the binade
    by_cases hmul : ∃ M : ℤ, (m : ℚ) * 2 ^ j = M * 2 ^ k
    · obtain ⟨M, hM⟩ := hmul
      rw [hM] at hne ⊢
      rw [scaled_abs, scaled_abs]
      rcases nearInt_other hd (m := M) (fun e => hne (by rw [e])) with h | ⟨h, he⟩
      · exact .inl (mul_lt_mul_of_pos_right h hp)
      · refine .inr ⟨by rw [h], ?_⟩
        obtain ⟨c, rfl⟩ := he
        rcases lt_or_eq_of_le hdu with h | h
        · exact ⟨c, k + 1, by rw [two_split]; push_cast; ring, by rw [abs_of_nonneg (by omega)]; omega, by omega⟩
        · refine ⟨1, k + 53, ?_, by norm_num, by omega⟩
          rw [h, two_split]
          push_cast
          ring
    · left
      have hjk : j < k := by
        by_contra hc
        obtain ⟨i, rfl⟩ := Int.le.dest (not_lt.mp hc)
        exact hmul ⟨m * 2 ^ i, by rw [two_split, zpow_natCast]; push_cast; ring⟩
      have hl' : (2 : ℚ) ^ (k + 52) ≤ y * 2 ^ k := hl.resolve_left (by omega)
      have hw : (m : ℚ) * 2 ^ j < 2 ^ (k + 52) := by
        have h1 : (m : ℚ) < 2 ^ (53 : ℤ) := by exact_mod_cast (abs_lt.mp hm).2
        calc (m : ℚ) * 2 ^ j < 2 ^ (53 : ℤ) * 2 ^ j := mul_lt_mul_of_pos_right h1 (two_pos j)
          _ = 2 ^ (53 + j) := (two_split _ _).symm
          _ ≤ 2 ^ (k + 52) := two_le (by omega)
      have h2 : (2 : ℚ) ^ (k + 52) = ((2 ^ 52 : ℤ) : ℚ) * 2 ^ k := by rw [add_comm, two_split, zpow_ofNat]; push_cast; rfl
      have h3 : |y * 2 ^ k - d * 2 ^ k| ≤ |y * 2 ^ k - ((2 ^ 52 : ℤ) : ℚ) * 2 ^ k| := by
        rw [scaled_abs, scaled_abs]
        exact mul_le_mul_of_nonneg_right (near_le hd) hp.le
      rw [← h2] at h3
      refine lt_of_le_of_lt h3 ?_
      rw [abs_of_nonneg (by linarith), abs_of_nonneg (by linarith)]
      linarith

theorem divEven_near {n d : ℕ} (hd : 0 < d) : NearInt ((n : ℚ) / d) (divEven n d : ℕ) := by
  have hdq : (0 : ℚ) < d := by exact_mod_cast hd
  have hn : (n : ℚ) = d * (n / d : ℕ) + (n % d : ℕ) := by exact_mod_cast (Nat.div_add_mod n d).symm
  have hr := Nat.mod_lt n hd
  have key : (n : ℚ) / d = (n / d : ℕ) + ((n % d : ℕ) : ℚ) / d := by
    conv_lhs => rw [hn, add_div, mul_div_cancel_left₀ _ hdq.ne']
  rw [key]
  unfold divEven NearInt
  simp only
  generalize n / d = q
  generalize n % d = r at hr
  have hrq : (r : ℚ) < d := by exact_mod_cast hr
  have hr0 : (0 : ℚ) ≤ (r : ℚ) / d := by positivity
  by_cases h1 : 2 * r < d
  · rw [if_pos h1]
    have h1q : (2 : ℚ) * r < d := by exact_mod_cast h1
    have h2 : (r : ℚ) / d < 1 / 2 := by rw [div_lt_div_iff₀ hdq (by norm_num)]; linarith
    have e : |(q : ℚ) + (r : ℚ) / d - ((q : ℤ) : ℚ)| = (r : ℚ) / d := by rw [Int.cast_natCast, add_sub_cancel_left, abs_of_nonneg hr0]
    rw [e]
    exact ⟨h2.le, fun h => absurd h h2.ne⟩
  · rw [if_neg h1]
    by_cases h2 : d < 2 * r
    · rw [if_pos h2]
      have h2q : (d : ℚ) < 2 * r := by exact_mod_cast h2
      have h3 : 1 / 2 < (r : ℚ) / d := by rw [div_lt_div_iff₀ (by norm_num) hdq]; linarith
      have h4 : (r : ℚ) / d < 1 := by rw [div_lt_one hdq]; exact hrq
      have e : |(q : ℚ) + (r : ℚ) / d - (((q + 1 : ℕ) : ℤ) : ℚ)| = 1 - (r : ℚ) / d := by
        rw [abs_of_nonpos (by push_cast; linarith)]
        push_cast
        ring
      rw [e]
      exact ⟨by linarith, fun h => by linarith⟩
    · rw [if_neg h2]
      have h3 : (r : ℚ) / d = 1 / 2 := by
        have : 2 * r = d := by omega
        have hq' : (2 : ℚ) * r = d := by exact_mod_cast this
        rw [div_eq_div_iff hdq.ne' (by norm_num)]
        linarith
      rw [h3]
      by_cases h4 : q % 2 = 0
      · rw [if_pos h4]
        refine ⟨?_, fun _ => by omega⟩
        rw [Int.cast_natCast, add_sub_cancel_left, abs_of_nonneg (by norm_num)]
      · rw [if_neg h4]
        refine ⟨?_, fun _ => by omega⟩
        push_cast
        rw [show (q : ℚ) + 1 / 2 - (q + 1) = -(1 / 2) by ring, abs_neg, abs_of_nonneg (by norm_num)]

theorem nearInt_exists {y : ℚ} (h : 0 ≤ y) : ∃ d, NearInt y d := by
  refine ⟨(divEven y.num.toNat y.den : ℕ), ?_⟩
  have := divEven_near (n := y.num.toNat) (d := y.den) y.den_pos
  have e : ((y.num.toNat : ℕ) : ℚ) / y.den = y := by
    have h1 : ((y.num.toNat : ℕ) : ℤ) = y.num := Int.toNat_of_nonneg (Rat.num_nonneg.mpr h)
    have h2 : ((y.num.toNat : ℕ) : ℚ) = (y.num : ℚ) := by rw [← h1]; norm_cast
    rw [h2, Rat.num_div_den]
  rw [e] at this
  exact this

/-- There is a nearest `float64`. -/
theorem rounded_exists {q : ℚ} (h0 : 0 ≤ q) (h1 : q < 2 ^ 1024) : ∃ v, Rounded q v := by
  by_cases hs : q < 2 ^ (-1021 : ℤ)
  · obtain ⟨d, hd⟩ := nearInt_exists (y := q * 2 ^ (-(-1074 : ℤ))) (mul_nonneg h0 (two_pos _).le)
    exact ⟨_, rounded_of_near (by omega) (by omega) h0 (by simpa using hs) (.inl rfl) hd⟩
  · have hpos : 0 < q := lt_of_lt_of_le (two_pos _) (not_lt.mp hs)
    obtain ⟨n, hn1, hn2⟩ := exists_mem_Ico_zpow hpos (show (1 : ℚ) < 2 by norm_num)
    obtain ⟨d, hd⟩ := nearInt_exists (y := q * 2 ^ (-(n - 52))) (mul_nonneg h0 (two_pos _).le)
    have hlow : -1021 < n + 1 := (zpow_lt_zpow_iff_right₀ (show (1 : ℚ) < 2 by norm_num)).mp (lt_of_le_of_lt (not_lt.mp hs) hn2)
    have hhigh : n < 1024 := (zpow_lt_zpow_iff_right₀ (show (1 : ℚ) < 2 by norm_num)).mp (lt_of_le_of_lt hn1 (by exact_mod_cast h1))
    exact ⟨_, rounded_of_near (k := n - 52) (by omega) (by omega) h0 (by rw [show n - 52 + 53 = n + 1 by ring]; exact hn2) (.inr (by rw [show n - 52 + 52 = n by ring]; exact hn1)) hd⟩

theorem float_int {n : ℕ} (h : n < 2 ^ 53) : Float64 n :=
  ⟨n, 0, by simp, by rw [abs_of_nonneg (by omega)]; exact_mod_cast h, by omega, by
    rw [abs_of_nonneg (by positivity)]
    have : n ≤ 2 ^ 1024 := h.le.trans (Nat.pow_le_pow_right (by omega) (by omega))
    exact_mod_cast this⟩

/-- The gap below 1. -/
theorem below_one {v : ℚ} {b : ℕ} {m k : ℤ} (hv : v = m * 2 ^ k) (hm : |m| < 2 ^ b) (h : v < 1) : v ≤ 1 - 2 ^ (-(b : ℤ)) := by
  have hb := two_pos (-(b : ℤ))
  by_cases hk : -(b : ℤ) ≤ k
  · have := multiple_le (m := -(2 ^ b)) (m' := -m) hk (by
      push_cast
      rw [neg_mul, neg_mul, ← hv, ← zpow_natCast (2 : ℚ) b, ← two_split]
      simpa using h)
    push_cast at this
    rw [neg_mul, neg_mul, ← hv, ← zpow_natCast (2 : ℚ) b, ← two_split] at this
    simp only [add_neg_cancel, zpow_zero] at this
    linarith
  · have h1 : (m : ℚ) < 2 ^ (b : ℤ) := by exact_mod_cast (abs_lt.mp hm).2
    have hm' : m ≤ 2 ^ b - 1 := by have := (abs_lt.mp hm).2; omega
    have h2 : v ≤ (2 ^ (b : ℤ) - 1) * 2 ^ (-(b : ℤ)) := by
      rw [hv]
      rcases le_or_gt m 0 with hm0 | hm0
      · have h3 : (m : ℚ) * 2 ^ k ≤ 0 := mul_nonpos_of_nonpos_of_nonneg (by exact_mod_cast hm0) (two_pos k).le
        have h4 : (0 : ℚ) ≤ (2 ^ (b : ℤ) - 1) * 2 ^ (-(b : ℤ)) := mul_nonneg (by
          have : (1 : ℚ) ≤ 2 ^ (b : ℤ) := one_le_zpow₀ (by norm_num) (by omega)
          linarith) hb.le
        linarith
      · have h3 : (m : ℚ) ≤ 2 ^ (b : ℤ) - 1 := by
          rw [zpow_natCast]
          exact_mod_cast hm'
        have hm0' : (0 : ℚ) < m := by exact_mod_cast hm0
        exact mul_le_mul h3 (two_le (by omega)) (two_pos k).le (by linarith)
    rw [sub_mul, ← two_split] at h2
    simpa using h2

theorem gap_float : Float64 (1 - 2 ^ (-53 : ℤ)) := by
  have e : (1 : ℚ) - 2 ^ (-53 : ℤ) = ((2 ^ 53 - 1 : ℤ) : ℚ) * 2 ^ (-53 : ℤ) := by
    norm_num
  refine ⟨2 ^ 53 - 1, -53, e, by rw [abs_of_nonneg (by norm_num)]; norm_num, by norm_num, ?_⟩
  have hp := two_pos (-53)
  have h1 : (2 : ℚ) ^ (-53 : ℤ) ≤ 1 := zpow_le_one_of_nonpos₀ (by norm_num) (by norm_num)
  have h2 : (1 : ℚ) ≤ 2 ^ 1024 := one_le_pow₀ (by norm_num)
  rw [abs_of_nonneg (by linarith)]
  exact le_trans (by linarith) h2

/-- Rounding of a number below 1. -/
theorem rounded_below_one {q v : ℚ} (h0 : 0 ≤ q) (h1 : q < 1) (h : Rounded q v) : Truncated v (if 1 - 2 ^ (-54 : ℤ) ≤ q then 1 else 0) ∧ |v| < 2 ^ 1024 := by
  have f0 : Float64 0 := by simpa using float_int (n := 0) (by norm_num)
  have f1 : Float64 1 := by simpa using float_int (n := 1) (by norm_num)
  have hv0 : 0 ≤ v := by
    by_contra hc
    have := h.le f0
    rw [abs_of_nonneg (by linarith), abs_of_nonneg (by linarith)] at this
    linarith
  have hv1 : v ≤ 1 := by
    by_contra hc
    have := h.le f1
    rw [abs_of_nonpos (by linarith), abs_of_nonpos (by linarith)] at this
    linarith
  have e53 : (2 : ℚ) ^ (-53 : ℤ) = 2 * 2 ^ (-54 : ℤ) := by rw [show (-53 : ℤ) = 1 + -54 by norm_num, two_split]; norm_num
  have e52 : (2 : ℚ) ^ (-52 : ℤ) = 2 * 2 ^ (-53 : ℤ) := by rw [show (-52 : ℤ) = 1 + -53 by norm_num, two_split]; norm_num
  have hp := two_pos (-54)
  constructor
  · split
    · rename_i hq
      by_cases hlt : v < 1
      · exfalso
        have hv : v ≤ 1 - 2 ^ (-53 : ℤ) := by
          obtain ⟨m, k, e, hm, -, -⟩ := h.1
          exact below_one (b := 53) e hm hlt
        rcases h.2 1 f1 (ne_of_gt hlt) with h2 | ⟨h2, m, k, e, hm, -⟩
        · rw [abs_of_nonneg (by linarith), abs_of_nonpos (by linarith)] at h2
          linarith
        · have hv' : v ≤ 1 - 2 ^ (-52 : ℤ) := below_one (b := 52) e hm hlt
          rw [abs_of_nonneg (by linarith), abs_of_nonpos (by linarith)] at h2
          linarith
      · left
        have : v = 1 := le_antisymm hv1 (not_lt.mp hlt)
        rw [this]
        norm_num
    · rename_i hq
      left
      have : v ≠ 1 := by
        rintro rfl
        have h2 := h.le gap_float
        rw [abs_of_nonpos (show q - 1 ≤ 0 by linarith)] at h2
        rcases abs_cases (q - (1 - 2 ^ (-53 : ℤ))) with ⟨a, -⟩ | ⟨a, -⟩ <;> rw [a] at h2 <;> linarith
      refine ⟨hv0, by simpa using hv0, ?_⟩
      have := lt_of_le_of_ne hv1 this
      simpa using this
  · rw [abs_of_nonneg hv0]
    exact lt_of_le_of_lt hv1 (one_lt_pow₀ (by norm_num) (by norm_num))

/-- Infinity is nearest to what is out of range. -/
theorem rounded_infinity {q : ℚ} (h : 2 ^ 1024 ≤ q) : Rounded q (2 ^ 1024) := by
  refine ⟨⟨1, 1024, by rw [zpow_ofNat]; simp, by norm_num, by norm_num, by rw [abs_of_nonneg (by positivity)]⟩, fun w hw hne => .inl ?_⟩
  have := lt_of_le_of_ne (abs_le.mp hw.bound).2 hne
  rw [abs_of_nonneg (by linarith), abs_of_nonneg (by linarith)]
  linarith

/-- What a result says about the nearest `float64`. -/
def FloatRes (v : ℚ) : Option ℕ → Prop
  | some t => |v| < 2 ^ 1024 ∧ Truncated v t
  | none => v = 2 ^ 1024

theorem trunc_big {q : ℚ} {T B : ℕ} (hB : (B : ℚ) = (2 : ℕ) ^ 1024) (hr : Rounded q T) : FloatRes T (if T < B then some T else none) := by
  have h3 := hr.1.bound
  rw [abs_of_nonneg (Nat.cast_nonneg _)] at h3
  have hB' : (2 : ℚ) ^ 1024 = B := hB.symm
  unfold FloatRes
  rw [hB'] at h3 ⊢
  by_cases ht : T < B
  · rw [if_pos ht]
    exact ⟨by rw [abs_of_nonneg (Nat.cast_nonneg _)]; exact Nat.cast_lt.mpr ht, .inl ⟨Nat.cast_nonneg _, le_of_eq (by norm_cast), by rw [Int.cast_natCast]; exact lt_add_one _⟩⟩
  · rw [if_neg ht]
    exact le_antisymm h3 (Nat.cast_le.mpr (not_lt.mp ht))

/-- `floatTrunc` is the integer part of the nearest `float64`; there is none if that is infinity. -/
theorem floatTrunc_spec {n d : ℕ} (hd : 0 < d) : ∃ v, Rounded ((n : ℚ) / d) v ∧ 0 ≤ v ∧ FloatRes v (floatTrunc n d) := by
  have hdq : (0 : ℚ) < d := by exact_mod_cast hd
  have hq0 : (0 : ℚ) ≤ (n : ℚ) / d := by positivity
  unfold floatTrunc
  generalize hB : (2 : ℕ) ^ 1024 = B
  have hBq : (B : ℚ) = (2 : ℕ) ^ 1024 := by rw [← hB]; exact Nat.cast_pow 2 1024
  have hB53 : 2 ^ 53 < B := by rw [← hB]; exact Nat.pow_lt_pow_right (by omega) (by omega)
  have hBl : ∀ l, 1024 ≤ l → B ≤ 2 ^ l := fun l h => by rw [← hB]; exact Nat.pow_le_pow_right (by omega) h
  clear hB
  by_cases h0 : n / d = 0
  · rw [if_pos h0]
    have hlt : n < d := by
      rcases Nat.div_eq_zero_iff.mp h0 with h | h
      · omega
      · exact h
    have hq1 : (n : ℚ) / d < 1 := by rw [div_lt_one hdq]; exact_mod_cast hlt
    obtain ⟨v, hv⟩ := rounded_exists hq0 (lt_of_lt_of_le hq1 (one_le_pow₀ (by norm_num)))
    obtain ⟨h1, h2⟩ := rounded_below_one hq0 hq1 hv
    have f0 : Float64 0 := by simpa using float_int (n := 0) (by norm_num)
    refine ⟨v, hv, ?_, h2, ?_⟩
    · by_contra hc
      have := hv.le f0
      rw [abs_of_nonneg (by linarith), abs_of_nonneg (by linarith)] at this
      linarith
    · have e : (1 - 2 ^ (-54 : ℤ) ≤ (n : ℚ) / d) ↔ 2 ^ 54 * d ≤ 2 ^ 54 * n + d := by
        rw [le_div_iff₀ hdq, zpow_neg, sub_mul]
        constructor
        · intro h
          have h3 : (2 : ℚ) ^ 54 * d ≤ 2 ^ 54 * n + d := by
            have := mul_le_mul_of_nonneg_left h (show (0 : ℚ) ≤ 2 ^ 54 by positivity)
            have h4 : (2 : ℚ) ^ 54 * ((2 ^ (54 : ℤ))⁻¹ * d) = d := by rw [← mul_assoc]; norm_num
            rw [mul_sub, h4] at this
            linarith
          exact_mod_cast h3
        · intro h
          have h3 : (2 : ℚ) ^ 54 * d ≤ 2 ^ 54 * n + d := by exact_mod_cast h
          have h4 : (2 : ℚ) ^ 54 * ((2 ^ (54 : ℤ))⁻¹ * d) = d := by rw [← mul_assoc]; norm_num
          have h5 : (2 : ℚ) ^ 54 * (1 * d - (2 ^ (54 : ℤ))⁻¹ * d) ≤ 2 ^ 54 * n := by rw [mul_sub, h4]; linarith
          exact le_of_mul_le_mul_left h5 (by positivity)
      by_cases hc : 2 ^ 54 * d ≤ 2 ^ 54 * n + d
      · rw [if_pos (e.mpr hc)] at h1
        rw [if_pos hc]
        exact_mod_cast h1
      · rw [if_neg (fun h => hc (e.mp h))] at h1
        rw [if_neg hc]
        exact_mod_cast h1
  · rw [if_neg h0]
    simp only
    have hl1 : 2 ^ (n / d).log2 ≤ n / d := Nat.log2_self_le h0
    have hl2 : n / d < 2 ^ ((n / d).log2 + 1) := Nat.lt_log2_self
    generalize (n / d).log2 = l at hl1 hl2
    have hq1 : (2 : ℚ) ^ (l : ℤ) ≤ (n : ℚ) / d := by
      rw [le_div_iff₀ hdq, zpow_natCast]
      have := (Nat.le_div_iff_mul_le hd).mp hl1
      exact_mod_cast this
    have hq2 : (n : ℚ) / d < 2 ^ ((l : ℤ) + 1) := by
      rw [div_lt_iff₀ hdq]
      have h3 : n < 2 ^ (l + 1) * d := (Nat.div_lt_iff_lt_mul hd).mp hl2
      exact_mod_cast h3
    by_cases h52 : l ≤ 52
    · simp only [if_pos h52]
      have hnear : NearInt ((n : ℚ) / d * 2 ^ (-((l : ℤ) - 52))) (divEven (n * 2 ^ (52 - l)) d : ℕ) := by
        have := divEven_near (n := n * 2 ^ (52 - l)) hd
        have e : ((n * 2 ^ (52 - l) : ℕ) : ℚ) / d = (n : ℚ) / d * 2 ^ (-((l : ℤ) - 52)) := by
          rw [show -((l : ℤ) - 52) = ((52 - l : ℕ) : ℤ) by omega, zpow_natCast]
          push_cast
          ring
        rwa [e] at this
      have hr := rounded_of_near (k := (l : ℤ) - 52) (by omega) (by omega) hq0 (by rw [show (l : ℤ) - 52 + 53 = l + 1 by ring]; exact hq2) (.inr (by rw [show (l : ℤ) - 52 + 52 = l by ring]; exact hq1)) hnear
      generalize divEven (n * 2 ^ (52 - l)) d = D at hr hnear
      have hD : D ≤ 2 ^ 53 := by
        have := (near_mono (m := 2 ^ 53) hnear).1 (by
          have h3 := mul_le_mul_of_nonneg_right hq2.le (two_pos (-((l : ℤ) - 52))).le
          rw [← two_split, show (l : ℤ) + 1 + -((l : ℤ) - 52) = 53 by ring] at h3
          exact_mod_cast h3)
        exact_mod_cast this
      have hv0 : (0 : ℚ) ≤ (((D : ℕ) : ℤ) : ℚ) * 2 ^ ((l : ℤ) - 52) := mul_nonneg (by simp) (two_pos _).le
      have hvD : (((D : ℕ) : ℤ) : ℚ) * 2 ^ ((l : ℤ) - 52) = (D : ℚ) / ((2 ^ (52 - l) : ℕ) : ℚ) := by
        rw [show (l : ℤ) - 52 = -((52 - l : ℕ) : ℤ) by omega, zpow_neg, zpow_natCast, div_eq_mul_inv]
        push_cast
        rfl
      have hP : (0 : ℚ) < ((2 ^ (52 - l) : ℕ) : ℚ) := by positivity
      have hsmall : D / 2 ^ (52 - l) < B := lt_of_le_of_lt ((Nat.div_le_self _ _).trans hD) hB53
      rw [if_pos hsmall]
      refine ⟨_, hr, hv0, ?_, .inl ⟨hv0, ?_, ?_⟩⟩
      · rw [abs_of_nonneg hv0, hvD]
        have h3 : (D : ℚ) / ((2 ^ (52 - l) : ℕ) : ℚ) ≤ D := div_le_self (Nat.cast_nonneg _) (by exact_mod_cast Nat.one_le_two_pow)
        have h4 : (D : ℚ) ≤ 2 ^ 53 := by exact_mod_cast hD
        have h5 : (2 : ℚ) ^ 53 < 2 ^ 1024 := pow_lt_pow_right₀ one_lt_two (by omega)
        exact lt_of_le_of_lt (h3.trans h4) h5
      · rw [hvD, le_div_iff₀ hP]
        exact_mod_cast Nat.div_mul_le_self D (2 ^ (52 - l))
      · rw [hvD, div_lt_iff₀ hP]
        have := Nat.lt_div_mul_add (a := D) (b := 2 ^ (52 - l)) (Nat.two_pow_pos _)
        have h6 : D < (D / 2 ^ (52 - l) + 1) * 2 ^ (52 - l) := by rw [Nat.add_mul, Nat.one_mul]; exact this
        exact_mod_cast h6
    · simp only [if_neg h52]
      have hdd : 0 < d * 2 ^ (l - 52) := Nat.mul_pos hd (Nat.two_pow_pos _)
      have hnear : NearInt ((n : ℚ) / d * 2 ^ (-((l : ℤ) - 52))) (divEven n (d * 2 ^ (l - 52)) : ℕ) := by
        have := divEven_near (n := n) hdd
        have e : (n : ℚ) / ((d * 2 ^ (l - 52) : ℕ) : ℚ) = (n : ℚ) / d * 2 ^ (-((l : ℤ) - 52)) := by
          rw [show ((l : ℤ) - 52) = ((l - 52 : ℕ) : ℤ) by omega, zpow_neg, zpow_natCast]
          push_cast
          rw [div_mul_eq_div_div, div_eq_mul_inv _ ((2 : ℚ) ^ (l - 52))]
        rwa [e] at this
      generalize divEven n (d * 2 ^ (l - 52)) = D at hnear
      have hvD : (((D : ℕ) : ℤ) : ℚ) * 2 ^ ((l : ℤ) - 52) = ((D * 2 ^ (l - 52) : ℕ) : ℚ) := by
        rw [show ((l : ℤ) - 52) = ((l - 52 : ℕ) : ℤ) by omega, zpow_natCast]
        push_cast
        rfl
      by_cases h1023 : l ≤ 1023
      · have hr := rounded_of_near (k := (l : ℤ) - 52) (by omega) (by omega) hq0 (by rw [show (l : ℤ) - 52 + 53 = l + 1 by ring]; exact hq2) (.inr (by rw [show (l : ℤ) - 52 + 52 = l by ring]; exact hq1)) hnear
        rw [hvD] at hr
        exact ⟨_, hr, Nat.cast_nonneg _, trunc_big hBq hr⟩
      · have hbig : (2 : ℚ) ^ 1024 ≤ (n : ℚ) / d := by
          refine le_trans ?_ hq1
          rw [zpow_natCast]
          exact pow_le_pow_right₀ (by norm_num) (by omega)
        have hDl : 2 ^ 52 ≤ D := by
          have := (near_mono (m := 2 ^ 52) hnear).2 (by
            have h3 := mul_le_mul_of_nonneg_right hq1 (two_pos (-((l : ℤ) - 52))).le
            rw [← two_split, show (l : ℤ) + -((l : ℤ) - 52) = 52 by ring] at h3
            exact_mod_cast h3)
          exact_mod_cast this
        have ht : ¬ D * 2 ^ (l - 52) < B := by
          have h3 : 2 ^ 52 * 2 ^ (l - 52) ≤ D * 2 ^ (l - 52) := Nat.mul_le_mul_right _ hDl
          rw [← Nat.pow_add] at h3
          have h4 : B ≤ 2 ^ (52 + (l - 52)) := hBl _ (by omega)
          omega
        rw [if_neg ht]
        exact ⟨_, rounded_infinity hbig, by positivity, rfl⟩

end StayRTR
