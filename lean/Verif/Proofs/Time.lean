import Verif.Model.Time
import Verif.Spec.Time
import Verif.Proofs.Parse

/-!
Helper lemmas for Props/Time.lean.
-/

namespace StayRTR

open Spec

/-! ## The calendar -/

theorem daysToYear_eq (y : Nat) : (daysToYear y : Int) = 365 * y + ((y : Int) + 3) / 4 - (y + 99) / 100 + (y + 399) / 400 := by
  induction y with
  | zero => rfl
  | succ y ih =>
    unfold daysToYear leapDays
    split
    · omega
    · omega

theorem leapDays_eq (y : Nat) : leapDays y = if isLeap y then 1 else 0 := by
  unfold leapDays isLeap
  by_cases h : 400 ∣ y ∨ (4 ∣ y ∧ ¬ 100 ∣ y)
  · rw [if_pos h, if_pos (by simp only [decide_eq_true_eq]; omega)]
  · rw [if_neg h, if_neg (by simp only [decide_eq_true_eq]; omega)]

theorem daysSinceEpoch_eq (y : Nat) : ((daysSinceEpoch y : Int) * 86400 + absoluteToUnix) = (daysToYear y - daysToYear 1970 : Int) * 86400 := by
  rw [daysToYear_eq, daysToYear_eq]
  unfold daysSinceEpoch absoluteToUnix
  simp only
  omega

theorem daysOfMonths_eq (y : Nat) {m : Nat} (h1 : 1 ≤ m) (h12 : m ≤ 12) : daysOfMonths y (m - 1) = if isLeap y ∧ 3 ≤ m then daysBefore (m - 1) + 1 else daysBefore (m - 1) := by
  have hl := leapDays_eq y
  have hm : m = 1 ∨ m = 2 ∨ m = 3 ∨ m = 4 ∨ m = 5 ∨ m = 6 ∨ m = 7 ∨ m = 8 ∨ m = 9 ∨ m = 10 ∨ m = 11 ∨ m = 12 := by omega
  cases hy : isLeap y <;> rw [hy] at hl <;> simp only [Bool.false_eq_true, if_true, if_false] at hl <;>
    rcases hm with h | h | h | h | h | h | h | h | h | h | h | h <;> subst h <;> simp [daysOfMonths, monthLength, hl, daysBefore]

theorem daysIn_eq (y : Nat) {m : Nat} (h1 : 1 ≤ m) (h12 : m ≤ 12) : daysIn m y = monthLength y m := by
  have hl := leapDays_eq y
  have hm : m = 1 ∨ m = 2 ∨ m = 3 ∨ m = 4 ∨ m = 5 ∨ m = 6 ∨ m = 7 ∨ m = 8 ∨ m = 9 ∨ m = 10 ∨ m = 11 ∨ m = 12 := by omega
  cases hy : isLeap y <;> rw [hy] at hl <;> simp only [Bool.false_eq_true, if_true, if_false] at hl <;>
    rcases hm with h | h | h | h | h | h | h | h | h | h | h | h <;> subst h <;> simp [monthLength, hl, daysBefore, daysIn, hy]

theorem timeDate_eq (y m d h mi s n : Nat) (east : Int) (h1 : 1 ≤ m) (h12 : m ≤ 12) (hd : 1 ≤ d) :
    timeDate y m d h mi s n - east * 60 * 1000000000 = instant y m d h mi s n east := by
  unfold timeDate instant
  have he := daysSinceEpoch_eq y
  have hm := daysOfMonths_eq y h1 h12
  simp only
  rw [hm]
  generalize daysSinceEpoch y = a at *
  generalize daysBefore (m - 1) = b at *
  generalize absoluteToUnix = c at *
  have h70 := daysToYear_eq 1970
  generalize daysToYear y = e at *
  generalize daysToYear 1970 = f at *
  split <;> omega

/-! ## Digits -/

theorem timeDigit_cons (c : Char) (s : Str) : timeDigit (c :: s) 0 = isDec c := rfl

theorem timeDigit_succ (c : Char) (s : Str) (n : Nat) : timeDigit (c :: s) (n + 1) = timeDigit s n := rfl

theorem timeDigit_nil (n : Nat) : timeDigit [] n = false := rfl

theorem denotes_of {s : Str} (hne : s ≠ []) (h : s.all isDec = true) : Denotes s (decVal s) := by
  rw [denotes_iff, parseDec, if_pos ⟨hne, h⟩]

theorem of_denotes {s : Str} {n : Nat} (h : Denotes s n) : s ≠ [] ∧ s.all isDec = true ∧ decVal s = n := by
  rw [denotes_iff, parseDec] at h
  split at h
  · rename_i hs
    exact ⟨hs.1, hs.2, Option.some.inj h⟩
  · simp at h

/-- Two digits in front. -/
theorem getnum_fixed (s : Str) (n : Nat) (s' : Str) : getnum s true = some (n, s') ↔ ∃ p, s = p ++ s' ∧ DigitsOf 2 p n := by
  constructor
  · intro h
    match s, h with
    | [], h => simp [getnum, timeDigit_nil] at h
    | [a], h => simp [getnum, timeDigit_cons, timeDigit_succ, timeDigit_nil] at h
    | a :: b :: s, h =>
      unfold getnum at h
      simp only [timeDigit_cons, timeDigit_succ] at h
      cases ha : isDec a <;> simp [ha] at h
      cases hb : isDec b <;> simp [hb] at h
      obtain ⟨h1, h2⟩ := h
      subst h2
      refine ⟨[a, b], rfl, rfl, ?_⟩
      rw [← h1]
      exact denotes_of (by simp) (by simp [ha, hb])
  · rintro ⟨p, rfl, hl, hd⟩
    obtain ⟨_, ha, hv⟩ := of_denotes hd
    match p, hl with
    | [a, b], _ =>
      simp only [List.all_cons, List.all_nil, Bool.and_true, Bool.and_eq_true] at ha
      unfold getnum
      simp [timeDigit_cons, timeDigit_succ, ha.1, ha.2, hv]

/-- One or two digits in front. -/
theorem getnum_free (s : Str) (n : Nat) (s' : Str) : getnum s false = some (n, s') ↔ ∃ p, s = p ++ s' ∧ (DigitsOf 2 p n ∨ (DigitsOf 1 p n ∧ timeDigit s' 0 = false)) := by
  constructor
  · intro h
    match s, h with
    | [], h => simp [getnum, timeDigit_nil] at h
    | a :: s, h =>
      unfold getnum at h
      simp only [timeDigit_cons, timeDigit_succ] at h
      cases ha : isDec a <;> simp [ha] at h
      cases hb : timeDigit s 0 with
      | false =>
        simp [hb] at h
        obtain ⟨h1, h2⟩ := h
        subst h2
        refine ⟨[a], rfl, .inr ⟨⟨rfl, ?_⟩, hb⟩⟩
        rw [← h1]
        exact denotes_of (by simp) (by simp [ha])
      | true =>
        simp [hb] at h
        match s, hb, h with
        | b :: s, hb, ⟨h1, h2⟩ =>
          simp at h1 h2
          subst h2
          rw [timeDigit_cons] at hb
          refine ⟨[a, b], rfl, .inl ⟨rfl, ?_⟩⟩
          rw [← h1]
          exact denotes_of (by simp) (by simp [ha, hb])
  · rintro ⟨p, rfl, ⟨hl, hd⟩ | ⟨⟨hl, hd⟩, hn⟩⟩
    · obtain ⟨_, ha, hv⟩ := of_denotes hd
      match p, hl with
      | [a, b], _ =>
        simp only [List.all_cons, List.all_nil, Bool.and_true, Bool.and_eq_true] at ha
        unfold getnum
        simp [timeDigit_cons, timeDigit_succ, ha.1, ha.2, hv]
    · obtain ⟨_, ha, hv⟩ := of_denotes hd
      match p, hl with
      | [a], _ =>
        simp only [List.all_cons, List.all_nil, Bool.and_true] at ha
        unfold getnum
        simp [timeDigit_cons, timeDigit_succ, ha, hn, hv]

theorem skipChar_iff (c : Char) (s s' : Str) : skipChar c s = some s' ↔ s = c :: s' := by
  cases s with
  | nil => simp [skipChar]
  | cons d s =>
    simp only [skipChar, List.cons.injEq]
    by_cases h : d = c
    · simp [h]
    · simp [h]

theorem parseLongYear_iff (s : Str) (n : Nat) (s' : Str) : parseLongYear s = some (n, s') ↔ ∃ p, s = p ++ s' ∧ DigitsOf 4 p n := by
  unfold parseLongYear
  constructor
  · intro h
    split at h
    · simp at h
    · rename_i hc
      simp only [not_or, Nat.not_lt] at hc
      rw [Option.map_eq_some_iff] at h
      obtain ⟨y, hy, he⟩ := h
      simp only [Prod.mk.injEq] at he
      obtain ⟨rfl, rfl⟩ := he
      unfold timeUint at hy
      split at hy
      · rename_i ha
        refine ⟨s.take 4, (List.take_append_drop 4 s).symm, by simp [hc.1], ?_⟩
        rw [← Option.some.inj hy]
        refine denotes_of ?_ ha
        intro h0
        have := congrArg List.length h0
        rw [List.length_take, List.length_nil] at this
        omega
      · simp at hy
  · rintro ⟨p, rfl, hl, hd⟩
    obtain ⟨_, ha, hv⟩ := of_denotes hd
    match p, hl with
    | [a, b, c, d], _ =>
      have h0 : timeDigit ([a, b, c, d] ++ s') 0 = true := by
        simp only [List.all_cons, Bool.and_eq_true] at ha
        exact ha.1
      rw [if_neg (by rw [h0]; simp)]
      simp only [List.cons_append, List.nil_append, List.take_succ_cons, List.take_zero, List.drop_succ_cons, List.drop_zero]
      rw [timeUint, if_pos ha, hv]
      rfl

theorem decVal_append (a b : Str) : decVal (a ++ b) = decVal a * 10 ^ b.length + decVal b := by
  induction b using List.reverseRecOn with
  | nil => simp [decVal]
  | append_singleton b c ih =>
    rw [← List.append_assoc, decVal_snoc, ih, decVal_snoc, List.length_append, List.length_singleton, Nat.pow_succ, Nat.add_mul, Nat.mul_assoc, Nat.add_assoc]

theorem decVal_lt {s : Str} (h : s.all isDec = true) : decVal s < 10 ^ s.length := by
  induction s using List.reverseRecOn with
  | nil => simp [decVal]
  | append_singleton s c ih =>
    simp only [List.all_append, List.all_cons, List.all_nil, Bool.and_true, Bool.and_eq_true] at h
    have hc : c.toNat ≤ 57 := by
      have := h.2
      simp only [isDec, Bool.and_eq_true, decide_eq_true_eq] at this
      exact this.2
    have := ih h.1
    rw [decVal_snoc, List.length_append, List.length_singleton, Nat.pow_succ]
    omega

/-! ## Fractions -/

theorem parseNanoseconds_eq {s : Str} (h : s.all isDec = true) : parseNanoseconds s = decVal s * 10 ^ 9 / 10 ^ s.length := by
  unfold parseNanoseconds
  simp only
  have hs : decVal s = decVal (s.take 9) * 10 ^ (s.drop 9).length + decVal (s.drop 9) := by rw [← decVal_append, List.take_append_drop]
  have ha : (s.take 9).all isDec = true ∧ (s.drop 9).all isDec = true := by
    rw [← List.take_append_drop 9 s, List.all_append, Bool.and_eq_true] at h
    exact h
  have hb := decVal_lt ha.2
  rw [timeUint, if_pos ha.1, Option.getD_some]
  by_cases hl : s.length ≤ 9
  · rw [List.take_of_length_le hl]
    have : 10 ^ 9 = 10 ^ (9 - s.length) * 10 ^ s.length := by rw [← Nat.pow_add]; congr 1; omega
    rw [this, ← Nat.mul_assoc, Nat.mul_div_cancel _ (Nat.pow_pos (by decide))]
  · have h9 : (s.take 9).length = 9 := by rw [List.length_take]; omega
    have hlen : s.length = (s.drop 9).length + 9 := by rw [List.length_drop]; omega
    rw [h9, hs, hlen, Nat.pow_add, Nat.mul_div_mul_right _ _ (by decide), Nat.sub_self, Nat.pow_zero, Nat.mul_one,
      Nat.add_comm, Nat.add_mul_div_right _ _ (Nat.pow_pos (by decide)), Nat.div_eq_of_lt hb, Nat.zero_add]

theorem leadingDigits_spec (s : Str) : s = leadingDigits s ++ s.drop (leadingDigits s).length ∧ (leadingDigits s).all isDec = true := by
  constructor
  · unfold leadingDigits
    conv => lhs; rw [← List.takeWhile_append_dropWhile (p := isDec) (l := s)]
    congr 1
    conv => rhs; arg 2; rw [← List.takeWhile_append_dropWhile (p := isDec) (l := s)]
    rw [List.drop_left]
  · exact List.all_takeWhile

theorem leadingDigits_append {p s : Str} (hp : p.all isDec = true) (hs : timeDigit s 0 = false) : leadingDigits (p ++ s) = p := by
  unfold leadingDigits
  rw [List.takeWhile_append_of_pos (by simpa using hp)]
  cases s with
  | nil => simp
  | cons c s =>
    rw [timeDigit_cons] at hs
    simp [hs]

theorem leadingDigits_ne {s : Str} (h : timeDigit s 0 = true) : leadingDigits s ≠ [] := by
  cases s with
  | nil => simp [timeDigit_nil] at h
  | cons c s =>
    rw [timeDigit_cons] at h
    simp [leadingDigits, h]

theorem fraction_some (d : Dialect) {c : Char} (hc : d.point c) {s : Str} (h : timeDigit s 0 = true) :
    FractionText d (c :: leadingDigits s) (parseNanoseconds (leadingDigits s)) := by
  obtain ⟨_, ha⟩ := leadingDigits_spec s
  rw [parseNanoseconds_eq ha]
  exact .digits c _ _ hc (denotes_of (leadingDigits_ne h) ha)

theorem slowFraction_sound {s s' : Str} {n : Nat} (h : slowFraction s = (n, s')) : ∃ f, s = f ++ s' ∧ FractionText .go f n := by
  unfold slowFraction at h
  split at h
  · rename_i c s0
    split at h
    · rename_i hc
      simp only [Prod.mk.injEq] at h
      obtain ⟨rfl, rfl⟩ := h
      refine ⟨c :: leadingDigits s0, ?_, fraction_some _ hc.1 hc.2⟩
      rw [List.cons_append, ← (leadingDigits_spec s0).1]
    · simp only [Prod.mk.injEq] at h
      obtain ⟨rfl, rfl⟩ := h
      exact ⟨[], rfl, .none⟩
  · simp only [Prod.mk.injEq] at h
    obtain ⟨rfl, rfl⟩ := h
    exact ⟨[], rfl, .none⟩

theorem fastFraction_sound {s s' : Str} {n : Nat} (h : fastFraction s = (n, s')) : ∃ f, s = f ++ s' ∧ FractionText .plain f n := by
  unfold fastFraction at h
  split at h
  · rename_i s0
    split at h
    · rename_i hc
      simp only [Prod.mk.injEq] at h
      obtain ⟨rfl, rfl⟩ := h
      refine ⟨'.' :: leadingDigits s0, ?_, fraction_some .plain rfl hc⟩
      rw [List.cons_append, ← (leadingDigits_spec s0).1]
    · simp only [Prod.mk.injEq] at h
      obtain ⟨rfl, rfl⟩ := h
      exact ⟨[], rfl, .none⟩
  · simp only [Prod.mk.injEq] at h
    obtain ⟨rfl, rfl⟩ := h
    exact ⟨[], rfl, .none⟩

theorem slowFraction_complete {f z : Str} {n : Nat} (hf : FractionText .go f n) {c : Char} {z' : Str} (hz : z = c :: z') (h1 : c ≠ '.') (h2 : c ≠ ',') (h3 : isDec c = false) :
    slowFraction (f ++ z) = (n, z) := by
  cases hf with
  | none =>
    subst hz
    simp [slowFraction, h1, h2]
  | digits a p v ha hp =>
    obtain ⟨hne, hd, hv⟩ := of_denotes hp
    have hz0 : timeDigit z 0 = false := by rw [hz, timeDigit_cons, h3]
    have hp0 : timeDigit (p ++ z) 0 = true := by
      cases p with
      | nil => exact absurd rfl hne
      | cons b p =>
        rw [List.cons_append, timeDigit_cons]
        simp only [List.all_cons, Bool.and_eq_true] at hd
        exact hd.1
    rw [List.cons_append, slowFraction, if_pos ⟨ha, hp0⟩, leadingDigits_append hd hz0, parseNanoseconds_eq hd, hv, List.drop_left]

/-! ## Offsets -/

theorem parseZone_iff (s : Str) (off : Int) : parseZone s = some (off, []) ↔ ∃ e, OffsetText .go s e ∧ off = e * 60 := by
  constructor
  · intro h
    unfold parseZone at h
    split at h
    · rename_i h0
      cases s with
      | nil => simp at h0
      | cons c s =>
        simp only [List.getElem?_cons_zero, Option.some.injEq] at h0
        simp only [List.drop_succ_cons, List.drop_zero, Option.some.injEq, Prod.mk.injEq] at h
        obtain ⟨rfl, rfl⟩ := h
        exact ⟨0, .utc c h0, rfl⟩
    · split at h
      · simp at h
      · rename_i hlen
        split at h
        · simp at h
        · rename_i h3
          match s, hlen with
          | sg :: a :: b :: c :: d :: e :: s, _ =>
            simp only [List.getElem?_cons_succ, List.getElem?_cons_zero, ne_eq, Option.some.injEq, Decidable.not_not] at h3
            subst h3
            simp only [List.drop_succ_cons, List.drop_zero, List.take_succ_cons, List.take_zero] at h
            cases g1 : getnum [a, b] true with
            | none => rw [g1] at h; simp at h
            | some x1 =>
            obtain ⟨hr, r1⟩ := x1
            cases g2 : getnum [d, e] true with
            | none => rw [g1, g2] at h; simp at h
            | some x2 =>
            obtain ⟨mm, r2⟩ := x2
            rw [g1, g2] at h
            obtain ⟨p, hp, hpd⟩ := (getnum_fixed _ _ _).mp g1
            obtain ⟨q, hq, hqd⟩ := (getnum_fixed _ _ _).mp g2
            have hp' : p = [a, b] ∧ r1 = [] := by
              have h2 := congrArg List.length hp
              rw [List.length_append, hpd.1] at h2
              have : r1 = [] := by simpa using h2
              subst this
              exact ⟨by simpa using hp.symm, rfl⟩
            have hq' : q = [d, e] ∧ r2 = [] := by
              have h2 := congrArg List.length hq
              rw [List.length_append, hqd.1] at h2
              have : r2 = [] := by simpa using h2
              subst this
              exact ⟨by simpa using hq.symm, rfl⟩
            simp only [Option.bind_eq_bind, Option.bind_some, List.getElem?_cons_zero, Option.some.injEq] at h
            by_cases c1 : hr > 24
            · rw [if_pos c1] at h; simp at h
            rw [if_neg c1] at h
            by_cases c2 : mm > 60
            · rw [if_pos c2] at h; simp at h
            rw [if_neg c2] at h
            by_cases s1 : sg = '+'
            · rw [if_pos s1] at h
              simp only [Option.some.injEq, Prod.mk.injEq] at h
              obtain ⟨rfl, rfl⟩ := h
              subst s1
              rw [hp'.1] at hpd
              rw [hq'.1] at hqd
              exact ⟨_, .east _ _ _ _ hpd hqd (by simp only [Dialect.go]; omega) (by simp only [Dialect.go]; omega), by push_cast; omega⟩
            rw [if_neg s1] at h
            by_cases s2 : sg = '-'
            · rw [if_pos s2] at h
              simp only [Option.some.injEq, Prod.mk.injEq] at h
              obtain ⟨rfl, rfl⟩ := h
              subst s2
              rw [hp'.1] at hpd
              rw [hq'.1] at hqd
              exact ⟨_, .west _ _ _ _ hpd hqd (by simp only [Dialect.go]; omega) (by simp only [Dialect.go]; omega), by push_cast; omega⟩
            · rw [if_neg s2] at h; simp at h
          | [], hl | [_], hl | [_, _], hl | [_, _, _], hl | [_, _, _, _], hl | [_, _, _, _, _], hl => simp at hl
  · rintro ⟨e, hz, rfl⟩
    cases hz with
    | utc c h => simp only [Dialect.go] at h; subst h; rfl
    | east p q a b hp hq ha hb =>
      match p, hp.1, q, hq.1 with
      | [p1, p2], _, [q1, q2], _ =>
        have g1 := (getnum_fixed [p1, p2] a []).mpr ⟨_, by simp, hp⟩
        have g2 := (getnum_fixed [q1, q2] b []).mpr ⟨_, by simp, hq⟩
        simp only [Dialect.go] at ha hb
        simp only [parseZone, List.getElem?_cons_zero, List.cons_append, List.nil_append, List.getElem?_cons_succ, List.drop_succ_cons, List.drop_zero, List.take_succ_cons, List.take_zero, g1, g2]
        rw [if_neg (by decide), if_neg (by simp), if_neg (by simp)]
        simp only [Option.bind_eq_bind, Option.bind_some]
        rw [if_neg (by omega), if_neg (by omega), if_pos trivial]
        simp only [Option.some.injEq, Prod.mk.injEq, and_true]
        push_cast
        omega
    | west p q a b hp hq ha hb =>
      match p, hp.1, q, hq.1 with
      | [p1, p2], _, [q1, q2], _ =>
        have g1 := (getnum_fixed [p1, p2] a []).mpr ⟨_, by simp, hp⟩
        have g2 := (getnum_fixed [q1, q2] b []).mpr ⟨_, by simp, hq⟩
        simp only [Dialect.go] at ha hb
        simp only [parseZone, List.getElem?_cons_zero, List.cons_append, List.nil_append, List.getElem?_cons_succ, List.drop_succ_cons, List.drop_zero, List.take_succ_cons, List.take_zero, g1, g2]
        rw [if_neg (by decide), if_neg (by simp), if_neg (by simp)]
        simp only [Option.bind_eq_bind, Option.bind_some]
        rw [if_neg (by omega), if_neg (by omega), if_neg (by decide), if_pos trivial]
        simp only [Option.some.injEq, Prod.mk.injEq, and_true]
        push_cast
        omega

end StayRTR
