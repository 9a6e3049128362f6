import Verif.Model.Clock
import Verif.Proofs.Json
import Verif.Props.Time

/-!
# C145: the age of a file in 64 bits
-/

namespace StayRTR

open Spec

/-- (Spec.) The instant that a `time.Time` stands for, in nanoseconds since 1970. -/
def GoTime.instant (t : GoTime) : Int := (t.sec.toInt - 62135596800) * 1000000000 + t.nsec

/-- (Spec.) A time between the years -146 billion and 146 billion; all texts of RFC 3339 (years 0 to 9999) and all clocks are. -/
def GoTime.Plain (t : GoTime) : Prop := -2 ^ 62 ≤ t.sec.toInt ∧ t.sec.toInt < 2 ^ 62 ∧ 0 ≤ t.nsec ∧ t.nsec < 1000000000

theorem bmod64 {x : Int} (h1 : -2 ^ 63 ≤ x) (h2 : x < 2 ^ 63) : x.bmod (2 ^ 64) = x := Int.bmod_eq_of_le (by omega) (by omega)

theorem add64 {a b : BitVec 64} (h1 : -2 ^ 63 ≤ a.toInt + b.toInt) (h2 : a.toInt + b.toInt < 2 ^ 63) : (a + b).toInt = a.toInt + b.toInt := by
  rw [BitVec.toInt_add]; exact bmod64 h1 h2

theorem sub64 {a b : BitVec 64} (h1 : -2 ^ 63 ≤ a.toInt - b.toInt) (h2 : a.toInt - b.toInt < 2 ^ 63) : (a - b).toInt = a.toInt - b.toInt := by
  rw [BitVec.toInt_sub]; exact bmod64 h1 h2

theorem range64 (a : BitVec 64) : -2 ^ 63 ≤ a.toInt ∧ a.toInt < 2 ^ 63 := by
  have h1 := BitVec.le_toInt a
  have h2 := BitVec.toInt_lt (x := a)
  simp only [Nat.reduceSub] at h1 h2
  exact ⟨h1, h2⟩

theorem GoTime.addSec_toInt {t : GoTime} {d : BitVec 64} (h1 : -2 ^ 63 ≤ t.sec.toInt + d.toInt) (h2 : t.sec.toInt + d.toInt < 2 ^ 63) : (t.addSec d).toInt = t.sec.toInt + d.toInt := by
  unfold GoTime.addSec
  have hs : (t.sec + d).toInt = t.sec.toInt + d.toInt := add64 h1 h2
  have : (t.sec.slt (t.sec + d)) = (BitVec.slt 0#64 d) := by
    rw [Bool.eq_iff_iff, BitVec.slt_iff_toInt_lt, BitVec.slt_iff_toInt_lt, hs, BitVec.toInt_zero]
    omega
  simp only [this, if_true, hs]

theorem sdiv_billion (d : BitVec 64) : (d.sdiv 1000000000#64).toInt = d.toInt.tdiv 1000000000 := by
  rw [BitVec.toInt_sdiv]
  have := range64 d
  have h1 : (1000000000#64).toInt = 1000000000 := by decide
  rw [h1]
  apply bmod64
  · rcases Int.le_total 0 d.toInt with h | h
    · have := Int.tdiv_nonneg h (b := 1000000000) (by decide); omega
    · have e : d.toInt = -(-d.toInt) := by omega
      rw [e, Int.neg_tdiv, Int.tdiv_eq_ediv_of_nonneg (by omega)]; omega
  · rcases Int.le_total 0 d.toInt with h | h
    · rw [Int.tdiv_eq_ediv_of_nonneg h]; omega
    · have e : d.toInt = -(-d.toInt) := by omega
      rw [e, Int.neg_tdiv, Int.tdiv_eq_ediv_of_nonneg (by omega)]; omega

theorem srem_billion (d : BitVec 64) : (d.srem 1000000000#64).toInt = d.toInt.tmod 1000000000 := by
  rw [BitVec.toInt_srem]; congr 1

theorem tdiv_billion (x : Int) : x = 1000000000 * x.tdiv 1000000000 + x.tmod 1000000000 ∧ -1000000000 < x.tmod 1000000000 ∧ x.tmod 1000000000 < 1000000000 := by
  refine ⟨(Int.mul_tdiv_add_tmod x 1000000000).symm, ?_, ?_⟩
  · rcases Int.le_total 0 x with h | h
    · have := Int.tmod_nonneg (b := 1000000000) h; omega
    · have e : x = -(-x) := by omega
      rw [e, Int.neg_tmod, Int.tmod_eq_emod_of_nonneg (by omega)]; omega
  · rcases Int.le_total 0 x with h | h
    · rw [Int.tmod_eq_emod_of_nonneg h]; omega
    · have e : x = -(-x) := by omega
      rw [e, Int.neg_tmod, Int.tmod_eq_emod_of_nonneg (by omega)]; omega

/-- Adding is exact. -/
theorem GoTime.add_instant {t : GoTime} (h : t.Plain) (d : BitVec 64) : (t.add d).instant = t.instant + d.toInt ∧ 0 ≤ (t.add d).nsec ∧ (t.add d).nsec < 1000000000 := by
  obtain ⟨h1, h2, h3, h4⟩ := h
  have hd := range64 d
  obtain ⟨e, m1, m2⟩ := tdiv_billion d.toInt
  have q1 := sdiv_billion d
  have q2 := srem_billion d
  have one : (1#64).toInt = 1 := by decide
  unfold GoTime.add GoTime.instant
  simp only [q2]
  split
  · have a : (d.sdiv 1000000000#64 + 1#64).toInt = d.toInt.tdiv 1000000000 + 1 := by rw [add64, q1, one] <;> rw [q1, one] <;> omega
    rw [GoTime.addSec_toInt (by rw [a]; omega) (by rw [a]; omega), a]
    dsimp only
    omega
  · split
    · have a : (d.sdiv 1000000000#64 - 1#64).toInt = d.toInt.tdiv 1000000000 - 1 := by rw [sub64, q1, one] <;> rw [q1, one] <;> omega
      rw [GoTime.addSec_toInt (by rw [a]; omega) (by rw [a]; omega), a]
      dsimp only
      omega
    · rw [GoTime.addSec_toInt (by rw [q1]; omega) (by rw [q1]; omega), q1]
      dsimp only
      omega

theorem GoTime.after_iff {t u : GoTime} (ht : 0 ≤ t.nsec ∧ t.nsec < 1000000000) (hu : 0 ≤ u.nsec ∧ u.nsec < 1000000000) : t.after u = true ↔ t.instant > u.instant := by
  unfold GoTime.after GoTime.instant
  rw [Bool.or_eq_true, Bool.and_eq_true, BitVec.slt_iff_toInt_lt, beq_iff_eq, decide_eq_true_eq, ← BitVec.toInt_inj]
  omega

theorem GoTime.equal_iff {t u : GoTime} (ht : 0 ≤ t.nsec ∧ t.nsec < 1000000000) (hu : 0 ≤ u.nsec ∧ u.nsec < 1000000000) : t.equal u = true ↔ t.instant = u.instant := by
  unfold GoTime.equal GoTime.instant
  rw [Bool.and_eq_true, beq_iff_eq, decide_eq_true_eq, ← BitVec.toInt_inj]
  omega

theorem goDay_toInt : goDay.toInt = 86400 * 1000000000 := by decide

/-- The difference is the true one, or cut to what fits. -/
theorem GoTime.sub_toInt {t u : GoTime} (ht : t.Plain) (hu : u.Plain) : (t.sub u).toInt = max (-2 ^ 63) (min (t.instant - u.instant) (2 ^ 63 - 1)) := by
  obtain ⟨a1, a2, a3, a4⟩ := ht
  have hu' := hu
  obtain ⟨b1, b2, b3, b4⟩ := hu
  have hs : (t.sec - u.sec).toInt = t.sec.toInt - u.sec.toInt := sub64 (by omega) (by omega)
  have hb : (1000000000#64).toInt = 1000000000 := by decide
  have hn : (BitVec.ofInt 64 (t.nsec - u.nsec)).toInt = t.nsec - u.nsec := by
    rw [BitVec.toInt_ofInt]; exact bmod64 (by omega) (by omega)
  have hd : ((t.sec - u.sec) * 1000000000#64 + BitVec.ofInt 64 (t.nsec - u.nsec)).toInt = (t.instant - u.instant).bmod (2 ^ 64) := by
    rw [BitVec.toInt_add, BitVec.toInt_mul, hs, hb, hn, Int.bmod_add_bmod]
    congr 1
    unfold GoTime.instant
    omega
  unfold GoTime.sub
  simp only
  generalize hD : (t.sec - u.sec) * 1000000000#64 + BitVec.ofInt 64 (t.nsec - u.nsec) = d at hd
  have add := GoTime.add_instant hu' d
  have min64 : (BitVec.intMin 64).toInt = -2 ^ 63 := by decide
  have max64 : (BitVec.intMax 64).toInt = 2 ^ 63 - 1 := by decide
  have rd := range64 d
  split
  · next he =>
    rw [GoTime.equal_iff add.2 ⟨a3, a4⟩, add.1] at he
    omega
  · next he =>
    rw [GoTime.equal_iff add.2 ⟨a3, a4⟩, add.1] at he
    have hout : ¬ (-2 ^ 63 ≤ t.instant - u.instant ∧ t.instant - u.instant < 2 ^ 63) := by
      rintro ⟨c1, c2⟩
      rw [bmod64 c1 c2] at hd
      omega
    split
    · next ha =>
      rw [GoTime.after_iff ⟨b3, b4⟩ ⟨a3, a4⟩] at ha
      rw [min64]; omega
    · next ha =>
      rw [GoTime.after_iff ⟨b3, b4⟩ ⟨a3, a4⟩] at ha
      rw [max64]; omega

theorem daysToYear_le (y : Nat) : daysToYear y ≤ 366 * y := by
  induction y with
  | zero => exact Nat.le_refl _
  | succ y ih =>
    have : leapDays y ≤ 1 := by unfold leapDays; split <;> omega
    show daysToYear y + 365 + leapDays y ≤ _
    omega

theorem daysOfMonths_le (y n : Nat) : daysOfMonths y n ≤ 31 * n := by
  induction n with
  | zero => exact Nat.le_refl _
  | succ n ih =>
    have : leapDays y ≤ 1 := by unfold leapDays; split <;> omega
    have : monthLength y (n + 1) ≤ 31 := by unfold monthLength; split <;> omega
    show daysOfMonths y n + monthLength y (n + 1) ≤ _
    omega

/-- The texts that are read denote times of the years 0 to 9999, give or take a day. -/
theorem timeText_range {s : Str} {t : Int} (h : TimeText .go s t) : -2 ^ 70 ≤ t ∧ t < 2 ^ 70 := by
  obtain ⟨Y, M, D, h, m, s, f, z, tee, year, month, day, hour, minute, second, nanos, east, hY, hM, hD, hh, hm, hs, hf, hz, ht, m1, m2, d1, d2, h1, h2, h3⟩ := h
  have y1 : year < 10 ^ 4 := hY.1 ▸ denotes_lt hY.2
  have l1 := daysToYear_le year
  have l2 := daysOfMonths_le year (month - 1)
  have l3 := daysToYear_le 1970
  have l4 : day < 10 ^ 2 := hD.1 ▸ denotes_lt hD.2
  have l5 : second ≤ 59 := h3
  have l6 : nanos < 1000000000 := by
    cases hf with
    | none => decide
    | digits c p v hc hv =>
      have := denotes_lt hv
      rw [Nat.div_lt_iff_lt_mul (Nat.pow_pos (by decide))]
      have e : (10 : Nat) ^ 9 = 1000000000 := by decide
      rw [e, Nat.mul_comm]
      exact Nat.mul_lt_mul_of_pos_left this (by decide)
  have l7 : -1600 ≤ east ∧ east ≤ 1600 := by
    have g1 : Dialect.go.maxOffset.1 = 24 := rfl
    have g2 : Dialect.go.maxOffset.2 = 60 := rfl
    cases hz with
    | utc => decide
    | east p q a b hp hq ha hb => rw [g1] at ha; rw [g2] at hb; omega
    | west p q a b hp hq ha hb => rw [g1] at ha; rw [g2] at hb; omega
  unfold instant
  omega

theorem goParse_spec (s : Str) : timeParse s = (goParse s).map GoTime.instant ∧ ∀ b, goParse s = some b → b.Plain := by
  unfold goParse
  cases hp : timeParse s with
  | none => exact ⟨rfl, nofun⟩
  | some t =>
    have r := timeText_range ((C129_exact s t).1 hp)
    have hb : (BitVec.ofInt 64 (t / 1000000000 + 62135596800)).toInt = t / 1000000000 + 62135596800 := by
      rw [BitVec.toInt_ofInt]; exact bmod64 (by omega) (by omega)
    constructor
    · simp only [Option.map_some, Option.some.injEq]
      unfold GoTime.instant
      simp only [hb]
      omega
    · intro b hb'
      simp only [Option.map_some, Option.some.injEq] at hb'
      subst hb'
      unfold GoTime.Plain
      simp only [hb]
      omega

/-- **C145**, partial: a file passes the check of its age in 64 bits exactly if it passes it with exact times, its `generated` time being below the year 292 billion. Missing: such times, refuted below. -/
theorem C145_age_partial (e : Env) (hp : e.parseTime = timeParse) (now : GoTime) (hn : now.Plain) (text : Str) (generated : Option (BitVec 64)) (hg : ∀ g, generated = some g → g.toInt < 2 ^ 63 - 62135596800) (n : Int) :
    ageCheckGo e.checktime now text generated = ageCheck e now.instant ⟨n, text, generated.map BitVec.toInt⟩ := by
  unfold ageCheckGo ageCheck buildTime
  cases e.checktime with
  | false => rfl
  | true =>
    simp only [if_true]
    cases generated with
    | none =>
      simp only [Option.map_none, hp, (goParse_spec text).1]
      cases hb : goParse text with
      | none => rfl
      | some b =>
        have pb := (goParse_spec text).2 b hb
        have ha := GoTime.add_instant pb goDay
        simp only [Option.map_some]
        have key : now.after (b.add goDay) = true ↔ now.instant > b.instant + day := by rw [GoTime.after_iff hn.2.2 ha.2, ha.1, goDay_toInt]; rfl
        simp only [key]
    | some g =>
      simp only [Option.map_some]
      have hg := hg g rfl
      have rg := range64 g
      have hi : unixToInternal.toInt = 62135596800 := by decide
      have hs : (goUnix g).sec.toInt = g.toInt + 62135596800 := by
        show (g + unixToInternal).toInt = _
        rw [add64 (by rw [hi]; omega) (by rw [hi]; omega), hi]
      have key : (now.after ((goUnix g).add goDay) = true) = (now.instant > g.toInt * 1000000000 + day) := by
        have e1 : goDay.sdiv 1000000000#64 = 86400#64 := by decide
        have e2 : (goDay.srem 1000000000#64).toInt = 0 := by decide
        have hadd : (goUnix g).add goDay = ⟨(goUnix g).addSec 86400#64, 0⟩ := by
          unfold GoTime.add
          simp only [e1, e2]
          rfl
        have e3 : (86400#64).toInt = 86400 := by decide
        rw [hadd]
        apply propext
        by_cases hbig : (goUnix g).sec.toInt + 86400 < 2 ^ 63
        · have := GoTime.addSec_toInt (t := goUnix g) (d := 86400#64) (by rw [hs, e3]; omega) (by rw [e3]; omega)
          rw [GoTime.after_iff hn.2.2 ⟨Int.le_refl 0, (by decide : (0 : Int) < 1000000000)⟩]
          unfold GoTime.instant
          simp only [this, hs, e3, day]
          omega
        · have hsum : ((goUnix g).sec + 86400#64).toInt = (goUnix g).sec.toInt + 86400 - 2 ^ 64 := by
            rw [BitVec.toInt_add, e3]
            rw [← Int.sub_bmod_right]
            apply bmod64 <;> rw [hs] at * <;> omega
          have : (goUnix g).addSec 86400#64 = BitVec.intMax 64 := by
            unfold GoTime.addSec
            have c1 : (goUnix g).sec.slt ((goUnix g).sec + 86400#64) = false := by
              rw [← Bool.not_eq_true, BitVec.slt_iff_toInt_lt, hsum]; omega
            have c2 : BitVec.slt 0#64 86400#64 = true := by decide
            simp only [c1, c2]
            rfl
          rw [this, GoTime.after_iff hn.2.2 ⟨Int.le_refl 0, (by decide : (0 : Int) < 1000000000)⟩]
          have max64 : (BitVec.intMax 64).toInt = 2 ^ 63 - 1 := by decide
          have := hn.2.1
          have := hn.2.2
          unfold GoTime.instant
          simp only [max64, day]
          rw [hs] at hbig
          omega
      simp only [key]

/-- **C145.** What decides whether old data are dropped is exact in 64 bits: the differences that do not fit are cut, but still more or less than a day. -/
theorem C145_drop (e : Env) (hp : e.parseTime = timeParse) (now : GoTime) (hn : now.Plain) (s : UState) :
    dropsGo now s.exported.metadata.buildtime = true ↔ ∃ b, exportedBuildTime e s = some b ∧ now.instant - b > day := by
  unfold dropsGo exportedBuildTime
  rw [hp, (goParse_spec _).1]
  cases hb : goParse s.exported.metadata.buildtime with
  | none => simp
  | some b =>
    have pb := (goParse_spec _).2 b hb
    have hz : b.isZero = true ↔ b.instant = zeroTime := by
      unfold GoTime.isZero GoTime.instant zeroTime
      rw [Bool.and_eq_true, beq_iff_eq, decide_eq_true_eq, ← BitVec.toInt_inj, BitVec.toInt_zero]
      have := pb.2.2
      omega
    have hsub : goDay.slt (now.sub b) = true ↔ now.instant - b.instant > day := by
      rw [BitVec.slt_iff_toInt_lt, GoTime.sub_toInt hn pb, goDay_toInt]
      unfold day
      omega
    simp only [Option.map_some]
    rw [Bool.and_eq_true, hsub, Bool.not_eq_true', ← Bool.not_eq_true, hz]
    split
    · next h => simp [h]
    · next h => simp [h]

/-- The code does not have the property: a file that says it was generated at the end of the year 292,277,026,596 or later is too old, at any time of the clock. -/
theorem C145_far_false (text : Str) (now : GoTime) (hn : now.Plain) :
    ageCheckGo true now text (some 9223372036854775807#64) = .tooOld := by
  have e1 : (goUnix 9223372036854775807#64).add goDay = ⟨9223372098990459007#64 + 0#64, 0⟩ := by decide +kernel
  unfold ageCheckGo
  have h : now.after ((goUnix 9223372036854775807#64).add goDay) = true := by
    rw [e1, GoTime.after_iff hn.2.2 ⟨Int.le_refl 0, (by decide : (0 : Int) < 1000000000)⟩]
    have e2 : (9223372098990459007#64 + 0#64).toInt = 9223372098990459007 - 2 ^ 64 := by decide
    have := hn.1
    have := hn.2.2
    unfold GoTime.instant
    simp only [e2]
    omega
  simp [h]

/-- The end of 2026, as a `time.Time`. -/
example : (GoTime.mk 63934876799#64 999999999).Plain := by unfold GoTime.Plain; decide

/-- A file generated at noon of 16 November 2026, checked a day and a nanosecond later. -/
example : ageCheckGo true ⟨1794916800#64 + unixToInternal, 1⟩ [] (some 1794830400#64) = .tooOld ∧
    ageCheckGo true ⟨1794916800#64 + unixToInternal, 0⟩ [] (some 1794830400#64) = .fine := by decide +kernel

/-- A build time of the year 1700, more than 292 years ago, whose distance does not fit 64 bits; one of 23 hours ago; the zero time. -/
example : dropsGo ⟨1794916800#64 + unixToInternal, 1⟩ "1700-01-01T00:00:00Z".toList = true ∧ dropsGo ⟨1794916800#64 + unixToInternal, 1⟩ "2026-11-16T13:00:00Z".toList = false ∧
    dropsGo ⟨1794916800#64 + unixToInternal, 1⟩ "0001-01-01T00:00:00Z".toList = false := by decide +kernel

end StayRTR
