import Verif.Props.Flags

/-!
# C157, C158: the texts that flags for numbers and switches read

All of them, and what they stand for: numbers are written as integer literals of Go, in four bases and with underscores, switches in twelve ways.
-/

namespace StayRTR
open Spec

/-- A digit of a base and its value. -/
inductive Spec.DigitOf (base : Nat) : Char → Nat → Prop
  | decimal {c : Char} {d : Nat} (h : digit c = some d) (hd : d < base) : DigitOf base c d
  | small {c : Char} {d : Nat} (h : (c, d) ∈ [('a', 10), ('b', 11), ('c', 12), ('d', 13), ('e', 14), ('f', 15)]) (hd : d < base) : DigitOf base c d
  | capital {c : Char} {d : Nat} (h : (c, d) ∈ [('A', 10), ('B', 11), ('C', 12), ('D', 13), ('E', 14), ('F', 15)]) (hd : d < base) : DigitOf base c d

/-- Further digits, each perhaps with an underscore before it: with those before worth `x`, the number is `n`. -/
inductive Spec.Further (base : Nat) : Nat → Str → Nat → Prop
  | done (x : Nat) : Further base x [] x
  | digit {x n d : Nat} {c : Char} {s : Str} (hc : DigitOf base c d) (h : Further base (x * base + d) s n) : Further base x (c :: s) n
  | underscore {x n d : Nat} {c : Char} {s : Str} (hc : DigitOf base c d) (h : Further base (x * base + d) s n) : Further base x ('_' :: c :: s) n

/-- Integer literals of Go. -/
inductive Spec.Literal : Str → Nat → Prop
  | decimal {c : Char} {d n : Nat} {s : Str} (hc : digit c = some d) (hd : d ≠ 0) (h : Further 10 d s n) : Literal (c :: s) n
  | octal {s : Str} {n : Nat} (h : Further 8 0 s n) : Literal ('0' :: s) n
  | based {c : Char} {b n : Nat} {s : Str} (hc : (c, b) ∈ [('b', 2), ('B', 2), ('o', 8), ('O', 8), ('x', 16), ('X', 16)]) (hs : s ≠ []) (h : Further b 0 s n) : Literal ('0' :: c :: s) n

/-- A literal with or without a sign, if it fits 64 bits. -/
def Spec.SignedLiteral (s : Str) (n : Int) : Prop :=
  ∃ (t : Str) (m : Nat), Literal t m ∧ ((s = '-' :: t ∧ n = -(m : Int) ∧ m ≤ 2 ^ 63) ∨ ((s = t ∨ s = '+' :: t) ∧ n = m ∧ m < 2 ^ 63))

theorem lower_cases (c : Char) : lowerChar c = c ∨ ('A'.toNat ≤ c.toNat ∧ c.toNat ≤ 'Z'.toNat ∧ lowerChar c = Char.ofNat (c.toNat + 32)) := by
  unfold lowerChar
  split
  · rename_i h; exact .inr ⟨h.1, h.2, rfl⟩
  · exact .inl rfl

theorem anyDigit_small : ∀ x ∈ [('a', 10), ('b', 11), ('c', 12), ('d', 13), ('e', 14), ('f', 15), ('A', 10), ('B', 11), ('C', 12), ('D', 13), ('E', 14), ('F', 15)], anyDigit x.1 = some x.2 := by decide +kernel

theorem letters_small {x : Char × Nat} (h : x ∈ [('a', 10), ('b', 11), ('c', 12), ('d', 13), ('e', 14), ('f', 15)]) :
    x ∈ [('a', 10), ('b', 11), ('c', 12), ('d', 13), ('e', 14), ('f', 15), ('A', 10), ('B', 11), ('C', 12), ('D', 13), ('E', 14), ('F', 15)] :=
  List.mem_append_left [('A', 10), ('B', 11), ('C', 12), ('D', 13), ('E', 14), ('F', 15)] h

theorem letters_capital {x : Char × Nat} (h : x ∈ [('A', 10), ('B', 11), ('C', 12), ('D', 13), ('E', 14), ('F', 15)]) :
    x ∈ [('a', 10), ('b', 11), ('c', 12), ('d', 13), ('e', 14), ('f', 15), ('A', 10), ('B', 11), ('C', 12), ('D', 13), ('E', 14), ('F', 15)] :=
  List.mem_append_right [('a', 10), ('b', 11), ('c', 12), ('d', 13), ('e', 14), ('f', 15)] h

theorem char_of_toNat {c : Char} {n : Nat} (h : c.toNat = n) : c = Char.ofNat n := by rw [← h]; simp

/-- What counts as a digit of the base for the code. -/
theorem anyDigit_iff {base d : Nat} {c : Char} (hb : base ≤ 16) : (anyDigit c = some d ∧ d < base) ↔ DigitOf base c d := by
  constructor
  · rintro ⟨h, hd⟩
    unfold anyDigit at h
    split at h
    · rename_i hc
      refine .decimal ?_ hd
      rw [digit_eq, if_pos hc]
      exact h
    · split at h
      · rename_i hc hl
        simp only [Option.some.injEq] at h
        rcases lower_cases c with e | ⟨e1, e2, e3⟩
        · rw [e] at h hl
          refine .small ?_ hd
          have ha : 'a'.toNat = 97 := rfl
          have : c.toNat = 97 ∨ c.toNat = 98 ∨ c.toNat = 99 ∨ c.toNat = 100 ∨ c.toNat = 101 ∨ c.toNat = 102 := by omega
          rcases this with e | e | e | e | e | e <;> (rw [ha, e] at h; subst h; rw [char_of_toNat e]; decide)
        · have hA : 'A'.toNat = 65 := rfl
          have hZ : 'Z'.toNat = 90 := rfl
          have ha : 'a'.toNat = 97 := rfl
          have hn : (Char.ofNat (c.toNat + 32)).toNat = c.toNat + 32 := by
            have : ∀ k, k ≤ 25 → (Char.ofNat (65 + k + 32)).toNat = 65 + k + 32 := by decide +kernel
            have := this (c.toNat - 65) (by omega)
            rwa [show 65 + (c.toNat - 65) = c.toNat by omega] at this
          rw [e3, hn] at h
          refine .capital ?_ hd
          have : c.toNat = 65 ∨ c.toNat = 66 ∨ c.toNat = 67 ∨ c.toNat = 68 ∨ c.toNat = 69 ∨ c.toNat = 70 := by omega
          rcases this with e | e | e | e | e | e <;> (rw [ha, e] at h; subst h; rw [char_of_toNat e]; decide)
      · cases h
  · rintro (⟨h, hd⟩ | ⟨h, hd⟩ | ⟨h, hd⟩)
    · refine ⟨?_, hd⟩
      rw [digit_eq] at h
      split at h
      · rename_i hc
        unfold anyDigit
        rw [if_pos hc]
        exact h
      · cases h
    · exact ⟨anyDigit_small (c, d) (letters_small h), hd⟩
    · exact ⟨anyDigit_small (c, d) (letters_capital h), hd⟩

/-- A digit of the base is one for `underscoreOK` too. -/
def DigitLike (hex : Bool) (c : Char) : Prop := isDec c = true ∨ hex = true ∧ 'a'.toNat ≤ (lowerChar c).toNat ∧ (lowerChar c).toNat ≤ 'f'.toNat

theorem digitLike_small : ∀ x ∈ [('a', 10), ('b', 11), ('c', 12), ('d', 13), ('e', 14), ('f', 15), ('A', 10), ('B', 11), ('C', 12), ('D', 13), ('E', 14), ('F', 15)],
    'a'.toNat ≤ (lowerChar x.1).toNat ∧ (lowerChar x.1).toNat ≤ 'f'.toNat ∧ x.1 ≠ '_' ∧ 10 ≤ x.2 := by decide +kernel

theorem digitOf_like {base d : Nat} {c : Char} {hex : Bool} (hb : base ≤ 10 ∨ hex = true) (h : DigitOf base c d) : DigitLike hex c ∧ c ≠ '_' := by
  rcases h with ⟨h, hd⟩ | ⟨h, hd⟩ | ⟨h, hd⟩
  · rw [digit_eq] at h
    split at h
    · rename_i hc
      refine ⟨.inl hc, ?_⟩
      rintro rfl
      exact absurd hc (by decide)
    · cases h
  · have := digitLike_small (c, d) (letters_small h)
    exact ⟨.inr ⟨by rcases hb with hb | hb; · omega
                    · exact hb, this.1, this.2.1⟩, this.2.2.1⟩
  · have := digitLike_small (c, d) (letters_capital h)
    exact ⟨.inr ⟨by rcases hb with hb | hb; · omega
                    · exact hb, this.1, this.2.1⟩, this.2.2.1⟩

theorem underscoreLoop_digit {hex : Bool} {saw : Saw} {c : Char} {s : Str} (h : DigitLike hex c) : underscoreLoop hex saw (c :: s) = underscoreLoop hex .digit s := by
  conv_lhs => unfold underscoreLoop
  exact if_pos h

theorem underscore_like (hex : Bool) : ¬ DigitLike hex '_' := by
  unfold DigitLike
  rintro (h | ⟨_, h, h'⟩)
  · exact absurd h (by decide)
  · have : (lowerChar '_').toNat = 95 ∧ 'a'.toNat = 97 := by decide +kernel
    omega

theorem underscoreLoop_under {hex : Bool} {saw : Saw} {s : Str} : underscoreLoop hex saw ('_' :: s) = if saw ≠ .digit then false else underscoreLoop hex .underscore s := by
  conv_lhs => unfold underscoreLoop
  exact (if_neg (underscore_like hex)).trans (if_pos rfl)

theorem further_le {base x n : Nat} {s : Str} (hb : 0 < base) (h : Further base x s n) : x ≤ n := by
  induction h with
  | done => exact Nat.le_refl _
  | @digit x n d c s hc h ih => exact Nat.le_trans (Nat.le_trans (Nat.le_mul_of_pos_right x hb) (Nat.le_add_right _ _)) ih
  | @underscore x n d c s hc h ih => exact Nat.le_trans (Nat.le_trans (Nat.le_mul_of_pos_right x hb) (Nat.le_add_right _ _)) ih

theorem uintLoop_digit {base x d : Nat} {c : Char} {s : Str} (hb : base ≤ 16) (h : DigitOf base c d) (hc : c ≠ '_') :
    uintLoop base x (c :: s) = if x * base + d < 2 ^ 64 then uintLoop base (x * base + d) s else none := by
  obtain ⟨h1, h2⟩ := (anyDigit_iff hb).mpr h
  conv_lhs => unfold uintLoop
  rw [if_neg hc, h1]
  simp only
  rw [if_neg (by omega)]

theorem uintLoop_conv {base x n : Nat} {c : Char} {s : Str} (hb : base ≤ 16) (hc : c ≠ '_') (h : uintLoop base x (c :: s) = some n) : ∃ d, DigitOf base c d ∧ x * base + d < 2 ^ 64 ∧ uintLoop base (x * base + d) s = some n := by
  unfold uintLoop at h
  rw [if_neg hc] at h
  cases hd : anyDigit c with
  | none => rw [hd] at h; cases h
  | some d =>
    rw [hd] at h
    simp only at h
    split at h
    · cases h
    · split at h
      · exact ⟨d, (anyDigit_iff hb).mp ⟨hd, by omega⟩, by assumption, h⟩
      · cases h

/-- Further digits for the code: they are read, and the underscores are in their places. -/
theorem further_iff {base : Nat} {hex : Bool} (hb : base ≤ 10 ∨ hex = true) (hb16 : base ≤ 16) (hpos : 0 < base) {x n : Nat} {s : Str} (hx : x < 2 ^ 64) :
    (Further base x s n ∧ n < 2 ^ 64) ↔ (uintLoop base x s = some n ∧ underscoreLoop hex .digit s = true) := by
  constructor
  · rintro ⟨h, hn⟩
    induction h with
    | done x => exact ⟨rfl, rfl⟩
    | @digit x n d c s hc h ih =>
      obtain ⟨h1, h2⟩ := digitOf_like hb hc
      have hle := further_le hpos h
      obtain ⟨i1, i2⟩ := ih (by omega) hn
      rw [uintLoop_digit hb16 hc h2, if_pos (by omega), underscoreLoop_digit h1]
      exact ⟨i1, i2⟩
    | @underscore x n d c s hc h ih =>
      obtain ⟨h1, h2⟩ := digitOf_like hb hc
      have hle := further_le hpos h
      obtain ⟨i1, i2⟩ := ih (by omega) hn
      have e : uintLoop base x ('_' :: c :: s) = uintLoop base x (c :: s) := by
        conv_lhs => unfold uintLoop
        exact if_pos rfl
      rw [e, uintLoop_digit hb16 hc h2, if_pos (by omega), underscoreLoop_under, if_neg (by simp), underscoreLoop_digit h1]
      exact ⟨i1, i2⟩
  · rintro ⟨h, hu⟩
    induction hlen : s.length using Nat.strongRecOn generalizing x s with
    | _ len ih =>
      subst hlen
      cases s with
      | nil => cases h; exact ⟨.done _, hx⟩
      | cons c s =>
        by_cases hc : c = '_'
        · subst hc
          have e : uintLoop base x ('_' :: s) = uintLoop base x s := by
            conv_lhs => unfold uintLoop
            exact if_pos rfl
          rw [e] at h
          rw [underscoreLoop_under, if_neg (by simp)] at hu
          cases s with
          | nil => cases hu
          | cons c s =>
            by_cases hc : c = '_'
            · subst hc
              rw [underscoreLoop_under, if_pos (by simp)] at hu
              cases hu
            · obtain ⟨d, h1, h2, h3⟩ := uintLoop_conv hb16 hc h
              rw [underscoreLoop_digit (digitOf_like hb h1).1] at hu
              obtain ⟨i1, i2⟩ := ih s.length (by simp only [List.length_cons]; omega) h2 h3 hu rfl
              exact ⟨.underscore h1 i1, i2⟩
        · obtain ⟨d, h1, h2, h3⟩ := uintLoop_conv hb16 hc h
          rw [underscoreLoop_digit (digitOf_like hb h1).1] at hu
          obtain ⟨i1, i2⟩ := ih s.length (by simp only [List.length_cons]; omega) h2 h3 hu rfl
          exact ⟨.digit h1 i1, i2⟩

/-- Without underscores nothing is out of place. -/
theorem no_underscore {base : Nat} {hex : Bool} (hb : base ≤ 10 ∨ hex = true) (hb16 : base ≤ 16) {x n : Nat} {s : Str} (h : uintLoop base x s = some n) (hs : '_' ∉ s) : underscoreLoop hex .digit s = true := by
  induction s generalizing x with
  | nil => rfl
  | cons c s ih =>
    have hc : c ≠ '_' := fun e => hs (by rw [e]; exact List.mem_cons_self ..)
    obtain ⟨d, h1, h2, h3⟩ := uintLoop_conv hb16 hc h
    rw [underscoreLoop_digit (digitOf_like hb h1).1]
    exact ih h3 (fun h => hs (List.mem_cons_of_mem _ h))

theorem lower_letter {c p q : Char} (h : lowerChar c = p) (hp : (p, q) ∈ [('b', 'B'), ('o', 'O'), ('x', 'X')]) : c = p ∨ c = q := by
  rcases lower_cases c with e | ⟨h1, h2, e⟩
  · exact .inl (e.symm.trans h)
  · right
    have key : ∀ k, k ≤ 25 → Char.ofNat (65 + k + 32) = p → Char.ofNat (65 + k) = q := by
      simp only [List.mem_cons, Prod.mk.injEq, List.not_mem_nil, or_false] at hp
      rcases hp with ⟨rfl, rfl⟩ | ⟨rfl, rfl⟩ | ⟨rfl, rfl⟩ <;> decide +kernel
    have hA : 'A'.toNat = 65 := rfl
    have hZ : 'Z'.toNat = 90 := rfl
    have := key (c.toNat - 65) (by omega) (by rw [show 65 + (c.toNat - 65) + 32 = c.toNat + 32 by omega, ← e]; exact h)
    rw [show 65 + (c.toNat - 65) = c.toNat by omega] at this
    rw [← this]; simp

/-- What `parseUint0` checks after the loop. -/
theorem parseUint0_of {s t : Str} {base : Nat} {hex : Bool} (hs : s ≠ []) (hbase : baseOf s = (base, t)) (hb : base ≤ 10 ∨ hex = true) (hb16 : base ≤ 16) (hpos : 0 < base)
    (hok : underscoreOK s = underscoreLoop hex .digit t) (hin : '_' ∈ s ↔ '_' ∈ t) (n : Nat) : parseUint0 s = some n ↔ Further base 0 t n ∧ n < 2 ^ 64 := by
  rw [further_iff hb hb16 hpos (by decide)]
  unfold parseUint0
  rw [if_neg hs, hbase]
  simp only
  cases hl : uintLoop base 0 t with
  | none => simp
  | some m =>
    simp only
    by_cases hu : underscoreLoop hex .digit t = true
    · rw [if_neg (by rw [hok, hu]; simp)]
      simp [hu]
    · have : '_' ∈ t := by
        by_contra hc
        exact hu (no_underscore hb hb16 hl hc)
      rw [if_pos ⟨hin.mpr this, by rw [hok]; simpa using hu⟩]
      simp [hu]

theorem further_zero_letter {c : Char} {b n : Nat} {s : Str} (hc : (c, b) ∈ [('b', 2), ('B', 2), ('o', 8), ('O', 8), ('x', 16), ('X', 16)]) : ¬ Further 8 0 (c :: s) n := by
  intro h
  have hn : ∀ d, ¬ DigitOf 8 c d := by
    intro d hd
    have := ((anyDigit_iff (base := 8) (by decide)).mpr hd)
    have key : ∀ x ∈ [('b', 2), ('B', 2), ('o', 8), ('O', 8), ('x', 16), ('X', 16)], ∀ d, anyDigit x.1 = some d → ¬ d < 8 := by
      intro x hx d h
      have : ∀ x ∈ [('b', 2), ('B', 2), ('o', 8), ('O', 8), ('x', 16), ('X', 16)], ∃ d, anyDigit x.1 = some d ∧ ¬ d < 8 := by
        intro x hx
        simp only [List.mem_cons, List.not_mem_nil, or_false] at hx
        rcases hx with rfl | rfl | rfl | rfl | rfl | rfl
        · exact ⟨11, by decide +kernel⟩
        · exact ⟨11, by decide +kernel⟩
        · exact ⟨24, by decide +kernel⟩
        · exact ⟨24, by decide +kernel⟩
        · exact ⟨33, by decide +kernel⟩
        · exact ⟨33, by decide +kernel⟩
      obtain ⟨d', h1, h2⟩ := this x hx
      rw [h] at h1
      cases h1
      exact h2
    exact key (c, b) hc d this.1 this.2
  cases h with
  | digit hd _ => exact hn _ hd
  | underscore =>
    have : ∀ x ∈ [('b', 2), ('B', 2), ('o', 8), ('O', 8), ('x', 16), ('X', 16)], x.1 ≠ '_' := by decide
    exact this _ hc rfl

theorem parseUint0_iff (s : Str) (n : Nat) : parseUint0 s = some n ↔ Literal s n ∧ n < 2 ^ 64 := by
  have hz : digit '0' = some 0 := by decide +kernel
  have zeroDec : ∀ {d}, digit '0' = some d → d = 0 := by intro d h; rw [hz] at h; cases h; rfl
  have up : isDec '0' = true := by decide
  cases s with
  | nil =>
    constructor
    · intro h; cases h
    · rintro ⟨h, _⟩; cases h
  | cons c s =>
    by_cases hc0 : c = '0'
    · subst hc0
      by_cases hbased : ∃ p q b t, s = p :: q :: t ∧ (p, b) ∈ [('b', 2), ('B', 2), ('o', 8), ('O', 8), ('x', 16), ('X', 16)]
      · obtain ⟨p, q, b, t, rfl, hp⟩ := hbased
        have facts : baseOf ('0' :: p :: q :: t) = (b, q :: t) ∧ underscoreOK ('0' :: p :: q :: t) = underscoreLoop (b == 16) .digit (q :: t) ∧ (b ≤ 10 ∨ (b == 16) = true) ∧ b ≤ 16 ∧ 0 < b ∧ p ≠ '_' := by
          simp only [List.mem_cons, Prod.mk.injEq, List.not_mem_nil, or_false] at hp
          rcases hp with ⟨rfl, rfl⟩ | ⟨rfl, rfl⟩ | ⟨rfl, rfl⟩ | ⟨rfl, rfl⟩ | ⟨rfl, rfl⟩ | ⟨rfl, rfl⟩ <;> exact ⟨rfl, rfl, by decide, by decide, by decide, by decide⟩
        obtain ⟨f1, f2, f3, f4, f5, f6⟩ := facts
        rw [parseUint0_of (by simp) f1 f3 f4 f5 f2 (by simp [Ne.symm f6]) n]
        constructor
        · rintro ⟨h, hn⟩
          exact ⟨.based hp (by simp) h, hn⟩
        · rintro ⟨h, hn⟩
          refine ⟨?_, hn⟩
          cases h with
          | decimal hc hd _ => exact absurd (zeroDec hc) hd
          | octal h => exact absurd h (further_zero_letter hp)
          | @based _ b' _ _ hc hs h =>
            have : b' = b := by
              have key : ∀ x ∈ [('b', 2), ('B', 2), ('o', 8), ('O', 8), ('x', 16), ('X', 16)], ∀ y ∈ [('b', 2), ('B', 2), ('o', 8), ('O', 8), ('x', 16), ('X', 16)], x.1 = y.1 → x.2 = y.2 := by decide
              exact key _ hc _ hp rfl
            rwa [this] at h
      · -- octal
        have facts : baseOf ('0' :: s) = (8, s) ∧ (s = [] ∨ (∃ p b, s = [p] ∧ (p, b) ∈ [('b', 2), ('B', 2), ('o', 8), ('O', 8), ('x', 16), ('X', 16)]) ∨ underscoreOK ('0' :: s) = underscoreLoop false .digit s) := by
          cases s with
          | nil => exact ⟨rfl, .inl rfl⟩
          | cons p t =>
            have hlow : (¬ ∃ b, (p, b) ∈ [('b', 2), ('B', 2), ('o', 8), ('O', 8), ('x', 16), ('X', 16)]) → lowerChar p ≠ 'b' ∧ lowerChar p ≠ 'o' ∧ lowerChar p ≠ 'x' := by
              intro hno
              refine ⟨fun h => ?_, fun h => ?_, fun h => ?_⟩
              · rcases lower_letter (q := 'B') h (by decide) with rfl | rfl <;> exact hno ⟨2, by decide⟩
              · rcases lower_letter (q := 'O') h (by decide) with rfl | rfl <;> exact hno ⟨8, by decide⟩
              · rcases lower_letter (q := 'X') h (by decide) with rfl | rfl <;> exact hno ⟨16, by decide⟩
            have hok : (¬ ∃ b, (p, b) ∈ [('b', 2), ('B', 2), ('o', 8), ('O', 8), ('x', 16), ('X', 16)]) → underscoreOK ('0' :: p :: t) = underscoreLoop false .digit (p :: t) := by
              intro hno
              obtain ⟨l1, l2, l3⟩ := hlow hno
              show (if _ then _ else underscoreLoop false .start ('0' :: p :: t)) = _
              rw [if_neg (by rintro (h | h | h); exacts [l1 h, l2 h, l3 h])]
              exact underscoreLoop_digit (.inl up)
            cases t with
            | nil =>
              refine ⟨rfl, ?_⟩
              by_cases hp : ∃ b, (p, b) ∈ [('b', 2), ('B', 2), ('o', 8), ('O', 8), ('x', 16), ('X', 16)]
              · obtain ⟨b, hp⟩ := hp
                exact .inr (.inl ⟨p, b, rfl, hp⟩)
              · exact .inr (.inr (hok hp))
            | cons q t =>
              have hno : ¬ ∃ b, (p, b) ∈ [('b', 2), ('B', 2), ('o', 8), ('O', 8), ('x', 16), ('X', 16)] := by
                rintro ⟨b, hp⟩
                exact hbased ⟨p, q, b, t, rfl, hp⟩
              obtain ⟨l1, l2, l3⟩ := hlow hno
              refine ⟨?_, .inr (.inr (hok hno))⟩
              show (if lowerChar p = 'b' then _ else if lowerChar p = 'o' then _ else if lowerChar p = 'x' then _ else _) = _
              rw [if_neg l1, if_neg l2, if_neg l3]
        obtain ⟨f1, f2⟩ := facts
        have lit : Literal ('0' :: s) n ↔ Further 8 0 s n := by
          constructor
          · intro h
            cases h with
            | decimal hc hd _ => exact absurd (zeroDec hc) hd
            | octal h => exact h
            | @based c b _ t hc hs h =>
              cases t with
              | nil => exact absurd rfl hs
              | cons q t => exact absurd ⟨c, q, b, t, rfl, hc⟩ hbased
          · exact .octal
        rw [lit]
        rcases f2 with rfl | ⟨p, b, rfl, hp⟩ | f2
        · constructor
          · intro h
            have : parseUint0 ['0'] = some 0 := by decide +kernel
            rw [this] at h
            cases h
            exact ⟨.done _, by decide⟩
          · rintro ⟨h, _⟩
            cases h
            decide +kernel
        · constructor
          · intro h
            exfalso
            have : ∀ x ∈ [('b', 2), ('B', 2), ('o', 8), ('O', 8), ('x', 16), ('X', 16)], parseUint0 ['0', x.1] = none := by decide +kernel
            rw [this (p, b) hp] at h
            cases h
          · rintro ⟨h, _⟩
            exact absurd h (further_zero_letter hp)
        · exact parseUint0_of (by simp) f1 (.inl (by decide)) (by decide) (by decide) f2 (by simp) n
    · -- decimal
      have hbase : baseOf (c :: s) = (10, c :: s) := by
        unfold baseOf
        split
        · rename_i heq; cases heq; exact absurd rfl hc0
        · rename_i heq; cases heq; exact absurd rfl hc0
        · rfl
      have hok : underscoreOK (c :: s) = underscoreLoop false .start (c :: s) := by
        unfold underscoreOK
        split
        · rename_i heq; cases heq; exact absurd rfl hc0
        · rfl
      have lit : Literal (c :: s) n ↔ ∃ d, digit c = some d ∧ Further 10 d s n := by
        constructor
        · intro h
          cases h with
          | decimal hc hd h => exact ⟨_, hc, h⟩
          | octal h => exact absurd rfl hc0
          | based => exact absurd rfl hc0
        · rintro ⟨d, hd, h⟩
          refine .decimal hd ?_ h
          rintro rfl
          rw [digit_eq] at hd
          split at hd
          · rename_i hdec
            simp only [Option.some.injEq] at hd
            unfold isDec at hdec
            simp only [Bool.and_eq_true, decide_eq_true_eq] at hdec
            have h0 : '0'.toNat = 48 := rfl
            exact hc0 (by exact char_of_toNat (show c.toNat = 48 by omega))
          · cases hd
      rw [lit]
      by_cases hcu : c = '_'
      · subst hcu
        constructor
        · intro h
          exfalso
          unfold parseUint0 at h
          rw [if_neg (by simp)] at h
          split at h
          · cases h
          · rw [hok, underscoreLoop_under, if_pos (by simp)] at h
            exact absurd h (by simp)
        · rintro ⟨⟨d, hd, _⟩, _⟩
          exact absurd hd (by rw [show digit '_' = none by decide +kernel]; simp)
      · constructor
        · intro h
          have hp := h
          unfold parseUint0 at h
          rw [if_neg (by simp), hbase] at h
          simp only at h
          cases hl : uintLoop 10 0 (c :: s) with
          | none => rw [hl] at h; cases h
          | some m =>
            rw [hl] at h
            simp only at h
            split at h
            · cases h
            · rename_i hun
              cases h
              obtain ⟨d, h1, h2, h3⟩ := uintLoop_conv (by decide) hcu hl
              have hlike := digitOf_like (hex := false) (.inl (by decide)) h1
              have hd : digit c = some d := by
                rcases h1 with ⟨h1, _⟩ | ⟨h1, hd⟩ | ⟨h1, hd⟩
                · exact h1
                · have := (digitLike_small (c, d) (letters_small h1)).2.2.2
                  omega
                · have := (digitLike_small (c, d) (letters_capital h1)).2.2.2
                  omega
              have hul : underscoreLoop false .digit s = true := by
                by_cases hin : '_' ∈ s
                · by_contra hne
                  refine hun ⟨List.mem_cons_of_mem _ hin, ?_⟩
                  rw [hok, underscoreLoop_digit hlike.1]
                  simpa using hne
                · exact no_underscore (.inl (by decide)) (by decide) h3 hin
              rw [Nat.zero_mul, Nat.zero_add] at h2 h3
              obtain ⟨i1, i2⟩ := (further_iff (hex := false) (.inl (by decide)) (by decide) (by decide) h2).mpr ⟨h3, hul⟩
              exact ⟨⟨d, hd, i1⟩, i2⟩
        · rintro ⟨⟨d, hd, hf⟩, hn⟩
          have hd10 : d < 10 := by
            rw [digit_eq] at hd
            split at hd
            · rename_i hdec
              unfold isDec at hdec
              simp only [Bool.and_eq_true, decide_eq_true_eq] at hdec
              simp only [Option.some.injEq] at hd
              have h0 : '0'.toNat = 48 ∧ '9'.toNat = 57 := by decide
              omega
            · cases hd
          have h1 : DigitOf 10 c d := .decimal hd hd10
          have hlike := digitOf_like (hex := false) (.inl (by decide)) h1
          obtain ⟨i1, i2⟩ := (further_iff (hex := false) (.inl (by decide)) (by decide) (by decide) (show d < 2 ^ 64 by omega)).mp ⟨hf, hn⟩
          unfold parseUint0
          rw [if_neg (by simp), hbase]
          simp only
          rw [uintLoop_digit (by decide) h1 hcu, if_pos (by omega), Nat.zero_mul, Nat.zero_add, i1]
          simp only
          rw [if_neg]
          rintro ⟨_, h⟩
          rw [hok, underscoreLoop_digit hlike.1, i2] at h
          cases h

theorem literal_head {s : Str} {n : Nat} (h : Literal s n) : ∀ t, s ≠ '-' :: t ∧ s ≠ '+' :: t := by
  intro t
  have hm : digit '-' = none ∧ digit '+' = none := by decide +kernel
  constructor
  · rintro rfl
    cases h with
    | decimal hc => rw [hm.1] at hc; cases hc
  · rintro rfl
    cases h with
    | decimal hc => rw [hm.2] at hc; cases hc

/-- What `parseInt0` does with a text without a sign (see there). -/
def unsignedInt (t : Str) : Option Int := match parseUint0 t with
  | some n => if n < 2 ^ 63 then some n else none
  | none => none

/-- **C158** The texts that are read as numbers are the integer literals of Go that fit 64 bits, with or without a sign, and they are read as what they stand for. -/
theorem C158_literals (s : Str) (n : Int) : parseInt0 s = some n ↔ SignedLiteral s n := by
  unfold SignedLiteral
  have pos : ∀ t, unsignedInt t = some n ↔ ∃ m, Literal t m ∧ n = m ∧ m < 2 ^ 63 := by
    intro t
    unfold unsignedInt
    constructor
    · intro h
      cases hu : parseUint0 t with
      | none => rw [hu] at h; cases h
      | some m =>
        rw [hu] at h
        simp only at h
        split at h
        · cases h
          exact ⟨m, ((parseUint0_iff t m).mp hu).1, rfl, by assumption⟩
        · cases h
    · rintro ⟨m, h1, rfl, h2⟩
      rw [(parseUint0_iff t m).mpr ⟨h1, by omega⟩]
      exact if_pos h2
  unfold parseInt0
  split
  · rename_i t
    constructor
    · intro h
      cases hu : parseUint0 t with
      | none => rw [hu] at h; cases h
      | some m =>
        rw [hu] at h
        simp only at h
        split at h
        · cases h
          exact ⟨t, m, ((parseUint0_iff t m).mp hu).1, .inl ⟨rfl, rfl, by assumption⟩⟩
        · cases h
    · rintro ⟨t', m, h1, ⟨h2, rfl, h3⟩ | ⟨h2 | h2, rfl, h3⟩⟩
      · cases h2
        rw [(parseUint0_iff t m).mpr ⟨h1, by omega⟩]
        exact if_pos h3
      · exact absurd h2.symm (literal_head h1 _).1
      · cases h2
  · rename_i t
    refine Iff.trans (pos t) ?_
    constructor
    · rintro ⟨m, h1, h2, h3⟩
      exact ⟨t, m, h1, .inr ⟨.inr rfl, h2, h3⟩⟩
    · rintro ⟨t', m, h1, ⟨h2, rfl, h3⟩ | ⟨h2 | h2, rfl, h3⟩⟩
      · cases h2
      · exact absurd h2.symm (literal_head h1 _).2
      · cases h2
        exact ⟨m, h1, rfl, h3⟩
  · rename_i hm hp
    refine Iff.trans (pos s) ?_
    constructor
    · rintro ⟨m, h1, h2, h3⟩
      exact ⟨s, m, h1, .inr ⟨.inl rfl, h2, h3⟩⟩
    · rintro ⟨t', m, h1, ⟨h2, rfl, h3⟩ | ⟨h2 | h2, rfl, h3⟩⟩
      · exact absurd h2 (hm _)
      · subst h2
        exact ⟨m, h1, rfl, h3⟩
      · exact absurd h2 (hp _)

/-- `-0x1_F` is read as -31. -/
example : SignedLiteral "-0x1_F".toList (-31) := by
  rw [← C158_literals]; decide +kernel

/-- How a switch is turned on and off. -/
inductive Spec.Switch : Str → Bool → Prop
  | digit : Switch ['1'] true
  | letter : Switch ['t'] true
  | capital : Switch ['T'] true
  | small : Switch ['t', 'r', 'u', 'e'] true
  | title : Switch ['T', 'r', 'u', 'e'] true
  | capitals : Switch ['T', 'R', 'U', 'E'] true
  | noDigit : Switch ['0'] false
  | noLetter : Switch ['f'] false
  | noCapital : Switch ['F'] false
  | noSmall : Switch ['f', 'a', 'l', 's', 'e'] false
  | noTitle : Switch ['F', 'a', 'l', 's', 'e'] false
  | noCapitals : Switch ['F', 'A', 'L', 'S', 'E'] false

theorem parseBool_iff (s : Str) (b : Bool) : parseBool s = some b ↔ Switch s b := by
  constructor
  · intro h
    unfold parseBool at h
    split at h
    · rename_i hs
      cases h
      simp only [List.mem_cons, List.not_mem_nil, or_false] at hs
      rcases hs with rfl | rfl | rfl | rfl | rfl | rfl
      exacts [.digit, .letter, .capital, .capitals, .small, .title]
    · split at h
      · rename_i hs
        cases h
        simp only [List.mem_cons, List.not_mem_nil, or_false] at hs
        rcases hs with rfl | rfl | rfl | rfl | rfl | rfl
        exacts [.noDigit, .noLetter, .noCapital, .noCapitals, .noSmall, .noTitle]
      · cases h
  · intro h
    cases h <;> decide +kernel

/-- **C157** A switch takes exactly twelve texts, a number exactly the literals, a text everything; anything else ends the program (C157_refused). -/
theorem C157_values (frac : Nat → Nat → Nat → Nat) (text : Str) (w : FlagValue) :
    (∀ b, (FlagValue.bool b).set frac text = some w ↔ ∃ b', Switch text b' ∧ w = .bool b') ∧ (∀ n, (FlagValue.int n).set frac text = some w ↔ ∃ n', SignedLiteral text n' ∧ w = .int n') ∧
      (∀ s, (FlagValue.str s).set frac text = some w ↔ w = .str text) := by
  refine ⟨fun b => ?_, fun n => ?_, fun s => ?_⟩
  · show (parseBool text).map FlagValue.bool = some w ↔ _
    rw [Option.map_eq_some_iff]
    simp only [parseBool_iff]
    exact ⟨fun ⟨a, h, e⟩ => ⟨a, h, e.symm⟩, fun ⟨a, h, e⟩ => ⟨a, h, e.symm⟩⟩
  · show (parseInt0 text).map FlagValue.int = some w ↔ _
    rw [Option.map_eq_some_iff]
    simp only [C158_literals]
    exact ⟨fun ⟨a, h, e⟩ => ⟨a, h, e.symm⟩, fun ⟨a, h, e⟩ => ⟨a, h, e.symm⟩⟩
  · show some (FlagValue.str text) = some w ↔ _
    simp [eq_comm]

example : (FlagValue.bool false).set noFrac "True".toList = some (.bool true) ∧ (FlagValue.bool false).set noFrac "yes".toList = none ∧ (FlagValue.int 5).set noFrac "0o17".toList = some (.int 15) := by decide +kernel

end StayRTR
