import Verif.Props.Flags
import Verif.Proofs.Frac

/-!
# C158: durations on the command line

What `time.ParseDuration` makes of the values of -primary.refresh, -secondary.refresh and -grace.period: exactly the texts that are read, their values up to the errors of floating point arithmetic, and exactly with fractions that are
whole nanoseconds by the number of their digits.
-/

namespace StayRTR
open Spec

/-- A part of a duration: digits, perhaps a point and more digits, and a unit. -/
structure Spec.Piece where
  int : Str
  dot : Option Str
  unit : Str × Nat

/-- The number that digits stand for. -/
def Spec.number (s : Str) : Nat := s.foldl (fun n c => n * 10 + (digit c).getD 0) 0

/-- Only digits, perhaps none. -/
def Spec.OnlyDigits (s : Str) : Prop := ∀ c ∈ s, (digit c).isSome = true

/-- Digits before or after the point, and one of the units. -/
def Spec.Piece.Ok (p : Piece) : Prop := OnlyDigits p.int ∧ OnlyDigits (p.dot.getD []) ∧ (p.int ≠ [] ∨ p.dot.getD [] ≠ []) ∧ p.unit ∈ units

/-- How it is written. -/
def Spec.Piece.text (p : Piece) : Str := p.int ++ ((p.dot.map ('.' :: ·)).getD [] ++ p.unit.1)

/-- How long it is, in nanoseconds. -/
def Spec.Piece.amount (p : Piece) : ℚ := (number p.int + number (p.dot.getD []) / 10 ^ (p.dot.getD []).length) * p.unit.2

/-- The fraction is a whole number of nanoseconds by the number of its digits. -/
def Spec.Piece.Short (p : Piece) : Prop := 10 ^ (p.dot.getD []).length ∣ p.unit.2

/-- What the code makes of a part. -/
def pieceValue (frac : Nat → Nat → Nat → Nat) (p : Piece) : Nat :=
  number p.int * p.unit.2 + (if 0 < (leadingFraction false 0 0 (p.dot.getD [])).1 then frac (leadingFraction false 0 0 (p.dot.getD [])).1 (leadingFraction false 0 0 (p.dot.getD [])).2.1 p.unit.2 else 0)

theorem digit_dec {c : Char} (h : (digit c).isSome = true) : isDec c = true ∧ (digit c).getD 0 = c.toNat - '0'.toNat := by
  rw [digit_eq] at h ⊢
  by_cases hc : isDec c = true
  · rw [if_pos hc]; exact ⟨hc, rfl⟩
  · rw [if_neg hc] at h; cases h

theorem dec_digit {c : Char} (h : isDec c = true) : (digit c).isSome = true := by
  rw [digit_eq, if_pos h]; rfl

theorem number_from {s : Str} (h : OnlyDigits s) (x : Nat) : s.foldl (fun n c => n * 10 + (digit c).getD 0) x = valueFrom 10 x s := by
  induction s generalizing x with
  | nil => rfl
  | cons c s ih =>
    show s.foldl _ (x * 10 + (digit c).getD 0) = valueFrom 10 (x * 10 + (c.toNat - '0'.toNat)) s
    rw [(digit_dec (h c (List.mem_cons_self ..))).2, ih (fun c hc => h c (List.mem_cons_of_mem _ hc))]

theorem leadingFraction_digits {s u : Str} (hs : ∀ c ∈ s, isDec c = true) (hu : ∀ c t, u = c :: t → isDec c = false) (o : Bool) (x k : Nat) :
    leadingFraction o x k (s ++ u) = ((leadingFraction o x k s).1, (leadingFraction o x k s).2.1, u) := by
  induction s generalizing o x k with
  | nil =>
    cases u with
    | nil => simp [leadingFraction]
    | cons c u => simp [leadingFraction, hu c u rfl]
  | cons c s ih =>
    have hc := hs c (List.mem_cons_self ..)
    have ih' := ih (fun c h => hs c (List.mem_cons_of_mem _ h))
    rw [List.cons_append]
    unfold leadingFraction
    rw [if_pos hc, if_pos hc]
    split
    · exact ih' ..
    split
    · exact ih' ..
    split
    · exact ih' ..
    · exact ih' ..

/-- Once digits are dropped, all are. -/
theorem leadingFraction_over {s : Str} (hs : ∀ c ∈ s, isDec c = true) (x k : Nat) : leadingFraction true x k s = (x, k, []) := by
  induction s with
  | nil => rfl
  | cons c s ih =>
    unfold leadingFraction
    rw [if_pos (hs c (List.mem_cons_self ..)), if_pos rfl]
    exact ih (fun c h => hs c (List.mem_cons_of_mem _ h))

/-- The digits that count. -/
theorem leadingFraction_cut {s : Str} (hs : ∀ c ∈ s, isDec c = true) (x k : Nat) (hx : x ≤ 2 ^ 63) :
    ∃ a b, s = a ++ b ∧ (leadingFraction false x k s).1 = valueFrom 10 x a ∧ (leadingFraction false x k s).2.1 = k + a.length ∧ valueFrom 10 x a ≤ 2 ^ 63 ∧ (b ≠ [] → 922337203685477580 ≤ valueFrom 10 x a) := by
  induction s generalizing x k with
  | nil => exact ⟨[], [], rfl, rfl, rfl, hx, fun h => absurd rfl h⟩
  | cons c s ih =>
    have hc := hs c (List.mem_cons_self ..)
    have hs' : ∀ c ∈ s, isDec c = true := fun c h => hs c (List.mem_cons_of_mem _ h)
    have hd : c.toNat - '0'.toNat ≤ 9 := by
      unfold isDec at hc
      simp only [Bool.and_eq_true, decide_eq_true_eq] at hc
      have : '9'.toNat = 57 ∧ '0'.toNat = 48 := by decide
      omega
    unfold leadingFraction
    rw [if_pos hc, if_neg (by decide)]
    split
    · rw [leadingFraction_over hs']
      exact ⟨[], c :: s, rfl, rfl, rfl, hx, fun _ => by show _ ≤ x; omega⟩
    split
    · rw [leadingFraction_over hs']
      exact ⟨[], c :: s, rfl, rfl, rfl, hx, fun _ => by show _ ≤ x; omega⟩
    · obtain ⟨a, b, h1, h2, h3, h4, h5⟩ := ih hs' (x * 10 + (c.toNat - '0'.toNat)) (k + 1) (by omega)
      exact ⟨c :: a, b, by rw [h1]; rfl, h2, by rw [h3, List.length_cons]; omega, h4, h5⟩

/-- What may follow a unit. -/
def Next (r : Str) : Prop := ∀ c t, r = c :: t → c = '.' ∨ isDec c = true

theorem units_chars : ∀ x ∈ Spec.units, ∀ c ∈ x.1, (!(c == '.' || isDec c)) = true := by decide +kernel

theorem loop_piece {frac : Nat → Nat → Nat → Nat} {p : Piece} (hp : p.Ok) {r : Str} (hr : Next r) (fuel d : Nat) :
    durationLoop frac (fuel + 1) d (p.text ++ r) = if d + pieceValue frac p ≤ 2 ^ 63 then durationLoop frac fuel (d + pieceValue frac p) r else none := by
  obtain ⟨h1, h2, h3, h4⟩ := hp
  obtain ⟨u1, u2, u3, u4, u5, u6, u7, u8, u9⟩ := units_ok p.unit h4
  obtain ⟨int, dot, u, k⟩ := p
  simp only at *
  have i1 : ∀ c ∈ int, isDec c = true := fun c h => (digit_dec (h1 c h)).1
  have i2 : ∀ c ∈ dot.getD [], isDec c = true := fun c h => (digit_dec (h2 c h)).1
  have num : number int = valueFrom 10 0 int := number_from h1 0
  have hpv : pieceValue frac ⟨int, dot, (u, k)⟩ = valueFrom 10 0 int * k + (if 0 < (leadingFraction false 0 0 (dot.getD [])).1 then frac (leadingFraction false 0 0 (dot.getD [])).1 (leadingFraction false 0 0 (dot.getD [])).2.1 k else 0) := by
    rw [← num]; rfl
  have htext : (Piece.text ⟨int, dot, (u, k)⟩) ++ r = int ++ ((dot.map ('.' :: ·)).getD [] ++ (u ++ r)) := by
    unfold Piece.text
    simp only [List.append_assoc]
  rw [htext, hpv]
  obtain ⟨a, u', hu⟩ : ∃ a u', u = a :: u' := by
    cases u with
    | nil => exact absurd rfl u7
    | cons a u' => exact ⟨a, u', rfl⟩
  have ha : a ≠ '.' ∧ isDec a = false := by
    subst hu
    simp only [List.head?_cons, Option.map_some, Option.some.injEq, ne_eq] at u8 u9
    exact ⟨u8, u9⟩
  have hur : ∀ c t, u ++ r = c :: t → isDec c = false := by
    intro c t h
    rw [hu] at h
    cases h
    exact ha.2
  have hall : ∀ c ∈ u, (!(c == '.' || isDec c)) = true := units_chars (u, k) h4
  have htake : (u ++ r).takeWhile (fun c => !(c == '.' || isDec c)) = u := by
    rw [List.takeWhile_append_of_pos hall]
    cases r with
    | nil => simp
    | cons c t =>
      rw [List.takeWhile_cons_of_neg, List.append_nil]
      rcases hr c t rfl with h | h <;> simp [h]
  have hdrop : (u ++ r).dropWhile (fun c => !(c == '.' || isDec c)) = r := by
    rw [List.dropWhile_append_of_pos hall]
    cases r with
    | nil => rfl
    | cons c t =>
      rw [List.dropWhile_cons_of_neg]
      rcases hr c t rfl with h | h <;> simp [h]
  -- the fraction
  obtain ⟨post, hfr, hpost⟩ : ∃ post, fractionOf ((dot.map ('.' :: ·)).getD [] ++ (u ++ r)) = ((leadingFraction false 0 0 (dot.getD [])).1, (leadingFraction false 0 0 (dot.getD [])).2.1, post, u ++ r) ∧
      (dot.getD [] ≠ [] → post = true) := by
    cases dot with
    | none =>
      refine ⟨false, ?_, fun h => absurd rfl h⟩
      show fractionOf (u ++ r) = _
      rw [hu]
      unfold fractionOf
      split
      · rename_i h; cases h; exact absurd rfl ha.1
      · rfl
    | some ds =>
      refine ⟨(u ++ r).length != (ds ++ (u ++ r)).length, ?_, ?_⟩
      · show fractionOf ('.' :: (ds ++ (u ++ r))) = _
        have i3 : ∀ c ∈ ds, isDec c = true := i2
        unfold fractionOf
        simp only [leadingFraction_digits i3 hur, Option.getD_some]
      · intro h
        have : ds.length ≠ 0 := fun e => h (List.eq_nil_of_length_eq_zero e)
        simp only [List.length_append, bne_iff_ne, ne_eq]
        omega
  generalize leadingFraction false 0 0 (dot.getD []) = lf at hfr ⊢
  have hdn : ∀ c t, (dot.map ('.' :: ·)).getD [] ++ (u ++ r) = c :: t → isDec c = false := by
    intro c t h
    cases dot with
    | none => exact hur c t h
    | some ds => cases h; decide
  have hl := leadingInt_digits (x := 0) i1 hdn (by decide)
  obtain ⟨c, t, hct, hc⟩ : ∃ c t, int ++ ((dot.map ('.' :: ·)).getD [] ++ (u ++ r)) = c :: t ∧ (c = '.' ∨ isDec c = true) := by
    cases int with
    | cons c t => exact ⟨c, _, rfl, .inr (i1 c (List.mem_cons_self ..))⟩
    | nil =>
      cases dot with
      | none => rcases h3 with h | h <;> exact absurd rfl h
      | some ds => exact ⟨'.', _, rfl, .inl rfl⟩
  have hne : ¬ ((((dot.map ('.' :: ·)).getD [] ++ (u ++ r)).length != (c :: t).length) = false ∧ post = false) := by
    rintro ⟨e1, e2⟩
    rcases h3 with h | h
    · have : int.length ≠ 0 := fun e => h (List.eq_nil_of_length_eq_zero e)
      rw [← hct] at e1
      simp only [List.length_append, bne_eq_false_iff_eq] at e1
      omega
    · rw [hpost h] at e2; cases e2
  rw [hct]
  conv_lhs => unfold durationLoop
  rw [if_neg (not_not.mpr hc), ← hct, hl]
  generalize hv : valueFrom 10 0 int = v
  generalize hF : (if 0 < lf.1 then frac lf.1 lf.2.1 k else 0) = F
  by_cases hv63 : v ≤ 2 ^ 63
  · rw [if_pos hv63]
    simp only [hfr]
    rw [hct, if_neg hne]
    simp only [htake, hdrop, u1]
    by_cases hvk : v > 2 ^ 63 / k
    · rw [if_pos hvk, if_neg]
      have := (Nat.div_lt_iff_lt_mul u2).mp hvk
      omega
    · rw [if_neg hvk]
      simp only [gt_iff_lt, hF]
      by_cases h6 : 2 ^ 63 < v * k + F
      · rw [if_pos h6, if_neg (by omega)]
      · rw [if_neg h6]
        by_cases h7 : 2 ^ 63 < d + (v * k + F)
        · rw [if_pos h7, if_neg (by omega)]
        · rw [if_neg h7, if_pos (by omega)]
  · rw [if_neg hv63, if_neg]
    have : v * 1 ≤ v * k := Nat.mul_le_mul_left v u2
    omega

theorem ok_head {p : Piece} (hp : p.Ok) : ∃ c t, p.text = c :: t ∧ (c = '.' ∨ isDec c = true) := by
  obtain ⟨h1, h2, h3, h4⟩ := hp
  obtain ⟨int, dot, u⟩ := p
  simp only at *
  cases int with
  | cons c t => exact ⟨c, _, rfl, .inr (digit_dec (h1 c (List.mem_cons_self ..))).1⟩
  | nil =>
    cases dot with
    | none => rcases h3 with h | h <;> exact absurd rfl h
    | some ds => exact ⟨'.', _, rfl, .inl rfl⟩

/-- Parts one after the other. -/
def Spec.Piece.texts (ps : List Piece) : Str := ps.flatMap Piece.text

theorem texts_next {ps : List Piece} (h : ∀ p ∈ ps, p.Ok) : Next (Piece.texts ps) := by
  cases ps with
  | nil => intro c t e; cases e
  | cons p ps =>
    obtain ⟨c, t, h1, h2⟩ := ok_head (h p (List.mem_cons_self ..))
    intro c' t' e
    have : Piece.texts (p :: ps) = c :: (t ++ Piece.texts ps) := by
      show p.text ++ Piece.texts ps = _
      rw [h1]; rfl
    rw [this] at e
    cases e
    exact h2

theorem loop_parts {frac : Nat → Nat → Nat → Nat} {ps : List Piece} (h : ∀ p ∈ ps, p.Ok) {fuel : Nat} (hf : ps.length ≤ fuel) {d : Nat} (hd : d ≤ 2 ^ 63) :
    durationLoop frac fuel d (Piece.texts ps) = if d + (ps.map (pieceValue frac)).sum ≤ 2 ^ 63 then some (d + (ps.map (pieceValue frac)).sum) else none := by
  induction ps generalizing fuel d with
  | nil => rw [if_pos (by simpa using hd)]; cases fuel <;> rfl
  | cons p ps ih =>
    obtain ⟨fuel, rfl⟩ : ∃ m, fuel = m + 1 := ⟨fuel - 1, by simp only [List.length_cons] at hf; omega⟩
    have h' : ∀ p ∈ ps, p.Ok := fun q hq => h q (List.mem_cons_of_mem _ hq)
    show durationLoop frac (fuel + 1) d (p.text ++ Piece.texts ps) = _
    rw [loop_piece (h p (List.mem_cons_self ..)) (texts_next h'), List.map_cons, List.sum_cons]
    by_cases hle : d + pieceValue frac p ≤ 2 ^ 63
    · rw [if_pos hle, ih h' (by simpa using hf) hle, Nat.add_assoc]
    · rw [if_neg hle, if_neg (by omega)]

theorem leadingInt_conv {s r : Str} {x v : Nat} (h : leadingInt x s = some (v, r)) : ∃ ds, s = ds ++ r ∧ ∀ c ∈ ds, isDec c = true := by
  induction s generalizing x with
  | nil => cases h; exact ⟨[], rfl, by simp⟩
  | cons c s ih =>
    unfold leadingInt at h
    split at h
    · rename_i hc
      split at h
      · cases h
      split at h
      · cases h
      obtain ⟨ds, rfl, h2⟩ := ih h
      exact ⟨c :: ds, rfl, by rintro a (_ | ⟨_, ha⟩); exacts [hc, h2 a ha]⟩
    · cases h; exact ⟨[], rfl, by simp⟩

theorem leadingFraction_conv (o : Bool) (x k : Nat) (s : Str) : ∃ ds, s = ds ++ (leadingFraction o x k s).2.2 ∧ ∀ c ∈ ds, isDec c = true := by
  induction s generalizing o x k with
  | nil => exact ⟨[], rfl, by simp⟩
  | cons c s ih =>
    by_cases hc : isDec c = true
    · have key : ∀ o x k, ∃ ds, c :: s = ds ++ (leadingFraction o x k s).2.2 ∧ ∀ c ∈ ds, isDec c = true := by
        intro o x k
        obtain ⟨ds, h1, h2⟩ := ih o x k
        exact ⟨c :: ds, by rw [List.cons_append, ← h1], by rintro a (_ | ⟨_, ha⟩); exacts [hc, h2 a ha]⟩
      unfold leadingFraction
      rw [if_pos hc]
      split
      · exact key ..
      split
      · exact key ..
      split
      · exact key ..
      · exact key ..
    · unfold leadingFraction
      rw [if_neg hc]
      exact ⟨[], rfl, by simp⟩

theorem fractionOf_conv (s : Str) : ∃ dot : Option Str, s = (dot.map ('.' :: ·)).getD [] ++ (fractionOf s).2.2.2 ∧ (∀ c ∈ dot.getD [], isDec c = true) ∧ ((fractionOf s).2.2.1 = true → dot.getD [] ≠ []) := by
  unfold fractionOf
  split
  · rename_i r
    obtain ⟨ds, h1, h2⟩ := leadingFraction_conv false 0 0 r
    refine ⟨some ds, ?_, h2, ?_⟩
    · show '.' :: r = '.' :: (ds ++ _)
      rw [← h1]
    · intro h e
      have e : ds = [] := e
      rw [e, List.nil_append] at h1
      rw [← h1, bne_self_eq_false] at h
      cases h
  · exact ⟨none, rfl, by simp, by simp⟩

theorem durationUnit_conv {u : Str} {k : Nat} (h : durationUnit u = some k) : (u, k) ∈ Spec.units := by
  unfold durationUnit at h
  split at h
  · rename_i e; cases h; subst e; decide
  split at h
  · rename_i e; cases h; rcases e with rfl | rfl | rfl <;> decide
  split at h
  · rename_i e; cases h; subst e; decide
  split at h
  · rename_i e; cases h; subst e; decide
  split at h
  · rename_i e; cases h; subst e; decide
  split at h
  · rename_i e; cases h; subst e; decide
  cases h

theorem dropWhile_next (s : Str) : Next (s.dropWhile fun c => !(c == '.' || isDec c)) := by
  induction s with
  | nil => intro c t e; cases e
  | cons a s ih =>
    rw [List.dropWhile_cons]
    split
    · exact ih
    · rename_i h
      intro c t e
      cases e
      by_cases ha : a = '.'
      · exact .inl ha
      · exact .inr (by simpa [ha] using h)

/-- What is read is a part and more. -/
theorem loop_conv {frac : Nat → Nat → Nat → Nat} {fuel d n : Nat} {c : Char} {s : Str} (h : durationLoop frac (fuel + 1) d (c :: s) = some n) :
    ∃ (p : Piece) (r : Str), p.Ok ∧ c :: s = p.text ++ r ∧ Next r ∧ durationLoop frac fuel (d + pieceValue frac p) r = some n := by
  have shape : ∃ (p : Piece) (r : Str), p.Ok ∧ c :: s = p.text ++ r ∧ Next r := by
    unfold durationLoop at h
    split at h
    · cases h
    cases hl : leadingInt 0 (c :: s) with
    | none => rw [hl] at h; cases h
    | some x =>
      obtain ⟨v, rest⟩ := x
      rw [hl] at h
      obtain ⟨int, i1, i2⟩ := leadingInt_conv hl
      obtain ⟨dot, d1, d2, d3⟩ := fractionOf_conv rest
      simp only at h
      generalize fractionOf rest = q at h d1 d3
      obtain ⟨f, k, post, r⟩ := q
      simp only at h d1 d3
      split at h
      · cases h
      rename_i hne
      cases hu : durationUnit (r.takeWhile fun c => !(c == '.' || isDec c)) with
      | none => rw [hu] at h; cases h
      | some k =>
        refine ⟨⟨int, dot, (r.takeWhile fun c => !(c == '.' || isDec c), k)⟩, r.dropWhile fun c => !(c == '.' || isDec c), ⟨fun c hc => dec_digit (i2 c hc), fun c hc => dec_digit (d2 c hc), ?_, durationUnit_conv hu⟩, ?_, dropWhile_next r⟩
        · by_contra hcon
          simp only [not_or, ne_eq, not_not] at hcon
          refine hne ⟨?_, ?_⟩
          · rw [i1, hcon.1]; simp
          · cases post
            · rfl
            · exact absurd hcon.2 (d3 rfl)
        · unfold Piece.text
          simp only [List.append_assoc, List.takeWhile_append_dropWhile]
          rw [i1, ← d1]
  obtain ⟨p, r, hp, e, hr⟩ := shape
  refine ⟨p, r, hp, e, hr, ?_⟩
  rw [e, loop_piece hp hr] at h
  split at h
  · exact h
  · cases h

theorem loop_parts_conv {frac : Nat → Nat → Nat → Nat} {fuel d n : Nat} {s : Str} (h : durationLoop frac fuel d s = some n) : ∃ ps : List Piece, (∀ p ∈ ps, p.Ok) ∧ s = Piece.texts ps := by
  induction fuel generalizing d s with
  | zero =>
    cases s with
    | nil => exact ⟨[], by simp, rfl⟩
    | cons c s => simp [durationLoop] at h
  | succ fuel ih =>
    cases s with
    | nil => exact ⟨[], by simp, rfl⟩
    | cons c s =>
      obtain ⟨p, r, hp, e, _, h'⟩ := loop_conv h
      obtain ⟨ps, h1, h2⟩ := ih h'
      refine ⟨p :: ps, by rintro q (_ | ⟨_, hq⟩); exacts [hp, h1 q hq], ?_⟩
      rw [e, h2]; rfl

theorem texts_length {ps : List Piece} (h : ∀ p ∈ ps, p.Ok) : ps.length ≤ (Piece.texts ps).length := by
  induction ps with
  | nil => simp
  | cons p ps ih =>
    obtain ⟨c, t, h1, h2⟩ := ok_head (h p (List.mem_cons_self ..))
    have := ih (fun q hq => h q (List.mem_cons_of_mem _ hq))
    show _ ≤ (p.text ++ Piece.texts ps).length
    rw [h1, List.length_append, List.length_cons, List.length_cons]
    omega

theorem units_two : ∀ x ∈ Spec.units, x.1 ≠ ['0'] ∧ x.1 ≠ [] := by decide

/-- No text of parts is a zero alone. -/
theorem texts_zero {ps : List Piece} (h : ∀ p ∈ ps, p.Ok) : Piece.texts ps ≠ ['0'] := by
  intro e
  cases ps with
  | nil => cases e
  | cons p ps =>
    have e : p.text ++ Piece.texts ps = ['0'] := e
    obtain ⟨h1, h2, h3, h4⟩ := h p (List.mem_cons_self ..)
    have hu := units_chars p.unit h4
    have : ∀ c ∈ p.unit.1, c = '0' := by
      intro c hc
      have : c ∈ p.text ++ Piece.texts ps := List.mem_append_left _ (by unfold Piece.text; simp [hc])
      rw [e] at this
      simpa using this
    cases hx : p.unit.1 with
    | nil => exact (units_two p.unit h4).2 hx
    | cons c t =>
      have hc : c ∈ p.unit.1 := by rw [hx]; exact List.mem_cons_self ..
      have h0 := this c hc
      have := hu c hc
      rw [h0] at this
      revert this
      decide

theorem unsigned_parts {frac : Nat → Nat → Nat → Nat} {ps : List Piece} (h : ∀ p ∈ ps, p.Ok) (hne : ps ≠ []) :
    parseUnsignedDuration frac (Piece.texts ps) = if (ps.map (pieceValue frac)).sum ≤ 2 ^ 63 then some (ps.map (pieceValue frac)).sum else none := by
  have hl := texts_length h
  have : ps.length ≠ 0 := fun e => hne (List.eq_nil_of_length_eq_zero e)
  unfold parseUnsignedDuration
  rw [if_neg (texts_zero h), if_neg (by intro e; rw [e] at hl; simp at hl; exact hne hl), loop_parts h hl (by omega), Nat.zero_add]

theorem unsigned_conv {frac : Nat → Nat → Nat → Nat} {s : Str} {n : Nat} (h : parseUnsignedDuration frac s = some n) : (s = ['0'] ∧ n = 0) ∨ ∃ ps : List Piece, ps ≠ [] ∧ (∀ p ∈ ps, p.Ok) ∧ s = Piece.texts ps := by
  unfold parseUnsignedDuration at h
  split at h
  · cases h; exact .inl ⟨by assumption, rfl⟩
  split at h
  · cases h
  · rename_i hs
    obtain ⟨ps, h1, h2⟩ := loop_parts_conv h
    exact .inr ⟨ps, by rintro rfl; exact hs h2, h1, h2⟩

/-! ## Values of parts -/

theorem valueFrom_append (b x : Nat) (s t : Str) : valueFrom b x (s ++ t) = valueFrom b (valueFrom b x s) t := by
  unfold valueFrom; exact List.foldl_append ..

theorem dec_le {c : Char} (h : isDec c = true) : c.toNat - '0'.toNat ≤ 9 := by
  unfold isDec at h
  simp only [Bool.and_eq_true, decide_eq_true_eq] at h
  have : '9'.toNat = 57 ∧ '0'.toNat = 48 := by decide
  omega

theorem valueFrom_between {s : Str} (h : ∀ c ∈ s, isDec c = true) (x : Nat) : x * 10 ^ s.length ≤ valueFrom 10 x s ∧ valueFrom 10 x s < (x + 1) * 10 ^ s.length := by
  induction s generalizing x with
  | nil => simp [valueFrom]
  | cons c s ih =>
    have hc := dec_le (h c (List.mem_cons_self ..))
    obtain ⟨h1, h2⟩ := ih (fun c hc => h c (List.mem_cons_of_mem _ hc)) (x * 10 + (c.toNat - '0'.toNat))
    have e : valueFrom 10 x (c :: s) = valueFrom 10 (x * 10 + (c.toNat - '0'.toNat)) s := rfl
    rw [e, List.length_cons, Nat.pow_succ]
    generalize c.toNat - '0'.toNat = v at *
    generalize 10 ^ s.length = P at *
    generalize valueFrom 10 (x * 10 + v) s = V at *
    constructor
    · nlinarith [Nat.zero_le (v * P)]
    · have : (v + 1) * P ≤ 10 * P := Nat.mul_le_mul_right _ (by omega)
      nlinarith

theorem units_bound : ∀ x ∈ Spec.units, 0 < x.2 ∧ x.2 ≤ 3600 * 10 ^ 9 := by decide +kernel

/-- A part is worth what it says, but for less than 1.03 nanoseconds. -/
theorem piece_near {p : Piece} (hp : p.Ok) : (pieceValue goFrac p : ℚ) ≤ p.amount + 1 / 50 ∧ p.amount < pieceValue goFrac p + (1 + 3 / 100) := by
  obtain ⟨h1, h2, h3, h4⟩ := hp
  obtain ⟨ub1, ub2⟩ := units_bound p.unit h4
  have i2 : ∀ c ∈ p.dot.getD [], isDec c = true := fun c h => (digit_dec (h2 c h)).1
  have num : number (p.dot.getD []) = valueFrom 10 0 (p.dot.getD []) := number_from h2 0
  obtain ⟨a, b, e, l1, l2, l3, l4⟩ := leadingFraction_cut i2 0 0 (by decide)
  unfold pieceValue Piece.amount
  rw [num]
  generalize p.dot.getD [] = ds at *
  rw [l1, l2, Nat.zero_add]
  subst e
  have ha := valueFrom_between (fun c hc => i2 c (List.mem_append_left _ hc)) 0 (s := a)
  have hb := valueFrom_between (fun c hc => i2 c (List.mem_append_right _ hc)) (valueFrom 10 0 a) (s := b)
  rw [← valueFrom_append] at hb
  generalize p.unit.2 = unit at *
  generalize number p.int = N
  generalize hf : valueFrom 10 0 a = f at *
  generalize hg : valueFrom 10 0 (a ++ b) = g at *
  have hfk : f < 10 ^ a.length := by simpa using ha.2
  have uq : (0 : ℚ) < unit := by exact_mod_cast ub1
  have uq' : (unit : ℚ) ≤ 3600 * 10 ^ 9 := by exact_mod_cast ub2
  have hA : (0 : ℚ) < 10 ^ a.length := by positivity
  have hB : (0 : ℚ) < 10 ^ b.length := by positivity
  -- the dropped digits
  have hb1 : (f : ℚ) / 10 ^ a.length ≤ g / 10 ^ (a ++ b).length := by
    rw [List.length_append, pow_add, div_le_div_iff₀ hA (by positivity)]
    have : (f : ℚ) * 10 ^ b.length ≤ g := by exact_mod_cast hb.1
    nlinarith
  have hb2 : (g : ℚ) / 10 ^ (a ++ b).length * unit < f / 10 ^ a.length * unit + 1 / 100 := by
    by_cases hbe : b = []
    · subst hbe
      rw [List.append_nil] at hg ⊢
      have : g = f := by rw [← hg, hf]
      rw [this]
      linarith
    · have hf' := l4 hbe
      have hlt : (g : ℚ) / 10 ^ (a ++ b).length < (f + 1) / 10 ^ a.length := by
        rw [List.length_append, pow_add, div_lt_div_iff₀ (by positivity) hA]
        have : (g : ℚ) < (f + 1) * 10 ^ b.length := by exact_mod_cast hb.2
        nlinarith
      have hAbig : (922337203685477580 : ℚ) < 10 ^ a.length := by
        have : 922337203685477580 < 10 ^ a.length := by omega
        exact_mod_cast this
      have hs : (unit : ℚ) / 10 ^ a.length ≤ 1 / 100 := by
        rw [div_le_iff₀ hA]
        linarith
      have := mul_lt_mul_of_pos_right hlt uq
      rw [add_div, add_mul, one_div, inv_mul_eq_div] at this
      linarith
  have hm := mul_le_mul_of_nonneg_right hb1 uq.le
  have hcomm : (f : ℚ) / 10 ^ a.length * unit = f * unit / 10 ^ a.length := by ring
  rw [hcomm] at hm hb2
  by_cases hf0 : 0 < f
  · rw [if_pos hf0]
    have herr := abs_le.mp (goProduct_error hf0 hfk l3 ub1 ub2)
    obtain ⟨_, _, _, _, _, _, _, hpos⟩ := goProduct_near hf0 ub1 a.length
    have hfl := goFrac_floor f a.length unit hpos
    push_cast
    rw [add_mul]
    constructor <;> linarith
  · have : f = 0 := by omega
    subst this
    rw [if_neg (by omega)]
    push_cast
    rw [add_mul]
    simp only [Nat.cast_zero, zero_mul, zero_div] at hm hb2
    constructor <;> linarith

theorem units_short : ∀ x ∈ Spec.units, x.2 < 10 ^ 13 := by decide +kernel

/-- A part whose fraction is a whole number of nanoseconds by the number of its digits is worth what it says. -/
theorem piece_exact {p : Piece} (hp : p.Ok) (hs : p.Short) : (pieceValue goFrac p : ℚ) = p.amount := by
  obtain ⟨h1, h2, h3, h4⟩ := hp
  obtain ⟨ub1, ub2⟩ := units_bound p.unit h4
  have i2 : ∀ c ∈ p.dot.getD [], isDec c = true := fun c h => (digit_dec (h2 c h)).1
  have num : number (p.dot.getD []) = valueFrom 10 0 (p.dot.getD []) := number_from h2 0
  obtain ⟨a, b, e, l1, l2, l3, l4⟩ := leadingFraction_cut i2 0 0 (by decide)
  unfold Piece.Short at hs
  unfold pieceValue Piece.amount
  rw [num]
  generalize p.dot.getD [] = ds at *
  rw [l1, l2, Nat.zero_add]
  have hlen : ds.length ≤ 12 := by
    by_contra hcon
    have := Nat.le_of_dvd ub1 hs
    have h13 : 10 ^ 13 ≤ 10 ^ ds.length := Nat.pow_le_pow_right (by omega) (by omega)
    have := units_short p.unit h4
    omega
  have hbe : b = [] := by
    by_contra hbe
    have := l4 hbe
    have ha := (valueFrom_between (fun c hc => i2 c (by rw [e]; exact List.mem_append_left _ hc)) 0 (s := a)).2
    have : 10 ^ a.length ≤ 10 ^ 12 := Nat.pow_le_pow_right (by omega) (by rw [e, List.length_append] at hlen; omega)
    omega
  subst hbe
  rw [List.append_nil] at e
  subst e
  have ha := (valueFrom_between i2 0).2
  rw [Nat.zero_add, one_mul] at ha
  generalize valueFrom 10 0 ds = f at *
  obtain ⟨c, hc⟩ := hs
  have hp10 : 0 < 10 ^ ds.length := Nat.pow_pos (by omega)
  have hval : (if 0 < f then goFrac f ds.length p.unit.2 else 0) = f * c := by
    by_cases hf0 : 0 < f
    · rw [if_pos hf0, goFrac_exact hf0 ha ub1 (by have := units_short p.unit h4; omega) (by omega) ⟨c, hc⟩, hc, Nat.mul_div_cancel_left _ hp10]
    · have : f = 0 := by omega
      subst this
      simp
  rw [hval, hc]
  have : (10 : ℚ) ^ ds.length ≠ 0 := by positivity
  push_cast
  field_simp

/-! ## C158 -/

/-- A duration of parts, with or without a sign. -/
def Spec.Duration (s : Str) (neg : Bool) (ps : List Piece) : Prop :=
  ps ≠ [] ∧ (∀ p ∈ ps, p.Ok) ∧ ((neg = true ∧ s = '-' :: Piece.texts ps) ∨ (neg = false ∧ (s = Piece.texts ps ∨ s = '+' :: Piece.texts ps)))

/-- How long the parts are together, in nanoseconds. -/
def Spec.total (ps : List Piece) : ℚ := (ps.map Piece.amount).sum

/-- With its sign, if it fits 64 bits. -/
def Spec.signed (neg : Bool) (t : Nat) : Option Int := if neg then (if t ≤ 2 ^ 63 then some (-(t : Int)) else none) else if t < 2 ^ 63 then some (t : Int) else none

theorem duration_value {s : Str} {neg : Bool} {ps : List Piece} (h : Duration s neg ps) (frac : Nat → Nat → Nat → Nat) : parseDuration frac s = signed neg (ps.map (pieceValue frac)).sum := by
  obtain ⟨h1, h2, h3⟩ := h
  have hu := @unsigned_parts frac ps h2 h1
  generalize (ps.map (pieceValue frac)).sum = t at *
  have pos : (match parseUnsignedDuration frac (Piece.texts ps) with | some d => if d > 2 ^ 63 - 1 then none else some (d : Int) | none => none) = signed false t := by
    rw [hu]
    show _ = if t < 2 ^ 63 then some (t : Int) else none
    by_cases ht : t < 2 ^ 63
    · rw [if_pos (by omega), if_pos ht]
      exact if_neg (by omega)
    · rw [if_neg ht]
      split
      · rename_i heq
        split at heq
        · cases heq; exact if_pos (by omega)
        · cases heq
      · rfl
  rcases h3 with ⟨rfl, rfl⟩ | ⟨rfl, rfl | rfl⟩
  · have e : parseDuration frac ('-' :: Piece.texts ps) = (parseUnsignedDuration frac (Piece.texts ps)).map fun d => -(d : Int) := rfl
    rw [e, hu]
    unfold signed
    rw [if_pos rfl]
    split <;> rfl
  · rw [← pos]
    obtain ⟨c, t, hc⟩ : ∃ c t, Piece.texts ps = c :: t := by
      cases hx : Piece.texts ps with
      | nil =>
        have := texts_length h2
        rw [hx] at this
        exact absurd (List.eq_nil_of_length_eq_zero (by simpa using this)) h1
      | cons c t => exact ⟨c, t, rfl⟩
    have hn := texts_next h2 c t hc
    rw [hc]
    unfold parseDuration
    split
    · rename_i heq; cases heq; rcases hn with h | h <;> exact absurd h (by decide)
    · rename_i heq; cases heq; rcases hn with h | h <;> exact absurd h (by decide)
    · rfl
  · exact pos

/-- **C158** What is read as a duration is a zero, or numbers with units one after the other, with or without a sign. -/
theorem C158_texts {s : Str} {n : Int} (h : parseDuration goFrac s = some n) : (s ∈ ["0".toList, "+0".toList, "-0".toList] ∧ n = 0) ∨ ∃ neg ps, Duration s neg ps := by
  have key : ∀ {t : Str} {m : Nat}, parseUnsignedDuration goFrac t = some m → (t = ['0'] ∧ m = 0) ∨ ∃ ps : List Piece, ps ≠ [] ∧ (∀ p ∈ ps, p.Ok) ∧ t = Piece.texts ps := fun h => unsigned_conv h
  have pos : ∀ {t : Str}, (match parseUnsignedDuration goFrac t with | some d => if d > 2 ^ 63 - 1 then none else some (d : Int) | none => none) = some n →
      (t = ['0'] ∧ n = 0) ∨ ∃ ps : List Piece, ps ≠ [] ∧ (∀ p ∈ ps, p.Ok) ∧ t = Piece.texts ps := by
    intro t ht
    cases hu : parseUnsignedDuration goFrac t with
    | none => rw [hu] at ht; cases ht
    | some d =>
      rw [hu] at ht
      simp only at ht
      split at ht
      · cases ht
      · cases ht
        rcases key hu with ⟨h1, rfl⟩ | h1
        · exact .inl ⟨h1, rfl⟩
        · exact .inr h1
  unfold parseDuration at h
  split at h
  · rename_i t
    cases hu : parseUnsignedDuration goFrac t with
    | none => rw [hu] at h; cases h
    | some d =>
      rw [hu] at h
      cases h
      rcases key hu with ⟨rfl, rfl⟩ | ⟨ps, h1, h2, rfl⟩
      · exact .inl ⟨by decide, rfl⟩
      · exact .inr ⟨true, ps, h1, h2, .inl ⟨rfl, rfl⟩⟩
  · rename_i t
    rcases pos h with ⟨rfl, rfl⟩ | ⟨ps, h1, h2, rfl⟩
    · exact .inl ⟨by decide, rfl⟩
    · exact .inr ⟨false, ps, h1, h2, .inr ⟨rfl, .inr rfl⟩⟩
  · rcases pos h with ⟨rfl, rfl⟩ | ⟨ps, h1, h2, rfl⟩
    · exact .inl ⟨by decide, rfl⟩
    · exact .inr ⟨false, ps, h1, h2, .inr ⟨rfl, .inl rfl⟩⟩

theorem sum_exact {ps : List Piece} (h : ∀ p ∈ ps, p.Ok) (hs : ∀ p ∈ ps, p.Short) : (((ps.map (pieceValue goFrac)).sum : Nat) : ℚ) = total ps := by
  unfold total
  induction ps with
  | nil => rfl
  | cons p ps ih =>
    simp only [List.map_cons, List.sum_cons, Nat.cast_add]
    rw [piece_exact (h p (List.mem_cons_self ..)) (hs p (List.mem_cons_self ..)), ih (fun q hq => h q (List.mem_cons_of_mem _ hq)) (fun q hq => hs q (List.mem_cons_of_mem _ hq))]

theorem sum_near {ps : List Piece} (h : ∀ p ∈ ps, p.Ok) (hne : ps ≠ []) :
    (((ps.map (pieceValue goFrac)).sum : Nat) : ℚ) ≤ total ps + ps.length / 50 ∧ total ps < ((ps.map (pieceValue goFrac)).sum : Nat) + ps.length * (1 + 3 / 100) := by
  unfold total
  induction ps with
  | nil => exact absurd rfl hne
  | cons p ps ih =>
    obtain ⟨h1, h2⟩ := piece_near (h p (List.mem_cons_self ..))
    simp only [List.map_cons, List.sum_cons, Nat.cast_add, List.length_cons, Nat.cast_one]
    cases ps with
    | nil =>
      simp only [List.map_nil, List.sum_nil, List.length_nil, Nat.cast_zero]
      constructor <;> linarith
    | cons q qs =>
      obtain ⟨h3, h4⟩ := ih (fun q hq => h q (List.mem_cons_of_mem _ hq)) (by simp)
      constructor <;> linarith

/-- **C158** Durations in which no fraction has more digits than make whole nanoseconds are read as they are written, or refused if they do not fit 64 bits. -/
theorem C158_fraction {s : Str} {neg : Bool} {ps : List Piece} (h : Duration s neg ps) (hs : ∀ p ∈ ps, p.Short) : ∃ t : Nat, (t : ℚ) = total ps ∧ parseDuration goFrac s = signed neg t :=
  ⟨_, sum_exact h.2.1 hs, duration_value h goFrac⟩

/-- **C158 (the part that holds)** With any fractions the nanoseconds read are less than 1.03 short and at most 0.02 over for each part. -/
theorem C158_nearly_partial {s : Str} {neg : Bool} {ps : List Piece} (h : Duration s neg ps) :
    ∃ t : Nat, (t : ℚ) ≤ total ps + ps.length / 50 ∧ total ps < t + ps.length * (1 + 3 / 100) ∧ parseDuration goFrac s = signed neg t :=
  ⟨_, (sum_near h.2.1 h.1).1, (sum_near h.2.1 h.1).2, duration_value h goFrac⟩

/-- `1h30.5s`. -/
def sampleParts : List Piece := [⟨"1".toList, none, ("h".toList, 3600 * 10 ^ 9)⟩, ⟨"30".toList, some "5".toList, ("s".toList, 10 ^ 9)⟩]

instance decOnlyDigits (s : Str) : Decidable (OnlyDigits s) := by unfold OnlyDigits; infer_instance
instance decPieceOk (p : Piece) : Decidable p.Ok := by unfold Piece.Ok; infer_instance
instance decPieceShort (p : Piece) : Decidable p.Short := by unfold Piece.Short; infer_instance

example : Duration "-1h30.5s".toList true sampleParts ∧ (∀ p ∈ sampleParts, p.Short) ∧ parseDuration goFrac "-1h30.5s".toList = some (-3630500000000) := by
  refine ⟨⟨by decide, by decide +kernel, .inl ⟨rfl, by decide +kernel⟩⟩, by decide +kernel, by decide +kernel⟩

example : parseDuration goFrac "1.5h".toList = some 5400000000000 ∧ parseDuration goFrac ".5m".toList = some 30000000000 ∧ parseDuration goFrac "5.m".toList = some 300000000000 ∧ parseDuration goFrac ".h".toList = none ∧
    parseDuration goFrac "0.3333333333333333333h".toList = some 1200000000000 ∧ parseDuration goFrac "1.5".toList = none ∧ parseDuration goFrac "0.9ns".toList = some 0 := by decide +kernel

/-- A fraction of an hour that is a whole number of nanoseconds. -/
def lostPart : Piece := ⟨"0".toList, some "12727047794750".toList, ("h".toList, 3600 * 10 ^ 9)⟩

/-- **C158 (fails)** Fractions are computed with floating point numbers and lose nanoseconds: 0.12727047794750h are 458173720611 ns, and one less is read. -/
theorem C158_fraction_false : Duration "0.12727047794750h".toList false [lostPart] ∧ total [lostPart] = 458173720611 ∧ parseDuration goFrac "0.12727047794750h".toList = some 458173720610 := by
  refine ⟨⟨by decide, by decide +kernel, .inr ⟨rfl, .inl (by decide +kernel)⟩⟩, ?_, by decide +kernel⟩
  have h1 : number lostPart.int = 0 := by decide +kernel
  have h2 : number (lostPart.dot.getD []) = 12727047794750 := by decide +kernel
  have h3 : (lostPart.dot.getD []).length = 14 := by decide +kernel
  have h4 : lostPart.unit.2 = 3600 * 10 ^ 9 := rfl
  unfold total
  rw [List.map_cons, List.map_nil, List.sum_cons, List.sum_nil, Piece.amount, h1, h2, h3, h4]
  norm_num

end StayRTR
