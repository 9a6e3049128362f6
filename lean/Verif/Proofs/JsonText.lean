import Verif.Spec.JsonText
import Verif.Proofs.ParseExact

/-! # The JSON scanner accepts exactly the grammar -/

namespace StayRTR

open Spec

namespace JScan

/-- The state after a text. -/
def feed (s : JScan) (l : Str) : JScan := l.foldl step s

theorem feed_nil (s : JScan) : feed s [] = s := rfl
theorem feed_cons (s : JScan) (c : Char) (l : Str) : feed s (c :: l) = feed (s.step c) l := rfl
theorem feed_append (s : JScan) (a b : Str) : feed s (a ++ b) = feed (feed s a) b := List.foldl_append

theorem feed_done (st : List JFrame) (v : Json) (l : Str) : feed ⟨st, .done v⟩ l = ⟨st, .done v⟩ := by
  induction l with
  | nil => rfl
  | cons c l ih => rw [feed_cons]; exact ih

theorem feed_bad (st : List JFrame) (l : Str) : feed ⟨st, .bad⟩ l = ⟨st, .bad⟩ := by
  induction l with
  | nil => rfl
  | cons c l ih => rw [feed_cons]; exact ih

theorem run_done (st : List JFrame) (v : Json) (l : Str) : run ⟨st, .done v⟩ l = some v := by cases l <;> rfl

theorem run_bad (st : List JFrame) (l : Str) : run ⟨st, .bad⟩ l = none := by cases l <;> rfl

theorem run_cons (s : JScan) (c : Char) (l : Str) : run s (c :: l) = run (s.step c) l := by
  rw [run]
  rcases hs : s.step c with ⟨st, lx⟩
  cases lx <;> simp only [run_done, run_bad]

theorem run_append (s : JScan) (a b : Str) : run s (a ++ b) = run (feed s a) b := by
  induction a generalizing s with
  | nil => rfl
  | cons c a ih => rw [List.cons_append, run_cons, ih, feed_cons]

end JScan

/-! ## Strings -/

theorem unquote_plain {c : Char} (h : c ≠ '\\') (l : Str) : jsonUnquote 0 (c :: l) = c :: jsonUnquote 0 l := by
  rw [jsonUnquote]
  · intro _ _ _ _ _ h1; exact absurd h1 h
  · intro _ _ h1; exact absurd h1 h

theorem unquote_escape {c : Char} (h : c ≠ 'u') (l : Str) : jsonUnquote 0 ('\\' :: c :: l) = (jsonEscape c).getD runeError :: jsonUnquote 0 l := by
  rw [jsonUnquote]
  intro _ _ _ _ _ h1; exact absurd h1 h

theorem unquote_u (a b c d : Char) (l : Str) : jsonUnquote 0 ('\\' :: 'u' :: a :: b :: c :: d :: l) =
    if isSurrogate (jsonU4 a b c d) then
      match nextU4 l with
      | some m => match surrogatePair (jsonU4 a b c d) m with
        | some r => r :: jsonUnquote 6 l
        | none => runeError :: jsonUnquote 0 l
      | none => runeError :: jsonUnquote 0 l
    else runeOf (jsonU4 a b c d) :: jsonUnquote 0 l := by
  rw [jsonUnquote]
  rfl

theorem code4_iff (s : Str) (n : Nat) : Code4 s n ↔ ∃ a b c d, s = [a, b, c, d] ∧ (hexDigit a).isSome ∧ (hexDigit b).isSome ∧ (hexDigit c).isSome ∧ (hexDigit d).isSome ∧ n = jsonU4 a b c d := by
  constructor
  · rintro ⟨x, y, z, w, h, rfl⟩
    match s, h with
    | [a, b, c, d], h =>
      simp only [List.map_cons, List.map_nil, List.cons.injEq, and_true, hexValueOf_eq] at h
      refine ⟨a, b, c, d, rfl, by rw [h.1]; rfl, by rw [h.2.1]; rfl, by rw [h.2.2.1]; rfl, by rw [h.2.2.2]; rfl, ?_⟩
      have e : ∀ c, jsonHex c = hexDigit c := fun _ => rfl
      simp only [jsonU4, e, h.1, h.2.1, h.2.2.1, h.2.2.2, Option.getD_some]
    | [], h => simp at h
    | [_], h => simp at h
    | [_, _], h => simp at h
    | [_, _, _], h => simp at h
    | _ :: _ :: _ :: _ :: _ :: _, h => simp at h
  · rintro ⟨a, b, c, d, rfl, ha, hb, hc, hd, rfl⟩
    obtain ⟨x, hx⟩ := Option.isSome_iff_exists.mp ha
    obtain ⟨y, hy⟩ := Option.isSome_iff_exists.mp hb
    obtain ⟨z, hz⟩ := Option.isSome_iff_exists.mp hc
    obtain ⟨w, hw⟩ := Option.isSome_iff_exists.mp hd
    have e : ∀ c, jsonHex c = hexDigit c := fun _ => rfl
    refine ⟨x, y, z, w, by simp [hexValueOf_eq, hx, hy, hz, hw], ?_⟩
    simp only [jsonU4, e, hx, hy, hz, hw, Option.getD_some]

theorem hexDigit_lt {c : Char} {n : Nat} (h : hexDigit c = some n) : n < 16 := by
  unfold hexDigit at h
  have hn : '0'.toNat = 48 ∧ '9'.toNat = 57 ∧ 'a'.toNat = 97 ∧ 'f'.toNat = 102 ∧ 'A'.toNat = 65 ∧ 'F'.toNat = 70 := by decide
  split at h
  · cases h; omega
  · split at h
    · cases h; omega
    · split at h
      · cases h; omega
      · cases h

theorem code4_lt {s : Str} {n : Nat} (h : Code4 s n) : n < 65536 := by
  obtain ⟨x, y, z, w, h, rfl⟩ := h
  match s, h with
  | [a, b, c, d], h =>
    simp only [List.map_cons, List.map_nil, List.cons.injEq, and_true, hexValueOf_eq] at h
    have h1 := hexDigit_lt h.1
    have h2 := hexDigit_lt h.2.1
    have h3 := hexDigit_lt h.2.2.1
    have h4 := hexDigit_lt h.2.2.2
    omega
  | [], h => simp at h
  | [_], h => simp at h
  | [_, _], h => simp at h
  | [_, _, _], h => simp at h
  | _ :: _ :: _ :: _ :: _ :: _, h => simp at h

theorem char_of_code {n : Nat} (h : n < 0xD800 ∨ (0xDFFF < n ∧ n < 0x110000)) : (Char.ofNat n).toNat = n := by
  unfold Char.ofNat
  have : n.isValidChar := h
  rw [dif_pos this]
  rfl

theorem isCode_iff {c : Char} {n : Nat} (h : n < 0xD800 ∨ (0xDFFF < n ∧ n < 0x110000)) : IsCode c n ↔ c = runeOf n := by
  unfold IsCode runeOf
  constructor
  · intro hc
    rw [← hc]; exact (Char.ofNat_toNat c).symm
  · rintro rfl; exact char_of_code h

theorem char_not_surrogate (c : Char) : c.toNat < 0xD800 ∨ (0xDFFF < c.toNat ∧ c.toNat < 0x110000) := c.valid

theorem escape_iff (e : Char) (c : Char) : (∃ n, (e, n) ∈ escapes ∧ IsCode c n) ↔ jsonEscape e = some c := by
  have hc : ∀ n, n < 0xD800 → (IsCode c n ↔ c = Char.ofNat n) := fun n h => isCode_iff (.inl h)
  constructor
  · rintro ⟨n, h, hn⟩
    simp only [escapes, List.mem_cons, Prod.mk.injEq, List.not_mem_nil, or_false] at h
    rcases h with ⟨rfl, rfl⟩ | ⟨rfl, rfl⟩ | ⟨rfl, rfl⟩ | ⟨rfl, rfl⟩ | ⟨rfl, rfl⟩ | ⟨rfl, rfl⟩ | ⟨rfl, rfl⟩ | ⟨rfl, rfl⟩ <;>
      (rw [hc _ (by decide)] at hn; subst hn; decide)
  · intro h
    unfold jsonEscape at h
    repeat' split at h
    all_goals first | (cases h; done) | skip
    all_goals
      rename_i he
      subst he
      simp only [Option.some.injEq] at h
      subst h
      simp only [escapes, List.mem_cons, Prod.mk.injEq, List.not_mem_nil, or_false, IsCode]
      simp

/-- One unit of a string's text, as the scanner sees it. -/
inductive Tok : Str → Prop
  | plain {c : Char} (hc : 0x20 ≤ c.toNat) (hq : c ≠ '"') (hb : c ≠ '\\') : Tok [c]
  | escape {e : Char} (h : (jsonEscape e).isSome = true) : Tok ['\\', e]
  | code {a b c d : Char} (ha : (hexDigit a).isSome = true) (hb : (hexDigit b).isSome = true) (hc : (hexDigit c).isSome = true) (hd : (hexDigit d).isSome = true) : Tok ['\\', 'u', a, b, c, d]

/-- Text made of such units. -/
def RawLex (raw : Str) : Prop := ∃ toks : List Str, (∀ t ∈ toks, Tok t) ∧ raw = toks.flatten

theorem RawLex.nil : RawLex [] := ⟨[], by simp, rfl⟩

theorem RawLex.cons {t raw : Str} (ht : Tok t) (h : RawLex raw) : RawLex (t ++ raw) := by
  obtain ⟨ts, h1, rfl⟩ := h
  exact ⟨t :: ts, by simpa [ht] using h1, rfl⟩

theorem RawLex.snoc {t raw : Str} (h : RawLex raw) (ht : Tok t) : RawLex (raw ++ t) := by
  obtain ⟨ts, h1, rfl⟩ := h
  exact ⟨ts ++ [t], by simp only [List.mem_append, List.mem_singleton]; rintro x (hx | rfl); exacts [h1 x hx, ht], by simp⟩

theorem jsonEscape_ne_u {e : Char} (h : (jsonEscape e).isSome = true) : e ≠ 'u' := by rintro rfl; revert h; decide

theorem escape_isSome {e : Char} {n : Nat} (h : (e, n) ∈ escapes) : (jsonEscape e).isSome = true := by
  simp only [escapes, List.mem_cons, Prod.mk.injEq, List.not_mem_nil, or_false] at h
  rcases h with ⟨rfl, rfl⟩ | ⟨rfl, rfl⟩ | ⟨rfl, rfl⟩ | ⟨rfl, rfl⟩ | ⟨rfl, rfl⟩ | ⟨rfl, rfl⟩ | ⟨rfl, rfl⟩ | ⟨rfl, rfl⟩ <;> decide

theorem rawText_lex {raw s : Str} (h : RawText raw s) : RawLex raw := by
  induction h with
  | nil => exact .nil
  | plain hc hq hb _ ih => exact ih.cons (.plain hc hq hb)
  | escape he hc _ ih => exact ih.cons (.escape (escape_isSome he))
  | code hd hc _ ih =>
    obtain ⟨a, b, c, d, rfl, ha, hb, hc', hd', -⟩ := (code4_iff _ _).mp hd
    exact ih.cons (.code ha hb hc' hd')
  | pair hd he _ _ _ _ ih =>
    obtain ⟨a, b, c, d, rfl, ha, hb, hc', hd', -⟩ := (code4_iff _ _).mp hd
    obtain ⟨a2, b2, c2, d2, rfl, ha2, hb2, hc2, hd2, -⟩ := (code4_iff _ _).mp he
    exact (ih.cons (.code ha2 hb2 hc2 hd2)).cons (.code ha hb hc' hd')
  | half hd _ _ _ ih =>
    obtain ⟨a, b, c, d, rfl, ha, hb, hc', hd', -⟩ := (code4_iff _ _).mp hd
    exact ih.cons (.code ha hb hc' hd')

theorem unquote_six (a b c d : Char) (l : Str) : jsonUnquote 6 ('\\' :: 'u' :: a :: b :: c :: d :: l) = jsonUnquote 0 l := rfl

theorem rawText_unquote {raw s : Str} (h : RawText raw s) : jsonUnquote 0 raw = s := by
  induction h with
  | nil => rfl
  | plain hc hq hb _ ih => rw [unquote_plain hb, ih]
  | escape he hc _ ih =>
    rw [unquote_escape (jsonEscape_ne_u (escape_isSome he)), ih, (escape_iff _ _).mp ⟨_, he, hc⟩]
    rfl
  | @code ds n c r s hd hc _ ih =>
    have hn := char_not_surrogate c
    rw [hc] at hn
    obtain ⟨a, b, c', d, rfl, -, -, -, -, rfl⟩ := (code4_iff _ _).mp hd
    simp only [List.cons_append, List.nil_append]
    rw [unquote_u, if_neg, ih, (isCode_iff hn).mp hc]
    simp only [isSurrogate, Bool.and_eq_true, decide_eq_true_eq]
    omega
  | @pair ds es x y c r s hd he hx hy hc _ ih =>
    obtain ⟨a, b, c', d, rfl, -, -, -, -, rfl⟩ := (code4_iff _ _).mp hd
    obtain ⟨a2, b2, c2, d2, rfl, -, -, -, -, rfl⟩ := (code4_iff _ _).mp he
    simp only [List.cons_append, List.nil_append]
    rw [unquote_u, if_pos]
    · simp only [nextU4]
      have hp : surrogatePair (jsonU4 a b c' d) (jsonU4 a2 b2 c2 d2) = some c := by
        unfold surrogatePair
        rw [if_pos (by omega), (isCode_iff (by omega)).mp hc]
        have e : ∀ x y : Nat, (x - 0xD800) * 1024 + (y - 0xDC00) + 0x10000 = 0x10000 + (x - 0xD800) * 0x400 + (y - 0xDC00) := by intros; omega
        rw [e]
      rw [hp]
      simp only [unquote_six, ih]
    · simp only [isSurrogate, Bool.and_eq_true, decide_eq_true_eq]
      omega
  | @half ds x r s hd hx hr hrs ih =>
    obtain ⟨a, b, c', d, rfl, -, -, -, -, rfl⟩ := (code4_iff _ _).mp hd
    simp only [List.cons_append, List.nil_append]
    rw [unquote_u, if_pos]
    · cases hm : nextU4 r with
      | none => simp only [ih]; rfl
      | some m =>
        have : surrogatePair (jsonU4 a b c' d) m = none := by
          unfold surrogatePair
          rw [if_neg]
          rintro ⟨h1, h2, h3, h4⟩
          refine hr ⟨by omega, ?_⟩
          obtain ⟨toks, ht, rfl⟩ := rawText_lex hrs
          unfold nextU4 at hm
          split at hm
          · rename_i heq
            simp only [Option.some.injEq] at hm
            cases toks with
            | nil => simp at heq
            | cons t ts =>
              have htt := ht t (by simp)
              simp only [List.flatten_cons] at heq
              cases htt with
              | plain hc hq hb => simp only [List.cons_append, List.cons.injEq] at heq; exact absurd heq.1 hb
              | escape he => simp only [List.cons_append, List.cons.injEq] at heq; exact absurd heq.2.1 (jsonEscape_ne_u he)
              | @code a' b' c'' d' ha hb hc hd =>
                simp only [List.cons_append, List.cons.injEq, true_and, List.nil_append] at heq
                obtain ⟨rfl, rfl, rfl, rfl, rfl⟩ := heq
                exact ⟨[a', b', c'', d'], m, ts.flatten, rfl, (code4_iff _ _).mpr ⟨_, _, _, _, rfl, ha, hb, hc, hd, hm.symm⟩, by omega, by omega⟩
          · cases hm
        simp only [this, ih]; rfl
    · simp only [isSurrogate, Bool.and_eq_true, decide_eq_true_eq]
      omega

theorem rawLex_text {raw : Str} (h : RawLex raw) : RawText raw (jsonUnquote 0 raw) := by
  obtain ⟨toks, ht, rfl⟩ := h
  induction hn : toks.length using Nat.strongRecOn generalizing toks with
  | _ n ih =>
  cases toks with
  | nil => exact .nil
  | cons t ts =>
    have ih1 := ih ts.length (by simp at hn; omega) ts (fun x hx => ht x (by simp [hx])) rfl
    have htt := ht t (by simp)
    simp only [List.flatten_cons]
    cases htt with
    | @plain c hc hq hb =>
      simp only [List.cons_append, List.nil_append]
      rw [unquote_plain hb]
      exact .plain hc hq hb ih1
    | @escape e he =>
      simp only [List.cons_append, List.nil_append]
      rw [unquote_escape (jsonEscape_ne_u he)]
      obtain ⟨c, hc⟩ := Option.isSome_iff_exists.mp he
      obtain ⟨n, h1, h2⟩ := (escape_iff e c).mpr hc
      rw [hc]
      exact .escape h1 h2 ih1
    | @code a b c d ha hb hc hd =>
      have hcode : Code4 [a, b, c, d] (jsonU4 a b c d) := (code4_iff _ _).mpr ⟨a, b, c, d, rfl, ha, hb, hc, hd, rfl⟩
      have hlt := code4_lt hcode
      simp only [List.cons_append, List.nil_append]
      rw [unquote_u]
      split
      · rename_i hs
        simp only [isSurrogate, Bool.and_eq_true, decide_eq_true_eq] at hs
        have half : ¬ (jsonU4 a b c d ≤ 0xDBFF ∧ ∃ es y r', ts.flatten = '\\' :: 'u' :: (es ++ r') ∧ Code4 es y ∧ 0xDC00 ≤ y ∧ y ≤ 0xDFFF) →
            RawText ('\\' :: 'u' :: a :: b :: c :: d :: ts.flatten) (runeError :: jsonUnquote 0 ts.flatten) := fun hh =>
          RawText.half (ds := [a, b, c, d]) hcode (by omega) hh ih1
        cases hm : nextU4 ts.flatten with
        | none =>
          refine half ?_
          rintro ⟨-, es, y, r', he, h4, -⟩
          obtain ⟨a2, b2, c2, d2, rfl, -⟩ := (code4_iff _ _).mp h4
          rw [he] at hm
          simp [nextU4] at hm
        | some m =>
          cases hp : surrogatePair (jsonU4 a b c d) m with
          | none =>
            simp only [hp]
            refine half ?_
            rintro ⟨hx, es, y, r', he, h4, hy⟩
            obtain ⟨a2, b2, c2, d2, rfl, -, -, -, -, rfl⟩ := (code4_iff _ _).mp h4
            rw [he] at hm
            simp only [nextU4, List.cons_append, Option.some.injEq] at hm
            subst hm
            unfold surrogatePair at hp
            rw [if_pos (by omega)] at hp
            cases hp
          | some r =>
            have hp' := hp
            unfold surrogatePair at hp
            split at hp
            · rename_i hr
              simp only [Option.some.injEq] at hp
              simp only
              cases ts with
              | nil => simp [nextU4] at hm
              | cons t2 ts2 =>
                have ht2 := ht t2 (by simp)
                have ih2 := ih ts2.length (by simp at hn; omega) ts2 (fun x hx => ht x (by simp [hx])) rfl
                simp only [List.flatten_cons] at hm ⊢
                cases ht2 with
                | plain _ _ hb' =>
                  unfold nextU4 at hm
                  split at hm
                  · rename_i heq; simp only [List.cons_append, List.cons.injEq] at heq; exact absurd heq.1 hb'
                  · cases hm
                | escape he =>
                  unfold nextU4 at hm
                  split at hm
                  · rename_i heq; simp only [List.cons_append, List.cons.injEq] at heq; exact absurd heq.2.1 (jsonEscape_ne_u he)
                  · cases hm
                | @code a2 b2 c2 d2 ha2 hb2 hc2 hd2 =>
                  simp only [nextU4, List.cons_append, List.nil_append, Option.some.injEq] at hm ⊢
                  subst hm
                  simp only [hp', unquote_six]
                  have h2 : Code4 [a2, b2, c2, d2] (jsonU4 a2 b2 c2 d2) := (code4_iff _ _).mpr ⟨a2, b2, c2, d2, rfl, ha2, hb2, hc2, hd2, rfl⟩
                  refine RawText.pair (ds := [a, b, c, d]) (es := [a2, b2, c2, d2]) hcode h2 (by omega) (by omega) ?_ ih2
                  have e : ∀ x y : Nat, (x - 0xD800) * 1024 + (y - 0xDC00) + 0x10000 = 0x10000 + (x - 0xD800) * 0x400 + (y - 0xDC00) := by intros; omega
                  rw [isCode_iff (by omega), ← hp, e]
            · cases hp
      · rename_i hs
        simp only [isSurrogate, Bool.and_eq_true, decide_eq_true_eq] at hs
        exact RawText.code (ds := [a, b, c, d]) hcode ((isCode_iff (by omega)).mpr rfl) ih1

theorem rawText_iff (raw s : Str) : RawText raw s ↔ RawLex raw ∧ jsonUnquote 0 raw = s :=
  ⟨fun h => ⟨rawText_lex h, rawText_unquote h⟩, fun ⟨h, e⟩ => e ▸ rawLex_text h⟩

/-! ## Numbers -/

theorem digit_isSome (c : Char) : (digit c).isSome = jsonDigit c := by
  rw [digit_eq]
  show _ = isDec c
  split <;> simp_all

theorem jsonDigit_iff (c : Char) : jsonDigit c = true ↔ 48 ≤ c.toNat ∧ c.toNat ≤ 57 := by
  show isDec c = true ↔ _
  simp [isDec]

/-- What has been read of a number. -/
def NumAt : NumState → Str → Prop
  | .neg, s => s = ['-']
  | .zero, s => ∃ m, s = m ++ ['0'] ∧ (m = [] ∨ m = ['-'])
  | .int, s => ∃ m i, s = m ++ i ∧ (m = [] ∨ m = ['-']) ∧ Digits i ∧ i.head? ≠ some '0'
  | .dot, s => ∃ m i, s = m ++ (i ++ ['.']) ∧ (m = [] ∨ m = ['-']) ∧ IntPart i
  | .frac, s => ∃ m i ds, s = m ++ (i ++ '.' :: ds) ∧ (m = [] ∨ m = ['-']) ∧ IntPart i ∧ Digits ds
  | .e, s => ∃ m i f x, s = m ++ (i ++ (f ++ [x])) ∧ (m = [] ∨ m = ['-']) ∧ IntPart i ∧ FracPart f ∧ (x = 'e' ∨ x = 'E')
  | .esign, s => ∃ m i f x g, s = m ++ (i ++ (f ++ x :: [g])) ∧ (m = [] ∨ m = ['-']) ∧ IntPart i ∧ FracPart f ∧ (x = 'e' ∨ x = 'E') ∧ (g = '+' ∨ g = '-')
  | .exp, s => ∃ m i f x g ds, s = m ++ (i ++ (f ++ x :: (g ++ ds))) ∧ (m = [] ∨ m = ['-']) ∧ IntPart i ∧ FracPart f ∧ (x = 'e' ∨ x = 'E') ∧ (g = [] ∨ g = ['+'] ∨ g = ['-']) ∧ Digits ds

theorem digits_snoc {s : Str} {c : Char} (h : Digits s) (hc : jsonDigit c = true) : Digits (s ++ [c]) := by
  refine ⟨by simp, ?_⟩
  simp only [List.mem_append, List.mem_singleton]
  rintro x (hx | rfl)
  · exact h.2 x hx
  · rw [digit_isSome]; exact hc

theorem digits_single {c : Char} (hc : jsonDigit c = true) : Digits [c] := by
  refine ⟨by simp, ?_⟩
  simp only [List.mem_singleton]
  rintro x rfl
  rw [digit_isSome]; exact hc

theorem head_snoc {s : Str} (c : Char) (h : s ≠ []) : (s ++ [c]).head? = s.head? := by
  cases s with
  | nil => exact absurd rfl h
  | cons => rfl

theorem intPart_zero : IntPart ['0'] := ⟨digits_single (by decide), fun _ => rfl⟩

theorem intPart_int {i : Str} (h : Digits i) (h0 : i.head? ≠ some '0') : IntPart i := ⟨h, fun h' => absurd h' h0⟩

theorem numAt_next {st st' : NumState} {raw : Str} {c : Char} (h : NumAt st raw) (hn : st.next c = some st') : NumAt st' (raw ++ [c]) := by
  cases st with
  | neg =>
    simp only [NumAt] at h; subst h
    simp only [NumState.next] at hn
    split at hn
    · rename_i hc; cases hn; subst hc; exact ⟨['-'], rfl, .inr rfl⟩
    · rename_i hc
      split at hn
      · rename_i hd; cases hn
        refine ⟨['-'], [c], rfl, .inr rfl, digits_single hd, ?_⟩
        simp only [List.head?_cons, ne_eq, Option.some.injEq]; exact hc
      · cases hn
  | zero =>
    obtain ⟨m, rfl, hm⟩ := h
    simp only [NumState.next] at hn
    split at hn
    · rename_i hc; cases hn; subst hc; exact ⟨m, ['0'], by simp, hm, intPart_zero⟩
    · split at hn
      · rename_i hc; cases hn; exact ⟨m, ['0'], [], c, by simp, hm, intPart_zero, .inl rfl, hc⟩
      · cases hn
  | int =>
    obtain ⟨m, i, rfl, hm, hi, h0⟩ := h
    simp only [NumState.next] at hn
    split at hn
    · rename_i hd; cases hn
      exact ⟨m, i ++ [c], by simp, hm, digits_snoc hi hd, by rw [head_snoc _ hi.1]; exact h0⟩
    · split at hn
      · rename_i hc; cases hn; subst hc; exact ⟨m, i, by simp, hm, intPart_int hi h0⟩
      · split at hn
        · rename_i hc; cases hn; exact ⟨m, i, [], c, by simp, hm, intPart_int hi h0, .inl rfl, hc⟩
        · cases hn
  | dot =>
    obtain ⟨m, i, rfl, hm, hi⟩ := h
    simp only [NumState.next] at hn
    split at hn
    · rename_i hd; cases hn; exact ⟨m, i, [c], by simp, hm, hi, digits_single hd⟩
    · cases hn
  | frac =>
    obtain ⟨m, i, ds, rfl, hm, hi, hds⟩ := h
    simp only [NumState.next] at hn
    split at hn
    · rename_i hd; cases hn; exact ⟨m, i, ds ++ [c], by simp, hm, hi, digits_snoc hds hd⟩
    · split at hn
      · rename_i hc; cases hn; exact ⟨m, i, '.' :: ds, c, by simp, hm, hi, .inr ⟨ds, rfl, hds⟩, hc⟩
      · cases hn
  | e =>
    obtain ⟨m, i, f, x, rfl, hm, hi, hf, hx⟩ := h
    simp only [NumState.next] at hn
    split at hn
    · rename_i hc; cases hn; exact ⟨m, i, f, x, c, by simp, hm, hi, hf, hx, hc⟩
    · split at hn
      · rename_i hd; cases hn; exact ⟨m, i, f, x, [], [c], by simp, hm, hi, hf, hx, .inl rfl, digits_single hd⟩
      · cases hn
  | esign =>
    obtain ⟨m, i, f, x, g, rfl, hm, hi, hf, hx, hg⟩ := h
    simp only [NumState.next] at hn
    split at hn
    · rename_i hd; cases hn
      refine ⟨m, i, f, x, [g], [c], by simp, hm, hi, hf, hx, ?_, digits_single hd⟩
      rcases hg with rfl | rfl
      · exact .inr (.inl rfl)
      · exact .inr (.inr rfl)
    · cases hn
  | exp =>
    obtain ⟨m, i, f, x, g, ds, rfl, hm, hi, hf, hx, hg, hds⟩ := h
    simp only [NumState.next] at hn
    split at hn
    · rename_i hd; cases hn; exact ⟨m, i, f, x, g, ds ++ [c], by simp, hm, hi, hf, hx, hg, digits_snoc hds hd⟩
    · cases hn

theorem numAt_ends {st : NumState} {raw : Str} (h : NumAt st raw) (he : st.ends = true) : NumText raw := by
  cases st with
  | zero => obtain ⟨m, rfl, hm⟩ := h; exact ⟨m, ['0'], [], [], by simp, hm, intPart_zero, .inl rfl, .inl rfl⟩
  | int => obtain ⟨m, i, rfl, hm, hi, h0⟩ := h; exact ⟨m, i, [], [], by simp, hm, intPart_int hi h0, .inl rfl, .inl rfl⟩
  | frac => obtain ⟨m, i, ds, rfl, hm, hi, hds⟩ := h; exact ⟨m, i, '.' :: ds, [], by simp, hm, hi, .inr ⟨ds, rfl, hds⟩, .inl rfl⟩
  | exp => obtain ⟨m, i, f, x, g, ds, rfl, hm, hi, hf, hx, hg, hds⟩ := h; exact ⟨m, i, f, x :: (g ++ ds), rfl, hm, hi, hf, .inr ⟨x, g, ds, rfl, hx, hg, hds⟩⟩
  | neg => cases he
  | dot => cases he
  | e => cases he
  | esign => cases he

theorem feed_num_digits {stk : List JFrame} {st : NumState} (hst : ∀ c, jsonDigit c = true → st.next c = some st) {ds : Str} (h : ∀ c ∈ ds, (digit c).isSome = true) (acc : Str) :
    JScan.feed ⟨stk, .num st acc⟩ ds = ⟨stk, .num st (acc ++ ds)⟩ := by
  induction ds generalizing acc with
  | nil => simp [JScan.feed]
  | cons c ds ih =>
    rw [JScan.feed_cons]
    have hc : jsonDigit c = true := by rw [← digit_isSome]; exact h c (by simp)
    have : JScan.step ⟨stk, .num st acc⟩ c = ⟨stk, .num st (acc ++ [c])⟩ := by simp only [JScan.step, hst c hc]
    rw [this, ih (fun x hx => h x (by simp [hx]))]
    simp

theorem step_num {stk : List JFrame} {st st' : NumState} {acc : Str} {c : Char} (h : st.next c = some st') : JScan.step ⟨stk, .num st acc⟩ c = ⟨stk, .num st' (acc ++ [c])⟩ := by
  simp only [JScan.step, h]

theorem next_digit {c : Char} (h : jsonDigit c = true) : NumState.int.next c = some .int ∧ NumState.frac.next c = some .frac ∧ NumState.exp.next c = some .exp ∧
    NumState.dot.next c = some .frac ∧ NumState.esign.next c = some .exp ∧ NumState.e.next c = some .exp := by
  have hd := (jsonDigit_iff c).mp h
  have h1 : c ≠ '+' := by rintro rfl; revert hd; decide
  have h2 : c ≠ '-' := by rintro rfl; revert hd; decide
  simp [NumState.next, h, h1, h2]

theorem digits_cons {s : Str} (h : Digits s) : ∃ c l, s = c :: l ∧ jsonDigit c = true ∧ ∀ x ∈ l, (digit x).isSome = true := by
  obtain ⟨h1, h2⟩ := h
  cases s with
  | nil => exact absurd rfl h1
  | cons c l => exact ⟨c, l, rfl, by rw [← digit_isSome]; exact h2 c (by simp), fun x hx => h2 x (by simp [hx])⟩

/-- A first character that is not a space starts the value as `beginValue` does. -/
theorem feed_int {stk : List JFrame} {i : Str} (hi : IntPart i) (s : JScan) (acc : Str) (h0 : s.step '0' = ⟨stk, .num .zero (acc ++ ['0'])⟩)
    (h1 : ∀ c, jsonDigit c = true → c ≠ '0' → s.step c = ⟨stk, .num .int (acc ++ [c])⟩) :
    ∃ st, (st = .zero ∨ st = .int) ∧ s.feed i = ⟨stk, .num st (acc ++ i)⟩ := by
  obtain ⟨c, l, rfl, hc, hl⟩ := digits_cons hi.1
  by_cases hz : c = '0'
  · subst hz
    have := hi.2 rfl
    simp only [List.cons.injEq, true_and] at this
    subst this
    exact ⟨.zero, .inl rfl, h0⟩
  · refine ⟨.int, .inr rfl, ?_⟩
    rw [JScan.feed_cons, h1 c hc hz, feed_num_digits (fun c h => (next_digit h).1) hl]
    simp

theorem feed_numText {stk : List JFrame} {t : Str} (h : NumText t) : ∃ st, st.ends = true ∧ JScan.feed ⟨stk, .beginValue⟩ t = ⟨stk, .num st t⟩ := by
  obtain ⟨m, i, f, e, rfl, hm, hi, hf, he⟩ := h
  have hint : ∃ st, (st = NumState.zero ∨ st = NumState.int) ∧ JScan.feed ⟨stk, .beginValue⟩ (m ++ i) = ⟨stk, .num st (m ++ i)⟩ := by
    have ne : ∀ c, jsonDigit c = true → jsonSpace c = false ∧ c ≠ '{' ∧ c ≠ '[' ∧ c ≠ '"' ∧ c ≠ '-' := by
      intro c hc
      have hd := (jsonDigit_iff c).mp hc
      refine ⟨?_, ?_, ?_, ?_, ?_⟩
      · cases hs : jsonSpace c with
        | false => rfl
        | true =>
          simp only [jsonSpace, Bool.or_eq_true, beq_iff_eq] at hs
          rcases hs with ((rfl | rfl) | rfl) | rfl <;> (revert hd; decide)
      all_goals (rintro rfl; revert hd; decide)
    rcases hm with rfl | rfl
    · obtain ⟨st, h1, h2⟩ := feed_int (stk := stk) hi ⟨stk, .beginValue⟩ [] rfl (by
        intro c hc hz
        obtain ⟨a, b, c', d, e'⟩ := ne c hc
        simp [JScan.step, JScan.beginValue, a, b, c', d, e', hz, hc])
      exact ⟨st, h1, h2⟩
    · have hs : JScan.step ⟨stk, .beginValue⟩ '-' = ⟨stk, .num .neg ['-']⟩ := rfl
      obtain ⟨st, h1, h2⟩ := feed_int (stk := stk) hi ⟨stk, .num .neg ['-']⟩ ['-'] rfl (by
        intro c hc hz
        have : NumState.neg.next c = some .int := by simp [NumState.next, hc, hz]
        rw [step_num this])
      exact ⟨st, h1, by rw [List.singleton_append, JScan.feed_cons, hs, h2]; rfl⟩
  obtain ⟨st, hst, hfeed⟩ := hint
  have hfrac : ∃ st, (st = NumState.zero ∨ st = NumState.int ∨ st = NumState.frac) ∧ JScan.feed ⟨stk, .beginValue⟩ (m ++ i ++ f) = ⟨stk, .num st (m ++ i ++ f)⟩ := by
    rw [JScan.feed_append, hfeed]
    rcases hf with rfl | ⟨ds, rfl, hds⟩
    · exact ⟨st, by rcases hst with h | h <;> simp [h], by simp [JScan.feed]⟩
    · refine ⟨.frac, .inr (.inr rfl), ?_⟩
      obtain ⟨c, l, rfl, hc, hl⟩ := digits_cons hds
      have hdot : st.next '.' = some .dot := by rcases hst with rfl | rfl <;> rfl
      rw [JScan.feed_cons, step_num hdot, JScan.feed_cons, step_num (next_digit hc).2.2.2.1, feed_num_digits (fun c h => (next_digit h).2.1) hl]
      simp
  obtain ⟨st, hst, hfeed⟩ := hfrac
  have ha : m ++ (i ++ (f ++ e)) = m ++ i ++ f ++ e := by simp
  rw [ha, JScan.feed_append, hfeed]
  rcases he with rfl | ⟨x, g, ds, rfl, hx, hg, hds⟩
  · exact ⟨st, by rcases hst with h | h | h <;> (subst h; rfl), by simp [JScan.feed]⟩
  · refine ⟨.exp, rfl, ?_⟩
    obtain ⟨c, l, rfl, hc, hl⟩ := digits_cons hds
    have hxe : st.next x = some .e := by rcases hst with rfl | rfl | rfl <;> rcases hx with rfl | rfl <;> rfl
    rw [JScan.feed_cons, step_num hxe, JScan.feed_append]
    rcases hg with rfl | rfl | rfl
    · rw [JScan.feed_nil, JScan.feed_cons, step_num (next_digit hc).2.2.2.2.2, feed_num_digits (fun c h => (next_digit h).2.2.1) hl]
      simp
    · have hp : NumState.e.next '+' = some .esign := rfl
      rw [JScan.feed_cons (l := []), step_num hp, JScan.feed_nil, JScan.feed_cons, step_num (next_digit hc).2.2.2.2.1, feed_num_digits (fun c h => (next_digit h).2.2.1) hl]
      simp
    · have hp : NumState.e.next '-' = some .esign := rfl
      rw [JScan.feed_cons (l := []), step_num hp, JScan.feed_nil, JScan.feed_cons, step_num (next_digit hc).2.2.2.2.1, feed_num_digits (fun c h => (next_digit h).2.2.1) hl]
      simp

/-! ## Texts of the grammar are accepted -/

/-- What may follow a value. -/
def Delim (c : Char) : Prop := jsonSpace c = true ∨ c = ',' ∨ c = ']' ∨ c = '}'

/-- The state is at the end of the value `v`. -/
def After (stk : List JFrame) (v : Json) (s : JScan) : Prop := ∀ c, Delim c → s.step c = JScan.endValue stk v c

theorem delim_space : Delim ' ' := .inl rfl

theorem next_delim {st : NumState} {c : Char} (h : st.ends = true) (hc : Delim c) : st.next c = none := by
  have hd : jsonDigit c = false ∧ c ≠ '.' ∧ c ≠ 'e' ∧ c ≠ 'E' := by
    rcases hc with hc | rfl | rfl | rfl
    · simp only [jsonSpace, Bool.or_eq_true, beq_iff_eq] at hc
      rcases hc with ((rfl | rfl) | rfl) | rfl <;> decide
    all_goals decide
  obtain ⟨h1, h2, h3, h4⟩ := hd
  cases st <;> first | (cases h; done) | simp [NumState.next, h1, h2, h3, h4]

theorem after_end (stk : List JFrame) (v : Json) : After stk v ⟨stk, .endValue v⟩ := fun _ _ => rfl

theorem after_close (stk : List JFrame) (v : Json) : After stk v (JScan.close stk v) := by
  intro c _
  cases stk <;> rfl

theorem ws_space {s : Str} (h : Ws s) : ∀ c ∈ s, jsonSpace c = true := by
  intro c hc
  have := h c hc
  simp only [List.mem_cons, List.not_mem_nil, or_false] at this
  rcases this with rfl | rfl | rfl | rfl <;> rfl

theorem space_ws {c : Char} (h : jsonSpace c = true) : c ∈ [' ', '\t', '\n', '\r'] := by
  simp only [jsonSpace, Bool.or_eq_true, beq_iff_eq] at h
  rcases h with ((rfl | rfl) | rfl) | rfl <;> decide

/-- White space leaves a state alone that stays at each space. -/
theorem feed_ws {s : JScan} (h : ∀ c, jsonSpace c = true → s.step c = s) {w : Str} (hw : Ws w) : s.feed w = s := by
  induction w with
  | nil => rfl
  | cons c w ih =>
    rw [JScan.feed_cons, h c (ws_space hw c (by simp))]
    exact ih fun x hx => hw x (by simp [hx])

theorem ws_beginValue (stk : List JFrame) {w : Str} (hw : Ws w) : JScan.feed ⟨stk, .beginValue⟩ w = ⟨stk, .beginValue⟩ :=
  feed_ws (fun c hc => by simp [JScan.step, JScan.beginValue, hc]) hw

theorem ws_beginString (stk : List JFrame) {w : Str} (hw : Ws w) : JScan.feed ⟨stk, .beginString⟩ w = ⟨stk, .beginString⟩ :=
  feed_ws (fun c hc => by simp [JScan.step, JScan.beginString, hc]) hw

theorem ws_valueOrEmpty (stk : List JFrame) {w : Str} (hw : Ws w) : JScan.feed ⟨stk, .beginValueOrEmpty⟩ w = ⟨stk, .beginValueOrEmpty⟩ :=
  feed_ws (fun c hc => by simp [JScan.step, hc]) hw

theorem ws_stringOrEmpty (stk : List JFrame) {w : Str} (hw : Ws w) : JScan.feed ⟨stk, .beginStringOrEmpty⟩ w = ⟨stk, .beginStringOrEmpty⟩ :=
  feed_ws (fun c hc => by simp [JScan.step, hc]) hw

theorem endValue_space (f : JFrame) (fs : List JFrame) (v : Json) {c : Char} (h : jsonSpace c = true) : JScan.endValue (f :: fs) v c = ⟨f :: fs, .endValue v⟩ := by
  simp only [JScan.endValue, h, if_true]

theorem ws_endValue (f : JFrame) (fs : List JFrame) (v : Json) {w : Str} (hw : Ws w) : JScan.feed ⟨f :: fs, .endValue v⟩ w = ⟨f :: fs, .endValue v⟩ :=
  feed_ws (s := ⟨f :: fs, .endValue v⟩) (fun _ hc => endValue_space f fs v hc) hw

theorem after_ws {f : JFrame} {fs : List JFrame} {v : Json} {s : JScan} (h : After (f :: fs) v s) {w : Str} (hw : Ws w) : After (f :: fs) v (s.feed w) := by
  cases w with
  | nil => exact h
  | cons c w =>
    have hc := ws_space hw c (by simp)
    rw [JScan.feed_cons, h c (.inl hc), endValue_space _ _ _ hc, ws_endValue _ _ _ fun x hx => hw x (by simp [hx])]
    exact after_end _ _

theorem feed_tok {stk : List JFrame} {t : Str} (h : Tok t) (acc : Str) : JScan.feed ⟨stk, .inStr acc⟩ t = ⟨stk, .inStr (acc ++ t)⟩ := by
  cases h with
  | plain hc hq hb => simp [JScan.feed, JScan.step, hq, hb, Nat.not_lt.mpr hc]
  | escape he => simp [JScan.feed, JScan.step, he, jsonEscape_ne_u he]
  | code ha hb hc hd =>
    have e : ∀ c, jsonHex c = hexDigit c := fun _ => rfl
    simp [JScan.feed, JScan.step, e, ha, hb, hc, hd]

theorem feed_raw {stk : List JFrame} {raw : Str} (h : RawLex raw) (acc : Str) : JScan.feed ⟨stk, .inStr acc⟩ raw = ⟨stk, .inStr (acc ++ raw)⟩ := by
  obtain ⟨toks, ht, rfl⟩ := h
  induction toks generalizing acc with
  | nil => simp [JScan.feed]
  | cons t ts ih =>
    rw [List.flatten_cons, JScan.feed_append, feed_tok (ht t (by simp)), ih _ (fun x hx => ht x (by simp [hx]))]
    simp

theorem feed_quoted {stk : List JFrame} {s : JScan} (hs : s.step '"' = ⟨stk, .inStr []⟩) {q k : Str} (h : Quoted q k) : s.feed q = ⟨stk, .endValue (.str k)⟩ := by
  obtain ⟨raw, rfl, hr⟩ := h
  obtain ⟨hl, hu⟩ := (rawText_iff _ _).mp hr
  rw [JScan.feed_cons, hs, JScan.feed_append, feed_raw hl]
  simp [JScan.feed, JScan.step, hu]

theorem quoted_head {q k : Str} (h : Quoted q k) : ∃ l, q = '"' :: l := by
  obtain ⟨raw, rfl, -⟩ := h
  exact ⟨_, rfl⟩

theorem numText_head {t : Str} (h : NumText t) : ∃ c l, t = c :: l ∧ (c = '-' ∨ jsonDigit c = true) := by
  obtain ⟨m, i, f, e, rfl, hm, hi, -, -⟩ := h
  obtain ⟨c, l, rfl, hc, -⟩ := digits_cons hi.1
  rcases hm with rfl | rfl
  · exact ⟨c, _, rfl, .inr hc⟩
  · exact ⟨'-', _, rfl, .inl rfl⟩

theorem jText_head {n : Nat} {v : Json} {t : Str} (h : JText n v t) : ∃ c l, t = c :: l ∧ jsonSpace c = false ∧ c ≠ ']' := by
  cases h with
  | null => exact ⟨_, _, rfl, by decide, by decide⟩
  | true => exact ⟨_, _, rfl, by decide, by decide⟩
  | false => exact ⟨_, _, rfl, by decide, by decide⟩
  | num h =>
    obtain ⟨c, l, rfl, hc⟩ := numText_head h
    refine ⟨c, l, rfl, ?_, ?_⟩
    · rcases hc with rfl | hc
      · decide
      · have hd := (jsonDigit_iff c).mp hc
        cases hs : jsonSpace c with
        | false => rfl
        | true =>
          simp only [jsonSpace, Bool.or_eq_true, beq_iff_eq] at hs
          rcases hs with ((rfl | rfl) | rfl) | rfl <;> (revert hd; decide)
    · rcases hc with rfl | hc
      · decide
      · rintro rfl; revert hc; decide
  | str h => obtain ⟨l, rfl⟩ := quoted_head h; exact ⟨_, _, rfl, by decide, by decide⟩
  | noElems h => exact ⟨_, _, rfl, by decide, by decide⟩
  | elems h => exact ⟨_, _, rfl, by decide, by decide⟩
  | noMembers h => exact ⟨_, _, rfl, by decide, by decide⟩
  | members h => exact ⟨_, _, rfl, by decide, by decide⟩

theorem feed_orEmpty_text {stk : List JFrame} {n : Nat} {v : Json} {t : Str} (h : JText n v t) (r : Str) : JScan.feed ⟨stk, .beginValueOrEmpty⟩ (t ++ r) = JScan.feed ⟨stk, .beginValue⟩ (t ++ r) := by
  obtain ⟨c, l, rfl, h1, h2⟩ := jText_head h
  rw [List.cons_append, JScan.feed_cons, JScan.feed_cons]
  congr 1
  simp only [JScan.step, h1, h2, if_false, Bool.false_eq_true]

theorem feed_orEmpty_quoted {stk : List JFrame} {q k : Str} (h : Quoted q k) (r : Str) : JScan.feed ⟨stk, .beginStringOrEmpty⟩ (q ++ r) = JScan.feed ⟨stk, .beginString⟩ (q ++ r) := by
  obtain ⟨l, rfl⟩ := quoted_head h
  rfl

theorem elems_orEmpty {stk : List JFrame} {n : Nat} {l : List Json} {t : Str} (h : JElems n l t) : JScan.feed ⟨stk, .beginValueOrEmpty⟩ t = JScan.feed ⟨stk, .beginValue⟩ t := by
  cases h with
  | one ha h hb => rw [JScan.feed_append _ _ (_ ++ _), JScan.feed_append ⟨stk, .beginValue⟩ _ (_ ++ _), ws_valueOrEmpty _ ha, ws_beginValue _ ha, feed_orEmpty_text h]
  | cons ha h hb hr => rw [JScan.feed_append _ _ (_ ++ _), JScan.feed_append ⟨stk, .beginValue⟩ _ (_ ++ _), ws_valueOrEmpty _ ha, ws_beginValue _ ha, feed_orEmpty_text h]

theorem members_orEmpty {stk : List JFrame} {n : Nat} {l : List (Str × Json)} {t : Str} (h : JMembers n l t) : JScan.feed ⟨stk, .beginStringOrEmpty⟩ t = JScan.feed ⟨stk, .beginString⟩ t := by
  cases h with
  | one ha hq => rw [JScan.feed_append _ _ (_ ++ _), JScan.feed_append ⟨stk, .beginString⟩ _ (_ ++ _), ws_stringOrEmpty _ ha, ws_beginString _ ha, feed_orEmpty_quoted hq]
  | cons ha hq => rw [JScan.feed_append _ _ (_ ++ _), JScan.feed_append ⟨stk, .beginString⟩ _ (_ ++ _), ws_stringOrEmpty _ ha, ws_beginString _ ha, feed_orEmpty_quoted hq]

theorem close_arr (stk : List JFrame) (d : List Json) (v : Json) : JScan.endValue (.arr d :: stk) v ']' = JScan.close stk (.arr (d ++ [v])) := rfl
theorem comma_arr (stk : List JFrame) (d : List Json) (v : Json) : JScan.endValue (.arr d :: stk) v ',' = ⟨.arr (d ++ [v]) :: stk, .beginValue⟩ := rfl
theorem close_obj (stk : List JFrame) (d : List (Str × Json)) (k : Str) (v : Json) : JScan.endValue (.val d k :: stk) v '}' = JScan.close stk (.obj (d ++ [(k, v)])) := rfl
theorem comma_obj (stk : List JFrame) (d : List (Str × Json)) (k : Str) (v : Json) : JScan.endValue (.val d k :: stk) v ',' = ⟨.key (d ++ [(k, v)]) :: stk, .beginString⟩ := rfl

/-- A key and its colon. -/
theorem feed_key (stk : List JFrame) (d : List (Str × Json)) {a q b c k : Str} (ha : Ws a) (hq : Quoted q k) (hb : Ws b) (hc : Ws c) (r : Str) :
    JScan.feed ⟨.key d :: stk, .beginString⟩ (a ++ (q ++ (b ++ ':' :: (c ++ r)))) = JScan.feed ⟨.val d k :: stk, .beginValue⟩ r := by
  rw [JScan.feed_append, ws_beginString _ ha, JScan.feed_append, feed_quoted (stk := .key d :: stk) rfl hq, JScan.feed_append, ws_endValue _ _ _ hb, JScan.feed_cons]
  have : JScan.step ⟨.key d :: stk, .endValue (.str k)⟩ ':' = ⟨.val d k :: stk, .beginValue⟩ := rfl
  rw [this, JScan.feed_append, ws_beginValue _ hc]

mutual

theorem feed_text {n : Nat} {v : Json} {t : Str} (h : JText n v t) (stk : List JFrame) (hd : stk.length + n ≤ JScan.maxDepth) : After stk v (JScan.feed ⟨stk, .beginValue⟩ t) := by
  match h with
  | .null => exact after_end _ _
  | .true => exact after_end _ _
  | .false => exact after_end _ _
  | .num h =>
    obtain ⟨st, h1, h2⟩ := feed_numText (stk := stk) h
    rw [h2]
    intro c hc
    simp only [JScan.step, next_delim h1 hc, h1, if_true]
  | .str h => rw [feed_quoted (stk := stk) rfl h]; exact after_end _ _
  | .noElems (n := n) hw =>
    have hp : JScan.step ⟨stk, .beginValue⟩ '[' = ⟨.arr [] :: stk, .beginValueOrEmpty⟩ := by
      show JScan.push stk _ _ = _
      exact if_pos (by omega)
    rw [JScan.feed_cons, hp, JScan.feed_append, ws_valueOrEmpty _ hw]
    exact after_close _ _
  | .elems (n := n) he =>
    have hp : JScan.step ⟨stk, .beginValue⟩ '[' = ⟨.arr [] :: stk, .beginValueOrEmpty⟩ := by
      show JScan.push stk _ _ = _
      exact if_pos (by omega)
    rw [JScan.feed_cons, hp, JScan.feed_append, elems_orEmpty he, JScan.feed_cons, feed_elems he stk [] (by omega)]
    exact after_close _ _
  | .noMembers (n := n) hw =>
    have hp : JScan.step ⟨stk, .beginValue⟩ '{' = ⟨.key [] :: stk, .beginStringOrEmpty⟩ := by
      show JScan.push stk _ _ = _
      exact if_pos (by omega)
    rw [JScan.feed_cons, hp, JScan.feed_append, ws_stringOrEmpty _ hw]
    exact after_close _ _
  | .members (n := n) he =>
    have hp : JScan.step ⟨stk, .beginValue⟩ '{' = ⟨.key [] :: stk, .beginStringOrEmpty⟩ := by
      show JScan.push stk _ _ = _
      exact if_pos (by omega)
    rw [JScan.feed_cons, hp, JScan.feed_append, members_orEmpty he, JScan.feed_cons, feed_members he stk [] (by omega)]
    exact after_close _ _

theorem feed_elems {n : Nat} {l : List Json} {t : Str} (h : JElems n l t) (stk : List JFrame) (d : List Json) (hd : stk.length + 1 + n ≤ JScan.maxDepth) :
    (JScan.feed ⟨.arr d :: stk, .beginValue⟩ t).step ']' = JScan.close stk (.arr (d ++ l)) := by
  match h with
  | .one ha h hb =>
    have := after_ws (feed_text h (.arr d :: stk) (by simpa using hd)) hb
    rw [JScan.feed_append, ws_beginValue _ ha, JScan.feed_append, this _ (.inr (.inr (.inl rfl))), close_arr]
  | .cons (v := v) (l := l) ha h hb hr =>
    have := after_ws (feed_text h (.arr d :: stk) (by simpa using hd)) hb
    rw [JScan.feed_append, ws_beginValue _ ha, JScan.feed_append, JScan.feed_append, JScan.feed_cons, this _ (.inr (.inl rfl)), comma_arr, feed_elems hr stk _ hd]
    simp

theorem feed_members {n : Nat} {l : List (Str × Json)} {t : Str} (h : JMembers n l t) (stk : List JFrame) (d : List (Str × Json)) (hd : stk.length + 1 + n ≤ JScan.maxDepth) :
    (JScan.feed ⟨.key d :: stk, .beginString⟩ t).step '}' = JScan.close stk (.obj (d ++ l)) := by
  match h with
  | .one (k := k) ha hq hb hc h hdw =>
    have := after_ws (feed_text h (.val d k :: stk) (by simpa using hd)) hdw
    rw [feed_key stk d ha hq hb hc, JScan.feed_append, this _ (.inr (.inr (.inr rfl))), close_obj]
  | .cons (k := k) (v := v) (l := l) ha hq hb hc h hdw hr =>
    have := after_ws (feed_text h (.val d k :: stk) (by simpa using hd)) hdw
    rw [feed_key stk d ha hq hb hc, JScan.feed_append, JScan.feed_append, JScan.feed_cons, this _ (.inr (.inl rfl)), comma_obj, feed_members hr stk _ hd]
    simp

end

theorem open_arr : JScan.step JScan.start '[' = ⟨[.arr []], .beginValueOrEmpty⟩ := rfl
theorem open_key : JScan.step JScan.start '{' = ⟨[.key []], .beginStringOrEmpty⟩ := rfl

/-- Values other than numbers end by themselves. -/
theorem feed_text_top {n : Nat} {v : Json} {t : Str} (h : JText n v t) (hn : n ≤ JScan.maxDepth) (hv : ∀ l, v ≠ .num l) :
    JScan.feed JScan.start t = ⟨[], .endValue v⟩ ∨ JScan.feed JScan.start t = ⟨[], .done v⟩ := by
  have split : ∀ {c : Char} {t : Str} {s : JScan}, s.step c = ⟨[], .done v⟩ → JScan.feed JScan.start t = s → JScan.feed JScan.start (t ++ [c]) = ⟨[], .done v⟩ := by
    intro c t s h1 h2
    rw [JScan.feed_append, h2]; exact h1
  cases h with
  | null => exact .inl rfl
  | true => exact .inl rfl
  | false => exact .inl rfl
  | num h => exact absurd rfl (hv _)
  | str h => exact .inl (feed_quoted (stk := []) rfl h)
  | @noElems n w hw =>
    refine .inr (split (t := '[' :: w) ?_ rfl)
    have hp : JScan.step JScan.start '[' = ⟨[.arr []], .beginValueOrEmpty⟩ := open_arr
    rw [JScan.feed_cons, hp, ws_valueOrEmpty _ hw]; rfl
  | @elems n l t he =>
    refine .inr (split (t := '[' :: t) ?_ rfl)
    have hp : JScan.step JScan.start '[' = ⟨[.arr []], .beginValueOrEmpty⟩ := open_arr
    rw [JScan.feed_cons, hp, elems_orEmpty he, feed_elems he [] [] (by simp; omega)]; rfl
  | @noMembers n w hw =>
    refine .inr (split (t := '{' :: w) ?_ rfl)
    have hp : JScan.step JScan.start '{' = ⟨[.key []], .beginStringOrEmpty⟩ := open_key
    rw [JScan.feed_cons, hp, ws_stringOrEmpty _ hw]; rfl
  | @members n l t he =>
    refine .inr (split (t := '{' :: t) ?_ rfl)
    have hp : JScan.step JScan.start '{' = ⟨[.key []], .beginStringOrEmpty⟩ := open_key
    rw [JScan.feed_cons, hp, members_orEmpty he, feed_members he [] [] (by simp; omega)]; rfl

theorem readJson_complete {s : Str} {v : Json} (h : FirstValue s v) (hv : ∀ l, v ≠ .num l) : readJson s = some v := by
  obtain ⟨w, t, r, rfl, hw, ht⟩ := h
  unfold readJson
  rw [JScan.run_append, JScan.run_append]
  have : JScan.feed JScan.start w = JScan.start := ws_beginValue [] hw
  rw [this]
  rcases feed_text_top ht (Nat.le_refl _) hv with h | h
  · rw [h]; cases r <;> rfl
  · rw [h, JScan.run_done]

end StayRTR
