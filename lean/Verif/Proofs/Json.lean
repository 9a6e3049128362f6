import Verif.Spec.Json
import Verif.Proofs.JsonSound
import Verif.Proofs.Auth
import Verif.Proofs.FloatShort
import Mathlib.Data.List.TakeWhile

/-! # Decoding the files: characters, base64, fields -/

namespace StayRTR

open Spec

/-! ## UTF-8 -/

theorem contBits_some {lo hi y : Nat} {b : U8} (h : b.toNat = 0b10000000 + y) (hy : y < 64) (h1 : lo ≤ 128 + y) (h2 : 128 + y ≤ hi) : contBits lo hi b = some y := by
  unfold contBits
  rw [if_pos (by omega), h]
  congr 1
  omega

theorem goRunes_skip (a l : Bytes) : goRunes a.length (a ++ l) = goRunes 0 l := by
  induction a with
  | nil => rfl
  | cons x a ih => exact ih

theorem isCode_rune {c : Char} {n : Nat} (h : IsCode c n) : runeOf n = c := by
  unfold runeOf; rw [← h]; exact Char.ofNat_toNat c

theorem rune_eq {c : Char} {n m : Nat} (h : IsCode c n) (e : m = n) : runeOf m = c := by rw [e]; exact isCode_rune h

theorem goRunes_char {b : Bytes} {c : Char} (h : Utf8Char b c) (l : Bytes) : goRunes 0 (b ++ l) = c :: goRunes 0 l := by
  cases h with
  | @one b1 _ h hc =>
    have : decodeRune b1 l = (c, 0) := by unfold decodeRune; simp only [h, if_true, isCode_rune hc]
    rw [List.singleton_append, goRunes, this]
  | @two b1 b2 _ x y h1 h2 hx hy hs hc =>
    have : decodeRune b1 (b2 :: l) = (c, 1) := by
      unfold decodeRune
      simp only
      rw [if_neg (by omega), if_pos (by omega), contBits_some h2 hy (by omega) (by omega)]
      simp only [Prod.mk.injEq, and_true]
      exact rune_eq hc (by omega)
    rw [List.cons_append, List.singleton_append, goRunes, this]
    simp only [List.cons.injEq, true_and]
    exact goRunes_skip [b2] l
  | @three b1 b2 b3 _ x y z h1 h2 h3 hx hy hz hs hc =>
    have hv := char_not_surrogate c
    rw [hc] at hv
    have : decodeRune b1 (b2 :: b3 :: l) = (c, 2) := by
      unfold decodeRune
      simp only
      rw [if_neg (by omega), if_neg (by omega), if_pos (by omega), contBits_some h2 hy (by split <;> omega) (by split <;> omega), contBits_some h3 hz (by omega) (by omega)]
      simp only [Prod.mk.injEq, and_true]
      exact rune_eq hc (by omega)
    rw [List.cons_append, List.cons_append, List.singleton_append, goRunes, this]
    simp only [List.cons.injEq, true_and]
    exact goRunes_skip [b2, b3] l
  | @four b1 b2 b3 b4 _ x y z w h1 h2 h3 h4 hx hy hz hw hs hc =>
    have hv := char_not_surrogate c
    rw [hc] at hv
    have : decodeRune b1 (b2 :: b3 :: b4 :: l) = (c, 3) := by
      unfold decodeRune
      simp only
      rw [if_neg (by omega), if_neg (by omega), if_neg (by omega), if_pos (by omega), contBits_some h2 hy (by split <;> omega) (by split <;> omega), contBits_some h3 hz (by omega) (by omega),
        contBits_some h4 hw (by omega) (by omega)]
      simp only [Prod.mk.injEq, and_true]
      exact rune_eq hc (by omega)
    rw [List.cons_append, List.cons_append, List.cons_append, List.singleton_append, goRunes, this]
    simp only [List.cons.injEq, true_and]
    exact goRunes_skip [b2, b3, b4] l

theorem goRunes_utf8 {b : Bytes} {s : Str} (h : Utf8 b s) : goRunes 0 b = s := by
  induction h with
  | nil => rfl
  | cons hc _ ih => rw [goRunes_char hc, ih]

theorem Spec.Utf8.repaired {b : Bytes} {s : Str} (h : Utf8 b s) : Repaired b s := by
  induction h with
  | nil => exact .nil
  | cons hc _ ih => exact .good hc ih

theorem contBits_iff {lo hi y : Nat} {b : U8} (h : contBits lo hi b = some y) (hlo : 0x80 ≤ lo) (hhi : hi ≤ 0xBF) : b.toNat = 0b10000000 + y ∧ y < 64 ∧ lo ≤ 128 + y ∧ 128 + y ≤ hi := by
  unfold contBits at h
  split at h
  · simp only [Option.some.injEq] at h
    omega
  · cases h

theorem isCode_runeOf {n : Nat} (h : n < 0xD800 ∨ (0xDFFF < n ∧ n < 0x110000)) : IsCode (runeOf n) n := by
  have hv : n.isValidChar := h
  unfold IsCode runeOf Char.ofNat
  rw [dif_pos hv]
  rfl

/-- What `decodeRune` reads is a character, or it is the first byte of none. -/
theorem decodeRune_sound (x : U8) (l : Bytes) : (decodeRune x l = (runeError, 0)) ∨ ∃ r l', l = r ++ l' ∧ r.length = (decodeRune x l).2 ∧ Utf8Char (x :: r) (decodeRune x l).1 := by
  unfold decodeRune
  dsimp only
  split
  · rename_i h
    exact .inr ⟨[], l, rfl, rfl, .one h (isCode_runeOf (by omega))⟩
  · split
    · rename_i h0 h
      match l with
      | [] => exact .inl rfl
      | b1 :: l =>
        dsimp only
        split
        · rename_i y hy
          have := contBits_iff hy (by omega) (by omega)
          exact .inr ⟨[b1], l, rfl, rfl, .two (x := x.toNat - 0xC0) (by omega) this.1 (by omega) this.2.1 (by omega) (isCode_runeOf (by omega))⟩
        · exact .inl rfl
    · split
      · rename_i h0 h1 h
        match l with
        | [] => exact .inl rfl
        | [_] => exact .inl rfl
        | b1 :: b2 :: l =>
          dsimp only
          split
          · rename_i y z hy hz
            have a := contBits_iff hy (by split <;> omega) (by split <;> omega)
            have b := contBits_iff hz (by omega) (by omega)
            obtain ⟨a1, a2, a3, a4⟩ := a
            have e : ((x.toNat - 0xE0) * 64 + y) * 64 + z = (x.toNat - 0xE0) * 2 ^ 12 + y * 2 ^ 6 + z := by omega
            have hc : IsCode (runeOf (((x.toNat - 0xE0) * 64 + y) * 64 + z)) ((x.toNat - 0xE0) * 2 ^ 12 + y * 2 ^ 6 + z) := by
              rw [e]
              apply isCode_runeOf
              split at a3 <;> split at a4 <;> omega
            exact .inr ⟨[b1, b2], l, rfl, rfl, .three (x := x.toNat - 0xE0) (by omega) a1 b.1 (by omega) a2 b.2.1 (by split at a3 <;> omega) hc⟩
          · exact .inl rfl
      · split
        · rename_i h0 h1 h2 h
          match l with
          | [] => exact .inl rfl
          | [_] => exact .inl rfl
          | [_, _] => exact .inl rfl
          | b1 :: b2 :: b3 :: l =>
            dsimp only
            split
            · rename_i y z w hy hz hw
              have a := contBits_iff hy (by split <;> omega) (by split <;> omega)
              have b := contBits_iff hz (by omega) (by omega)
              have d := contBits_iff hw (by omega) (by omega)
              obtain ⟨a1, a2, a3, a4⟩ := a
              have e : (((x.toNat - 0xF0) * 64 + y) * 64 + z) * 64 + w = (x.toNat - 0xF0) * 2 ^ 18 + y * 2 ^ 12 + z * 2 ^ 6 + w := by omega
              have hc : IsCode (runeOf ((((x.toNat - 0xF0) * 64 + y) * 64 + z) * 64 + w)) ((x.toNat - 0xF0) * 2 ^ 18 + y * 2 ^ 12 + z * 2 ^ 6 + w) := by
                rw [e]
                apply isCode_runeOf
                split at a3 <;> split at a4 <;> omega
              exact .inr ⟨[b1, b2, b3], l, rfl, rfl, .four (x := x.toNat - 0xF0) (by omega) a1 b.1 d.1 (by omega) a2 b.2.1 d.2.1 (by split at a3 <;> omega) hc⟩
            · exact .inl rfl
        · exact .inl rfl

theorem decodeRune_bad {x : U8} {l : Bytes} (h : decodeRune x l = (runeError, 0)) : ∀ b l' c, x :: l = b ++ l' → ¬ Utf8Char b c := by
  intro b l' c he hc
  have h1 := goRunes_char hc l'
  rw [← he, goRunes, h] at h1
  simp only [List.cons.injEq] at h1
  obtain ⟨hce, _⟩ := h1
  -- the character cannot be U+FFFD: its three bytes would have been read
  cases hc with
  | one h2 hc =>
    rw [← hce] at hc
    have : runeError.toNat = 0xFFFD := by decide
    unfold IsCode at hc
    omega
  | @two b1 b2 _ p q h1 h2 hx hy hs hc =>
    rw [← hce] at hc
    have : runeError.toNat = 0xFFFD := by decide
    unfold IsCode at hc
    omega
  | @three b1 b2 b3 _ p q r h1 h2 h3 hx hy hz hs hc =>
    rw [← hce] at hc
    have h4 : runeError.toNat = 0xFFFD := by decide
    unfold IsCode at hc
    simp only [List.cons_append, List.nil_append, List.cons.injEq] at he
    obtain ⟨rfl, rfl⟩ := he
    unfold decodeRune at h
    simp only at h
    rw [if_neg (by omega), if_neg (by omega), if_pos (by omega), contBits_some h2 hy (by split <;> omega) (by split <;> omega), contBits_some h3 hz (by omega) (by omega)] at h
    cases congrArg Prod.snd h
  | @four b1 b2 b3 b4 _ p q r w h1 h2 h3 h4 hx hy hz hw hs hc =>
    rw [← hce] at hc
    have : runeError.toNat = 0xFFFD := by decide
    unfold IsCode at hc
    omega

theorem goRunes_repaired {b : Bytes} {s : Str} (h : Repaired b s) : goRunes 0 b = s := by
  induction h with
  | nil => rfl
  | good hc _ ih => rw [goRunes_char hc, ih]
  | @bad x l s hb _ ih =>
    rcases decodeRune_sound x l with h | ⟨r, l', rfl, _, hc⟩
    · rw [goRunes, h, ih]; rfl
    · exact absurd hc (hb (x :: r) l' _ rfl)

theorem repaired_goRunes (b : Bytes) : Repaired b (goRunes 0 b) := by
  generalize hn : b.length = n
  induction n using Nat.strongRecOn generalizing b with
  | _ n ih =>
    cases b with
    | nil => exact .nil
    | cons x l =>
      rw [goRunes]
      rcases decodeRune_sound x l with h | ⟨r, l', rfl, hl, hc⟩
      · rw [h]
        exact .bad (decodeRune_bad h) (ih l.length (by simp at hn; omega) l rfl)
      · rw [← hl, goRunes_skip]
        exact .good (b := x :: r) hc (ih l'.length (by simp at hn; omega) l' rfl)

theorem toNat_ofNat8 {n : Nat} (h : n < 256) : (BitVec.ofNat 8 n).toNat = n := by
  rw [BitVec.toNat_ofNat]; exact Nat.mod_eq_of_lt h

theorem utf8Char_bytes (c : Char) : Utf8Char (utf8Bytes c) c := by
  have hv := char_not_surrogate c
  unfold utf8Bytes
  simp only
  split
  · rename_i h
    refine .one ?_ ?_ <;> rw [toNat_ofNat8 (by omega)]
    · exact h
    · rfl
  split
  · refine .two (toNat_ofNat8 (by omega)) (toNat_ofNat8 (by omega)) (by omega) (by omega) (by omega) ?_
    show c.toNat = _; omega
  split
  · refine .three (toNat_ofNat8 (by omega)) (toNat_ofNat8 (by omega)) (toNat_ofNat8 (by omega)) (by omega) (by omega) (by omega) (by omega) ?_
    show c.toNat = _; omega
  · refine .four (toNat_ofNat8 (by omega)) (toNat_ofNat8 (by omega)) (toNat_ofNat8 (by omega)) (toNat_ofNat8 (by omega)) (by omega) (by omega) (by omega) (by omega) (by omega) ?_
    show c.toNat = _; omega

theorem utf8_str (s : Str) : Utf8 (utf8Str s) s := by
  induction s with
  | nil => exact .nil
  | cons c s ih => exact .cons (utf8Char_bytes c) ih

/-! ## Names -/

theorem spellsChar_iff (x c : Char) (hc : c.toNat < 128) : SpellsChar x c ↔ foldChar x = foldChar c := by
  by_cases hx : x.toNat < 128
  · have key : ∀ a b : Fin 128, (Char.ofNat a.val = Char.ofNat b.val ∨ Char.ofNat a.val = (Char.ofNat b.val).toUpper ∨ Char.ofNat a.val = (Char.ofNat b.val).toLower) ↔
        foldChar (Char.ofNat a.val) = foldChar (Char.ofNat b.val) := by decide +kernel
    have := key ⟨x.toNat, hx⟩ ⟨c.toNat, hc⟩
    simp only [Char.ofNat_toNat] at this
    rw [← this]
    unfold SpellsChar
    constructor
    · rintro (h | h | h | ⟨-, h⟩ | ⟨-, h⟩)
      · exact .inl h
      · exact .inr (.inl h)
      · exact .inr (.inr h)
      · omega
      · omega
    · rintro (h | h | h)
      · exact .inl h
      · exact .inr (.inl h)
      · exact .inr (.inr (.inl h))
  · have key : ∀ b : Fin 128, (Char.ofNat b.val).toUpper.toNat < 128 ∧ (Char.ofNat b.val).toLower.toNat < 128 ∧ (foldChar (Char.ofNat b.val)).toNat < 128 ∧
        ((Char.ofNat b.val).toUpper = 'S' ↔ 'S' = foldChar (Char.ofNat b.val)) ∧ ((Char.ofNat b.val).toUpper = 'K' ↔ 'K' = foldChar (Char.ofNat b.val)) := by decide +kernel
    have := key ⟨c.toNat, hc⟩
    simp only [Char.ofNat_toNat] at this
    obtain ⟨h1, h2, h3, h4, h5⟩ := this
    have hne : ∀ d : Char, d.toNat < 128 → x ≠ d := by rintro d hd rfl; exact hx hd
    have hz : 'z'.toNat = 122 := rfl
    unfold SpellsChar
    rw [h4, h5]
    have e1 : x.toNat = 0x17F ↔ x = 'ſ' := ⟨fun h => by rw [← Char.ofNat_toNat x, h], by rintro rfl; rfl⟩
    have e2 : x.toNat = 0x212A ↔ x = 'K' := ⟨fun h => by rw [← Char.ofNat_toNat x, h], by rintro rfl; rfl⟩
    rw [e1, e2]
    by_cases s1 : x = 'ſ'
    · subst s1
      have : foldChar 'ſ' = 'S' := by decide
      rw [this]
      simp only [hne c hc, hne _ h1, hne _ h2, false_or, and_true]
      constructor
      · rintro (h | ⟨-, h⟩)
        · exact h
        · exact absurd h (by decide)
      · exact .inl
    · by_cases s2 : x = 'K'
      · subst s2
        have : foldChar 'K' = 'K' := by decide
        rw [this]
        simp only [hne c hc, hne _ h1, hne _ h2, false_or, and_true]
        constructor
        · rintro (⟨-, h⟩ | h)
          · exact absurd h (by decide)
          · exact h
        · exact .inr
      · have : foldChar x = x := by
          unfold foldChar
          rw [if_neg (by omega), if_neg s1, if_neg s2]
        rw [this]
        simp only [hne c hc, hne _ h1, hne _ h2, s1, s2, and_false, or_false, hne _ h3]

/-- A field's name is ASCII. -/
def AsciiName (name : String) : Prop := ∀ c ∈ name.toList, c.toNat < 128

theorem spells_iff (n : Str) (name : String) (h : AsciiName name) : Spells n name ↔ foldName n = foldName name.toList := by
  unfold Spells AsciiName foldName at *
  generalize name.toList = l at *
  induction l generalizing n with
  | nil => cases n <;> simp
  | cons c l ih =>
    cases n with
    | nil => simp
    | cons x n =>
      rw [List.forall₂_cons, ih n (fun d hd => h d (List.mem_cons_of_mem _ hd)), spellsChar_iff x c (h c (by simp))]
      simp

/-! ## Base64 -/

theorem sextetOf_eq (c : Char) : sextetOf c = b64Value c := by
  by_cases h : c.toNat < 128
  · have key : ∀ n : Fin 128, sextetOf (Char.ofNat n.val) = b64Value (Char.ofNat n.val) := by decide +kernel
    have := key ⟨c.toNat, h⟩
    simpa using this
  · have h1 : b64Value c = none := by
      unfold b64Value
      simp only
      rw [if_neg (by omega), if_neg (by omega), if_neg (by omega), if_neg (by omega), if_neg (by omega)]
    have h2 : alphabet.idxOf? c = none := by
      rw [List.idxOf?_eq_none_iff]
      intro hm
      have : ∀ d ∈ alphabet, d.toNat < 128 := by decide +kernel
      exact h (this c hm)
    rw [h1, sextetOf, h2]; rfl

theorem bits_join (x y z w : BitVec 6) : bitsOf (b64Bytes (b64Join x y z w)) = bits x ++ (bits y ++ (bits z ++ bits w)) := by
  simp [bitsOf, bits, List.range, List.range.loop, b64Bytes, b64Join]

theorem bits_join_one (x y : BitVec 6) : ∃ u, u.length = 4 ∧ bits x ++ bits y = bitsOf ((b64Bytes (b64Join x y 0 0)).take 1) ++ u := by
  refine ⟨(bits y).drop 2, by simp [bits_length], ?_⟩
  simp [bitsOf, bits, List.range, List.range.loop, b64Bytes, b64Join]

theorem bits_join_two (x y z : BitVec 6) : ∃ u, u.length = 2 ∧ bits x ++ (bits y ++ bits z) = bitsOf ((b64Bytes (b64Join x y z 0)).take 2) ++ u := by
  refine ⟨(bits z).drop 4, by simp [bits_length], ?_⟩
  simp [bitsOf, bits, List.range, List.range.loop, b64Bytes, b64Join]

theorem b64Value_eq : b64Value '=' = none := by decide

/-- `Base64Text` without line ends. -/
def Base64Plain (s : Str) (b : Bytes) : Prop :=
  ∃ (t : Str) (p : Nat) (ds : List (BitVec 6)) (rest : List Bool), s = t ++ List.replicate p '=' ∧ p ≤ 2 ∧ (t.length + p) % 4 = 0 ∧
    t.map b64Value = ds.map some ∧ ds.flatMap bits = bitsOf b ++ rest ∧ rest.length < 8

theorem bitsOf_append (a b : Bytes) : bitsOf (a ++ b) = bitsOf a ++ bitsOf b := by simp [bitsOf]

theorem quads_sound {s : Str} {b : Bytes} (h : b64Quads s = some b) : Base64Plain s b := by
  induction hn : s.length using Nat.strongRecOn generalizing s b with
  | _ n ih =>
  match s, h with
  | [], h =>
    simp only [b64Quads, Option.some.injEq] at h
    subst h
    exact ⟨[], 0, [], [], rfl, by omega, rfl, rfl, rfl, by simp⟩
  | a :: b' :: c :: d :: l, h =>
    rw [b64Quads] at h
    split at h
    · rename_i x y hx hy
      split at h
      · rename_i hc
        split at h
        · rename_i hd
          obtain ⟨rfl, rfl⟩ := hd
          subst hc
          simp only [Option.some.injEq] at h
          subst h
          obtain ⟨u, hu, he⟩ := bits_join_one x y
          exact ⟨[a, b'], 2, [x, y], u, by simp [List.replicate], by omega, by simp, by simp [hx, hy], by simpa using he, by omega⟩
        · cases h
      · split at h
        · cases h
        · rename_i z hz
          split at h
          · rename_i hd
            split at h
            · rename_i hl
              subst hl; subst hd
              simp only [Option.some.injEq] at h
              subst h
              obtain ⟨u, hu, he⟩ := bits_join_two x y z
              exact ⟨[a, b', c], 1, [x, y, z], u, by simp [List.replicate], by omega, by simp, by simp [hx, hy, hz], by simpa using he, by omega⟩
            · cases h
          · split at h
            · rename_i w r hw hr
              simp only [Option.some.injEq] at h
              subst h
              obtain ⟨t, p, ds, rest, rfl, hp, hm, ht, hb, hrest⟩ := ih l.length (by simp at hn; omega) hr rfl
              refine ⟨a :: b' :: c :: d :: t, p, x :: y :: z :: w :: ds, rest, rfl, hp, ?_, ?_, ?_, hrest⟩
              · simp only [List.length_cons]; omega
              · simp [hx, hy, hz, hw, ht]
              · rw [bitsOf_append, bits_join]
                simp [hb]
            · cases h
    · cases h
  | [_], h => cases h
  | [_, _], h => cases h
  | [_, _, _], h => cases h

theorem map_some_cons {t : Str} {x : BitVec 6} {ds : List (BitVec 6)} (h : t.map b64Value = (x :: ds).map some) : ∃ a t', t = a :: t' ∧ b64Value a = some x ∧ t'.map b64Value = ds.map some := by
  cases t with
  | nil => simp at h
  | cons a t =>
    simp only [List.map_cons, List.cons.injEq] at h
    exact ⟨a, t, rfl, h.1, h.2⟩

theorem ne_pad {a : Char} {x : BitVec 6} (h : b64Value a = some x) : a ≠ '=' := by
  rintro rfl
  rw [b64Value_eq] at h; cases h

theorem flatBits_length (ds : List (BitVec 6)) : (ds.flatMap bits).length = 6 * ds.length := by
  induction ds with
  | nil => rfl
  | cons a l ih => rw [List.flatMap_cons, List.length_append, bits_length, ih, List.length_cons]; omega

theorem quads_complete {s : Str} {b : Bytes} (h : Base64Plain s b) : b64Quads s = some b := by
  obtain ⟨t, p, ds, rest, rfl, hp, hm, ht, hb, hrest⟩ := h
  induction hn : ds.length using Nat.strongRecOn generalizing t ds b with
  | _ n ih =>
  have hlen : t.length = ds.length := by simpa using congrArg List.length ht
  have hbl := congrArg List.length hb
  rw [flatBits_length, List.length_append, bitsOf_length] at hbl
  match ds, ht, hb, hlen, hbl with
  | [], ht, hb, hlen, hbl =>
    have : t = [] := by simpa using ht
    subst this
    have hp0 : p = 0 := by simp at hm; omega
    subst hp0
    have : b = [] := by
      cases b with
      | nil => rfl
      | cons => simp only [List.length_nil, List.length_cons] at hbl; omega
    subst this
    rfl
  | [x], ht, hb, hlen, hbl => simp only [List.length_cons, List.length_nil] at hlen; omega
  | [x, y], ht, hb, hlen, hbl =>
    simp only [List.length_cons, List.length_nil] at hlen hbl
    have hp2 : p = 2 := by omega
    subst hp2
    obtain ⟨a, t1, rfl, ha, ht⟩ := map_some_cons ht
    obtain ⟨b', t2, rfl, hb', ht⟩ := map_some_cons ht
    have : t2 = [] := by simpa using ht
    subst this
    have hl1 : b.length = 1 := by omega
    obtain ⟨u, hu, he⟩ := bits_join_one x y
    have hpre : (b64Bytes (b64Join x y 0 0)).take 1 <+: b := bitsOf_prefix (u := u) hrest (by rw [← he]; simpa using hb)
    have hbeq := List.IsPrefix.eq_of_length hpre (by rw [hl1]; rfl)
    show b64Quads [a, b', '=', '='] = some b
    rw [b64Quads, ha, hb', ← hbeq]
    simp
  | [x, y, z], ht, hb, hlen, hbl =>
    simp only [List.length_cons, List.length_nil] at hlen hbl
    have hp1 : p = 1 := by omega
    subst hp1
    obtain ⟨a, t1, rfl, ha, ht⟩ := map_some_cons ht
    obtain ⟨b', t2, rfl, hb', ht⟩ := map_some_cons ht
    obtain ⟨c, t3, rfl, hc, ht⟩ := map_some_cons ht
    have : t3 = [] := by simpa using ht
    subst this
    have hl1 : b.length = 2 := by omega
    obtain ⟨u, hu, he⟩ := bits_join_two x y z
    have hpre : (b64Bytes (b64Join x y z 0)).take 2 <+: b := bitsOf_prefix (u := u) hrest (by rw [← he]; simpa using hb)
    have hbeq := List.IsPrefix.eq_of_length hpre (by rw [hl1]; rfl)
    show b64Quads [a, b', c, '='] = some b
    rw [b64Quads, ha, hb', ← hbeq]
    simp [ne_pad hc, hc]
  | x :: y :: z :: w :: ds, ht, hb, hlen, hbl =>
    obtain ⟨a, t1, rfl, ha, ht⟩ := map_some_cons ht
    obtain ⟨b', t2, rfl, hb', ht⟩ := map_some_cons ht
    obtain ⟨c, t3, rfl, hc, ht⟩ := map_some_cons ht
    obtain ⟨d, t4, rfl, hd, ht⟩ := map_some_cons ht
    have hb2 : bitsOf (b64Bytes (b64Join x y z w)) ++ ds.flatMap bits = bitsOf b ++ rest := by rw [bits_join, ← hb]; simp
    obtain ⟨b2, rfl⟩ := bitsOf_prefix hrest hb2
    rw [bitsOf_append, List.append_assoc, List.append_cancel_left_eq] at hb2
    have := ih ds.length (by simp at hn; omega) t4 ds (by simp only [List.length_cons] at hm; omega) ht hb2 rfl
    simp only [List.cons_append]
    rw [b64Quads, ha, hb']
    simp [ne_pad hc, hc, ne_pad hd, hd, this]

theorem b64Decode_iff (s : Str) (b : Bytes) : b64Decode s = some b ↔ Base64Text s b := by
  have h1 : (s.filter fun c => !(c == '\n' || c == '\r')) = s.filter (fun c => c ≠ '\n' ∧ c ≠ '\r') := by
    apply List.filter_congr
    intro c _
    by_cases h : c = '\n' <;> by_cases h' : c = '\r' <;> simp [h, h']
  have h2 : ∀ t : Str, t.map sextetOf = t.map b64Value := fun t => List.map_congr_left fun c _ => sextetOf_eq c
  unfold b64Decode
  rw [h1]
  have h3 : Base64Text s b ↔ Base64Plain (s.filter (fun c => c ≠ '\n' ∧ c ≠ '\r')) b := by simp only [Base64Text, Base64Plain, h2]
  rw [h3]
  exact ⟨quads_sound, quads_complete⟩

/-! ## Fields -/

theorem jsonField_view {σ α : Type} {o : List (Str × Json)} {name name' : String} {dec : σ → Json → Option σ} {R : Json → α → Prop} {zero : σ} (f : σ → α) (hn : AsciiName name') (he : foldName name.toList = foldName name'.toList)
    (hr : o.Pairwise fun a b => ¬ ∃ name, Spells a.1 name ∧ Spells b.1 name) (hd : ∀ n j, (n, j) ∈ o → ∀ x, (dec zero j).map f = some x ↔ OrNull R (f zero) j x) (x : α) :
    (jsonField o name dec zero).map f = some x ↔ FieldIs o name' R (f zero) x := by
  unfold jsonField
  rw [he]
  induction o with
  | nil =>
    simp only [List.filter_nil, List.foldlM_nil, FieldIs]
    simp [eq_comm, pure]
  | cons m o ih =>
    obtain ⟨n, j⟩ := m
    obtain ⟨hr1, hr2⟩ := List.pairwise_cons.1 hr
    by_cases hs : Spells n name'
    · have hno : ∀ n' j', (n', j') ∈ o → ¬ Spells n' name' := fun n' j' hm hs' => hr1 _ hm ⟨name', hs, hs'⟩
      have hf : (o.filter fun m => foldName m.1 == foldName name'.toList) = [] := by
        rw [List.filter_eq_nil_iff]
        rintro ⟨n', j'⟩ hm hb
        exact hno n' j' hm ((spells_iff n' name' hn).2 (by simpa using hb))
      rw [List.filter_cons_of_pos (by simpa using (spells_iff n name' hn).1 hs), hf]
      simp only [List.foldlM_cons, List.foldlM_nil, bind_pure]
      rw [hd n j (by simp)]
      constructor
      · intro h; exact .inl ⟨n, j, by simp, hs, h⟩
      · rintro (⟨n', j', hm, hs', h⟩ | ⟨h, -⟩)
        · rcases List.mem_cons.1 hm with h' | h'
          · cases h'; exact h
          · exact (hno _ _ h' hs').elim
        · exact (h n j (by simp) hs).elim
    · have hb : ¬ (foldName n == foldName name'.toList) = true := by
        intro h; exact hs ((spells_iff n name' hn).2 (by simpa using h))
      rw [List.filter_cons_of_neg (by simpa using hb), ih hr2 fun n j hm => hd n j (by simp [hm])]
      unfold FieldIs
      constructor
      · rintro (⟨n', j', hm, h⟩ | ⟨h, hx⟩)
        · exact .inl ⟨n', j', by simp [hm], h⟩
        · refine .inr ⟨fun n' j' hm => ?_, hx⟩
          rcases List.mem_cons.1 hm with h' | h'
          · cases h'; exact hs
          · exact h n' j' h'
      · rintro (⟨n', j', hm, hs', h⟩ | ⟨h, hx⟩)
        · rcases List.mem_cons.1 hm with h' | h'
          · cases h'; exact (hs hs').elim
          · exact .inl ⟨n', j', h', hs', h⟩
        · exact .inr ⟨fun n' j' hm => h n' j' (by simp [hm]), hx⟩

/-! ## Values -/

theorem decText_iff (j : Json) (z x : Str) : decText z j = some x ↔ OrNull TextIs z j x := by
  cases j <;> simp [decText, OrNull, TextIs, eq_comm]

theorem decUint_iff (w : Nat) (j : Json) (z x : BitVec w) : decUint w z j = some x ↔ OrNull (UintIs w) z j x := by
  cases j with
  | null => simp [decUint, OrNull, eq_comm]
  | num lit =>
    simp only [decUint, litNat, OrNull, UintIs, denotes_iff]
    simp only [reduceCtorEq, false_and, false_or, ne_eq, not_false_eq_true, true_and, Json.num.injEq, exists_eq_left']
    cases h : parseDec lit with
    | none => simp
    | some n =>
      simp only [Option.some.injEq]
      constructor
      · intro h
        split at h
        · rename_i hn
          cases h
          rw [BitVec.toNat_ofNat, Nat.mod_eq_of_lt hn]
        · cases h
      · rintro rfl
        rw [if_pos x.isLt]
        simp
  | bool _ => simp [decUint, OrNull, UintIs]
  | str _ => simp [decUint, OrNull, UintIs]
  | arr _ => simp [decUint, OrNull, UintIs]
  | obj _ => simp [decUint, OrNull, UintIs]

theorem litInt_iff (lit : Str) (x : Int) : litInt lit = some x ↔ (∃ n : Nat, Denotes lit n ∧ x = n) ∨ ∃ (ds : Str) (n : Nat), lit = '-' :: ds ∧ Denotes ds n ∧ x = -n := by
  by_cases h : ∃ ds, lit = '-' :: ds
  · obtain ⟨ds, rfl⟩ := h
    simp only [litInt, denotes_iff, Option.map_eq_some_iff]
    constructor
    · rintro ⟨n, hn, rfl⟩
      exact .inr ⟨ds, n, rfl, hn, rfl⟩
    · rintro (⟨n, hn, -⟩ | ⟨ds', n, he, hn, rfl⟩)
      · simp [parseDec, isDec] at hn
      · cases he; exact ⟨n, hn, rfl⟩
  · have : litInt lit = (parseDec lit).map fun n : Nat => (n : Int) := by
      unfold litInt
      split
      · rename_i ds; exact (h ⟨ds, rfl⟩).elim
      · rfl
    rw [this]
    simp only [denotes_iff, Option.map_eq_some_iff]
    constructor
    · rintro ⟨n, hn, rfl⟩
      exact .inl ⟨n, hn, rfl⟩
    · rintro (⟨n, hn, rfl⟩ | ⟨ds', n, he, -⟩)
      · exact ⟨n, hn, rfl⟩
      · exact (h ⟨_, he⟩).elim

theorem decInt_iff (j : Json) (z x : Int) : decInt z j = some x ↔ OrNull IntIs z j x := by
  cases j with
  | null => simp [decInt, OrNull, eq_comm]
  | num lit =>
    simp only [decInt, OrNull, IntIs, ← litInt_iff]
    simp only [reduceCtorEq, false_and, false_or, ne_eq, not_false_eq_true, true_and, Json.num.injEq, exists_eq_left']
    cases h : litInt lit with
    | none => simp
    | some n =>
      simp only [Option.some.injEq]
      constructor
      · intro h
        split at h
        · rename_i hn
          cases h
          exact ⟨hn.1, hn.2, rfl⟩
        · cases h
      · rintro ⟨h1, h2, rfl⟩
        rw [if_pos ⟨h1, h2⟩]
  | bool _ => simp [decInt, OrNull, IntIs]
  | str _ => simp [decInt, OrNull, IntIs]
  | arr _ => simp [decInt, OrNull, IntIs]
  | obj _ => simp [decInt, OrNull, IntIs]

theorem decPtr_iff {α : Type} {zero : α} {dec : α → Json → Option α} {R : Json → α → Prop} {S : Json → Option α → Prop} (hS : ∀ j x, S j x ↔ ∃ n, x = some n ∧ R j n) (hd : ∀ j x, dec zero j = some x ↔ OrNull R zero j x)
    (j : Json) (x : Option α) : decPtr zero dec none j = some x ↔ OrNull S none j x := by
  by_cases hj : j = .null
  · subst hj; simp [decPtr, OrNull, eq_comm]
  · have : decPtr zero dec none j = (dec zero j).map some := by
      unfold decPtr
      split
      · exact (hj rfl).elim
      · rfl
    rw [this, Option.map_eq_some_iff]
    simp only [hd, OrNull, hj, false_and, false_or, ne_eq, not_false_eq_true, true_and, hS]
    constructor
    · rintro ⟨n, hn, rfl⟩; exact ⟨n, rfl, hn⟩
    · rintro ⟨n, rfl, hn⟩; exact ⟨n, hn, rfl⟩

theorem decElems_iff {σ α : Type} {zero : σ} {dec : σ → Json → Option σ} {R : Json → α → Prop} (f : σ → α) (l : List Json) (hd : ∀ j ∈ l, ∀ x, (dec zero j).map f = some x ↔ OrNull R (f zero) j x) (xs : List α) :
    (decElems zero dec [] l).map (List.map f) = some xs ↔ List.Forall₂ (OrNull R (f zero)) l xs := by
  induction l generalizing xs with
  | nil => simp [decElems, eq_comm]
  | cons j l ih =>
    have ih := ih fun j hj => hd j (by simp [hj])
    simp only [decElems, List.headD_nil, List.tail_nil]
    constructor
    · intro h
      split at h
      · cases h
      · rename_i a ha
        split at h
        · cases h
        · rename_i r hr
          cases h
          exact .cons ((hd j (by simp) (f a)).1 (by rw [ha]; rfl)) ((ih (r.map f)).1 (by rw [hr]; rfl))
    · intro h
      cases h with
      | cons h1 h2 =>
        obtain ⟨a, ha, rfl⟩ := Option.map_eq_some_iff.1 ((hd j (by simp) _).2 h1)
        obtain ⟨r, hr, rfl⟩ := Option.map_eq_some_iff.1 ((ih _).2 h2)
        rw [ha]
        simp only [hr, Option.map_some, List.map_cons]

theorem decArray_iff {σ α : Type} {zero : σ} {dec : σ → Json → Option σ} {R : Json → α → Prop} (f : σ → α) (l : List Json) (hd : ∀ j ∈ l, ∀ x, (dec zero j).map f = some x ↔ OrNull R (f zero) j x) (xs : List α) :
    (decArray zero dec ([], []) l).map (fun m => m.1.map f) = some xs ↔ List.Forall₂ (OrNull R (f zero)) l xs := by
  rw [← decElems_iff f l hd xs]
  cases l with
  | nil => simp [decArray, decElems]
  | cons j l => simp only [decArray, List.append_nil, Option.map_map, Function.comp_def]

theorem decSlice_iff {σ α : Type} {zero : σ} {dec : σ → Json → Option σ} {R : Json → α → Prop} (f : σ → α) (j : Json) (hd : ∀ l, j = .arr l → ∀ e ∈ l, ∀ x, (dec zero e).map f = some x ↔ OrNull R (f zero) e x) (x : Option (List α)) :
    (decSlice zero dec none j).map (Option.map fun m => m.1.map f) = some x ↔ OrNull (ListIs R (f zero)) none j x := by
  cases j with
  | arr l =>
    simp only [decSlice, OrNull, ListIs, reduceCtorEq, false_and, false_or, ne_eq, not_false_eq_true, true_and, Option.getD_none, Option.map_map, Function.comp_def, Option.map_some]
    constructor
    · intro h
      obtain ⟨m, hm, rfl⟩ := Option.map_eq_some_iff.1 h
      exact ⟨l, _, rfl, rfl, (decArray_iff f l (hd l rfl) _).1 (by rw [hm]; rfl)⟩
    · rintro ⟨es, xs, he, rfl, hx⟩
      cases he
      obtain ⟨m, hm, rfl⟩ := Option.map_eq_some_iff.1 ((decArray_iff f l (hd l rfl) xs).2 hx)
      rw [hm]; rfl
  | null => simp [decSlice, OrNull, eq_comm]
  | num _ => simp [decSlice, OrNull, ListIs]
  | bool _ => simp [decSlice, OrNull, ListIs]
  | str _ => simp [decSlice, OrNull, ListIs]
  | obj _ => simp [decSlice, OrNull, ListIs]

theorem decBytes_iff (j : Json) (x : Bytes) : (decBytes ([], []) j).map Prod.fst = some x ↔ OrNull BytesIs [] j x := by
  cases j with
  | arr l =>
    simp only [decBytes, OrNull, BytesIs, reduceCtorEq, false_and, false_or, ne_eq, not_false_eq_true, true_and, exists_false, Json.arr.injEq, exists_eq_left']
    have h := decArray_iff (R := UintIs 8) (zero := (0 : U8)) (dec := decUint 8) id l (fun j _ x => by rw [Option.map_id]; exact decUint_iff 8 j 0 x) x
    simpa using h
  | str s => simp [decBytes, OrNull, BytesIs, ← b64Decode_iff, Function.comp_def]
  | null => simp [decBytes, OrNull, eq_comm]
  | num _ => simp [decBytes, OrNull, BytesIs]
  | bool _ => simp [decBytes, OrNull, BytesIs]
  | obj _ => simp [decBytes, OrNull, BytesIs]

/-! ## Numbers into an interface -/

theorem floatTrunc_plain (n : Nat) (h : n < 10 ^ 15) : floatTrunc n 1 = some n := by
  unfold floatTrunc
  simp only [Nat.div_one, Nat.mul_one]
  by_cases h0 : n = 0
  · subst h0; decide
  · rw [if_neg h0]
    have hl : n.log2 < 50 := (Nat.log2_lt h0).2 (by omega)
    have hd : ∀ m, divEven m 1 = m := by
      intro m
      unfold divEven
      simp [Nat.mod_one]
    simp only [if_pos (show n.log2 ≤ 52 by omega), hd, Nat.mul_div_cancel _ (Nat.two_pow_pos _)]
    have : 2 ^ 50 ≤ 2 ^ 1024 := Nat.pow_le_pow_right (by omega) (by omega)
    rw [if_pos (by omega)]

theorem dec_plain {ds : Str} (h : ds.all isDec = true) : ds.head? ≠ some '-' ∧ ds.takeWhile (fun c => !(c == 'e' || c == 'E')) = ds ∧ ds.dropWhile (fun c => !(c == 'e' || c == 'E')) = [] ∧
    ds.takeWhile (· != '.') = ds ∧ ds.dropWhile (· != '.') = [] := by
  rw [List.all_eq_true] at h
  refine ⟨?_, ?_, ?_, ?_, ?_⟩
  · intro hh
    have := h '-' (List.mem_of_mem_head? hh)
    revert this; decide
  · rw [List.takeWhile_eq_self_iff]
    intro c hc
    have h1 : c ≠ 'e' := by rintro rfl; have := h _ hc; revert this; decide
    have h2 : c ≠ 'E' := by rintro rfl; have := h _ hc; revert this; decide
    simp [h1, h2]
  · rw [List.dropWhile_eq_nil_iff]
    intro c hc
    have h1 : c ≠ 'e' := by rintro rfl; have := h _ hc; revert this; decide
    have h2 : c ≠ 'E' := by rintro rfl; have := h _ hc; revert this; decide
    simp [h1, h2]
  · rw [List.takeWhile_eq_self_iff]
    intro c hc
    have h1 : c ≠ '.' := by rintro rfl; have := h _ hc; revert this; decide
    simp [h1]
  · rw [List.dropWhile_eq_nil_iff]
    intro c hc
    have h1 : c ≠ '.' := by rintro rfl; have := h _ hc; revert this; decide
    simp [h1]

theorem parseDec_all {ds : Str} {n : Nat} (h : parseDec ds = some n) : ds.all isDec = true ∧ decVal ds = n := by
  unfold parseDec at h
  split at h
  · rename_i hh; cases h; exact ⟨hh.2, rfl⟩
  · cases h

theorem litFloat_plain {ds : Str} {n : Nat} (h : parseDec ds = some n) (hn : n < 10 ^ 15) : litFloat ds = some (n : Int) ∧ litFloat ('-' :: ds) = some (-(n : Int)) := by
  obtain ⟨ha, hv⟩ := parseDec_all h
  obtain ⟨h1, h2, h3, h4, h5⟩ := dec_plain ha
  have h1' : (ds.head? == some '-') = false := by simpa using h1
  have hm : litMantissa ds = (n, 0) := by simp [litMantissa, h4, h5, hv]
  have p1 : litParts ds = (false, n, 0) := by
    unfold litParts
    simp only [h1', Bool.false_eq_true, if_false]
    rw [h2, h3, hm]
    rfl
  have p2 : litParts ('-' :: ds) = (true, n, 0) := by
    unfold litParts
    simp only [List.head?_cons, beq_self_eq_true, if_true, List.drop_one, List.tail_cons]
    rw [h2, h3, hm]
    rfl
  unfold litFloat
  rw [p1, p2]
  simp [floatTrunc_plain n hn]

/-- The numbers are numbers, and exponents are small. -/
def GoodNumbers (j : Json) : Prop := ∀ lit, Within (.num lit) j → NumText lit ∧ (lit.length < 9000 ∨ SmallExp lit)

theorem plain_elem {l : List Json} {j : Json} (h : GoodNumbers (.arr l)) (hj : j ∈ l) : GoodNumbers j := fun lit hw => h lit (.elem hj hw)

theorem plain_member {l : List (Str × Json)} {n : Str} {j : Json} (h : GoodNumbers (.obj l)) (hj : (n, j) ∈ l) : GoodNumbers j := fun lit hw => h lit (.member hj hw)

mutual

theorem floatsFit_iff : ∀ {j : Json}, floatsFit j = true ↔ ∀ lit, Within (.num lit) j → (litFloat lit).isSome = true
  | .null => ⟨fun _ _ h => (nomatch h), fun _ => rfl⟩
  | .bool _ => ⟨fun _ _ h => (nomatch h), fun _ => rfl⟩
  | .str _ => ⟨fun _ _ h => (nomatch h), fun _ => rfl⟩
  | .num lit => by
    rw [floatsFit]
    constructor
    · intro h lit' hw
      cases hw
      exact h
    · exact fun h => h lit .self
  | .arr l => by
    rw [floatsFit, floatsFitElems_iff]
    constructor
    · intro h lit hw
      cases hw with
      | elem hj hi => exact h _ hj lit hi
    · exact fun h j hj lit hw => h lit (.elem hj hw)
  | .obj l => by
    rw [floatsFit, floatsFitMembers_iff]
    constructor
    · intro h lit hw
      cases hw with
      | member hj hi => exact h _ _ hj lit hi
    · exact fun h n j hj lit hw => h lit (.member hj hw)

theorem floatsFitElems_iff : ∀ {l : List Json}, floatsFitElems l = true ↔ ∀ j ∈ l, ∀ lit, Within (.num lit) j → (litFloat lit).isSome = true
  | [] => by simp [floatsFitElems]
  | j :: l => by
    rw [floatsFitElems, Bool.and_eq_true, floatsFit_iff, floatsFitElems_iff (l := l)]
    simp only [List.forall_mem_cons]

theorem floatsFitMembers_iff : ∀ {l : List (Str × Json)}, floatsFitMembers l = true ↔ ∀ n j, (n, j) ∈ l → ∀ lit, Within (.num lit) j → (litFloat lit).isSome = true
  | [] => by simp [floatsFitMembers]
  | (n, j) :: l => by
    rw [floatsFitMembers, Bool.and_eq_true, floatsFit_iff, floatsFitMembers_iff (l := l)]
    constructor
    · rintro ⟨h1, h2⟩ n' j' hm
      rcases List.mem_cons.1 hm with hm | hm
      · cases hm; exact h1
      · exact h2 n' j' hm
    · exact fun h => ⟨h n j (by simp), fun n' j' hm => h n' j' (by simp [hm])⟩

end

theorem floats_good {j : Json} (hp : GoodNumbers j) : floatsFit j = true ↔ ∀ lit, Within (.num lit) j → ∃ x, FloatInt lit x := by
  rw [floatsFit_iff]
  refine forall_congr' fun lit => forall_congr' fun hw => ?_
  rw [Option.isSome_iff_exists]
  exact exists_congr fun x => litFloat_ordinary (hp lit hw).1 (hp lit hw).2 x

theorem decAsn_iff (j : Json) (hp : GoodNumbers j) (z x : AsnJson) : decAsn z j = some x ↔ OrNull JsonAsnIs .other j x := by
  have hf := floats_good hp
  cases j with
  | null => simp [decAsn, OrNull, floatsFit, eq_comm]
  | bool b =>
    have : ∀ lit, ¬ Within (.num lit) (.bool b) := fun lit h => nomatch h
    simp [decAsn, OrNull, floatsFit, JsonAsnIs, this, eq_comm]
  | str _ => simp [decAsn, OrNull, JsonAsnIs, eq_comm]
  | arr l =>
    simp only [decAsn, OrNull, JsonAsnIs, reduceCtorEq, false_and, false_or, ne_eq, not_false_eq_true, true_and, exists_false, implies_true]
    rw [← hf]
    by_cases h : floatsFit (.arr l) = true <;> simp [h, eq_comm]
  | obj l =>
    simp only [decAsn, OrNull, JsonAsnIs, reduceCtorEq, false_and, false_or, ne_eq, not_false_eq_true, true_and, exists_false, implies_true]
    rw [← hf]
    by_cases h : floatsFit (.obj l) = true <;> simp [h, eq_comm]
  | num lit =>
    simp only [decAsn, OrNull, JsonAsnIs, reduceCtorEq, false_and, false_or, ne_eq, not_false_eq_true, true_and, exists_false, Json.num.injEq, Option.map_eq_some_iff]
    constructor
    · rintro ⟨y, hy, rfl⟩
      exact .inl ⟨lit, y, rfl, (litFloat_ordinary (hp lit .self).1 (hp lit .self).2 y).1 hy, rfl⟩
    · rintro (⟨l, y, rfl, hy, rfl⟩ | ⟨-, h, -⟩)
      · exact ⟨y, (litFloat_ordinary (hp lit .self).1 (hp lit .self).2 y).2 hy, rfl⟩
      · exact (h _ rfl).elim

theorem jElems_mem {n : Nat} {j : Json} : ∀ {l : List Json} {t : Str}, JElems n l t → j ∈ l → ∃ t', JText n j t'
  | _, _, .one _ h _, hj => by rw [List.mem_singleton] at hj; subst hj; exact ⟨_, h⟩
  | _ :: l, _, .cons _ h _ hr, hj => by
    rcases List.mem_cons.1 hj with rfl | hj
    · exact ⟨_, h⟩
    · exact jElems_mem (l := l) hr hj
termination_by l => l.length

theorem jMembers_mem {n : Nat} {k : Str} {j : Json} : ∀ {l : List (Str × Json)} {t : Str}, JMembers n l t → (k, j) ∈ l → ∃ t', JText n j t'
  | _, _, .one _ _ _ _ h _, hj => by rw [List.mem_singleton] at hj; cases hj; exact ⟨_, h⟩
  | _ :: l, _, .cons _ _ _ _ h _ hr, hj => by
    rcases List.mem_cons.1 hj with hj | hj
    · cases hj; exact ⟨_, h⟩
    · exact jMembers_mem (l := l) hr hj
termination_by l => l.length

theorem jText_numbers {i v : Json} (hw : Within i v) : ∀ {n : Nat} {t : Str}, JText n v t → ∃ n' t', JText n' i t' := by
  induction hw with
  | self => exact fun h => ⟨_, _, h⟩
  | elem hm _ ih =>
    intro n t h
    cases h with
    | noElems => cases hm
    | elems he => obtain ⟨t', ht'⟩ := jElems_mem he hm; exact ih ht'
  | member hm _ ih =>
    intro n t h
    cases h with
    | noMembers => cases hm
    | members he => obtain ⟨t', ht'⟩ := jMembers_mem he hm; exact ih ht'

theorem firstValue_numbers {s : Str} {j : Json} (h : FirstValue s j) (hs : OrdinaryNumbers j) : GoodNumbers j := by
  obtain ⟨w, t, r, -, -, ht⟩ := h
  refine fun lit hw => ⟨?_, hs lit hw⟩
  obtain ⟨n', t', h⟩ := jText_numbers hw ht
  cases h with
  | num h => exact h

theorem intText_small {lit : Str} {x : Int} (h : IntText lit x) : SmallExp lit := by
  rintro a e sign ds n rfl he hs hd
  exfalso
  have hmem : e ∈ a ++ e :: (sign ++ ds) := by simp
  rcases h with ⟨m, hm, -⟩ | ⟨t, m, ht, hm, -⟩
  · have := isDec_plain ((denotes_dec hm).2.1 e hmem)
    rcases he with h | h <;> simp [h] at this
  · rw [ht] at hmem
    rcases List.mem_cons.1 hmem with h | hmem
    · rcases he with he | he <;> rw [he] at h <;> revert h <;> decide
    · have := isDec_plain ((denotes_dec hm).2.1 e hmem)
      rcases he with h | h <;> simp [h] at this

/-- A small integer is itself as a `float64`. -/
theorem intText_float {lit : Str} {x y : Int} (h : IntText lit x) (h0 : 0 ≤ x) (h1 : x < 2 ^ 32) : FloatInt lit y → y = x := by
  intro hy
  have := litFloat_of (intText_small h) hy
  rcases h with ⟨m, hm, rfl⟩ | ⟨t, m, rfl, hm, rfl⟩
  · rw [(litFloat_plain ((denotes_iff _ _).1 hm) (by omega)).1] at this
    exact (Option.some.inj this).symm
  · rw [(litFloat_plain ((denotes_iff _ _).1 hm) (by omega)).2] at this
    exact (Option.some.inj this).symm

/-! ## Structures -/

/-- What the decoder needs of a value to agree with the specification; the numbers only matter where some go into an interface. -/
def Plain (P : Prop) (j : Json) : Prop := NoRepeats j ∧ (P → GoodNumbers j)

theorem plainElem {P : Prop} {l : List Json} {j : Json} (h : Plain P (.arr l)) (hj : j ∈ l) : Plain P j := ⟨fun o hw => h.1 o (.elem hj hw), fun hP => plain_elem (h.2 hP) hj⟩

theorem plainMember {P : Prop} {l : List (Str × Json)} {n : Str} {j : Json} (h : Plain P (.obj l)) (hj : (n, j) ∈ l) : Plain P j := ⟨fun o hw => h.1 o (.member hj hw), fun hP => plain_member (h.2 hP) hj⟩

theorem field_view {P : Prop} {σ α : Type} {o : List (Str × Json)} (name name' : String) {dec : σ → Json → Option σ} {R : Json → α → Prop} {zero : σ} (f : σ → α) (hp : Plain P (.obj o))
    (hd : ∀ j, Plain P j → ∀ x, (dec zero j).map f = some x ↔ OrNull R (f zero) j x) (x : α)
    (hn : AsciiName name' := by unfold AsciiName; decide +kernel) (he : foldName name.toList = foldName name'.toList := by decide +kernel) : (∃ y, jsonField o name dec zero = some y ∧ f y = x) ↔ FieldIs o name' R (f zero) x := by
  rw [← jsonField_view f hn he (hp.1 o .self) (fun _ j hm => hd j (plainMember hp hm)) x, Option.map_eq_some_iff]

theorem field_iff {P : Prop} {α : Type} {o : List (Str × Json)} (name name' : String) {dec : α → Json → Option α} {R : Json → α → Prop} {zero : α} (hp : Plain P (.obj o))
    (hd : ∀ j, Plain P j → ∀ x, dec zero j = some x ↔ OrNull R zero j x) (x : α)
    (hn : AsciiName name' := by unfold AsciiName; decide +kernel) (he : foldName name.toList = foldName name'.toList := by decide +kernel) : jsonField o name dec zero = some x ↔ FieldIs o name' R zero x := by
  have := field_view name name' id hp (R := R) (fun j hj x => by rw [Option.map_id]; exact hd j hj x) x hn he
  simpa using this

theorem decStruct_view {σ α : Type} {members : σ → List (Str × Json) → Option σ} {R : Json → α → Prop} {zero : σ} (f : σ → α) (j : Json) (hR : ∀ x, R j x → ∃ o, j = .obj o)
    (h : ∀ o, j = .obj o → ∀ x, (∃ y, members zero o = some y ∧ f y = x) ↔ R (.obj o) x) (x : α) : (decStruct members zero j).map f = some x ↔ OrNull R (f zero) j x := by
  cases j with
  | null => simp [decStruct, OrNull, eq_comm]
  | obj o => simp [decStruct, OrNull, ← h o rfl]
  | _ =>
    simp only [decStruct, OrNull, reduceCtorEq, false_and, false_or, ne_eq, not_false_eq_true, true_and, false_iff, Option.map_none]
    intro hr
    obtain ⟨o, ho⟩ := hR x hr
    cases ho

theorem decStruct_iff {α : Type} {members : α → List (Str × Json) → Option α} {R : Json → α → Prop} {zero : α} (j : Json) (hR : ∀ x, R j x → ∃ o, j = .obj o)
    (h : ∀ o, j = .obj o → ∀ x, members zero o = some x ↔ R (.obj o) x) (x : α) : decStruct members zero j = some x ↔ OrNull R zero j x := by
  have := decStruct_view (R := R) id j hR (fun o ho x => by simpa using h o ho x) x
  rwa [Option.map_id] at this

theorem sliceD {P : Prop} {σ α : Type} {zero : σ} {dec : σ → Json → Option σ} {R : Json → α → Prop} (f : σ → α) (hd : ∀ j, Plain P j → ∀ x, (dec zero j).map f = some x ↔ OrNull R (f zero) j x) (j : Json) (hp : Plain P j) (x : Option (List α)) :
    (decSlice zero dec none j).map (Option.map fun m => m.1.map f) = some x ↔ OrNull (ListIs R (f zero)) none j x :=
  decSlice_iff f j (fun l hl e he => hd e (plainElem (hl ▸ hp) he)) x

theorem plainSliceD {P : Prop} {α : Type} {zero : α} {dec : α → Json → Option α} {R : Json → α → Prop} (hd : ∀ j, Plain P j → ∀ x, dec zero j = some x ↔ OrNull R zero j x) (j : Json) (hp : Plain P j) (x : Option (List α)) :
    (decSlice zero dec none j).map (Option.map Prod.fst) = some x ↔ OrNull (ListIs R zero) none j x := by
  have := sliceD (R := R) id (fun j hj x => by rw [Option.map_id]; exact hd j hj x) j hp x
  simpa using this

theorem textD {P : Prop} (j : Json) (_ : Plain P j) (x : Str) : decText [] j = some x ↔ OrNull TextIs [] j x := decText_iff j [] x
theorem uintD {P : Prop} (w : Nat) (j : Json) (_ : Plain P j) (x : BitVec w) : decUint w 0 j = some x ↔ OrNull (UintIs w) 0 j x := decUint_iff w j 0 x
theorem intD {P : Prop} (j : Json) (_ : Plain P j) (x : Int) : decInt 0 j = some x ↔ OrNull IntIs 0 j x := decInt_iff j 0 x
theorem intOptD {P : Prop} (j : Json) (_ : Plain P j) (x : Option Int) : decPtr 0 decInt none j = some x ↔ OrNull IntOptIs none j x := decPtr_iff (fun _ _ => Iff.rfl) (fun j x => decInt_iff j 0 x) j x
theorem u32OptD {P : Prop} (j : Json) (_ : Plain P j) (x : Option U32) : decPtr 0 (decUint 32) none j = some x ↔ OrNull Uint32OptIs none j x := decPtr_iff (fun _ _ => Iff.rfl) (fun j x => decUint_iff 32 j 0 x) j x
theorem bytesD {P : Prop} (j : Json) (_ : Plain P j) (x : Bytes) : (decBytes ([], []) j).map Prod.fst = some x ↔ OrNull BytesIs [] j x := decBytes_iff j x
theorem asnD (j : Json) (hp : Plain True j) (x : AsnJson) : decAsn .other j = some x ↔ OrNull JsonAsnIs .other j x := decAsn_iff j (hp.2 trivial) .other x

theorem vrpD (j : Json) (hp : Plain True j) (x : VRPJson) : decVrp .zero j = some x ↔ OrNull VrpIs ⟨[], 0, .other, [], none⟩ j x := by
  refine decStruct_iff (R := VrpIs) j (fun x h => ⟨h.choose, h.choose_spec.1⟩) ?_ x
  rintro o rfl v
  simp only [VRPJson.zero, Option.bind_eq_bind, Option.bind_eq_some_iff, field_iff "prefix" "prefix" hp textD, field_iff "maxLength" "maxLength" hp (uintD 8), field_iff "asn" "asn" hp asnD, field_iff "ta" "ta" hp textD, field_iff "expires" "expires" hp intOptD,
    VrpIs, Json.obj.injEq, exists_eq_left']
  constructor
  · rintro ⟨a, ha, b, hb, c, hc, d, hd, e, he, h⟩
    cases h
    exact ⟨ha, hb, hc, hd, he⟩
  · rintro ⟨ha, hb, hc, hd, he⟩
    exact ⟨_, ha, _, hb, _, hc, _, hd, _, he, rfl⟩

theorem keyD {P : Prop} (j : Json) (hp : Plain P j) (x : BgpSecKeyJson) : (decKey .zero j).map MemKey.key = some x ↔ OrNull KeyIs ⟨0, none, [], [], []⟩ j x := by
  refine decStruct_view (R := KeyIs) MemKey.key j (fun x h => ⟨h.choose, h.choose_spec.1⟩) ?_ x
  rintro o rfl v
  simp only [MemKey.zero, Option.bind_eq_bind, Option.bind_eq_some_iff, field_iff "ski" "ski" hp textD, field_iff "asn" "asn" hp (uintD 32), field_iff "ta" "ta" hp textD, field_iff "expires" "expires" hp intOptD,
    KeyIs, Json.obj.injEq, exists_eq_left', ← field_view "pubkey" "pubkey" Prod.fst hp bytesD]
  constructor
  · rintro ⟨_, ⟨a, ha, b, hb, c, hc, d, hd, e, he, h⟩, rfl⟩
    cases h
    exact ⟨ha, hb, hc, ⟨d, hd, rfl⟩, he⟩
  · rintro ⟨ha, hb, hc, ⟨d, hd, hd'⟩, he⟩
    refine ⟨_, ⟨_, ha, _, hb, _, hc, _, hd, _, he, rfl⟩, ?_⟩
    simp [MemKey.key, hd']

theorem metaD {P : Prop} (j : Json) (hp : Plain P j) (x : Metadata) : decMeta ⟨0, [], none⟩ j = some x ↔ OrNull MetaIs ⟨0, [], none⟩ j x := by
  refine decStruct_iff (R := MetaIs) j (fun x h => ⟨h.choose, h.choose_spec.1⟩) ?_ x
  rintro o rfl v
  simp only [Option.bind_eq_bind, Option.bind_eq_some_iff, field_iff "vrps" "vrps" hp intD, field_iff "bgpsec_pubkeys" "bgpsec_pubkeys" hp intD, field_iff "buildtime" "buildtime" hp textD, field_iff "generated" "generated" hp intOptD, field_iff "sessionid" "sessionid" hp intD,
    field_iff "serial" "serial" hp intD, MetaIs, Json.obj.injEq, exists_eq_left']
  constructor
  · rintro ⟨a, ha, b, hb, c, hc, d, hd, e, he, f, hf, h⟩
    cases h
    exact ⟨ha, hc, hd, ⟨b, hb⟩, ⟨e, he⟩, ⟨f, hf⟩⟩
  · rintro ⟨ha, hc, hd, ⟨b, hb⟩, ⟨e, he⟩, ⟨f, hf⟩⟩
    exact ⟨_, ha, _, hb, _, hc, _, hd, _, he, _, hf, rfl⟩

theorem cacheD (j : Json) (hp : Plain True j) (x : RPKIList) : (decList ⟨⟨0, [], none⟩, none, none⟩ j).map MemList.list = some x ↔ OrNull CacheIs ⟨⟨0, [], none⟩, none, none⟩ j x := by
  refine decStruct_view (R := CacheIs) MemList.list j (fun x h => ⟨h.choose, h.choose_spec.1⟩) ?_ x
  rintro o rfl v
  simp only [Option.bind_eq_bind, Option.bind_eq_some_iff, field_iff "metadata" "metadata" hp metaD, CacheIs, Json.obj.injEq, exists_eq_left']
  have h1 := field_view "roas" "roas" (R := ListIs VrpIs ⟨[], 0, .other, [], none⟩) (Option.map Prod.fst) hp (plainSliceD vrpD) v.roas
  have h2 := field_view "bgpsec_keys" "bgpsec_keys" (R := ListIs KeyIs ⟨0, none, [], [], []⟩) (Option.map fun m : Arr MemKey => m.1.map MemKey.key) hp (sliceD MemKey.key keyD) v.keys
  simp only [Option.map_none] at h1 h2
  rw [← h1, ← h2]
  constructor
  · rintro ⟨_, ⟨a, ha, b, hb, c, hc, h⟩, rfl⟩
    cases h
    exact ⟨ha, ⟨b, hb, rfl⟩, ⟨c, hc, rfl⟩⟩
  · rintro ⟨ha, ⟨b, hb, hb'⟩, ⟨c, hc, hc'⟩⟩
    refine ⟨_, ⟨_, ha, _, hb, _, hc, rfl⟩, ?_⟩
    simp only [MemList.list]
    rw [hc', show b.map (fun x => x.1) = v.roas from hb']

theorem prefixFilterD {P : Prop} (j : Json) (hp : Plain P j) (x : PrefixFilter) : decPrefixFilter ⟨[], none⟩ j = some x ↔ OrNull PrefixFilterIs ⟨[], none⟩ j x := by
  refine decStruct_iff (R := PrefixFilterIs) j (fun x h => ⟨h.choose, h.choose_spec.1⟩) ?_ x
  rintro o rfl v
  simp only [Option.bind_eq_bind, Option.bind_eq_some_iff, field_iff "Prefix" "prefix" hp textD, field_iff "asn" "asn" hp u32OptD, field_iff "Comment" "comment" hp textD, PrefixFilterIs, Json.obj.injEq, exists_eq_left']
  constructor
  · rintro ⟨a, ha, b, hb, c, hc, h⟩
    cases h
    exact ⟨ha, hb, c, hc⟩
  · rintro ⟨ha, hb, c, hc⟩
    exact ⟨_, ha, _, hb, _, hc, rfl⟩

theorem bgpsecFilterD {P : Prop} (j : Json) (hp : Plain P j) (x : BgpsecFilter) : (decBgpsecFilter ⟨none, ([], [])⟩ j).map MemFilter.filter = some x ↔ OrNull BgpsecFilterIs ⟨none, []⟩ j x := by
  refine decStruct_view (R := BgpsecFilterIs) MemFilter.filter j (fun x h => ⟨h.choose, h.choose_spec.1⟩) ?_ x
  rintro o rfl v
  simp only [Option.bind_eq_bind, Option.bind_eq_some_iff, field_iff "asn" "asn" hp u32OptD, field_iff "comment" "comment" hp textD, BgpsecFilterIs, Json.obj.injEq, exists_eq_left',
    ← field_view "SKI" "SKI" Prod.fst hp bytesD]
  constructor
  · rintro ⟨_, ⟨a, ha, b, hb, c, hc, h⟩, rfl⟩
    cases h
    exact ⟨ha, ⟨b, hb, rfl⟩, c, hc⟩
  · rintro ⟨ha, ⟨b, hb, hb'⟩, c, hc⟩
    exact ⟨_, ⟨_, ha, _, hb, _, hc, rfl⟩, by simp [MemFilter.filter, hb']⟩

theorem prefixAssertionD {P : Prop} (j : Json) (hp : Plain P j) (x : PrefixAssertion) : decPrefixAssertion ⟨[], 0, 0, []⟩ j = some x ↔ OrNull PrefixAssertionIs ⟨[], 0, 0, []⟩ j x := by
  refine decStruct_iff (R := PrefixAssertionIs) j (fun x h => ⟨h.choose, h.choose_spec.1⟩) ?_ x
  rintro o rfl v
  simp only [Option.bind_eq_bind, Option.bind_eq_some_iff, field_iff "Prefix" "prefix" hp textD, field_iff "ASN" "asn" hp (uintD 32), field_iff "MaxPrefixLength" "maxPrefixLength" hp intD, field_iff "Comment" "comment" hp textD, PrefixAssertionIs, Json.obj.injEq, exists_eq_left']
  constructor
  · rintro ⟨a, ha, b, hb, c, hc, d, hd, h⟩
    cases h
    exact ⟨ha, hb, hc, hd⟩
  · rintro ⟨ha, hb, hc, hd⟩
    exact ⟨_, ha, _, hb, _, hc, _, hd, rfl⟩

theorem bgpsecAssertionD {P : Prop} (j : Json) (hp : Plain P j) (x : BgpsecAssertion) :
    (decBgpsecAssertion ⟨([], []), 0, ([], [])⟩ j).map MemAssertion.assertion = some x ↔ OrNull BgpsecAssertionIs ⟨[], 0, []⟩ j x := by
  refine decStruct_view (R := BgpsecAssertionIs) MemAssertion.assertion j (fun x h => ⟨h.choose, h.choose_spec.1⟩) ?_ x
  rintro o rfl v
  simp only [Option.bind_eq_bind, Option.bind_eq_some_iff, field_iff "asn" "asn" hp (uintD 32), field_iff "comment" "comment" hp textD, BgpsecAssertionIs, Json.obj.injEq, exists_eq_left',
    ← field_view "SKI" "SKI" Prod.fst hp bytesD, ← field_view "routerPublicKey" "routerPublicKey" Prod.fst hp bytesD]
  constructor
  · rintro ⟨_, ⟨a, ha, b, hb, c, hc, d, hd, h⟩, rfl⟩
    cases h
    exact ⟨⟨a, ha, rfl⟩, hb, ⟨d, hd, rfl⟩, c, hc⟩
  · rintro ⟨⟨a, ha, ha'⟩, hb, ⟨d, hd, hd'⟩, c, hc⟩
    exact ⟨_, ⟨_, ha, _, hb, _, hc, _, hd, rfl⟩, by simp [MemAssertion.assertion, ha', hd']⟩

theorem filtersD {P : Prop} (j : Json) (hp : Plain P j) (x : Option (List PrefixFilter) × Option (List BgpsecFilter)) :
    (decFilters (none, none) j).map (fun m => (m.1.map Prod.fst, m.2.map fun l => l.1.map MemFilter.filter)) = some x ↔ OrNull FiltersIs (none, none) j x := by
  refine decStruct_view (R := FiltersIs) (fun m : Option (Arr PrefixFilter) × Option (Arr MemFilter) => (m.1.map Prod.fst, m.2.map fun l => l.1.map MemFilter.filter)) j (fun x h => ⟨h.choose, h.choose_spec.1⟩) ?_ x
  rintro o rfl v
  have h1 := field_view "PrefixFilters" "prefixFilters" (R := ListIs PrefixFilterIs ⟨[], none⟩) (Option.map Prod.fst) hp (plainSliceD prefixFilterD) v.1
  have h2 := field_view "BgpsecFilters" "bgpsecFilters" (R := ListIs BgpsecFilterIs ⟨none, []⟩) (Option.map fun m : Arr MemFilter => m.1.map MemFilter.filter) hp (sliceD MemFilter.filter bgpsecFilterD) v.2
  simp only [Option.map_none] at h1 h2
  simp only [Option.bind_eq_bind, Option.bind_eq_some_iff, FiltersIs, Json.obj.injEq, exists_eq_left']
  rw [← h1, ← h2]
  constructor
  · rintro ⟨_, ⟨a, ha, b, hb, h⟩, rfl⟩
    cases h
    exact ⟨⟨a, ha, rfl⟩, ⟨b, hb, rfl⟩⟩
  · rintro ⟨⟨a, ha, ha'⟩, ⟨b, hb, hb'⟩⟩
    exact ⟨_, ⟨_, ha, _, hb, rfl⟩, by simp [ha', hb']⟩

theorem assertionsD {P : Prop} (j : Json) (hp : Plain P j) (x : Option (List PrefixAssertion) × Option (List BgpsecAssertion)) :
    (decAssertions (none, none) j).map (fun m => (m.1.map Prod.fst, m.2.map fun l => l.1.map MemAssertion.assertion)) = some x ↔ OrNull AssertionsIs (none, none) j x := by
  refine decStruct_view (R := AssertionsIs) (fun m : Option (Arr PrefixAssertion) × Option (Arr MemAssertion) => (m.1.map Prod.fst, m.2.map fun l => l.1.map MemAssertion.assertion)) j (fun x h => ⟨h.choose, h.choose_spec.1⟩) ?_ x
  rintro o rfl v
  have h1 := field_view "PrefixAssertions" "prefixAssertions" (R := ListIs PrefixAssertionIs ⟨[], 0, 0, []⟩) (Option.map Prod.fst) hp (plainSliceD prefixAssertionD) v.1
  have h2 := field_view "BgpsecAssertions" "bgpsecAssertions" (R := ListIs BgpsecAssertionIs ⟨[], 0, []⟩) (Option.map fun m : Arr MemAssertion => m.1.map MemAssertion.assertion) hp (sliceD MemAssertion.assertion bgpsecAssertionD) v.2
  simp only [Option.map_none] at h1 h2
  simp only [Option.bind_eq_bind, Option.bind_eq_some_iff, AssertionsIs, Json.obj.injEq, exists_eq_left']
  rw [← h1, ← h2]
  constructor
  · rintro ⟨_, ⟨a, ha, b, hb, h⟩, rfl⟩
    cases h
    exact ⟨⟨a, ha, rfl⟩, ⟨b, hb, rfl⟩⟩
  · rintro ⟨⟨a, ha, ha'⟩, ⟨b, hb, hb'⟩⟩
    exact ⟨_, ⟨_, ha, _, hb, rfl⟩, by simp [ha', hb']⟩

theorem slurmD {P : Prop} (j : Json) (hp : Plain P j) (x : Slurm) : decSlurm j = some x ↔ OrNull SlurmIs ⟨[], [], [], []⟩ j x := by
  refine decStruct_iff (R := SlurmIs) j (fun x h => by obtain ⟨o, _, _, h, _⟩ := h; exact ⟨o, h⟩) ?_ x
  rintro o rfl v
  have h1 := fun f => field_view "ValidationOutputFilters" "validationOutputFilters" (R := FiltersIs) (fun m : Option (Arr PrefixFilter) × Option (Arr MemFilter) => (m.1.map Prod.fst, m.2.map fun l => l.1.map MemFilter.filter)) hp filtersD f
  have h2 := fun a => field_view "LocallyAddedAssertions" "locallyAddedAssertions" (R := AssertionsIs) (fun m : Option (Arr PrefixAssertion) × Option (Arr MemAssertion) => (m.1.map Prod.fst, m.2.map fun l => l.1.map MemAssertion.assertion)) hp assertionsD a
  simp only [Option.map_none] at h1 h2
  simp only [Option.bind_eq_bind, Option.bind_eq_some_iff, field_iff "SlurmVersion" "slurmVersion" hp intD, SlurmIs, Json.obj.injEq]
  have hg : ∀ {α β : Type} (g : α → β) (m : Option (Arr α)), (m.map fun l => l.1.map g).getD [] = (m.getD ([], [])).1.map g := by
    intro α β g m; cases m <;> rfl
  have hg' : ∀ {α : Type} (m : Option (Arr α)), (m.map Prod.fst).getD [] = (m.getD ([], [])).1 := by
    intro α m; cases m <;> rfl
  constructor
  · rintro ⟨a, ha, b, hb, c, hc, h⟩
    cases h
    exact ⟨o, _, _, rfl, ⟨a, ha⟩, (h1 _).1 ⟨b, hb, rfl⟩, (h2 _).1 ⟨c, hc, rfl⟩, by simp only [hg, hg']⟩
  · rintro ⟨_, f, g, rfl, ⟨a, ha⟩, hf, hg0, rfl⟩
    obtain ⟨b, hb, rfl⟩ := (h1 f).2 hf
    obtain ⟨c, hc, rfl⟩ := (h2 g).2 hg0
    exact ⟨_, ha, _, hb, _, hc, by simp only [hg, hg']⟩

/-! ## Cut files -/

/-- A continuation byte. -/
def IsCont (b : U8) : Prop := 0x80 ≤ b.toNat ∧ b.toNat ≤ 0xBF

theorem contBits_isCont {lo hi x : Nat} {b : U8} (h : contBits lo hi b = some x) (h1 : 0x80 ≤ lo) (h2 : hi ≤ 0xBF) : IsCont b := by
  unfold contBits at h
  split at h
  · exact ⟨by omega, by omega⟩
  · cases h

theorem decodeRune_cont (b : U8) (l : Bytes) (h : IsCont b) : decodeRune b l = (runeError, 0) := by
  obtain ⟨h1, h2⟩ := h
  unfold decodeRune
  simp only
  rw [if_neg (by omega), if_neg (by omega), if_neg (by omega), if_neg (by omega)]

theorem goRunes_conts (l : Bytes) (h : ∀ b ∈ l, IsCont b) : ∀ c ∈ goRunes 0 l, c = runeError := by
  induction l with
  | nil => simp [goRunes]
  | cons b l ih =>
    rw [goRunes, decodeRune_cont b l (h b (by simp))]
    intro c hc
    rcases List.mem_cons.1 hc with rfl | hc
    · rfl
    · exact ih (fun b hb => h b (by simp [hb])) c hc

/-- A character read from a part of the bytes that follow it is the same, or it is cut off. -/
theorem decodeRune_take (b : U8) (l : Bytes) (n : Nat) :
    (decodeRune b (l.take n) = decodeRune b l ∧ (decodeRune b l).2 ≤ n) ∨ (decodeRune b (l.take n) = (runeError, 0) ∧ ∀ x ∈ l.take n, IsCont x) := by
  unfold decodeRune
  simp only
  split
  · exact .inl ⟨rfl, Nat.zero_le _⟩
  split
  · match l, n with
    | [], _ => left; simp
    | b1 :: l, 0 => right; simp
    | b1 :: l, n + 1 =>
      left
      simp only [List.take_succ_cons, true_and]
      split <;> simp
  split
  · match l, n with
    | [], _ => left; simp
    | [b1], 0 => left; simp
    | [b1], n + 1 => left; simp
    | b1 :: b2 :: l, 0 => right; simp
    | b1 :: b2 :: l, 1 =>
      cases h1 : contBits (if b.toNat = 0xE0 then 0xA0 else 0x80) (if b.toNat = 0xED then 0x9F else 0xBF) b1 with
      | none => left; simp [h1]
      | some x => right; refine ⟨rfl, ?_⟩; simpa using contBits_isCont h1 (by split <;> omega) (by split <;> omega)
    | b1 :: b2 :: l, n + 2 =>
      left
      simp only [List.take_succ_cons, true_and]
      split <;> simp
  split
  · match l, n with
    | [], _ => left; simp
    | [b1], 0 => left; simp
    | [b1], n + 1 => left; simp
    | [b1, b2], 0 => left; simp
    | [b1, b2], 1 => left; simp
    | [b1, b2], n + 2 => left; simp
    | b1 :: b2 :: b3 :: l, 0 => right; simp
    | b1 :: b2 :: b3 :: l, 1 =>
      cases h1 : contBits (if b.toNat = 0xF0 then 0x90 else 0x80) (if b.toNat = 0xF4 then 0x8F else 0xBF) b1 with
      | none => left; simp [h1]
      | some x => right; refine ⟨rfl, ?_⟩; simpa using contBits_isCont h1 (by split <;> omega) (by split <;> omega)
    | b1 :: b2 :: b3 :: l, 2 =>
      cases h1 : contBits (if b.toNat = 0xF0 then 0x90 else 0x80) (if b.toNat = 0xF4 then 0x8F else 0xBF) b1 with
      | none => left; simp [h1]
      | some x =>
        cases h2 : contBits 0x80 0xBF b2 with
        | none => left; simp [h1, h2]
        | some y =>
          right; refine ⟨rfl, ?_⟩
          have := contBits_isCont h1 (by split <;> omega) (by split <;> omega)
          have := contBits_isCont h2 (by omega) (by omega)
          simp [*]
    | b1 :: b2 :: b3 :: l, n + 3 =>
      left
      simp only [List.take_succ_cons, true_and]
      split <;> simp
  · exact .inl ⟨rfl, Nat.zero_le _⟩

theorem goRunes_take (b : Bytes) (k n : Nat) (hk : k ≤ n) : ∃ m r, goRunes k (b.take n) = (goRunes k b).take m ++ r ∧ ∀ c ∈ r, c = runeError := by
  induction b generalizing k n with
  | nil => exact ⟨0, [], by simp [goRunes], by simp⟩
  | cons x b ih =>
    cases n with
    | zero =>
      obtain rfl : k = 0 := by omega
      exact ⟨0, [], by simp [goRunes], by simp⟩
    | succ n =>
      rw [List.take_succ_cons]
      cases k with
      | succ k => rw [goRunes, goRunes]; exact ih k n (by omega)
      | zero =>
        rw [goRunes, goRunes]
        rcases decodeRune_take x b n with ⟨h1, h2⟩ | ⟨h1, h2⟩
        · rw [h1]
          obtain ⟨m, r, h3, h4⟩ := ih _ n h2
          exact ⟨m + 1, r, by rw [h3]; simp, h4⟩
        · rw [h1]
          refine ⟨0, _, by rw [List.take_zero, List.nil_append], ?_⟩
          intro c hc
          rcases List.mem_cons.1 hc with rfl | hc
          · rfl
          · exact goRunes_conts _ h2 c hc

theorem readJson_take {b : Bytes} {n : Nat} {v : Json} (hv : ∀ l, v ≠ .num l) (h : readJson (goRunes 0 (b.take n)) = some v) : readJson (goRunes 0 b) = some v := by
  obtain ⟨m, r, h1, h2⟩ := goRunes_take b 0 n (Nat.zero_le _)
  rw [h1] at h
  have := firstValue_append (r := (goRunes 0 b).drop m) (firstValue_cut (fun c hc => .inr (h2 c hc)) (readJson_first h))
  rw [List.take_append_drop] at this
  exact readJson_complete this hv

theorem decStruct_num {α : Type} {members : α → List (Str × Json) → Option α} {old x : α} {j : Json} (h : decStruct members old j = some x) : ∀ l, j ≠ .num l := by
  rintro l rfl
  cases h

/-! ## Checking that a value is plain -/

theorem spellsChar_fold {x c : Char} (h : SpellsChar x c) : foldChar x = foldChar c := by
  by_cases hc : c.toNat < 128
  · exact (spellsChar_iff x c hc).1 h
  · have h1 : c.toUpper = c := by
      unfold Char.toUpper
      split
      · rename_i h; have := h.2; simp only [ge_iff_le, UInt32.le_iff_toNat_le] at this; exact absurd this (by simp; omega)
      · rfl
    have h2 : c.toLower = c := by
      unfold Char.toLower
      split
      · rename_i h; have := h.2; simp only [ge_iff_le, UInt32.le_iff_toNat_le] at this; exact absurd this (by simp; omega)
      · rfl
    unfold SpellsChar at h
    rw [h1, h2] at h
    rcases h with h | h | h | ⟨h, -⟩ | ⟨h, -⟩
    · rw [h]
    · rw [h]
    · rw [h]
    · rw [h] at hc; exact absurd (by decide) hc
    · rw [h] at hc; exact absurd (by decide) hc

theorem spells_fold {n : Str} {name : String} (h : Spells n name) : foldName n = foldName name.toList := by
  unfold Spells at h
  generalize name.toList = l at h
  induction h with
  | nil => rfl
  | cons h _ ih => simp only [foldName, List.map_cons] at ih ⊢; rw [spellsChar_fold h, ih]

/-- A number has an exponent of at most 5 characters, checked. -/
def plainLit (lit : Str) : Bool := decide ((lit.dropWhile fun c => !(c == 'e' || c == 'E')).length ≤ 6)

theorem plainLit_ok {lit : Str} (h : plainLit lit = true) : SmallExp lit := by
  rintro a e sign ds n rfl he - hd
  unfold plainLit at h
  rw [decide_eq_true_eq] at h
  have hl : (e :: (sign ++ ds)).length ≤ ((a ++ e :: (sign ++ ds)).dropWhile fun c => !(c == 'e' || c == 'E')).length := by
    induction a with
    | nil => rcases he with rfl | rfl <;> simp
    | cons c a ih =>
      simp only [List.cons_append, List.dropWhile_cons]
      split
      · rename_i hc
        exact ih (by simpa only [List.cons_append, List.dropWhile_cons, hc, if_true] using h)
      · simp only [List.length_cons, List.length_append]; omega
  have hlen : ds.length ≤ 5 := by
    simp only [List.length_cons, List.length_append] at hl h ⊢
    omega
  calc n < 10 ^ ds.length := denotes_lt hd
    _ ≤ 10 ^ 5 := Nat.pow_le_pow_right (by omega) hlen

mutual

/-- No name twice, and small exponents, checked. -/
def plainJson : Json → Bool
  | .num lit => plainLit lit
  | .arr l => plainElems l
  | .obj l => decide ((l.map fun m => foldName m.1).Nodup) && plainMembers l
  | _ => true

/-- Likewise of the elements of an array. -/
def plainElems : List Json → Bool
  | [] => true
  | v :: l => plainJson v && plainElems l

/-- Likewise of the members of an object. -/
def plainMembers : List (Str × Json) → Bool
  | [] => true
  | (_, v) :: l => plainJson v && plainMembers l

end

theorem plainElems_mem {l : List Json} (h : plainElems l = true) {j : Json} (hj : j ∈ l) : plainJson j = true := by
  induction l with
  | nil => cases hj
  | cons v l ih =>
    rw [plainElems, Bool.and_eq_true] at h
    rcases List.mem_cons.1 hj with rfl | hj
    · exact h.1
    · exact ih h.2 hj

theorem plainMembers_mem {l : List (Str × Json)} (h : plainMembers l = true) {n : Str} {j : Json} (hj : (n, j) ∈ l) : plainJson j = true := by
  induction l with
  | nil => cases hj
  | cons m l ih =>
    obtain ⟨n', v⟩ := m
    rw [plainMembers, Bool.and_eq_true] at h
    rcases List.mem_cons.1 hj with hj | hj
    · cases hj; exact h.1
    · exact ih h.2 hj

theorem plainJson_within {i j : Json} (h : Within i j) : plainJson j = true → plainJson i = true := by
  induction h with
  | self => exact id
  | elem hm _ ih => intro hp; rw [plainJson] at hp; exact ih (plainElems_mem hp hm)
  | member hm _ ih => intro hp; rw [plainJson, Bool.and_eq_true] at hp; exact ih (plainMembers_mem hp.2 hm)

theorem plainJson_ok {j : Json} (h : plainJson j = true) : NoRepeats j ∧ OrdinaryNumbers j := by
  constructor
  · intro o hw
    have := plainJson_within hw h
    rw [plainJson, Bool.and_eq_true, decide_eq_true_eq, List.Nodup, List.pairwise_map] at this
    refine this.1.imp ?_
    rintro a b hne ⟨name, h1, h2⟩
    exact hne ((spells_fold h1).trans (spells_fold h2).symm)
  · intro lit hw
    have := plainJson_within hw h
    rw [plainJson] at this
    exact .inr (plainLit_ok this)

theorem firstValue_head {s : Str} {v : Json} (h : FirstValue s v) : ∃ t r, s.dropWhile jsonSpace = t ++ r ∧ JText 10000 v t ∧ t ≠ [] := by
  obtain ⟨w, t, r, rfl, hw, ht⟩ := h
  obtain ⟨c, l, rfl, hc⟩ := jText_head ht
  refine ⟨c :: l, r, ?_, ht, by simp⟩
  induction w with
  | nil => simp [List.dropWhile_cons, hc]
  | cons x w ih =>
    have : jsonSpace x = true := by
      have := hw x (by simp)
      simp only [List.mem_cons, List.not_mem_nil, or_false] at this
      rcases this with rfl | rfl | rfl | rfl <;> rfl
    simp only [List.cons_append, List.dropWhile_cons, this, if_true]
    exact ih fun c hc => hw c (by simp [hc])

/-- A text that begins with an object begins with nothing else. -/
theorem firstValue_obj {s : Str} {o : List (Str × Json)} {v : Json} (h : FirstValue s (.obj o)) (h' : FirstValue s v) : v = .obj o := by
  by_cases hv : ∀ l, v ≠ .num l
  · have := readJson_complete h (by simp)
    rw [readJson_complete h' hv] at this
    cases this; rfl
  · simp only [not_forall, not_not] at hv
    obtain ⟨lit, rfl⟩ := hv
    obtain ⟨t, r, h1, ht, -⟩ := firstValue_head h
    obtain ⟨t', r', h2, ht', -⟩ := firstValue_head h'
    rw [h1] at h2
    have hb : ∃ l, t = '{' :: l := by cases ht <;> exact ⟨_, rfl⟩
    obtain ⟨l, rfl⟩ := hb
    cases ht' with
    | num hn =>
      obtain ⟨d, l', rfl, hd⟩ := numText_head hn
      simp only [List.cons_append, List.cons.injEq] at h2
      rw [← h2.1] at hd
      exact absurd hd (by decide)

/-- A text begins with a plain object, checked. -/
def plainText (s : Str) : Bool :=
  match readJson s with
  | some (.obj o) => plainJson (.obj o)
  | _ => false

/-- Then it meets the hypotheses. -/
theorem plain_file {s : Str} (h : plainText s = true) (j : Json) (hj : FirstValue s j) : NoRepeats j ∧ OrdinaryNumbers j := by
  unfold plainText at h
  split at h
  · rename_i o ho
    rw [firstValue_obj (readJson_first ho) hj]
    exact plainJson_ok h
  · cases h

end StayRTR
