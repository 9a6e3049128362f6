import Verif.Model.Log
import Verif.Spec.Log
import Verif.Proofs.Text
import Verif.Proofs.Json

/-! Log texts: what can be read back from them. -/

namespace StayRTR
open Spec

/-! ### Texts of PDUs -/

/-- A byte as a character. -/
def charOf (b : U8) : Char := Char.ofNat b.toNat

theorem charOf_toNat (b : U8) : (charOf b).toNat = b.toNat := by
  have h := b.isLt
  have hv : b.toNat.isValidChar := .inl (by omega)
  unfold charOf Char.ofNat
  rw [dif_pos hv]
  rfl

theorem charOf_inj {a b : U8} (h : charOf a = charOf b) : a = b := by
  have := congrArg Char.toNat h
  rw [charOf_toNat, charOf_toNat] at this
  exact BitVec.eq_of_toNat_eq this

theorem map_charOf_inj {a b : Bytes} (h : a.map charOf = b.map charOf) : a = b := List.map_inj_right (fun _ _ => charOf_inj) |>.mp h

instance Spec.Ascii.dec (s : Str) : Decidable (Ascii s) := by unfold Ascii; infer_instance

theorem ascii_append {a b : Str} (ha : Ascii a) (hb : Ascii b) : Ascii (a ++ b) := fun c hc => (List.mem_append.mp hc).elim (ha c) (hb c)

theorem ascii_cons {c : Char} {s : Str} (hc : c.toNat < 128) (hs : Ascii s) : Ascii (c :: s) := fun x hx => by
  rcases List.mem_cons.mp hx with rfl | hx
  · exact hc
  · exact hs x hx

theorem digit_ascii {c : Char} (h : IsDigit c) : c.toNat < 128 := by
  have : ∀ c ∈ ['0', '1', '2', '3', '4', '5', '6', '7', '8', '9', 'a', 'b', 'c', 'd', 'e', 'f'], c.toNat < 128 := by decide
  exact this c h

theorem ascii_dec (n : Nat) : Ascii (decStr n) := fun c hc => digit_ascii (decStr_digits n c hc)
theorem ascii_hex (b : Bytes) : Ascii (hexBytes b) := fun c hc => digit_ascii (hexBytes_digits b c hc)

theorem ascii_prefix {p : Prefix} (hp : p.Valid) : Ascii p.toStr := fun c hc => by
  rcases Prefix.toStr_chars hp hc with rfl | rfl | rfl | h
  · decide
  · decide
  · decide
  · exact digit_ascii h

theorem ascii_back {s : Str} (h : Ascii s) : (asciiBytes s).map charOf = s := by
  unfold asciiBytes
  rw [List.map_map]
  conv_rhs => rw [← List.map_id s]
  apply List.map_congr_left
  intro c hc
  have := h c hc
  apply Char.toNat_inj.mp
  rw [Function.comp, charOf_toNat, BitVec.toNat_ofNat]
  exact Nat.mod_eq_of_lt (by omega)

theorem ascii_prefixText (v f : U8) {p : Prefix} (m : U8) (a : U32) (hp : p.Valid) : Ascii (prefixText v f p m a) := by
  unfold prefixText
  repeat first
    | exact ascii_dec _
    | exact ascii_prefix hp
    | decide
    | apply ascii_append
    | apply ascii_cons

theorem ascii_head {p : Pdu} (h : Named p) : Ascii p.head := by
  cases p with
  | routerKey => exact absurd h id
  | ipv4Prefix v f p m a => exact ascii_append (by decide) (ascii_prefixText v f m a h)
  | ipv6Prefix v f p m a => exact ascii_append (by decide) (ascii_prefixText v f m a h)
  | _ =>
    unfold Pdu.head
    repeat first
      | exact ascii_dec _
      | exact ascii_hex _
      | decide
      | apply ascii_append
      | apply ascii_cons

/-- The first letters of the texts. -/
def pduTag : Pdu → Str
  | .serialNotify .. => "PDU Serial Not".toList
  | .serialQuery .. => "PDU Serial Que".toList
  | .resetQuery .. => "PDU Reset Quer".toList
  | .cacheResponse .. => "PDU Cache Resp".toList
  | .ipv4Prefix .. => "PDU IPv4 Prefi".toList
  | .ipv6Prefix .. => "PDU IPv6 Prefi".toList
  | .endOfData .. => "PDU End of Dat".toList
  | .cacheReset .. => "PDU Cache Rese".toList
  | .routerKey .. => "PDU Router Key".toList
  | .errorReport .. => "PDU Error repo".toList

theorem take_tag {l tag : Str} (h : l.take 14 = tag) (hl : 14 ≤ l.length) (x : Str) : (l ++ x).take 14 = tag := by rw [List.take_append_of_le_length hl, h]

theorem head_tag (p : Pdu) (t : Str) : (p.head ++ t).take 14 = pduTag p := by
  cases p <;> unfold Pdu.head pduTag <;> dsimp only <;> (try rw [List.append_assoc]) <;> (try rw [List.append_assoc]) <;> exact take_tag (by decide +kernel) (by decide +kernel) _

theorem decStr_sep {l : Str} {a b : Nat} {x : Char} {s t : Str} (h : l ++ decStr a ++ x :: s = l ++ decStr b ++ x :: t) (hx : ¬ IsDigit x) : a = b ∧ s = t := by
  rw [List.append_assoc, List.append_assoc] at h
  obtain ⟨h1, h2⟩ := append_sep_inj (not_mem_of_digits (decStr_digits a) hx) (not_mem_of_digits (decStr_digits b) hx) (List.append_cancel_left h)
  exact ⟨decStr_inj h1, h2⟩

theorem decStr_sep_app {l : Str} {a b : Nat} {x : Char} {s t u v : Str} (h : l ++ decStr a ++ x :: s ++ u = l ++ decStr b ++ x :: t ++ v) (hx : ¬ IsDigit x) : a = b ∧ s ++ u = t ++ v := by
  rw [List.append_assoc, List.append_assoc _ (x :: t)] at h
  exact decStr_sep h hx

theorem prefixText_inj {v f v' f' : U8} {p p' : Prefix} {m m' : U8} {a a' : U32} (hp : p.Valid) (hp' : p'.Valid) (h : prefixText v f p m a = prefixText v' f' p' m' a') :
    v = v' ∧ f = f' ∧ p = p' ∧ m = m' ∧ a = a' := by
  unfold prefixText at h
  replace h := List.tail_eq_of_cons_eq h
  have np : ∀ {q : Prefix}, q.Valid → '(' ∉ q.toStr := fun hq hm => by
    rcases Prefix.toStr_chars hq hm with h | h | h | h
    · exact absurd h (by decide)
    · exact absurd h (by decide)
    · exact absurd h (by decide)
    · exact absurd h (by decide)
  obtain ⟨h1, h⟩ := decStr_sep (l := []) h (by decide)
  obtain ⟨h2, h⟩ := append_sep_inj (np hp) (np hp') h
  obtain ⟨h3, h⟩ := decStr_sep h (by decide)
  obtain ⟨h4, h⟩ := decStr_sep h (by decide)
  exact ⟨BitVec.eq_of_toNat_eq h1, BitVec.eq_of_toNat_eq (decStr_inj (List.append_cancel_left h)), Prefix.toStr_inj hp hp' h2, BitVec.eq_of_toNat_eq h3, BitVec.eq_of_toNat_eq h4⟩

theorem head_inj {p q : Pdu} (hp : Named p) (hq : Named q) {t t' : Str} (ht : p.message.map charOf = t) (ht' : q.message.map charOf = t') (h : p.head ++ t = q.head ++ t') : p = q := by
  have tag : pduTag p = pduTag q := by rw [← head_tag p t, ← head_tag q t', h]
  cases p <;> cases q <;> first
    | (unfold pduTag at tag; dsimp only at tag; exact absurd tag (by decide +kernel))
    | exact absurd hp id
    | skip
  case errorReport.errorReport =>
    subst ht; subst ht'
    unfold Pdu.head Pdu.message at h
    dsimp only at h
    obtain ⟨h1, h⟩ := decStr_sep_app h (by decide)
    obtain ⟨h2, h⟩ := decStr_sep_app h (by decide)
    obtain ⟨-, h⟩ := decStr_sep_app h (by decide)
    rw [List.append_assoc, List.append_assoc, List.append_assoc (_ ++ _), List.append_assoc _ (hexBytes _)] at h
    obtain ⟨h4, h⟩ := append_sep_inj (not_mem_of_digits (hexBytes_digits _) (by decide)) (not_mem_of_digits (hexBytes_digits _) (by decide)) (List.append_cancel_left h)
    rw [BitVec.eq_of_toNat_eq h1, BitVec.eq_of_toNat_eq h2, hexBytes_inj h4, map_charOf_inj (List.append_cancel_left h)]
  all_goals (simp only [Pdu.message, List.map_nil] at ht ht'; subst ht; subst ht'; rw [List.append_nil, List.append_nil] at h; unfold Pdu.head at h; dsimp only at h)
  · obtain ⟨h1, h⟩ := decStr_sep h (by decide)
    obtain ⟨h2, h⟩ := decStr_sep h (by decide)
    rw [BitVec.eq_of_toNat_eq h1, BitVec.eq_of_toNat_eq h2, BitVec.eq_of_toNat_eq (decStr_inj (List.append_cancel_left h))]
  · obtain ⟨h1, h⟩ := decStr_sep h (by decide)
    obtain ⟨h2, h⟩ := decStr_sep h (by decide)
    rw [BitVec.eq_of_toNat_eq h1, BitVec.eq_of_toNat_eq h2, BitVec.eq_of_toNat_eq (decStr_inj (List.append_cancel_left h))]
  · rw [BitVec.eq_of_toNat_eq (decStr_inj (List.append_cancel_left h))]
  · obtain ⟨h1, h⟩ := decStr_sep h (by decide)
    obtain ⟨h2, h⟩ := decStr_sep h (by decide)
    rw [BitVec.eq_of_toNat_eq h1, BitVec.eq_of_toNat_eq h2]
  · obtain ⟨rfl, rfl, rfl, rfl, rfl⟩ := prefixText_inj hp hq (List.append_cancel_left h); rfl
  · obtain ⟨rfl, rfl, rfl, rfl, rfl⟩ := prefixText_inj hp hq (List.append_cancel_left h); rfl
  · obtain ⟨h1, h⟩ := decStr_sep h (by decide)
    obtain ⟨h2, h⟩ := decStr_sep h (by decide)
    obtain ⟨h3, h⟩ := decStr_sep h (by decide)
    obtain ⟨h4, h⟩ := decStr_sep h (by decide)
    obtain ⟨h5, h⟩ := decStr_sep h (by decide)
    rw [BitVec.eq_of_toNat_eq h1, BitVec.eq_of_toNat_eq h2, BitVec.eq_of_toNat_eq h3, BitVec.eq_of_toNat_eq h4, BitVec.eq_of_toNat_eq h5, BitVec.eq_of_toNat_eq (decStr_inj (List.append_cancel_left h))]
  · rw [BitVec.eq_of_toNat_eq (decStr_inj (List.append_cancel_left h))]

theorem text_inj {p q : Pdu} (hp : Named p) (hq : Named q) (h : p.text = q.text) : p = q := by
  refine head_inj hp hq rfl rfl ?_
  have := congrArg (List.map charOf) h
  simpa [Pdu.text, ascii_back (ascii_head hp), ascii_back (ascii_head hq)] using this

theorem asciiBytes_inj {s t : Str} (hs : Ascii s) (ht : Ascii t) (h : asciiBytes s = asciiBytes t) : s = t := by
  rw [← ascii_back hs, ← ascii_back ht, h]

theorem head_pref {a b : Str} (ha : Ascii a) (hb : Ascii b) {s t : Bytes} (h : asciiBytes a ++ s = asciiBytes b ++ t) : a ++ s.map charOf = b ++ t.map charOf := by
  have := congrArg (List.map charOf) h
  simpa [ascii_back ha, ascii_back hb] using this

/-! ### Characters and bytes -/

/-- The bytes of a character, or the byte that is none. -/
def runeBytes : Char ⊕ U8 → Bytes
  | .inl c => utf8Bytes c
  | .inr b => [b]

/-- What `logRunes` yields: bytes of ASCII are characters. -/
def GoodRune : Char ⊕ U8 → Prop
  | .inl _ => True
  | .inr b => 128 ≤ b.toNat

theorem utf8Char_unique {b : Bytes} {c : Char} (h : Utf8Char b c) : utf8Bytes c = b := by
  have bv : ∀ {x : U8} {n : Nat}, x.toNat = n → BitVec.ofNat 8 n = x := fun h => by rw [← h, BitVec.ofNat_toNat, BitVec.setWidth_eq]
  unfold utf8Bytes
  cases h with
  | one h hc =>
    have e : c.toNat = _ := hc
    rw [e]
    simp only [h, if_true]
    rw [bv rfl]
  | @two b1 b2 _ x y h1 h2 hx hy hlo hc =>
    have e : c.toNat = _ := hc
    rw [e]
    simp only [show ¬ (x * 2 ^ 6 + y < 0x80) by omega, show x * 2 ^ 6 + y < 0x800 by omega, if_true, if_false]
    rw [bv (x := b1) (by omega), bv (x := b2) (by omega)]
  | @three b1 b2 b3 _ x y z h1 h2 h3 hx hy hz hlo hc =>
    have e : c.toNat = _ := hc
    rw [e]
    simp only [show ¬ (x * 2 ^ 12 + y * 2 ^ 6 + z < 0x80) by omega, show ¬ (x * 2 ^ 12 + y * 2 ^ 6 + z < 0x800) by omega, show x * 2 ^ 12 + y * 2 ^ 6 + z < 0x10000 by omega, if_true, if_false]
    rw [bv (x := b1) (by omega), bv (x := b2) (by omega), bv (x := b3) (by omega)]
  | @four b1 b2 b3 b4 _ x y z w h1 h2 h3 h4 hx hy hz hw hlo hc =>
    have e : c.toNat = _ := hc
    rw [e]
    simp only [show ¬ (x * 2 ^ 18 + y * 2 ^ 12 + z * 2 ^ 6 + w < 0x80) by omega, show ¬ (x * 2 ^ 18 + y * 2 ^ 12 + z * 2 ^ 6 + w < 0x800) by omega,
      show ¬ (x * 2 ^ 18 + y * 2 ^ 12 + z * 2 ^ 6 + w < 0x10000) by omega, if_false]
    rw [bv (x := b1) (by omega), bv (x := b2) (by omega), bv (x := b3) (by omega), bv (x := b4) (by omega)]

theorem logRunes_skip (a l : Bytes) : logRunes a.length (a ++ l) = logRunes 0 l := by
  induction a with
  | nil => rfl
  | cons x a ih => exact ih

theorem decodeRune_ascii {b : U8} (h : b.toNat < 128) (l : Bytes) : decodeRune b l = (runeOf b.toNat, 0) ∧ runeOf b.toNat = charOf b := by
  exact ⟨by unfold decodeRune; simp only [h, if_true], rfl⟩

/-- What comes first: a character or a byte that begins none. -/
theorem logRunes_cons (b : U8) (l : Bytes) : ∃ x r l', b :: l = runeBytes x ++ l' ∧ l = r ++ l' ∧ logRunes 0 (b :: l) = x :: logRunes 0 l' ∧ GoodRune x ∧ r.length ≤ 3 := by
  by_cases h : decodeRune b l = (runeError, 0)
  · refine ⟨.inr b, [], l, rfl, rfl, by rw [logRunes, if_pos h, h], ?_, by simp⟩
    show 128 ≤ b.toNat
    refine Nat.le_of_not_lt fun hb => ?_
    obtain ⟨h1, h2⟩ := decodeRune_ascii hb l
    have e : charOf b = runeError := by rw [← h2]; exact (Prod.mk.inj (h1.symm.trans h)).1
    have e' := charOf_toNat b
    rw [e] at e'
    have : runeError.toNat = 65533 := by decide
    omega
  · rcases decodeRune_sound b l with h' | ⟨r, l', hl, hr, hu⟩
    · exact absurd h' h
    · refine ⟨.inl (decodeRune b l).1, r, l', ?_, hl, ?_, trivial, ?_⟩
      · rw [show runeBytes (.inl (decodeRune b l).1) = b :: r from utf8Char_unique hu, hl]; rfl
      · rw [logRunes, if_neg h, ← hr]
        exact congrArg _ (by rw [congrArg (logRunes r.length) hl, logRunes_skip])
      · cases hu <;> simp

theorem logRunes_ind {P : Bytes → Prop} (nil : P []) (cons : ∀ b l x r l', b :: l = runeBytes x ++ l' → l = r ++ l' → logRunes 0 (b :: l) = x :: logRunes 0 l' → GoodRune x → r.length ≤ 3 → P l' → P (b :: l)) : ∀ b, P b := by
  have : ∀ (n : Nat) (b : Bytes), b.length ≤ n → P b := by
    intro n
    induction n with
    | zero => intro b hb; rw [List.eq_nil_of_length_eq_zero (Nat.le_zero.mp hb)]; exact nil
    | succ n ih =>
      intro b hb
      cases b with
      | nil => exact nil
      | cons b l =>
        obtain ⟨x, r, l', h1, h2, h3, h4, h5⟩ := logRunes_cons b l
        refine cons b l x r l' h1 h2 h3 h4 h5 (ih l' ?_)
        rw [h2] at hb
        simp only [List.length_cons, List.length_append] at hb
        omega
  exact fun b => this b.length b (Nat.le_refl _)

theorem logRunes_back (b : Bytes) : (logRunes 0 b).flatMap runeBytes = b := by
  induction b using logRunes_ind with
  | nil => rfl
  | cons b l x r l' h1 h2 h3 h4 h5 ih => rw [h3, List.flatMap_cons, ih, h1]

theorem logRunes_good (b : Bytes) : ∀ x ∈ logRunes 0 b, GoodRune x := by
  induction b using logRunes_ind with
  | nil => exact fun x hx => absurd hx (by simp [logRunes])
  | cons b l x r l' h1 h2 h3 h4 h5 ih =>
    rw [h3]
    intro y hy
    rcases List.mem_cons.mp hy with rfl | hy
    · exact h4
    · exact ih y hy

theorem logRunes_length (b : Bytes) : b.length ≤ 4 * (logRunes 0 b).length := by
  induction b using logRunes_ind with
  | nil => exact Nat.zero_le _
  | cons b l x r l' h1 h2 h3 h4 h5 ih =>
    rw [h3, h2]
    simp only [List.length_cons, List.length_append]
    omega

/-! ### Quotes -/

/-- The value of a hexadecimal digit. -/
def nibble (c : Char) : Nat := if c.toNat < 58 then c.toNat - 48 else c.toNat - 87

theorem nibble_digit {n : Nat} (h : n < 16) : nibble (Nat.digitChar n) = n := by
  have : ∀ n : Fin 16, nibble (Nat.digitChar n) = n := by decide
  exact this ⟨n, h⟩

/-- What the letters after a backslash stand for. -/
def unEscape : Char → Char
  | 'a' => '\x07'
  | 'b' => '\x08'
  | 'f' => '\x0c'
  | 'n' => '\n'
  | 'r' => '\r'
  | 't' => '\t'
  | 'v' => '\x0b'
  | c => c

/-- Reads one character from a quoted text. -/
def unq : Str → Option ((Char ⊕ U8) × Str)
  | '\\' :: 'x' :: a :: b :: t =>
    some (if 16 * nibble a + nibble b < 128 then .inl (Char.ofNat (16 * nibble a + nibble b)) else .inr (BitVec.ofNat 8 (16 * nibble a + nibble b)), t)
  | '\\' :: 'u' :: a :: b :: c :: d :: t => some (.inl (Char.ofNat (16 ^ 3 * nibble a + 16 ^ 2 * nibble b + 16 * nibble c + nibble d)), t)
  | '\\' :: 'U' :: a :: b :: c :: d :: e :: f :: g :: h :: t =>
    some (.inl (Char.ofNat (16 ^ 7 * nibble a + 16 ^ 6 * nibble b + 16 ^ 5 * nibble c + 16 ^ 4 * nibble d + 16 ^ 3 * nibble e + 16 ^ 2 * nibble f + 16 * nibble g + nibble h)), t)
  | '\\' :: c :: t => some (.inl (unEscape c), t)
  | c :: t => some (.inl c, t)
  | [] => none

theorem char_lt (c : Char) : c.toNat < 0x110000 := by
  rcases c.valid with h | h
  · have : c.toNat < 0xd800 := h
    omega
  · have : c.toNat < 0x110000 := h.2
    omega

theorem ite_cases {P : Prop} [Decidable P] {a b : Str} {Q : Str → Prop} (h1 : P → Q a) (h2 : ¬ P → Q b) : Q (if P then a else b) := by
  by_cases h : P
  · rw [if_pos h]; exact h1 h
  · rw [if_neg h]; exact h2 h

theorem unq_plain {c : Char} (h : c ≠ '\\') (s : Str) : unq (c :: s) = some (.inl c, s) := by
  unfold unq
  split <;> simp_all

theorem unq_quote (isPrint : Char → Bool) {x : Char ⊕ U8} (hx : GoodRune x) (s : Str) : unq (quoteRune isPrint x ++ s) = some (x, s) := by
  cases x with
  | inr b =>
    have h1 : 128 ≤ b.toNat := hx
    have h2 := b.isLt
    have e : 16 * nibble (Nat.digitChar (b.toNat / 16)) + nibble (Nat.digitChar (b.toNat % 16)) = b.toNat := by
      rw [nibble_digit (by omega), nibble_digit (by omega)]; omega
    show unq ('\\' :: 'x' :: Nat.digitChar (b.toNat / 16) :: Nat.digitChar (b.toNat % 16) :: s) = _
    rw [unq, e, if_neg (by omega), BitVec.ofNat_toNat, BitVec.setWidth_eq]
  | inl c =>
    refine Eq.trans (congrArg (fun t => unq (t ++ s)) (quoteRune.eq_2 isPrint c)) ?_
    refine ite_cases (Q := fun t => unq (t ++ s) = _) (fun h1 => ?_) fun h1 => ?_
    · rcases h1 with rfl | rfl <;> rfl
    refine ite_cases (Q := fun t => unq (t ++ s) = _) (fun h2 => ?_) fun h2 => ?_
    · exact unq_plain (fun e => h1 (.inr e)) s
    refine ite_cases (Q := fun t => unq (t ++ s) = _) (fun h3 => ?_) fun h3 => ?_
    · subst h3; rfl
    refine ite_cases (Q := fun t => unq (t ++ s) = _) (fun h4 => ?_) fun h4 => ?_
    · subst h4; rfl
    refine ite_cases (Q := fun t => unq (t ++ s) = _) (fun h5 => ?_) fun h5 => ?_
    · subst h5; rfl
    refine ite_cases (Q := fun t => unq (t ++ s) = _) (fun h6 => ?_) fun h6 => ?_
    · subst h6; rfl
    refine ite_cases (Q := fun t => unq (t ++ s) = _) (fun h7 => ?_) fun h7 => ?_
    · subst h7; rfl
    refine ite_cases (Q := fun t => unq (t ++ s) = _) (fun h8 => ?_) fun h8 => ?_
    · subst h8; rfl
    refine ite_cases (Q := fun t => unq (t ++ s) = _) (fun h9 => ?_) fun h9 => ?_
    · subst h9; rfl
    refine ite_cases (Q := fun t => unq (t ++ s) = _) (fun h10 => ?_) fun h10 => ?_
    · have e : 16 * nibble (Nat.digitChar (c.toNat / 16 ^ 1 % 16)) + nibble (Nat.digitChar (c.toNat / 16 ^ 0 % 16)) = c.toNat := by
        rw [nibble_digit (by omega), nibble_digit (by omega)]; omega
      show unq ('\\' :: 'x' :: Nat.digitChar (c.toNat / 16 ^ 1 % 16) :: Nat.digitChar (c.toNat / 16 ^ 0 % 16) :: s) = _
      rw [unq, e, if_pos h10, Char.ofNat_toNat]
    refine ite_cases (Q := fun t => unq (t ++ s) = _) (fun h11 => ?_) fun h11 => ?_
    · show unq ('\\' :: 'u' :: Nat.digitChar (c.toNat / 16 ^ 3 % 16) :: Nat.digitChar (c.toNat / 16 ^ 2 % 16) :: Nat.digitChar (c.toNat / 16 ^ 1 % 16) :: Nat.digitChar (c.toNat / 16 ^ 0 % 16) :: s) = _
      rw [unq, nibble_digit (by omega), nibble_digit (by omega), nibble_digit (by omega), nibble_digit (by omega),
        show 16 ^ 3 * (c.toNat / 16 ^ 3 % 16) + 16 ^ 2 * (c.toNat / 16 ^ 2 % 16) + 16 * (c.toNat / 16 ^ 1 % 16) + c.toNat / 16 ^ 0 % 16 = c.toNat by omega, Char.ofNat_toNat]
    have hc := char_lt c
    show unq ('\\' :: 'U' :: Nat.digitChar (c.toNat / 16 ^ 7 % 16) :: Nat.digitChar (c.toNat / 16 ^ 6 % 16) :: Nat.digitChar (c.toNat / 16 ^ 5 % 16) :: Nat.digitChar (c.toNat / 16 ^ 4 % 16) ::
      Nat.digitChar (c.toNat / 16 ^ 3 % 16) :: Nat.digitChar (c.toNat / 16 ^ 2 % 16) :: Nat.digitChar (c.toNat / 16 ^ 1 % 16) :: Nat.digitChar (c.toNat / 16 ^ 0 % 16) :: s) = _
    rw [unq, nibble_digit (by omega), nibble_digit (by omega), nibble_digit (by omega), nibble_digit (by omega), nibble_digit (by omega), nibble_digit (by omega), nibble_digit (by omega), nibble_digit (by omega),
      show 16 ^ 7 * (c.toNat / 16 ^ 7 % 16) + 16 ^ 6 * (c.toNat / 16 ^ 6 % 16) + 16 ^ 5 * (c.toNat / 16 ^ 5 % 16) + 16 ^ 4 * (c.toNat / 16 ^ 4 % 16) + 16 ^ 3 * (c.toNat / 16 ^ 3 % 16) +
        16 ^ 2 * (c.toNat / 16 ^ 2 % 16) + 16 * (c.toNat / 16 ^ 1 % 16) + c.toNat / 16 ^ 0 % 16 = c.toNat by omega, Char.ofNat_toNat]

theorem goRunes_str (a : Str) (s : Bytes) : goRunes 0 (utf8Str a ++ s) = a ++ goRunes 0 s := by
  induction a with
  | nil => rfl
  | cons c a ih =>
    show goRunes 0 (utf8Bytes c ++ utf8Str a ++ s) = _
    rw [List.append_assoc, goRunes_char (utf8Char_bytes c), ih]
    rfl

theorem quote_ne (isPrint : Char → Bool) {x : Char ⊕ U8} (hx : GoodRune x) : ∃ c t, quoteRune isPrint x = c :: t ∧ c ≠ '"' := by
  cases h : quoteRune isPrint x with
  | nil => have := unq_quote isPrint hx []; rw [h] at this; exact absurd this (by simp [unq])
  | cons c t =>
    refine ⟨c, t, rfl, fun hc => ?_⟩
    have := unq_quote isPrint hx []
    rw [h, hc, List.append_nil, unq_plain (by decide)] at this
    have e := (Prod.mk.inj (Option.some.inj this)).1
    rw [← e] at h
    revert h
    exact fun h => absurd (h.symm.trans (show quoteRune isPrint (.inl '"') = ['\\', '"'] from rfl)) (by rw [hc]; simp)

theorem quoted_sep (isPrint : Char → Bool) : ∀ (xs ys : List (Char ⊕ U8)), (∀ x ∈ xs, GoodRune x) → (∀ y ∈ ys, GoodRune y) → ∀ s t : Bytes,
    utf8Str (xs.flatMap (quoteRune isPrint)) ++ 34 :: s = utf8Str (ys.flatMap (quoteRune isPrint)) ++ 34 :: t → xs = ys ∧ s = t
  | [], [], _, _, s, t, h => ⟨rfl, (List.cons.inj h).2⟩
  | [], y :: ys, _, hy, s, t, h => by
    obtain ⟨c, u, hc, hne⟩ := quote_ne isPrint (hy y (List.mem_cons_self ..))
    have e := congrArg (goRunes 0) h
    rw [goRunes_str, goRunes_str, List.flatMap_cons, hc] at e
    have e' := congrArg (goRunes 0) (show (34 : U8) :: s = utf8Str ['"'] ++ s from rfl)
    rw [goRunes_str] at e'
    have : '"' :: goRunes 0 s = (c :: u ++ ys.flatMap (quoteRune isPrint)) ++ goRunes 0 (34 :: t) := e'.symm.trans e
    exact absurd (List.cons.inj this).1.symm hne
  | x :: xs, [], hx, _, s, t, h => by
    obtain ⟨c, u, hc, hne⟩ := quote_ne isPrint (hx x (List.mem_cons_self ..))
    have e := congrArg (goRunes 0) h
    rw [goRunes_str, List.flatMap_cons, hc] at e
    have e' := congrArg (goRunes 0) (show (34 : U8) :: t = utf8Str ['"'] ++ t from rfl)
    rw [goRunes_str] at e'
    have : (c :: u ++ xs.flatMap (quoteRune isPrint)) ++ goRunes 0 (34 :: s) = '"' :: goRunes 0 t := e.trans e'
    exact absurd (List.cons.inj this).1 hne
  | x :: xs, y :: ys, hx, hy, s, t, h => by
    have sp : ∀ a b : Str, utf8Str (a ++ b) = utf8Str a ++ utf8Str b := fun a b => List.flatMap_append ..
    rw [List.flatMap_cons, List.flatMap_cons, sp, sp, List.append_assoc, List.append_assoc] at h
    have e := congrArg (fun b => unq (goRunes 0 b)) h
    rw [goRunes_str, goRunes_str, unq_quote isPrint (hx x (List.mem_cons_self ..)), goRunes_str, unq_quote isPrint (hy y (List.mem_cons_self ..))] at e
    have e' := (Prod.mk.inj (Option.some.inj e)).1
    subst e'
    obtain ⟨h1, h2⟩ := quoted_sep isPrint xs ys (fun z hz => hx z (List.mem_cons_of_mem _ hz)) (fun z hz => hy z (List.mem_cons_of_mem _ hz)) s t (List.append_cancel_left h)
    exact ⟨by rw [h1], h2⟩

/-- Bytes that end a value. -/
def Ends (b : U8) : Prop := b = 10 ∨ b = 32

theorem plain_bytes {b : Bytes} (h : (logRunes 0 b).all plainRune = true) : ∀ y ∈ b, ¬ Ends y ∧ y ≠ 34 := by
  intro y hy
  rw [← logRunes_back b] at hy
  obtain ⟨x, hx, hy⟩ := List.mem_flatMap.mp hy
  have hp := List.all_eq_true.mp h x hx
  cases x with
  | inr b => exact absurd hp (by simp [plainRune])
  | inl c =>
    have hc : c.toNat < 128 ∧ c.toNat ≠ 10 ∧ c.toNat ≠ 32 ∧ c.toNat ≠ 34 := by
      unfold plainRune at hp
      rw [Bool.or_eq_true, decide_eq_true_iff, decide_eq_true_iff] at hp
      rcases hp with hp | hp
      · have : 'a'.toNat = 97 ∧ 'z'.toNat = 122 ∧ 'A'.toNat = 65 ∧ 'Z'.toNat = 90 ∧ '0'.toNat = 48 ∧ '9'.toNat = 57 := by decide
        omega
      · have : ∀ c ∈ ['-', '.', '_', '/', '@', '^', '+'], c.toNat < 128 ∧ c.toNat ≠ 10 ∧ c.toNat ≠ 32 ∧ c.toNat ≠ 34 := by decide
        exact this c hp
    have hu : runeBytes (.inl c) = [BitVec.ofNat 8 c.toNat] := by
      show utf8Bytes c = _
      unfold utf8Bytes
      simp only [hc.1, if_true]
    rw [hu, List.mem_singleton] at hy
    have ht : y.toNat = c.toNat := by rw [hy, BitVec.toNat_ofNat]; omega
    unfold Ends
    have n : ∀ k : Nat, k < 256 → y = BitVec.ofNat 8 k → y.toNat = k := fun k hk e => by rw [e, BitVec.toNat_ofNat]; omega
    refine ⟨fun e => ?_, fun e => ?_⟩
    · rcases e with e | e
      · have := n 10 (by omega) e; omega
      · have := n 32 (by omega) e; omega
    · have := n 34 (by omega) e; omega

theorem sep_bytes : ∀ {a b : Bytes} {x y : U8} {s t : Bytes}, Ends x → Ends y → (∀ z ∈ a, ¬ Ends z) → (∀ z ∈ b, ¬ Ends z) → a ++ x :: s = b ++ y :: t → a = b ∧ x = y ∧ s = t
  | [], [], _, _, _, _, _, _, _, _, h => ⟨rfl, (List.cons.inj h).1, (List.cons.inj h).2⟩
  | [], z :: b, _, _, _, _, hx, _, _, hb, h => absurd ((List.cons.inj h).1 ▸ hx) (hb z (List.mem_cons_self ..))
  | z :: a, [], _, _, _, _, _, hy, ha, _, h => absurd ((List.cons.inj h).1 ▸ hy) (ha z (List.mem_cons_self ..))
  | z :: a, w :: b, _, _, _, _, hx, hy, ha, hb, h => by
    obtain ⟨h1, h2⟩ := List.cons.inj h
    obtain ⟨h3, h4⟩ := sep_bytes hx hy (fun z hz => ha z (List.mem_cons_of_mem _ hz)) (fun z hz => hb z (List.mem_cons_of_mem _ hz)) h2
    exact ⟨by rw [h1, h3], h4⟩

theorem quoted_eq (isPrint : Char → Bool) (b : Bytes) (s : Bytes) :
    utf8Str ('"' :: ((logRunes 0 b).flatMap (quoteRune isPrint) ++ ['"'])) ++ s = 34 :: (utf8Str ((logRunes 0 b).flatMap (quoteRune isPrint)) ++ 34 :: s) := by
  have sp : ∀ a b : Str, utf8Str (a ++ b) = utf8Str a ++ utf8Str b := fun a b => List.flatMap_append ..
  show utf8Bytes '"' ++ utf8Str ((logRunes 0 b).flatMap (quoteRune isPrint) ++ ['"']) ++ s = _
  rw [sp, show utf8Bytes '"' = [34] from rfl, show utf8Str ['"'] = [34] from rfl]
  simp

theorem plain_quote {b : Bytes} (h : (logRunes 0 b).all plainRune = true) {x : U8} {s u : Bytes} (hx : Ends x) : b ++ x :: s ≠ 34 :: u := by
  cases b with
  | nil => exact fun e => absurd ((List.cons.inj e).1 ▸ hx) (by unfold Ends; decide)
  | cons z b => exact fun e => (plain_bytes h z (List.mem_cons_self ..)).2 (List.cons.inj e).1

/-- A value can be read back, whatever follows. -/
theorem logValue_sep (isPrint : Char → Bool) {a b : Bytes} {x y : U8} {s t : Bytes} (hx : Ends x) (hy : Ends y) (h : logValue isPrint a ++ x :: s = logValue isPrint b ++ y :: t) : a = b ∧ x = y ∧ s = t := by
  unfold logValue at h
  by_cases ha : (logRunes 0 a).all plainRune = true
  · rw [if_pos ha] at h
    by_cases hb : (logRunes 0 b).all plainRune = true
    · rw [if_pos hb] at h
      exact sep_bytes hx hy (fun z hz => (plain_bytes ha z hz).1) (fun z hz => (plain_bytes hb z hz).1) h
    · rw [if_neg hb, quoted_eq] at h
      exact absurd h (plain_quote ha hx)
  · rw [if_neg ha, quoted_eq] at h
    by_cases hb : (logRunes 0 b).all plainRune = true
    · rw [if_pos hb] at h
      exact absurd h.symm (plain_quote hb hy)
    · rw [if_neg hb, quoted_eq] at h
      obtain ⟨h1, h2⟩ := quoted_sep isPrint _ _ (logRunes_good a) (logRunes_good b) _ _ (List.cons.inj h).2
      obtain ⟨h3, h4⟩ := List.cons.inj h2
      exact ⟨by rw [← logRunes_back a, h1, logRunes_back], h3, h4⟩

theorem utf8_no_lf {c : Char} (hc : c ≠ '\n') : (10 : U8) ∉ utf8Bytes c := by
  intro h
  have hu := utf8Char_bytes c
  generalize utf8Bytes c = b at h hu
  have ten : ∀ {x : U8}, 10 = x → x.toNat = 10 := fun e => by rw [← e]; rfl
  cases hu with
  | one h1 hcode =>
    have := ten (List.mem_singleton.mp h)
    have e : c.toNat = _ := hcode
    exact hc (Char.toNat_inj.mp (by rw [e, this]; rfl))
  | two =>
    simp only [List.mem_cons, List.not_mem_nil, or_false] at h
    rcases h with h | h <;> (have := ten h; omega)
  | three =>
    simp only [List.mem_cons, List.not_mem_nil, or_false] at h
    rcases h with h | h | h <;> (have := ten h; omega)
  | four =>
    simp only [List.mem_cons, List.not_mem_nil, or_false] at h
    rcases h with h | h | h | h <;> (have := ten h; omega)

theorem hexFixed_no_lf : ∀ (k n : Nat), '\n' ∉ hexFixed k n
  | 0, _ => by simp [hexFixed]
  | k + 1, n => by
    have d : ∀ m : Fin 16, '\n' ≠ Nat.digitChar m := by decide
    intro h
    rcases List.mem_cons.mp h with h | h
    · exact d ⟨n / 16 ^ k % 16, Nat.mod_lt _ (by decide)⟩ h
    · exact hexFixed_no_lf k n h

theorem quote_no_lf (isPrint : Char → Bool) (x : Char ⊕ U8) : '\n' ∉ quoteRune isPrint x := by
  cases x with
  | inr b =>
    have d : ∀ m : Fin 16, '\n' ≠ Nat.digitChar m := by decide
    have hb := b.isLt
    intro h
    simp only [quoteRune, hexByte, List.mem_cons, List.not_mem_nil, or_false] at h
    rcases h with h | h | h | h
    · exact absurd h (by decide)
    · exact absurd h (by decide)
    · exact d ⟨b.toNat / 16, by omega⟩ h
    · exact d ⟨b.toNat % 16, by omega⟩ h
  | inl c =>
    rw [quoteRune.eq_2]
    refine ite_cases (Q := fun t => '\n' ∉ t) (fun h1 => ?_) fun h1 => ?_
    · rcases h1 with rfl | rfl <;> decide
    refine ite_cases (Q := fun t => '\n' ∉ t) (fun h2 => ?_) fun h2 => ?_
    · intro h
      have := List.mem_singleton.mp h
      subst this
      exact absurd h2 (by rw [if_pos (by decide)]; decide)
    refine ite_cases (Q := fun t => '\n' ∉ t) (fun _ => by decide) fun _ => ?_
    refine ite_cases (Q := fun t => '\n' ∉ t) (fun _ => by decide) fun _ => ?_
    refine ite_cases (Q := fun t => '\n' ∉ t) (fun _ => by decide) fun _ => ?_
    refine ite_cases (Q := fun t => '\n' ∉ t) (fun _ => by decide) fun _ => ?_
    refine ite_cases (Q := fun t => '\n' ∉ t) (fun _ => by decide) fun _ => ?_
    refine ite_cases (Q := fun t => '\n' ∉ t) (fun _ => by decide) fun _ => ?_
    refine ite_cases (Q := fun t => '\n' ∉ t) (fun _ => by decide) fun _ => ?_
    have two : ∀ (e : Char) (k : Nat), e ≠ '\n' → '\n' ∉ '\\' :: e :: hexFixed k c.toNat := by
      intro e k he h
      rcases List.mem_cons.mp h with h | h
      · exact absurd h (by decide)
      · rcases List.mem_cons.mp h with h | h
        · exact he h.symm
        · exact hexFixed_no_lf _ _ h
    refine ite_cases (Q := fun t => '\n' ∉ t) (fun _ => two 'x' 2 (by decide)) fun _ => ?_
    exact ite_cases (Q := fun t => '\n' ∉ t) (fun _ => two 'u' 4 (by decide)) fun _ => two 'U' 8 (by decide)

theorem logValue_no_lf (isPrint : Char → Bool) (b : Bytes) : (10 : U8) ∉ logValue isPrint b := by
  unfold logValue
  by_cases h : (logRunes 0 b).all plainRune = true
  · rw [if_pos h]
    exact fun hm => (plain_bytes h _ hm).1 (.inl rfl)
  · rw [if_neg h]
    intro hm
    obtain ⟨c, hc, hm⟩ := List.mem_flatMap.mp hm
    refine utf8_no_lf (fun e => ?_) hm
    subst e
    rcases List.mem_cons.mp hc with hc | hc
    · exact absurd hc (by decide)
    · rcases List.mem_append.mp hc with hc | hc
      · obtain ⟨x, -, hx⟩ := List.mem_flatMap.mp hc
        exact quote_no_lf isPrint x hx
      · exact absurd hc (by decide)

/-! ### Line feeds -/

/-- No line feed. -/
def NoLf (s : Str) : Prop := '\n' ∉ s

instance NoLf.dec (s : Str) : Decidable (NoLf s) := by unfold NoLf; infer_instance

theorem noLf_append {a b : Str} (ha : NoLf a) (hb : NoLf b) : NoLf (a ++ b) := fun h => (List.mem_append.mp h).elim ha hb

theorem noLf_cons {c : Char} {s : Str} (hc : '\n' ≠ c) (hs : NoLf s) : NoLf (c :: s) := fun h => (List.mem_cons.mp h).elim hc hs

theorem noLf_dec (n : Nat) : NoLf (decStr n) := not_mem_of_digits (decStr_digits n) (by decide)
theorem noLf_hex (b : Bytes) : NoLf (hexBytes b) := not_mem_of_digits (hexBytes_digits b) (by decide)

theorem noLf_prefix {p : Prefix} (hp : p.Valid) : NoLf p.toStr := fun h => by
  rcases Prefix.toStr_chars hp h with h | h | h | h
  · exact absurd h (by decide)
  · exact absurd h (by decide)
  · exact absurd h (by decide)
  · exact absurd h (by decide)

theorem noLf_prefixText (v f : U8) {p : Prefix} (m : U8) (a : U32) (hp : p.Valid) : NoLf (prefixText v f p m a) := by
  unfold prefixText
  repeat first
    | exact noLf_dec _
    | exact noLf_prefix hp
    | decide
    | apply noLf_append
    | apply noLf_cons

theorem noLf_head {p : Pdu} (h : Named p) : NoLf p.head := by
  cases p with
  | routerKey => exact absurd h id
  | ipv4Prefix v f p m a => exact noLf_append (by decide) (noLf_prefixText v f m a h)
  | ipv6Prefix v f p m a => exact noLf_append (by decide) (noLf_prefixText v f m a h)
  | _ =>
    unfold Pdu.head
    repeat first
      | exact noLf_dec _
      | exact noLf_hex _
      | decide
      | apply noLf_append
      | apply noLf_cons

theorem noLf_bytes {s : Str} (ha : Ascii s) (h : NoLf s) : (10 : U8) ∉ asciiBytes s := by
  intro hm
  obtain ⟨c, hc, e⟩ := List.mem_map.mp hm
  have h1 := congrArg BitVec.toNat e
  rw [BitVec.toNat_ofNat] at h1
  have h2 := ha c hc
  have h3 : (10 : U8).toNat = 10 := rfl
  have h4 : c.toNat = '\n'.toNat := by show c.toNat = 10; omega
  exact h (Char.toNat_inj.mp h4 ▸ hc)

end StayRTR
