import Verif.Model.JsonText
import Verif.Spec.Text

/-!
# What is a JSON text

RFC 8259. Nothing of the scanner is used here, only the type of values.
-/

namespace StayRTR.Spec

/-- White space, RFC 8259 section 2. -/
def Ws (s : Str) : Prop := ∀ c ∈ s, c ∈ [' ', '\t', '\n', '\r']

/-- One or more digits. -/
def Digits (s : Str) : Prop := s ≠ [] ∧ ∀ c ∈ s, (digit c).isSome = true

/-- The integer part of a number: no superfluous zeros. -/
def IntPart (s : Str) : Prop := Digits s ∧ (s.head? = some '0' → s = ['0'])

/-- The fraction of a number. -/
def FracPart (s : Str) : Prop := s = [] ∨ ∃ ds, s = '.' :: ds ∧ Digits ds

/-- The exponent of a number. -/
def ExpPart (s : Str) : Prop := s = [] ∨ ∃ e sign ds, s = e :: (sign ++ ds) ∧ (e = 'e' ∨ e = 'E') ∧ (sign = [] ∨ sign = ['+'] ∨ sign = ['-']) ∧ Digits ds

/-- A number, RFC 8259 section 6. -/
def NumText (s : Str) : Prop := ∃ m i f e, s = m ++ (i ++ (f ++ e)) ∧ (m = [] ∨ m = ['-']) ∧ IntPart i ∧ FracPart f ∧ ExpPart e

/-- Four hexadecimal digits. -/
def Code4 (s : Str) (n : Nat) : Prop := ∃ a b c d, s.map hexValueOf = [some a, some b, some c, some d] ∧ n = ((a * 16 + b) * 16 + c) * 16 + d

/-- The escapes of one letter. -/
def escapes : List (Char × Nat) := [('"', 0x22), ('\\', 0x5C), ('/', 0x2F), ('b', 8), ('f', 12), ('n', 10), ('r', 13), ('t', 9)]

/-- A character and its code. -/
def IsCode (c : Char) (n : Nat) : Prop := c.toNat = n

/-- `RawText raw s`: what stands between the quotes, and what it means (RFC 8259 section 7). Half a surrogate pair, which the RFC leaves open, means U+FFFD. -/
inductive RawText : Str → Str → Prop
  | nil : RawText [] []
  | plain {c : Char} {r s : Str} (hc : 0x20 ≤ c.toNat) (hq : c ≠ '"') (hb : c ≠ '\\') (h : RawText r s) : RawText (c :: r) (c :: s)
  | escape {e c : Char} {n : Nat} {r s : Str} (he : (e, n) ∈ escapes) (hc : IsCode c n) (h : RawText r s) : RawText ('\\' :: e :: r) (c :: s)
  | code {ds : Str} {n : Nat} {c : Char} {r s : Str} (hd : Code4 ds n) (hc : IsCode c n) (h : RawText r s) : RawText ('\\' :: 'u' :: (ds ++ r)) (c :: s)
  | pair {ds es : Str} {x y : Nat} {c : Char} {r s : Str} (hd : Code4 ds x) (he : Code4 es y) (hx : 0xD800 ≤ x ∧ x ≤ 0xDBFF) (hy : 0xDC00 ≤ y ∧ y ≤ 0xDFFF)
      (hc : IsCode c (0x10000 + (x - 0xD800) * 0x400 + (y - 0xDC00))) (h : RawText r s) : RawText ('\\' :: 'u' :: (ds ++ '\\' :: 'u' :: (es ++ r))) (c :: s)
  | half {ds : Str} {x : Nat} {r s : Str} (hd : Code4 ds x) (hx : 0xD800 ≤ x ∧ x ≤ 0xDFFF)
      (hr : ¬ (x ≤ 0xDBFF ∧ ∃ es y r', r = '\\' :: 'u' :: (es ++ r') ∧ Code4 es y ∧ 0xDC00 ≤ y ∧ y ≤ 0xDFFF)) (h : RawText r s) : RawText ('\\' :: 'u' :: (ds ++ r)) ('\uFFFD' :: s)

/-- A string with its quotes. -/
def Quoted (t s : Str) : Prop := ∃ raw, t = '"' :: (raw ++ ['"']) ∧ RawText raw s

mutual

/-- `JText n v t`: `t` is a JSON text for `v`, without white space around it, and nested at most `n` deep. -/
inductive JText : Nat → Json → Str → Prop
  | null {n : Nat} : JText n .null "null".toList
  | true {n : Nat} : JText n (.bool true) "true".toList
  | false {n : Nat} : JText n (.bool false) "false".toList
  | num {n : Nat} {t : Str} (h : NumText t) : JText n (.num t) t
  | str {n : Nat} {t s : Str} (h : Quoted t s) : JText n (.str s) t
  | noElems {n : Nat} {w : Str} (h : Ws w) : JText (n + 1) (.arr []) ('[' :: (w ++ [']']))
  | elems {n : Nat} {l : List Json} {t : Str} (h : JElems n l t) : JText (n + 1) (.arr l) ('[' :: (t ++ [']']))
  | noMembers {n : Nat} {w : Str} (h : Ws w) : JText (n + 1) (.obj []) ('{' :: (w ++ ['}']))
  | members {n : Nat} {l : List (Str × Json)} {t : Str} (h : JMembers n l t) : JText (n + 1) (.obj l) ('{' :: (t ++ ['}']))

/-- The elements of an array, at least one. -/
inductive JElems : Nat → List Json → Str → Prop
  | one {n : Nat} {v : Json} {a t b : Str} (ha : Ws a) (h : JText n v t) (hb : Ws b) : JElems n [v] (a ++ (t ++ b))
  | cons {n : Nat} {v : Json} {l : List Json} {a t b r : Str} (ha : Ws a) (h : JText n v t) (hb : Ws b) (hr : JElems n l r) : JElems n (v :: l) (a ++ (t ++ (b ++ ',' :: r)))

/-- The members of an object, at least one. -/
inductive JMembers : Nat → List (Str × Json) → Str → Prop
  | one {n : Nat} {k : Str} {v : Json} {a q b c t d : Str} (ha : Ws a) (hq : Quoted q k) (hb : Ws b) (hc : Ws c) (h : JText n v t) (hd : Ws d) :
      JMembers n [(k, v)] (a ++ (q ++ (b ++ ':' :: (c ++ (t ++ d)))))
  | cons {n : Nat} {k : Str} {v : Json} {l : List (Str × Json)} {a q b c t d r : Str} (ha : Ws a) (hq : Quoted q k) (hb : Ws b) (hc : Ws c) (h : JText n v t) (hd : Ws d) (hr : JMembers n l r) :
      JMembers n ((k, v) :: l) (a ++ (q ++ (b ++ ':' :: (c ++ (t ++ (d ++ ',' :: r))))))

end

/-- The first value of a text: white space, a JSON text, and then anything. -/
def FirstValue (s : Str) (v : Json) : Prop := ∃ w t r, s = w ++ (t ++ r) ∧ Ws w ∧ JText 10000 v t

end StayRTR.Spec
