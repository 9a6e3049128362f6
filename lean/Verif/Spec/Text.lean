import Verif.Model.Netip

/-!
# What a text means: addresses, prefixes, hexadecimal

RFC 4291 section 2.2 (IPv6 addresses), dotted quads, and prefix lengths. Nothing of the parsers is used here.
-/

namespace StayRTR.Spec

/-- The value of a decimal digit (specification). -/
def digit (c : Char) : Option Nat := ['0', '1', '2', '3', '4', '5', '6', '7', '8', '9'].idxOf? c

/-- `Denotes s n`: the decimal digits `s` denote `n`. -/
inductive Denotes : Str → Nat → Prop
  | one {c : Char} {d : Nat} : digit c = some d → Denotes [c] d
  | snoc {s : Str} {n : Nat} {c : Char} {d : Nat} : Denotes s n → digit c = some d → Denotes (s ++ [c]) (10 * n + d)

/-- The value of a hexadecimal digit, in either case. -/
def hexValueOf (c : Char) : Option Nat :=
  match ['0', '1', '2', '3', '4', '5', '6', '7', '8', '9', 'a', 'b', 'c', 'd', 'e', 'f'].idxOf? c with
  | some n => some n
  | none => ['0', '1', '2', '3', '4', '5', '6', '7', '8', '9', 'A', 'B', 'C', 'D', 'E', 'F'].idxOf? c

/-- A decimal numeral without superfluous zeros. -/
def Numeral (s : Str) (n : Nat) : Prop := Denotes s n ∧ (s.head? = some '0' → s = ['0'])

/-- A dotted quad: four numerals up to 255. -/
def Quad (s : Str) (a : Nat) : Prop :=
  ∃ s1 s2 s3 s4 n1 n2 n3 n4, s = s1 ++ '.' :: (s2 ++ '.' :: (s3 ++ '.' :: s4)) ∧ Numeral s1 n1 ∧ Numeral s2 n2 ∧ Numeral s3 n3 ∧ Numeral s4 n4 ∧
    n1 ≤ 255 ∧ n2 ≤ 255 ∧ n3 ≤ 255 ∧ n4 ≤ 255 ∧ a = n1 * 2 ^ 24 + n2 * 2 ^ 16 + n3 * 2 ^ 8 + n4

/-- One group of an IPv6 address: one to four hexadecimal digits. -/
def Group (s : Str) (v : Nat) : Prop := ∃ ds : List Nat, s.map hexValueOf = ds.map some ∧ 1 ≤ ds.length ∧ ds.length ≤ 4 ∧ v = ds.foldl (fun n d => n * 16 + d) 0

/-- Groups separated by colons. -/
inductive Groups : Str → List Nat → Prop
  | one {s : Str} {v : Nat} (h : Group s v) : Groups s [v]
  | cons {s t : Str} {v : Nat} {vs : List Nat} (h : Group s v) (ht : Groups t vs) : Groups (s ++ ':' :: t) (v :: vs)

/-- Groups separated by colons; the last two may be written as a dotted quad. -/
inductive Tail : Str → List Nat → Prop
  | one {s : Str} {v : Nat} (h : Group s v) : Tail s [v]
  | quad {s : Str} {a : Nat} (h : Quad s a) : Tail s [a / 65536, a % 65536]
  | cons {s t : Str} {v : Nat} {vs : List Nat} (h : Group s v) (ht : Tail t vs) : Tail (s ++ ':' :: t) (v :: vs)

/-- An IPv6 address: eight groups, or fewer with `::` for the missing ones, which are zero. -/
inductive V6Text : Str → List Nat → Prop
  | full {s : Str} {gs : List Nat} (h : Tail s gs) (hl : gs.length = 8) : V6Text s gs
  | elided {l r : Str} {hs gs : List Nat} (hl : (l = [] ∧ hs = []) ∨ Groups l hs) (hr : (r = [] ∧ gs = []) ∨ Tail r gs) (hn : hs.length + gs.length < 8) :
    V6Text (l ++ ':' :: ':' :: r) (hs ++ List.replicate (8 - (hs.length + gs.length)) 0 ++ gs)

/-- An address. -/
inductive AddrText : Str → Addr → Prop
  | v4 {s : Str} {a : Nat} (h : Quad s a) : AddrText s (.v4 (BitVec.ofNat 32 a))
  | v6 {s : Str} {gs : List Nat} (h : V6Text s gs) : AddrText s (.v6 (BitVec.ofNat 128 (gs.foldl (fun n g => n * 65536 + g) 0)))

/-- A prefix: an address, a slash, and the length, at most the width of the address. -/
def PrefixText (s : Str) (p : Prefix) : Prop :=
  ∃ t l n, s = t ++ '/' :: l ∧ AddrText t p.ip ∧ Numeral l n ∧ n ≤ p.ip.bitLen ∧ p.bitsPlusOne = n + 1

/-- The same with superfluous zeros allowed in the length, which is all that is asked for. -/
def CidrText (s : Str) (n : Nat) : Prop := ∃ t l a, s = t ++ '/' :: l ∧ AddrText t a ∧ Denotes l n ∧ n ≤ a.bitLen

/-- Bytes in hexadecimal. -/
inductive HexText : Str → Bytes → Prop
  | nil : HexText [] []
  | cons {a b : Char} {l : Str} {x y : Nat} {r : Bytes} (ha : hexValueOf a = some x) (hb : hexValueOf b = some y) (h : HexText l r) :
    HexText (a :: b :: l) (BitVec.ofNat 8 (16 * x + y) :: r)

end StayRTR.Spec
