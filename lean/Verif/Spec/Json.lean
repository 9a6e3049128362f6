import Verif.Model.Json
import Verif.Spec.JsonText
import Verif.Spec.Auth
import Verif.Spec.Records
import Verif.Spec.Float
import Mathlib.Data.List.Forall2

/-!
# What a cache file and a SLURM file say

UTF-8 (RFC 3629), base64 with padding (RFC 4648), and the fields of the two files. Nothing of the decoder is used here, only the structures it fills.
-/

namespace StayRTR.Spec

/-- The bytes of one character, RFC 3629 section 3: the shortest form. -/
inductive Utf8Char : Bytes → Char → Prop
  | one {b : U8} {c : Char} (h : b.toNat < 0x80) (hc : IsCode c b.toNat) : Utf8Char [b] c
  | two {b1 b2 : U8} {c : Char} {x y : Nat} (h1 : b1.toNat = 0b11000000 + x) (h2 : b2.toNat = 0b10000000 + y) (hx : x < 32) (hy : y < 64)
      (hs : 0x80 ≤ x * 2 ^ 6 + y) (hc : IsCode c (x * 2 ^ 6 + y)) : Utf8Char [b1, b2] c
  | three {b1 b2 b3 : U8} {c : Char} {x y z : Nat} (h1 : b1.toNat = 0b11100000 + x) (h2 : b2.toNat = 0b10000000 + y) (h3 : b3.toNat = 0b10000000 + z) (hx : x < 16) (hy : y < 64) (hz : z < 64)
      (hs : 0x800 ≤ x * 2 ^ 12 + y * 2 ^ 6 + z) (hc : IsCode c (x * 2 ^ 12 + y * 2 ^ 6 + z)) : Utf8Char [b1, b2, b3] c
  | four {b1 b2 b3 b4 : U8} {c : Char} {x y z w : Nat} (h1 : b1.toNat = 0b11110000 + x) (h2 : b2.toNat = 0b10000000 + y) (h3 : b3.toNat = 0b10000000 + z) (h4 : b4.toNat = 0b10000000 + w)
      (hx : x < 8) (hy : y < 64) (hz : z < 64) (hw : w < 64) (hs : 0x10000 ≤ x * 2 ^ 18 + y * 2 ^ 12 + z * 2 ^ 6 + w) (hc : IsCode c (x * 2 ^ 18 + y * 2 ^ 12 + z * 2 ^ 6 + w)) : Utf8Char [b1, b2, b3, b4] c

/-- The bytes are the UTF-8 of the text. -/
inductive Utf8 : Bytes → Str → Prop
  | nil : Utf8 [] []
  | cons {b l : Bytes} {c : Char} {s : Str} (hc : Utf8Char b c) (h : Utf8 l s) : Utf8 (b ++ l) (c :: s)

/-- The characters that any bytes stand for: those of the UTF-8, and U+FFFD for each byte at which no character begins. -/
inductive Repaired : Bytes → Str → Prop
  | nil : Repaired [] []
  | good {b l : Bytes} {c : Char} {s : Str} (hc : Utf8Char b c) (h : Repaired l s) : Repaired (b ++ l) (c :: s)
  | bad {x : U8} {l : Bytes} {s : Str} (hb : ∀ b l' c, x :: l = b ++ l' → ¬ Utf8Char b c) (h : Repaired l s) : Repaired (x :: l) ('\uFFFD' :: s)

/-- One character of a member's name: the letter of the field's name in either case, or one of the two other characters that Unicode takes for the same letter. -/
def SpellsChar (x c : Char) : Prop := x = c ∨ x = c.toUpper ∨ x = c.toLower ∨ (c.toUpper = 'S' ∧ x.toNat = 0x17F) ∨ (c.toUpper = 'K' ∧ x.toNat = 0x212A)

/-- The name of a member is the name of a field, up to case. -/
def Spells (n : Str) (name : String) : Prop := List.Forall₂ SpellsChar n name.toList

/-- A value, or nothing for `null`. -/
def OrNull {α : Type} (R : Json → α → Prop) (zero : α) (j : Json) (x : α) : Prop := (j = .null ∧ x = zero) ∨ (j ≠ .null ∧ R j x)

/-- The member of that name says `x`; an absent member says nothing. -/
def FieldIs {α : Type} (o : List (Str × Json)) (name : String) (R : Json → α → Prop) (zero x : α) : Prop :=
  (∃ n j, (n, j) ∈ o ∧ Spells n name ∧ OrNull R zero j x) ∨ ((∀ n j, (n, j) ∈ o → ¬ Spells n name) ∧ x = zero)

/-- A string. -/
def TextIs (j : Json) (s : Str) : Prop := j = .str s

/-- A natural number that fits `w` bits. -/
def UintIs (w : Nat) (j : Json) (x : BitVec w) : Prop := ∃ lit, j = .num lit ∧ Denotes lit x.toNat

/-- An integer that fits 64 bits. -/
def IntIs (j : Json) (x : Int) : Prop :=
  ∃ lit, j = .num lit ∧ -2 ^ 63 ≤ x ∧ x < 2 ^ 63 ∧ ((∃ n : Nat, Denotes lit n ∧ x = n) ∨ ∃ (ds : Str) (n : Nat), lit = '-' :: ds ∧ Denotes ds n ∧ x = -n)

/-- An integer, or nothing. -/
def IntOptIs (j : Json) (x : Option Int) : Prop := ∃ n, x = some n ∧ IntIs j n

/-- A natural number of 32 bits, or nothing. -/
def Uint32OptIs (j : Json) (x : Option U32) : Prop := ∃ n, x = some n ∧ UintIs 32 j n

/-- The value of a character of base64. -/
def sextetOf (c : Char) : Option (BitVec 6) := (alphabet.idxOf? c).map (BitVec.ofNat 6)

/-- `s` is padded base64 for `b`, RFC 4648 section 4, with line ends anywhere; the left-over bits may be anything. -/
def Base64Text (s : Str) (b : Bytes) : Prop :=
  ∃ (t : Str) (p : Nat) (ds : List (BitVec 6)) (rest : List Bool), s.filter (fun c => c ≠ '\n' ∧ c ≠ '\r') = t ++ List.replicate p '=' ∧ p ≤ 2 ∧ (t.length + p) % 4 = 0 ∧
    t.map sextetOf = ds.map some ∧ ds.flatMap bits = bitsOf b ++ rest ∧ rest.length < 8

/-- Bytes: base64, or an array of numbers. -/
def BytesIs (j : Json) (b : Bytes) : Prop := (∃ s, j = .str s ∧ Base64Text s b) ∨ ∃ l, j = .arr l ∧ List.Forall₂ (OrNull (UintIs 8) 0) l b

/-- A value inside a value. -/
inductive Within : Json → Json → Prop
  | self {j : Json} : Within j j
  | elem {i j : Json} {l : List Json} (h : j ∈ l) (hi : Within i j) : Within i (.arr l)
  | member {i j : Json} {n : Str} {l : List (Str × Json)} (h : (n, j) ∈ l) (hi : Within i j) : Within i (.obj l)

/-- The AS number of a VRP: a string, a number that fits a `float64`, of which the integer part counts, or something else, which is no AS number; but the numbers in it fit a `float64`. -/
def JsonAsnIs (j : Json) (a : AsnJson) : Prop :=
  (∃ s, j = .str s ∧ a = .str s) ∨ (∃ lit x, j = .num lit ∧ FloatInt lit x ∧ a = .float x) ∨
    ((∀ s, j ≠ .str s) ∧ (∀ lit, j ≠ .num lit) ∧ (∀ lit, Within (.num lit) j → ∃ x, FloatInt lit x) ∧ a = .other)

/-- An array. -/
def ListIs {α : Type} (R : Json → α → Prop) (zero : α) (j : Json) (x : Option (List α)) : Prop := ∃ es xs, j = .arr es ∧ x = some xs ∧ List.Forall₂ (OrNull R zero) es xs

/-- An entry of `roas`. -/
def VrpIs (j : Json) (v : VRPJson) : Prop :=
  ∃ o, j = .obj o ∧ FieldIs o "prefix" TextIs [] v.pfx ∧ FieldIs o "maxLength" (UintIs 8) 0 v.length ∧ FieldIs o "asn" JsonAsnIs .other v.asn ∧ FieldIs o "ta" TextIs [] v.ta ∧
    FieldIs o "expires" IntOptIs none v.expires

/-- An entry of `bgpsec_keys`. -/
def KeyIs (j : Json) (k : BgpSecKeyJson) : Prop :=
  ∃ o, j = .obj o ∧ FieldIs o "asn" (UintIs 32) 0 k.asn ∧ FieldIs o "expires" IntOptIs none k.expires ∧ FieldIs o "ta" TextIs [] k.ta ∧ FieldIs o "pubkey" BytesIs [] k.pubkey ∧ FieldIs o "ski" TextIs [] k.ski

/-- The metadata. -/
def MetaIs (j : Json) (m : Metadata) : Prop :=
  ∃ o, j = .obj o ∧ FieldIs o "vrps" IntIs 0 m.counts ∧ FieldIs o "buildtime" TextIs [] m.buildtime ∧ FieldIs o "generated" IntOptIs none m.generated ∧
    (∃ x, FieldIs o "bgpsec_pubkeys" IntIs 0 x) ∧ (∃ x, FieldIs o "sessionid" IntIs 0 x) ∧ ∃ x, FieldIs o "serial" IntIs 0 x

/-- A cache file. -/
def CacheIs (j : Json) (l : RPKIList) : Prop :=
  ∃ o, j = .obj o ∧ FieldIs o "metadata" MetaIs ⟨0, [], none⟩ l.metadata ∧ FieldIs o "roas" (ListIs VrpIs ⟨[], 0, .other, [], none⟩) none l.roas ∧
    FieldIs o "bgpsec_keys" (ListIs KeyIs ⟨0, none, [], [], []⟩) none l.keys

/-- A prefix filter, RFC 8416 section 3.3.1. -/
def PrefixFilterIs (j : Json) (f : PrefixFilter) : Prop :=
  ∃ o, j = .obj o ∧ FieldIs o "prefix" TextIs [] f.pfx ∧ FieldIs o "asn" Uint32OptIs none f.asn ∧ ∃ x, FieldIs o "comment" TextIs [] x

/-- A BGPsec filter, RFC 8416 section 3.3.2, but with padded base64. -/
def BgpsecFilterIs (j : Json) (f : BgpsecFilter) : Prop :=
  ∃ o, j = .obj o ∧ FieldIs o "asn" Uint32OptIs none f.asn ∧ FieldIs o "SKI" BytesIs [] f.ski ∧ ∃ x, FieldIs o "comment" TextIs [] x

/-- A prefix assertion, RFC 8416 section 3.4.1. -/
def PrefixAssertionIs (j : Json) (a : PrefixAssertion) : Prop :=
  ∃ o, j = .obj o ∧ FieldIs o "prefix" TextIs [] a.pfx ∧ FieldIs o "asn" (UintIs 32) 0 a.asn ∧ FieldIs o "maxPrefixLength" IntIs 0 a.maxPrefixLength ∧ FieldIs o "comment" TextIs [] a.comment

/-- A BGPsec assertion, RFC 8416 section 3.4.2, but with padded base64. -/
def BgpsecAssertionIs (j : Json) (a : BgpsecAssertion) : Prop :=
  ∃ o, j = .obj o ∧ FieldIs o "SKI" BytesIs [] a.ski ∧ FieldIs o "asn" (UintIs 32) 0 a.asn ∧ FieldIs o "routerPublicKey" BytesIs [] a.routerPublicKey ∧ ∃ x, FieldIs o "comment" TextIs [] x

/-- The filters. -/
def FiltersIs (j : Json) (x : Option (List PrefixFilter) × Option (List BgpsecFilter)) : Prop :=
  ∃ o, j = .obj o ∧ FieldIs o "prefixFilters" (ListIs PrefixFilterIs ⟨[], none⟩) none x.1 ∧ FieldIs o "bgpsecFilters" (ListIs BgpsecFilterIs ⟨none, []⟩) none x.2

/-- The assertions. -/
def AssertionsIs (j : Json) (x : Option (List PrefixAssertion) × Option (List BgpsecAssertion)) : Prop :=
  ∃ o, j = .obj o ∧ FieldIs o "prefixAssertions" (ListIs PrefixAssertionIs ⟨[], 0, 0, []⟩) none x.1 ∧ FieldIs o "bgpsecAssertions" (ListIs BgpsecAssertionIs ⟨[], 0, []⟩) none x.2

/-- A SLURM file; absent lists are empty. -/
def SlurmIs (j : Json) (s : Slurm) : Prop :=
  ∃ o f a, j = .obj o ∧ (∃ x, FieldIs o "slurmVersion" IntIs 0 x) ∧ FieldIs o "validationOutputFilters" FiltersIs (none, none) f ∧ FieldIs o "locallyAddedAssertions" AssertionsIs (none, none) a ∧
    s = ⟨f.1.getD [], f.2.getD [], a.1.getD [], a.2.getD []⟩

/-- No object has two members whose names are the same up to case. -/
def NoRepeats (j : Json) : Prop := ∀ o, Within (.obj o) j → o.Pairwise fun a b => ¬ ∃ name, Spells a.1 name ∧ Spells b.1 name

/-- All numbers have fewer than 9000 characters, or exponents below 100000. -/
def OrdinaryNumbers (j : Json) : Prop := ∀ lit, Within (.num lit) j → lit.length < 9000 ∨ SmallExp lit

/-- An object has a member of that name, up to case. -/
def Member (o : List (Str × Json)) (name : String) (j : Json) : Prop := ∃ n, (n, j) ∈ o ∧ Spells n name

/-- The integer that a number stands for. -/
def IntText (lit : Str) (x : Int) : Prop := (∃ n : Nat, Denotes lit n ∧ x = n) ∨ ∃ (ds : Str) (n : Nat), lit = '-' :: ds ∧ Denotes ds n ∧ x = -n

/-- `e` is an entry of the list of that name of a file. -/
def Entry (s : Str) (name : String) (e : Json) : Prop := ∃ o es, FirstValue s (.obj o) ∧ Member o name (.arr es) ∧ e ∈ es

/-- The entry is not expired. -/
def Unexpired (now : Int) (o : List (Str × Json)) : Prop := ∀ lit, Member o "expires" (.num lit) → ∃ x, IntText lit x ∧ now ≤ x

/-- The entry `e` of `roas` states the VRP (prefix, maximum length, ASN), at the time `now`: all three are given, the AS number as a number or as text after the letters `AS`; the prefix is at least one bit long, at most
the maximum length, and that is at most the width of the address; and the entry is not expired. -/
def StatesVrp (now : Int) (e : Json) (r : Prefix × U8 × U32) : Prop :=
  ∃ o, e = .obj o ∧ (∃ t, Member o "prefix" (.str t) ∧ PrefixText t r.1) ∧ (∃ lit, Member o "maxLength" (.num lit) ∧ Denotes lit r.2.1.toNat) ∧
    ((∃ pre d, Member o "asn" (.str (pre ++ d)) ∧ (∀ c ∈ pre, c ∈ ['a', 'A', 's', 'S']) ∧ Denotes d r.2.2.toNat) ∨ ∃ lit, Member o "asn" (.num lit) ∧ IntText lit r.2.2.toNat) ∧
    Unexpired now o ∧ 1 ≤ r.1.bits ∧ r.1.bits ≤ (r.2.1.toNat : Int) ∧ r.2.1.toNat ≤ r.1.ip.bitLen

/-- The entry `e` of `bgpsec_keys` states the router key (ASN, SKI, key), at the time `now`: all three are given, and the entry is not expired. -/
def StatesKey (now : Int) (e : Json) (r : U32 × Bytes × Bytes) : Prop :=
  ∃ o, e = .obj o ∧ (∃ lit, Member o "asn" (.num lit) ∧ Denotes lit r.1.toNat) ∧ (∃ t, Member o "ski" (.str t) ∧ HexText t r.2.1) ∧ (∃ j, Member o "pubkey" j ∧ BytesIs j r.2.2) ∧ Unexpired now o

/-- A file states the record, at the time `now`. -/
def FileStates (now : Int) (s : Str) : Rec → Prop
  | .vrp p m a => ∃ e, Entry s "roas" e ∧ StatesVrp now e (p, m, a)
  | .brk a ski key => ∃ e, Entry s "bgpsec_keys" e ∧ StatesKey now e (a, ski, key)

/-- The bytes are one JSON text, a line end, and nothing else; no object has a name twice. -/
def IsJsonFile (b : Bytes) (s : Str) (o : List (Str × Json)) : Prop := ∃ t, JText 10000 (.obj o) t ∧ s = t ++ ['\n'] ∧ Utf8 b s ∧ NoRepeats (.obj o)

end StayRTR.Spec
