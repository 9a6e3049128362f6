import Verif.Model.JsonText
import Verif.Model.Update
import Verif.Model.Auth
import Verif.Model.Dump

/-!
# Decoding and encoding the files

`decodeJSON` (cmd/stayrtr/stayrtr.go:184-191, cmd/rtrmon/rtrmon.go:200-207) and `DecodeJSONSlurm` (prefixfile/slurm.go:82-91), that is `Decode` of encoding/json (Go 1.23, decode.go) into the structures of prefixfile/prefixfile.go:11-45 and
prefixfile/slurm.go:14-80; and the encoding of the export (cmd/stayrtr/stayrtr.go:631-637) and of the dump (cmd/rtrdump/rtrdump.go:243-244).

`Decode` goes on after an error and reports the first one; all callers discard the value then, so here an error is `none`. The members of an object are decoded in the order of the text, each into the field of its name; since the fields are
independent, here each field collects its members. A member decodes into the value that its field already has: that matters for repeated names. In particular a slice that was longer before keeps its elements beyond its length, and a
later, longer list brings them back; so while a file is decoded, a slice is a pair (`Arr`).
-/

namespace StayRTR

/-- `foldRune` of encoding/json, on ASCII and on the two other characters whose smallest equivalent is ASCII (cmd/stayrtr/stayrtr.go:189); the others cannot make a field name. -/
def foldChar (c : Char) : Char :=
  if 'a'.toNat ≤ c.toNat ∧ c.toNat ≤ 'z'.toNat then Char.ofNat (c.toNat - 32)
  else if c = '\u017F' then 'S' else if c = '\u212A' then 'K' else c

/-- `foldName` of encoding/json (cmd/stayrtr/stayrtr.go:189). -/
def foldName (s : Str) : Str := s.map foldChar

/-- The members of an object decoded into one field of a structure: by its exact name or else up to case, which is the same as the names of no structure agree up to case (`decodeState.object` of encoding/json; cmd/stayrtr/stayrtr.go:189). -/
def jsonField {α : Type} (o : List (Str × Json)) (name : String) (dec : α → Json → Option α) (old : α) : Option α :=
  (o.filter fun m => foldName m.1 == foldName name.toList).foldlM (fun a m => dec a m.2) old

/-- Into a `string` (prefixfile/prefixfile.go:27). -/
def decText (old : Str) : Json → Option Str
  | .null => some old
  | .str s => some s
  | _ => none

/-- `strconv.ParseUint(lit, 10, 64)` on a JSON number (prefixfile/prefixfile.go:28). -/
def litNat (lit : Str) : Option Nat := parseDec lit

/-- `strconv.ParseInt(lit, 10, 64)` on a JSON number (prefixfile/prefixfile.go:18), before the range is checked. -/
def litInt : Str → Option Int
  | '-' :: ds => (parseDec ds).map fun n : Nat => -(n : Int)
  | ds => (parseDec ds).map fun n : Nat => (n : Int)

/-- Into an unsigned integer of `w` bits (prefixfile/prefixfile.go:28, 35). -/
def decUint (w : Nat) (old : BitVec w) : Json → Option (BitVec w)
  | .null => some old
  | .num lit => match litNat lit with
    | some n => if n < 2 ^ w then some (BitVec.ofNat w n) else none
    | none => none
  | _ => none

/-- Into an `int` or `int64` (prefixfile/prefixfile.go:18, 31). -/
def decInt (old : Int) : Json → Option Int
  | .null => some old
  | .num lit => match litInt lit with
    | some n => if -2 ^ 63 ≤ n ∧ n < 2 ^ 63 then some n else none
    | none => none
  | _ => none

/-- Into a pointer (prefixfile/prefixfile.go:31): `null` makes it nil. -/
def decPtr {α : Type} (zero : α) (dec : α → Json → Option α) (old : Option α) : Json → Option (Option α)
  | .null => some none
  | j => (dec (old.getD zero) j).map some

/-- Elements decoded one by one, into the old elements as far as there are (`decodeState.array` of encoding/json; prefixfile/prefixfile.go:13). -/
def decElems {α : Type} (zero : α) (dec : α → Json → Option α) : List α → List Json → Option (List α)
  | _, [] => some []
  | old, j :: l =>
    match dec (old.headD zero) j with
    | none => none
    | some a => match decElems zero dec old.tail l with
      | none => none
      | some r => some (a :: r)

/-- A slice while a file is decoded: its elements, and the elements beyond its length that its array still has from a longer list before (`SetLen` in `decodeState.array` of encoding/json; prefixfile/prefixfile.go:13). The rest of the
array is zero; if the array is too short, all its elements are moved. -/
abbrev Arr (α : Type) := List α × List α

/-- An array into a slice (`decodeState.array` of encoding/json; prefixfile/prefixfile.go:13); an empty one makes it a new slice. -/
def decArray {α : Type} (zero : α) (dec : α → Json → Option α) (old : Arr α) : List Json → Option (Arr α)
  | [] => some ([], [])
  | l => (decElems zero dec (old.1 ++ old.2) l).map fun r => (r, (old.1 ++ old.2).drop l.length)

/-- Into a slice (prefixfile/prefixfile.go:13): `null` makes it nil. -/
def decSlice {α : Type} (zero : α) (dec : α → Json → Option α) (old : Option (Arr α)) : Json → Option (Option (Arr α))
  | .null => some none
  | .arr l => (decArray zero dec (old.getD ([], [])) l).map some
  | _ => none

/-- The value of a character of base64 (`decodeMap` of encoding/base64; prefixfile/prefixfile.go:41). -/
def b64Value (c : Char) : Option (BitVec 6) :=
  let n := c.toNat
  if 65 ≤ n ∧ n ≤ 90 then some (BitVec.ofNat 6 (n - 65))
  else if 97 ≤ n ∧ n ≤ 122 then some (BitVec.ofNat 6 (n - 97 + 26))
  else if 48 ≤ n ∧ n ≤ 57 then some (BitVec.ofNat 6 (n - 48 + 52))
  else if n = 43 then some 62 else if n = 47 then some 63 else none

/-- `val := uint(dbuf[0])<<18 | uint(dbuf[1])<<12 | uint(dbuf[2])<<6 | uint(dbuf[3])` of encoding/base64 (prefixfile/prefixfile.go:41). -/
def b64Join (a b c d : BitVec 6) : BitVec 24 := (a.setWidth 24 <<< 18) ||| (b.setWidth 24 <<< 12) ||| (c.setWidth 24 <<< 6) ||| d.setWidth 24

/-- The bytes of `val`, the highest first (encoding/base64; prefixfile/prefixfile.go:41). -/
def b64Bytes (v : BitVec 24) : Bytes := [(v >>> 16).setWidth 8, (v >>> 8).setWidth 8, v.setWidth 8]

/-- `decodeQuantum` of encoding/base64 for `StdEncoding`, again and again (prefixfile/prefixfile.go:41): groups of four characters, the last one padded with `=`. Left-over bits may be anything. -/
def b64Quads : Str → Option Bytes
  | [] => some []
  | a :: b :: c :: d :: l =>
    match b64Value a, b64Value b with
    | some x, some y =>
      if c = '=' then (if d = '=' ∧ l = [] then some ((b64Bytes (b64Join x y 0 0)).take 1) else none)
      else match b64Value c with
        | none => none
        | some z =>
          if d = '=' then (if l = [] then some ((b64Bytes (b64Join x y z 0)).take 2) else none)
          else match b64Value d, b64Quads l with
            | some w, some r => some (b64Bytes (b64Join x y z w) ++ r)
            | _, _ => none
    | _, _ => none
  | _ => none

/-- `base64.StdEncoding.Decode` (prefixfile/prefixfile.go:41): line ends are skipped. -/
def b64Decode (s : Str) : Option Bytes := b64Quads (s.filter fun c => !(c == '\n' || c == '\r'))

/-- Into a `[]byte` (prefixfile/prefixfile.go:41, prefixfile/slurm.go:22, 52, 55): base64 text, which makes it a new slice with zeros after the bytes, or an array of numbers. A nil slice is empty here. -/
def decBytes (old : Arr U8) : Json → Option (Arr U8)
  | .null => some ([], [])
  | .str s => (b64Decode s).map fun b => (b, [])
  | .arr l => decArray 0 (decUint 8) old l
  | _ => none

/-- The mantissa, as an integer, and the number of its digits after the point, of the part of a number before the exponent (`readFloat` of strconv; prefixfile/prefixfile.go:29). -/
def litMantissa (s : Str) : Nat × Nat :=
  let i := s.takeWhile (· != '.')
  let f := (s.dropWhile (· != '.')).drop 1
  (decVal (i ++ f), f.length)

/-- The digits of an exponent (`readFloat` of strconv; prefixfile/prefixfile.go:29): from 10000 on, further digits are skipped. -/
def litExp (ds : Str) : Nat := ds.foldl (fun e c => if e < 10000 then e * 10 + (c.toNat - '0'.toNat) else e) 0

/-- The parts of a JSON number (prefixfile/prefixfile.go:29): sign, mantissa, exponent of ten. -/
def litParts (lit : Str) : Bool × Nat × Int :=
  let neg := lit.head? == some '-'
  let s := if neg then lit.drop 1 else lit
  let isE := fun c : Char => c == 'e' || c == 'E'
  let m := s.takeWhile (fun c => !isE c)
  let e := (s.dropWhile (fun c => !isE c)).drop 1
  let x : Int := match e with
    | '-' :: ds => -(litExp ds : Int)
    | '+' :: ds => litExp ds
    | ds => litExp ds
  (neg, (litMantissa m).1, x - (litMantissa m).2)

/-- `n / d` rounded to an integer, ties to even (prefixfile/prefixfile.go:29). -/
def divEven (n d : Nat) : Nat :=
  let q := n / d
  let r := n % d
  if 2 * r < d then q else if d < 2 * r then q + 1 else if q % 2 = 0 then q else q + 1

/-- The `float64` nearest to `n / d` (`strconv.ParseFloat`; prefixfile/prefixfile.go:29), truncated to an integer: for `2 ^ (k + 52) ≤ n / d < 2 ^ (k + 53)` it is a multiple of `2 ^ k`. Below 1 the result is 0 or, if rounded up, 1. `none`: out of range. -/
def floatTrunc (n d : Nat) : Option Nat :=
  if n / d = 0 then some (if 2 ^ 54 * d ≤ 2 ^ 54 * n + d then 1 else 0)
  else
    let l := Nat.log2 (n / d)
    let t := if l ≤ 52 then divEven (n * 2 ^ (52 - l)) d / 2 ^ (52 - l) else divEven n (d * 2 ^ (l - 52)) * 2 ^ (l - 52)
    if t < 2 ^ 1024 then some t else none

/-- A number into an `interface{}` (`convertNumber` of encoding/json; prefixfile/prefixfile.go:29): the `float64`, truncated towards zero; `none`: out of range. -/
def litFloat (lit : Str) : Option Int :=
  let (neg, m, e) := litParts lit
  match if 0 ≤ e then floatTrunc (m * 10 ^ e.toNat) 1 else floatTrunc m (10 ^ (-e).toNat) with
  | none => none
  | some t => some (if neg then -(t : Int) else t)

mutual

/-- Whether all numbers in a value fit a `float64` (`arrayInterface`, `objectInterface` of encoding/json; prefixfile/prefixfile.go:29). -/
def floatsFit : Json → Bool
  | .num lit => (litFloat lit).isSome
  | .arr l => floatsFitElems l
  | .obj l => floatsFitMembers l
  | _ => true

/-- Likewise of the elements of an array (prefixfile/prefixfile.go:29). -/
def floatsFitElems : List Json → Bool
  | [] => true
  | v :: l => floatsFit v && floatsFitElems l

/-- Likewise of the members of an object (prefixfile/prefixfile.go:29). -/
def floatsFitMembers : List (Str × Json) → Bool
  | [] => true
  | (_, v) :: l => floatsFit v && floatsFitMembers l

end

/-- Into an `interface{}` (prefixfile/prefixfile.go:29), as `GetASN2` tells the values apart. -/
def decAsn (_old : AsnJson) : Json → Option AsnJson
  | .str s => some (.str s)
  | .num lit => (litFloat lit).map .float
  | j => if floatsFit j then some .other else none

/-- Into a structure (`decodeState.object` of encoding/json; prefixfile/prefixfile.go:11). -/
def decStruct {α : Type} (members : α → List (Str × Json) → Option α) (old : α) : Json → Option α
  | .null => some old
  | .obj o => members old o
  | _ => none

/-- The zero `VRPJson`, prefixfile/prefixfile.go:26-32. -/
def VRPJson.zero : VRPJson := ⟨[], 0, .other, [], none⟩

/-- Into a `VRPJson`, prefixfile/prefixfile.go:26-32. -/
def decVrp : VRPJson → Json → Option VRPJson :=
  decStruct fun old o => do
    let pfx ← jsonField o "prefix" decText old.pfx
    let length ← jsonField o "maxLength" (decUint 8) old.length
    let asn ← jsonField o "asn" decAsn old.asn
    let ta ← jsonField o "ta" decText old.ta
    let expires ← jsonField o "expires" (decPtr 0 decInt) old.expires
    some ⟨pfx, length, asn, ta, expires⟩

/-- A `BgpSecKeyJson` while a file is decoded, prefixfile/prefixfile.go:34-45. -/
structure MemKey where
  asn : U32
  expires : Option Int
  ta : Str
  pubkey : Arr U8
  ski : Str

/-- The `BgpSecKeyJson`, prefixfile/prefixfile.go:34-45. -/
def MemKey.key (k : MemKey) : BgpSecKeyJson := ⟨k.asn, k.expires, k.ta, k.pubkey.1, k.ski⟩

/-- The zero `BgpSecKeyJson`, prefixfile/prefixfile.go:34-45. -/
def MemKey.zero : MemKey := ⟨0, none, [], ([], []), []⟩

/-- Into a `BgpSecKeyJson`, prefixfile/prefixfile.go:34-45. -/
def decKey : MemKey → Json → Option MemKey :=
  decStruct fun old o => do
    let asn ← jsonField o "asn" (decUint 32) old.asn
    let expires ← jsonField o "expires" (decPtr 0 decInt) old.expires
    let ta ← jsonField o "ta" decText old.ta
    let pubkey ← jsonField o "pubkey" decBytes old.pubkey
    let ski ← jsonField o "ski" decText old.ski
    some ⟨asn, expires, ta, pubkey, ski⟩

/-- Into a `MetaData`, prefixfile/prefixfile.go:17-24. `bgpsec_pubkeys`, `sessionid` and `serial` are not used afterwards, but decode or fail to. -/
def decMeta : Metadata → Json → Option Metadata :=
  decStruct fun old o => do
    let counts ← jsonField o "vrps" decInt old.counts
    let _ ← jsonField o "bgpsec_pubkeys" decInt 0
    let buildtime ← jsonField o "buildtime" decText old.buildtime
    let generated ← jsonField o "generated" (decPtr 0 decInt) old.generated
    let _ ← jsonField o "sessionid" decInt 0
    let _ ← jsonField o "serial" decInt 0
    some ⟨counts, buildtime, generated⟩

/-- An `RPKIList` while a file is decoded, prefixfile/prefixfile.go:11-15. -/
structure MemList where
  metadata : Metadata
  roas : Option (Arr VRPJson)
  keys : Option (Arr MemKey)

/-- The `RPKIList`, prefixfile/prefixfile.go:11-15. -/
def MemList.list (l : MemList) : RPKIList := ⟨l.metadata, l.roas.map (·.1), l.keys.map fun m => m.1.map MemKey.key⟩

/-- Into an `RPKIList`, prefixfile/prefixfile.go:11-15. -/
def decList : MemList → Json → Option MemList :=
  decStruct fun old o => do
    let metadata ← jsonField o "metadata" decMeta old.metadata
    let roas ← jsonField o "roas" (decSlice .zero decVrp) old.roas
    let keys ← jsonField o "bgpsec_keys" (decSlice .zero decKey) old.keys
    some ⟨metadata, roas, keys⟩

/-- `decodeJSON`, cmd/stayrtr/stayrtr.go:184-191; `decodeJSON`, cmd/rtrmon/rtrmon.go:200-207. -/
def decodeFile (b : Bytes) : Option RPKIList :=
  match readJson (goRunes 0 b) with
  | none => none
  | some j => (decList ⟨⟨0, [], none⟩, none, none⟩ j).map MemList.list

/-- Into a `SlurmPrefixFilter`, prefixfile/slurm.go:14-18. -/
def decPrefixFilter : PrefixFilter → Json → Option PrefixFilter :=
  decStruct fun old o => do
    let pfx ← jsonField o "Prefix" decText old.pfx
    let asn ← jsonField o "asn" (decPtr 0 (decUint 32)) old.asn
    let _ ← jsonField o "Comment" decText []
    some ⟨pfx, asn⟩

/-- A `SlurmBGPsecFilter` while a file is decoded, prefixfile/slurm.go:20-24. -/
structure MemFilter where
  asn : Option U32
  ski : Arr U8

/-- The `SlurmBGPsecFilter`, prefixfile/slurm.go:20-24. -/
def MemFilter.filter (f : MemFilter) : BgpsecFilter := ⟨f.asn, f.ski.1⟩

/-- Into a `SlurmBGPsecFilter`, prefixfile/slurm.go:20-24. -/
def decBgpsecFilter : MemFilter → Json → Option MemFilter :=
  decStruct fun old o => do
    let asn ← jsonField o "asn" (decPtr 0 (decUint 32)) old.asn
    let ski ← jsonField o "SKI" decBytes old.ski
    let _ ← jsonField o "comment" decText []
    some ⟨asn, ski⟩

/-- Into a `SlurmPrefixAssertion`, prefixfile/slurm.go:44-49. -/
def decPrefixAssertion : PrefixAssertion → Json → Option PrefixAssertion :=
  decStruct fun old o => do
    let pfx ← jsonField o "Prefix" decText old.pfx
    let asn ← jsonField o "ASN" (decUint 32) old.asn
    let len ← jsonField o "MaxPrefixLength" decInt old.maxPrefixLength
    let comment ← jsonField o "Comment" decText old.comment
    some ⟨pfx, asn, len, comment⟩

/-- A `SlurmBGPsecAssertion` while a file is decoded, prefixfile/slurm.go:51-56. -/
structure MemAssertion where
  ski : Arr U8
  asn : U32
  routerPublicKey : Arr U8

/-- The `SlurmBGPsecAssertion`, prefixfile/slurm.go:51-56. -/
def MemAssertion.assertion (a : MemAssertion) : BgpsecAssertion := ⟨a.ski.1, a.asn, a.routerPublicKey.1⟩

/-- Into a `SlurmBGPsecAssertion`, prefixfile/slurm.go:51-56. -/
def decBgpsecAssertion : MemAssertion → Json → Option MemAssertion :=
  decStruct fun old o => do
    let ski ← jsonField o "SKI" decBytes old.ski
    let asn ← jsonField o "asn" (decUint 32) old.asn
    let _ ← jsonField o "comment" decText []
    let key ← jsonField o "routerPublicKey" decBytes old.routerPublicKey
    some ⟨ski, asn, key⟩

/-- Into a `SlurmValidationOutputFilters`, prefixfile/slurm.go:39-42. -/
def decFilters : Option (Arr PrefixFilter) × Option (Arr MemFilter) → Json → Option (Option (Arr PrefixFilter) × Option (Arr MemFilter)) :=
  decStruct fun old o => do
    let p ← jsonField o "PrefixFilters" (decSlice ⟨[], none⟩ decPrefixFilter) old.1
    let b ← jsonField o "BgpsecFilters" (decSlice ⟨none, ([], [])⟩ decBgpsecFilter) old.2
    some (p, b)

/-- Into a `SlurmLocallyAddedAssertions`, prefixfile/slurm.go:71-74. -/
def decAssertions : Option (Arr PrefixAssertion) × Option (Arr MemAssertion) → Json → Option (Option (Arr PrefixAssertion) × Option (Arr MemAssertion)) :=
  decStruct fun old o => do
    let p ← jsonField o "PrefixAssertions" (decSlice ⟨[], 0, 0, []⟩ decPrefixAssertion) old.1
    let b ← jsonField o "BgpsecAssertions" (decSlice ⟨([], []), 0, ([], [])⟩ decBgpsecAssertion) old.2
    some (p, b)

/-- Into a `SlurmConfig`, prefixfile/slurm.go:76-80; nil slices are empty here. -/
def decSlurm : Json → Option Slurm :=
  decStruct (fun _ o => do
    let _ ← jsonField o "SlurmVersion" decInt 0
    let f ← jsonField o "ValidationOutputFilters" decFilters (none, none)
    let a ← jsonField o "LocallyAddedAssertions" decAssertions (none, none)
    some ⟨(f.1.getD ([], [])).1, (f.2.getD ([], [])).1.map MemFilter.filter, (a.1.getD ([], [])).1, (a.2.getD ([], [])).1.map MemAssertion.assertion⟩) ⟨[], [], [], []⟩

/-- `DecodeJSONSlurm`, prefixfile/slurm.go:82-91. `UseNumber` only concerns numbers decoded into an `interface{}`, of which there are none. -/
def decodeSlurmFile (b : Bytes) : Option Slurm :=
  match readJson (goRunes 0 b) with
  | none => none
  | some j => decSlurm j

/-- An integer (cmd/stayrtr/stayrtr.go:636). -/
def encInt (n : Int) : Json := .num (if n < 0 then '-' :: decStr n.natAbs else decStr n.natAbs)

/-- Bytes as padded base64 (cmd/stayrtr/stayrtr.go:636): `StdEncoding`, that is the encoding without padding of `Model/Auth.lean` and then up to two `=`. A nil slice, written `null`, is empty here. -/
def encBytes (b : Bytes) : Json :=
  .str ((rawBase64 b).map (fun c => Char.ofNat c.toNat) ++ List.replicate ((3 - b.length % 3) % 3) '=')

/-- `interface{}` (prefixfile/prefixfile.go:29; cmd/stayrtr/stayrtr.go:636). A `float64` is written as the shortest text that reads as the same number; here as its integer part, which is all that is known of it, in full. Anything else than strings and numbers is written as it came, here as `null`. -/
def encAsn : AsnJson → Json
  | .str s => .str s
  | .float t => encInt t
  | .int n => encInt n
  | .uint32 n => encInt n.toNat
  | .other => .null

/-- A member that `omitempty` leaves out (prefixfile/prefixfile.go:30-31). -/
def omitText (name : String) (s : Str) : List (Str × Json) := if s = [] then [] else [(name.toList, .str s)]

/-- Likewise of a pointer (prefixfile/prefixfile.go:31). -/
def omitPtr (name : String) : Option Int → List (Str × Json)
  | none => []
  | some n => [(name.toList, encInt n)]

/-- A `VRPJson`, prefixfile/prefixfile.go:26-32. -/
def encVrp (v : VRPJson) : Json :=
  .obj ([("prefix".toList, .str v.pfx), ("maxLength".toList, encInt v.length.toNat), ("asn".toList, encAsn v.asn)] ++ omitText "ta" v.ta ++ omitPtr "expires" v.expires)

/-- A `BgpSecKeyJson`, prefixfile/prefixfile.go:34-45. -/
def encKey (k : BgpSecKeyJson) : Json :=
  .obj ([("asn".toList, encInt k.asn.toNat)] ++ omitPtr "expires" k.expires ++ omitText "ta" k.ta ++ [("pubkey".toList, encBytes k.pubkey), ("ski".toList, .str k.ski)])

/-- A slice; a nil one is `null` (prefixfile/prefixfile.go:13). -/
def encSlice {α : Type} (enc : α → Json) : Option (List α) → Json
  | none => .null
  | some l => .arr (l.map enc)

/-- A slice with `omitempty` (prefixfile/prefixfile.go:14). -/
def omitSlice {α : Type} (name : String) (enc : α → Json) : Option (List α) → List (Str × Json)
  | none => []
  | some [] => []
  | some l => [(name.toList, .arr (l.map enc))]

/-- A `MetaData`, prefixfile/prefixfile.go:17-24: with the fields that `Metadata` does not have. -/
def encMeta (m : Metadata) (countKeys sessionID serial : Int) : Json :=
  .obj ([("vrps".toList, encInt m.counts), ("bgpsec_pubkeys".toList, encInt countKeys)] ++ omitText "buildtime" m.buildtime ++ omitPtr "generated" m.generated ++
    (if sessionID = 0 then [] else [("sessionid".toList, encInt sessionID)]) ++ [("serial".toList, encInt serial)])

/-- An `RPKIList`, prefixfile/prefixfile.go:11-15; `omitempty` has no effect on a structure. -/
def encList (l : RPKIList) (countKeys sessionID serial : Int) : Json :=
  .obj ([("metadata".toList, encMeta l.metadata countKeys sessionID serial), ("roas".toList, encSlice encVrp l.roas)] ++ omitSlice "bgpsec_keys" encKey l.keys)

/-- `Encode` of a value: the text and a line end (cmd/stayrtr/stayrtr.go:636). -/
def encodeFile (j : Json) : Bytes := utf8Str (printJson j ++ ['\n'])

/-- `exporter`, cmd/stayrtr/stayrtr.go:631-637: the body of the answer. -/
def exportFile (s : UState) : Bytes := encodeFile (encList s.exported 0 0 0)

/-- The file that rtrdump writes, cmd/rtrdump/rtrdump.go:243-244. -/
def dumpFile (d : DumpData) : Bytes := encodeFile (encList ⟨⟨d.counts, [], none⟩, some d.roa, some d.keys⟩ d.countKeys d.sessionID d.serial)

end StayRTR
