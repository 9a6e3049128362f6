import Verif.Model.Text

/-!
# Parsers of the Go standard library

`strconv.ParseUint`, `encoding/hex`, `netip.ParsePrefix` and `net.ParseCIDR`, as used when reading the cache and SLURM files
(prefixfile/prefixfile.go:55-90, prefixfile/slurm.go:34-37, 62-65, 147, cmd/stayrtr/stayrtr.go:309).

The functions are restated on lists of characters; IPv4 addresses are split at the dots instead of being scanned by index.
Only success and result are modelled, not the text of errors.
-/

namespace StayRTR

/-- An ASCII decimal digit (inside `strconv.ParseUint`, prefixfile/prefixfile.go:59). -/
def isDec (c : Char) : Bool := decide ('0'.toNat ≤ c.toNat) && decide (c.toNat ≤ '9'.toNat)

/-- The value of a hexadecimal digit, any case (inside `hex.DecodeString`, prefixfile/slurm.go:147, and `netip.ParsePrefix`, prefixfile/slurm.go:35). -/
def hexDigit (c : Char) : Option Nat :=
  if '0'.toNat ≤ c.toNat ∧ c.toNat ≤ '9'.toNat then some (c.toNat - '0'.toNat)
  else if 'a'.toNat ≤ c.toNat ∧ c.toNat ≤ 'f'.toNat then some (c.toNat - 'a'.toNat + 10)
  else if 'A'.toNat ≤ c.toNat ∧ c.toNat ≤ 'F'.toNat then some (c.toNat - 'A'.toNat + 10)
  else none

/-- The value of a string of decimal digits (inside `strconv.ParseUint`, prefixfile/prefixfile.go:59). -/
def decVal (s : Str) : Nat := s.foldl (fun n c => n * 10 + (c.toNat - '0'.toNat)) 0

/-- The value of a string of hexadecimal digits (inside `netip.ParsePrefix`, prefixfile/slurm.go:35). -/
def hexVal (s : Str) : Nat := s.foldl (fun n c => n * 16 + (hexDigit c).getD 0) 0

/-- A non-empty string of decimal digits as a number (`strconv.ParseUint`, `strconv.Atoi` without sign, `dtoi` of package net) (prefixfile/prefixfile.go:59; prefixfile/slurm.go:35). -/
def parseDec (s : Str) : Option Nat := if s ≠ [] ∧ s.all isDec = true then some (decVal s) else none

/-- `strconv.ParseUint(s, 10, 32)`, prefixfile/prefixfile.go:59. -/
def parseUint32 (s : Str) : Option U32 :=
  match parseDec s with
  | some n => if n < 2 ^ 32 then some (BitVec.ofNat 32 n) else none
  | none => none

/-- `hex.DecodeString`, prefixfile/slurm.go:147, cmd/stayrtr/stayrtr.go:309: the bytes before the first malformed pair, and whether there was an error. -/
def hexDecode : Str → Bytes × Bool
  | [] => ([], true)
  | [_] => ([], false)
  | a :: b :: l =>
    match hexDigit a, hexDigit b with
    | some x, some y => let (r, ok) := hexDecode l; (BitVec.ofNat 8 (x * 16 + y) :: r, ok)
    | _, _ => ([], false)

/-- One IPv4 field (`parseIPv4Fields` of net/netip, prefixfile/slurm.go:35): digits, no leading zero, at most 255. -/
def octet (s : Str) : Option Nat :=
  match parseDec s with
  | some n => if (2 ≤ s.length ∧ s.head? = some '0') ∨ 255 < n then none else some n
  | none => none

/-- Split at every occurrence of a separator (the field boundaries of `parseIPv4Fields`; also `strings.Split`, cmd/stayrtr/stayrtr.go:929). -/
def splitOn (x : Char) : Str → List Str
  | [] => [[]]
  | c :: l =>
    if c = x then [] :: splitOn x l
    else match splitOn x l with
      | f :: fs => (c :: f) :: fs
      | [] => [[c]]

/-- `parseIPv4Fields` of net/netip (prefixfile/slurm.go:35): four fields. -/
def parseIPv4 (s : Str) : Option Nat :=
  match (splitOn '.' s).map octet with
  | [some a, some b, some c, some d] => some (((a * 256 + b) * 256 + c) * 256 + d)
  | _ => none

/-- The main loop of `parseIPv6` of net/netip (prefixfile/slurm.go:35): the groups read so far and where `::` was, with room for `n` more groups. -/
def v6Loop : Nat → List Nat → Option Nat → Str → Option (List Nat × Option Nat)
  | 0, gs, ell, s => if s = [] then some (gs, ell) else none
  | n + 1, gs, ell, s =>
    let ds := s.takeWhile (fun c => (hexDigit c).isSome)
    let rest := s.dropWhile (fun c => (hexDigit c).isSome)
    if ds = [] ∨ 4 < ds.length then none
    else match rest with
      | [] => some (gs ++ [hexVal ds], ell)
      | '.' :: _ =>
        if (ell = none ∧ gs.length ≠ 6) ∨ 6 < gs.length then none
        else match parseIPv4 s with
          | some a => some (gs ++ [a / 65536, a % 65536], ell)
          | none => none
      | [':'] => none
      | ':' :: ':' :: t =>
        if ell.isSome then none
        else if t = [] then some (gs ++ [hexVal ds], some (gs.length + 1))
        else v6Loop n (gs ++ [hexVal ds]) (some (gs.length + 1)) t
      | ':' :: t => v6Loop n (gs ++ [hexVal ds]) ell t
      | _ => none

/-- The end of `parseIPv6` of net/netip (prefixfile/slurm.go:35): `::` stands for at least one zero group. -/
def v6Expand : List Nat × Option Nat → Option (List Nat)
  | (gs, none) => if gs.length = 8 then some gs else none
  | (gs, some e) => if gs.length < 8 then some (gs.take e ++ List.replicate (8 - gs.length) 0 ++ gs.drop e) else none

/-- `parseIPv6` of net/netip (prefixfile/slurm.go:35), without zones. -/
def parseIPv6 (s : Str) : Option Nat :=
  let groups := match s with
    | [':', ':'] => some (List.replicate 8 0)
    | ':' :: ':' :: t => (v6Loop 8 [] (some 0) t).bind v6Expand
    | _ => (v6Loop 8 [] none s).bind v6Expand
  groups.map (fun gs => gs.foldl (fun n g => n * 65536 + g) 0)

/-- `netip.ParseAddr` (prefixfile/slurm.go:35), where addresses with a zone are refused, as both callers do. -/
def parseAddr (s : Str) : Option Addr :=
  match s.find? (fun c => c == '.' || c == ':' || c == '%') with
  | some '.' => (parseIPv4 s).map (fun a => .v4 (BitVec.ofNat 32 a))
  | some ':' => (parseIPv6 s).map (fun a => .v6 (BitVec.ofNat 128 a))
  | _ => none

/-- The text before and after the last occurrence of `x` (`LastIndexByteString` in `netip.ParsePrefix`, prefixfile/slurm.go:35). -/
def splitLast (x : Char) : Str → Option (Str × Str)
  | [] => none
  | c :: l =>
    match splitLast x l with
    | some (a, b) => some (c :: a, b)
    | none => if c = x then some ([], l) else none

/-- The text before and after the first occurrence of `x` (`IndexByteString` in `net.ParseCIDR`, prefixfile/slurm.go:63). -/
def splitFirst (x : Char) : Str → Option (Str × Str)
  | [] => none
  | c :: l => if c = x then some ([], l) else (splitFirst x l).map (fun p => (c :: p.1, p.2))

/-- `netip.ParsePrefix`, prefixfile/slurm.go:35, prefixfile/prefixfile.go:82; `none` for an error. -/
def parsePrefix (s : Str) : Option Prefix :=
  match splitLast '/' s with
  | none => none
  | some (a, b) =>
    match parseAddr a with
    | none => none
    | some ip =>
      if 2 ≤ b.length ∧ b.head? = some '0' then none
      else match parseDec b with
        | none => none
        | some n => if n ≤ ip.bitLen then some (Prefix.from' ip n) else none

/-- `net.ParseCIDR`, prefixfile/slurm.go:63: the size of the mask; `none` for an error. Unlike `netip.ParsePrefix` it allows leading zeros in the length. -/
def parseCIDR (s : Str) : Option Nat :=
  match splitFirst '/' s with
  | none => none
  | some (a, b) =>
    match parseAddr a with
    | none => none
    | some ip =>
      match parseDec b with
      | none => none
      | some n => if n ≤ ip.bitLen then some n else none

end StayRTR
