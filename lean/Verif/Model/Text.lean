import Verif.Model.Netip

/-!
# Text forms used in hash keys

Decimal and hexadecimal printing, and `netip.Prefix.String`, as used by the `HashKey` methods
(lib/server.go:839-841, 884-886).
-/

namespace StayRTR

/-- Digits of `n` in base `b`, most significant first, no leading zeros (`fmt` `%v` on unsigned integers, lib/server.go:840, 885;
`appendHex` of `net/netip`). `fuel` only bounds the recursion. -/
def radixAux (b : Nat) : Nat → Nat → Str
  | 0, n => [Nat.digitChar n]
  | fuel + 1, n => if n < b then [Nat.digitChar n] else radixAux b fuel (n / b) ++ [Nat.digitChar (n % b)]

/-- `fmt` `%v` of an unsigned integer (lib/server.go:840, 885) and `strconv.Itoa` inside `Prefix.String`. -/
def decStr (n : Nat) : Str := radixAux 10 n n

/-- `appendHex` of `net/netip` (inside `Prefix.String`, lib/server.go:840). -/
def hexStr (n : Nat) : Str := radixAux 16 n n

/-- `%x` of one byte: two lower-case hexadecimal digits (lib/server.go:885). -/
def hexByte (b : U8) : Str := [Nat.digitChar (b.toNat / 16), Nat.digitChar (b.toNat % 16)]

/-- `%x` of a byte slice (lib/server.go:885). -/
def hexBytes (b : Bytes) : Str := b.flatMap hexByte

/-- Strings joined with a separator (inside `Addr.String`, lib/server.go:840). -/
def joinWith (sep : Char) : List Str → Str
  | [] => []
  | [x] => x
  | x :: y :: l => x ++ sep :: joinWith sep (y :: l)

namespace Addr

/-- `Addr.string4`: dotted decimal (inside `Prefix.String`, lib/server.go:840). -/
def string4 (a : BitVec 32) : Str :=
  joinWith '.' [decStr (a.toNat / 2 ^ 24), decStr (a.toNat / 2 ^ 16 % 256), decStr (a.toNat / 2 ^ 8 % 256), decStr (a.toNat % 256)]

/-- The eight 16-bit groups of an IPv6 address (`v6u16` in `net/netip`, inside `Prefix.String`, lib/server.go:840). -/
def groups (a : BitVec 128) : List Nat :=
  [a.toNat / 2 ^ 112, a.toNat / 2 ^ 96 % 65536, a.toNat / 2 ^ 80 % 65536, a.toNat / 2 ^ 64 % 65536,
   a.toNat / 2 ^ 48 % 65536, a.toNat / 2 ^ 32 % 65536, a.toNat / 2 ^ 16 % 65536, a.toNat % 65536]

/-- Number of leading zero groups (inner loop of `appendTo6` in `net/netip`; lib/server.go:840). -/
def zeroRun (gs : List Nat) : Nat := (gs.takeWhile (· == 0)).length

/-- The longest run of at least two zero groups, leftmost first: `(zeroStart, zeroEnd)` of `appendTo6` in `net/netip` (lib/server.go:840). -/
def bestRun (gs : List Nat) : Option (Nat × Nat) :=
  (List.range gs.length).foldl (fun best i =>
    let l := zeroRun (gs.drop i)
    let cur := match best with
      | some (s, e) => e - s
      | none => 0
    if 2 ≤ l ∧ cur < l then some (i, i + l) else best) none

/-- `appendTo6`: RFC 5952 text (inside `Prefix.String`, lib/server.go:840). -/
def string6 (a : BitVec 128) : Str :=
  let gs := groups a
  match bestRun gs with
  | none => joinWith ':' (gs.map hexStr)
  | some (s, e) => joinWith ':' ((gs.take s).map hexStr) ++ ':' :: ':' :: joinWith ':' ((gs.drop e).map hexStr)

/-- `Addr.String` without zones (inside `Prefix.String`, lib/server.go:840). -/
def toStr : Addr → Str
  | zero => ['i', 'n', 'v', 'a', 'l', 'i', 'd', ' ', 'I', 'P']
  | v4 a => string4 a
  | v6 a => if is4In6 (v6 a) then [':', ':', 'f', 'f', 'f', 'f', ':'] ++ string4 (a.setWidth 32) else string6 a

end Addr

/-- `netip.Prefix.String` (lib/server.go:840). -/
def Prefix.toStr (p : Prefix) : Str :=
  if p.isValid then p.ip.toStr ++ '/' :: decStr (p.bitsPlusOne - 1) else ['i', 'n', 'v', 'a', 'l', 'i', 'd', ' ', 'P', 'r', 'e', 'f', 'i', 'x']

end StayRTR
