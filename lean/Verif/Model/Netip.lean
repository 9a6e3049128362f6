import Verif.Model.Go

/-!
# `net/netip` values

The part of Go's `net/netip` that the repository uses. Zones are left out:
`netip.ParsePrefix` rejects zones and `netip.AddrFromSlice` never makes one.
-/

namespace StayRTR

/-- `netip.Addr` (lib/structs.go:602, 620 `AddrFromSlice`; lib/server.go:975 `VRP.Prefix`): the zero value, an IPv4 or an IPv6 address. -/
inductive Addr where
  | zero
  | v4 (a : BitVec 32)
  | v6 (a : BitVec 128)
  deriving DecidableEq, Repr, Inhabited

namespace Addr

/-- `netip.Addr.BitLen` (used inside `netip.PrefixFrom`, lib/structs.go:612). -/
def bitLen : Addr → Nat
  | zero => 0
  | v4 _ => 32
  | v6 _ => 128

/-- `netip.Addr.Is4` (used at lib/server.go:986, cmd/stayrtr/stayrtr.go:241) -/
def is4 : Addr → Bool
  | v4 _ => true
  | _ => false

/-- `netip.Addr.Is6` (used at lib/server.go:977, cmd/stayrtr/stayrtr.go:196) -/
def is6 : Addr → Bool
  | v6 _ => true
  | _ => false

/-- The address as a number, high bits first (the content of the `netip.Addr` at lib/structs.go:602). -/
def value : Addr → Nat
  | zero => 0
  | v4 a => a.toNat
  | v6 a => a.toNat

/-- `netip.Addr.Is4In6`: `::ffff:0:0/96` (used by `Addr.String`, lib/server.go:840, and `As4`, lib/structs.go:293). -/
def is4In6 : Addr → Bool
  | v6 a => a.toNat / 2 ^ 32 == 0xffff
  | _ => false

/-- `netip.Addr.As4` (used at lib/structs.go:293): panics on the zero value and on IPv6 addresses that are not IPv4-mapped. -/
def as4 : Addr → GoRes Bytes
  | v4 a => .ok (beBytes 4 a.toNat)
  | v6 a => if is4In6 (v6 a) then .ok (beBytes 4 (a.toNat % 2 ^ 32)) else .panic
  | zero => .panic

/-- `netip.Addr.As16` (used at lib/structs.go:336): IPv4 addresses become IPv4-mapped, the zero value is all zero. -/
def as16 : Addr → Bytes
  | v4 a => beBytes 16 (0xffff * 2 ^ 32 + a.toNat)
  | v6 a => beBytes 16 a.toNat
  | zero => beBytes 16 0

/-- `netip.AddrFromSlice` (lib/structs.go:602, 620): 4 or 16 bytes. -/
def fromSlice (b : Bytes) : Option Addr :=
  if b.length = 4 then some (v4 (BitVec.ofNat 32 (beNat b)))
  else if b.length = 16 then some (v6 (BitVec.ofNat 128 (beNat b)))
  else none

end Addr

/-- `netip.Prefix`: an address and the prefix length plus one (zero means invalid), as in the Go struct (field `Prefix`, lib/structs.go:255, lib/server.go:825). -/
structure Prefix where
  ip : Addr
  bitsPlusOne : Nat
  deriving DecidableEq, Repr, Inhabited

namespace Prefix

/-- The zero `netip.Prefix{}` returned by a failed `netip.ParsePrefix` (prefixfile/slurm.go:36, prefixfile/prefixfile.go:82). -/
def invalid : Prefix := ⟨Addr.zero, 0⟩

/-- `netip.PrefixFrom` (lib/structs.go:612, 630): a length out of range for the address gives an invalid prefix keeping the address. -/
def from' (ip : Addr) (bits : Nat) : Prefix :=
  if ip ≠ Addr.zero ∧ bits ≤ ip.bitLen then ⟨ip, bits + 1⟩ else ⟨ip, 0⟩

/-- `netip.Prefix.IsValid` (prefixfile/prefixfile.go:86, prefixfile/slurm.go:107). -/
def isValid (p : Prefix) : Bool := p.bitsPlusOne != 0

/-- `netip.Prefix.Bits`: -1 when invalid (lib/structs.go:290, prefixfile/slurm.go:109). -/
def bits (p : Prefix) : Int := (p.bitsPlusOne : Int) - 1

/-- (Invariant, lib/structs.go:612.) Values constructible through the `netip` API: an invalid prefix, or an address with a length in range. -/
def WF (p : Prefix) : Prop :=
  p.bitsPlusOne = 0 ∨ (p.ip ≠ Addr.zero ∧ p.bitsPlusOne ≤ p.ip.bitLen + 1)

instance (p : Prefix) : Decidable p.WF := by unfold WF; infer_instance

/-- Two addresses agree on the first `n` bits (the masked comparison inside `netip.Prefix.Overlaps`, prefixfile/slurm.go:109). -/
def sameTop (a b : Addr) (n : Nat) : Bool :=
  a.value / 2 ^ (a.bitLen - n) == b.value / 2 ^ (b.bitLen - n)

/-- `netip.Prefix.Overlaps` (used at prefixfile/slurm.go:109): both valid, same family, and equal on the shorter length;
two prefixes of length zero of the same family overlap (the `minBits == 0` case). -/
def overlaps (p o : Prefix) : Bool :=
  p.isValid && o.isValid &&
  (p == o ||
    (p.ip.bitLen == o.ip.bitLen &&
      sameTop p.ip o.ip (min (p.bitsPlusOne - 1) (o.bitsPlusOne - 1))))

end Prefix

end StayRTR
