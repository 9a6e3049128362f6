import Verif.Model.Slurm
import Verif.Spec.Slurm
import Verif.Spec.Text

/-!
# Specification of what is to be served for a cache file
-/

namespace StayRTR.Spec

/-- The AS number that a JSON value states: text after the letters `AS`, or a whole number, in 32 bits. -/
def AsnIs : AsnJson → U32 → Prop
  | .str s, n => ∃ pre d, s = pre ++ d ∧ (∀ c ∈ pre, c ∈ ['a', 'A', 's', 'S']) ∧ Denotes d n.toNat
  | .float t, n => t = n.toNat
  | .int i, n => i = n.toNat
  | .uint32 m, n => m = n
  | .other, _ => False

/-- Entry `v` asks for the VRP (prefix, maximum length, ASN) to be served at time `now`: the prefix is readable and at least one bit long, its length is at most the maximum length,
that is at most the width of the address, and the entry is not expired. -/
def Serves (now : Int) (v : VRPJson) (r : Prefix × U8 × U32) : Prop :=
  PrefixText v.pfx r.1 ∧ AsnIs v.asn r.2.2 ∧ v.length = r.2.1 ∧
  1 ≤ r.1.bits ∧ r.1.bits ≤ (r.2.1.toNat : Int) ∧ r.2.1.toNat ≤ r.1.ip.bitLen ∧ ∀ e, v.expires = some e → now ≤ e

/-- A numeric ASN is a whole number in 32 bits. (JSON numbers are cut to whole numbers before this.) -/
def AsnInRange : AsnJson → Prop
  | .float t => 0 ≤ t ∧ t < 2 ^ 32
  | .int i => 0 ≤ i ∧ i < 2 ^ 32
  | _ => True

/-- The AS number taken from a JSON value: the one that it states, except that numbers out of range stand for what the machine makes of them. -/
def AsnReads (wide : WideFloat) : AsnJson → U32 → Prop
  | .float t, n => (0 ≤ t ∧ t < 2 ^ 32 → t = n.toNat) ∧ (¬ (0 ≤ t ∧ t < 2 ^ 32) → n = wide t)
  | .int i, n => ∃ k : Int, i = n.toNat + k * 2 ^ 32
  | j, n => AsnIs j n

/-- Entry `k` asks for a router key (ASN, SKI, key) to be served at time `now`. -/
def ServesKey (now : Int) (k : BgpSecKeyJson) (r : U32 × Bytes × Bytes) : Prop :=
  k.asn = r.1 ∧ HexText k.ski r.2.1 ∧ k.pubkey = r.2.2 ∧ ∀ e, k.expires = some e → now ≤ e

end StayRTR.Spec
