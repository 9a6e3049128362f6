import Verif.Spec.Text

/-!
# Specification of SLURM filters (RFC 8416)

Stated on bits of addresses, independently of `netip`.
-/

namespace StayRTR.Spec

/-- `p` covers `q`: same family, not longer, and the addresses agree on the bits of `p`. -/
def Covers (p q : Prefix) : Prop :=
  match p.ip, q.ip with
  | .v4 a, .v4 b => p.bitsPlusOne ≤ q.bitsPlusOne ∧ ∀ i, i + 1 < p.bitsPlusOne → a.getMsbD i = b.getMsbD i
  | .v6 a, .v6 b => p.bitsPlusOne ≤ q.bitsPlusOne ∧ ∀ i, i + 1 < p.bitsPlusOne → a.getMsbD i = b.getMsbD i
  | _, _ => False

/-- A prefix filter with the given fields matches a VRP: every given field does. -/
def PrefixFilterMatches (fp : Str) (fasn : Option U32) (p : Prefix) (asn : U32) : Prop :=
  (∀ x, PrefixText fp x → Covers x p) ∧ (∀ a, fasn = some a → asn = a)

/-- A BGPsec filter with the given fields (empty SKI: not given) matches a router key: there is a given field and every given field does. -/
def KeyFilterMatches (fasn : Option U32) (fski : Bytes) (asn : U32) (ski : Bytes) : Prop :=
  (fasn ≠ none ∨ fski ≠ []) ∧ (∀ a, fasn = some a → asn = a) ∧ (fski ≠ [] → ski = fski)

end StayRTR.Spec
