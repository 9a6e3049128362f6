import Verif.Spec.Wire

/-! What a log should allow: specifications for Props/Log.lean, apart from the model. -/

namespace StayRTR.Spec
open StayRTR

/-- Characters of ASCII only. -/
def Ascii (s : Str) : Prop := ∀ c ∈ s, c.toNat < 128

/-- A line: one line feed, and that at the end. -/
def OneLine (b : Bytes) : Prop := ∃ l : Bytes, b = l ++ [10] ∧ (10 : U8) ∉ l

/-- The PDUs that the log can tell apart: no Router Keys, and only prefixes with possible lengths. -/
def Named : Pdu → Prop
  | .routerKey .. => False
  | .ipv4Prefix _ _ p _ _ => p.WF ∧ p.bitsPlusOne ≠ 0
  | .ipv6Prefix _ _ p _ _ => p.WF ∧ p.bitsPlusOne ≠ 0
  | _ => True

end StayRTR.Spec
