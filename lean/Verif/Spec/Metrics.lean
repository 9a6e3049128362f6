import Verif.Spec.Wire

/-!
What the metrics of the server are to count.
-/

namespace StayRTR.Spec

/-- The bytes begin with a PDU of RFC 6810 or 8210. -/
def BeginsWithPdu (b : Bytes) : Prop :=
  8 ≤ field b 4 4 ∧ field b 4 4 ≤ 262168 ∧ field b 4 4 ≤ b.length ∧ 8 ≤ b.length ∧ BodyLength (field b 1 1) (field b 4 4 - 8) ∧ (field b 1 1 = 10 → ErrorLengths (blob b 8 (field b 4 4 - 8)))

/-- The names of the types of PDUs. -/
def pduName : Nat → Str
  | 0 => "serial_notify".toList
  | 1 => "serial_query".toList
  | 2 => "reset_query".toList
  | 3 => "cache_response".toList
  | 4 => "ipv4_prefix".toList
  | 6 => "ipv6_prefix".toList
  | 7 => "end_of_data".toList
  | 8 => "cache_reset".toList
  | 9 => "router_key".toList
  | 10 => "error_report".toList
  | _ => []

end StayRTR.Spec
