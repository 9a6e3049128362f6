import Verif.Props.Dump
import Verif.Props.Wire
import Verif.Model.Mon
import Verif.Model.Parse

/-!
# C162: prefixes that cannot be

RFC 8210, 5.6, 5.7: a prefix has at most 32 (128) bits, and its maximum length is not less than its length. What the decoder of the library makes of prefix PDUs that say otherwise, and what the two clients make of that.
-/

namespace StayRTR

namespace Spec

/-- The bytes begin with a complete IPv4 Prefix PDU. -/
def IPv4Packet (s : Bytes) : Prop := field s 1 1 = 4 ∧ field s 4 4 = 20 ∧ 20 ≤ s.length

/-- The bytes begin with a complete IPv6 Prefix PDU. -/
def IPv6Packet (s : Bytes) : Prop := field s 1 1 = 6 ∧ field s 4 4 = 32 ∧ 32 ≤ s.length

/-- The lengths in a prefix PDU can be, with addresses of so many bits. -/
def LengthsPossible (s : Bytes) (bits : Nat) : Prop := field s 9 1 ≤ field s 10 1 ∧ field s 10 1 ≤ bits

/-- Prefix PDUs with lengths that cannot be are refused. -/
def ImpossibleRefused : Prop := ∀ s, IPv4Packet s ∧ ¬ LengthsPossible s 32 ∨ IPv6Packet s ∧ ¬ LengthsPossible s 128 → ∀ p rest, decode s ≠ .ok (p, rest)

end Spec

open Spec

theorem field_blob {s : Bytes} {o n a k : Nat} (h : a + k ≤ n) : field (blob s o n) a k = field s (o + a) k := by
  unfold field blob
  rw [List.drop_take, List.drop_drop, List.take_take, Nat.min_eq_left (by omega)]

/-- Every IPv4 Prefix PDU is accepted, whatever it says: with the address, and the length if there can be such a length; otherwise the prefix is an invalid one. -/
theorem C162_ipv4_partial {s : Bytes} (h : IPv4Packet s) :
    decode s = .ok (.ipv4Prefix (BitVec.ofNat 8 (field s 0 1)) (BitVec.ofNat 8 (field s 8 1))
      ⟨.v4 (BitVec.ofNat 32 (field s 12 4)), if field s 9 1 ≤ 32 then field s 9 1 + 1 else 0⟩ (BitVec.ofNat 8 (field s 10 1)) (BitVec.ofNat 32 (field s 16 4)), s.drop 20) := by
  obtain ⟨h1, h2, h3⟩ := h
  rw [decode_eq, if_neg (by omega), h2, if_neg (by omega), if_neg (by decide), if_neg (by omega), h1]
  have hl : (blob s 8 12).length = 12 := by simp [blob]; omega
  have hb : decodeBody (BitVec.ofNat 8 (field s 0 1)) (BitVec.ofNat 8 4) (BitVec.ofNat 16 (field s 2 2)) (blob s 8 12) = if (blob s 8 12).length = 12 then
      .ok (.ipv4Prefix (BitVec.ofNat 8 (field s 0 1)) (BitVec.ofNat 8 (field (blob s 8 12) 0 1)) (Prefix.from' (.v4 (BitVec.ofNat 32 (field (blob s 8 12) 4 4))) (field (blob s 8 12) 1 1))
        (BitVec.ofNat 8 (field (blob s 8 12) 2 1)) (BitVec.ofNat 32 (field (blob s 8 12) 8 4))) else .err := by
    rcases decodeBody_cases (BitVec.ofNat 8 (field s 0 1)) (BitVec.ofNat 8 4) (BitVec.ofNat 16 (field s 2 2)) (blob s 8 12) (by omega) with c | c | c | c | c | c | c | c | c | c | c
    case inr.inr.inr.inr.inl => exact c.2
    case inr.inr.inr.inr.inr.inr.inr.inr.inr.inr => exact absurd rfl c.1.2.2.2.2.1
    all_goals exact absurd c.1 (by decide)
  rw [show 20 - 8 = 12 from rfl, hb, if_pos hl]
  simp only [field_blob (show 0 + 1 ≤ 12 by omega), field_blob (show 1 + 1 ≤ 12 by omega), field_blob (show 2 + 1 ≤ 12 by omega), field_blob (show 4 + 4 ≤ 12 by omega), field_blob (show 8 + 4 ≤ 12 by omega)]
  simp only [Prefix.from', Addr.bitLen]
  by_cases hx : field s 9 1 ≤ 32
  · simp [hx, GoRes.bind_ok', GoRes.pure_eq]
  · simp [hx, GoRes.bind_ok', GoRes.pure_eq]

/-- Every IPv6 Prefix PDU is accepted, in the same way. -/
theorem C162_ipv6_partial {s : Bytes} (h : IPv6Packet s) :
    decode s = .ok (.ipv6Prefix (BitVec.ofNat 8 (field s 0 1)) (BitVec.ofNat 8 (field s 8 1))
      ⟨.v6 (BitVec.ofNat 128 (field s 12 16)), if field s 9 1 ≤ 128 then field s 9 1 + 1 else 0⟩ (BitVec.ofNat 8 (field s 10 1)) (BitVec.ofNat 32 (field s 28 4)), s.drop 32) := by
  obtain ⟨h1, h2, h3⟩ := h
  rw [decode_eq, if_neg (by omega), h2, if_neg (by omega), if_neg (by decide), if_neg (by omega), h1]
  have hl : (blob s 8 24).length = 24 := by simp [blob]; omega
  have hb : decodeBody (BitVec.ofNat 8 (field s 0 1)) (BitVec.ofNat 8 6) (BitVec.ofNat 16 (field s 2 2)) (blob s 8 24) = if (blob s 8 24).length = 24 then
      .ok (.ipv6Prefix (BitVec.ofNat 8 (field s 0 1)) (BitVec.ofNat 8 (field (blob s 8 24) 0 1)) (Prefix.from' (.v6 (BitVec.ofNat 128 (field (blob s 8 24) 4 16))) (field (blob s 8 24) 1 1))
        (BitVec.ofNat 8 (field (blob s 8 24) 2 1)) (BitVec.ofNat 32 (field (blob s 8 24) 20 4))) else .err := by
    rcases decodeBody_cases (BitVec.ofNat 8 (field s 0 1)) (BitVec.ofNat 8 6) (BitVec.ofNat 16 (field s 2 2)) (blob s 8 24) (by omega) with c | c | c | c | c | c | c | c | c | c | c
    case inr.inr.inr.inr.inr.inl => exact c.2
    case inr.inr.inr.inr.inr.inr.inr.inr.inr.inr => exact absurd rfl c.1.2.2.2.2.2.1
    all_goals exact absurd c.1 (by decide)
  rw [show 32 - 8 = 24 from rfl, hb, if_pos hl]
  simp only [field_blob (show 0 + 1 ≤ 24 by omega), field_blob (show 1 + 1 ≤ 24 by omega), field_blob (show 2 + 1 ≤ 24 by omega), field_blob (show 4 + 16 ≤ 24 by omega), field_blob (show 20 + 4 ≤ 24 by omega)]
  simp only [Prefix.from', Addr.bitLen]
  by_cases hx : field s 9 1 ≤ 128
  · simp [hx, GoRes.bind_ok', GoRes.pure_eq]
  · simp [hx, GoRes.bind_ok', GoRes.pure_eq]

/-- 10.0.0.0 with a length of 33 bits, and as maximum length. -/
def exImpossible : Bytes := [1, 4, 0, 0, 0, 0, 0, 20, 1, 33, 33, 0, 10, 0, 0, 0, 0, 0, 0, 1]

example : IPv4Packet exImpossible ∧ ¬ LengthsPossible exImpossible 32 ∧ decode exImpossible = .ok (.ipv4Prefix 1 1 ⟨.v4 0x0a000000, 0⟩ 33 1, []) := by
  refine ⟨⟨by decide, by decide, by decide⟩, fun h => absurd h.2 (by decide), by decide +kernel⟩

/-- **C162 (fails)** No prefix PDU is refused for its lengths. -/
theorem C162_refused_false : ¬ ImpossibleRefused ∧ ∀ s, IPv4Packet s ∨ IPv6Packet s → ∃ p rest, decode s = .ok (p, rest) := by
  refine ⟨fun h => ?_, ?_⟩
  · exact h exImpossible (.inl ⟨⟨by decide, by decide, by decide⟩, fun h => absurd h.2 (by decide)⟩) _ _ (C162_ipv4_partial ⟨by decide, by decide, by decide⟩)
  · rintro s (h | h)
    · exact ⟨_, _, C162_ipv4_partial h⟩
    · exact ⟨_, _, C162_ipv6_partial h⟩

/-- A prefix with more bits than its address has, whatever its address and its length, is written "invalid Prefix" by the clients; stayrtr does not read that text as a prefix. -/
theorem C162_text_false {s : Bytes} {p : Pdu} {rest : Bytes} (h : IPv4Packet s ∧ 32 < field s 9 1 ∨ IPv6Packet s ∧ 128 < field s 9 1) (hd : decode s = .ok (p, rest)) :
    ∃ q ml asn, pduRecord p = some (.vrp q ml asn) ∧ dumpVRP q ml asn = ⟨"invalid Prefix".toList, ml, .uint32 asn, [], none⟩ ∧ parsePrefix "invalid Prefix".toList = none ∧
      monVrpKey q ml asn = "invalid Prefix".toList ++ '-' :: (decStr ml.toNat ++ '-' :: decStr asn.toNat) := by
  have hp : parsePrefix "invalid Prefix".toList = none := by decide +kernel
  have hs : ∀ a, Prefix.toStr ⟨a, 0⟩ = "invalid Prefix".toList := by
    intro a
    have : "invalid Prefix".toList = ['i', 'n', 'v', 'a', 'l', 'i', 'd', ' ', 'P', 'r', 'e', 'f', 'i', 'x'] := by decide +kernel
    rw [this]
    rfl
  rcases h with ⟨h1, h2⟩ | ⟨h1, h2⟩
  · rw [C162_ipv4_partial h1, if_neg (by omega)] at hd
    simp only [GoRes.ok.injEq, Prod.mk.injEq] at hd
    obtain ⟨rfl, -⟩ := hd
    refine ⟨_, _, _, rfl, ?_, hp, ?_⟩
    · unfold dumpVRP; rw [hs]
    · unfold monVrpKey; rw [hs]
  · rw [C162_ipv6_partial h1, if_neg (by omega)] at hd
    simp only [GoRes.ok.injEq, Prod.mk.injEq] at hd
    obtain ⟨rfl, -⟩ := hd
    refine ⟨_, _, _, rfl, ?_, hp, ?_⟩
    · unfold dumpVRP; rw [hs]
    · unfold monVrpKey; rw [hs]

/-- **C162 (fails)** rtrdump writes such entries into its file as if nothing were wrong; and also a maximum length less than the length. -/
theorem C162_dump_false : (dumpMain exDump (exAnswer.take 8 ++ exImpossible ++ exAnswer.drop 28)).1 = .written ⟨[⟨"invalid Prefix".toList, 33, .uint32 1, [], none⟩], [], 1, 0, 7, 5⟩ ∧
    (dumpMain exDump (exAnswer.set 18 4)).1 = .written ⟨[⟨"10.0.0.0/8".toList, 4, .uint32 1, [], none⟩], [], 1, 0, 7, 5⟩ := by decide +kernel

end StayRTR
