import Verif.Model.Pdu

/-!
# Specification of the wire format (RFC 6810 section 5, RFC 8210 section 5)

Independent of the encoder: a field is read from the bytes at an offset, and the layout of each
PDU is a table of offsets, widths and values.
-/

namespace StayRTR.Spec

/-- The unsigned number in network byte order in `width` bytes at offset `off`. -/
def field (b : Bytes) (off width : Nat) : Nat :=
  ((b.drop off).take width).foldl (fun acc x => acc * 256 + x.toNat) 0

/-- The bytes from offset `off`, `n` of them. -/
def blob (b : Bytes) (off n : Nat) : Bytes := (b.drop off).take n

/-- What the wire format can carry: prefixes of the right family and a valid length, 20-byte key identifiers,
public keys of at least 4 bytes, sizes within the maximal PDU size; version 0 End of Data has no intervals. -/
def Representable : Pdu → Prop
  | .ipv4Prefix _ _ p _ _ => ∃ a n, p = ⟨.v4 a, n + 1⟩ ∧ n ≤ 32
  | .ipv6Prefix _ _ p _ _ => ∃ a n, p = ⟨.v6 a, n + 1⟩ ∧ n ≤ 128
  | .endOfData v _ _ refresh retry expire => v = 0 → refresh = 0 ∧ retry = 0 ∧ expire = 0
  | .routerKey _ _ ski _ spki => ski.length = 20 ∧ 4 ≤ spki.length ∧ 32 + spki.length ≤ 262168
  | .errorReport _ _ cp msg => 17 + cp.length + msg.length ≤ 262168
  | _ => True

/-- The PDU a receiver sees: error texts arrive with the terminating NUL. -/
def received : Pdu → Pdu
  | .errorReport v c cp msg => .errorReport v c cp (if msg = [] then [] else msg ++ [0])
  | p => p

/-- Offset table of each PDU type. -/
def WireLayout (p : Pdu) (b : Bytes) : Prop :=
  match p with
  | .serialNotify v s n =>
    b.length = 12 ∧ field b 0 1 = v.toNat ∧ field b 1 1 = 0 ∧ field b 2 2 = s.toNat ∧ field b 4 4 = 12 ∧ field b 8 4 = n.toNat
  | .serialQuery v s n =>
    b.length = 12 ∧ field b 0 1 = v.toNat ∧ field b 1 1 = 1 ∧ field b 2 2 = s.toNat ∧ field b 4 4 = 12 ∧ field b 8 4 = n.toNat
  | .resetQuery v =>
    b.length = 8 ∧ field b 0 1 = v.toNat ∧ field b 1 1 = 2 ∧ field b 2 2 = 0 ∧ field b 4 4 = 8
  | .cacheResponse v s =>
    b.length = 8 ∧ field b 0 1 = v.toNat ∧ field b 1 1 = 3 ∧ field b 2 2 = s.toNat ∧ field b 4 4 = 8
  | .ipv4Prefix v f p m asn =>
    b.length = 20 ∧ field b 0 1 = v.toNat ∧ field b 1 1 = 4 ∧ field b 2 2 = 0 ∧ field b 4 4 = 20 ∧
    field b 8 1 = f.toNat ∧ (field b 9 1 : Int) = p.bits ∧ field b 10 1 = m.toNat ∧ field b 11 1 = 0 ∧
    p.ip = .v4 (BitVec.ofNat 32 (field b 12 4)) ∧ field b 16 4 = asn.toNat
  | .ipv6Prefix v f p m asn =>
    b.length = 32 ∧ field b 0 1 = v.toNat ∧ field b 1 1 = 6 ∧ field b 2 2 = 0 ∧ field b 4 4 = 32 ∧
    field b 8 1 = f.toNat ∧ (field b 9 1 : Int) = p.bits ∧ field b 10 1 = m.toNat ∧ field b 11 1 = 0 ∧
    p.ip = .v6 (BitVec.ofNat 128 (field b 12 16)) ∧ field b 28 4 = asn.toNat
  | .endOfData v s n refresh retry expire =>
    field b 0 1 = v.toNat ∧ field b 1 1 = 7 ∧ field b 2 2 = s.toNat ∧ field b 8 4 = n.toNat ∧
    (v = 0 → b.length = 12 ∧ field b 4 4 = 12) ∧
    (v ≠ 0 → b.length = 24 ∧ field b 4 4 = 24 ∧ field b 12 4 = refresh.toNat ∧ field b 16 4 = retry.toNat ∧
      field b 20 4 = expire.toNat)
  | .cacheReset v =>
    b.length = 8 ∧ field b 0 1 = v.toNat ∧ field b 1 1 = 8 ∧ field b 2 2 = 0 ∧ field b 4 4 = 8
  | .routerKey v f ski asn spki =>
    b.length = 32 + spki.length ∧ field b 0 1 = v.toNat ∧ field b 1 1 = 9 ∧ field b 2 1 = f.toNat ∧ field b 3 1 = 0 ∧
    field b 4 4 = 32 + spki.length ∧ blob b 8 20 = ski ∧ field b 28 4 = asn.toNat ∧ blob b 32 spki.length = spki
  | .errorReport v c cp msg =>
    let text := if msg = [] then [] else msg ++ [0]
    b.length = 16 + cp.length + text.length ∧
    field b 0 1 = v.toNat ∧ field b 1 1 = 10 ∧ field b 2 2 = c.toNat ∧ field b 4 4 = 16 + cp.length + text.length ∧
    field b 8 4 = cp.length ∧ blob b 12 cp.length = cp ∧
    field b (12 + cp.length) 4 = text.length ∧ blob b (16 + cp.length) text.length = text

end StayRTR.Spec

namespace StayRTR.Spec

/-- Which body lengths (after the 8-byte header) each PDU type code may have. -/
def BodyLength (type n : Nat) : Prop :=
  (type = 0 ∧ n = 4) ∨ (type = 1 ∧ n = 4) ∨ (type = 2 ∧ n = 0) ∨ (type = 3 ∧ n = 0) ∨ (type = 4 ∧ n = 12) ∨
  (type = 6 ∧ n = 24) ∨ (type = 7 ∧ (n = 4 ∨ n = 16)) ∨ (type = 8 ∧ n = 0) ∨ (type = 9 ∧ 28 ≤ n) ∨ (type = 10 ∧ 8 ≤ n)

/-- Inner lengths of an Error Report body of `n` bytes fit. -/
def ErrorLengths (body : Bytes) : Prop :=
  8 + field body 0 4 ≤ body.length ∧
  8 + field body 0 4 + field body (4 + field body 0 4) 4 ≤ body.length

end StayRTR.Spec
