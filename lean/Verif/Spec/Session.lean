import Verif.Model.Client
import Verif.Spec.Records

/-!
# Specification of the answers of a cache (RFC 6810, RFC 8210)

Independent of the sending helpers of the code: which PDUs stand for which records, what the answers look like, and which
states a connection of a server can be in.
-/

namespace StayRTR

/-- States of a connection that was accepted in state `c0`: reads are processed while it is connected (with whatever stores the handler
happens to see), and another goroutine may drop it at any time. -/
inductive ConnFrom (s : Server) (c0 : Client) : Client → Prop
  | accepted : ConnFrom s c0 c0
  | read {c c' : Client} {e : List Effect} (h : ConnFrom s c0 c) (hc : c.connected = true) (st1 st2 : Store) (pkt : Bytes)
      (hp : s.processRead st1 st2 c pkt = .ok (c', e)) : ConnFrom s c0 c'
  | dropped {c : Client} (h : ConnFrom s c0 c) : ConnFrom s c0 c.disconnected

/-- A connection of a server, on any transport. -/
def Conn (s : Server) (c : Client) : Prop := ConnFrom s s.acceptClientTCP c ∨ ConnFrom s s.acceptClientSSH c

namespace Spec

/-- The session identifier of a version, for a server whose random identifier is `sid`. -/
def sessionOf (sid : U16) (v : U8) : U16 := sid + BitVec.ofNat 16 (100 * v.toNat)

/-- The interval announced for a configured value: a default for 0. -/
def interval (configured dflt : U32) : U32 := if configured = 0 then dflt else configured

/-- The data PDU for a record on a connection of version `v`; router keys only if `keys` and from version 1. -/
def dataPdu (v : U8) (keys : Bool) : SD → Option Pdu
  | .vrp ⟨⟨.v4 a, n⟩, asn, ml, fl⟩ => some (.ipv4Prefix v fl ⟨.v4 a, n⟩ ml asn)
  | .vrp ⟨⟨.v6 a, n⟩, asn, ml, fl⟩ => some (.ipv6Prefix v fl ⟨.v6 a, n⟩ ml asn)
  | .vrp ⟨⟨.zero, _⟩, _, _, _⟩ => none
  | .brk k => if keys = true ∧ v ≠ 0 then some (.routerKey v k.flags k.ski k.asn k.pubkey) else none

/-- The PDUs of a data answer: Cache Response, the records in order, End of Data. -/
def dataAnswer (cfg : ServerConfig) (sid : U16) (v : U8) (keys : Bool) (serial : U32) (data : List SD) : List Pdu :=
  .cacheResponse v (sessionOf sid v) :: data.filterMap (dataPdu v keys) ++
  [.endOfData v (sessionOf sid v) serial (interval cfg.refresh 3600) (interval cfg.retry 600) (interval cfg.expire 7200)]

/-- A PDU of version `v` is acceptable on a connection: supported, and the negotiated version if there is one. -/
def Acceptable (c : Client) (v : U8) : Prop := (v = 0 ∨ v = 1) ∧ (c.versionset = true → v = c.version)

instance Acceptable.dec (c : Client) (v : U8) : Decidable (Acceptable c v) := by unfold Acceptable; infer_instance

/-- The lower of two versions. -/
def lower (a b : U8) : U8 := if a.toNat ≤ b.toNat then a else b

/-- An Error Report with the given code. -/
def IsError (code : U16) : Pdu → Prop
  | .errorReport _ c _ _ => c = code
  | _ => False

def IsRouterKey : Pdu → Prop
  | .routerKey .. => True
  | _ => False

/-- The record a data PDU is about. -/
def pduRecord : Pdu → Option Rec
  | .ipv4Prefix _ _ p ml asn => some (.vrp p ml asn)
  | .ipv6Prefix _ _ p ml asn => some (.vrp p ml asn)
  | .routerKey _ _ ski asn spki => some (.brk asn ski spki)
  | _ => none

/-- The flag of a data PDU. -/
def pduFlag : Pdu → Option U8
  | .ipv4Prefix _ f _ _ _ => some f
  | .ipv6Prefix _ f _ _ _ => some f
  | .routerKey _ f _ _ _ => some f
  | _ => none

/-- The PDUs among the effects. -/
def sent (e : List Effect) : List Pdu := e.filterMap (fun | .send p => some p | .disconnect => none)

end Spec
end StayRTR
