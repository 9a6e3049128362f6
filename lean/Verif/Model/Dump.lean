import Verif.Model.ClientSession
import Verif.Model.Text
import Verif.Model.Slurm

/-!
# rtrdump

cmd/rtrdump/rtrdump.go.
-/

namespace StayRTR

/-- `Client.Data`, cmd/rtrdump/rtrdump.go:70: the lists and the metadata the program fills in (prefixfile/prefixfile.go:11-24). -/
structure DumpData where
  roa : List VRPJson
  keys : List BgpSecKeyJson
  counts : Nat
  /-- `CountBgpSecKeys`: never assigned. -/
  countKeys : Nat
  sessionID : Nat
  serial : Nat
  deriving DecidableEq, Repr

/-- The empty list, cmd/rtrdump/rtrdump.go:166-170. -/
def DumpData.empty : DumpData := ⟨[], [], 0, 0, 0, 0⟩

/-- `VRPJson` from a prefix PDU, cmd/rtrdump/rtrdump.go:80-84, 92-96. -/
def dumpVRP (p : Prefix) (maxLen : U8) (asn : U32) : VRPJson := ⟨p.toStr, maxLen, .uint32 asn, [], none⟩

/-- `BgpSecKeyJson` from a Router Key PDU, cmd/rtrdump/rtrdump.go:104-109. -/
def dumpKey (ski : Bytes) (asn : U32) (spki : Bytes) : BgpSecKeyJson := ⟨asn, none, [], spki, hexBytes ski⟩

/-- `HandlePDU`, cmd/rtrdump/rtrdump.go:77-126. -/
def dumpPdu : CHandler DumpData := fun d p =>
  match p with
  | .ipv4Prefix _ _ p ml asn => ({ d with roa := d.roa ++ [dumpVRP p ml asn], counts := d.counts + 1 }, [])
  | .ipv6Prefix _ _ p ml asn => ({ d with roa := d.roa ++ [dumpVRP p ml asn], counts := d.counts + 1 }, [])
  | .routerKey _ _ ski asn spki => ({ d with keys := d.keys ++ [dumpKey ski asn spki] }, [])
  | .endOfData _ s n _ _ _ => ({ d with sessionID := s.toNat, serial := n.toNat }, [.disconnect])
  | .cacheResponse .. => (d, [])
  | _ => (d, [.disconnect])

/-- The flags of rtrdump that matter here, cmd/rtrdump/rtrdump.go:34-49. -/
structure DumpFlags where
  version : Int
  initSerial : Bool
  serial : Int
  session : Int
  validateCert : Bool
  validateSSH : Bool
  serverKey : Str
  deriving DecidableEq, Repr

/-- `targetVersion`, cmd/rtrdump/rtrdump.go:151-157; `none`: the program ends. -/
def dumpVersion (f : DumpFlags) : Option U8 := if f.version > 1 then none else some (if f.version = 1 then 1 else 0)

/-- `ClientConnected`, cmd/rtrdump/rtrdump.go:128-134, 171-173. -/
def dumpHello (f : DumpFlags) : List CAct :=
  if f.initSerial then [.send (.serialQuery 0 (BitVec.ofInt 16 f.session) (BitVec.ofInt 32 f.serial))] else [.send (.resetQuery 0)]

/-- What the program leaves behind (cmd/rtrdump/rtrdump.go:225-247). -/
inductive DumpResult where
  /-- `log.Fatal`: nothing is written, cmd/rtrdump/rtrdump.go:152-154, 226-229. -/
  | fatal
  /-- The file, cmd/rtrdump/rtrdump.go:231-247. -/
  | written (d : DumpData)
  deriving DecidableEq, Repr

/-- `main`, cmd/rtrdump/rtrdump.go:140-248, once connected to a peer that sends the given bytes; also what was sent to it. -/
def dumpMain (f : DumpFlags) (input : Bytes) : DumpResult × List Pdu :=
  match dumpVersion f with
  | none => (.fatal, [])
  | some v =>
    let d := CSession.startRW dumpPdu (CSession.start v) DumpData.empty (dumpHello f) input
    (if d.failed then .fatal else .written d.state, d.out)

/-- `InsecureSkipVerify: !*ValidateCert`, cmd/rtrdump/rtrdump.go:178-180: whether a server whose certificate verifies or not is accepted. -/
def dumpTlsAccepts (f : DumpFlags) (certOk : Bool) : Bool := !f.validateCert || certOk

/-- `HostKeyCallback`, cmd/rtrdump/rtrdump.go:184-193. -/
def dumpHostKeyAccepts (f : DumpFlags) (fingerprint : Str) : Bool := if f.validateSSH then fingerprint == "SHA256:".toList ++ f.serverKey else true

end StayRTR
