import Verif.Model.Pdu
import Verif.Model.Store

/-!
# Request handling

`Client`, the server's event handlers and the body of the read loop (lib/server.go).
What a handler does to the outside is a list of effects, in order: PDUs put on the client's transmit channel and calls of
`Disconnect`. The two lock-protected reads of a handler (`GetCurrentSerial`, then `GetCurrentSDs` or `GetSDsSerialDiff`) take two stores,
since an update can happen in between.
-/

namespace StayRTR

/-- ASCII bytes of a Go string constant (lib/server.go:944, 952, 960, 968). -/
def strBytes (s : String) : Bytes := s.toList.map (fun c => BitVec.ofNat 8 c.toNat)

/-- What a handler does to the outside (lib/server.go:1011-1013 `transmits <- pdu`, 1020-1031 `Disconnect`). -/
inductive Effect where
  | send (p : Pdu)
  | disconnect
  deriving DecidableEq, Repr

/-- `ServerConfiguration`, lib/server.go:153-170 (without the loggers). -/
structure ServerConfig where
  maxConn : Int
  protocolVersion : U8
  enforceVersion : Bool
  keepDifference : Int
  disableBGPSec : Bool
  enableNODELAY : Bool
  refresh : U32
  retry : U32
  expire : U32
  deriving DecidableEq, Repr

/-- The fields of `Server` that stay fixed while it runs, lib/server.go:123-138, 146-148. -/
structure Server where
  baseVersion : U8
  sessId : List U16
  maxconn : Int
  enforceVersion : Bool
  disableBGPSec : Bool
  enableNODELAY : Bool
  refresh : U32
  retry : U32
  expire : U32
  deriving DecidableEq, Repr

/-- `GenerateSessionId`, lib/server.go:17-19: `n` is what `rand.Intn` makes of the next random number, any number below 65536. -/
def generateSessionId (n : Fin 65536) : U16 := BitVec.ofNat 16 n.val

/-- `NewServer`, lib/server.go:172-217; `s` is the random session id (line 174). `enableNODELAY` is not copied, so it is false. -/
def newServer (cfg : ServerConfig) (s : U16) : Server where
  baseVersion := cfg.protocolVersion
  sessId := (List.range (cfg.protocolVersion.toNat + 1)).map (fun i => s + BitVec.ofNat 16 (100 * i))
  maxconn := cfg.maxConn
  enforceVersion := cfg.enforceVersion
  disableBGPSec := cfg.disableBGPSec
  enableNODELAY := false
  refresh := if cfg.refresh ≠ 0 then cfg.refresh else 3600
  retry := if cfg.retry ≠ 0 then cfg.retry else 600
  expire := if cfg.expire ≠ 0 then cfg.expire else 7200

/-- The fields of `Client` that request handling uses, lib/server.go:658-682. -/
structure Client where
  connected : Bool
  version : U8
  versionset : Bool
  curserial : U32
  enforceVersion : Bool
  disableVersionCheck : Bool
  refresh : U32
  retry : U32
  expire : U32
  dontSendBGPsecKeys : Bool
  deriving DecidableEq, Repr

namespace Client

/-- `ClientFromConn`, lib/server.go:639-649: the zero values. -/
def fresh : Client := ⟨false, 0, false, 0, false, false, 0, 0, 0, false⟩

/-- `SetVersion`, lib/server.go:710-713. -/
def setVersion (v : U8) (c : Client) : Client := { c with versionset := true, version := v }

/-- `SendPDU`, lib/server.go:1015-1018: stamps the client's version. -/
def sendPDU (c : Client) (p : Pdu) : Effect := .send (p.setVersion c.version)

/-- `SendNoDataError`, lib/server.go:949-955. -/
def sendNoDataError (c : Client) : Effect := c.sendPDU (.errorReport 0 2 [] (strBytes "No data available"))
/-- `SendInternalError`, lib/server.go:941-947. -/
def sendInternalError (c : Client) : Effect := c.sendPDU (.errorReport 0 1 [] (strBytes "Unknown internal error"))
/-- `SendCorruptData`, lib/server.go:957-963. -/
def sendCorruptData (c : Client) : Effect :=
  c.sendPDU (.errorReport 0 0 [] (strBytes "Session ID mismatch: client is desynchronized"))
/-- `SendWrongVersionError`, lib/server.go:965-971. -/
def sendWrongVersionError (c : Client) : Effect := c.sendPDU (.errorReport 0 4 [] (strBytes "Bad protocol version"))
/-- `SendCacheReset`, lib/server.go:936-939. -/
def sendCacheReset (c : Client) : Effect := c.sendPDU (.cacheReset 0)

/-- `SendData`, lib/server.go:974-1009. -/
def sendData (c : Client) : SD → List Effect
  | .vrp t =>
    if t.pfx.ip.is6 then [c.sendPDU (.ipv6Prefix 0 t.flags t.pfx t.maxLen t.asn)]
    else if t.pfx.ip.is4 then [c.sendPDU (.ipv4Prefix 0 t.flags t.pfx t.maxLen t.asn)]
    else []
  | .brk t =>
    if c.version = 0 ∨ c.dontSendBGPsecKeys = true then []
    else [c.sendPDU (.routerKey c.version t.flags t.ski t.asn t.pubkey)]

/-- `SendSDs`, lib/server.go:917-934. -/
def sendSDs (c : Client) (sessionId : U16) (serial : U32) (data : List SD) : List Effect :=
  [c.sendPDU (.cacheResponse 0 sessionId)] ++ data.flatMap c.sendData ++
  [c.sendPDU (.endOfData 0 sessionId serial c.refresh c.retry c.expire)]

/-- `Notify`, lib/server.go:816-822. -/
def notify (c : Client) (sessionId : U16) (serial : U32) : Effect := c.sendPDU (.serialNotify 0 sessionId serial)

/-- `Disconnect`, lib/server.go:1020-1031, on the client's own fields. -/
def disconnected (c : Client) : Client := { c with connected := false }

/-- `checkVersion`, lib/server.go:719-729. -/
def checkVersion (c : Client) (newversion : U8) : Client × List Effect :=
  if (c.versionset = false ∨ newversion = c.version) ∧ (newversion = 1 ∨ newversion = 0) then (c.setVersion newversion, [])
  else (c.disconnected, [c.sendWrongVersionError, .disconnect])

/-- The serial of a query is remembered, lib/server.go:803-806. -/
def noteQuery (c : Client) : Pdu → Client
  | .serialQuery _ _ n => { c with curserial := n }
  | _ => c

end Client

namespace Server

/-- `GetSessionId`, lib/server.go:291-293: panics when out of range. -/
def getSessionId (s : Server) (version : U8) : GoRes U16 := goIndex s.sessId version.toNat

/-- `acceptClientTCP`, lib/server.go:489-508 (also used for TLS, line 620), up to `client.Start()`. -/
def acceptClientTCP (s : Server) : Client :=
  let c := Client.fresh
  let c := if s.enforceVersion then c.setVersion s.baseVersion else c
  let c := { c with refresh := s.refresh, retry := s.retry, expire := s.expire }
  let c := if s.disableBGPSec then { c with dontSendBGPsecKeys := true } else c
  { c with connected := true }

/-- `acceptClientSSH`, lib/server.go:552-560, up to `client.Start()`. -/
def acceptClientSSH (s : Server) : Client :=
  let c := Client.fresh
  let c := if s.enforceVersion then c.setVersion s.baseVersion else c
  let c := { c with refresh := s.refresh, retry := s.retry, expire := s.expire }
  { c with connected := true }

/-- `RequestCache`, lib/server.go:61-86; `st1` is read by `GetCurrentSerial`, `st2` by `GetCurrentSDs` (which always succeeds, line 299). -/
def requestCache (s : Server) (st1 st2 : Store) (c : Client) : GoRes (List Effect) := do
  let sessionId ← s.getSessionId c.version
  let (serial, valid) := st1.getCurrentSerial
  if valid = false then return [c.sendNoDataError]
  else return c.sendSDs sessionId serial st2.current

/-- `RequestNewVersion`, lib/server.go:88-121; `st1` is read by `GetCurrentSerial`, `st2` by `GetSDsSerialDiff`. -/
def requestNewVersion (s : Server) (st1 st2 : Store) (c : Client) (sessionId : U16) (serialNumber : U32) :
    GoRes (List Effect) := do
  let serverSessionId ← s.getSessionId c.version
  if sessionId ≠ serverSessionId then return [c.sendCorruptData, .disconnect]
  else
    let (serial, valid) := st1.getCurrentSerial
    if valid = false then return [c.sendNoDataError]
    else
      let data ← st2.getSDsSerialDiff serialNumber
      match data with
      | none => return [c.sendCacheReset]
      | some data => return c.sendSDs sessionId serial data

/-- `Server.HandlePDU`, lib/server.go:450-467; the outer handler only counts (cmd/stayrtr/stayrtr.go:702-710). -/
def handlePDU (s : Server) (c : Client) : Client × List Effect :=
  let (c, e) := if s.enforceVersion = true ∧ c.version ≠ s.baseVersion
    then (c.disconnected, [c.sendWrongVersionError, .disconnect]) else (c, [])
  let c := if c.version > s.baseVersion then c.setVersion s.baseVersion else c
  (c, e)

/-- `passSimpleHandler`, lib/server.go:731-742. -/
def passSimpleHandler (s : Server) (st1 st2 : Store) (c : Client) : Pdu → GoRes (List Effect)
  | .serialQuery _ session serial => s.requestNewVersion st1 st2 c session serial
  | .resetQuery _ => s.requestCache st1 st2 c
  | _ => .ok []

/-- Whether a list of effects contains a disconnect (`connected = false`, lib/server.go:1021). -/
def drops (e : List Effect) : Bool := e.any (· == .disconnect)

/-- One decoded PDU in the read loop, lib/server.go:786-812. -/
def processPdu (s : Server) (st1 st2 : Store) (c : Client) (dec : Pdu) : GoRes (Client × List Effect) := do
  let (c, e1) := if c.disableVersionCheck = false then c.checkVersion dec.getVersion else (c, [])
  let (c, e2) := if c.enforceVersion = true ∧ isCorrectPDUVersion dec c.version = false
    then (c.disconnected, [c.sendWrongVersionError, .disconnect]) else (c, [])
  let c := c.noteQuery dec
  let (c, e3) := s.handlePDU c
  let e4 ← s.passSimpleHandler st1 st2 c dec
  let c := if drops e4 then c.disconnected else c
  return (c, e1 ++ e2 ++ e3 ++ e4)

/-- One iteration of the read loop of `Start`, lib/server.go:766-813, for a read that returned the bytes `pkt`
(an error or an empty read disconnects, lines 769-775). -/
def processRead (s : Server) (st1 st2 : Store) (c : Client) (pkt : Bytes) : GoRes (Client × List Effect) :=
  if pkt = [] then .ok (c.disconnected, [.disconnect])
  else match decodeBytes pkt with
    | .panic => .panic
    | .err => .ok (c.disconnected, [.disconnect])
    | .ok dec => s.processPdu st1 st2 c dec

/-- The read loop, lib/server.go:765-813, over a sequence of reads, with the stores seen by each: stops when `connected` is false. -/
def readLoop (s : Server) (c : Client) : List (Store × Store × Bytes) → GoRes (Client × List Effect)
  | [] => .ok (c, [])
  | (st1, st2, pkt) :: rest =>
    if c.connected = false then .ok (c, []) else do
      let (c', e) ← s.processRead st1 st2 c pkt
      let (c'', e') ← readLoop s c' rest
      return (c'', e ++ e')

end Server

end StayRTR
