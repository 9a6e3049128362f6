import Verif.Model.Pdu

/-!
# The client side of a session

`ClientSession`, lib/client.go, used by rtrdump and rtrmon. The transport is the byte stream that `Decode` reads; what is sent is the list of PDUs handed to `sendLoop`.
-/

namespace StayRTR

/-- `ClientSession`, lib/client.go:19-34: what the loop reads and writes. -/
structure CSession where
  version : U8
  connected : Bool
  deriving DecidableEq, Repr

/-- What a handler does with the session: `SendPDU` (lib/client.go:67-70) and `Disconnect` (lib/client.go:89-103). -/
inductive CAct where
  | send (p : Pdu)
  | disconnect
  deriving DecidableEq, Repr

/-- A handler's `HandlePDU` (lib/client.go:14): new state and what it does with the session. -/
abbrev CHandler (σ : Type) := σ → Pdu → σ × List CAct

namespace CSession

/-- `NewClientSession` and `StartWithConn`, lib/client.go:46-54, 132-139. -/
def start (protocolVersion : U8) : CSession := ⟨protocolVersion, true⟩

/-- The actions in order: `SendPDU` writes the version of the session into the PDU (lib/client.go:67-70); `Disconnect`, lib/client.go:90. -/
def act (c : CSession) : List CAct → CSession × List Pdu
  | [] => (c, [])
  | .send p :: l => let (c', out) := act c l; (c', p.setVersion c.version :: out)
  | .disconnect :: l => act { c with connected := false } l

/-- The downgrade, lib/client.go:119-124. -/
def downgrade (c : CSession) (p : Pdu) : CSession := if c.version = 1 ∧ p.getVersion = 0 then { c with version := 0 } else c

/-- One turn of the loop once a PDU is decoded, lib/client.go:119-128. -/
def onPdu {σ : Type} (h : CHandler σ) (c : CSession) (s : σ) (p : Pdu) : CSession × σ × List Pdu :=
  let c := c.downgrade p
  let (s, acts) := h s p
  let (c, out) := c.act acts
  (c, s, out)

/-- The result of `StartRW`: the session, the handler's state, what was sent, and whether it returned an error (lib/client.go:112-118). -/
structure Done (σ : Type) where
  session : CSession
  state : σ
  out : List Pdu
  failed : Bool

/-- The loop of `StartRW`, lib/client.go:110-130, on the PDUs that `Decode` delivers; after the last one it fails (end of input or a malformed PDU), which disconnects. -/
def loop {σ : Type} (h : CHandler σ) (c : CSession) (s : σ) : List Pdu → Done σ
  | [] => if c.connected then ⟨{ c with connected := false }, s, [], true⟩ else ⟨c, s, [], false⟩
  | p :: ps =>
    if c.connected then
      let (c, s, out) := onPdu h c s p
      let d := loop h c s ps
      { d with out := out ++ d.out }
    else ⟨c, s, [], false⟩

/-- The PDUs that repeated `Decode` delivers until it fails, lib/client.go:110-118. `fuel` bounds the recursion; the length of the input is enough. -/
def pdus : Nat → Bytes → List Pdu
  | 0, _ => []
  | fuel + 1, b => match decode b with
    | .ok (p, rest) => p :: pdus fuel rest
    | _ => []

/-- `StartRW`, lib/client.go:105-130: `ClientConnected` (its actions are `hello`), then the loop on the input. -/
def startRW {σ : Type} (h : CHandler σ) (c : CSession) (s : σ) (hello : List CAct) (input : Bytes) : Done σ :=
  let (c, out) := c.act hello
  let d := loop h c s (pdus (input.length + 1) input)
  { d with out := out ++ d.out }

end CSession

end StayRTR
