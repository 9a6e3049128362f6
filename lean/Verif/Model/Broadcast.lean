import Verif.Model.Client

/-!
# Updates, notifications and all connections

One goroutine updates the data and notifies the clients (`applyUpdateFromNewState`, cmd/stayrtr/stayrtr.go:409-430, `NotifyClientsLatest`, lib/server.go:631-637); each connection has a goroutine that reads queries and answers them
(`Start`, lib/server.go:757-814) and enters and leaves the list of clients (`ClientConnected`, `ClientDisconnected`, 422-448). Here they all interleave, at the granularity of the accesses to what they share: the data, the list of clients, the transmit channels.

Simplifications: the channels have no limit (`Model/Goroutines.lean` has it); `checkVersion` and `HandlePDU` are one step each, with the error they queue; the session id of a notification is looked up in the step that puts it on the channel (`Model/Notify.lean` has
the two apart); `Client.enforceVersion` (674), which nothing sets, is left out; sequentially consistent memory.
-/

namespace StayRTR

/-- What happens at a connection, in order: a PDU read (lib/server.go:768-777; not on the channel, but the order matters), and what is put on the channel (1011-1013), with the disconnects (1020-1031). -/
inductive BMsg where
  | asked (p : Pdu)
  | eff (e : Effect)
  deriving DecidableEq, Repr

/-- Where the goroutine of a connection is: at the read (lib/server.go:768), after `checkVersion` (787), after `HandlePDU` (809), after `GetCurrentSerial` (66, 101), putting the answer on the channel (917-934). -/
inductive BReader where
  | idle
  | checked (p : Pdu)
  | handled (p : Pdu)
  | counted (p : Pdu) (st : Store)
  | answering (es : List Effect)
  deriving DecidableEq, Repr

/-- A connection: the client, its goroutine, and what happened (lib/server.go:658-682, 757-814). -/
structure BConn where
  client : Client
  reader : BReader
  log : List BMsg
  deriving DecidableEq, Repr

/-- Where the updating goroutine is: between updates, after `AddData` (cmd/stayrtr/stayrtr.go:421), after `GetCurrentSerial` (lib/server.go:632), in the loop over the copied list of clients (634). -/
inductive BUpdater where
  | idle
  | added
  | counted (n : U32)
  | sending (n : U32) (rest : List Nat)
  deriving DecidableEq, Repr

/-- The data, the list of clients, the connections and the updating goroutine (lib/server.go:126-148). Not fields of the code: `published`, the serials of the updates that notify the clients, and `loud`, whether the last change of the data was one of these. -/
structure BSys where
  store : Store
  clients : List Nat
  conn : Nat → Option BConn
  updater : BUpdater
  published : List U32
  loud : Bool

namespace BSys

/-- A server with data, before the first connection (lib/server.go:172-217). -/
def start (st : Store) : BSys := ⟨st, [], fun _ => none, .idle, [], false⟩

/-- A connection is replaced; `Disconnect` (lib/server.go:1020-1031) takes the client off the list (433-448). -/
def put (s : BSys) (i : Nat) (c : BConn) (e : List Effect) : BSys :=
  { s with conn := fun j => if j = i then some c else s.conn j, clients := if .disconnect ∈ e then s.clients.filter (· ≠ i) else s.clients }

end BSys

namespace BConn

/-- The goroutine goes on, having done `e` (lib/server.go:757-814, 1011-1031). -/
def act (k : BConn) (c : Client) (r : BReader) (e : List Effect) : BConn := ⟨c, r, k.log ++ e.map .eff⟩

end BConn

/-- One step of one of the goroutines (lib/server.go:61-121, 422-448, 631-637, 757-822; cmd/stayrtr/stayrtr.go:409-430). -/
inductive BStep (srv : Server) : BSys → BSys → Prop
  /-- a client is accepted, on TCP, TLS or SSH, and enters the list, lib/server.go:489-508, 552-560, 757-761, 422-431 -/
  | connect {s : BSys} (i : Nat) {c : Client} (hi : s.conn i = none) (hc : c = srv.acceptClientTCP ∨ c = srv.acceptClientSSH) :
      BStep srv s { s with conn := fun j => if j = i then some ⟨c, .idle, []⟩ else s.conn j, clients := s.clients ++ [i] }
  /-- a PDU is read and its version checked, lib/server.go:768-801 -/
  | recv {s : BSys} {i : Nat} {k : BConn} (p : Pdu) {c : Client} {e : List Effect} (hk : s.conn i = some k) (hr : k.reader = .idle) (hc : k.client.connected = true)
      (hx : (if k.client.disableVersionCheck = false then k.client.checkVersion p.getVersion else (k.client, [])) = (c, e)) : BStep srv s (s.put i ⟨c, .checked p, k.log ++ .asked p :: e.map .eff⟩ e)
  /-- the serial is remembered and the server's handler called, lib/server.go:803-810 -/
  | handle {s : BSys} {i : Nat} {k : BConn} {p : Pdu} {c : Client} {e : List Effect} (hk : s.conn i = some k) (hr : k.reader = .checked p) (hx : srv.handlePDU (k.client.noteQuery p) = (c, e)) :
      BStep srv s (s.put i (k.act c (.handled p) e) e)
  /-- the answer begins: `GetCurrentSerial`, lib/server.go:66, 101 -/
  | count {s : BSys} {i : Nat} {k : BConn} {p : Pdu} (hk : s.conn i = some k) (hr : k.reader = .handled p) : BStep srv s (s.put i (k.act k.client (.counted p s.store) []) [])
  /-- the data are read and the answer made up, lib/server.go:73-85, 108-120 -/
  | answer {s : BSys} {i : Nat} {k : BConn} {p : Pdu} {st : Store} {es : List Effect} (hk : s.conn i = some k) (hr : k.reader = .counted p st) (hx : srv.passSimpleHandler st s.store k.client p = .ok es) :
      BStep srv s (s.put i (k.act k.client (.answering es) []) [])
  /-- one PDU of it is put on the channel, lib/server.go:1011-1018, or the connection dropped, 1020-1031 -/
  | emit {s : BSys} {i : Nat} {k : BConn} {e : Effect} {es : List Effect} (hk : s.conn i = some k) (hr : k.reader = .answering (e :: es)) :
      BStep srv s (s.put i (k.act (if e = .disconnect then k.client.disconnected else k.client) (.answering es) [e]) [e])
  /-- the answer is over, lib/server.go:813 -/
  | finish {s : BSys} {i : Nat} {k : BConn} (hk : s.conn i = some k) (hr : k.reader = .answering []) : BStep srv s (s.put i (k.act k.client .idle []) [])
  /-- the connection is lost while its goroutine waits, lib/server.go:768-775 -/
  | lost {s : BSys} {i : Nat} {k : BConn} (hk : s.conn i = some k) (hr : k.reader = .idle) : BStep srv s (s.put i (k.act k.client.disconnected .idle [.disconnect]) [.disconnect])
  /-- an update changes the data and is to be announced, cmd/stayrtr/stayrtr.go:421, 428 -/
  | publish {s : BSys} (new : List SD) {st : Store} (hu : s.updater = .idle) (hx : s.store.addData new = (st, true)) :
      BStep srv s { s with store := st, updater := .added, published := s.published ++ [st.serial], loud := true }
  /-- an update changes the data and is not: the data are dropped, cmd/stayrtr/stayrtr.go:617, or notifications are off, 428 -/
  | silent {s : BSys} (new : List SD) {st : Store} (hu : s.updater = .idle) (hx : s.store.addData new = (st, true)) : BStep srv s { s with store := st, loud := false }
  /-- lib/server.go:632 -/
  | serial {s : BSys} (hu : s.updater = .added) : BStep srv s { s with updater := .counted s.store.getCurrentSerial.1 }
  /-- `GetClientList`, lib/server.go:623-629, 633 -/
  | list {s : BSys} {n : U32} (hu : s.updater = .counted n) : BStep srv s { s with updater := .sending n s.clients }
  /-- the next client is notified, lib/server.go:634-636, 816-822 -/
  | post {s : BSys} {n : U32} {i : Nat} {rest : List Nat} {k : BConn} {sid : U16} (hu : s.updater = .sending n (i :: rest)) (hk : s.conn i = some k) (hx : srv.getSessionId k.client.version = .ok sid) :
      BStep srv s { s.put i (k.act k.client k.reader [k.client.notify sid n]) [] with updater := .sending n rest }
  /-- all clients are notified, lib/server.go:636 -/
  | done {s : BSys} {n : U32} (hu : s.updater = .sending n []) : BStep srv s { s with updater := .idle }

/-- Several steps (lib/server.go:61-121, 422-448, 631-637, 757-822). -/
inductive BSteps (srv : Server) : BSys → BSys → Prop
  | refl (s : BSys) : BSteps srv s s
  | step {s t u : BSys} (h : BSteps srv s t) (hs : BStep srv t u) : BSteps srv s u

end StayRTR
