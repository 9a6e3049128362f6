import Verif.Model.Client

/-!
# The goroutine of a connection and the goroutine of the updates

The read loop of a connection (`Start`, lib/server.go:753-814) and `NotifyClientsLatest` (lib/server.go:631-637), called by the updating goroutine (cmd/stayrtr/stayrtr.go:430), share `Client.version` and the transmit channel of the client, without a lock.
Here the two interleave, at the granularity of the accesses to these: `NotifyClientsLatest` reads the version for the session id (635), and `SendPDU` reads it again for the PDU (1016).

Simplifications: the channel has no limit (`Model/Goroutines.lean` has it); `checkVersion` and `HandlePDU` are one step each, with the error they queue; `Client.enforceVersion` (674), which nothing sets, is left out; sequentially consistent memory.
-/

namespace StayRTR

/-- Where the read loop is: at the read (lib/server.go:768), after `checkVersion` (787), after `HandlePDU` (809), putting the answer on the channel (812). -/
inductive NReader where
  | idle
  | checked (p : Pdu)
  | handled (p : Pdu)
  | answering (es : List Effect)
  deriving DecidableEq, Repr

/-- Where the notification is: not begun, the serial read (lib/server.go:632), the session id looked up (635). -/
inductive NNotifier where
  | idle
  | serial (n : U32)
  | session (n : U32) (sid : U16)
  deriving DecidableEq, Repr

/-- A client, the two goroutines, what was put on the channel, in order, with the disconnects, and what was read (lib/server.go:658-682, 1011-1031). -/
structure NSys where
  client : Client
  reader : NReader
  notifier : NNotifier
  queue : List Effect
  seen : List Pdu
  deriving DecidableEq, Repr

namespace NSys

/-- A client that has just been accepted, lib/server.go:489-508, 552-560, 753-757. -/
def start (c : Client) : NSys := ⟨c, .idle, .idle, [], []⟩

end NSys

/-- One step of one of the goroutines (lib/server.go:631-637, 765-822, 1011-1031). -/
inductive NStep (srv : Server) : NSys → NSys → Prop
  /-- a PDU is read and its version checked, lib/server.go:768-801 -/
  | recv {s : NSys} (p : Pdu) {c : Client} {e : List Effect} (hr : s.reader = .idle) (hc : s.client.connected = true)
      (hx : (if s.client.disableVersionCheck = false then s.client.checkVersion p.getVersion else (s.client, [])) = (c, e)) : NStep srv s { s with client := c, reader := .checked p, queue := s.queue ++ e, seen := s.seen ++ [p] }
  /-- the serial is remembered and the server's handler called, lib/server.go:803-810 -/
  | handle {s : NSys} {p : Pdu} {c : Client} {e : List Effect} (hr : s.reader = .checked p) (hx : srv.handlePDU (s.client.noteQuery p) = (c, e)) : NStep srv s { s with client := c, reader := .handled p, queue := s.queue ++ e }
  /-- the answer is made up, from the stores as they are, lib/server.go:812 -/
  | answer {s : NSys} {p : Pdu} (st1 st2 : Store) {es : List Effect} (hr : s.reader = .handled p) (hx : srv.passSimpleHandler st1 st2 s.client p = .ok es) : NStep srv s { s with reader := .answering es }
  /-- one PDU of it is put on the channel, lib/server.go:1011-1018, or the connection dropped, 1020-1031 -/
  | emit {s : NSys} {e : Effect} {es : List Effect} (hr : s.reader = .answering (e :: es)) :
      NStep srv s { s with client := if e = .disconnect then s.client.disconnected else s.client, reader := .answering es, queue := s.queue ++ [e] }
  /-- the answer is over, lib/server.go:813 -/
  | finish {s : NSys} (hr : s.reader = .answering []) : NStep srv s { s with reader := .idle }
  /-- a notification begins, lib/server.go:632 -/
  | begin {s : NSys} (n : U32) (hn : s.notifier = .idle) : NStep srv s { s with notifier := .serial n }
  /-- the session id is looked up for the version of the client, lib/server.go:635 -/
  | lookup {s : NSys} {n : U32} {sid : U16} (hn : s.notifier = .serial n) (hx : srv.getSessionId s.client.version = .ok sid) : NStep srv s { s with notifier := .session n sid }
  /-- the PDU gets the version of the client and is put on the channel, lib/server.go:816-822, 1015-1018 -/
  | post {s : NSys} {n : U32} {sid : U16} (hn : s.notifier = .session n sid) : NStep srv s { s with notifier := .idle, queue := s.queue ++ [s.client.notify sid n] }

/-- Several steps (lib/server.go:631-637, 765-822). -/
inductive NSteps (srv : Server) : NSys → NSys → Prop
  | refl (s : NSys) : NSteps srv s s
  | step {s t u : NSys} (h : NSteps srv s t) (hs : NStep srv t u) : NSteps srv s u

end StayRTR
