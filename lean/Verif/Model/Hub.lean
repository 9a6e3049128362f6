import Verif.Model.Goroutines

/-!
# Accepting connections and the connection counter

`loopTCP`, `ClientConnected`, `ClientDisconnected`, `SetMaxConnections` (lib/server.go:402-448, 577-604), the extra counting of SSH
(lib/server.go:516-571), and the wiring of the command line to the server (cmd/stayrtr/stayrtr.go:50-97, 755-768).

Simplification: each event is atomic; two increments of the counter do not race with each other (Model/Accept.lean has them as reads and writes).
-/

namespace StayRTR

/-- The server's view of its connections (lib/server.go:126-134): the counter `connected`, the client list, the limit `maxconn`; and, not a field of the
code, the accepted connections whose goroutine has not called `ClientConnected` yet. -/
structure Hub where
  counter : Int
  clients : List Nat
  starting : List Nat
  max : Int
  deriving DecidableEq, Repr

/-- What happens to the connections (lib/server.go:402-416, 485-601, 744-760, 1017-1032). -/
inductive HubEvent where
  /-- `loopTCP` gets connection `i` from `Accept`, lib/server.go:579-601 -/
  | accept (i : Nat)
  /-- the goroutine of `i` calls `ClientConnected`, lib/server.go:760 -/
  | start (i : Nat)
  /-- `Disconnect` of client `i` calls `ClientDisconnected`, lib/server.go:1026 -/
  | disconnect (i : Nat)
  /-- the SSH goroutine counts its connection, lib/server.go:517 -/
  | sshOpen
  /-- lib/server.go:569 -/
  | sshClose
  /-- `SetMaxConnections`, lib/server.go:402-416 -/
  | setMax (m : Int)
  deriving DecidableEq, Repr

namespace Hub

/-- `NewServer`, lib/server.go:192-216. -/
def init (max : Int) : Hub := ⟨0, [], [], max⟩

/-- The test of `loopTCP`, lib/server.go:587. -/
def admits (h : Hub) : Bool := !(decide (h.max > 0) && decide (h.counter ≥ h.max))

/-- `ClientConnected`, lib/server.go:422-431. -/
def clientConnected (h : Hub) (i : Nat) : Hub := { h with clients := h.clients ++ [i], counter := h.counter + 1 }

/-- `ClientDisconnected`, lib/server.go:433-448. -/
def clientDisconnected (h : Hub) (i : Nat) : Hub := { h with clients := h.clients.filter (· ≠ i), counter := h.counter - 1 }

/-- `SetMaxConnections`, lib/server.go:402-416: the first `connected - maxconn` clients of the list are disconnected. -/
def setMaxConnections (h : Hub) (m : Int) : Hub :=
  let h' := if h.counter > m then (h.clients.take (h.counter - m).toNat).foldl clientDisconnected h else h
  { h' with max := m }

/-- One event (lib/server.go:402-448, 489-604). -/
def step (h : Hub) : HubEvent → Hub
  | .accept i => if h.admits then { h with starting := h.starting ++ [i] } else h
  | .start i => if i ∈ h.starting then { h.clientConnected i with starting := h.starting.erase i } else h
  | .disconnect i => h.clientDisconnected i
  | .sshOpen => { h with counter := h.counter + 1 }
  | .sshClose => { h with counter := h.counter - 1 }
  | .setMax m => h.setMaxConnections m

/-- A sequence of events (lib/server.go:402-416, 485-601). -/
def run (h : Hub) (l : List HubEvent) : Hub := l.foldl step h

end Hub

/-- The calls of `ClientDisconnected` in the effects of a handler for client `i` (lib/server.go:1025-1027). -/
def hubEvents (i : Nat) (e : List Effect) : List HubEvent := e.filterMap (fun | .send _ => none | .disconnect => some (.disconnect i))

/-- The command line flags that concern the server (cmd/stayrtr/stayrtr.go:55-62, 90). -/
structure Flags where
  protocol : Int
  refresh : Int
  retry : Int
  expire : Int
  enforceVersion : Bool
  disableBGPSec : Bool
  enableNODELAY : Bool
  maxConn : Int
  deriving DecidableEq, Repr

/-- `protoverToLib[v]`, cmd/stayrtr/stayrtr.go:155-158: a missing key gives the zero value. -/
def protoverToLib (v : Int) : U8 := if v = 0 then 0 else if v = 1 then 1 else 0

/-- The configuration built in `run`, cmd/stayrtr/stayrtr.go:755-768; `MaxConn` is not set. -/
def Flags.serverConfiguration (f : Flags) : ServerConfig where
  maxConn := 0
  protocolVersion := protoverToLib f.protocol
  enforceVersion := f.enforceVersion
  keepDifference := 3
  disableBGPSec := f.disableBGPSec
  enableNODELAY := f.enableNODELAY
  refresh := BitVec.ofInt 32 f.refresh
  retry := BitVec.ofInt 32 f.retry
  expire := BitVec.ofInt 32 f.expire

end StayRTR
