import Verif.Model.Goroutines
import Verif.Model.Mon

/-!
# The goroutines of rtrmon's RTR client

`Client.Start` with `ClientSession.StartRW` (one goroutine for all sessions of a source), and for each session `sendLoop` and
`continuousRTR` (lib/client.go:55-140, cmd/rtrmon/rtrmon.go:254-326, 467-613), as a machine whose steps are single channel operations,
single reads and writes of the shared fields, and reads from and writes to the connection. `MonGo.exec` says what a move does, `none`
that it is not possible now.

Simplifications: memory accesses are sequentially consistent (the code has data races on `connected`, `version`, `sessionID` and
`serial`); `Write` delivers the whole PDU or fails, and nothing is delivered after a failure or after `Close`; the fields `unlock` and `qrtr`
are taken to be replaced together (cmd/rtrmon/rtrmon.go:313-314); the update of the monitor's data by one PDU is one step, which
includes waiting for the comparator (line 550; Model/MonSys.lean has that wait); timers may fire at any time.
-/

namespace StayRTR

/-- Where `continuousRTR` is (cmd/rtrmon/rtrmon.go:595-613). The number is the session whose channels the `select` waits for: the fields are read
when the `select` is entered. -/
inductive Ticker where
  /-- before the first `select`, 599 -/
  | begin
  /-- in the first `select`, 599-603 -/
  | first (g : Nat)
  /-- before the `select` of the loop, 605-606 -/
  | loop
  /-- in it, 606-611 -/
  | waiting (g : Nat)
  /-- the timer has fired; next `c.sessionID` is read, 610 -/
  | fire
  /-- next `c.serial` is read, 610 -/
  | gotSid (sid : U16)
  /-- next `SetVersion(c.version)`, lib/client.go:69 -/
  | gotBoth (sid : U16) (serial : U32)
  /-- at `c.transmits <- pdu`, lib/client.go:74 -/
  | sending (p : Pdu)
  | done
  deriving DecidableEq, Repr

/-- One session: `ClientSession` (lib/client.go:19-33), its two goroutines, and the channels `unlock` and `qrtr` made for it
(cmd/rtrmon/rtrmon.go:313-314). `queued` and `wire` record everything sent to `transmits` and everything the server got. -/
structure CConn where
  connected : Bool
  version : U8
  sender : Sender
  queue : List Pdu
  queued : List Pdu
  wire : List Pdu
  broken : Bool
  closed : Bool
  ticker : Ticker
  unlockClosed : Bool
  qrtrClosed : Bool
  deriving DecidableEq, Repr

/-- No session (cmd/rtrmon/rtrmon.go:245-252). -/
def CConn.none : CConn := ⟨false, 1, .done, [], [], [], false, true, .done, false, false⟩

/-- `NewClientSession`, the two channels, and `go c.continuousRTR` unless `BreakRTR` (lib/client.go:45-53, cmd/rtrmon/rtrmon.go:274-317). -/
def CConn.new (breakRTR : Bool) : CConn := ⟨false, 1, .done, [], [], [], false, false, if breakRTR then .done else .begin, false, false⟩

/-- A send to `transmits` (lib/client.go:73-75, capacity 256: line 48). -/
def CConn.enqueue (p : Pdu) (c : CConn) : Option CConn :=
  if c.sender = .parked then some { c with sender := .writing p, queued := c.queued ++ [p] }
  else if c.queue.length < 256 then some { c with queue := c.queue ++ [p], queued := c.queued ++ [p] }
  else .none

/-- A step of `sendLoop` (lib/client.go:77-88); `fail`: the `Write` fails, which the code ignores. -/
def CConn.sendStep (fail : Bool) (c : CConn) : Option CConn :=
  match c.sender with
  | .check => some { c with sender := if c.connected then .select else .done }
  | .select => match c.queue with
    | [] => some { c with sender := .parked }
    | p :: q => some { c with sender := .writing p, queue := q }
  | .parked => .none
  | .writing p =>
    if fail || c.broken || c.closed then some { c with sender := .check, broken := true }
    else some { c with sender := .check, wire := c.wire ++ [p] }
  | .done => .none

/-- Where `Disconnect` is (lib/client.go:90-103 with `ClientDisconnected`, cmd/rtrmon/rtrmon.go:580-586). -/
inductive DiscPhase where
  /-- `connected = false`, lib/client.go:91 -/
  | drop
  /-- `select { case <-c.qrtr: default: … }`, cmd/rtrmon/rtrmon.go:582-584 -/
  | look
  /-- `close(c.qrtr)`, 585 -/
  | closing
  /-- the non-blocking send to `quit`, lib/client.go:96-100 -/
  | quit
  /-- `tcpconn.Close()`, 102 -/
  | shut
  deriving DecidableEq, Repr

/-- Where the goroutine of `Client.Start` is (cmd/rtrmon/rtrmon.go:254-326, lib/client.go:105-140). -/
inductive MainPhase where
  /-- before a session, cmd/rtrmon/rtrmon.go:264-271 -/
  | sleeping
  /-- connecting, lib/client.go:151-210 -/
  | dialing
  /-- `close(c.unlock)`, cmd/rtrmon/rtrmon.go:570 -/
  | unlocking
  /-- `cs.SendResetQuery()`, 571 -/
  | hello
  /-- `for c.connected`, lib/client.go:110 -/
  | check
  /-- in `Decode`, 111 -/
  | reading
  /-- at `HandlePDU`, 127 -/
  | handling (p : Pdu)
  /-- in `Disconnect`, called because reading failed (`ret`; then `StartRW` returns the error) or from the handler -/
  | disc (d : DiscPhase) (ret : Bool)
  /-- `StartRW` returned without an error; at `<-c.qrtr`, cmd/rtrmon/rtrmon.go:324 -/
  | returned
  /-- `log.Fatal`, 321 -/
  | exited
  /-- a panic: `close` of a closed channel -/
  | crashed
  deriving DecidableEq, Repr

/-- One RTR source of rtrmon with all sessions it has had; `cur` is the number of the current one. `events` records what came from
outside, in the terms of Model/Mon.lean (cmd/rtrmon/rtrmon.go:223-243). -/
structure MonGo where
  client : MonClient
  conns : Nat → CConn
  cur : Nat
  main : MainPhase
  events : List MonEvent

/-- Before `Start` (cmd/rtrmon/rtrmon.go:245-263). -/
def MonGo.init : MonGo := ⟨MonClient.new, fun _ => CConn.none, 0, .sleeping, []⟩

/-- Session `k` changed (lib/client.go:19-33). -/
def MonGo.upd (s : MonGo) (k : Nat) (c : CConn) : MonGo := { s with conns := fun j => if j = k then c else s.conns j }

/-- The current session (cmd/rtrmon/rtrmon.go:280). -/
def MonGo.conn (s : MonGo) : CConn := s.conns s.cur

/-- What can happen (cmd/rtrmon/rtrmon.go:254-326, 467-613; lib/client.go:55-140). -/
inductive GoMove where
  /-- the next step of `Start`'s goroutine, where nothing from outside is needed -/
  | main
  | dialOk
  | dialFails
  /-- `Decode` returns a PDU -/
  | pdu (p : Pdu)
  /-- `Decode` fails -/
  | lost
  /-- `HandlePDU` at a time -/
  | handle (now : Int)
  /-- `sendLoop` of session `k`; `fail`: a `Write` fails -/
  | send (k : Nat) (fail : Bool)
  /-- the next step of `continuousRTR` of session `k` -/
  | tick (k : Nat)
  /-- its timer -/
  | timer (k : Nat)
  /-- its `select` takes `<-c.qrtr` -/
  | stop (k : Nat)

/-- A step of `Start`'s goroutine (cmd/rtrmon/rtrmon.go:254-326, 569-593; lib/client.go:90-140). -/
def MonGo.mainStep (breakRTR : Bool) (s : MonGo) : Option MonGo :=
  match s.main with
  | .sleeping => some { s.upd (s.cur + 1) (CConn.new breakRTR) with cur := s.cur + 1, main := .dialing }
  | .unlocking =>
    if s.conn.unlockClosed then some { s with main := .crashed }
    else some { s.upd s.cur { s.conn with unlockClosed := true } with main := .hello }
  | .hello => (s.conn.enqueue (.resetQuery s.conn.version)).map fun c => { s.upd s.cur c with main := .check }
  | .check => some { s with main := if s.conn.connected then .reading else .returned }
  | .disc .drop r => some { s.upd s.cur { s.conn with connected := false } with main := .disc .look r }
  | .disc .look r => some { s with main := .disc (if s.conn.qrtrClosed then .quit else .closing) r }
  | .disc .closing r =>
    if s.conn.qrtrClosed then some { s with main := .crashed }
    else some { s.upd s.cur { s.conn with qrtrClosed := true } with main := .disc .quit r }
  | .disc .quit r =>
    some { s.upd s.cur { s.conn with sender := if s.conn.sender = .parked then .done else s.conn.sender } with main := .disc .shut r }
  | .disc .shut r => some { s.upd s.cur { s.conn with closed := true } with main := if r then .exited else .check }
  | .returned => if s.conn.qrtrClosed then some { s with main := .sleeping } else .none
  | _ => .none

/-- A step of `continuousRTR` of session `k` (cmd/rtrmon/rtrmon.go:595-613, lib/client.go:60-75). -/
def MonGo.tickStep (s : MonGo) (k : Nat) : Option MonGo :=
  match (s.conns k).ticker with
  | .begin => some (s.upd k { s.conns k with ticker := .first s.cur })
  | .first g => if (s.conns g).unlockClosed then some (s.upd k { s.conns k with ticker := .loop }) else .none
  | .loop => some (s.upd k { s.conns k with ticker := .waiting s.cur })
  | .fire => some (s.upd k { s.conns k with ticker := .gotSid s.client.sessionID })
  | .gotSid sid => some (s.upd k { s.conns k with ticker := .gotBoth sid s.client.serial })
  | .gotBoth sid n => some (s.upd k { s.conns k with ticker := .sending (.serialQuery (s.conns k).version sid n) })
  | .sending p => ((s.conns k).enqueue p).map fun c => s.upd k { c with ticker := .loop }
  | _ => .none

/-- What a move does; nothing happens any more once the program has ended (cmd/rtrmon/rtrmon.go:254-326, 467-613; lib/client.go:55-210). -/
def MonGo.exec (breakRTR : Bool) (s : MonGo) (m : GoMove) : Option MonGo :=
  if s.main = .exited ∨ s.main = .crashed then .none
  else match m with
    | .main => s.mainStep breakRTR
    | .dialOk =>
      if s.main = .dialing then
        some { s.upd s.cur { s.conn with connected := true, sender := .check } with main := .unlocking, events := s.events ++ [.connect] }
      else .none
    | .dialFails => if s.main = .dialing then some { s with main := .exited, events := s.events ++ [.connectFails] } else .none
    | .pdu p =>
      if s.main = .reading then
        some { s.upd s.cur { s.conn with version := if s.conn.version = 1 ∧ p.getVersion = 0 then 0 else s.conn.version } with main := .handling p }
      else .none
    | .lost => if s.main = .reading then some { s with main := .disc .drop true, events := s.events ++ [.lost] } else .none
    | .handle now =>
      match s.main with
      | .handling p =>
        some { s with client := (monPdu now breakRTR s.client p).1
                      main := if .disconnect ∈ (monPdu now breakRTR s.client p).2 then .disc .drop false else .check
                      events := s.events ++ [.pdu now p] }
      | _ => .none
    | .send k fail => ((s.conns k).sendStep fail).map (s.upd k)
    | .tick k => s.tickStep k
    | .timer k =>
      match (s.conns k).ticker with
      | .waiting _ => some (s.upd k { s.conns k with ticker := .fire })
      | _ => .none
    | .stop k =>
      match (s.conns k).ticker with
      | .first g => if (s.conns g).qrtrClosed then some (s.upd k { s.conns k with ticker := .done }) else .none
      | .waiting g => if (s.conns g).qrtrClosed then some (s.upd k { s.conns k with ticker := .done }) else .none
      | _ => .none

/-- A run (cmd/rtrmon/rtrmon.go:254-326). -/
inductive MonGo.Runs (breakRTR : Bool) : MonGo → MonGo → Prop where
  | refl {s : MonGo} : Runs breakRTR s s
  | tail {s t u : MonGo} (h : Runs breakRTR s t) (m : GoMove) (e : t.exec breakRTR m = some u) : Runs breakRTR s u

/-- A given schedule; `none` if a move is not possible (cmd/rtrmon/rtrmon.go:254-326). -/
def MonGo.sched (breakRTR : Bool) (s : MonGo) : List GoMove → Option MonGo
  | [] => some s
  | m :: ms => (s.exec breakRTR m).bind fun t => t.sched breakRTR ms

end StayRTR
