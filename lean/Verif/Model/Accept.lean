import Verif.Model.Go

/-!
# The accept loop, the goroutine of an SSH connection, and the counter as shared memory

`loopTCP` (lib/server.go:577-604) with the two callbacks `acceptClientTCP` (489-508) and `acceptClientSSH` (510-573), and the reads and writes of `s.connected` (422-448, 517, 569).

Simplifications: the kernel's queue of connections is a list without limit; the SSH handshake (golang.org/x/crypto/ssh) ends well, ends badly or does not end; the channels of the SSH library are lists without limit;
memory is sequentially consistent.
-/

namespace StayRTR

/-! ## The accept loop -/

/-- How a connection is served: `Start` (lib/server.go:481-487), `StartTLS` (615-621), `StartSSH` (606-613). `tls.Listen` does the handshake with the first read, in the client's goroutine. -/
inductive Transport where
  | tcp
  | tls
  | ssh
  deriving DecidableEq, Repr

/-- What becomes of the handshake of a connection in `ssh.NewServerConn`, lib/server.go:511. -/
inductive Handshake where
  | succeeds
  | fails
  | never
  deriving DecidableEq, Repr

/-- `loopTCP` and its connections, lib/server.go:577-604: those that wait to be accepted, the one whose callback has not returned, those served by a goroutine of their own and those closed. -/
structure Acceptor where
  backlog : List Nat
  busy : Option Nat
  served : List Nat
  closed : List Nat
  deriving DecidableEq, Repr

/-- What happens around `loopTCP`, lib/server.go:577-604. -/
inductive AcceptEvent where
  /-- a connection reaches the kernel -/
  | arrive (i : Nat)
  /-- `Accept` returns a connection; `admit` is the result of the test of the counter, lib/server.go:579, 587 -/
  | accept (admit : Bool)
  /-- `Accept` returns an error, lib/server.go:580-585 -/
  | acceptError
  /-- `ssh.NewServerConn` returns, lib/server.go:511-514 -/
  | shaken
  deriving DecidableEq, Repr

namespace Acceptor

/-- A fresh listener, lib/server.go:482, 607, 616. -/
def init : Acceptor := ⟨[], none, [], []⟩

/-- One event, lib/server.go:577-604; `none`: it cannot happen, as the loop is somewhere else. A failed handshake closes the connection (`NewServerConn`; lib/server.go:511). -/
def step (t : Transport) (shake : Nat → Handshake) (a : Acceptor) : AcceptEvent → Option Acceptor
  | .arrive i => some { a with backlog := a.backlog ++ [i] }
  | .acceptError => match a.busy with
    | some _ => none
    | none => some a
  | .accept admit => match a.busy, a.backlog with
    | none, i :: rest =>
      if admit = false then some { a with backlog := rest, closed := a.closed ++ [i] }
      else if t = .ssh then some { a with backlog := rest, busy := some i }
      else some { a with backlog := rest, served := a.served ++ [i] }
    | _, _ => none
  | .shaken => match a.busy with
    | none => none
    | some i => match shake i with
      | .succeeds => some { a with busy := none, served := a.served ++ [i] }
      | .fails => some { a with busy := none, closed := a.closed ++ [i] }
      | .never => none

/-- A sequence of events that can happen (lib/server.go:577-604). -/
def run (t : Transport) (shake : Nat → Handshake) (a : Acceptor) (l : List AcceptEvent) : Option Acceptor := l.foldlM (step t shake) a

end Acceptor

/-- Whether the loop itself moves on with the event (lib/server.go:579, 587, 597). -/
def AcceptEvent.own : AcceptEvent → Bool
  | .accept _ => true
  | .shaken => true
  | _ => false

/-! ## The goroutine of an SSH connection -/

/-- A request on a channel, lib/server.go:542; `replyOk`: whether `Reply` succeeds (544). -/
structure SshRequest where
  type : Str
  payload : Bytes
  replyOk : Bool
  deriving DecidableEq, Repr

/-- A channel that the client opens, lib/server.go:528; `acceptOk`: whether `Accept` succeeds (536). -/
structure SshChannel where
  type : Str
  acceptOk : Bool
  deriving DecidableEq, Repr

/-- Where the goroutine is, lib/server.go:516-571. -/
inductive SshAt where
  /-- at `select`, lib/server.go:520 -/
  | waiting
  /-- at `range requests`, lib/server.go:542 -/
  | requests
  /-- in `client.Start()`, lib/server.go:560 -/
  | session
  /-- after the loop, lib/server.go:569-570 -/
  | ended
  deriving DecidableEq, Repr

/-- What the goroutine does that the client can see (lib/server.go:516-571). -/
inductive SshAction where
  /-- `req.Reply(false, nil)`, lib/server.go:523 -/
  | refuse
  /-- `newChannel.Reject`, lib/server.go:530 -/
  | reject
  /-- `newChannel.Accept()`, lib/server.go:536 -/
  | accept
  /-- `req.Reply(true, nil)`, lib/server.go:544 -/
  | grant (r : SshRequest)
  /-- `client.Start()`, lib/server.go:560 -/
  | start
  /-- `tcpconn.Close()`, lib/server.go:570 -/
  | close
  deriving DecidableEq, Repr

/-- The goroutine and the channels of the SSH library, lib/server.go:511, 516-571: global requests (each with its `WantReply`), channels, requests on the accepted channel; whether each Go channel is closed; and what was done. -/
structure SshConn where
  pos : SshAt
  globals : List Bool
  globalsClosed : Bool
  channels : List SshChannel
  channelsClosed : Bool
  requests : List SshRequest
  requestsClosed : Bool
  done : List SshAction
  deriving DecidableEq, Repr

/-- What happens to an SSH connection: the client and the library, or the goroutine (lib/server.go:516-571). -/
inductive SshEvent where
  | gotGlobal (wantReply : Bool)
  | endGlobals
  | gotChannel (c : SshChannel)
  | endChannels
  | gotRequest (r : SshRequest)
  | endRequests
  /-- `client.Start()` returns, lib/server.go:560 -/
  | sessionOver
  /-- `<-reqs`, lib/server.go:521 -/
  | takeGlobal
  /-- `<-chans`, lib/server.go:528 -/
  | takeChannel
  /-- the next of `requests`, lib/server.go:542 -/
  | takeRequest
  deriving DecidableEq, Repr

namespace SshConn

/-- After the handshake, lib/server.go:516-518. -/
def init : SshConn := ⟨.waiting, [], false, [], false, [], false, []⟩

/-- The loop ends, lib/server.go:569-570. -/
def stop (c : SshConn) : SshConn := { c with pos := .ended, done := c.done ++ [.close] }

/-- The test of lib/server.go:543. -/
def isRtr (r : SshRequest) : Bool := r.type == "subsystem".toList && r.payload == [0, 0, 0, 8, 114, 112, 107, 105, 45, 114, 116, 114]

/-- One event, lib/server.go:516-571; `none`: it cannot happen now. -/
def step (c : SshConn) : SshEvent → Option SshConn
  | .gotGlobal w => if c.globalsClosed then none else some { c with globals := c.globals ++ [w] }
  | .endGlobals => some { c with globalsClosed := true }
  | .gotChannel ch => if c.channelsClosed then none else some { c with channels := c.channels ++ [ch] }
  | .endChannels => some { c with channelsClosed := true }
  | .gotRequest r => if c.requestsClosed then none else some { c with requests := c.requests ++ [r] }
  | .endRequests => some { c with requestsClosed := true }
  | .sessionOver => if c.pos = .session then some { c with pos := .requests } else none
  | .takeGlobal =>
    if c.pos = .waiting then match c.globals with
      | true :: rest => some { c with globals := rest, done := c.done ++ [.refuse] }
      | false :: rest => some { c with globals := rest }
      | [] => if c.globalsClosed then some c.stop else none
    else none
  | .takeChannel =>
    if c.pos = .waiting then match c.channels with
      | ch :: rest =>
        if ch.type ≠ "session".toList then some { c with channels := rest, done := c.done ++ [.reject] }
        else if ch.acceptOk then some { c with channels := rest, pos := .requests, requests := [], requestsClosed := false, done := c.done ++ [.accept] }
        else some (stop { c with channels := rest })
      | [] => if c.channelsClosed then some c.stop else none
    else none
  | .takeRequest =>
    if c.pos = .requests then match c.requests with
      | r :: rest =>
        if isRtr r = false then some (stop { c with requests := rest })
        else if r.replyOk then some { c with requests := rest, pos := .session, done := c.done ++ [.grant r, .start] }
        else some (stop { c with requests := rest })
      | [] => if c.requestsClosed then some { c with pos := .waiting } else none
    else none

/-- A sequence of events that can happen (lib/server.go:516-571). -/
def run (c : SshConn) (l : List SshEvent) : Option SshConn := l.foldlM step c

end SshConn

/-! ## The counter -/

/-- A goroutine that changes `s.connected` by one, with `clientlock` (`ClientConnected` and `ClientDisconnected`, lib/server.go:423-426, 434-443) or without (the SSH goroutine, 517, 569). -/
structure Counting where
  change : Int
  locks : Bool
  deriving DecidableEq, Repr

/-- Where such a goroutine is (lib/server.go:423-426, 517): `s.connected++` is a read and a write. -/
inductive CountAt where
  | before
  | locked
  | read (v : Int)
  | written
  | over
  deriving DecidableEq, Repr

/-- The counter, the holder of `clientlock`, where each goroutine is, and the writes so far (lib/server.go:123-129). -/
structure CountState where
  counter : Int
  lock : Option Nat
  pos : Nat → CountAt
  writes : List Nat

/-- One step of one goroutine (lib/server.go:423-426, 434-443, 517, 569). -/
inductive CountStep (g : Nat → Counting) : CountState → CountState → Prop
  | lock {s : CountState} (i : Nat) (hl : (g i).locks = true) (hp : s.pos i = .before) (hf : s.lock = none) :
      CountStep g s { s with lock := some i, pos := fun j => if j = i then .locked else s.pos j }
  | read {s : CountState} (i : Nat) (hp : s.pos i = if (g i).locks then .locked else .before) :
      CountStep g s { s with pos := fun j => if j = i then .read s.counter else s.pos j }
  | write {s : CountState} (i : Nat) (v : Int) (hp : s.pos i = .read v) :
      CountStep g s { s with counter := v + (g i).change, pos := fun j => if j = i then .written else s.pos j, writes := s.writes ++ [i] }
  | unlock {s : CountState} (i : Nat) (hl : (g i).locks = true) (hp : s.pos i = .written) :
      CountStep g s { s with lock := none, pos := fun j => if j = i then .over else s.pos j }

/-- What the goroutines can reach from a counter of 0 (lib/server.go:204-207). -/
inductive CountReached (g : Nat → Counting) : CountState → Prop
  | init : CountReached g ⟨0, none, fun _ => .before, []⟩
  | step {s s' : CountState} (h : CountReached g s) (hs : CountStep g s s') : CountReached g s'

end StayRTR
