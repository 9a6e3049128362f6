import Verif.Model.Client

/-!
# The goroutines of a connection

`Start` (the reader), `sendLoop` (the sender) and the other goroutines that send to or disconnect a client
(lib/server.go:744-822, 1011-1032), as a small-step machine. A step is one channel operation, one `Read` or `Write`, or one access to
`connected`.

Simplifications: `Write` either delivers the whole PDU or fails, and after a failed `Write` nothing more reaches the peer
(its error is ignored by the code, line 750); memory accesses are sequentially consistent; what a request makes the reader
do is arbitrary here (Model/Client.lean says what it really is).
-/

namespace StayRTR

/-- What a goroutine does to a client: a blocking send to `transmits` (lib/server.go:1012), the assignment
`connected = false` (1021), the non-blocking send to `quit` (1028-1031). -/
inductive Act where
  | send (p : Pdu)
  | drop
  | quit
  deriving DecidableEq, Repr

/-- The effects of a handler as actions (lib/server.go:1011-1032). -/
def actions : List Effect → List Act
  | [] => []
  | .send p :: e => .send p :: actions e
  | .disconnect :: e => .drop :: .quit :: actions e

/-- Where `sendLoop` is (lib/server.go:744-755): evaluating the loop condition, about to enter `select`, waiting in `select`
(nothing was ready), inside `Write`, returned (the deferred `Close` has run). -/
inductive Sender where
  | check
  | select
  | parked
  | writing (p : Pdu)
  | done
  deriving DecidableEq, Repr

/-- Where `Start` is (lib/server.go:763-814): evaluating the loop condition, inside `Read`, working through `a` (and then returning,
line 774, if `ret`), returned. -/
inductive Reader where
  | check
  | reading
  | acting (a : List Act) (ret : Bool)
  | done
  deriving DecidableEq, Repr

/-- `transmits: make(chan PDU, 256)`, lib/server.go:646. -/
def transmitsCap : Nat := 256

/-- The shared state of a connection (lib/server.go:658-682). `queued` and `wire` record everything sent to the channel and
everything the peer got; `broken`: a `Write` failed. -/
structure Link where
  connected : Bool
  reader : Reader
  queue : List Pdu
  sender : Sender
  broken : Bool
  queued : List Pdu
  wire : List Pdu
  deriving DecidableEq, Repr

namespace Link

/-- After `go c.sendLoop()` (lib/server.go:763). -/
def init : Link := ⟨true, .check, [], .check, false, [], []⟩

/-- A send to `transmits` (lib/server.go:1012): handed to a waiting receiver, buffered if there is room, otherwise it blocks (`none`). -/
def enqueue (p : Pdu) (l : Link) : Option Link :=
  if l.sender = .parked then some { l with sender := .writing p, queued := l.queued ++ [p] }
  else if l.queue.length < transmitsCap then some { l with queue := l.queue ++ [p], queued := l.queued ++ [p] }
  else none

/-- The non-blocking send to `quit` (lib/server.go:1028-1031): received only if `sendLoop` is waiting in `select`. -/
def signalQuit (l : Link) : Link := if l.sender = .parked then { l with sender := .done } else l

/-- One action on the client; `none`: it blocks (lib/server.go:1011-1032). -/
def act : Act → Link → Option Link
  | .send p, l => enqueue p l
  | .drop, l => some { l with connected := false }
  | .quit, l => some (signalQuit l)

/-- A step the connection's own two goroutines can take without any new input from the peer (lib/server.go:744-814). `Write`
is counted here, so the peer is taken to read on or to be gone. -/
inductive Own : Link → Link → Prop where
  /-- lib/server.go:766 -/
  | readerCheck {l : Link} (h : l.reader = .check) : Own l { l with reader := if l.connected then .reading else .done }
  /-- lib/server.go:768-773: `Read` fails once the connection was closed by line 745 -/
  | readClosed {l : Link} (h : l.reader = .reading) (hs : l.sender = .done) : Own l { l with reader := .acting [.drop, .quit] true }
  | readerAct {l l' : Link} {x a ret} (h : l.reader = .acting (x :: a) ret)
      (he : act x { l with reader := .acting a ret } = some l') : Own l l'
  /-- lib/server.go:774, 813 -/
  | readerNext {l : Link} {ret} (h : l.reader = .acting [] ret) : Own l { l with reader := if ret then .done else .check }
  /-- lib/server.go:747 -/
  | senderCheck {l : Link} (h : l.sender = .check) : Own l { l with sender := if l.connected then .select else .done }
  /-- lib/server.go:748-749: a buffered PDU is taken, otherwise `sendLoop` waits -/
  | take {l : Link} {p q} (h : l.sender = .select) (hq : l.queue = p :: q) : Own l { l with sender := .writing p, queue := q }
  | park {l : Link} (h : l.sender = .select) (hq : l.queue = []) : Own l { l with sender := .parked }
  /-- lib/server.go:750 -/
  | write {l : Link} {p} (h : l.sender = .writing p) (hb : l.broken = false) :
      Own l { l with sender := .check, wire := l.wire ++ [p] }
  | writeFails {l : Link} {p} (h : l.sender = .writing p) : Own l { l with sender := .check, broken := true }

/-- Input from the peer (lib/server.go:768-812): a request, or the end of the stream. -/
inductive Input : Link → Link → Prop where
  | request {l : Link} (a : List Act) (h : l.reader = .reading) (hs : l.sender ≠ .done) : Input l { l with reader := .acting a false }
  | readFails {l : Link} (h : l.reader = .reading) : Input l { l with reader := .acting [.drop, .quit] true }

/-- Actions of other goroutines: a notification (lib/server.go:635), or a disconnect by `SetMaxConnections` (411). -/
inductive Other : Link → Link → Prop where
  | act {l l' : Link} (x : Act) (he : Link.act x l = some l') : Other l l'

/-- Any step (lib/server.go:744-814, 1011-1032). -/
def Step (l l' : Link) : Prop := Own l l' ∨ Input l l' ∨ Other l l'

/-- Reachable by any number of steps of `r` (lib/server.go:744-814, 1011-1032). -/
inductive Steps (r : Link → Link → Prop) : Link → Link → Prop where
  | refl {l : Link} : Steps r l l
  | tail {l m n : Link} (h : Steps r l m) (s : r m n) : Steps r l n

/-- A run of exactly `k` steps of the connection's own goroutines (lib/server.go:744-814). -/
inductive OwnRun : Nat → Link → Link → Prop where
  | refl {l : Link} : OwnRun 0 l l
  | head {k : Nat} {l m n : Link} (s : Own l m) (h : OwnRun k m n) : OwnRun (k + 1) l n

/-- The connection's own goroutines cannot take a step: each has returned or waits (lib/server.go:744-814). -/
def Halted (l : Link) : Prop := ∀ l', ¬ Own l l'

/-- The PDU inside `Write` (lib/server.go:750). -/
def inFlight (l : Link) : List Pdu := match l.sender with
  | .writing p => [p]
  | _ => []

end Link

/-- All connections and the goroutine in `NotifyClientsLatest` (lib/server.go:631-637): `pending` are the clients still to be
notified with their PDUs, in the order of the client list. -/
structure Net where
  link : Nat → Link
  pending : List (Nat × Pdu)

namespace Net

/-- Replace one connection (lib/server.go:634-636). -/
def set (n : Net) (i : Nat) (l : Link) : Net := { n with link := fun j => if j = i then l else n.link j }

/-- A step of the notifying goroutine: the blocking send of line 1012 to the next client (lib/server.go:634-636). -/
inductive Notify : Net → Net → Prop where
  | send {n : Net} {i p rest l'} (h : n.pending = (i, p) :: rest) (he : Link.enqueue p (n.link i) = some l') :
      Notify n { n.set i l' with pending := rest }

/-- A step of the server in which the peer of connection `k` takes nothing from its socket (`Write` to it, line 750, does not return) (lib/server.go:631-637, 744-814). -/
inductive StallStep (k : Nat) : Net → Net → Prop where
  | notify {n n' : Net} (h : Notify n n') : StallStep k n n'
  | own {n : Net} {i l'} (h : Link.Own (n.link i) l') (hk : i = k → ∀ p, (n.link i).sender = .writing p → l'.sender = .writing p) :
      StallStep k n (n.set i l')
  | input {n : Net} {i l'} (h : Link.Input (n.link i) l') : StallStep k n (n.set i l')

/-- Any number of such steps (lib/server.go:631-637, 744-814). -/
inductive StallSteps (k : Nat) : Net → Net → Prop where
  | refl {n : Net} : StallSteps k n n
  | tail {l m n : Net} (h : StallSteps k l m) (s : StallStep k m n) : StallSteps k l n

/-- Any step of the server and its peers: the notifying goroutine, a connection's own goroutines, its peer, and any other goroutine that
disconnects or sends to a client (lib/server.go:405-414, 631-637, 744-814, 1011-1032). -/
inductive Step : Net → Net → Prop where
  | notify {n n' : Net} (h : Notify n n') : Step n n'
  | link {n : Net} {i l'} (h : Link.Step (n.link i) l') : Step n (n.set i l')

/-- Any number of steps (lib/server.go:405-414, 631-637, 744-814, 1011-1032). -/
inductive Steps : Net → Net → Prop where
  | refl {n : Net} : Steps n n
  | tail {l m n : Net} (h : Steps l m) (s : Step m n) : Steps l n

/-- The state in which `NotifyClientsLatest` (lib/server.go:631-637) has copied the client list: `pending` are the notifications it will send, all
connections have just been started (763). -/
def fresh (pending : List (Nat × Pdu)) : Net := ⟨fun _ => Link.init, pending⟩

/-- Any number of steps of the notifying goroutine alone (lib/server.go:631-637). -/
inductive Notifies : Net → Net → Prop where
  | refl {n : Net} : Notifies n n
  | head {l m n : Net} (s : Notify l m) (h : Notifies m n) : Notifies l n

end Net

end StayRTR
