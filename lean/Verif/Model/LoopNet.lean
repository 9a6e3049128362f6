import Verif.Model.Goroutines
import Verif.Model.Loop

/-!
# The update loop and the connections together

A refresh that changes the data notifies the clients before it ends: `applyUpdateFromNewState` calls `NotifyClientsLatest`, which sends to one client after
the other (cmd/stayrtr/stayrtr.go:421-430, lib/server.go:631-637). So the loop of `Model/Loop.lean` waits for the connections of `Model/Goroutines.lean`.

Simplification: a refresh may change the data more than once here; which clients are in the copied list, and the PDU each is sent, is arbitrary, but no client is in the
list twice.
-/

namespace StayRTR

/-- The loop, the connections with the notifications still to be sent, and the served data (cmd/stayrtr/stayrtr.go:539-629, lib/server.go:126-148). -/
structure LoopNet where
  loop : Loop
  net : Net
  store : Store

namespace LoopNet

/-- The start of the program (cmd/stayrtr/stayrtr.go:781-796). -/
def start (keepDiff : Int) : LoopNet := ⟨.init, .fresh [], .init keepDiff⟩

/-- One step; with the event of the loop, if it is one of those (cmd/stayrtr/stayrtr.go:410-459, 539-629; lib/server.go:631-637, 744-814). -/
inductive Step : LoopNet → Option LoopEvent → LoopNet → Prop where
  /-- a step of the loop; a refresh ends only after `NotifyClientsLatest` has returned (cmd/stayrtr/stayrtr.go:428-430, 607-628) -/
  | loop {s : LoopNet} {ev : LoopEvent} {l : Loop} (h : LoopStep s.loop ev l) (hp : ev = .finish → s.net.pending = []) : Step s (some ev) { s with loop := l }
  /-- the refresh changes the data, and clients are to be notified (none if notifications are off, 428, or old data are dropped, 617) (cmd/stayrtr/stayrtr.go:421-430, 617, lib/server.go:632-633) -/
  | publish {s : LoopNet} (new : List SD) (pending : List (Nat × Pdu)) (ha : s.loop.at_ = .refreshing) (hp : s.net.pending = []) (hx : (s.store.addData new).2 = true)
      (hn : (pending.map Prod.fst).Nodup) : Step s none { s with store := (s.store.addData new).1, net := { s.net with pending := pending } }
  /-- the clients and their goroutines, and the goroutine in `NotifyClientsLatest` (lib/server.go:631-637, 744-814) -/
  | net {s : LoopNet} {n : Net} (h : Net.Step s.net n) (ha : s.loop.at_ ≠ .ended) : Step s none { s with net := n }

/-- A run, with the events of the loop in order (cmd/stayrtr/stayrtr.go:539-629). -/
inductive Runs : LoopNet → List LoopEvent → LoopNet → Prop where
  | refl {s : LoopNet} : Runs s [] s
  | tail {s t u : LoopNet} {evs : List LoopEvent} {ev : Option LoopEvent} (h : Runs s evs t) (hs : Step t ev u) : Runs s (evs ++ ev.toList) u

end LoopNet

end StayRTR
