import Verif.Model.Go

/-!
# Which goroutine touches which field, and under which lock

The goroutines of stayrtr (lib/server.go, cmd/stayrtr/stayrtr.go) and of rtrmon (cmd/rtrmon/rtrmon.go, lib/client.go) as sequences of the operations
that matter for data races: taking and giving back a `sync.RWMutex`, reading and writing a shared field, starting the two fetching goroutines and waiting
for them. `StayProg g seg` and `MonProg g seg` say that `seg` is a piece of code that goroutine `g` runs from its beginning to its end; a goroutine runs its
pieces in any order and any number of times, and all goroutines interleave. That is more than the code can do, so that what never happens here never
happens there.

Simplifications: what a goroutine does with an object before it hands it to another one (the fields set before `go client.Start()`, lib/server.go:497-508) is
left out; fields that are set before the goroutines are started and never again are left out; channels and the metrics, which synchronise themselves, are
left out; the maps of the fetcher are in `Model/MapRace.lean`, the records behind the slices in `Model/Heap.lean`.
-/

namespace StayRTR

/-- The operations: `sync.RWMutex` (lib/server.go:296-298, 380-381), accesses to fields (lib/server.go:390-392), `sync.WaitGroup` (cmd/stayrtr/stayrtr.go:566-569, 605). -/
inductive ROp (L F : Type) where
  | rlock (l : L)
  | runlock (l : L)
  | lock (l : L)
  | unlock (l : L)
  | read (f : F)
  | write (f : F)
  /-- `updateFileWG.Add(2)` and the two `go` statements -/
  | fork
  /-- `updateFileWG.Done()` -/
  | done
  /-- `updateFileWG.Wait()` -/
  | join
  deriving DecidableEq, Repr

/-- How a goroutine holds a lock (lib/server.go:296-298, 380-381). -/
inductive RMode where
  | no
  | shared
  | excl
  deriving DecidableEq, Repr

/-- All goroutines: the locks each holds, what each has still to do of the piece it is in, and which of those that are waited for have not called `Done`
(cmd/stayrtr/stayrtr.go:566-605). -/
structure RSys (G L F : Type) where
  held : G → L → RMode
  todo : G → List (ROp L F)
  busy : G → Bool

namespace RSys

variable {G L F : Type} [DecidableEq G] [DecidableEq L]

/-- Nothing is locked and nothing begun (cmd/stayrtr/stayrtr.go:780-853, cmd/rtrmon/rtrmon.go:245-252). -/
def init : RSys G L F := ⟨fun _ _ => .no, fun _ => [], fun _ => false⟩

/-- Goroutine `g` has `ops` left (any statement of lib/server.go:286-1032). -/
def goOn (s : RSys G L F) (g : G) (ops : List (ROp L F)) : RSys G L F := { s with todo := fun g' => if g' = g then ops else s.todo g' }

/-- Goroutine `g` now holds `l` like `m` (lib/server.go:296-298, 380-381). -/
def hold (s : RSys G L F) (g : G) (l : L) (m : RMode) : RSys G L F :=
  { s with held := fun g' l' => if g' = g ∧ l' = l then m else s.held g' l' }

end RSys

/-- One step of one goroutine. `prog` gives the pieces of code, `child` says which goroutines are those of the wait group, which run only between `fork` and
their `Done` (lib/server.go:286-1032, cmd/stayrtr/stayrtr.go:566-605). -/
inductive RStep {G L F : Type} [DecidableEq G] [DecidableEq L] (prog : G → List (ROp L F) → Prop) (child : G → Bool) : RSys G L F → RSys G L F → Prop
  /-- a new piece of code is entered -/
  | enter {s : RSys G L F} (g : G) (seg : List (ROp L F)) (hp : prog g seg) (ht : s.todo g = []) (hc : child g = true → s.busy g = true) :
      RStep prog child s (s.goOn g seg)
  /-- `RLock` waits for a writer, lib/server.go:296 -/
  | rlock {s : RSys G L F} (g : G) (l : L) (rest : List (ROp L F)) (ht : s.todo g = .rlock l :: rest) (hn : s.held g l = .no) (hf : ∀ g', s.held g' l ≠ .excl) :
      RStep prog child s ((s.hold g l .shared).goOn g rest)
  /-- `RUnlock`, lib/server.go:298 -/
  | runlock {s : RSys G L F} (g : G) (l : L) (rest : List (ROp L F)) (ht : s.todo g = .runlock l :: rest) :
      RStep prog child s ((s.hold g l .no).goOn g rest)
  /-- `Lock` waits for everybody, lib/server.go:380 -/
  | lock {s : RSys G L F} (g : G) (l : L) (rest : List (ROp L F)) (ht : s.todo g = .lock l :: rest) (hf : ∀ g', s.held g' l = .no) :
      RStep prog child s ((s.hold g l .excl).goOn g rest)
  /-- `Unlock`, lib/server.go:381 -/
  | unlock {s : RSys G L F} (g : G) (l : L) (rest : List (ROp L F)) (ht : s.todo g = .unlock l :: rest) :
      RStep prog child s ((s.hold g l .no).goOn g rest)
  /-- a field is read, lib/server.go:297 -/
  | read {s : RSys G L F} (g : G) (f : F) (rest : List (ROp L F)) (ht : s.todo g = .read f :: rest) : RStep prog child s (s.goOn g rest)
  /-- a field is written, lib/server.go:390 -/
  | write {s : RSys G L F} (g : G) (f : F) (rest : List (ROp L F)) (ht : s.todo g = .write f :: rest) : RStep prog child s (s.goOn g rest)
  /-- the goroutines of the group are started, cmd/stayrtr/stayrtr.go:566-603 -/
  | fork {s : RSys G L F} (g : G) (rest : List (ROp L F)) (ht : s.todo g = .fork :: rest) :
      RStep prog child s ({ s with busy := fun g' => child g' || s.busy g' }.goOn g rest)
  /-- one of them is done, cmd/stayrtr/stayrtr.go:569, 588 -/
  | done {s : RSys G L F} (g : G) (rest : List (ROp L F)) (ht : s.todo g = .done :: rest) :
      RStep prog child s ({ s with busy := fun g' => if g' = g then false else s.busy g' }.goOn g rest)
  /-- all of them are, cmd/stayrtr/stayrtr.go:605 -/
  | join {s : RSys G L F} (g : G) (rest : List (ROp L F)) (ht : s.todo g = .join :: rest) (hf : ∀ g', s.busy g' = false) :
      RStep prog child s (s.goOn g rest)

/-- Several steps (lib/server.go:286-1032, cmd/stayrtr/stayrtr.go:461-635). -/
inductive RSteps {G L F : Type} [DecidableEq G] [DecidableEq L] (prog : G → List (ROp L F) → Prop) (child : G → Bool) : RSys G L F → RSys G L F → Prop
  | refl (s : RSys G L F) : RSteps prog child s s
  | step {s t u : RSys G L F} (h : RSteps prog child s t) (hs : RStep prog child t u) : RSteps prog child s u

/-! ### stayrtr -/

/-- The locks of stayrtr: lib/server.go:126, 139, cmd/stayrtr/stayrtr.go:682. -/
inductive StayLock where
  | clientlock
  | sdlock
  | lockJson
  deriving DecidableEq, Repr

/-- The fields that change while the goroutines run: of the server (lib/server.go:124-151), of client `i` (658-682), of the state (cmd/stayrtr/stayrtr.go:667-689). -/
inductive StayField where
  | clients
  | connCount
  | sdListDiff
  | sdCurrent
  | sdCurrentSerial
  | connected (i : Nat)
  | version (i : Nat)
  | versionset (i : Nat)
  | curserial (i : Nat)
  | lastdata
  | lasthashCache
  | lasthashSlurm
  | lastchange
  | lastts
  | exported
  | slurm
  deriving DecidableEq, Repr

/-- The goroutines of stayrtr (lib/server.go:506, 516, 763, cmd/stayrtr/stayrtr.go:568, 587, 804, 860-972). -/
inductive StayGo where
  /-- `run` and `routineUpdate`, cmd/stayrtr/stayrtr.go:737-975, 539-629 -/
  | updater
  /-- `updateFile`, cmd/stayrtr/stayrtr.go:587-603, 815-830 -/
  | fetchCache
  /-- `updateSlurm`, cmd/stayrtr/stayrtr.go:568-584, 833-851 -/
  | fetchSlurm
  /-- the accept loops, one per transport, lib/server.go:577-607 -/
  | accept (k : Nat)
  /-- `Client.Start` of connection `i`, lib/server.go:757-814; on TCP and TLS a goroutine of its own (506), on SSH run by the goroutine of the connection (516-571) -/
  | conn (i : Nat)
  /-- `sendLoop`, lib/server.go:744-755 -/
  | sender (i : Nat)
  /-- a request for the export, cmd/stayrtr/stayrtr.go:631-637 -/
  | http (k : Nat)
  deriving DecidableEq, Repr

open StayLock StayField ROp in
/-- The pieces of `Client.Start` for client `i` (lib/server.go:422-443, 719-814, 1011-1032). -/
inductive ConnProg (i : Nat) : List (ROp StayLock StayField) → Prop
  /-- `c.connected = true` and `ClientConnected`, lib/server.go:758-761, 422-426 -/
  | start : ConnProg i [write (connected i), lock clientlock, read clients, write clients, read connCount, write connCount, unlock clientlock]
  /-- `for c.connected`, lib/server.go:766 -/
  | loop : ConnProg i [read (connected i)]
  /-- `checkVersion`, lib/server.go:719-721, accepted -/
  | versionOk : ConnProg i [read (versionset i), read (version i), write (versionset i), write (version i)]
  /-- `checkVersion`, refused: the log, the error report, lib/server.go:722-728 -/
  | versionBad : ConnProg i [read (versionset i), read (version i), read (version i), read (curserial i), read (version i)]
  /-- `c.String()`, lib/server.go:684-686, 790 -/
  | string : ConnProg i [read (version i), read (curserial i)]
  /-- a Serial Query is noted, lib/server.go:804-806 -/
  | note : ConnProg i [write (curserial i)]
  /-- `HandlePDU`: the version is looked at, lib/server.go:450-458 -/
  | handle : ConnProg i [read (version i)]
  /-- `HandlePDU`: the downgrade, lib/server.go:458-461 -/
  | downgrade : ConnProg i [read (version i), write (versionset i), write (version i)]
  /-- `GetCurrentSerial`, lib/server.go:325-334 -/
  | currentSerial : ConnProg i [rlock sdlock, read sdCurrentSerial, read sdCurrent, runlock sdlock]
  /-- `GetCurrentSDs`, lib/server.go:295-300 -/
  | currentSDs : ConnProg i [rlock sdlock, read sdCurrent, runlock sdlock]
  /-- `GetSDsSerialDiff`, lib/server.go:302-322 -/
  | diff : ConnProg i [rlock sdlock, read sdCurrentSerial, read sdListDiff, runlock sdlock]
  /-- `SendPDU`, lib/server.go:1015-1018 -/
  | send : ConnProg i [read (version i)]
  /-- `Disconnect` with `ClientDisconnected`, lib/server.go:1020-1032, 433-443 -/
  | disconnect : ConnProg i [write (connected i), read (version i), read (curserial i), lock clientlock, read clients, write clients, read connCount, write connCount, unlock clientlock]

open StayLock StayField ROp in
/-- The pieces of code of each goroutine of stayrtr; `ssh i`: connection `i` is one over SSH (lib/server.go:286-1032, cmd/stayrtr/stayrtr.go:335-637). -/
inductive StayProg (ssh : Nat → Bool) : StayGo → List (ROp StayLock StayField) → Prop
  | conn {i : Nat} {seg : List (ROp StayLock StayField)} (h : ConnProg i seg) : StayProg ssh (.conn i) seg
  /-- `s.connected++`, lib/server.go:517 -/
  | sshUp (i : Nat) (h : ssh i = true) : StayProg ssh (.conn i) [read connCount, write connCount]
  /-- `s.connected--`, lib/server.go:569 -/
  | sshDown (i : Nat) (h : ssh i = true) : StayProg ssh (.conn i) [read connCount, write connCount]
  /-- `for c.connected`, lib/server.go:747 -/
  | sender (i : Nat) : StayProg ssh (.sender i) [read (connected i)]
  /-- the limit is checked and the count logged, lib/server.go:587, 594 -/
  | accept (k : Nat) : StayProg ssh (.accept k) [read connCount, read connCount]
  /-- the two files are fetched, cmd/stayrtr/stayrtr.go:566-605, 812-853 -/
  | fetch : StayProg ssh .updater [fork, join]
  /-- `s.lastchange.IsZero()`, cmd/stayrtr/stayrtr.go:532, 546 -/
  | zero : StayProg ssh .updater [read lastchange]
  /-- the data are looked at, cmd/stayrtr/stayrtr.go:336-361, 373-398 -/
  | process : StayProg ssh .updater [read lastdata, read slurm]
  /-- `CountSDs`, lib/server.go:344-349 -/
  | count : StayProg ssh .updater [rlock sdlock, read sdCurrent, runlock sdlock]
  /-- `AddData`, lib/server.go:351-361 -/
  | addData : StayProg ssh .updater [rlock sdlock, read sdCurrent, runlock sdlock]
  /-- `AddSDsDiff`, lib/server.go:371-393 -/
  | addDiff : StayProg ssh .updater [rlock sdlock, read sdListDiff, read sdCurrent, runlock sdlock, lock sdlock, read sdCurrentSerial, read sdCurrent, write sdListDiff, write sdCurrent, write sdCurrentSerial, unlock sdlock]
  /-- `GetCurrentSerial`, lib/server.go:325-334 -/
  | serial : StayProg ssh .updater [rlock sdlock, read sdCurrentSerial, read sdCurrent, runlock sdlock]
  /-- `GetClientList`, lib/server.go:623-629 -/
  | clientList : StayProg ssh .updater [rlock clientlock, read clients, runlock clientlock]
  /-- a client is notified: `GetVersion` and `SendPDU`, lib/server.go:635, 1016 -/
  | notify (i : Nat) : StayProg ssh .updater [read (version i), read (version i)]
  /-- the export, cmd/stayrtr/stayrtr.go:434-443 -/
  | exports : StayProg ssh .updater [lock lockJson, read lastdata, write exported, unlock lockJson]
  /-- `UpdateMetrics`, cmd/stayrtr/stayrtr.go:455 -/
  | metrics : StayProg ssh .updater [read lastchange, read lastts]
  /-- the age of the export, cmd/stayrtr/stayrtr.go:615 -/
  | tooOld : StayProg ssh .updater [read exported]
  /-- `updateFile`, the fetch fails, cmd/stayrtr/stayrtr.go:464-468 -/
  | fileFails : StayProg ssh .fetchCache [write lastts, done]
  /-- the file is the same, cmd/stayrtr/stayrtr.go:470-482 -/
  | fileSame : StayProg ssh .fetchCache [write lastts, read lastts, read lasthashCache, done]
  /-- the file cannot be decoded, cmd/stayrtr/stayrtr.go:484-490 -/
  | fileBad : StayProg ssh .fetchCache [write lastts, read lastts, read lasthashCache, read lasthashCache, write lasthashCache, done]
  /-- the file is taken, cmd/stayrtr/stayrtr.go:492-495 -/
  | fileOk : StayProg ssh .fetchCache [write lastts, read lastts, read lasthashCache, read lasthashCache, write lasthashCache, write lastchange, write lastdata, done]
  /-- no SLURM file, or the fetch fails, cmd/stayrtr/stayrtr.go:570, 500-503 -/
  | slurmFails : StayProg ssh .fetchSlurm [done]
  /-- the file is the same, cmd/stayrtr/stayrtr.go:504-517 -/
  | slurmSame : StayProg ssh .fetchSlurm [read lastts, read lasthashSlurm, done]
  /-- the file cannot be decoded, cmd/stayrtr/stayrtr.go:518-526 -/
  | slurmBad : StayProg ssh .fetchSlurm [read lastts, read lasthashSlurm, read lasthashCache, write lasthashSlurm, done]
  /-- the file is taken, cmd/stayrtr/stayrtr.go:527 -/
  | slurmOk : StayProg ssh .fetchSlurm [read lastts, read lasthashSlurm, read lasthashCache, write lasthashSlurm, write slurm, done]
  /-- `exporter`, cmd/stayrtr/stayrtr.go:632-634 -/
  | http (k : Nat) : StayProg ssh (.http k) [rlock lockJson, read exported, runlock lockJson]

/-- The goroutines that are waited for, cmd/stayrtr/stayrtr.go:566-605, 812-853. -/
def stayChild : StayGo → Bool
  | .fetchCache => true
  | .fetchSlurm => true
  | _ => false

/-! ### rtrmon -/

/-- The locks of rtrmon: cmd/rtrmon/rtrmon.go:231, 233, 644. The flag tells the source: primary or secondary. -/
inductive MonLock where
  | comp (k : Bool)
  | compRtr (k : Bool)
  | diff
  deriving DecidableEq, Repr

/-- The fields of rtrmon that change: of source `k` (cmd/rtrmon/rtrmon.go:218-243), of its session `n` (lib/client.go:20-22), of the comparator (644-647, one field here), and the
`Visible` of the records of source `k` (cmd/rtrmon/rtrmon.go:729). -/
inductive MonField where
  | serial (k : Bool)
  | sessionID (k : Bool)
  | qrtr (k : Bool)
  | unlock (k : Bool)
  | lastUpdate (k : Bool)
  | vrps (k : Bool)
  | vrpsRtr (k : Bool)
  | intervals (k : Bool)
  | sessVersion (k : Bool) (n : Nat)
  | sessConnected (k : Bool) (n : Nat)
  | published
  | visible (k : Bool)
  deriving DecidableEq, Repr

/-- The goroutines of rtrmon (cmd/rtrmon/rtrmon.go:316, 898-907, 1006, lib/client.go:106). -/
inductive MonGoro where
  /-- `Client.Start` of a source, cmd/rtrmon/rtrmon.go:254-360, 898-905 -/
  | source (k : Bool)
  /-- `continuousRTR` of one session, cmd/rtrmon/rtrmon.go:316, 595-613 -/
  | ticker (k : Bool) (n : Nat)
  /-- `sendLoop` of one session, lib/client.go:77-88 -/
  | sender (k : Bool) (n : Nat)
  /-- `Compare`, cmd/rtrmon/rtrmon.go:907, 763-889 -/
  | comparator
  /-- a request for the page, cmd/rtrmon/rtrmon.go:741-761 -/
  | http (j : Nat)
  deriving DecidableEq, Repr

open MonLock MonField ROp in
/-- The pieces of code of each goroutine of rtrmon; `rtr k`: source `k` is an RTR server, otherwise it is a file (cmd/rtrmon/rtrmon.go:254-360, 467-632, 741-889, lib/client.go:55-150). -/
inductive MonProg (rtr : Bool → Bool) : MonGoro → List (ROp MonLock MonField) → Prop
  /-- the channels of a new session, cmd/rtrmon/rtrmon.go:313-314 -/
  | session (k : Bool) (h : rtr k = true) : MonProg rtr (.source k) [write (qrtr k), write (unlock k)]
  /-- `c.connected = true` and `close(c.unlock)`, lib/client.go:137, cmd/rtrmon/rtrmon.go:570 -/
  | connect (k : Bool) (n : Nat) (h : rtr k = true) : MonProg rtr (.source k) [write (sessConnected k n), read (unlock k)]
  /-- `SendPDU`, lib/client.go:68-71 -/
  | send (k : Bool) (n : Nat) (h : rtr k = true) : MonProg rtr (.source k) [read (sessVersion k n)]
  /-- `for c.connected`, lib/client.go:110 -/
  | loop (k : Bool) (n : Nat) (h : rtr k = true) : MonProg rtr (.source k) [read (sessConnected k n)]
  /-- the downgrade, lib/client.go:119-124 -/
  | downgrade (k : Bool) (n : Nat) (h : rtr k = true) : MonProg rtr (.source k) [read (sessVersion k n), write (sessVersion k n)]
  /-- a prefix or a key, cmd/rtrmon/rtrmon.go:479-487, 498-506, 520-528 -/
  | data (k : Bool) (h : rtr k = true) : MonProg rtr (.source k) [lock (compRtr k), write (vrpsRtr k), ROp.unlock (compRtr k)]
  /-- End of Data, cmd/rtrmon/rtrmon.go:532-547 -/
  | endOfData (k : Bool) (h : rtr k = true) : MonProg rtr (.source k)
      [lock (compRtr k), write (serial k), read (vrpsRtr k), ROp.unlock (compRtr k), lock (comp k), write (vrps k), write (intervals k), write (lastUpdate k), ROp.unlock (comp k)]
  /-- Cache Response, cmd/rtrmon/rtrmon.go:558 -/
  | response (k : Bool) (h : rtr k = true) : MonProg rtr (.source k) [write (sessionID k)]
  /-- `Disconnect` with `ClientDisconnected`, lib/client.go:91, cmd/rtrmon/rtrmon.go:583-585 -/
  | disconnect (k : Bool) (n : Nat) (h : rtr k = true) : MonProg rtr (.source k) [write (sessConnected k n), read (qrtr k), read (qrtr k)]
  /-- the end of a session, cmd/rtrmon/rtrmon.go:324 -/
  | quit (k : Bool) (h : rtr k = true) : MonProg rtr (.source k) [read (qrtr k)]
  /-- a file that was fetched anew, `BuildNewVrpMap`, cmd/rtrmon/rtrmon.go:347-355, 376-434 -/
  | build (k : Bool) (h : rtr k = false) : MonProg rtr (.source k) [read (vrps k), read (visible k), write (visible k), lock (comp k), write (vrps k), write (lastUpdate k), ROp.unlock (comp k)]
  /-- a file that was not modified, `UpdateCurrentVrpMap`, cmd/rtrmon/rtrmon.go:338, 352-355 -/
  | same (k : Bool) (h : rtr k = false) : MonProg rtr (.source k) [read (vrps k), read (visible k), lock (comp k), write (vrps k), write (lastUpdate k), ROp.unlock (comp k)]
  /-- the first `select`, cmd/rtrmon/rtrmon.go:599-603 -/
  | first (k : Bool) (n : Nat) (h : rtr k = true) : MonProg rtr (.ticker k n) [read (unlock k), read (qrtr k)]
  /-- the `select` of the loop, cmd/rtrmon/rtrmon.go:606-608 -/
  | wait (k : Bool) (n : Nat) (h : rtr k = true) : MonProg rtr (.ticker k n) [read (qrtr k)]
  /-- a Serial Query, cmd/rtrmon/rtrmon.go:610, lib/client.go:69 -/
  | query (k : Bool) (n : Nat) (h : rtr k = true) : MonProg rtr (.ticker k n) [read (sessionID k), read (serial k), read (sessVersion k n)]
  /-- `for c.connected`, lib/client.go:78 -/
  | sender (k : Bool) (n : Nat) (h : rtr k = true) : MonProg rtr (.sender k n) [read (sessConnected k n)]
  /-- `GetData`, cmd/rtrmon/rtrmon.go:615-634 -/
  | getData (k : Bool) : MonProg rtr .comparator [rlock (comp k), read (vrps k), read (serial k), read (sessionID k), read (intervals k), read (lastUpdate k), runlock (comp k)]
  /-- `Diff`, both ways, cmd/rtrmon/rtrmon.go:691-701, 778-779 -/
  | compare : MonProg rtr .comparator [read (visible true), read (visible false)]
  /-- the difference is published and counted, cmd/rtrmon/rtrmon.go:781-861 -/
  | publish : MonProg rtr .comparator [lock MonLock.diff, write published, read (visible true), read (visible false), ROp.unlock MonLock.diff]
  /-- `ServeDiff`, cmd/rtrmon/rtrmon.go:744-750 -/
  | page (j : Nat) : MonProg rtr (.http j) [rlock MonLock.diff, read published, runlock MonLock.diff]
  /-- the page is encoded, cmd/rtrmon/rtrmon.go:751-760 -/
  | encode (j : Nat) : MonProg rtr (.http j) [read (visible true), read (visible false)]

/-- Nobody is waited for before anything is compared (cmd/rtrmon/rtrmon.go:896-911). -/
def monChild : MonGoro → Bool := fun _ => false

end StayRTR
