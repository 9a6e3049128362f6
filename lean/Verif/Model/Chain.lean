import Verif.Model.Json
import Verif.Model.Update

/-!
# Servers that load the export of another server

One server loads files from anywhere. All others are given the URL of the export of another server as their cache file (README.md:241-243; cmd/stayrtr/stayrtr.go:461-496, 631-637, 799-800) and have no local exceptions. What a server
receives is an export that its server answered with at this or an earlier time, or the download fails. Server 0 is the first.
-/

namespace StayRTR

/-- The states of all servers (cmd/stayrtr/stayrtr.go:781-796 each). -/
abbrev Servers := Nat → UState

/-- One server has a new state (cmd/stayrtr/stayrtr.go:564-627). -/
def Servers.upd (σ : Servers) (i : Nat) (s : UState) : Servers := fun j => if j = i then s else σ j

/-- A start (cmd/stayrtr/stayrtr.go:812-859) or a refresh (cmd/stayrtr/stayrtr.go:564-627) of one server. -/
def loadOnce (first : Bool) (e : Env) (t : Times) (f : Fetched) (s : UState) : UState := if first then startup e t f s else refresh e t f s

/-- What all servers have been through, the newest states first. `parent i` is the server whose export server `i` loads (`CacheBin`, cmd/stayrtr/stayrtr.go:83, 817, 974). -/
inductive ServersRun (e : Nat → Env) (parent : Nat → Nat) : List Servers → Prop
  | start (etags lastModified : Nat → Bool) : ServersRun e parent [fun i => UState.init (etags i) (lastModified i)]
  /-- a process is started anew, cmd/stayrtr/stayrtr.go:781-796 -/
  | again {σ : Servers} {h : List Servers} (i : Nat) (etags lastModified : Bool) (r : ServersRun e parent (σ :: h)) : ServersRun e parent (σ.upd i (UState.init etags lastModified) :: σ :: h)
  /-- the first server loads whatever files it finds, cmd/stayrtr/stayrtr.go:461-529 -/
  | lead {σ : Servers} {h : List Servers} (first : Bool) (t : Times) (f : Fetched) (r : ServersRun e parent (σ :: h)) : ServersRun e parent (σ.upd 0 (loadOnce first (e 0) t f (σ 0)) :: σ :: h)
  /-- another one loads the export of its server, at this or an earlier time, or nothing; cmd/stayrtr/stayrtr.go:461-496, 631-637 -/
  | follow {σ : Servers} {h : List Servers} (i : Nat) (hi : i ≠ 0) (first : Bool) (t : Times) (file : Str) (o : Outcome)
      (ho : ((σ i).fetch.fetchFile file o).2.err = none → ∃ τ ∈ σ :: h, ((σ i).fetch.fetchFile file o).2.data = exportFile (τ (parent i)))
      (r : ServersRun e parent (σ :: h)) : ServersRun e parent (σ.upd i (loadOnce first (e i) t ⟨file, o, none⟩ (σ i)) :: σ :: h)

end StayRTR
