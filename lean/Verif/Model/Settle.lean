import Verif.Model.Chain
import Verif.Spec.Update

/-!
# Servers behind a server whose export stays

What follows when the first server's export no longer changes: the others load the present export of their server (cmd/stayrtr/stayrtr.go:461-496, 631-637), or fail to.
-/

namespace StayRTR
open Spec

/-- A server's clock has moved on (cmd/stayrtr/stayrtr.go:354, 391). -/
def clockTo (clock : Nat → Int) (i : Nat) (t : Int) : Nat → Int := fun j => if j = i then t else clock j

/-- A server that has fetched its local exceptions, if it is told to, cmd/stayrtr/stayrtr.go:498-529, 571-588. -/
def afterExceptions (e : Env) (f : Fetched) (s : UState) : UState :=
  match f.slurm with
  | some (file, o) => (updateSlurm e file o s).1
  | none => s

/-- `ServersRun` with local exceptions at all servers, and with the times at which the servers behind the first one looked at the age of what they have loaded (cmd/stayrtr/stayrtr.go:354, 391), which do not go back. -/
inductive ServersAt (e : Nat → Env) (parent : Nat → Nat) : (Nat → Int) → List Servers → Prop
  | start (clock : Nat → Int) (etags lastModified : Nat → Bool) : ServersAt e parent clock [fun i => UState.init (etags i) (lastModified i)]
  /-- a process is started anew, perhaps with another clock, cmd/stayrtr/stayrtr.go:781-796 -/
  | again {clock : Nat → Int} {σ : Servers} {h : List Servers} (i : Nat) (etags lastModified : Bool) (now : Int) (r : ServersAt e parent clock (σ :: h)) :
      ServersAt e parent (clockTo clock i now) (σ.upd i (UState.init etags lastModified) :: σ :: h)
  /-- the first server loads whatever files it finds, cmd/stayrtr/stayrtr.go:461-529 -/
  | lead {clock : Nat → Int} {σ : Servers} {h : List Servers} (first : Bool) (t : Times) (f : Fetched) (r : ServersAt e parent clock (σ :: h)) : ServersAt e parent clock (σ.upd 0 (loadOnce first (e 0) t f (σ 0)) :: σ :: h)
  /-- another one loads the export of its server, at this or an earlier time, or nothing, and any local exceptions; cmd/stayrtr/stayrtr.go:461-529, 631-637 -/
  | follow {clock : Nat → Int} {σ : Servers} {h : List Servers} (i : Nat) (hi : i ≠ 0) (first : Bool) (t : Times) (ht : clock i ≤ t.check) (f : Fetched)
      (ho : ((afterExceptions (e i) f (σ i)).fetch.fetchFile f.file f.cache).2.err = none → ∃ τ ∈ σ :: h, ((afterExceptions (e i) f (σ i)).fetch.fetchFile f.file f.cache).2.data = exportFile (τ (parent i)))
      (r : ServersAt e parent clock (σ :: h)) : ServersAt e parent (clockTo clock i t.check) (σ.upd i (loadOnce first (e i) t f (σ i)) :: σ :: h)

/-- Loads of the servers (cmd/stayrtr/stayrtr.go:564-627), one after the other, when a server has the local exceptions `exc` after it loaded; the list has the servers that received an export, in order. -/
inductive Settling (e : Nat → Env) (parent : Nat → Nat) (exc : Nat → Option Slurm) (clock₀ : Nat → Int) (σ₀ : Servers) : (Nat → Int) → Servers → List Nat → Prop
  | start : Settling e parent exc clock₀ σ₀ clock₀ σ₀ []
  /-- the first server loads what leaves its export as it is, cmd/stayrtr/stayrtr.go:410-459, 564-627 -/
  | lead {clock : Nat → Int} {σ : Servers} {l : List Nat} (first : Bool) (t : Times) (f : Fetched) (hx : (loadOnce first (e 0) t f (σ 0)).exported = (σ 0).exported) (h : Settling e parent exc clock₀ σ₀ clock σ l) :
      Settling e parent exc clock₀ σ₀ clock (σ.upd 0 (loadOnce first (e 0) t f (σ 0))) l
  /-- another one receives the export of its server, which is not too old for it, cmd/stayrtr/stayrtr.go:349-358, 461-529, 631-637 -/
  | load {clock : Nat → Int} {σ : Servers} {l : List Nat} (i : Nat) (hi : i ≠ 0) (first : Bool) (t : Times) (ht : clock i ≤ t.check) (f : Fetched)
      (hdel : delivered (afterExceptions (e i) f (σ i)).fetch f.file f.cache = some (exportFile (σ (parent i)))) (hexc : (loadOnce first (e i) t f (σ i)).slurm = exc i) (hlen : ((σ (parent i)).exported.roas.getD []).length < 2 ^ 63)
      (hage : (e i).checktime = true → ∃ b, (e i).parseTime (σ (parent i)).exported.metadata.buildtime = some b ∧ t.check ≤ b + 24 * 3600 * 1000000000)
      (h : Settling e parent exc clock₀ σ₀ clock σ l) : Settling e parent exc clock₀ σ₀ (clockTo clock i t.check) (σ.upd i (loadOnce first (e i) t f (σ i))) (l ++ [i])
  /-- another one receives no file, and no local exceptions, or those it has while its file is not too old, cmd/stayrtr/stayrtr.go:349-358, 466-470, 503-510, 592-619 -/
  | fail {clock : Nat → Int} {σ : Servers} {l : List Nat} (i : Nat) (hi : i ≠ 0) (first : Bool) (t : Times) (ht : clock i ≤ t.check) (f : Fetched)
      (hdel : delivered (afterExceptions (e i) f (σ i)).fetch f.file f.cache = none) (hno : (fetchBoth (e i) t f (σ i)).2 = false ∨
        (loadOnce first (e i) t f (σ i)).slurm = (σ i).slurm ∧ ((e i).checktime = true → Fresh (e i) (σ i).lastdata t.check))
      (h : Settling e parent exc clock₀ σ₀ clock σ l) : Settling e parent exc clock₀ σ₀ (clockTo clock i t.check) (σ.upd i (loadOnce first (e i) t f (σ i))) l

end StayRTR
