import Verif.Model.Update

/-!
# The lists of the refresh loop as memory

`FilterAssert` appends to the slice it is given (prefixfile/slurm.go:250-251). Without filters that is the slice of the loaded file (prefixfile/slurm.go:97, 136), so its array may be written to, and the
array may be the one of the list that is exported (cmd/stayrtr/stayrtr.go:434-443). `Model/Update.lean` has lists as values; here they are slices of arrays, and all else is as there.

An array is a list, its length being the capacity; all slices used here start at the beginning of their array. What is in an array after the elements a slice was made for, and how much `append` allocates,
is left open: the contents of the spare room are an input of every step.
-/

namespace StayRTR

/-- A slice: an array and a length (prefixfile/prefixfile.go:13-14). -/
structure MSlice where
  addr : Nat
  len : Nat
  deriving DecidableEq, Repr

/-- The arrays allocated so far, by address (the arrays behind prefixfile/prefixfile.go:13-14). -/
abbrev Mem (α : Type) := List (List α)

namespace Mem

variable {α : Type}

/-- The array at an address (behind prefixfile/prefixfile.go:13-14). -/
def array (m : Mem α) (a : Nat) : List α := (m[a]?).getD []

/-- The elements of a slice (`range`, cmd/stayrtr/stayrtr.go:224, prefixfile/slurm.go:99). -/
def read (m : Mem α) (s : MSlice) : List α := (m.array s.addr).take s.len

/-- A new array, with spare room (`json.Unmarshal`, cmd/stayrtr/stayrtr.go:186; `make`, prefixfile/slurm.go:94; `append`, 250). -/
def alloc (m : Mem α) (l spare : List α) : Mem α × MSlice := (m ++ [l ++ spare], ⟨m.length, l.length⟩)

/-- Elements written into an array from an index on (`append` within the capacity, prefixfile/slurm.go:250-251). -/
def overwrite (l : List α) (n : Nat) (xs : List α) : List α := l.take n ++ xs ++ l.drop (n + xs.length)

/-- `append(s, xs...)`, prefixfile/slurm.go:250-251: in place if the capacity is enough, else into a new array. -/
def append (m : Mem α) (s : MSlice) (xs spare : List α) : Mem α × MSlice :=
  if s.len + xs.length ≤ (m.array s.addr).length then (m.set s.addr (overwrite (m.array s.addr) s.len xs), ⟨s.addr, s.len + xs.length⟩)
  else m.alloc (m.read s ++ xs) spare

end Mem

/-- The spare room of the arrays allocated in one refresh: on loading (cmd/stayrtr/stayrtr.go:186), on filtering (prefixfile/slurm.go:127, 188), and on appending (prefixfile/slurm.go:250-251). -/
structure Spare where
  loadV : List VRPJson
  filterV : List VRPJson
  growV : List VRPJson
  loadK : List BgpSecKeyJson
  filterK : List BgpSecKeyJson
  growK : List BgpSecKeyJson

/-- `state` (cmd/stayrtr/stayrtr.go:667-689) with the lists of `lastdata` and `exported` as slices; `none` is a nil slice. In `u` those four lists are never consulted: they are what `Model/Update.lean` takes them for. -/
structure MState where
  u : UState
  memV : Mem VRPJson
  memK : Mem BgpSecKeyJson
  roas : Option MSlice
  keys : Option MSlice
  exportedRoas : Option MSlice
  exportedKeys : Option MSlice

namespace MState

/-- The initial state, cmd/stayrtr/stayrtr.go:781-796. -/
def init (etags lastModified : Bool) : MState := ⟨UState.init etags lastModified, [], [], none, none, none, none⟩

/-- A file has been decoded into new arrays, cmd/stayrtr/stayrtr.go:184-191, 493. -/
def load (p : Spare) (l : RPKIList) (s : MState) : MState :=
  let (memV, roas) := match l.roas with
    | some vs => let (m, x) := s.memV.alloc vs p.loadV; (m, some x)
    | none => (s.memV, none)
  let (memK, keys) := match l.keys with
    | some ks => let (m, x) := s.memK.alloc ks p.loadK; (m, some x)
    | none => (s.memK, none)
  { s with memV := memV, memK := memK, roas := roas, keys := keys }

/-- The two fetches of one refresh, as `fetchBoth`, cmd/stayrtr/stayrtr.go:564-605. -/
def fetch (e : Env) (t : Times) (f : Fetched) (p : Spare) (s : MState) : MState × Bool :=
  let (u, slurmUpdated) := match f.slurm with
    | some (file, o) => updateSlurm e file o s.u
    | none => (s.u, false)
  let (u, cacheUpdated) := updateFile e t.start t.change f.file f.cache u
  let s := { s with u := u }
  (if cacheUpdated then s.load p u.lastdata else s, cacheUpdated || slurmUpdated)

/-- The VRPs after `FilterAssert`, prefixfile/slurm.go:93-131, 243-251: the slice of the file, or a new one, appended to. -/
def filterAssertV (wide : WideFloat) (c : Slurm) (p : Spare) (m : Mem VRPJson) (x : MSlice) : Mem VRPJson × MSlice :=
  let (m, x) := if c.prefixFilters = [] then (m, x) else m.alloc (Slurm.filterOnVRPs wide c.prefixFilters (m.read x)).1 p.filterV
  m.append x (Slurm.assertVRPs c.prefixAssertions) p.growV

/-- The router keys after `FilterAssert`, prefixfile/slurm.go:133-192, 243-251. -/
def filterAssertK (c : Slurm) (p : Spare) (m : Mem BgpSecKeyJson) (x : MSlice) : Mem BgpSecKeyJson × MSlice :=
  let (m, x) := if c.bgpsecFilters = [] then (m, x) else m.alloc (Slurm.filterOnBRKs c.bgpsecFilters (m.read x)).1 p.filterK
  m.append x (Slurm.assertBRKs c.bgpsecAssertions) p.growK

/-- The lists after local exceptions, cmd/stayrtr/stayrtr.go:336-343, 360-362, 373-380, 397-399: absent router keys are an empty slice. -/
def withSlurm (e : Env) (p : Spare) (s : MState) (x : MSlice) : Mem VRPJson × Mem BgpSecKeyJson × MSlice × MSlice :=
  let (memK, y) := match s.keys with
    | some y => (s.memK, y)
    | none => s.memK.alloc [] []
  match s.u.slurm with
  | some c =>
    let (memV, x) := filterAssertV e.wide c p s.memV x
    let (memK, y) := filterAssertK c p memK y
    (memV, memK, x, y)
  | none => (s.memV, memK, x, y)

/-- `applyUpdateFromNewState`, cmd/stayrtr/stayrtr.go:410-459: the slices are exported if there is a difference. -/
def apply (e : Env) (r : Processed) (x y : MSlice) (s : MState) : MState :=
  let changed := (s.u.store.addData r.sds).2
  { s with
    u := applyUpdate e r (s.memV.read x) (s.memK.read y) s.u
    exportedRoas := if changed then some x else s.exportedRoas
    exportedKeys := if changed then some y else s.exportedKeys }

/-- `updateFromNewState`, cmd/stayrtr/stayrtr.go:335-369, and, if `reload`, `reloadFromCurrentState`, 372-408, which does nothing if the number of records is the same. -/
def update (e : Env) (p : Spare) (check proc : Int) (reload : Bool) (s : MState) : MState × AgeCheck :=
  match s.roas with
  | none => (s, .fine)
  | some x =>
    match ageCheck e check s.u.lastdata.metadata with
    | .fine =>
      let (memV, memK, x, y) := s.withSlurm e p x
      let r := processData e.wide e.sort (unix proc) (memV.read x) (memK.read y)
      let s := { s with memV := memV, memK := memK }
      let count := r.vrps.length + r.brks.length
      if reload = true ∧ s.u.store.countSDs = count then (s, .fine) else (s.apply e r x y, .fine)
    | bad => (s, bad)

/-- What follows the fetches, as `afterFetch`, cmd/stayrtr/stayrtr.go:607-627. -/
def afterFetch (e : Env) (t : Times) (p : Spare) (fresh : Bool) (s : MState) : MState :=
  if fresh then
    let (s, res) := s.update e p t.check t.proc false
    match res with
    | .tooOld =>
      match exportedBuildTime e s.u with
      | some b => if t.drop - b > day then { s with u := { s.u with store := (s.u.store.addData []).1 } } else s
      | none => s
    | _ => s
  else (s.update e p t.check t.proc true).1

/-- One pass of the loop of `routineUpdate`, cmd/stayrtr/stayrtr.go:564-627. -/
def refresh (e : Env) (t : Times) (f : Fetched) (p : Spare) (s : MState) : MState :=
  let (s, fresh) := s.fetch e t f p
  s.afterFetch e t p fresh

/-- The start of the program, cmd/stayrtr/stayrtr.go:812-859. -/
def startup (e : Env) (t : Times) (f : Fetched) (p : Spare) (s : MState) : MState :=
  let (s, _) := s.fetch e t f p
  (s.update e p t.check t.proc false).1

/-- The lists `exporter` encodes, cmd/stayrtr/stayrtr.go:630-637: the slices are taken under the lock in the state `s`, the arrays read without it, here in the state `now`. -/
def exporter (s now : MState) : Option (List VRPJson) × Option (List BgpSecKeyJson) :=
  (s.exportedRoas.map now.memV.read, s.exportedKeys.map now.memK.read)

end MState

end StayRTR
