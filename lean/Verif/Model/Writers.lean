import Verif.Model.Store

/-!
# Several goroutines that call `AddData`

`AddData` and `AddSDsDiff` take the lock `sdlock` three times (lib/server.go:352-361, 372-378, 380-381); what other goroutines do may come in between. Each locked section is one step.
-/

namespace StayRTR

/-- Where a goroutine is in `AddData` (lib/server.go:351-392). -/
inductive WPhase where
  /-- Not in `AddData`. -/
  | idle
  /-- The difference is computed (line 354, 360), `AddSDsDiff` is called (line 366). -/
  | diffed (new diff : List SD)
  /-- The first half of `AddSDsDiff` is done (lines 372-378): `nextDiff` and `newSDCurrent` are computed. -/
  | prepared (new diff : List SD) (nextDiff : List (List SD)) (newCurrent : List SD)
  deriving DecidableEq, Repr

/-- The store and the goroutines, with the sets asked for by the calls that are through, first one first (a ghost of the model); lib/server.go:140-144, 351-392. -/
structure WSys where
  store : Store
  phase : Nat → WPhase
  through : List (List SD)

/-- Nothing has happened (lib/server.go:193-195). -/
def WSys.start (keepDiff : Int) : WSys := ⟨Store.init keepDiff, fun _ => .idle, []⟩

/-- A goroutine changes its place (a helper of the model for lib/server.go:351-392). -/
def WSys.at (s : WSys) (i : Nat) (p : WPhase) : Nat → WPhase := fun j => if j = i then p else s.phase j

/-- The first half of `AddSDsDiff`, lib/server.go:372-378. -/
def Store.prepare (diff : List SD) (s : Store) : List (List SD) × List SD := (s.listDiff.map (applyDiff diff) ++ [[]], applyDiff diff s.current)

/-- The second half of `AddSDsDiff`, lib/server.go:380-392. -/
def Store.commit (diff : List SD) (nextDiff : List (List SD)) (newCurrent : List SD) (s : Store) : Store :=
  let newserial := s.generateSerial
  let nextDiff := nextDiff ++ [diff]
  let nextDiff := if s.keepDiff > 0 ∧ (nextDiff.length : Int) > s.keepDiff
    then nextDiff.drop (nextDiff.length - s.keepDiff.toNat) else nextDiff
  { s with listDiff := nextDiff, current := newCurrent, serial := newserial }

/-- What can happen (lib/server.go:351-392). -/
inductive WStep (s : WSys) : WSys → Prop
  /-- A call whose set is the current one: it is through (lines 352-364). -/
  | same (i : Nat) (new : List SD) (hi : s.phase i = .idle) (h : ((computeDiff new s.store.current false).1 ++ (computeDiff new s.store.current false).2.1).length = 0) :
      WStep s { s with through := s.through ++ [new] }
  /-- A call that has something to change (lines 352-366). -/
  | diff (i : Nat) (new : List SD) (hi : s.phase i = .idle) (h : ((computeDiff new s.store.current false).1 ++ (computeDiff new s.store.current false).2.1).length ≠ 0) :
      WStep s { s with phase := s.at i (.diffed new ((computeDiff new s.store.current false).1 ++ (computeDiff new s.store.current false).2.1)) }
  /-- The first half of `AddSDsDiff` (lines 372-378). -/
  | prepare (i : Nat) (new diff : List SD) (hi : s.phase i = .diffed new diff) :
      WStep s { s with phase := s.at i (.prepared new diff (s.store.prepare diff).1 (s.store.prepare diff).2) }
  /-- The second half (lines 380-392). -/
  | commit (i : Nat) (new diff : List SD) (nextDiff : List (List SD)) (newCurrent : List SD) (hi : s.phase i = .prepared new diff nextDiff newCurrent) :
      WStep s ⟨s.store.commit diff nextDiff newCurrent, s.at i .idle, s.through ++ [new]⟩

/-- Any number of steps (lib/server.go:351-392). -/
inductive WSteps : WSys → WSys → Prop
  | refl (s : WSys) : WSteps s s
  | step {s t u : WSys} (h : WSteps s t) (h' : WStep t u) : WSteps s u

end StayRTR
