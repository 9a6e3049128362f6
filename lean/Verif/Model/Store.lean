import Verif.Model.SD

/-!
# The data part of `Server`

`sdListDiff`, `sdCurrent`, `sdCurrentSerial`, `keepDiff` and their operations (lib/server.go:140-144, 295-392).
Only one goroutine updates the data (`routineUpdate`, cmd/stayrtr/stayrtr.go:539), so the read-locked and the
write-locked half of an update see the same data.
-/

namespace StayRTR

/-- The `sd*` fields and `keepDiff` of `Server`, lib/server.go:140-144. -/
structure Store where
  listDiff : List (List SD)
  current : List SD
  serial : U32
  keepDiff : Int
  deriving DecidableEq, Repr

namespace Store

/-- `NewServer`, lib/server.go:193-195; `sdCurrentSerial` starts at 0. -/
def init (keepDiff : Int) : Store := ⟨[], [], 0, keepDiff⟩

/-- `getSDsSerialDiff`, lib/server.go:309-323. `none` is the result `(nil, false)`. The index expression at line 321 can panic. -/
def getSDsSerialDiff (s : Store) (serial : U32) : GoRes (Option (List SD)) :=
  if serial = s.serial then .ok (some [])
  else if serial.toNat > s.serial.toNat then .ok none
  else
    let diff := (s.serial - serial).toNat
    if diff > s.listDiff.length then .ok none
    else GoRes.bind (goIndex s.listDiff (s.listDiff.length - diff)) (fun sd => .ok (some sd))

/-- `getCurrentSerial`, lib/server.go:332-334. -/
def getCurrentSerial (s : Store) : U32 × Bool := (s.serial, s.current.length > 0)

/-- `generateSerial`, lib/server.go:336-342. -/
def generateSerial (s : Store) : U32 := if s.current.length > 0 then s.serial + 1 else s.serial

/-- `CountSDs`, lib/server.go:344-349. -/
def countSDs (s : Store) : Nat := s.current.length

/-- `AddSDsDiff`, lib/server.go:371-392. `make([][]SendableData, len+1)` (line 373) leaves one nil slot after the updated
diffs; `append` (line 384) puts the new diff after it. -/
def addSDsDiff (diff : List SD) (s : Store) : Store :=
  let nextDiff := s.listDiff.map (applyDiff diff) ++ [[]]
  let newCurrent := applyDiff diff s.current
  let newserial := s.generateSerial
  let nextDiff := nextDiff ++ [diff]
  let nextDiff := if s.keepDiff > 0 ∧ (nextDiff.length : Int) > s.keepDiff
    then nextDiff.drop (nextDiff.length - s.keepDiff.toNat) else nextDiff
  { s with listDiff := nextDiff, current := newCurrent, serial := newserial }

/-- `AddData`, lib/server.go:351-369: the new store and the returned boolean. -/
def addData (new : List SD) (s : Store) : Store × Bool :=
  let d := computeDiff new s.current false
  let curDiff := d.1 ++ d.2.1
  if curDiff.length = 0 then (s, false) else (s.addSDsDiff curDiff, true)

/-- A history of `AddData` calls (lib/server.go:351; called from cmd/stayrtr/stayrtr.go:421, 617). -/
def run (s : Store) : List (List SD) → Store
  | [] => s
  | new :: h => run (s.addData new).1 h

end Store

end StayRTR
