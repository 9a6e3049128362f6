import Verif.Model.Store
import Verif.Spec.Records

/-!
# Histories of a store

`Evolves k s t`: starting from a new server with `KeepDifference = k`, calls of `AddData` with lists of valid records led to
`s`; `t` records every set that was served, newest first, with the serial number it was served under.
-/

namespace StayRTR

inductive Evolves (k : Int) : Store → List (U32 × List SD) → Prop where
  | init : Evolves k (Store.init k) [(0, [])]
  | add {s t} (new : List SD) (h : Evolves k s t) (hv : AllValid new) :
      Evolves k (s.addData new).1
        (if (s.addData new).2 then ((s.addData new).1.serial, (s.addData new).1.current) :: t else t)

/-- An update list announces / withdraws a record. -/
def Announces (l : List SD) (r : Rec) : Prop := ∃ x ∈ l, x.record = r ∧ x.getFlag = 1
def Withdraws (l : List SD) (r : Rec) : Prop := ∃ x ∈ l, x.record = r ∧ x.getFlag = 0

/-- What the code's composition of changes makes of a window of served sets (newest first):
a record is announced when it is in the newest set and was absent at some earlier point of the window;
it is withdrawn when it was in the set up to some point of the window and never after. -/
structure DescribesWindow (l : List SD) (w : List (List SD)) : Prop where
  announced : ∀ r, Announces l r ↔ ∃ c rest, w = c :: rest ∧ r ∈ records c ∧ ∃ o ∈ rest, r ∉ records o
  withdrawn : ∀ r, Withdraws l r ↔ ∃ newer older, w = newer ++ older ∧ newer ≠ [] ∧ older ≠ [] ∧
    (∀ c ∈ newer, r ∉ records c) ∧ (∀ c ∈ older, r ∈ records c)

/-- The number of most recent changes that are covered by the answer to a serial query at distance `d`. -/
def changesCovered (d : Nat) : Nat := if d % 2 = 1 then (d + 1) / 2 else d / 2 - 1

end StayRTR
