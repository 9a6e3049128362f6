import Verif.Model.Time
import Verif.Model.Update

/-!
# Times in 64 bits

`Model/Update.lean` computes with unbounded times. Here are the operations of the package `time` that the age of a file goes through, in the 64 bits they have:
`Unix`, `Add`, `After`, `Since` and `IsZero` (cmd/stayrtr/stayrtr.go:345-358, 382-395, 615-616).

Simplification: a time is its wall clock; the monotonic reading that `time.Now` adds is not looked at when the other time has none, and build times have none.
-/

namespace StayRTR

/-- `time.Time` (cmd/stayrtr/stayrtr.go:345): seconds since year 1 in 64 bits, and nanoseconds. -/
structure GoTime where
  sec : BitVec 64
  nsec : Int
  deriving DecidableEq, Repr

/-- `unixToInternal` of package time: seconds from year 1 to 1970 (cmd/stayrtr/stayrtr.go:347). -/
def unixToInternal : BitVec 64 := 62135596800#64

/-- `time.Unix(s, 0)`, cmd/stayrtr/stayrtr.go:347, 384: the sum may overflow. -/
def goUnix (s : BitVec 64) : GoTime := ⟨s + unixToInternal, 0⟩

/-- `time.Hour * 24`, cmd/stayrtr/stayrtr.go:353, 390, 616. -/
def goDay : BitVec 64 := 86400000000000#64

namespace GoTime

/-- `(*Time).addSec` of package time, in `Add` (cmd/stayrtr/stayrtr.go:353): an overflow is noticed and the largest or smallest time taken. -/
def addSec (t : GoTime) (d : BitVec 64) : BitVec 64 :=
  let sum := t.sec + d
  if (t.sec.slt sum) = (BitVec.slt 0#64 d) then sum
  else if BitVec.slt 0#64 d then BitVec.intMax 64 else -BitVec.intMax 64

/-- `Add`, cmd/stayrtr/stayrtr.go:353, 390. -/
def add (t : GoTime) (d : BitVec 64) : GoTime :=
  let dsec := d.sdiv 1000000000#64
  let nsec := t.nsec + (d.srem 1000000000#64).toInt
  if nsec ≥ 1000000000 then ⟨t.addSec (dsec + 1#64), nsec - 1000000000⟩
  else if nsec < 0 then ⟨t.addSec (dsec - 1#64), nsec + 1000000000⟩
  else ⟨t.addSec dsec, nsec⟩

/-- `After`, cmd/stayrtr/stayrtr.go:354, 391. -/
def after (t u : GoTime) : Bool := u.sec.slt t.sec || (t.sec == u.sec && decide (t.nsec > u.nsec))

/-- `Equal`, used by `Sub` (cmd/stayrtr/stayrtr.go:616). -/
def equal (t u : GoTime) : Bool := t.sec == u.sec && decide (t.nsec = u.nsec)

/-- `Sub`, in `time.Since` (cmd/stayrtr/stayrtr.go:616): a difference that does not fit is cut to the largest or smallest. -/
def sub (t u : GoTime) : BitVec 64 :=
  let d := (t.sec - u.sec) * 1000000000#64 + BitVec.ofInt 64 (t.nsec - u.nsec)
  if (u.add d).equal t then d
  else if u.after t then BitVec.intMin 64
  else BitVec.intMax 64

/-- `IsZero`, cmd/stayrtr/stayrtr.go:616. -/
def isZero (t : GoTime) : Bool := t.sec == 0#64 && decide (t.nsec = 0)

end GoTime

/-- `time.Parse(time.RFC3339, ..)` (cmd/stayrtr/stayrtr.go:345, 382, prefixfile/prefixfile.go:48) in this representation. -/
def goParse (s : Str) : Option GoTime := (timeParse s).map fun t => ⟨BitVec.ofInt 64 (t / 1000000000 + 62135596800), t % 1000000000⟩

/-- The check of the build time, cmd/stayrtr/stayrtr.go:345-358, 382-395. -/
def ageCheckGo (checktime : Bool) (now : GoTime) (text : Str) (generated : Option (BitVec 64)) : AgeCheck :=
  let built := match generated with
    | some g => some (goUnix g)
    | none => goParse text
  if checktime then
    match built with
    | none => .unreadable
    | some b => if now.after (b.add goDay) then .tooOld else .fine
  else .fine

/-- The condition for dropping everything, cmd/stayrtr/stayrtr.go:615-616, prefixfile/prefixfile.go:47-53. -/
def dropsGo (now : GoTime) (text : Str) : Bool :=
  match goParse text with
  | some b => !b.isZero && goDay.slt (now.sub b)
  | none => false

end StayRTR
