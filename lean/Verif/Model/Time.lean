import Verif.Model.Parse

/-!
`time.Parse(time.RFC3339, ..)` of Go 1.23 (the toolchain of go.mod), as used by `GetBuildTime` (prefixfile/prefixfile.go:47-53) and the checks of the build time (cmd/stayrtr/stayrtr.go:345, 382):
first `parseRFC3339`, and where that fails the general `parse` with the layout `2006-01-02T15:04:05Z07:00`. Times are nanoseconds since 1970, as integers; the location is not kept, since
only instants are compared. Texts are lists of characters: a character outside of ASCII is refused wherever it stands, as its bytes would be.
-/

namespace StayRTR

/-- `isDigit(s, i)`, package time (prefixfile/prefixfile.go:48). -/
def timeDigit (s : Str) (i : Nat) : Bool :=
  match s[i]? with
  | some c => isDec c
  | none => false

/-- The loop of `parseUint` of `parseRFC3339`, and of `leadingInt` (prefixfile/prefixfile.go:48). -/
def timeUint (s : Str) : Option Nat := if s.all isDec then some (decVal s) else none

/-- `parseUint` of `parseRFC3339`, package time (prefixfile/prefixfile.go:48): a number between two bounds. -/
def parseUint (s : Str) (min max : Nat) : Option Nat :=
  match timeUint s with
  | some x => if x < min ∨ max < x then none else some x
  | none => none

/-- `isLeap`, package time (prefixfile/prefixfile.go:48). -/
def isLeap (year : Nat) : Bool := year % 4 = 0 ∧ (year % 100 ≠ 0 ∨ year % 400 = 0)

/-- `daysBefore`, package time (prefixfile/prefixfile.go:48). -/
def daysBefore (month : Nat) : Nat := [0, 31, 59, 90, 120, 151, 181, 212, 243, 273, 304, 334, 365].getD month 0

/-- `daysIn`, package time (prefixfile/prefixfile.go:48). -/
def daysIn (month year : Nat) : Nat :=
  if month = 2 ∧ isLeap year then 29 else daysBefore month - daysBefore (month - 1)

/-- `daysSinceEpoch`, package time (prefixfile/prefixfile.go:48): days since the year -292277022399, by cycles of 400, 100 and 4 years. -/
def daysSinceEpoch (year : Nat) : Nat :=
  let y := year + 292277022399
  let n400 := y / 400
  let y := y - 400 * n400
  let n100 := y / 100
  let y := y - 100 * n100
  let n4 := y / 4
  let y := y - 4 * n4
  146097 * n400 + 36524 * n100 + 1461 * n4 + 365 * y

/-- `absoluteToInternal + internalToUnix` in seconds, package time (prefixfile/prefixfile.go:48). -/
def absoluteToUnix : Int := -(292277022400 * 146097 / 400) * 86400 - (1969 * 365 + 1969 / 4 - 1969 / 100 + 1969 / 400) * 86400

/-- `Date` in UTC with all fields in their ranges (no overflow to be normalised), package time (prefixfile/prefixfile.go:48); nanoseconds since 1970. -/
def timeDate (year month day hour min sec nsec : Nat) : Int :=
  let d := daysSinceEpoch year + daysBefore (month - 1)
  let d := if isLeap year ∧ 3 ≤ month then d + 1 else d
  let d := d + (day - 1)
  let abs := d * 86400 + (hour * 3600 + min * 60 + sec)
  ((abs : Int) + absoluteToUnix) * 1000000000 + nsec

/-- `for ; n < len(s) && isDigit(s, n); n++`, package time (prefixfile/prefixfile.go:48): the digits at the start. -/
def leadingDigits (s : Str) : Str := s.takeWhile isDec

/-- `parseNanoseconds` on the digits after the point, package time (prefixfile/prefixfile.go:48): at most nine count, fewer are scaled. -/
def parseNanoseconds (digits : Str) : Nat :=
  let digits := digits.take 9
  (timeUint digits).getD 0 * 10 ^ (9 - digits.length)

/-- The fractional second of `parseRFC3339`, package time (prefixfile/prefixfile.go:48), and the rest. -/
def fastFraction (s : Str) : Nat × Str :=
  match s with
  | '.' :: s' => if timeDigit s' 0 then (parseNanoseconds (leadingDigits s'), s'.drop (leadingDigits s').length) else (0, s)
  | _ => (0, s)

/-- `parseRFC3339`, package time (prefixfile/prefixfile.go:48). -/
def parseRFC3339 (s : Str) : Option Int :=
  if s.length < 19 then none else do
    let year ← parseUint (s.take 4) 0 9999
    let month ← parseUint ((s.drop 5).take 2) 1 12
    let day ← parseUint ((s.drop 8).take 2) 1 (daysIn month year)
    let hour ← parseUint ((s.drop 11).take 2) 0 23
    let min ← parseUint ((s.drop 14).take 2) 0 59
    let sec ← parseUint ((s.drop 17).take 2) 0 59
    if ¬ (s[4]? = some '-' ∧ s[7]? = some '-' ∧ s[10]? = some 'T' ∧ s[13]? = some ':' ∧ s[16]? = some ':') then none else
    let (nsec, s) := fastFraction (s.drop 19)
    let t := timeDate year month day hour min sec nsec
    if s = ['Z'] then some t
    else if s.length ≠ 6 then none else do
      let hr ← parseUint ((s.drop 1).take 2) 0 23
      let mm ← parseUint ((s.drop 4).take 2) 0 59
      if ¬ ((s[0]? = some '-' ∨ s[0]? = some '+') ∧ s[3]? = some ':') then none else
      let off : Int := ((hr * 60 + mm) * 60 : Nat)
      some (if s[0]? = some '-' then t + off * 1000000000 else t - off * 1000000000)

/-- `getnum`, package time (prefixfile/prefixfile.go:48): two digits, or one unless `fixed`. -/
def getnum (s : Str) (fixed : Bool) : Option (Nat × Str) :=
  if !timeDigit s 0 then none
  else if !timeDigit s 1 then (if fixed then none else some (decVal (s.take 1), s.drop 1))
  else some (decVal (s.take 2), s.drop 2)

/-- `skip` of one character that is not a space, package time (prefixfile/prefixfile.go:48). -/
def skipChar (c : Char) : Str → Option Str
  | d :: s => if d = c then some s else none
  | [] => none

/-- `stdLongYear` of `parse`, package time (prefixfile/prefixfile.go:48). -/
def parseLongYear (s : Str) : Option (Nat × Str) :=
  if s.length < 4 ∨ !timeDigit s 0 then none
  else (timeUint (s.take 4)).map (fun y => (y, s.drop 4))

/-- The fractional second that the layout does not have, `stdZeroSecond` of `parse`, package time (prefixfile/prefixfile.go:48). -/
def slowFraction (s : Str) : Nat × Str :=
  match s with
  | c :: s' => if (c = '.' ∨ c = ',') ∧ timeDigit s' 0 then (parseNanoseconds (leadingDigits s'), s'.drop (leadingDigits s').length) else (0, s)
  | [] => (0, s)

/-- `stdISO8601ColonTZ` of `parse`, package time (prefixfile/prefixfile.go:48): the offset in seconds. -/
def parseZone (s : Str) : Option (Int × Str) :=
  if s[0]? = some 'Z' then some (0, s.drop 1)
  else if s.length < 6 then none
  else if s[3]? ≠ some ':' then none
  else do
    let (hr, _) ← getnum ((s.drop 1).take 2) true
    let (mm, _) ← getnum ((s.drop 4).take 2) true
    if hr > 24 then none
    else if mm > 60 then none
    else
      let off : Int := ((hr * 60 + mm) * 60 : Nat)
      if s[0]? = some '+' then some (off, s.drop 6)
      else if s[0]? = some '-' then some (-off, s.drop 6)
      else none

/-- `parse` with the layout `2006-01-02T15:04:05Z07:00`, package time (prefixfile/prefixfile.go:48). -/
def parseLayout (s : Str) : Option Int := do
  let (year, s) ← parseLongYear s
  let s ← skipChar '-' s
  let (month, s) ← getnum s true
  if month = 0 ∨ 12 < month then none else
  let s ← skipChar '-' s
  let (day, s) ← getnum s true
  let s ← skipChar 'T' s
  let (hour, s) ← getnum s false
  if 24 ≤ hour then none else
  let s ← skipChar ':' s
  let (min, s) ← getnum s true
  if 60 ≤ min then none else
  let s ← skipChar ':' s
  let (sec, s) ← getnum s true
  if 60 ≤ sec then none else
  let (nsec, s) := slowFraction s
  let (off, s) ← parseZone s
  if s ≠ [] then none else
  if day < 1 ∨ day > daysIn month year then none else
  some (timeDate year month day hour min sec nsec - off * 1000000000)

/-- `time.Parse(time.RFC3339, ..)`, prefixfile/prefixfile.go:48, cmd/stayrtr/stayrtr.go:345, 382. -/
def timeParse (s : Str) : Option Int :=
  match parseRFC3339 s with
  | some t => some t
  | none => parseLayout s

end StayRTR
