import Verif.Spec.Text

/-!
The calendar, and the texts of RFC 3339.
-/

namespace StayRTR.Spec

/-- Leap days of a year of the Gregorian calendar. -/
def leapDays (y : Nat) : Nat := if 400 ∣ y ∨ (4 ∣ y ∧ ¬ 100 ∣ y) then 1 else 0

/-- The number of days of a month. -/
def monthLength (y : Nat) : Nat → Nat
  | 2 => 28 + leapDays y
  | 4 | 6 | 9 | 11 => 30
  | _ => 31

/-- The days from 1 January of the year 0 to 1 January of a year. -/
def daysToYear : Nat → Nat
  | 0 => 0
  | y + 1 => daysToYear y + 365 + leapDays y

/-- The days of the first `n` months of a year. -/
def daysOfMonths (y : Nat) : Nat → Nat
  | 0 => 0
  | n + 1 => daysOfMonths y n + monthLength y (n + 1)

/-- Nanoseconds from the start of 1970 to a time of a day of the calendar, east of Greenwich by some minutes. -/
def instant (year month day hour minute second nanos : Nat) (east : Int) : Int :=
  ((((daysToYear year : Int) - daysToYear 1970 + daysOfMonths year (month - 1) + (day - 1)) * 24 + hour) * 60 + minute - east) * 60000000000 + second * 1000000000 + nanos

/-- `p` consists of `n` digits that denote `v`. -/
def DigitsOf (n : Nat) (p : Str) (v : Nat) : Prop := p.length = n ∧ Denotes p v

/-- A way to write times: RFC 3339, or what Go takes for it. -/
structure Dialect where
  /-- what separates date and time -/
  tee : Char → Prop
  /-- what stands for UTC -/
  zulu : Char → Prop
  /-- what stands before fractions of a second -/
  point : Char → Prop
  /-- whether an hour may have one digit only -/
  shortHour : Prop
  /-- the greatest second -/
  maxSecond : Nat
  /-- the greatest hours and minutes of an offset -/
  maxOffset : Nat × Nat

/-- RFC 3339, section 5.6: `T` and `Z` may be in lower case; there may be leap seconds. -/
def Dialect.rfc3339 : Dialect := ⟨fun c => c = 'T' ∨ c = 't', fun c => c = 'Z' ∨ c = 'z', fun c => c = '.', False, 60, (23, 59)⟩

/-- RFC 3339 in capitals and without leap seconds. -/
def Dialect.plain : Dialect := ⟨fun c => c = 'T', fun c => c = 'Z', fun c => c = '.', False, 59, (23, 59)⟩

/-- What Go reads. -/
def Dialect.go : Dialect := ⟨fun c => c = 'T', fun c => c = 'Z', fun c => c = '.' ∨ c = ',', True, 59, (24, 60)⟩

/-- Fractions of a second, cut off after the nanoseconds. -/
inductive FractionText (d : Dialect) : Str → Nat → Prop
  | none : FractionText d [] 0
  | digits (c : Char) (p : Str) (v : Nat) (hc : d.point c) (h : Denotes p v) : FractionText d (c :: p) (v * 10 ^ 9 / 10 ^ p.length)

/-- An offset in minutes. -/
inductive OffsetText (d : Dialect) : Str → Int → Prop
  | utc (c : Char) (h : d.zulu c) : OffsetText d [c] 0
  | east (p q : Str) (a b : Nat) (hp : DigitsOf 2 p a) (hq : DigitsOf 2 q b) (ha : a ≤ d.maxOffset.1) (hb : b ≤ d.maxOffset.2) : OffsetText d ('+' :: (p ++ ':' :: q)) (60 * a + b)
  | west (p q : Str) (a b : Nat) (hp : DigitsOf 2 p a) (hq : DigitsOf 2 q b) (ha : a ≤ d.maxOffset.1) (hb : b ≤ d.maxOffset.2) : OffsetText d ('-' :: (p ++ ':' :: q)) (-(60 * a + b))

/-- A text denotes a time, in nanoseconds since 1970. -/
inductive TimeText (d : Dialect) : Str → Int → Prop
  | mk (Y M D h m s f z : Str) (tee : Char) (year month day hour minute second nanos : Nat) (east : Int)
    (hY : DigitsOf 4 Y year) (hM : DigitsOf 2 M month) (hD : DigitsOf 2 D day)
    (hh : DigitsOf 2 h hour ∨ (d.shortHour ∧ DigitsOf 1 h hour)) (hm : DigitsOf 2 m minute) (hs : DigitsOf 2 s second)
    (hf : FractionText d f nanos) (hz : OffsetText d z east) (ht : d.tee tee)
    (month1 : 1 ≤ month) (month12 : month ≤ 12) (day1 : 1 ≤ day) (dayMax : day ≤ monthLength year month) (hourMax : hour ≤ 23) (minuteMax : minute ≤ 59) (secondMax : second ≤ d.maxSecond) :
    TimeText d (Y ++ '-' :: (M ++ '-' :: (D ++ tee :: (h ++ ':' :: (m ++ ':' :: (s ++ (f ++ z))))))) (instant year month day hour minute second nanos east)

end StayRTR.Spec
