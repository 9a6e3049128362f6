import Verif.Model.Flags
import Verif.Model.Json

/-!
# Fractions in durations

The floating point arithmetic of `time.ParseDuration` (used for cmd/rtrmon/rtrmon.go:56, 66, 77): `scale *= 10` for each digit, and `uint64(float64(f) * (float64(unit) / scale))`. A `float64` that is not negative is a fraction of
natural numbers here. Exponents have no bounds: a scale out of range would be infinite and the quotient 0, or the quotient too small for full precision, and the integer 0 in both cases, as it is here (`C158_nearly`).
-/

namespace StayRTR

/-- `n / d`, which is at least 1, rounded to 53 bits, ties to even (used for cmd/rtrmon/rtrmon.go:56, 66, 77). -/
def f64Norm (n d : Nat) : Nat × Nat :=
  let l := Nat.log2 (n / d)
  if l ≤ 52 then (divEven (n * 2 ^ (52 - l)) d, 2 ^ (52 - l)) else (divEven n (d * 2 ^ (l - 52)) * 2 ^ (l - 52), 1)

/-- `n / d` rounded to a `float64` (used for cmd/rtrmon/rtrmon.go:56, 66, 77). -/
def f64 (n d : Nat) : Nat × Nat :=
  if n / d = 0 then
    let s := Nat.log2 (d / n) + 1
    ((f64Norm (n * 2 ^ s) d).1, (f64Norm (n * 2 ^ s) d).2 * 2 ^ s)
  else f64Norm n d

/-- The scale after so many digits, `leadingFraction` of package time (used for cmd/rtrmon/rtrmon.go:56, 66, 77). -/
def fracScale : Nat → Nat × Nat
  | 0 => (1, 1)
  | k + 1 => f64 ((fracScale k).1 * 10) (fracScale k).2

/-- `uint64(float64(f) * (float64(unit) / scale))` of package time (used for cmd/rtrmon/rtrmon.go:56, 66, 77). -/
def goFrac (f k unit : Nat) : Nat :=
  let a := f64 f 1
  let u := f64 unit 1
  let q := f64 (u.1 * (fracScale k).2) (u.2 * (fracScale k).1)
  let p := f64 (a.1 * q.1) (a.2 * q.2)
  p.1 / p.2

end StayRTR
