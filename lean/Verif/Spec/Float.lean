import Verif.Spec.JsonText
import Mathlib.Algebra.Order.Field.Rat
import Mathlib.Algebra.Order.Field.Power

/-!
# What number a JSON number stands for, and what `float64` is next to it

RFC 8259 section 6 and IEEE 754 (binary64, round to nearest, ties to even).
-/

namespace StayRTR.Spec

/-- The exponent of ten at the end of a number. -/
def ExpValue (s : Str) (x : Int) : Prop :=
  (s = [] ∧ x = 0) ∨ ∃ (e : Char) (sign ds : Str) (n : Nat), s = e :: (sign ++ ds) ∧ (e = 'e' ∨ e = 'E') ∧ Denotes ds n ∧ ((sign = [] ∧ x = n) ∨ (sign = ['+'] ∧ x = n) ∨ (sign = ['-'] ∧ x = -n))

/-- The number that a text stands for: sign, digits, digits after a point, exponent of ten. -/
def LitValue (lit : Str) (q : ℚ) : Prop :=
  ∃ (m i p f e : Str) (n : Nat) (x : Int), lit = m ++ (i ++ (p ++ (f ++ e))) ∧ (m = [] ∨ m = ['-']) ∧ (p = [] ∧ f = [] ∨ p = ['.']) ∧ Denotes (i ++ f) n ∧ ExpValue e x ∧
    q = (if m = [] then 1 else -1) * (n * (10 : ℚ) ^ (x - f.length))

/-- A number of 53 significant bits, at least `2 ^ -1074` apart. `2 ^ 1024` stands for infinity. -/
def Float64 (v : ℚ) : Prop := ∃ m k : ℤ, v = m * (2 : ℚ) ^ k ∧ |m| < 2 ^ 53 ∧ -1074 ≤ k ∧ |v| ≤ 2 ^ 1024

/-- A number whose last bit is 0. -/
def EvenFloat (v : ℚ) : Prop := ∃ m k : ℤ, v = m * (2 : ℚ) ^ k ∧ |m| < 2 ^ 52 ∧ -1073 ≤ k

/-- `v` is the `float64` nearest to `q`; if two are equally near, the even one. -/
def Rounded (q v : ℚ) : Prop := Float64 v ∧ ∀ w, Float64 w → w ≠ v → |q - v| < |q - w| ∨ (|q - v| = |q - w| ∧ EvenFloat v)

/-- `v` without its fraction. -/
def Truncated (v : ℚ) (x : Int) : Prop := (0 ≤ v ∧ (x : ℚ) ≤ v ∧ v < x + 1) ∨ (v ≤ 0 ∧ v ≤ x ∧ (x : ℚ) < v + 1)

/-- The number fits a `float64`, and `x` is its integer part. -/
def FloatInt (lit : Str) (x : Int) : Prop := ∃ q v, LitValue lit q ∧ Rounded q v ∧ |v| < 2 ^ 1024 ∧ Truncated v x

/-- Every exponent at the end of the text is below 100000. -/
def SmallExp (lit : Str) : Prop := ∀ (a : Str) (e : Char) (sign ds : Str) (n : Nat), lit = a ++ e :: (sign ++ ds) → (e = 'e' ∨ e = 'E') → (sign = [] ∨ sign = ['+'] ∨ sign = ['-']) → Denotes ds n → n < 100000

/-- The digits of an exponent as they are read: all those after the one with which it comes to 10000 or more are skipped. -/
def ExpDigitsRead (ds : Str) (n : Nat) : Prop := (Denotes ds n ∧ n < 10000) ∨ ∃ a b, ds = a ++ b ∧ Digits ds ∧ Denotes a n ∧ 10000 ≤ n ∧ n < 100000

/-- The exponent of ten at the end of a number, as it is read. -/
def ExpRead (s : Str) (x : Int) : Prop :=
  (s = [] ∧ x = 0) ∨ ∃ (e : Char) (sign ds : Str) (n : Nat), s = e :: (sign ++ ds) ∧ (e = 'e' ∨ e = 'E') ∧ ExpDigitsRead ds n ∧ ((sign = [] ∧ x = n) ∨ (sign = ['+'] ∧ x = n) ∨ (sign = ['-'] ∧ x = -n))

/-- The number that a text is read as; another than the one it stands for only if its exponent is 100000 or more. -/
def LitRead (lit : Str) (q : ℚ) : Prop :=
  ∃ (m i p f e : Str) (n : Nat) (x : Int), lit = m ++ (i ++ (p ++ (f ++ e))) ∧ (m = [] ∨ m = ['-']) ∧ (p = [] ∧ f = [] ∨ p = ['.']) ∧ Denotes (i ++ f) n ∧ ExpRead e x ∧
    q = (if m = [] then 1 else -1) * (n * (10 : ℚ) ^ (x - f.length))

/-- The number that the text is read as fits a `float64`, and `x` is its integer part. -/
def FloatRead (lit : Str) (x : Int) : Prop := ∃ q v, LitRead lit q ∧ Rounded q v ∧ |v| < 2 ^ 1024 ∧ Truncated v x

end StayRTR.Spec
