import Mathlib.Data.Real.Basic
import Mathlib.Algebra.Order.Archimedean.Real.Basic
import Mathlib.Data.Int.Log
import Mathlib.Algebra.Order.Round

/-!
# Specification vocabulary: rounded arithmetic

`fl x` is the machine number a correctly rounded operation delivers when its exact result is `x`. Numbers with
`fl x = x` are the machine numbers. IEEE 754 double precision meets the contract in all four rounding directions
(`u = 2⁻⁵³`, `η = 2⁻¹⁰⁷⁵` to nearest, twice that for the directed ones) as long as nothing overflows; `binary64` below is
an instance.
-/

namespace Hrm

/-- What is used of rounding: monotone, exact on machine numbers; 0, 1 and doubled machine numbers are machine numbers;
the difference of two different machine numbers does not round to zero (gradual underflow); the error is at most `u`
relative plus `η` absolute, and relative only for sums and differences of machine numbers. -/
structure Rounding (fl : ℝ → ℝ) (u η : ℝ) : Prop where
  mono : Monotone fl
  idem : ∀ x, fl (fl x) = fl x
  zero : fl 0 = 0
  one : fl 1 = 1
  double : ∀ x, fl x = x → fl (2 * x) = 2 * x
  sub_ne : ∀ x y, fl x = x → fl y = y → x ≠ y → fl (x - y) ≠ 0
  err : ∀ x, |fl x - x| ≤ u * |x| + η
  add_err : ∀ x y, fl x = x → fl y = y → |fl (x + y) - (x + y)| ≤ u * |x + y|
  sub_err : ∀ x y, fl x = x → fl y = y → |fl (x - y) - (x - y)| ≤ u * |x - y|
  u_nonneg : 0 ≤ u
  u_small : u ≤ 1 / 100
  η_nonneg : 0 ≤ η

/-- The bound proved for the error of a computed crossing of a sweep line with a boundary whose abscissas are at most `X` in
absolute value. -/
def crossErr (u η X : ℝ) : ℝ := 13 * u * X + (2 * X + 3) * η

/-- The exponent of the last of 53 binary digits of `x`, at least -1074. -/
noncomputable def lastDigit (x : ℝ) : ℤ := max (Int.log 2 |x| - 52) (-1074)

/-- Rounding to the nearest number with 53 binary digits and exponent at least -1074 (halves upwards; no largest
number). -/
noncomputable def binary64 (x : ℝ) : ℝ := round (x / 2 ^ lastDigit x) * 2 ^ lastDigit x

end Hrm
