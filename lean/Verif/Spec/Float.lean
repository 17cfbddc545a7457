import Mathlib.Algebra.Order.Ring.Abs
import Mathlib.Algebra.Order.Round
import Mathlib.Data.Int.Log
import Mathlib.Data.Rat.Floor

/-!
# Specification: binary64 rounding

A rounding function `fl : ℚ → ℚ` gives the result of a floating point operation whose exact result is
the argument.  `Binary64 fl` is what IEEE 754 guarantees for binary64 with any rounding to nearest,
as long as no overflow or underflow occurs; `roundNearest` is a concrete such function.
-/

namespace AutoGR.Spec

/-- The properties of binary64 rounding that are used: integers up to 2^53 are represented exactly,
and the relative error is at most 2^-53. -/
structure Binary64 (fl : ℚ → ℚ) : Prop where
  exact : ∀ z : ℤ, |z| ≤ 2 ^ 53 → fl z = z
  close : ∀ x : ℚ, |fl x - x| ≤ |x| / 2 ^ 53

/-- Either the arithmetic is exact, or it is binary64 and the size `n` of the problem is at most
`limit`. -/
def Rounding (fl : ℚ → ℚ) (n limit : ℤ) : Prop := fl = id ∨ (Binary64 fl ∧ n ≤ limit)

/-- Rounding to the nearest number with a 53-bit significand (unbounded exponent). -/
def roundNearest (x : ℚ) : ℚ :=
  let u : ℚ := 2 ^ (Int.log 2 |x| - 52)
  round (x / u) * u

end AutoGR.Spec
