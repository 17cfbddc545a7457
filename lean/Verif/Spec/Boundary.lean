import Mathlib.Algebra.Order.Ring.Abs
import Mathlib.Algebra.Order.Ring.Rat

/-!
# Specification: metrics that are not exactly at the limit of a tolerance

Nothing here refers to the code.
-/

namespace AutoGR.Spec

/-- No two quantities that the Niggli conditions compare differ by exactly `tau`. -/
structure OffBoundary (tau A B C D E F : ℚ) : Prop where
  a_b : |A - B| ≠ tau
  b_c : |B - C| ≠ tau
  d_zero : |2 * D| ≠ tau
  e_zero : |2 * E| ≠ tau
  f_zero : |2 * F| ≠ tau
  d_e : |(|2 * D| - |2 * E|)| ≠ tau
  e_f : |(|2 * E| - |2 * F|)| ≠ tau
  d_abs : |(|2 * D| - B)| ≠ tau
  e_abs : |(|2 * E| - A)| ≠ tau
  f_abs : |(|2 * F| - A)| ≠ tau
  f_2e : |2 * F - 2 * (2 * E)| ≠ tau
  f_2d : |2 * F - 2 * (2 * D)| ≠ tau
  e_2d : |2 * E - 2 * (2 * D)| ≠ tau
  sum : |C - (A + B + C + 2 * D + 2 * E + 2 * F)| ≠ tau
  last : |2 * A + 2 * (2 * E) + 2 * F| ≠ tau

end AutoGR.Spec
