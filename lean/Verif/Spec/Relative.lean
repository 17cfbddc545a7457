import Verif.Model.Arith
import Mathlib.Data.Real.Basic

/-!
# Specification: arithmetic with a relative error, and the size of the error in a change of basis

`val x` is the real number that the stored number `x` stands for.
-/

namespace AutoGR.Spec

/-- Sums and products are exact up to a relative error `u`, and integers up to `2^53` are exact.  For binary64
without overflow and underflow `u` is `2^-53`. -/
structure Relative (K : Type) [Arith K] (val : K → ℝ) (u : ℝ) : Prop where
  nonneg : 0 ≤ u
  add : ∀ x y, |val (Arith.add x y) - (val x + val y)| ≤ u * |val x + val y|
  mul : ∀ x y, |val (Arith.mul x y) - val x * val y| ≤ u * |val x * val y|
  ofInt : ∀ z : ℤ, |z| ≤ 2 ^ 53 → val (Arith.ofInt z) = z

/-- A bound on the error with which `(O Co)⁻¹ (((O H) O⁻¹) O Co)` is computed: `u` is the relative error of a sum
or product; `O` has entries of size `o`, wrong by `δ`; `O⁻¹` has entries of size `l`, wrong by `ι`; `(O Co)⁻¹` has
entries of size `m`, wrong by `κ`; the integers in `Co` and `H` are of size `c` and `N`. -/
def changeErr (u δ ι κ o l m c N : ℝ) : ℝ :=
  9 * c * (m + κ) * (1 + u) ^ 6 * (3 * o * N + 27 * N * ((o + δ) ^ 2 * (l + ι) * (1 + u) ^ 9 - o ^ 2 * l)) -
    27 * o * N * c * m

/-- A bound on the error with which `Nu F Cu⁻¹` is computed: `Nu` has entries of size `a`, wrong by `α`; the
integers in `F` are of size `f`; `Cu⁻¹` has entries of size `w`, wrong by `ω`. -/
def backErr (u α ω a f w : ℝ) : ℝ := 9 * f * ((a + α) * (w + ω) * (1 + u) ^ 6 - a * w)

end AutoGR.Spec
