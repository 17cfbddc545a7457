import Mathlib.Data.Real.Basic
import Mathlib.LinearAlgebra.Matrix.Determinant.Basic

/-!
# Specification: when a tolerance separates errors from differences

Elementary error bounds, for a computation in which each operation is wrong by at most `η` on data that is wrong
by at most `δ`, and the condition that a tolerance is larger than these errors and smaller than the smallest
difference that has to be seen.

Nothing here refers to the code.
-/

namespace AutoGR.Spec

/-- The entries of `U` stand for those of `U0` up to `δ`, and `U0` has entries of size at most `L`. -/
structure CloseTo {K : Type} (val : K → ℝ) (U : Matrix (Fin 3) (Fin 3) K) (U0 : Matrix (Fin 3) (Fin 3) ℝ)
    (δ L : ℝ) : Prop where
  err : ∀ i j, |val (U i j) - U0 i j| ≤ δ
  size : ∀ i j, |U0 i j| ≤ L

/-- Error of an entry of `U * T`: the entries of `U` are wrong by `δ`, those of `T` are integers of size at most
`c`; three products, two sums. -/
def cellErr (η δ c : ℝ) : ℝ := 3 * (c * δ) + 5 * η

/-- Error of the scalar product of two vectors of length at most `ℓ` whose coordinates are wrong by `d`. -/
def dotErr (η d ℓ : ℝ) : ℝ := 6 * (ℓ * d) + 3 * d ^ 2 + 5 * η

/-- Error of a product of two numbers of size `L`, wrong by `δ`. -/
def prodErr (η δ L : ℝ) : ℝ := 2 * (L * δ) + δ ^ 2 + η

/-- Error of a number of size `L`, wrong by `δ`, times the difference of two such products. -/
def tripleErr (η δ L : ℝ) : ℝ :=
  L * (2 * prodErr η δ L + η) + δ * (2 * L ^ 2) + δ * (2 * prodErr η δ L + η) + η

/-- Error of a 3×3 determinant with entries of size at most `L`, wrong by `δ`. -/
def detErr (η δ L : ℝ) : ℝ := 3 * tripleErr η δ L + 2 * η

/-- Error of the largest expression that is compared with another: a sum of six numbers, each at most twice a
scalar product. -/
def sumErr (η δ c ℓ : ℝ) : ℝ := 12 * dotErr η (cellErr η δ c) ℓ + 11 * η

/-- The tolerance `ε` of the user lies between the errors and the gap `g`.

`M`, `η`: every operation with a result of size at most `M` is wrong by at most `η`; `δ`: the entries of the
cell are wrong by at most `δ`, and are of size at most `L`; its volume is `v`; `c`: size of the entries of the
integer matrix that reduces it; `ℓ`: the vectors of the reduced cell are not longer, `a`: and their squared
lengths are not less.

The first four conditions say that the tolerance is large enough: in the search for the class (`class_low`,
`class_rel`), where it is used as it is, and in the reduction (`cell_low`), where it is multiplied with the cube
root of the volume.  The next two say that it is small enough.  The others keep all numbers in the range of the
arithmetic. -/
structure Tolerated (M η δ c L ℓ v ε g a : ℝ) : Prop where
  data : 0 ≤ δ
  factor : 1 ≤ c
  long : 0 ≤ ℓ
  literal : η ≤ 1 / 100000
  class_low : 5 * sumErr η δ c ℓ ≤ ε
  class_rel : 5 * sumErr η δ c ℓ ≤ ε * (a / 4 - sumErr η δ c ℓ)
  cell_low : ∃ lo, η ≤ lo ∧ lo ^ 3 ≤ v - detErr η δ L ∧ 3 * sumErr η δ c ℓ + η < ε * (lo - η)
  class_high : ε * (1 + 6 * ℓ ^ 2 + sumErr η δ c ℓ) + (1 / 100000 + η) * (6 * ℓ ^ 2 + sumErr η δ c ℓ) +
    5 * sumErr η δ c ℓ ≤ g
  cell_high : ∃ hi, 0 ≤ hi ∧ v + detErr η δ L ≤ hi ^ 3 ∧ ε * (hi + η) + η + 3 * sumErr η δ c ℓ ≤ g
  range_cell : c + 3 * (c * (L + δ)) + 5 * η ≤ M
  range_square : 2 * L ^ 2 + 2 * prodErr η δ L + η ≤ M
  range_det : 6 * L ^ 3 + detErr η δ L ≤ M
  range_sum : 24 * ℓ ^ 2 + 2 * sumErr η δ c ℓ + g ≤ M
  range_class : 4 + (3 + ε) * (6 * ℓ ^ 2 + sumErr η δ c ℓ) + ε ≤ M

end AutoGR.Spec
