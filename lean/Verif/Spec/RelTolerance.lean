import Verif.Spec.ErrorBounds

/-!
# Specification: a tolerance with a relative part

The reduction in Python accepts a cell with `np.allclose`, which adds `1e-5` of the size of the second number to
the tolerance, and compares two numbers with the tolerance `1e-8`.  For the meaning of the letters see
`Spec.Tolerated`.

Nothing here refers to the code.
-/

namespace AutoGR.Spec

/-- The tolerance is smaller than the gap `g` although `1e-5` of the compared numbers (at most `12 ℓ²` in size)
is added to it, and the gap is larger than `1e-8`. -/
structure RelTolerated (η δ c L ℓ v ε g : ℝ) : Prop where
  cell : ∃ hi, 0 ≤ hi ∧ v + detErr η δ L ≤ hi ^ 3 ∧
    ε * (hi + η) + η + (1 / 100000 + η) * (12 * ℓ ^ 2 + sumErr η δ c ℓ) + 5 * sumErr η δ c ℓ ≤ g
  last : 1 / 10 ^ 8 + 5 * sumErr η δ c ℓ ≤ g

end AutoGR.Spec
