import Verif.Spec.PointSym
import Mathlib.Data.Rat.Cast.CharZero

/-!
# Specification: a shifted grid that keeps a symmetry

Nothing here refers to the code.
-/

namespace AutoGR.Spec

open Matrix

/-- The vector of an offset, as real numbers. -/
def offsetVec (s : ℚ × ℚ × ℚ) : Fin 3 → ℝ := ![(s.1 : ℝ), (s.2.1 : ℝ), (s.2.2 : ℝ)]

/-- The map `Q` takes the shifted grid of the points `K (z + s)`, `z` integer, to itself. -/
def KeepsShifted (Q K : Matrix (Fin 3) (Fin 3) ℝ) (s : ℚ × ℚ × ℚ) : Prop :=
  ∀ z : Fin 3 → ℤ, ∃ z' : Fin 3 → ℤ,
    Q *ᵥ (K *ᵥ (offsetVec s + fun i => (z i : ℝ))) = K *ᵥ (offsetVec s + fun i => (z' i : ℝ))

end AutoGR.Spec
