import Mathlib.Data.Real.Basic
import Mathlib.LinearAlgebra.Matrix.NonsingularInverse

/-!
# Specification: k-points given in fractions of the reciprocal vectors

Nothing here refers to the code.
-/

namespace AutoGR.Spec

open Matrix

/-- The points `K z` of a grid for the crystal with lattice vectors `U` (columns) have the coordinates `Uᵀ K z` with
respect to the reciprocal vectors, the columns of `(Uᵀ)⁻¹`.  This is the grid that has the same coordinates in the
crystal with lattice vectors `U0`. -/
noncomputable def sameFractions (U U0 K : Matrix (Fin 3) (Fin 3) ℝ) : Matrix (Fin 3) (Fin 3) ℝ :=
  (U0ᵀ)⁻¹ * (Uᵀ * K)

end AutoGR.Spec
