import Verif.Spec.NiggliClass
import Mathlib.LinearAlgebra.Matrix.NonsingularInverse

/-!
# Specification: what makes a k-point grid commensurate and symmetric

Nothing here refers to the code.
-/

namespace AutoGR.Spec

open Matrix

/-- The grid of the points `K z`, `z` integer, for the crystal whose lattice vectors are the columns of `U`.

* The vectors of the reciprocal lattice, the columns of `(Uᵀ)⁻¹` (units of `2π`), are points of the grid, and a
  cell of the reciprocal lattice holds `n` of them.
* Every rotation or reflection that maps the crystal lattice to itself maps the grid to itself. -/
structure SymmetricGrid (U K : Matrix (Fin 3) (Fin 3) ℝ) (n : ℤ) : Prop where
  reciprocal : ∃ N : IntMat, (Uᵀ)⁻¹ = K * toReal N ∧ |N.det| = n
  symmetric : ∀ Q : Matrix (Fin 3) (Fin 3) ℝ, Qᵀ * Q = 1 → (∃ X : IntMat, Q * U = U * toReal X) →
    ∃ Y : IntMat, Q * K = K * toReal Y

end AutoGR.Spec
