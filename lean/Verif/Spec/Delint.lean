import Mathlib.LinearAlgebra.Matrix.NonsingularInverse
import Verif.Spec.Classify

/-!
# Specification: the class of a set of basis vectors

Nothing here refers to the code.
-/

namespace AutoGR.Spec

open Matrix

/-- The basis vectors (columns of `V`) have the equalities of Niggli class `k`. -/
def BasisEqs (k : ℕ) (V : Matrix (Fin 3) (Fin 3) ℝ) : Prop :=
  let G := Vᵀ * V
  ClassEqs (· = ·) k (G 0 0) (G 1 1) (G 2 2) (G 1 2) (G 0 2) (G 0 1)

/-- The basis vectors (columns of `V`) have the equalities and the type of Niggli class `k`. -/
def BasisClass (k : ℕ) (V : Matrix (Fin 3) (Fin 3) ℝ) : Prop :=
  let G := Vᵀ * V
  NiggliClass k (G 0 0) (G 1 1) (G 2 2) (G 1 2) (G 0 2) (G 0 1)

end AutoGR.Spec
