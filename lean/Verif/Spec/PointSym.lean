import Verif.Spec.NiggliClass

/-!
# Specification: the point symmetries of a lattice

Nothing here refers to the code.
-/

namespace AutoGR.Spec

open Matrix

/-- The point symmetries of the lattice spanned by the columns of `U`, written in that basis: the orthogonal
maps `R` (`Rᵀ R = 1`) that take each basis vector to a vector of the lattice, `R U = U X` with `X` integer. -/
def PointSym (U : Matrix (Fin 3) (Fin 3) ℝ) : Set IntMat :=
  {X | ∃ R : Matrix (Fin 3) (Fin 3) ℝ, Rᵀ * R = 1 ∧ R * U = U * toReal X}

/-- The columns of `U` are linearly independent, and `Co` (an integer matrix of determinant ±1) changes them to
the Niggli cell of the lattice, with scalar products `A … F`. -/
structure NiggliCellOf (U : Matrix (Fin 3) (Fin 3) ℝ) (Co : IntMat) (A B C D E F : ℝ) : Prop where
  unit : IsUnit Co.det
  cell : (U * toReal Co)ᵀ * (U * toReal Co) = metric A B C D E F
  red : NiggliReduced A B C D E F

end AutoGR.Spec
