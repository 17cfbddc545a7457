import Verif.Spec.NiggliClass

/-!
# Specification: two descriptions of the same crystal lattice

Nothing here refers to the code.
-/

namespace AutoGR.Spec

open Matrix

/-- The columns of `U` and those of `U'` are cells of the same lattice, up to the factor `s` of length and the
rotation or reflection `R`: every vector of one cell is a combination of the vectors of the other with integer factors. -/
def SameCrystal (s : ℝ) (R U U' : Matrix (Fin 3) (Fin 3) ℝ) : Prop :=
  0 < s ∧ Rᵀ * R = 1 ∧ ∃ W : IntMat, IsUnit W.det ∧ U' = s • (R * U * toReal W)

/-- The points `K' z`, `z` integer, are the points `K z`, turned or mirrored by `R` and multiplied by `c`. -/
def SameGrid (c : ℝ) (R K K' : Matrix (Fin 3) (Fin 3) ℝ) : Prop :=
  ∃ Y : IntMat, IsUnit Y.det ∧ K' = c • (R * K * toReal Y)

end AutoGR.Spec
