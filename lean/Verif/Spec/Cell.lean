import Mathlib.Data.Matrix.Mul
import Verif.Model.Universal

/-!
# Specification: the cell `reduced_cell` returns, and its metric
-/

namespace AutoGR

open Matrix

/-- The cell `U * C`, vectors as columns: what `reduced_cell(U).niggli` holds when `reduced_cell(U).C`
is `C`. -/
def cellMat (U : RMat ℚ) (C : IMat) : Matrix (Fin 3) (Fin 3) ℚ := U.toMatrix * castMat C.toMat

/-- The metric of the cell `U * C`: entry `i j` is the scalar product of its vectors `i` and `j`. -/
def gram (U : RMat ℚ) (C : IMat) : Matrix (Fin 3) (Fin 3) ℚ := (cellMat U C)ᵀ * cellMat U C

end AutoGR
