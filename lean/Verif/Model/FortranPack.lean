import Verif.Model.FortranGrid
import Verif.Model.FortranInput

/-!
# The packing fraction: `compare_grids` of `src/grid_utils.f90`
-/

namespace AutoGR.Fortran

open Matrix

/-- `norms(1..3)`, `temp_rmin` and `pac_frac`, `grid_utils.f90:182-188`, for the reduced grid.  `sqrt` is the machine's
square root; the other operations are exact.  (Division by a determinant 0 is not modelled faithfully: it is 0 here.) -/
def compareGeom (sqrt : ℚ → ℚ) (reduced_grid : Matrix (Fin 3) (Fin 3) ℚ) : Geom (Matrix (Fin 3) (Fin 3) ℚ) :=
  let norms : Fin 3 → ℚ := fun j => sqrt (∑ i, reduced_grid i j * reduced_grid i j)
  let temp_rmin := min (min (norms 0) (norms 1)) (norms 2)
  let pac_frac := 4 * piLit * (temp_rmin / 2) ^ 3 / 3 / reduced_grid.det
  ⟨reduced_grid, temp_rmin, decide (3 / 10 ≤ pac_frac)⟩

end AutoGR.Fortran
