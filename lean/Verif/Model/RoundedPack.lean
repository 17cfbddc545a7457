import Verif.Model.FortranPack
import Verif.Model.RoundedInput

/-!
# The packing fraction in any arithmetic: `compare_grids` of `src/grid_utils.f90`

As `compareGeom` of `Model/FortranPack`, for an arithmetic `K` that may round.
-/

namespace AutoGR.Fortran

open Arith

variable {K : Type} [Arith K]

/-- `dot_product(reduced_grid(:,j), reduced_grid(:,j))`, `grid_utils.f90:182-184`; summed from left to right. -/
def dotK (reduced_grid : Matrix (Fin 3) (Fin 3) K) (j : Fin 3) : K :=
  add (add (mul (reduced_grid 0 j) (reduced_grid 0 j)) (mul (reduced_grid 1 j) (reduced_grid 1 j)))
    (mul (reduced_grid 2 j) (reduced_grid 2 j))

/-- `norms`, `grid_utils.f90:182-184`.  `sqrt` is the intrinsic. -/
def normsK (sqrt : K → K) (reduced_grid : Matrix (Fin 3) (Fin 3) K) (j : Fin 3) : K := sqrt (dotK reduced_grid j)

/-- The intrinsic `min` with two arguments, used in `grid_utils.f90:185`. -/
def minK (x y : K) : K := if le x y then x else y

/-- `temp_rmin`, `grid_utils.f90:185`. -/
def tempRminK (sqrt : K → K) (reduced_grid : Matrix (Fin 3) (Fin 3) K) : K :=
  minK (minK (normsK sqrt reduced_grid 0) (normsK sqrt reduced_grid 1)) (normsK sqrt reduced_grid 2)

/-- `pac_frac`, `grid_utils.f90:186`.  `determinant` (`symlib`) is expanded along the first row. -/
def pacFracK (sqrt : K → K) (reduced_grid : Matrix (Fin 3) (Fin 3) K) : K :=
  div (div (mul (mul (ofInt 4) (ofRat piLit)) (cubeK (div (tempRminK sqrt reduced_grid) (ofInt 2)))) (ofInt 3))
    (determinantK reduced_grid)

/-- `pac_frac >= pac_limit`, `grid_utils.f90:188`, with `pac_limit = 0.3_dp` (`:158`). -/
def packedK (sqrt : K → K) (reduced_grid : Matrix (Fin 3) (Fin 3) K) : Bool :=
  le (ofRat (3 / 10)) (pacFracK sqrt reduced_grid)

end AutoGR.Fortran
