import Verif.Model.Universal
import Verif.Model.FortranNiggli

/-!
# Model of `transform_supercell` and of the grid made from a supercell

Real numbers are taken as exact rationals: `matrix_inverse` returns the inverse.  The rounding `nint` is kept.
`minkowski_reduce_basis` is external and not modelled.
-/

namespace AutoGR.Fortran

open Matrix

/-- The intrinsic `NINT`: the nearest integer, halves away from zero (`grid_utils.f90:40`). -/
def nint (x : ℚ) : ℤ := if 0 ≤ x then ⌊x + 1 / 2⌋ else ⌈x - 1 / 2⌉

/-- `F = nint(A)`, entry by entry (`grid_utils.f90:40`). -/
def nintMat (A : Matrix (Fin 3) (Fin 3) ℚ) : Mat3 := A.map nint

/-- `transform_supercell(spHNF,No,Nu,Co,Cu,O,UB)`, `grid_utils.f90:27-43`. -/
noncomputable def transform_supercell (spHNF : Mat3) (No Nu : Matrix (Fin 3) (Fin 3) ℚ) (Co Cu : Mat3)
    (O : Matrix (Fin 3) (Fin 3) ℚ) : Matrix (Fin 3) (Fin 3) ℚ :=
  let Oinv := O⁻¹
  let Noinv := No⁻¹
  let Cuinv := (castMat Cu : Matrix (Fin 3) (Fin 3) ℚ)⁻¹
  let L := O * castMat spHNF * Oinv
  let F := nintMat (Noinv * (L * O * castMat Co))
  Nu * castMat F * Cuinv

/-- The grid made from an HNF before it is reduced: `transform_supercell` and then
`matrix_inverse(transpose(supercell), temp_grid)`, `grid_utils.f90:177-180` (`compare_grids`) and
`sp_hnfs.f90:136-137`, `258-259` and `388-389` (the cubic lattices).  `U` is the user's cell and `r` the
result of `id_cell` for it, whose arguments `Nu`, `O` and `No` are `matmul(U,Cu)`, the canonical basis and
`matmul(O,Co)` (`niggli.f90:463`, `774`); for the triclinic classes `O` is the user's cell. -/
noncomputable def gridOf (U : RMat ℚ) (r : IdCell) (H : Mat3) : Matrix (Fin 3) (Fin 3) ℚ :=
  let O := ((fBasis r.id : Option (RMat ℚ)).getD U).toMatrix
  let No := O * castMat r.Co.toMat
  let Nu := U.toMatrix * castMat r.Cu.toMat
  (transform_supercell H No Nu r.Co.toMat r.Cu.toMat O)ᵀ⁻¹

end AutoGR.Fortran
