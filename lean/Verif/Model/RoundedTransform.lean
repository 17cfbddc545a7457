import Verif.Model.FortranTransform
import Verif.Model.Arith

/-!
# Model of `transform_supercell` in any arithmetic

`transform_supercell` of `grid_utils.f90` for an arithmetic `K` that may round.  `inverse` stands for
`matrix_inverse` of the library `symlib`, which is not in the repository, and `nint` for the intrinsic.
-/

namespace AutoGR.Fortran

open Arith

variable {K : Type} [Arith K]

/-- `matmul` of two real matrices (`grid_utils.f90:39-41`): the three products are added from left to right.  (The
standard leaves the order to the compiler.) -/
def matmulK (A B : Matrix (Fin 3) (Fin 3) K) : Matrix (Fin 3) (Fin 3) K := fun i j =>
  add (add (mul (A i 0) (B 0 j)) (mul (A i 1) (B 1 j))) (mul (A i 2) (B 2 j))

/-- An integer matrix as an operand of `matmul` with a real one: each entry is converted
(`grid_utils.f90:39-41`). -/
def intMat (M : Mat3) : Matrix (Fin 3) (Fin 3) K := fun i j => ofInt (M i j)

/-- The matrix `F` of `transform_supercell`, `grid_utils.f90:36-40`. -/
def supercellF (inverse : Matrix (Fin 3) (Fin 3) K → Matrix (Fin 3) (Fin 3) K) (nint : K → ℤ)
    (spHNF : Mat3) (No : Matrix (Fin 3) (Fin 3) K) (Co : Mat3) (O : Matrix (Fin 3) (Fin 3) K) : Mat3 :=
  let Oinv := inverse O
  let Noinv := inverse No
  let L := matmulK (matmulK O (intMat spHNF)) Oinv
  fun i j => nint (matmulK Noinv (matmulK (matmulK L O) (intMat Co)) i j)

/-- `transform_supercell(spHNF,No,Nu,Co,Cu,O,UB)`, `grid_utils.f90:27-43`. -/
def transformK (inverse : Matrix (Fin 3) (Fin 3) K → Matrix (Fin 3) (Fin 3) K) (nint : K → ℤ)
    (spHNF : Mat3) (No Nu : Matrix (Fin 3) (Fin 3) K) (Co Cu : Mat3) (O : Matrix (Fin 3) (Fin 3) K) :
    Matrix (Fin 3) (Fin 3) K :=
  let Cuinv := inverse (intMat Cu)
  let F := supercellF inverse nint spHNF No Co O
  matmulK (matmulK Nu (intMat F)) Cuinv

/-- The supercell of the user's cell `U` made from the HNF `H`, with what `id_cell` has found (`r`):
`grid_utils.f90:177` (`compare_grids`), `sp_hnfs.f90:136`, `258` and `388`; the arguments `Nu`, `O` and `No` are
`matmul(U,Cu)`, the canonical basis and `matmul(O,Co)` (`niggli.f90:463`, `774`); for the triclinic classes `O` is
the user's cell. -/
def supercellK (inverse : Matrix (Fin 3) (Fin 3) K → Matrix (Fin 3) (Fin 3) K) (nint : K → ℤ) (U : RMat K) (r : IdCell)
    (H : Mat3) : Matrix (Fin 3) (Fin 3) K :=
  let O := (fBasis r.id : Option (RMat K)).getD U
  transformK inverse nint H (matmulI O r.Co).toMatrix (matmulI U r.Cu).toMatrix r.Co.toMat r.Cu.toMat O.toMatrix

end AutoGR.Fortran
