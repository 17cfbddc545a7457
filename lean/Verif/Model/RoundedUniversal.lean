import Verif.Model.Universal
import Verif.Model.RoundedTransform

/-!
# Model of `find_supercells` in any arithmetic

`find_supercells` of `universal.py` for an arithmetic `K` that may round.  `inverse` stands for `np.linalg.inv`.
-/

namespace AutoGR

open Arith Fortran

variable {K : Type} [Arith K]

/-- One pass of the loop of `transform_supercells`, `universal.py:26-30`.  In `np.dot` the three products are added from
left to right (the library may add them in another order).  Unlike the Fortran code, `F` is not rounded to
integers. -/
def transformOneK (inverse : Matrix (Fin 3) (Fin 3) K → Matrix (Fin 3) (Fin 3) K) (No Nu : Matrix (Fin 3) (Fin 3) K)
    (Co Cu : Mat3) (O : Matrix (Fin 3) (Fin 3) K) (H : Mat3) : Matrix (Fin 3) (Fin 3) K :=
  let L := matmulK (matmulK O (intMat H)) (inverse O)
  let F := matmulK (inverse No) (matmulK (matmulK L O) (intMat Co))
  matmulK (matmulK Nu F) (inverse (intMat Cu))

/-- `transform_supercells(spHNFs,No,Nu,Co,Cu,O)`, `universal.py:5-32`. -/
def transformSupercellsK (inverse : Matrix (Fin 3) (Fin 3) K → Matrix (Fin 3) (Fin 3) K) (spHNFs : List Mat3)
    (No Nu : Matrix (Fin 3) (Fin 3) K) (Co Cu : Mat3) (O : Matrix (Fin 3) (Fin 3) K) :
    List (Matrix (Fin 3) (Fin 3) K) :=
  spHNFs.map (transformOneK inverse No Nu Co Cu O)

/-- `find_supercells(U,kpt,exact)`, `universal.py:58-315`.  `fl` is the rounding of the divisions in the generators and
`root` the cube root (see `findVolumes`).  The attribute `niggli` of a reduced cell is the cell times `C`
(`pyniggli.py:76`). -/
def findSupercellsK (inverse : Matrix (Fin 3) (Fin 3) K → Matrix (Fin 3) (Fin 3) K) (fl : ℚ → ℚ) (root : ℤ)
    (U : RMat K) (kpt : ℤ) (exact : Bool) : Except PyErr (List (Matrix (Fin 3) (Fin 3) K)) :=
  match niggliId U none with
  | .error e => .error e
  | .ok k =>
    match reducedCell U none with
    | .error e => .error e
    | .ok Cu =>
      match (if k ∈ [31, 44] then some U else canonBasis k) with
      | none => .error .typeError
      | some basis =>
        match reducedCell basis none with
        | .error e => .error e
        | .ok Co =>
          match selectHNFs fl root k kpt exact with
          | .error e => .error e
          | .ok spHNFs =>
            .ok (transformSupercellsK inverse spHNFs (matmulK basis.toMatrix (intMat Co.toMat))
              (matmulK U.toMatrix (intMat Cu.toMat)) Co.toMat Cu.toMat basis.toMatrix)

end AutoGR
