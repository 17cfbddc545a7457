import Verif.Model.FortranMain
import Verif.Model.Arith

/-!
# `find_grid` of `src/find_kgrids.f90` in any arithmetic

The same as in `Model/FortranMain`, for an arithmetic `K` that may round.
-/

namespace AutoGR.Fortran

/-- The machine and the libraries, as `Env`, with the numbers `K` (`find_kgrids.f90:280-535`).  `value` is the number that
a machine number stands for. -/
structure EnvK (K G : Type) where
  value : K → ℚ
  equal : K → K → K → Bool
  norms : RMat K → K × K × K
  pgSize : RMat K → K → ℕ
  lib : RMat K → List (Fin 3 → K) → List ℕ → ℕ → K → IdCell → Lib G Offset
  root : ℤ → ℤ
  wrap : ℤ → ℤ

variable {K G : Type} [Arith K]

/-- The offsets that are tried, `find_kgrids.f90:331-336`. -/
def offsetsTriedK (env : EnvK K G) (U : RMat K) (lat_id : ℕ) (eps : K) (offset : Option Offset)
    (find_offset : Bool) : Option (List Offset) :=
  if find_offset = false then offset.map fun o => [o]
  else
    let n := env.norms U
    some (get_offsets lat_id (env.equal n.1 n.2.1 eps) (env.equal n.1 n.2.2 eps) (env.equal n.2.1 n.2.2 eps)
      (env.value n.1) (env.value n.2.1) (env.value n.2.2))

/-- `find_grid`, `find_kgrids.f90:280-535`.  `fuel` bounds the number of passes of the loops of the search. -/
def find_gridK (env : EnvK K G) (fuel : ℕ) (U : RMat K) (kpd : ℤ) (B_vecs : List (Fin 3 → K))
    (at' : List ℕ) (offset : Option Offset) (find_offset : Bool) (symm_flag : ℕ) (min_kpts : Bool) (eps : K) :
    Except MainErr (Entry G Offset) :=
  match idCell env.equal U (some eps) with
  | .error e => .error (.cell e)
  | .ok r =>
    match check_sym (env.pgSize U eps) r.id with
    | none => .error .order
    | some false => .error .mismatch
    | some true =>
      match offsetsTriedK env U r.id eps offset find_offset, r.s_range with
      | some offsets, some s_range =>
        match findGrid (env.lib U B_vecs at' symm_flag eps r) env.wrap (env.value eps) offsets min_kpts (env.root kpd)
            fuel r.id s_range kpd with
        | .error e => .error (.grid e)
        | .ok e => .ok e
      | _, _ => .error .unset

end AutoGR.Fortran
