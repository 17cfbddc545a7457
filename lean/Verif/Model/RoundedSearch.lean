import Verif.Model.RoundedMain
import Verif.Model.RoundedFind

/-!
# `find_grid` of `src/find_kgrids.f90` with every real number in one arithmetic

As `find_gridK` of `Model/RoundedMain`, with the search of `Model/RoundedFind`: the identification of the cell, the reductions,
the lengths of the grids that are compared and the ratios at the end are all formed in an arithmetic `K` that may round.
-/

namespace AutoGR.Fortran

/-- The machine and the libraries, as `EnvK` (`find_kgrids.f90:280-535`); `libR` is the library with lengths in `K`, in the place
of the field `lib`. -/
structure EnvR (K G : Type) extends EnvK K G where
  libR : RMat K → List (Fin 3 → K) → List ℕ → ℕ → K → IdCell → LibK K G Offset

variable {K G : Type} [Arith K]

/-- `find_grid`, `find_kgrids.f90:280-535`, as `find_gridK`, with the search `findGridR`. -/
def find_gridR (env : EnvR K G) (fuel : ℕ) (U : RMat K) (kpd : ℤ) (B_vecs : List (Fin 3 → K))
    (at' : List ℕ) (offset : Option Offset) (find_offset : Bool) (symm_flag : ℕ) (min_kpts : Bool) (eps : K) :
    Except MainErr (Entry G Offset) :=
  match idCell env.equal U (some eps) with
  | .error e => .error (.cell e)
  | .ok r =>
    match check_sym (env.pgSize U eps) r.id with
    | none => .error .order
    | some false => .error .mismatch
    | some true =>
      match offsetsTriedK env.toEnvK U r.id eps offset find_offset, r.s_range with
      | some offsets, some s_range =>
        match findGridR (env.libR U B_vecs at' symm_flag eps r) env.wrap eps offsets min_kpts (env.root kpd)
            fuel r.id s_range kpd with
        | .error e => .error (.grid e)
        | .ok e => .ok e
      | _, _ => .error .unset

end AutoGR.Fortran
