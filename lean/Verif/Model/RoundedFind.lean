import Verif.Model.RoundedChoice
import Verif.Model.RoundedCompare

/-!
# The search of `find_grid` with every real number in one arithmetic

As `findGrid` of `Model/FortranGrid`, with the lengths of `compare_grids` and the ratios at the end of `find_grid` formed and
compared in an arithmetic `K` that may round.
-/

namespace AutoGR.Fortran

/-- The external code used for one lattice, as `Lib`, with lengths in `K`. -/
structure LibK (K G Off : Type) where
  equal : K → K → Bool
  geom : Mat3 → GeomK K G
  gridOf : Mat3 → G
  irr : G → Off → Option ℕ
  irrDefault : G → Off → Option ℕ

variable {G Off K : Type} [Arith K]

/-- `find_grid` after the identification of the cell, `find_kgrids.f90:331-534`, as `findGrid`; `eps` is the tolerance of the
user. -/
def findGridR (lib : LibK K G Off) (w : ℤ → ℤ) (eps : K) (offsets : List Off) (min_kpts : Bool)
    (root : ℤ) (fuel : ℕ) (lat_id s_range : ℕ) (kpd : ℤ) : Except GridErr (Entry G Off) :=
  if lat_id = 3 ∨ lat_id = 5 ∨ lat_id = 1 then
    let gen : ℤ → List Mat3 := if lat_id = 3 then sc_3 else if lat_id = 5 then bcc_5 w else fcc_1
    match cubicLoop (fun n => tryCubic lib.gridOf lib.irr lib.irrDefault offsets (gen n))
        (get_kpd_cubic lat_id root kpd) 1 (List.replicate 5 none) 0 with
    | .error e => .error e
    | .ok (arr, count) => chooseCubicK K min_kpts kpd arr count
  else if lat_id = 44 ∨ lat_id = 31 then
    match get_kpd_tric kpd with
    | none => .error .running
    | some (a_kpd, mult) =>
      tricLoop (fun n => tryHNFsK lib.equal eps lib.geom lib.irr lib.irrDefault offsets
        ((tric_31_44 n).map (mult • ·))) mult fuel a_kpd
  else
    match generatorOf w lat_id with
    | none => .error .undefined
    | some gen =>
      match generalLoop (fun n => tryHNFsK lib.equal eps lib.geom lib.irr lib.irrDefault offsets (gen n))
          s_range kpd fuel kpd [] with
      | .error e => .error e
      | .ok found => chooseK K min_kpts kpd found

end AutoGR.Fortran
