import Verif.Model.FortranGrid
import Verif.Model.Arith

/-!
# The choice among the grids found, in any arithmetic

The end of `find_grid` of `src/find_kgrids.f90` as in `Model/FortranGrid`, with the ratios formed and compared in an
arithmetic `K` that may round.  The numbers of irreducible k-points are integers in the code.
-/

namespace AutoGR.Fortran

open Arith

variable {G Off K : Type} [Arith K]

/-- `real(n_irr_kp(i),dp)/real(nt_kpts(i),dp)`, `find_kgrids.f90:519`. -/
def ratioK (e : Entry G Off) : K := div (ofInt (e.sel.n_irr : ℤ)) (ofInt e.nt_kpts)

/-- `MINLOC(ratio)`, `find_kgrids.f90:523`: the first entry with the smallest ratio. -/
def minFirstK {α : Type} (f : α → K) : List α → Option α
  | [] => none
  | x :: l =>
    match minFirstK f l with
    | none => some x
    | some y => if lt (f y) (f x) then some y else some x

variable (K) in
/-- The choice among the entries found, `find_kgrids.f90:516-534`, as `choose`. -/
def chooseK (min_kpts : Bool) (kpd : ℤ) (found : List (Entry G Off)) : Except GridErr (Entry G Off) :=
  if 0 < found.length then
    if min_kpts = false ∧ 500 < kpd then
      match minFirstK (ratioK (K := K)) found with
      | some e => .ok e
      | none => .error .bounds
    else
      match minFirst (fun e => (e.sel.n_irr : ℚ)) (found.filter fun e => decide (0 < e.sel.n_irr)) with
      | some e => .ok e
      | none => .error .bounds
  else .error .stop

variable (K) in
/-- The choice in the cubic branch, `find_kgrids.f90:516-534`, as `chooseCubic`. -/
def chooseCubicK (min_kpts : Bool) (kpd : ℤ) (arr : List (Option (Entry G Off))) (count : ℕ) :
    Except GridErr (Entry G Off) :=
  if 0 < count then
    if (arr.take count).all Option.isSome then
      if min_kpts = false ∧ 500 < kpd then
        match minFirstK (ratioK (K := K)) ((arr.take count).filterMap id) with
        | some e => .ok e
        | none => .error .bounds
      else
        match minFirst (fun e => (e.sel.n_irr : ℚ))
            ((arr.filterMap id).filter fun e => decide (0 < e.sel.n_irr)) with
        | some e => .ok e
        | none => .error .bounds
    else .error .undefined
  else .error .stop

variable (K) in
/-- `find_grid` after the identification of the cell, `find_kgrids.f90:331-534`, as `findGrid`. -/
def findGridK (lib : Lib G Off) (w : ℤ → ℤ) (eps : ℚ) (offsets : List Off) (min_kpts : Bool)
    (root : ℤ) (fuel : ℕ) (lat_id s_range : ℕ) (kpd : ℤ) : Except GridErr (Entry G Off) :=
  if lat_id = 3 ∨ lat_id = 5 ∨ lat_id = 1 then
    let gen : ℤ → List Mat3 := if lat_id = 3 then sc_3 else if lat_id = 5 then bcc_5 w else fcc_1
    match cubicLoop (fun n => tryCubic lib.gridOf lib.irr lib.irrDefault offsets (gen n))
        (get_kpd_cubic lat_id root kpd) 1 (List.replicate 5 none) 0 with
    | .error e => .error e
    | .ok (arr, count) => chooseCubicK K min_kpts kpd arr count
  else if lat_id = 44 ∨ lat_id = 31 then
    match get_kpd_tric kpd with
    | none => .error .running
    | some (a_kpd, mult) =>
      tricLoop (fun n => tryHNFs lib.equal eps lib.geom lib.irr lib.irrDefault offsets
        ((tric_31_44 n).map (mult • ·))) mult fuel a_kpd
  else
    match generatorOf w lat_id with
    | none => .error .undefined
    | some gen =>
      match generalLoop (fun n => tryHNFs lib.equal eps lib.geom lib.irr lib.irrDefault offsets (gen n))
          s_range kpd fuel kpd [] with
      | .error e => .error e
      | .ok found => chooseK K min_kpts kpd found

end AutoGR.Fortran
