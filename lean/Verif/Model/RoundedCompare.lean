import Verif.Model.RoundedPack
import Verif.Model.FortranGrid

/-!
# `compare_grids` of `src/grid_utils.f90` in any arithmetic

As `compareGrids` of `Model/FortranGrid`, with lengths in an arithmetic `K` that may round.
-/

namespace AutoGR.Fortran

open Arith

variable {K G Off : Type} [Arith K]

/-- The arrays of `compare_grids` (`grid_utils.f90:139-149`), as `Grids`. -/
structure GridsK (K G : Type) where
  rmin1 : K
  rmin2 : K
  list1 : List (G × Mat3)
  list2 : List (G × Mat3)
  size : ℕ

/-- What is computed from an HNF before the comparison, `grid_utils.f90:177-188`, as `Geom`. -/
structure GeomK (K G : Type) where
  grid : G
  rmin : K
  packed : Bool

omit [Arith K] in
/-- A new entry at the end of list 1 (`grid_utils.f90:197-202`, `:227-229`), as `Grids.push1`. -/
def GridsK.push1 (s : GridsK K G) (x : G × Mat3) : Except GridErr (GridsK K G) :=
  if s.list1.length + 1 ≤ s.size then .ok { s with list1 := s.list1 ++ [x] } else .error .bounds

omit [Arith K] in
/-- The same for list 2 (`grid_utils.f90:207-212`, `:244-246`). -/
def GridsK.push2 (s : GridsK K G) (x : G × Mat3) : Except GridErr (GridsK K G) :=
  if s.list2.length + 1 ≤ s.size then .ok { s with list2 := s.list2 ++ [x] } else .error .bounds

omit [Arith K] in
/-- The copy of both lists into larger arrays, `grid_utils.f90:215-225` and `:232-242`. -/
def GridsK.resize (s : GridsK K G) (m : ℕ) : Except GridErr (GridsK K G) :=
  if s.list1.length ≤ m ∧ s.list2.length ≤ m then .ok { s with size := m } else .error .bounds

/-- `temp_rmin > (rmin(i)+temp_rmin*eps)`, `grid_utils.f90:189` and `:204`. -/
def aboveK (eps m r : K) : Bool := lt (add m (mul r eps)) r

/-- `compare_grids`, `grid_utils.f90:139-250`, from the comparison on (`:188-248`).  `equal a b` stands for
`equal(a,b,eps)`. -/
def compareGridsK (equal : K → K → Bool) (eps : K) (geom : Mat3 → GeomK K G) (s : GridsK K G)
    (HNF : Mat3) : Except GridErr (GridsK K G) :=
  let g := geom HNF
  let r := g.rmin
  if g.packed then
    if aboveK eps s.rmin1 r = true ∧ equal r s.rmin1 = false then
      GridsK.push1 { s with rmin2 := s.rmin1, list2 := s.list1, rmin1 := r, list1 := [] } (g.grid, HNF)
    else if aboveK eps s.rmin2 r = true ∧ equal r s.rmin1 = false ∧ equal r s.rmin2 = false then
      GridsK.push2 { s with rmin2 := r, list2 := [] } (g.grid, HNF)
    else if equal r s.rmin1 then
      match (if s.size = s.list1.length then s.resize (2 * s.list1.length) else .ok s) with
      | .ok s => s.push1 (g.grid, HNF)
      | .error e => .error e
    else if equal r s.rmin2 then
      match (if s.size = s.list2.length then s.resize (2 * s.list2.length) else .ok s) with
      | .ok s => s.push2 (g.grid, HNF)
      | .error e => .error e
    else .ok s
  else .ok s

/-- The calls of `compare_grids` for the matrices of a generator, for instance `sp_hnfs.f90:540-542`, as `compareAll`;
`rmin = 0` is set by the generator. -/
def compareAllK (equal : K → K → Bool) (eps : K) (geom : Mat3 → GeomK K G) :
    Option (GridsK K G) → List Mat3 → Except GridErr (Option (GridsK K G))
  | s, [] => .ok s
  | s, H :: Hs =>
    match compareGridsK equal eps geom (s.getD ⟨ofInt 0, ofInt 0, [], [], 10⟩) H with
    | .ok s' => compareAllK equal eps geom (some s') Hs
    | .error e => .error e

/-- The end of the generators with more than one matrix, for instance `sp_hnfs.f90:557-574`, as `tryHNFs`. -/
def tryHNFsK (equal : K → K → Bool) (eps : K) (geom : Mat3 → GeomK K G)
    (irr irrDefault : G → Off → Option ℕ) (offsets : List Off) (HNFs : List Mat3) :
    Except GridErr (Tried G Off) :=
  match compareAllK equal eps geom none HNFs with
  | .error e => .error e
  | .ok none => .error .undefined
  | .ok (some s) =>
    if 0 < s.list1.length ∨ 0 < s.list2.length then
      match gridSelection irr irrDefault s.list1 s.list2 offsets with
      | .error e => .error e
      | .ok b => .ok ⟨HNFs.length, b⟩
    else .ok ⟨HNFs.length, none⟩

/-- What `compare_grids` computes from the reduced basis of a grid, `grid_utils.f90:182-188`. -/
def compareGeomK (sqrt : K → K) (reduced_grid : Matrix (Fin 3) (Fin 3) K) : GeomK K (Matrix (Fin 3) (Fin 3) K) :=
  ⟨reduced_grid, tempRminK sqrt reduced_grid, packedK sqrt reduced_grid⟩

end AutoGR.Fortran
