import Verif.Model.FortranGrid
import Verif.Model.FortranPoscar

/-!
# The whole program up to the grid: `find_grid` of `src/find_kgrids.f90` and `src/driver.f90`

The functions of the libraries `symlib` and `kgridGen` are fields of `Env`.
-/

namespace AutoGR.Fortran

/-- The cell whose vectors are the columns of the matrix. -/
def cellOf (M : Matrix (Fin 3) (Fin 3) ℚ) : RMat ℚ :=
  ⟨M 0 0, M 0 1, M 0 2, M 1 0, M 1 1, M 1 2, M 2 0, M 2 1, M 2 2⟩

/-- What can go wrong. -/
inductive MainErr
  /-- `read_POSCAR` fails -/
  | poscar (e : PosErr)
  /-- `matrix_inverse` is called with the vectors of the cell, which are dependent -/
  | singular
  /-- "Number of kpoints not set", `control_file.f90:189` -/
  | noDensity
  /-- a variable is used that was never set or whose value could not be read -/
  | unset
  /-- `id_cell` stops -/
  | cell (e : FStop)
  /-- "The point group doesn't match the niggli basis id", `find_kgrids.f90:322-328` -/
  | mismatch
  /-- "The point group symmetry found doesn't match any known lattice", `find_kgrids.f90:243-247` -/
  | order
  /-- the search fails -/
  | grid (e : GridErr)

/-- The machine and the libraries. -/
structure Env (G : Type) where
  /-- `equal(a,b,eps)` of `numerical_utilities` -/
  equal : ℚ → ℚ → ℚ → Bool
  /-- `norm(lattice)`: the lengths of the three vectors -/
  norms : RMat ℚ → ℚ × ℚ × ℚ
  /-- the size of the array that `get_lattice_pointGroup(lat_vecs,pg,eps)` returns -/
  pgSize : RMat ℚ → ℚ → ℕ
  /-- the computations for one grid, which use the lattice, the positions and types of the atoms, the level of
  symmetry, the tolerance and the results of `id_cell` -/
  lib : RMat ℚ → List (Fin 3 → ℚ) → List ℕ → ℕ → ℚ → IdCell → Lib G Offset
  /-- `int(real(kpd,dp)**(1.0_dp/3.0_dp))`, `find_kgrids.f90:552` -/
  root : ℤ → ℤ
  /-- 32-bit arithmetic of the generators -/
  wrap : ℤ → ℤ

/-- The offsets that are tried, `find_kgrids.f90:331-336`. -/
def offsetsTried {G : Type} (env : Env G) (U : RMat ℚ) (lat_id : ℕ) (eps : ℚ) (offset : Option Offset)
    (find_offset : Bool) : Option (List Offset) :=
  if find_offset = false then offset.map fun o => [o]
  else
    let n := env.norms U
    some (get_offsets lat_id (env.equal n.1 n.2.1 eps) (env.equal n.1 n.2.2 eps) (env.equal n.2.1 n.2.2 eps)
      n.1 n.2.1 n.2.2)

/-- `find_grid`, `find_kgrids.f90:280-535`.  `fuel` bounds the number of passes of the loops of the search. -/
def find_grid {G : Type} (env : Env G) (fuel : ℕ) (U : RMat ℚ) (kpd : ℤ) (B_vecs : List (Fin 3 → ℚ))
    (at' : List ℕ) (offset : Option Offset) (find_offset : Bool) (symm_flag : ℕ) (min_kpts : Bool) (eps : ℚ) :
    Except MainErr (Entry G Offset) :=
  match idCell env.equal U (some eps) with
  | .error e => .error (.cell e)
  | .ok r =>
    match check_sym (env.pgSize U eps) r.id with
    | none => .error .order
    | some false => .error .mismatch
    | some true =>
      match offsetsTried env U r.id eps offset find_offset, r.s_range with
      | some offsets, some s_range =>
        match findGrid (env.lib U B_vecs at' symm_flag eps r) env.wrap eps offsets min_kpts (env.root kpd) fuel r.id
            s_range kpd with
        | .error e => .error (.grid e)
        | .ok e => .ok e
      | _, _ => .error .unset

/-- The program, `driver.f90:20-26`, up to the call of `find_grid`, with `get_inputs`
(`control_file.f90:90-190`): from the lines of `POSCAR` and `KPGEN` to the grid.  (The driver then lets
`kgridGen` write the irreducible points of that grid.) -/
noncomputable def program {G : Type} (env : Env G) (rd : Spec.Reader) (junk : ℤ) (rt2 : ℚ) (fuel : ℕ)
    (poscar kpgen : List (List Char)) : Except MainErr (Entry G Offset) :=
  match read_POSCAR rd junk poscar with
  | .error e => .error (.poscar e)
  | .ok p =>
    if (p.lat_param • p.lattice).det = 0 then .error .singular
    else
      match get_inputs rd rt2 (crystalOf p.atom_base.length p.lat_param p.lattice) kpgen with
      | none => .error .noDensity
      | some s =>
        match s.nkpts, s.eps with
        | some nkpts, some eps =>
          find_grid env fuel (cellOf p.lattice) nkpts p.atom_base p.atom_type s.offset s.find_offset s.symm_flag
            s.min_kpts eps
        | _, _ => .error .unset

end AutoGR.Fortran
