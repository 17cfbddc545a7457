import Verif.Model.FortranMain
import Verif.Model.FortranOutput

/-!
# The whole program: `src/driver.f90`, from `POSCAR` and `KPGEN` to `KPOINTS`

The functions of the libraries that the driver itself calls are fields of `OutLib`.
-/

namespace AutoGR.Fortran

open Matrix

/-- The calls that `driver.f90` makes to `symlib` and `kgridGen`. -/
structure OutLib where
  /-- `minkowski_reduce_basis(r_vecs, reduced_R, eps)`, `driver.f90:23` -/
  reduceR : Matrix (Fin 3) (Fin 3) ℚ → ℚ → Matrix (Fin 3) (Fin 3) ℚ
  /-- `generateIrredKpointList(lat_vecs, B_vecs, at, grid, reduced_R, best_offset, IRKps, weights, reps_=eps,
  symm_=symm_flag)`, `driver.f90:27-28`: the points with their weights -/
  irred : Matrix (Fin 3) (Fin 3) ℚ → List (Fin 3 → ℚ) → List ℕ → Matrix (Fin 3) (Fin 3) ℚ → Matrix (Fin 3) (Fin 3) ℚ →
    Offset → ℚ → ℕ → List ((Fin 3 → ℚ) × ℤ)
  /-- `mapKptsIntoBZ(r_vecs, IRKps, eps)`, `driver.f90:30`, for one point -/
  toZone : Matrix (Fin 3) (Fin 3) ℚ → ℚ → (Fin 3 → ℚ) → (Fin 3 → ℚ)

/-- The program, `driver.f90:20-47`: the lines of `KPOINTS` from those of `POSCAR` and `KPGEN`.  `rnd` and `pad` are as in
`kpointsFile`. -/
noncomputable def driver (env : Env (Matrix (Fin 3) (Fin 3) ℚ)) (out : OutLib) (rd : Spec.Reader) (junk : ℤ) (rt2 : ℚ)
    (rnd : ℚ → ℕ) (pad fuel : ℕ) (poscar kpgen : List (List Char)) : Except MainErr (List (List Char)) :=
  match read_POSCAR rd junk poscar with
  | .error e => .error (.poscar e)
  | .ok p =>
    if (p.lat_param • p.lattice).det = 0 then .error .singular
    else
      match get_inputs rd rt2 (crystalOf p.atom_base.length p.lat_param p.lattice) kpgen with
      | none => .error .noDensity
      | some s =>
        match s.nkpts, s.eps with
        | some nkpts, some eps =>
          let r_vecs := (p.latticeᵀ)⁻¹
          let reduced_R := out.reduceR r_vecs eps
          match find_grid env fuel (cellOf p.lattice) nkpts p.atom_base p.atom_type s.offset s.find_offset s.symm_flag
              s.min_kpts eps with
          | .error e => .error e
          | .ok e =>
            let IRKps := out.irred p.lattice p.atom_base p.atom_type e.sel.grid reduced_R e.sel.offset eps s.symm_flag
            .ok (kpointsFile rnd pad r_vecs (IRKps.map fun k => (out.toZone r_vecs eps k.1, k.2)))
        | _, _ => .error .unset

end AutoGR.Fortran
