import Verif.Model.FortranInput
import Verif.Model.Arith

/-!
# Model of the density keywords of `control_file.f90` in any arithmetic

The numbers of points that `get_inputs` asks for, for an arithmetic `K` that may round.  `inverse` stands for
`matrix_inverse` of the library `symlib`, which is not in the repository, and `nint` for the intrinsic.
-/

namespace AutoGR.Fortran

open Arith

variable {K : Type} [Arith K]

/-- `determinant` of `symlib`, which is not in the repository (`control_file.f90:119`, `123`): expanded along the first
row. -/
def determinantK (A : Matrix (Fin 3) (Fin 3) K) : K :=
  add (sub (mul (A 0 0) (sub (mul (A 1 1) (A 2 2)) (mul (A 1 2) (A 2 1))))
    (mul (A 0 1) (sub (mul (A 1 0) (A 2 2)) (mul (A 1 2) (A 2 0)))))
    (mul (A 0 2) (sub (mul (A 1 0) (A 2 1)) (mul (A 1 1) (A 2 0))))

/-- `lat_param*lattice`, `control_file.f90:119`. -/
def scaledK (lat_param : K) (lattice : Matrix (Fin 3) (Fin 3) K) : Matrix (Fin 3) (Fin 3) K := fun i j =>
  mul lat_param (lattice i j)

/-- `vol`, `control_file.f90:119`. -/
def volK (lat_param : K) (lattice : Matrix (Fin 3) (Fin 3) K) : K := abs (determinantK (scaledK lat_param lattice))

/-- `2*pi`, `control_file.f90:111`, `122` and `152`. -/
def twoPiK : K := mul (ofInt 2) (ofRat piLit)

/-- `r_vol`, `control_file.f90:121-123`. -/
def rVolK (inverse : Matrix (Fin 3) (Fin 3) K → Matrix (Fin 3) (Fin 3) K) (lat_param : K)
    (lattice : Matrix (Fin 3) (Fin 3) K) : K :=
  let r_vecs := inverse fun i j => scaledK lat_param lattice j i
  abs (determinantK fun i j => mul twoPiK (r_vecs i j))

/-- `x**3`. (`control_file.f90:152` and `160`; the compiler multiplies from left to right.) -/
def cubeK (x : K) : K := mul (mul x x) x

/-- `NINT(kpd*r_vol)`, `control_file.f90:148`. -/
def kpdensityK (nint : K → ℤ) (kpd r_vol : K) : ℤ := nint (mul kpd r_vol)

/-- `NINT(((1.0_dp/(2*pi*lkpd))**3)*r_vol)`, `control_file.f90:152`. -/
def kspacingK (nint : K → ℤ) (lkpd r_vol : K) : ℤ := nint (mul (cubeK (div (ofInt 1) (mul twoPiK lkpd))) r_vol)

/-- `NINT((rmin**3)/(vol*2**(0.5_dp)))`, `control_file.f90:160`.  `rt2` is the computed root of two. -/
def rminK (nint : K → ℤ) (rt2 rmin vol : K) : ℤ := nint (div (cubeK rmin) (mul vol rt2))

end AutoGR.Fortran
