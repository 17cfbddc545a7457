import Verif.Model.FortranTransform
import Verif.Spec.Inputs

/-!
# Model of `control_file.f90`: the files `KPGEN` and `POSCAR`

Characters are `Char`, a character variable is a list of characters; blanks at the end are kept as far as
they are written in the file, and comparisons ignore them, as in Fortran.  List-directed `read` from a string
is a parameter (`Spec.Reader`), `none` standing for `iostat /= 0`; the variable read is then undefined.  Null values
(`NKPTS=,` or `NKPTS=/`), which leave a variable as it was, are outside the model.  Real numbers are exact
rationals; `2**(0.5_dp)` is the parameter `rt2`.
-/

namespace AutoGR.Fortran

open Spec (Reader)

/-- The intrinsic `TRIM`. -/
def trim (s : List Char) : List Char := (s.reverse.dropWhile (· = ' ')).reverse

/-- The intrinsic `ADJUSTL`, apart from the blanks it adds at the end. -/
def adjustl (s : List Char) : List Char := s.dropWhile (· = ' ')

/-- `==` for character values: blanks at the end do not count. -/
def sameStr (a b : List Char) : Bool := trim a = trim b

/-- `pos = scan(buffer, '='); label = buffer(1:pos-1); buffer = buffer(pos+1:)`, `control_file.f90:136-138`.
Without `=` the label is empty and the buffer stays as it is. -/
def splitLabel (buffer : List Char) : List Char × List Char :=
  if '=' ∈ buffer then (buffer.takeWhile (· ≠ '='), (buffer.dropWhile (· ≠ '=')).tail) else ([], buffer)

/-- The results of `get_inputs` and the flags it keeps (`control_file.f90:91-107`).  `none`: undefined. -/
structure Inputs where
  offset : Option (ℚ × ℚ × ℚ)
  find_offset : Bool
  nkpts : Option ℤ
  nkpts_set : Bool
  symm_flag : ℕ
  min_kpts : Bool
  eps : Option ℚ
  def_eps : Bool
  deriving DecidableEq

/-- The values before the loop, `control_file.f90:109-129`. -/
def Inputs.start : Inputs := ⟨none, true, none, false, 0, false, none, true⟩

/-- What `get_inputs` knows of the crystal: `natoms` is `size(atom_base,2)`, `vol` the volume of the cell
(`control_file.f90:119`) and `r_vol` that of the reciprocal cell (`control_file.f90:121-123`). -/
structure Crystal where
  natoms : ℤ
  vol : ℚ
  r_vol : ℚ

/-- `pi`, `control_file.f90:111`. -/
def piLit : ℚ := 31415926535897932385 / 10 ^ 19

/-- The crystal of the lattice `lat_param*lattice`, `control_file.f90:119-123`: `determinant` and
`matrix_inverse` are exact. -/
noncomputable def crystalOf (natoms : ℤ) (lat_param : ℚ) (lattice : Matrix (Fin 3) (Fin 3) ℚ) : Crystal where
  natoms := natoms
  vol := |(lat_param • lattice).det|
  r_vol := |((2 * piLit) • ((lat_param • lattice).transpose)⁻¹).det|

/-- The value of a default integer, or undefined if it does not fit. -/
def int32 (z : ℤ) : Option ℤ := if -2147483648 ≤ z ∧ z ≤ 2147483647 then some z else none

/-- `x / y`, undefined for `y = 0`. -/
def divide (x y : ℚ) : Option ℚ := if y = 0 then none else some (x / y)

/-- `select case (label)`, `control_file.f90:139-181`: the new values, and whether `ios` is still 0.  `is` says
whether the label is the given one, `val` whether the buffer holds the given word (blanks around it ignored). -/
def inputCase (rd : Reader) (rt2 : ℚ) (c : Crystal) (s : Inputs) (is val : String → Bool) (buffer : List Char) :
    Inputs × Bool :=
  if is "SHIFT" then
    let v := rd.real3 buffer
    ({ s with offset := v, find_offset := false }, v.isSome)
  else if is "NKPTS" then
    let v := rd.int buffer
    ({ s with nkpts := v, nkpts_set := true }, v.isSome)
  else if is "KPDENSITY" then
    let v := rd.real buffer
    ({ s with nkpts := v.bind fun kpd => int32 (nint (kpd * c.r_vol)), nkpts_set := true }, v.isSome)
  else if is "KSPACING" then
    let v := rd.real buffer
    ({ s with nkpts := v.bind fun lkpd => (divide 1 (2 * piLit * lkpd)).bind fun q => int32 (nint (q ^ 3 * c.r_vol)),
              nkpts_set := true }, v.isSome)
  else if is "KPPRA" then
    let v := rd.int buffer
    ({ s with nkpts := v.bind fun kppra => int32 (c.natoms * kppra), nkpts_set := true }, v.isSome)
  else if is "RMIN" then
    let v := rd.real buffer
    ({ s with nkpts := v.bind fun rmin => (divide (rmin ^ 3) (c.vol * rt2)).bind fun q => int32 (nint q),
              nkpts_set := true }, v.isSome)
  else if is "USE_SYMMETRY" then
    if val "NONE" then ({ s with symm_flag := 3 }, true)
    else if val "TIME_REVERSAL" then ({ s with symm_flag := 2 }, true)
    else if val "STRUCTURAL" then ({ s with symm_flag := 1 }, true)
    else if val "ALL" then ({ s with symm_flag := 0 }, true)
    else (s, true)
  else if is "MIN_IRR_KPTS" then
    if val "TRUE" then ({ s with min_kpts := true }, true) else (s, true)
  else if is "EPS" then
    let v := rd.real buffer
    ({ s with eps := v, def_eps := false }, v.isSome)
  else (s, true)

/-- One pass of the loop after a line was read, `control_file.f90:132-182`. -/
def inputLine (rd : Reader) (rt2 : ℚ) (c : Crystal) (s : Inputs) (line : List Char) : Inputs × Bool :=
  let p := splitLabel (line.take 100)
  inputCase rd rt2 c s (fun w => sameStr p.1 w.toList) (fun w => sameStr w.toList (adjustl (trim p.2))) p.2

/-- `do while (ios == 0)`, `control_file.f90:130-183`; at the end of the file `ios` is negative. -/
def inputLoop (rd : Reader) (rt2 : ℚ) (c : Crystal) : Inputs → List (List Char) → Inputs
  | s, [] => s
  | s, line :: rest =>
    match inputLine rd rt2 c s line with
    | (s, true) => inputLoop rd rt2 c s rest
    | (s, false) => s

/-- The single-precision literal `1E-3` assigned to `eps`, `control_file.f90:186`. -/
def defaultEps : ℚ := 8589935 / 2 ^ 33

/-- `get_inputs` after `POSCAR` was read, `control_file.f90:130-189`.  `none`: the program stops with
"Number of kpoints not set". -/
def get_inputs (rd : Reader) (rt2 : ℚ) (c : Crystal) (lines : List (List Char)) : Option Inputs :=
  let s := inputLoop rd rt2 c .start lines
  let s := if s.def_eps then { s with eps := some defaultEps } else s
  if s.nkpts_set then some s else none

end AutoGR.Fortran
