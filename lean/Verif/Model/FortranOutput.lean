import Verif.Model.FortranInput
import Mathlib.Data.Nat.Digits.Defs

/-!
# Writing of `KPOINTS`: the end of `src/driver.f90`

Formatted output of Fortran.  The rounding of a number to the digits of its field is a parameter.
-/

namespace AutoGR.Fortran

open Matrix

/-- The decimal digits of a number. -/
def decimal (n : ℕ) : List Char :=
  (if n = 0 then [0] else (Nat.digits 10 n).reverse).map fun k => Char.ofNat ('0'.toNat + k)

/-- A field of width `w`: blanks on the left, or stars if there is no room. -/
def field (w : ℕ) (s : List Char) : List Char :=
  if s.length ≤ w then List.replicate (w - s.length) ' ' ++ s else List.replicate w '*'

/-- The edit descriptor `Iw`. -/
def editI (w : ℕ) (z : ℤ) : List Char :=
  field w ((if z < 0 then ['-'] else []) ++ decimal z.natAbs)

/-- The edit descriptor `Fw.d`; `rnd` rounds a number that is not negative to an integer.  Simplification: the zero before
the point is never left out; the only descriptor in use, `F15.12`, has room for it. -/
def editF (rnd : ℚ → ℕ) (w d : ℕ) (x : ℚ) : List Char :=
  let m := rnd (|x| * 10 ^ d)
  let f := decimal (m % 10 ^ d)
  field w ((if x < 0 then ['-'] else []) ++ decimal (m / 10 ^ d) ++ '.' :: (List.replicate (d - f.length) '0' ++ f))

/-- The line of one point, `driver.f90:45-46`. -/
noncomputable def pointLine (rnd : ℚ → ℕ) (r_vecs : Matrix (Fin 3) (Fin 3) ℚ) (k : (Fin 3 → ℚ) × ℤ) : List Char :=
  let Rinv := r_vecs⁻¹
  let point := Rinv *ᵥ k.1
  editF rnd 15 12 (point 0) ++ ' ' :: (editF rnd 15 12 (point 1) ++ ' ' :: (editF rnd 15 12 (point 2) ++ ' ' ::
    editI 5 k.2))

/-- The file `KPOINTS`, `driver.f90:32-35, 43-47`, from the irreducible points and their weights.  `pad` is the number of
blanks that list-directed output puts before an integer, beside the one at the beginning of the line.
Simplifications: the arrays of points and weights have the same length; the output to unit 5 is left out. -/
noncomputable def kpointsFile (rnd : ℚ → ℕ) (pad : ℕ) (r_vecs : Matrix (Fin 3) (Fin 3) ℚ)
    (IRKps : List ((Fin 3 → ℚ) × ℤ)) : List (List Char) :=
  ("Dynamic K-point generation: irreducible/reducible: ".toList ++ editI 12 IRKps.length ++ '/' ::
      editI 6 (IRKps.map Prod.snd).sum) ::
    (' ' :: (List.replicate pad ' ' ++ decimal IRKps.length)) ::
    " Fractional".toList ::
    IRKps.map (pointLine rnd r_vecs)

end AutoGR.Fortran
