import Mathlib.Data.Rat.Floor
import Mathlib.Data.List.Basic

/-!
# Specification: what a `KPGEN` file says

Following `README.md`: a line `KEYWORD=value` sets the keyword, other lines are ignored, and the last line for
a keyword counts.  Nothing here refers to the code.
-/

namespace AutoGR.Spec

/-- The keywords. -/
inductive Key
  | shift | nkpts | kpdensity | kspacing | kppra | rmin | useSymmetry | minIrrKpts | eps
  deriving DecidableEq

/-- How a keyword is spelled. -/
def Key.name : Key → List Char
  | .shift => "SHIFT".toList
  | .nkpts => "NKPTS".toList
  | .kpdensity => "KPDENSITY".toList
  | .kspacing => "KSPACING".toList
  | .kppra => "KPPRA".toList
  | .rmin => "RMIN".toList
  | .useSymmetry => "USE_SYMMETRY".toList
  | .minIrrKpts => "MIN_IRR_KPTS".toList
  | .eps => "EPS".toList

/-- The line sets the keyword `k` to `v`: the keyword in the first column, blanks, an equals sign, and `v`.
Only the first 100 characters of a line count. -/
def Sets (line : List Char) (k : Key) (v : List Char) : Prop :=
  ∃ b : ℕ, line.take 100 = k.name ++ List.replicate b ' ' ++ '=' :: v

/-- `settings` are the settings of the file in order. -/
inductive FileSays : List (List Char) → List (Key × List Char) → Prop
  | nil : FileSays [] []
  | sets {line k v rest settings} : Sets line k v → FileSays rest settings →
      FileSays (line :: rest) ((k, v) :: settings)
  | other {line rest settings} : (∀ k v, ¬ Sets line k v) → FileSays rest settings →
      FileSays (line :: rest) settings

/-- A value, blanks around it aside. -/
def IsWord (v : List Char) (word : List Char) : Prop :=
  ∃ a b : ℕ, v = List.replicate a ' ' ++ word ++ List.replicate b ' '

/-- How the Fortran system reads an integer, a real number and three real numbers from a string; `none` if it
reports an error. -/
structure Reader where
  int : List Char → Option ℤ
  real : List Char → Option ℚ
  real3 : List Char → Option (ℚ × ℚ × ℚ)

/-- `n` is the number of points that the keyword asks for, in a crystal with `natoms` atoms in a cell of volume
`vol`: the number itself; a density times the volume `(2π)³ / vol` of the reciprocal cell; one point for every
cube with the side `s` in the cell of volume `1 / vol`; a number for every atom; or the index for which a
close-packed lattice has the distance `r`.  Real results are rounded to a nearest integer. -/
def Asks (rd : Reader) (pi rt2 : ℚ) (natoms : ℤ) (vol : ℚ) : Key → List Char → ℤ → Prop
  | .nkpts, v, n => rd.int v = some n
  | .kpdensity, v, n => ∃ d, rd.real v = some d ∧ |d * ((2 * pi) ^ 3 / vol) - n| ≤ 1 / 2
  | .kspacing, v, n => ∃ s, rd.real v = some s ∧ |(1 / vol) / s ^ 3 - n| ≤ 1 / 2
  | .kppra, v, n => ∃ m, rd.int v = some m ∧ n = m * natoms
  | .rmin, v, n => ∃ r, rd.real v = some r ∧ |r ^ 3 / rt2 / vol - n| ≤ 1 / 2
  | _, _, _ => False

/-- The settings that say how many points are wanted. -/
def densitySetting : Key × List Char → Option (Key × List Char)
  | (.nkpts, v) => some (.nkpts, v)
  | (.kpdensity, v) => some (.kpdensity, v)
  | (.kspacing, v) => some (.kspacing, v)
  | (.kppra, v) => some (.kppra, v)
  | (.rmin, v) => some (.rmin, v)
  | _ => none

/-- The value of the setting can be read, and a spacing is not zero. -/
def Readable (rd : Reader) : Key × List Char → Prop
  | (.shift, v) => ∃ x, rd.real3 v = some x
  | (.nkpts, v) | (.kppra, v) => ∃ n, rd.int v = some n
  | (.kpdensity, v) | (.rmin, v) | (.eps, v) => ∃ x, rd.real v = some x
  | (.kspacing, v) => ∃ x, rd.real v = some x ∧ x ≠ 0
  | (.useSymmetry, _) | (.minIrrKpts, _) => True

/-- The level of symmetry: 0 all, 1 structural, 2 time reversal, 3 none. -/
noncomputable def symmetryLevel : Key × List Char → Option ℕ
  | (.useSymmetry, v) => open Classical in
    if IsWord v "ALL".toList then some 0
    else if IsWord v "STRUCTURAL".toList then some 1
    else if IsWord v "TIME_REVERSAL".toList then some 2
    else if IsWord v "NONE".toList then some 3
    else none
  | _ => none

/-- The shift. -/
def shiftValue (rd : Reader) : Key × List Char → Option (ℚ × ℚ × ℚ)
  | (.shift, v) => rd.real3 v
  | _ => none

/-- The tolerance. -/
def epsValue (rd : Reader) : Key × List Char → Option ℚ
  | (.eps, v) => rd.real v
  | _ => none

/-- The value given last. -/
def lastOf {α : Type} (f : Key × List Char → Option α) (settings : List (Key × List Char)) : Option α :=
  (settings.filterMap f).getLast?

end AutoGR.Spec
