import Mathlib.Data.Rat.Floor
import Mathlib.Data.Real.Basic
import Mathlib.Data.Matrix.Mul
import Mathlib.Data.Fin.VecNotation

/-!
# Specification: what a `KPOINTS` file says

The file as the electronic structure program reads it: a title, the number of points, a word for the kind of
coordinates, and a line with three coordinates and a weight for each point, the numbers in free format between
blanks.  Nothing here refers to the code.
-/

namespace AutoGR.Spec

/-- The words of a line. -/
def words (line : List Char) : List (List Char) := (line.splitOnP (· = ' ')).filter (· ≠ [])

/-- The number that decimal digits stand for. -/
def natOf (s : List Char) : Option ℕ :=
  if s ≠ [] ∧ s.all (fun c => '0' ≤ c ∧ c ≤ '9') then some (s.foldl (fun n c => 10 * n + (c.toNat - '0'.toNat)) 0)
  else none

/-- An integer with an optional minus sign. -/
def intOf : List Char → Option ℤ
  | '-' :: s => (natOf s).map fun n : ℕ => -(n : ℤ)
  | s => (natOf s).map fun n : ℕ => (n : ℤ)

/-- Digits, a point, and digits. -/
def fracOf (s : List Char) : Option ℚ :=
  match natOf (s.takeWhile (· ≠ '.')), s.dropWhile (· ≠ '.') with
  | some n, '.' :: t => (natOf t).map fun m : ℕ => (n : ℚ) + (m : ℚ) / 10 ^ t.length
  | _, _ => none

/-- A decimal number with an optional minus sign. -/
def decOf : List Char → Option ℚ
  | '-' :: s => (fracOf s).map fun x => -x
  | s => fracOf s

/-- Three coordinates and a weight. -/
def pointOf (line : List Char) : Option ((Fin 3 → ℚ) × ℤ) :=
  match words line with
  | [a, b, c, w] =>
    match decOf a, decOf b, decOf c, intOf w with
    | some x, some y, some z, some n => some (![x, y, z], n)
    | _, _, _, _ => none
  | _ => none

/-- The file gives these points, with coordinates along the vectors of the reciprocal lattice, and weights.  (A word that
begins with `C` or `K` would stand for Cartesian coordinates.) -/
def KpointsSay (file : List (List Char)) (points : List ((Fin 3 → ℚ) × ℤ)) : Prop :=
  ∃ title count mode lines, file = title :: count :: mode :: lines ∧
    (∃ n, words count = [n] ∧ intOf n = some (points.length : ℤ)) ∧
    (∃ c s, words mode = [c :: s] ∧ c ∉ ['C', 'c', 'K', 'k']) ∧
    lines.map pointOf = points.map some

/-- The point `k` is in the first Brillouin zone of the reciprocal lattice whose vectors are the columns of `R`: no vector of
that lattice is nearer to it than 0. -/
def InFirstZone (R : Matrix (Fin 3) (Fin 3) ℝ) (k : Fin 3 → ℝ) : Prop :=
  ∀ m : Fin 3 → ℤ, ∑ i, k i ^ 2 ≤ ∑ i, (k i - ∑ j, R i j * m j) ^ 2

end AutoGR.Spec
