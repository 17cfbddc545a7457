import Verif.Spec.Inputs
import Mathlib.LinearAlgebra.Matrix.Notation
import Mathlib.Data.Matrix.Mul

/-!
# Specification: what a `POSCAR` file says

The format of VASP 5 without selective dynamics.  Nothing here refers to the code.
-/

namespace AutoGR.Spec

/-- The words of a line: blanks before, between and after. -/
inductive Words : List Char → List (List Char) → Prop
  | none (n : ℕ) : Words (List.replicate n ' ') []
  | cons (n : ℕ) {word rest : List Char} {words : List (List Char)} (hw : word ≠ [] ∧ ' ' ∉ word)
      (hr : rest = [] ∨ ∃ t, rest = ' ' :: t) (h : Words rest words) :
      Words (List.replicate n ' ' ++ word ++ rest) (word :: words)

/-- How the positions are given. -/
inductive Mode
  | direct | cartesian
  deriving DecidableEq

/-- The contents of the file: the scale, the three vectors, the number of atoms of each species, and the
positions. -/
structure PoscarData where
  scale : ℚ
  v1 : ℚ × ℚ × ℚ
  v2 : ℚ × ℚ × ℚ
  v3 : ℚ × ℚ × ℚ
  counts : List ℕ
  mode : Mode
  positions : List (ℚ × ℚ × ℚ)

/-- The line says how the positions are given: the first letter that is not blank is one of `cCkK` for Cartesian
positions, and another one for direct positions. -/
def SaysMode (line : List Char) (m : Mode) : Prop :=
  ∃ n c rest, line = List.replicate n ' ' ++ c :: rest ∧ c ≠ ' ' ∧
    (m = .cartesian ↔ c = 'c' ∨ c = 'C' ∨ c = 'k' ∨ c = 'K')

/-- A line of at most 299 characters with the given words. -/
def ShortWords (line : List Char) (words : List (List Char)) : Prop := Words line words ∧ line.length < 300

/-- The line with the numbers of atoms. -/
def SaysCounts (rd : Reader) (line : List Char) (counts : List ℕ) : Prop :=
  ∃ words, ShortWords line words ∧ words.map rd.int = counts.map fun n : ℕ => some (n : ℤ)

/-- The file says `d`.  The line with the names of the species (whose first word is not a number) may be left
out.  After the positions anything may follow. -/
def PoscarSays (rd : Reader) (lines : List (List Char)) (d : PoscarData) : Prop :=
  ∃ title scale l1 l2 l3 names counts mode positions extra,
    lines = title :: scale :: l1 :: l2 :: l3 :: (names ++ counts :: mode :: (positions ++ extra)) ∧
    rd.real scale = some d.scale ∧ rd.real3 l1 = some d.v1 ∧ rd.real3 l2 = some d.v2 ∧ rd.real3 l3 = some d.v3 ∧
    (names = [] ∨ ∃ line word words, names = [line] ∧ ShortWords line (word :: words) ∧ rd.int word = none) ∧
    d.counts ≠ [] ∧ SaysCounts rd counts d.counts ∧
    SaysMode mode d.mode ∧ mode.length ≤ 300 ∧
    positions.map rd.real3 = d.positions.map some ∧ d.positions.length = d.counts.sum

/-- A vector. -/
def vec (x : ℚ × ℚ × ℚ) : Fin 3 → ℚ := ![x.1, x.2.1, x.2.2]

/-- The matrix whose columns are the three vectors of the file. -/
def PoscarData.columns (d : PoscarData) : Matrix (Fin 3) (Fin 3) ℚ :=
  Matrix.of fun r c => ![vec d.v1 r, vec d.v2 r, vec d.v3 r] c

/-- Where an atom is, according to the documentation of the format: the scale multiplies the vectors, and
Cartesian positions too. -/
def PoscarData.place (d : PoscarData) (x : ℚ × ℚ × ℚ) : Fin 3 → ℚ :=
  match d.mode with
  | .direct => (d.scale • d.columns).mulVec (vec x)
  | .cartesian => d.scale • vec x

end AutoGR.Spec
