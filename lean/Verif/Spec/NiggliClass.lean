import Mathlib.Data.Real.Basic
import Verif.Spec.Lattice

/-!
# Specification: Niggli cells and the 44 Niggli classes

International Tables for Crystallography, volume A, section 9.2.  The metric of a cell with basis
vectors a, b, c is `A = a·a, B = b·b, C = c·c, D = b·c, E = a·c, F = a·b`.

Nothing here refers to the code.
-/

namespace AutoGR.Spec

open Matrix

/-- The metric tensor with the six parameters `A … F`. -/
def metric (A B C D E F : ℝ) : Matrix (Fin 3) (Fin 3) ℝ :=
  !![A, F, E; F, B, D; E, D, C]

/-- Cells of type I: all angles acute. -/
def TypeI (D E F : ℝ) : Prop := 0 < D ∧ 0 < E ∧ 0 < F

/-- Cells of type II: no angle acute. -/
def TypeII (D E F : ℝ) : Prop := D ≤ 0 ∧ E ≤ 0 ∧ F ≤ 0

/-- The Niggli conditions: the main conditions, and the special conditions that make the cell
unique. -/
structure NiggliReduced (A B C D E F : ℝ) : Prop where
  pos : 0 < A
  ab : A ≤ B
  bc : B ≤ C
  type : TypeI D E F ∨ TypeII D E F
  d_le : 2 * |D| ≤ B
  e_le : 2 * |E| ≤ A
  f_le : 2 * |F| ≤ A
  sum : 0 ≤ A + B + 2 * (D + E + F)
  ab_eq : A = B → |D| ≤ |E|
  bc_eq : B = C → |E| ≤ |F|
  d_eq : 2 * D = B → F ≤ 2 * E
  e_eq : 2 * E = A → F ≤ 2 * D
  f_eq : 2 * F = A → E ≤ 2 * D
  d_neg : 2 * D = -B → F = 0
  e_neg : 2 * E = -A → F = 0
  f_neg : 2 * F = -A → E = 0
  sum_eq : A + B + 2 * (D + E + F) = 0 → 2 * A + 4 * E + 2 * F ≤ 0

/-- The equalities that define the Niggli classes, International Tables A, table 9.2.5.1 (number in
the first column of that table), together with the type of the cell. -/
def NiggliClass (k : ℕ) (A B C D E F : ℝ) : Prop :=
  match k with
  | 1 => TypeI D E F ∧ A = B ∧ B = C ∧ D = A / 2 ∧ E = A / 2 ∧ F = A / 2
  | 2 => TypeI D E F ∧ A = B ∧ B = C ∧ E = D ∧ F = D
  | 3 => TypeII D E F ∧ A = B ∧ B = C ∧ D = 0 ∧ E = 0 ∧ F = 0
  | 4 => TypeII D E F ∧ A = B ∧ B = C ∧ E = D ∧ F = D
  | 5 => TypeII D E F ∧ A = B ∧ B = C ∧ D = -A / 3 ∧ E = -A / 3 ∧ F = -A / 3
  | 6 => TypeII D E F ∧ A = B ∧ B = C ∧ 2 * |D + E + F| = A + B ∧ E = D
  | 7 => TypeII D E F ∧ A = B ∧ B = C ∧ 2 * |D + E + F| = A + B ∧ F = E
  | 8 => TypeII D E F ∧ A = B ∧ B = C ∧ 2 * |D + E + F| = A + B
  | 9 => TypeI D E F ∧ A = B ∧ D = A / 2 ∧ E = A / 2 ∧ F = A / 2
  | 10 => TypeI D E F ∧ A = B ∧ E = D
  | 11 => TypeII D E F ∧ A = B ∧ D = 0 ∧ E = 0 ∧ F = 0
  | 12 => TypeII D E F ∧ A = B ∧ D = 0 ∧ E = 0 ∧ F = -A / 2
  | 13 => TypeII D E F ∧ A = B ∧ D = 0 ∧ E = 0
  | 14 => TypeII D E F ∧ A = B ∧ E = D
  | 15 => TypeII D E F ∧ A = B ∧ D = -A / 2 ∧ E = -A / 2 ∧ F = 0
  | 16 => TypeII D E F ∧ A = B ∧ 2 * |D + E + F| = A + B ∧ E = D
  | 17 => TypeII D E F ∧ A = B ∧ 2 * |D + E + F| = A + B
  | 18 => TypeI D E F ∧ B = C ∧ D = A / 4 ∧ E = A / 2 ∧ F = A / 2
  | 19 => TypeI D E F ∧ B = C ∧ E = A / 2 ∧ F = A / 2
  | 20 => TypeI D E F ∧ B = C ∧ F = E
  | 21 => TypeII D E F ∧ B = C ∧ D = 0 ∧ E = 0 ∧ F = 0
  | 22 => TypeII D E F ∧ B = C ∧ D = -B / 2 ∧ E = 0 ∧ F = 0
  | 23 => TypeII D E F ∧ B = C ∧ E = 0 ∧ F = 0
  | 24 => TypeII D E F ∧ B = C ∧ 2 * |D + E + F| = A + B ∧ E = -A / 3 ∧ F = -A / 3
  | 25 => TypeII D E F ∧ B = C ∧ F = E
  | 26 => TypeI D E F ∧ D = A / 4 ∧ E = A / 2 ∧ F = A / 2
  | 27 => TypeI D E F ∧ E = A / 2 ∧ F = A / 2
  | 28 => TypeI D E F ∧ E = A / 2 ∧ F = 2 * D
  | 29 => TypeI D E F ∧ E = 2 * D ∧ F = A / 2
  | 30 => TypeI D E F ∧ D = B / 2 ∧ F = 2 * E
  | 31 => TypeI D E F
  | 32 => TypeII D E F ∧ D = 0 ∧ E = 0 ∧ F = 0
  | 33 => TypeII D E F ∧ D = 0 ∧ F = 0
  | 34 => TypeII D E F ∧ D = 0 ∧ E = 0
  | 35 => TypeII D E F ∧ E = 0 ∧ F = 0
  | 36 => TypeII D E F ∧ D = 0 ∧ E = -A / 2 ∧ F = 0
  | 37 => TypeII D E F ∧ E = -A / 2 ∧ F = 0
  | 38 => TypeII D E F ∧ D = 0 ∧ E = 0 ∧ F = -A / 2
  | 39 => TypeII D E F ∧ E = 0 ∧ F = -A / 2
  | 40 => TypeII D E F ∧ D = -B / 2 ∧ E = 0 ∧ F = 0
  | 41 => TypeII D E F ∧ D = -B / 2 ∧ F = 0
  | 42 => TypeII D E F ∧ D = -B / 2 ∧ E = -A / 2 ∧ F = 0
  | 43 => TypeII D E F ∧ 2 * |D + E + F| = A + B ∧ |2 * D + F| = B
  | 44 => TypeII D E F
  | _ => False

/-- An integer matrix as a real one. -/
def toReal (X : IntMat) : Matrix (Fin 3) (Fin 3) ℝ := X.map (fun z => (z : ℝ))

/-- The symmetries of Niggli class `k` in the basis reached from the Niggli cell by undoing `Co`.

A basis with metric `G` has the Niggli cell `metric A … F` if `Coᵀ G Co = metric A … F` (the cell
is the basis times `Co`).  `X` is a symmetry of the class if it leaves the metric of every lattice of
the class unchanged, `Xᵀ G X = G`. -/
def ClassSym (k : ℕ) (Co : IntMat) : Set IntMat :=
  {X | ∀ (G : Matrix (Fin 3) (Fin 3) ℝ) (A B C D E F : ℝ),
    NiggliReduced A B C D E F → NiggliClass k A B C D E F →
    (toReal Co)ᵀ * G * toReal Co = metric A B C D E F →
    (toReal X)ᵀ * G * toReal X = G}

end AutoGR.Spec
