import Verif.Spec.Shift
import Mathlib.LinearAlgebra.Matrix.NonsingularInverse

/-!
# Specification: the shifts that keep the symmetry of a regular grid

Nothing here refers to the code.
-/

namespace AutoGR.Spec

open Matrix

/-- The scalar products of the lattice vectors, the columns of `U`. -/
def dots (U : Matrix (Fin 3) (Fin 3) ℝ) (i j : Fin 3) : ℝ := ∑ k, U k i * U k j

/-- The regular `n₀ × n₁ × n₂` grid: each vector of the reciprocal lattice is divided into equal parts. -/
noncomputable def regularGrid (U : Matrix (Fin 3) (Fin 3) ℝ) (n : Fin 3 → ℕ) : Matrix (Fin 3) (Fin 3) ℝ :=
  (Uᵀ)⁻¹ * diagonal fun i => 1 / (n i : ℝ)

/-- Every rotation or reflection that maps the crystal lattice to itself maps the regular grid with the shift `s` to
itself. -/
def KeepsSymmetry (U : Matrix (Fin 3) (Fin 3) ℝ) (n : Fin 3 → ℕ) (s : ℚ × ℚ × ℚ) : Prop :=
  ∀ Q : Matrix (Fin 3) (Fin 3) ℝ, Qᵀ * Q = 1 → (∃ X : IntMat, Q * U = U * toReal X) →
    KeepsShifted Q (regularGrid U n) s

/-- The components of a shift are taken between 0 and 1: whole numbers do not change the shifted grid. -/
def InCell (s : ℚ × ℚ × ℚ) : Prop := 0 ≤ s.1 ∧ s.1 < 1 ∧ 0 ≤ s.2.1 ∧ s.2.1 < 1 ∧ 0 ≤ s.2.2 ∧ s.2.2 < 1

/-- The lattice vectors are perpendicular. -/
def Rectangular (U : Matrix (Fin 3) (Fin 3) ℝ) : Prop := ∀ i j, i ≠ j → dots U i j = 0

/-- Two lattice vectors have the same length and make an angle of 60° or 120°; the vector `c` is perpendicular to
both. -/
def HexagonalAbout (c : Fin 3) (U : Matrix (Fin 3) (Fin 3) ℝ) : Prop :=
  (∀ i, i ≠ c → dots U i c = 0) ∧
    ∀ i j, i ≠ c → j ≠ c → i ≠ j → dots U i i = dots U j j ∧
      (2 * dots U i j = dots U i i ∨ 2 * dots U i j = -dots U i i)

end AutoGR.Spec
