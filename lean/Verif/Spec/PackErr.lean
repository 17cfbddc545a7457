import Verif.Spec.PointsErr
import Verif.Spec.Packing

/-!
# Specification: errors in the packing fraction

Nothing here refers to the code.
-/

namespace AutoGR.Spec

/-- The comparison of the arithmetic compares the numbers. -/
def Compares (K : Type) [Arith K] (val : K → ℝ) : Prop := ∀ x y : K, Arith.le x y = true ↔ val x ≤ val y

/-- The square root has the relative error `u`. -/
def RootRight {K : Type} (val : K → ℝ) (u : ℝ) (sqrt : K → K) : Prop :=
  ∀ x, 0 ≤ val x → |val (sqrt x) - √(val x)| ≤ u * √(val x)

/-- The coordinates of a basis are computed with an error of at most `γ`.  The points of its lattice are at least `ℓ` apart,
and the error changes the length of a basis vector by a factor of at most `σ`. -/
def LengthRight (γ ℓ σ : ℝ) : Prop := 2 * γ ≤ ℓ * (1 - 1 / σ)

/-- The same for the volume `V` of the cell, whose coordinates have the size `s` at most, with its computation in arithmetic
with the relative error `u`: a factor of at most `ρ`. -/
def CellRight (u γ s V ρ : ℝ) : Prop := 6 * ((s + γ) ^ 3 * (1 + u) ^ 5 - s ^ 3) ≤ V * (1 - 1 / ρ)

/-- The factor by which the computed packing fraction is wrong at most. -/
noncomputable def packFactor (u ρ σ : ℝ) : ℝ := ρ * σ ^ 3 * (1 / (1 - u)) ^ 21

end AutoGR.Spec
