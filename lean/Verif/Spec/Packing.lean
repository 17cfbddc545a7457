import Mathlib.Analysis.Real.Pi.Bounds
import Mathlib.LinearAlgebra.Matrix.Notation
import Mathlib.LinearAlgebra.Matrix.Determinant.Basic

/-!
# Specification: how densely a grid is packed

Nothing here refers to the code.
-/

namespace AutoGR.Spec

open Matrix

/-- The length of the vector from the origin to the point `K v` of the grid `K`. -/
noncomputable def gridLength (K : Matrix (Fin 3) (Fin 3) ℝ) (v : Fin 3 → ℤ) : ℝ :=
  √(∑ i, (K *ᵥ fun j => (v j : ℝ)) i ^ 2)

/-- The spheres around the points `K v`, `v` integer, with half the smallest distance between two of them as
radius fill at least the share `c` of space: a sphere of diameter `d` has the volume `π d³ / 6`, and there is one
in each cell, whose volume is `|det K|`. -/
def PackedAtLeast (c : ℝ) (K : Matrix (Fin 3) (Fin 3) ℝ) : Prop :=
  ∀ v : Fin 3 → ℤ, v ≠ 0 → c * |K.det| ≤ Real.pi / 6 * gridLength K v ^ 3

/-- One of the vectors of the basis `K` is as short as any other vector of its lattice. -/
def HasShortest (K : Matrix (Fin 3) (Fin 3) ℝ) : Prop :=
  ∃ j, ∀ v : Fin 3 → ℤ, v ≠ 0 → gridLength K (Pi.single j 1) ≤ gridLength K v

end AutoGR.Spec
