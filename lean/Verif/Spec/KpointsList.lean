import Verif.Spec.Kpoints
import Verif.Spec.Irreducible
import Mathlib.LinearAlgebra.Matrix.NonsingularInverse
import Mathlib.Data.Real.Basic

/-!
# Specification: a `KPOINTS` file that lists the irreducible points of a grid

Nothing here refers to the code.
-/

namespace AutoGR.Spec

open Matrix

/-- The entry `q` of a `KPOINTS` file stands for the point `p`: it has its weight, and its coordinates along the vectors of
the reciprocal lattice to 12 decimals.  The columns of `U` are the lattice vectors. -/
def StandsFor (U : Matrix (Fin 3) (Fin 3) ℝ) (p : (Fin 3 → ℝ) × ℤ) (q : (Fin 3 → ℚ) × ℤ) : Prop :=
  q.2 = p.2 ∧ ∀ i, |(q.1 i : ℝ) - (Uᵀ *ᵥ p.1) i| ≤ 1 / 2 / 10 ^ 12

/-- The file lists the irreducible points, under the symmetries `ops`, of the grid with the basis `K` and the offset `off`
for the crystal with the lattice vectors `U` (columns), and the weights add up to `n`. -/
def ListsIrreducible (file : List (List Char)) (U K : Matrix (Fin 3) (Fin 3) ℝ) (off : Fin 3 → ℝ)
    (ops : Set (Matrix (Fin 3) (Fin 3) ℝ)) (n : ℤ) : Prop :=
  ∃ pts q, IrreduciblePoints (Uᵀ)⁻¹ K off ops pts ∧ KpointsSay file q ∧ List.Forall₂ (StandsFor U) pts q ∧
    (q.map Prod.snd).sum = n

end AutoGR.Spec
