import Verif.Spec.AllGrids
import Verif.Spec.Packing

/-!
# Specification: the symmetric grid whose points are farthest apart

Nothing here refers to the code.
-/

namespace AutoGR.Spec

open Matrix

/-- The smallest distance between two points of the grid with the basis `K` is `l`. -/
def SmallestDistance (K : Matrix (Fin 3) (Fin 3) ℝ) (l : ℝ) : Prop :=
  (∃ v : Fin 3 → ℤ, v ≠ 0 ∧ gridLength K v = l) ∧ ∀ v : Fin 3 → ℤ, v ≠ 0 → l ≤ gridLength K v

/-- There is more than one symmetric grid with `N` points. -/
def SeveralGrids (U : Matrix (Fin 3) (Fin 3) ℝ) (N : ℤ) : Prop :=
  ∃ K K', SymmetricGrid U K N ∧ SymmetricGrid U K' N ∧ gridPoints K ≠ gridPoints K'

/-- Among the symmetric grids with `N` points whose packing fraction is at least 0.3, `K` is one whose points are
farthest apart.  A fraction between 0.29 and 0.31 counts on neither side. -/
structure Widest (U : Matrix (Fin 3) (Fin 3) ℝ) (N : ℤ) (K : Matrix (Fin 3) (Fin 3) ℝ) : Prop where
  grid : SymmetricGrid U K N
  packed : PackedAtLeast (31 / 100) K
  widest : ∃ l, SmallestDistance K l ∧ ∀ K' l', SymmetricGrid U K' N → PackedAtLeast (29 / 100) K' →
    SmallestDistance K' l' → l' ≤ l

/-- The comparison of lengths tells the smallest distances of the symmetric grids with `N` points apart, computed with
the square root `sqrt`. -/
def TellsApart (equal : ℚ → ℚ → Bool) (eps : ℚ) (sqrt : ℚ → ℚ) (U : Matrix (Fin 3) (Fin 3) ℝ) (N : ℤ) : Prop :=
  ∀ K K' (x x' : ℚ), SymmetricGrid U K N → SymmetricGrid U K' N → 0 ≤ x → 0 ≤ x' → SmallestDistance K √(x : ℝ) →
    SmallestDistance K' √(x' : ℝ) → LengthsApart equal eps [sqrt x, sqrt x']

end AutoGR.Spec
