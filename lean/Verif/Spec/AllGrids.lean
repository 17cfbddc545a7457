import Verif.Spec.SymGrid
import Verif.Spec.Irreducible
import Verif.Spec.Grid

/-!
# Specification: a list of all symmetric grids

Nothing here refers to the code.
-/

namespace AutoGR.Spec

open Matrix

/-- The points of the grid with the basis `K`. -/
def gridPoints (K : Matrix (Fin 3) (Fin 3) ℝ) : Set (Fin 3 → ℝ) := {x | ∃ z : Fin 3 → ℤ, x = K *ᵥ intVec z}

/-- `Ks` lists bases of all the commensurate grids for the crystal `U` that have `n` points in a reciprocal cell and all
point symmetries of the crystal lattice, one basis for each grid. -/
structure ListsGrids (U : Matrix (Fin 3) (Fin 3) ℝ) (n : ℤ) (Ks : List (Matrix (Fin 3) (Fin 3) ℝ)) : Prop where
  sound : ∀ K ∈ Ks, SymmetricGrid U K n
  complete : ∀ K, SymmetricGrid U K n → ∃! i : Fin Ks.length, gridPoints (Ks.get i) = gridPoints K

/-- The symmetric grid `K` has one of the five smallest numbers of points, from `n` on, for which there is a symmetric
grid. -/
structure Candidate (U : Matrix (Fin 3) (Fin 3) ℝ) (n : ℤ) (K : Matrix (Fin 3) (Fin 3) ℝ) (v : ℤ) : Prop where
  grid : SymmetricGrid U K v
  first : AmongFirst 5 n (fun u => ∃ K, SymmetricGrid U K u) v

end AutoGR.Spec
