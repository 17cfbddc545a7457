import Verif.Spec.NiggliClass
import Mathlib.Data.Set.Card

/-!
# Specification: irreducible k-points

Nothing here refers to the code.
-/

namespace AutoGR.Spec

open Matrix

/-- The vector with the integer coordinates `m`. -/
def intVec (m : Fin 3 → ℤ) : Fin 3 → ℝ := fun j => (m j : ℝ)

/-- The grid with the basis `K`, shifted by `off`. -/
def GridPoint (K : Matrix (Fin 3) (Fin 3) ℝ) (off k : Fin 3 → ℝ) : Prop := ∃ z : Fin 3 → ℤ, k = off + K *ᵥ intVec z

/-- The point `k` and its translates by the vectors of the reciprocal lattice, the columns of `R`. -/
def translates (R : Matrix (Fin 3) (Fin 3) ℝ) (k : Fin 3 → ℝ) : Set (Fin 3 → ℝ) :=
  {x | ∃ m : Fin 3 → ℤ, x = k + R *ᵥ intVec m}

/-- One of the symmetries, up to a vector of the reciprocal lattice, takes `k` to `k'`. -/
def Equivalent (R : Matrix (Fin 3) (Fin 3) ℝ) (ops : Set (Matrix (Fin 3) (Fin 3) ℝ)) (k k' : Fin 3 → ℝ) : Prop :=
  ∃ Q ∈ ops, ∃ m : Fin 3 → ℤ, k' = Q *ᵥ k + R *ᵥ intVec m

/-- The list has one point for each class of equivalent points of the grid, with the number of points of that class, where
translates by vectors of the reciprocal lattice count once. -/
structure IrreduciblePoints (R K : Matrix (Fin 3) (Fin 3) ℝ) (off : Fin 3 → ℝ) (ops : Set (Matrix (Fin 3) (Fin 3) ℝ))
    (pts : List ((Fin 3 → ℝ) × ℤ)) : Prop where
  grid : ∀ p ∈ pts, GridPoint K off p.1
  one : ∀ k, GridPoint K off k → ∃! i : Fin pts.length, Equivalent R ops k (pts.get i).1
  weight : ∀ i : Fin pts.length, (pts.get i).2 =
    ({c | ∃ k, GridPoint K off k ∧ Equivalent R ops k (pts.get i).1 ∧ c = translates R k}.ncard : ℤ)

/-- A group of rotations and reflections that map the lattice of the columns of `U` to itself. -/
structure LatticeGroup (U : Matrix (Fin 3) (Fin 3) ℝ) (ops : Set (Matrix (Fin 3) (Fin 3) ℝ)) : Prop where
  one : 1 ∈ ops
  mul : ∀ P ∈ ops, ∀ Q ∈ ops, P * Q ∈ ops
  inv : ∀ Q ∈ ops, ∃ P ∈ ops, P * Q = 1
  sym : ∀ Q ∈ ops, Qᵀ * Q = 1 ∧ ∃ X : IntMat, Q * U = U * toReal X

end AutoGR.Spec
