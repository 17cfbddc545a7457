import Verif.Spec.Longest

/-!
# Specification: the widest symmetric grids, when packing fractions and lengths are known up to errors

Nothing here refers to the code.
-/

namespace AutoGR.Spec

/-- Among the symmetric grids with `N` points, `K` is one whose points are farthest apart, or it comes right after these.  Of
the others, those with a packing fraction of at least `hi` count; `K` has at least the fraction `lo`. -/
structure NearlyWidest (U : Matrix (Fin 3) (Fin 3) ℝ) (N : ℤ) (lo hi : ℝ) (K : Matrix (Fin 3) (Fin 3) ℝ) : Prop where
  grid : SymmetricGrid U K N
  packed : PackedAtLeast lo K
  second : ∃ l, SmallestDistance K l ∧ ∀ K₁ l₁ K₂ l₂, SymmetricGrid U K₁ N → SymmetricGrid U K₂ N → PackedAtLeast hi K₁ →
    PackedAtLeast hi K₂ → SmallestDistance K₁ l₁ → SmallestDistance K₂ l₂ → l < l₁ → l < l₂ → l₁ = l₂

/-- Among the symmetric grids with `N` points whose packing fraction is at least `lo`, `K` is one whose points are farthest
apart, and its packing fraction is at least `hi`. -/
structure WidestBetween (U : Matrix (Fin 3) (Fin 3) ℝ) (N : ℤ) (lo hi : ℝ) (K : Matrix (Fin 3) (Fin 3) ℝ) : Prop where
  grid : SymmetricGrid U K N
  packed : PackedAtLeast hi K
  widest : ∃ l, SmallestDistance K l ∧ ∀ K' l', SymmetricGrid U K' N → PackedAtLeast lo K' → SmallestDistance K' l' → l' ≤ l

/-- The smallest distances of the symmetric grids with `N` points are at least `ℓ`; known up to the factor `φ`, they are told
apart by a comparison with the bounds `t₁` and `t₂`, and those that differ do so by a factor of at least `ψ`. -/
structure GridsApart (U : Matrix (Fin 3) (Fin 3) ℝ) (N : ℤ) (ℓ φ ψ t₁ t₂ : ℝ) : Prop where
  least : ∀ K l, SymmetricGrid U K N → SmallestDistance K l → ℓ ≤ l
  near : ∀ K l, SymmetricGrid U K N → SmallestDistance K l → l * (φ - 1 / φ) ≤ t₁
  zero : ∀ K l, SymmetricGrid U K N → SmallestDistance K l → t₂ < l / φ
  gap : ∀ K l K' l', SymmetricGrid U K N → SymmetricGrid U K' N → SmallestDistance K l → SmallestDistance K' l' → l' < l →
    l' * ψ ≤ l ∧ t₂ < l / φ - l' * φ

end AutoGR.Spec
