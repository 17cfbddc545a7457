import Verif.Spec.Lattice
import Mathlib.Data.Rat.Defs
import Mathlib.Algebra.Order.Ring.Rat
import Mathlib.Data.Set.Card

/-! # Specification of the comparison of grids -/

namespace AutoGR.Spec

/-- The comparison of lengths tells the lengths `rs` apart: `equal` holds for each and itself, and different
ones, or one and 0, differ by more than the tolerance. -/
structure LengthsApart (equal : ℚ → ℚ → Bool) (eps : ℚ) (rs : List ℚ) : Prop where
  nonneg : 0 ≤ eps
  zero : ∀ r ∈ rs, 0 < r ∧ r * eps < r ∧ equal r 0 = false
  same : ∀ r ∈ rs, equal r r = true
  apart : ∀ r ∈ rs, ∀ r' ∈ rs, r' < r → r' + r * eps < r ∧ equal r r' = false ∧ equal r' r = false

/-- `r` is the largest of the lengths `rs`. -/
def Largest (rs : List ℚ) (r : ℚ) : Prop := r ∈ rs ∧ ∀ x ∈ rs, x ≤ r

/-- `r` is the second largest of the different lengths in `rs`. -/
def SecondLargest (rs : List ℚ) (r : ℚ) : Prop :=
  r ∈ rs ∧ ∃ r1, Largest rs r1 ∧ r < r1 ∧ ∀ x ∈ rs, x ≠ r1 → x ≤ r

/-- `v` is one of the `k` smallest numbers, not below `lo`, that have the property `P`. -/
def AmongFirst (k : ℕ) (lo : ℤ) (P : ℤ → Prop) (v : ℤ) : Prop :=
  lo ≤ v ∧ P v ∧ {u | lo ≤ u ∧ u < v ∧ P u}.ncard < k

end AutoGR.Spec
