import Verif.Spec.PackErr
import Verif.Spec.Widest

/-!
# Specification: the longest and the second longest

Nothing here refers to the code.
-/

namespace AutoGR.Spec

variable {α : Type}

/-- `x` is a longest element of the list. -/
def Longest (len : α → ℝ) (l : List α) (x : α) : Prop := x ∈ l ∧ ∀ y ∈ l, len y ≤ len x

/-- `x` is a longest one among those that are not the longest. -/
def SecondLongest (len : α → ℝ) (l : List α) (x : α) : Prop :=
  x ∈ l ∧ ¬ Longest len l x ∧ ∀ y ∈ l, ¬ Longest len l y → len y ≤ len x

/-- The same in a set. -/
def LongestIn (len : α → ℝ) (S : Set α) (x : α) : Prop := x ∈ S ∧ ∀ y ∈ S, len y ≤ len x

def SecondLongestIn (len : α → ℝ) (S : Set α) (x : α) : Prop :=
  x ∈ S ∧ ¬ LongestIn len S x ∧ ∀ y ∈ S, ¬ LongestIn len S y → len y ≤ len x

/-- Two comparisons of the computed lengths `r` agree with the lengths: `above a b` says that `b` is longer than `a`, and no
length is taken for the value `zero` to start from. -/
structure Told {K : Type} (above equal : K → K → Bool) (zero : K) (r : α → K) (len : α → ℝ) (l : List α) : Prop where
  start : ∀ x ∈ l, above zero (r x) = true ∧ equal (r x) zero = false
  order : ∀ x ∈ l, ∀ y ∈ l, above (r y) (r x) = true ↔ len y < len x
  same : ∀ x ∈ l, ∀ y ∈ l, equal (r x) (r y) = true ↔ len x = len y

/-- Lengths computed up to the factor `φ` are told apart by the tolerance `e`, in arithmetic with the relative error `u`:
the tolerance exceeds the errors, and lengths that differ do so by a factor of at least `ψ`. -/
structure FactorsRight (u φ ψ e : ℝ) : Prop where
  pos : 0 ≤ e
  gap : 1 < ψ
  differ : (φ ^ 2 / ψ + e * (1 + u)) * (1 + u) < 1
  same : 1 ≤ (1 / φ ^ 2 + e * (1 - u)) * (1 - u)

/-- The comparison `equal` holds for numbers that differ by at most `t₁`, and for none that differ by more than `t₂`. -/
structure EqualRight {K : Type} (val : K → ℝ) (equal : K → K → Bool) (t₁ t₂ : ℝ) : Prop where
  near : ∀ a b, |val a - val b| ≤ t₁ → equal a b = true
  far : ∀ a b, equal a b = true → |val a - val b| ≤ t₂

/-- The lengths, computed up to the factor `φ`, are told apart by `equal` with the bounds `t₁` and `t₂`, and lengths that
differ do so by a factor of at least `ψ`. -/
structure FactorsApart (φ ψ t₁ t₂ : ℝ) (len : α → ℝ) (l : List α) : Prop where
  near : ∀ x ∈ l, len x * (φ - 1 / φ) ≤ t₁
  zero : ∀ x ∈ l, t₂ < len x / φ
  gap : ∀ x ∈ l, ∀ y ∈ l, len y < len x → len y * ψ ≤ len x ∧ t₂ < len x / φ - len y * φ

/-- The other comparison of the arithmetic compares the numbers. -/
def ComparesLt (K : Type) [Arith K] (val : K → ℝ) : Prop := ∀ x y : K, Arith.lt x y = true ↔ val x < val y

end AutoGR.Spec
