import Verif.Model.Arith
import Mathlib.Data.Real.Basic

/-!
# Specification: arithmetic that is accurate to an absolute error

The arithmetic of the model is arbitrary.  Here is what it means that it is a good approximation of the real
numbers: as long as the exact result is at most `M` in absolute value, an operation is wrong by at most `η`.
Binary64 numbers have this property with `η = M / 2 ^ 53`, also when results underflow.
-/

namespace AutoGR.Spec

/-- `val x` is the real number that `x` stands for. -/
structure Accurate (K : Type) [Arith K] (val : K → ℝ) (M η : ℝ) : Prop where
  nonneg : 0 ≤ η
  add : ∀ x y, |val x + val y| ≤ M → |val (Arith.add x y) - (val x + val y)| ≤ η
  sub : ∀ x y, |val x - val y| ≤ M → |val (Arith.sub x y) - (val x - val y)| ≤ η
  mul : ∀ x y, |val x * val y| ≤ M → |val (Arith.mul x y) - val x * val y| ≤ η
  div : ∀ x y, val y ≠ 0 → |val x / val y| ≤ M → |val (Arith.div x y) - val x / val y| ≤ η
  neg : ∀ x, val (Arith.neg x) = -val x
  abs : ∀ x, val (Arith.abs x) = |val x|
  lt : ∀ x y, Arith.lt x y = true ↔ val x < val y
  le : ∀ x y, Arith.le x y = true ↔ val x ≤ val y
  /-- Small integers are exact. -/
  ofInt : ∀ z : ℤ, |(z : ℝ)| ≤ M → val (Arith.ofInt z) = z
  /-- Decimal literals. -/
  ofRat : ∀ q : ℚ, |(q : ℝ)| ≤ M → |val (Arith.ofRat q) - q| ≤ η
  /-- Cube roots: the argument lies between the cubes of numbers that differ from the result by `η`. -/
  cbrt : ∀ x, 0 ≤ val x → val x ≤ M →
    0 ≤ val (Arith.cbrt x) ∧ (val (Arith.cbrt x) - η) ^ 3 ≤ val x ∧ val x ≤ (val (Arith.cbrt x) + η) ^ 3

end AutoGR.Spec
