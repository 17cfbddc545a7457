import Mathlib.Data.Int.Order.Basic

/-! # What is assumed of 32-bit integer arithmetic -/

namespace AutoGR.Spec

/-- `w z` is what a 32-bit integer operation with exact result `z` gives: `z` itself if it fits 32
bits.  Nothing is said about results that do not fit. -/
structure Int32 (w : ℤ → ℤ) : Prop where
  exact : ∀ z : ℤ, -2 ^ 31 ≤ z → z < 2 ^ 31 → w z = z

/-- Integers are unlimited (`w = id`), or they have 32 bits and the determinant is at most 46000. -/
def IntsFit (w : ℤ → ℤ) (n : ℤ) : Prop := w = id ∨ (Int32 w ∧ n ≤ 46000)

end AutoGR.Spec
