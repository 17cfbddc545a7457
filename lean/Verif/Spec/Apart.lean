import Mathlib.Algebra.Order.Ring.Abs
import Mathlib.Algebra.Order.Ring.Rat
import Mathlib.Data.Rat.Lemmas

/-!
# Specification: metrics in which nothing is nearly equal

Nothing here refers to the code.
-/

namespace AutoGR.Spec

/-- `x` and `y` are equal, or differ by more than the absolute tolerance `tau` plus the relative tolerance
`rho` (of the larger one). -/
def Apart (tau rho x y : ℚ) : Prop := x = y ∨ tau + rho * max |x| |y| < |x - y|

instance (tau rho x y : ℚ) : Decidable (Apart tau rho x y) := by unfold Apart; infer_instance

/-- All quantities that the conditions of the table of Niggli classes (International Tables A, table
9.2.5.1) compare are equal or clearly different. -/
structure ClassApart (tau rho A B C D E F : ℚ) : Prop where
  a_b : Apart tau rho A B
  b_c : Apart tau rho B C
  d_e : Apart tau rho D E
  d_f : Apart tau rho D F
  e_f : Apart tau rho E F
  d_zero : Apart tau rho D 0
  e_zero : Apart tau rho E 0
  f_zero : Apart tau rho F 0
  d_ha : Apart tau rho D (A / 2)
  e_ha : Apart tau rho E (A / 2)
  f_ha : Apart tau rho F (A / 2)
  d_nha : Apart tau rho D (-A / 2)
  e_nha : Apart tau rho E (-A / 2)
  f_nha : Apart tau rho F (-A / 2)
  d_hb : Apart tau rho D (B / 2)
  d_nhb : Apart tau rho D (-B / 2)
  d_ta : Apart tau rho D (-A / 3)
  e_ta : Apart tau rho E (-A / 3)
  d_qa : Apart tau rho D (A / 4)
  f_2d : Apart tau rho F (2 * D)
  e_2d : Apart tau rho E (2 * D)
  f_2e : Apart tau rho F (2 * E)
  sum : Apart tau rho (2 * |D + E + F|) (A + B)
  last : Apart tau rho |2 * D + F| B

end AutoGR.Spec
