import Mathlib.Data.Real.Basic

/-!
# Specification: metrics in which nothing is nearly equal, over the real numbers

Nothing here refers to the code.
-/

namespace AutoGR.Spec

/-- `x` and `y` are equal or differ by more than `g`. -/
def Gap (g x y : ℝ) : Prop := x = y ∨ g < |x - y|

/-- All quantities that are compared in the definition of a Niggli cell and in the table of Niggli classes
(International Tables A, section 9.2) are equal or differ by more than `g`. -/
structure CellGap (g A B C D E F : ℝ) : Prop where
  a_zero : Gap g A 0
  a_b : Gap g A B
  b_c : Gap g B C
  d_e : Gap g D E
  d_f : Gap g D F
  e_f : Gap g E F
  d_ne : Gap g D (-E)
  e_nf : Gap g E (-F)
  d_zero : Gap g D 0
  e_zero : Gap g E 0
  f_zero : Gap g F 0
  d_ha : Gap g D (A / 2)
  e_ha : Gap g E (A / 2)
  f_ha : Gap g F (A / 2)
  d_nha : Gap g D (-A / 2)
  e_nha : Gap g E (-A / 2)
  f_nha : Gap g F (-A / 2)
  d_hb : Gap g D (B / 2)
  d_nhb : Gap g D (-B / 2)
  d_ta : Gap g D (-A / 3)
  e_ta : Gap g E (-A / 3)
  d_qa : Gap g D (A / 4)
  f_2d : Gap g F (2 * D)
  e_2d : Gap g E (2 * D)
  f_2e : Gap g F (2 * E)
  sum : Gap g (2 * |D + E + F|) (A + B)
  last : Gap g |2 * D + F| B
  total : Gap g (A + B + 2 * (D + E + F)) 0
  turn : Gap g (2 * A + 4 * E + 2 * F) 0

end AutoGR.Spec
