import Mathlib.Algebra.Order.Ring.Abs
import Mathlib.Algebra.Order.Ring.Rat

/-!
# Specification: the Niggli conditions up to a tolerance

`A = a·a, B = b·b, C = c·c, D = b·c, E = a·c, F = a·b` as in `NiggliClass.lean`.  A comparison with `y`
is made up to the absolute tolerance `tau` plus the relative tolerance `rho`.

Nothing here refers to the code.
-/

namespace AutoGR.Spec

/-- `x ≤ y` up to the tolerance. -/
def LeTol (tau rho x y : ℚ) : Prop := x ≤ y + (tau + rho * |y|)

/-- `x = y` up to the tolerance. -/
def EqTol (tau rho x y : ℚ) : Prop := |x - y| ≤ tau + rho * |y|

/-- The Niggli conditions up to the tolerance: the main conditions, and the special conditions, each of
which applies as soon as its premise holds up to the tolerance.  (The premise of the last one is tested
with a tolerance `sigma` of its own.) -/
structure NiggliUpTo (tau rho sigma A B C D E F : ℚ) : Prop where
  pos : tau < A
  ab : LeTol tau rho A B
  bc : LeTol tau rho B C
  type : (0 < D ∧ 0 < E ∧ 0 < F) ∨
    (LeTol tau rho (2 * D) 0 ∧ LeTol tau rho (2 * E) 0 ∧ LeTol tau rho (2 * F) 0)
  d_le : LeTol tau rho |2 * D| B
  e_le : LeTol tau rho |2 * E| A
  f_le : LeTol tau rho |2 * F| A
  sum : LeTol tau rho C (A + B + C + 2 * D + 2 * E + 2 * F)
  ab_eq : EqTol tau rho A B → LeTol tau rho |2 * D| |2 * E|
  bc_eq : EqTol tau rho B C → LeTol tau rho |2 * E| |2 * F|
  d_eq : EqTol tau rho (2 * D) B → LeTol tau rho (2 * F) (2 * (2 * E))
  e_eq : EqTol tau rho (2 * E) A → LeTol tau rho (2 * F) (2 * (2 * D))
  f_eq : EqTol tau rho (2 * F) A → LeTol tau rho (2 * E) (2 * (2 * D))
  d_neg : EqTol tau rho (2 * D) (-B) → EqTol tau rho (2 * F) 0
  e_neg : EqTol tau rho (2 * E) (-A) → EqTol tau rho (2 * F) 0
  f_neg : EqTol tau rho (2 * F) (-A) → EqTol tau rho (2 * E) 0
  sum_eq : EqTol sigma 0 C (A + B + C + 2 * D + 2 * E + 2 * F) →
    LeTol tau rho (2 * A + 2 * (2 * E) + 2 * F) 0

/-- `x` and `y` are equal, or so far apart that the tolerance does not matter. -/
def SepTol (tau rho x y : ℚ) : Prop := x = y ∨ tau + rho * |y| < |x - y|

instance (tau rho x y : ℚ) : Decidable (SepTol tau rho x y) := by unfold SepTol; infer_instance

/-- All quantities that the Niggli conditions compare are equal or clearly different. -/
structure Separated (tau rho sigma A B C D E F : ℚ) : Prop where
  a_zero : SepTol tau rho A 0
  a_b : SepTol tau rho A B
  b_c : SepTol tau rho B C
  d_zero : SepTol tau rho (2 * D) 0
  e_zero : SepTol tau rho (2 * E) 0
  f_zero : SepTol tau rho (2 * F) 0
  d_abs : SepTol tau rho |2 * D| B
  e_abs : SepTol tau rho |2 * E| A
  f_abs : SepTol tau rho |2 * F| A
  d_e : SepTol tau rho |2 * D| |2 * E|
  e_f : SepTol tau rho |2 * E| |2 * F|
  d_b : SepTol tau rho (2 * D) B
  e_a : SepTol tau rho (2 * E) A
  f_a : SepTol tau rho (2 * F) A
  f_2e : SepTol tau rho (2 * F) (2 * (2 * E))
  f_2d : SepTol tau rho (2 * F) (2 * (2 * D))
  e_2d : SepTol tau rho (2 * E) (2 * (2 * D))
  d_nb : SepTol tau rho (2 * D) (-B)
  e_na : SepTol tau rho (2 * E) (-A)
  f_na : SepTol tau rho (2 * F) (-A)
  sum : SepTol tau rho C (A + B + C + 2 * D + 2 * E + 2 * F)
  sum_sigma : SepTol sigma 0 C (A + B + C + 2 * D + 2 * E + 2 * F)
  last : SepTol tau rho (2 * A + 2 * (2 * E) + 2 * F) 0

end AutoGR.Spec
