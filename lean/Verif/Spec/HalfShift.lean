import Verif.Spec.Shift

/-!
# Specification: half shifts

Nothing here refers to the code.
-/

namespace AutoGR.Spec

/-- The shift has the components 0 and 1/2. -/
def Half (s : ℚ × ℚ × ℚ) : Prop := (s.1 = 0 ∨ s.1 = 1 / 2) ∧ (s.2.1 = 0 ∨ s.2.1 = 1 / 2) ∧ (s.2.2 = 0 ∨ s.2.2 = 1 / 2)

end AutoGR.Spec
