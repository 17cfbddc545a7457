import Verif.Model.Arith
import Verif.Spec.Float

/-!
# Arithmetic that rounds after every operation

The numbers of `niggli.f90` are `real(dp)`, binary64.  `Rounded fl` is the arithmetic in which every operation
of the exact arithmetic is followed by the rounding `fl`.  It has no overflow, no underflow and no fused
operations.
-/

namespace AutoGR

/-- A number of `real(dp)`, `niggli.f90:28-33` for instance, as an exact rational. -/
structure Rounded (fl : ℚ → ℚ) where
  q : ℚ

/-- The operations of `niggli.f90` on `real(dp)`: exact result, then `fl`.  Signs and comparisons are exact.
`abs(vol)**(1.0_dp/3.0_dp)` (`niggli.f90:65`) is the exact cube root cut after 15 decimals, then rounded. -/
instance (fl : ℚ → ℚ) : Arith (Rounded fl) where
  add := fun x y => ⟨fl (x.q + y.q)⟩
  sub := fun x y => ⟨fl (x.q - y.q)⟩
  mul := fun x y => ⟨fl (x.q * y.q)⟩
  div := fun x y => ⟨fl (x.q / y.q)⟩
  neg := fun x => ⟨-x.q⟩
  abs := fun x => ⟨|x.q|⟩
  sign := fun x => if x.q < 0 then -1 else if 0 < x.q then 1 else 0
  cbrt := fun x => ⟨fl (Arith.cbrt x.q)⟩
  lt := fun x y => decide (x.q < y.q)
  le := fun x y => decide (x.q ≤ y.q)
  ofInt := fun z => ⟨fl z⟩
  ofRat := fun q => ⟨fl q⟩

end AutoGR
