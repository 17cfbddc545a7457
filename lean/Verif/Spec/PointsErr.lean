import Verif.Spec.Relative
import Mathlib.Analysis.Real.Pi.Bounds
import Mathlib.Analysis.Real.Sqrt

/-!
# Specification: the number of points that a density asks for, and errors of volumes

Nothing here refers to the code.
-/

namespace AutoGR.Spec

/-- As `Relative`, with differences, quotients, absolute values and decimal literals. -/
structure RelativeOps (K : Type) [Arith K] (val : K → ℝ) (u : ℝ) : Prop extends Relative K val u where
  lt_one : u < 1
  sub : ∀ x y, |val (Arith.sub x y) - (val x - val y)| ≤ u * |val x - val y|
  div : ∀ x y, |val (Arith.div x y) - val x / val y| ≤ u * |val x / val y|
  abs : ∀ x, val (Arith.abs x) = |val x|
  ofRat : ∀ q : ℚ, |val (Arith.ofRat q) - q| ≤ u * |(q : ℝ)|

/-- The number `x0` was read, and stored as `x`. -/
def ReadAs {K : Type} (val : K → ℝ) (u : ℝ) (x : K) (x0 : ℝ) : Prop := |val x - x0| ≤ u * |x0|

/-- `KPDENSITY=d`: `d` points per volume of the reciprocal cell, which is `(2π)³` over the volume `V` of the cell. -/
noncomputable def densityPoints (d V : ℝ) : ℝ := d * ((2 * Real.pi) ^ 3 / V)

/-- `KSPACING=s`: as many points as a cubic grid with the spacing `s`, in units of `2π`, would have. -/
noncomputable def spacingPoints (s V : ℝ) : ℝ := 1 / (s ^ 3 * V)

/-- `RMIN=r`: as many points as cells of volume `V` make one cell of a face centred cubic lattice with points `r` apart. -/
noncomputable def distancePoints (r V : ℝ) : ℝ := r ^ 3 / (V * √2)

/-- The volume `V` of a cell with coordinates of size at most `L` is computed up to a factor `ρ`, in arithmetic with
the relative error `u`. -/
def VolumeRight (u L V ρ : ℝ) : Prop := 6 * L ^ 3 * ((1 + u) ^ 14 - 1) ≤ V * (1 - 1 / ρ)

/-- The same for the volume of the reciprocal cell.  The inverse matrix has entries of size at most `l` and is computed
with an error of at most `ι`. -/
def ReciprocalRight (u ι l V ρ : ℝ) : Prop := 6 * V * ((l + ι) ^ 3 / (1 - u) ^ 17 - l ^ 3) ≤ 1 - 1 / ρ

end AutoGR.Spec
