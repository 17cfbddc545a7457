import Verif.Spec.Inputs
import Verif.Spec.Packing
import Mathlib.LinearAlgebra.Matrix.NonsingularInverse

/-!
# Specification: what the keywords for the number of points promise

`README.md`: `NKPTS`, the total number of desired k-points; `KPDENSITY`, the desired density; `KSPACING`, the linear
space desired between k-points; `KPPRA`, the desired number per atom; `RMIN`, the minimal distance between points in
real space desired.  Nothing here refers to the code.
-/

namespace AutoGR.Spec

open Matrix

/-- How closely the wishes are met. -/
structure Quality where
  /-- the share of the desired number of points that there is -/
  share : ℝ
  /-- the share of the desired density -/
  density : ℝ
  /-- the distance between neighbouring points, in units of the desired one -/
  near : ℝ
  /-- the lengths of three vectors that span the grid, in units of the desired distance -/
  span : ℝ
  /-- the smallest distance in real space, in units of the desired one -/
  far : ℝ

/-- The grid `K`, with `n` points in a reciprocal cell of the crystal `U` with `natoms` atoms, meets the wish `k = v`.
The points in real space are those of the lattice reciprocal to the grid.  The lengths of the reciprocal vectors are
in units of `2π`, except that the density is a number per volume with the factor `(2π)³`. -/
def Meets (q : Quality) (rd : Reader) (natoms : ℤ) (U K : Matrix (Fin 3) (Fin 3) ℝ) (n : ℤ) : Key → List Char → Prop
  | .nkpts, v => ∃ m, rd.int v = some m ∧ q.share * m ≤ n
  | .kpdensity, v => ∃ d, rd.real v = some d ∧ q.density * d ≤ n / ((2 * Real.pi) ^ 3 * |((Uᵀ)⁻¹).det|)
  | .kspacing, v => ∃ s, rd.real v = some s ∧ (∃ z : Fin 3 → ℤ, z ≠ 0 ∧ gridLength K z ≤ q.near * s) ∧
      ∃ W : Matrix (Fin 3) (Fin 3) ℤ, IsUnit W.det ∧ ∀ j, gridLength K (W *ᵥ Pi.single j 1) ≤ q.span * s
  | .kppra, v => ∃ m, rd.int v = some m ∧ q.share * (m * natoms) ≤ n
  | .rmin, v => ∃ r, rd.real v = some r ∧ ∀ z : Fin 3 → ℤ, z ≠ 0 → q.far * r ≤ gridLength (Kᵀ)⁻¹ z
  | _, _ => False

end AutoGR.Spec
