import Verif.Lemmas.Reduction

/-! # C43: the reduction keeps the lattice -/

namespace AutoGR

open Spec

/-- C43.  Whenever `reduced_cell(A,eps)` returns, `C` is an integer matrix of determinant 1.  `K` is
any number type with any operations, so the theorem holds for floats with any rounding. -/
theorem reducedCell_det {K : Type} [Arith K] (A : RMat K) (eps : Option K) (C : IMat)
    (h : reducedCell A eps = .ok C) : C.toMat.det = 1 :=
  det_reducedCell h

/-- The hypothesis is met: a cell that is not reduced (`C` is not the identity). -/
example : reducedCell (⟨1, 0, 3, 0, 2, 1, 0, 0, 5⟩ : RMat ℚ) none =
    .ok ⟨-1, 0, -3, 0, -1, 0, 0, 0, 1⟩ := by decide +kernel

/-- C43, second half: the reduced cell `A * C` spans the same lattice as `A` (`C` has an integer
inverse). -/
theorem reducedCell_same_lattice {K : Type} [Arith K] (A : RMat K) (eps : Option K) (C : IMat)
    (h : reducedCell A eps = .ok C) : ∃ D : IntMat, C.toMat * D = 1 ∧ D * C.toMat = 1 := by
  have hd : IsUnit C.toMat.det := by rw [det_reducedCell h]; exact isUnit_one
  exact ⟨C.toMat⁻¹, Matrix.mul_nonsing_inv _ hd, Matrix.nonsing_inv_mul _ hd⟩

end AutoGR
