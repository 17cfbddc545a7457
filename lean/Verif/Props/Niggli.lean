import Verif.Lemmas.LoopExit
import Verif.Spec.Tolerance

/-! # C44, C45: the cell returned by `reduced_cell` is a Niggli cell -/

namespace AutoGR

open Spec

/-- C44.  Whenever `reduced_cell(U,eps)` returns, the cell meets all Niggli conditions up to the
absolute tolerance `eps * s` and the relative tolerance `1e-5`, where `s` is the cube root of the volume
of the cell (cut after 15 decimals) and a missing `eps` means `1e-5`. -/
theorem reducedCell_niggliUpTo (U : RMat ℚ) (eps : Option ℚ) (C : IMat)
    (h : reducedCell U eps = .ok C) (he : ∀ e, eps = some e → 0 ≤ e)
    (hvol : |U.toMatrix.det| < 10 ^ 27) :
    ∃ s : ℚ, 0 ≤ s ∧ s ^ 3 ≤ |U.toMatrix.det| ∧ |U.toMatrix.det| < (s + 1 / 10 ^ 15) ^ 3 ∧
      NiggliUpTo ((eps.getD (1 / 100000)) * s) (1 / 100000) (1 / 100000000)
        (gram U C 0 0) (gram U C 1 1) (gram U C 2 2) (gram U C 1 2) (gram U C 0 2) (gram U C 0 1) := by
  obtain ⟨-, hc⟩ := reducedCell_end h
  have hdet : Arith.abs (rdet U) = |U.toMatrix.det| := by rw [rdet_eq]; rfl
  rw [hdet] at hc
  obtain ⟨h0, h1, h2⟩ := cbrt_spec (abs_nonneg _) hvol
  refine ⟨Arith.cbrt |U.toMatrix.det|, h0, h1, h2, ?_⟩
  cases eps with
  | none =>
    obtain ⟨eA, eB, eC, eD, eE, eF⟩ := getParams_metric U (1 / 100000 * Arith.cbrt |U.toMatrix.det|) C
    rw [← eA, ← eB, ← eC]
    exact niggliCheck_upTo (mul_nonneg (show (0 : ℚ) ≤ 1 / 100000 by norm_num) h0) hc eD eE eF
  | some e =>
    obtain ⟨eA, eB, eC, eD, eE, eF⟩ := getParams_metric U (e * Arith.cbrt |U.toMatrix.det|) C
    rw [← eA, ← eB, ← eC]
    exact niggliCheck_upTo (mul_nonneg (he e rfl) h0) hc eD eE eF

/-- The hypotheses are met by a cell that has to be changed. -/
example : reducedCell (⟨1, 0, 3, 0, 2, 1, 0, 0, 5⟩ : RMat ℚ) none = .ok ⟨-1, 0, -3, 0, -1, 0, 0, 0, 1⟩ ∧
    |(⟨1, 0, 3, 0, 2, 1, 0, 0, 5⟩ : RMat ℚ).toMatrix.det| < 10 ^ 27 := by
  refine ⟨by decide +kernel, ?_⟩
  rw [← rdet_eq]
  decide +kernel

/-- C45.  In exact arithmetic, with tolerance 0, a cell returned by `reduced_cell` meets all Niggli
conditions, main and special ones. -/
theorem reducedCell_exact (U : RMat ℚ) (C : IMat) (h : reducedCell U (some 0) = .ok C) :
    NiggliReduced (gram U C 0 0 : ℚ) (gram U C 1 1 : ℚ) (gram U C 2 2 : ℚ) (gram U C 1 2 : ℚ)
      (gram U C 0 2 : ℚ) (gram U C 0 1 : ℚ) := by
  obtain ⟨hp, -⟩ := reducedCell_end h
  have hz : Arith.mul (0 : ℚ) (Arith.cbrt (Arith.abs (rdet U))) = 0 := zero_mul _
  change niggliPass U (Arith.mul (0 : ℚ) (Arith.cbrt (Arith.abs (rdet U)))) C = (C, true) at hp
  rw [hz] at hp
  refine niggliPass_true_reduced ?_ (det_reducedCell h) hp
  rw [← rdet_eq]
  intro h0
  simp [reducedCell, h0, Arith.le, Arith.ofInt] at h

/-- The hypothesis is met by a cell that has to be changed. -/
example : reducedCell (⟨1, 0, 3, 0, 2, 1, 0, 0, 5⟩ : RMat ℚ) (some 0) =
    .ok ⟨-1, 0, -3, 0, -1, 0, 0, 0, 1⟩ := by decide +kernel

/-- C45, the loop itself: if a pass of the loop (tolerance 0, exact arithmetic) on the cell `U * C`
reports that nothing is left to do, then `U * C` meets all Niggli conditions.  Unlike
`reducedCell_exact` this does not rest on the check made after the loop. -/
theorem niggliPass_exact (U : RMat ℚ) (C C' : IMat) (hU : U.toMatrix.det ≠ 0) (hC : C.toMat.det = 1)
    (h : niggliPass U 0 C = (C', true)) :
    C' = C ∧ NiggliReduced (gram U C 0 0 : ℚ) (gram U C 1 1 : ℚ) (gram U C 2 2 : ℚ) (gram U C 1 2 : ℚ)
      (gram U C 0 2 : ℚ) (gram U C 0 1 : ℚ) :=
  ⟨(niggliPass_true h).1, niggliPass_true_reduced hU hC h⟩

/-- The hypotheses are met. -/
example : niggliPass (⟨1, 0, 3, 0, 2, 1, 0, 0, 5⟩ : RMat ℚ) 0 ⟨-1, 0, -3, 0, -1, 0, 0, 0, 1⟩ =
    (⟨-1, 0, -3, 0, -1, 0, 0, 0, 1⟩, true) := by decide +kernel

end AutoGR
