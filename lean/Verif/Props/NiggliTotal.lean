import Verif.Lemmas.Skew

/-! # C55: does the reduction always succeed? -/

namespace AutoGR

open Spec

/-- C55 is false of the code: steps 5 to 7 subtract a vector once per pass, and the number of passes is
limited.  For every `N ≥ 999` and every tolerance below 1 the cell of volume 1 with the vectors (1,0,0),
(0,1,0), (-N,0,1) makes `reduced_cell` raise. -/
theorem reducedCell_gives_up (N : ℕ) (hN : 999 ≤ N) (eps : Option ℚ)
    (he : ∀ e, eps = some e → 0 ≤ e ∧ e < 1) :
    (skewCell N).toMatrix.det = 1 ∧ reducedCell (skewCell N) eps = .error .runtimeError := by
  have hd : rdet (skewCell N) = 1 := by
    simp [rdet, skewCell, Arith.add, Arith.mul, Arith.sub]
  have hc : Arith.cbrt (Arith.abs (1 : ℚ)) = 1 := by decide +kernel
  have key (e : ℚ) (h0 : 0 ≤ e) (h1 : e < 1) :
      niggliReduction (skewCell N) (Arith.mul e 1) = .error .runtimeError := by
    have hm : Arith.mul e 1 = e := mul_one e
    have := skew_count N e h0 h1 1001 0 0 (Nat.zero_le N)
    have hs : skewC 0 = IMat.one := rfl
    rw [hm]
    unfold niggliReduction
    rw [hs] at this
    rcases h : niggliLoop (skewCell N) e 1001 0 IMat.one with ⟨C, n⟩
    rw [h] at this
    dsimp only at this ⊢
    rw [if_pos (by omega)]
  refine ⟨by rw [← rdet_eq, hd], ?_⟩
  unfold reducedCell
  dsimp only
  rw [hd, hc, if_neg (by decide +kernel)]
  cases eps with
  | none => exact key _ (by decide +kernel) (by decide +kernel)
  | some e => exact key e (he e rfl).1 (he e rfl).2

/-- With 5 in place of `N` the cell is reduced, in 6 passes. -/
example : niggliLoop (skewCell 5) (1 / 100000) 1001 0 IMat.one = (⟨1, 0, 5, 0, 1, 0, 0, 0, 1⟩, 6) := by
  decide +kernel

/-- C55, the part that holds: in exact arithmetic with tolerance 0 the loop ends for every non-singular
cell if it is given enough passes, and then the cell it has reached meets all Niggli conditions.  Missing:
the limit of 1000 passes (with it the claim is false, see above), and other tolerances. -/
theorem niggliLoop_total_partial (U : RMat ℚ) (hU : U.toMatrix.det ≠ 0) :
    ∃ (n : ℕ) (C : IMat), C.toMat.det = 1 ∧
      (∀ passes, n ≤ passes → niggliLoop U 0 passes 0 IMat.one = (C, n)) ∧
      NiggliReduced (gram U C 0 0 : ℚ) (gram U C 1 1 : ℚ) (gram U C 2 2 : ℚ) (gram U C 1 2 : ℚ)
        (gram U C 0 2 : ℚ) (gram U C 0 1 : ℚ) := by
  obtain ⟨n, C, h⟩ := niggliLoop_terminates U hU IMat.one det_one
  have hC : C.toMat.det = 1 := by
    have := det_loop U 0 n 0 det_one
    rw [(h n 0 le_rfl).1] at this
    exact this
  refine ⟨n, C, hC, fun passes hp => ?_, niggliPass_true_reduced hU hC (h n 0 le_rfl).2⟩
  rw [(h passes 0 hp).1, Nat.zero_add]

/-- The hypothesis is met by a cell for which the number of passes is not trivial. -/
example : (⟨1, 0, 3, 0, 2, 1, 0, 0, 5⟩ : RMat ℚ).toMatrix.det ≠ 0 ∧
    niggliLoop (⟨1, 0, 3, 0, 2, 1, 0, 0, 5⟩ : RMat ℚ) 0 1001 0 IMat.one =
      (⟨-1, 0, -3, 0, -1, 0, 0, 0, 1⟩, 4) := by
  refine ⟨?_, by decide +kernel⟩
  rw [← rdet_eq]
  decide +kernel

end AutoGR
