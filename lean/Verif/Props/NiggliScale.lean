import Verif.Lemmas.Scale

/-! # C46, C47: the unit of length, and cells that are reduced but rejected -/

namespace AutoGR

open Spec

/-! ## C46 -/

/-- C46 is false of the code: the tolerance is proportional to a length but is compared with squared
lengths.  The cell with edges 1, 0.998, 2 is reordered, the same cell in a unit 1000 times larger is
not. -/
theorem reducedCell_not_scale_invariant :
    ∃ (U : RMat ℚ) (s : ℚ) (C C' : IMat), 0 < s ∧ reducedCell U none = .ok C ∧
      reducedCell (U.scale s) none = .ok C' ∧ C ≠ C' :=
  ⟨⟨1, 0, 0, 0, 499 / 500, 0, 0, 0, 2⟩, 1 / 1000, ⟨0, -1, 0, -1, 0, 0, 0, 0, -1⟩, IMat.one, by norm_num,
    by decide +kernel, by decide +kernel, by decide⟩

/-- C46, the part that holds: with tolerance 0 the unit of length does not matter, whenever both calls
return.  Missing: other tolerances (there the claim is false, see above), and that both calls return or
both raise (false as well, because of the fixed `1e-8` in the final check). -/
theorem reducedCell_scale_partial (U : RMat ℚ) (s : ℚ) (hs : 0 < s) (C C' : IMat)
    (h : reducedCell U (some 0) = .ok C) (h' : reducedCell (U.scale s) (some 0) = .ok C') : C = C' := by
  obtain ⟨n, -, h1⟩ := reducedCell_loop h
  obtain ⟨n', -, h2⟩ := reducedCell_loop h'
  have z (x : ℚ) : Arith.mul ((some (0 : ℚ)).getD (Arith.ofRat (1 / 100000))) x = 0 := zero_mul x
  rw [z] at h1 h2
  have := niggliLoop_scale' hs U 0 1001 0 IMat.one
  rw [mul_zero, h1, h2] at this
  exact congrArg Prod.fst this.symm

/-- The hypotheses are met, with a cell that has to be changed. -/
example : reducedCell (⟨1, 0, 3, 0, 2, 1, 0, 0, 5⟩ : RMat ℚ) (some 0) =
      .ok ⟨-1, 0, -3, 0, -1, 0, 0, 0, 1⟩ ∧
    reducedCell ((⟨1, 0, 3, 0, 2, 1, 0, 0, 5⟩ : RMat ℚ).scale (1 / 7)) (some 0) =
      .ok ⟨-1, 0, -3, 0, -1, 0, 0, 0, 1⟩ := by
  constructor <;> decide +kernel

/-- C46, the loop: it does the same passes in any unit of length if the tolerance is given as a squared
length. -/
theorem niggliLoop_scale_partial (U : RMat ℚ) (s : ℚ) (hs : 0 < s) (tol : ℚ) (fuel count : ℕ) (C : IMat) :
    niggliLoop (U.scale s) (s ^ 2 * tol) fuel count C = niggliLoop U tol fuel count C :=
  niggliLoop_scale' hs U tol fuel count C

/-! ## C47 -/

/-- The tolerance `reduced_cell(U,eps)` works with, `pyniggli.py:66-74`. -/
def tolOf (U : RMat ℚ) (eps : Option ℚ) : ℚ := eps.getD (1 / 100000) * Arith.cbrt |rdet U|

/-- C47 is false of the code: there is a cell on which the loop stops at once, with nothing to do, and
`reduced_cell` raises.  The vectors are (5,0,0), (0,5.00002,0), (0,-1/2,7): `A` and `B` differ by more
than the tolerance of the loop but by less than the relative tolerance of the check. -/
theorem reducedCell_rejects_reduced :
    ∃ (U : RMat ℚ) (C : IMat), U.toMatrix.det ≠ 0 ∧ niggliLoop U (tolOf U none) 1001 0 IMat.one = (C, 1) ∧
      niggliPass U (tolOf U none) C = (C, true) ∧ reducedCell U none = .error .runtimeError := by
  refine ⟨⟨5, 0, 0, 0, 500002 / 100000, -1 / 2, 0, 0, 7⟩, IMat.one, ?_, by decide +kernel, by decide +kernel,
    by decide +kernel⟩
  rw [← rdet_eq]
  decide +kernel

/-- C47, the part that holds: if the loop stops before its limit at a cell in which all the quantities
that the Niggli conditions compare are equal or clearly different, `reduced_cell` returns that cell.
Missing: cells with nearly equal quantities, where the claim is false (see above). -/
theorem reducedCell_accepts_partial (U : RMat ℚ) (eps : Option ℚ) (C : IMat) (n : ℕ)
    (hU : U.toMatrix.det ≠ 0) (he : ∀ e, eps = some e → 0 ≤ e)
    (h : niggliLoop U (tolOf U eps) 1001 0 IMat.one = (C, n)) (hn : n < 1000)
    (sep : Separated (tolOf U eps) (1 / 100000) (1 / 100000000) (gram U C 0 0) (gram U C 1 1) (gram U C 2 2)
      (gram U C 1 2) (gram U C 0 2) (gram U C 0 1)) :
    reducedCell U eps = .ok C := by
  have htol : 0 ≤ tolOf U eps := by
    unfold tolOf
    refine mul_nonneg ?_ ?_
    · cases eps with
      | none => norm_num
      | some e => exact he e rfl
    · simp only [Arith.cbrt]
      positivity
  have hdet : C.toMat.det = 1 := by
    have := det_loop U (tolOf U eps) 1001 0 det_one
    rw [h] at this
    exact this
  obtain ⟨C0, h0⟩ := niggliLoop_end 1001 0 h (by omega)
  have hC0 := (niggliPass_true h0).1
  subst hC0
  obtain ⟨eA, eB, eC, eD, eE, eF⟩ := getParams_metric U (tolOf U eps) C
  have hred := niggliPass_true_sep htol (by norm_num) hU hdet h0 sep
  rw [← eA, ← eB, ← eC] at sep hred
  have hcheck := niggliCheck_of_reduced htol eD eE eF sep hred
  have key : niggliReduction U (tolOf U eps) = .ok C := by
    unfold niggliReduction
    rw [h]
    simp only [hcheck, if_true]
    rw [if_neg (by omega)]
  unfold reducedCell
  dsimp only
  rw [if_neg]
  · cases eps with
    | none => exact key
    | some e => exact key
  · rw [rdet_eq]
    simp only [Arith.le, Arith.ofInt, Bool.and_eq_true, decide_eq_true_eq, Int.cast_zero]
    exact fun h => hU (le_antisymm h.1 h.2)

/-- The cell of the example below. -/
private def exCell : RMat ℚ := ⟨1, 0, 3, 0, 2, 1, 0, 0, 5⟩
private def exC : IMat := ⟨-1, 0, -3, 0, -1, 0, 0, 0, 1⟩

/-- The hypotheses are met by a cell that has to be changed. -/
example : niggliLoop exCell (tolOf exCell none) 1001 0 IMat.one = (exC, 4) ∧
    Separated (tolOf exCell none) (1 / 100000) (1 / 100000000) (gram exCell exC 0 0) (gram exCell exC 1 1)
      (gram exCell exC 2 2) (gram exCell exC 1 2) (gram exCell exC 0 2) (gram exCell exC 0 1) := by
  have hm := cellMetric_metric exCell exC
  have hc : cellMetric exCell exC = (1, 4, 26, -2, 0, 0) := by decide +kernel
  rw [hc] at hm
  simp only [Prod.mk.injEq] at hm
  obtain ⟨h1, h2, h3, h4, h5, h6⟩ := hm
  refine ⟨by decide +kernel, ?_⟩
  rw [← h1, ← h2, ← h3, ← h4, ← h5, ← h6]
  constructor <;> decide +kernel

end AutoGR
