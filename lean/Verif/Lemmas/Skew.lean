import Mathlib.Tactic.Linarith
import Mathlib.Tactic.Positivity
import Mathlib.Tactic.Push
import Verif.Lemmas.Termination

/-! # A family of cells that need many passes of the reduction -/

namespace AutoGR

open Spec

/-- A cell of volume 1, vectors (1,0,0), (0,1,0), (-N,0,1). -/
def skewCell (N : ℕ) : RMat ℚ := ⟨1, 0, -N, 0, 1, 0, 0, 0, 1⟩

/-- The transformation after `j` passes. -/
def skewC (j : ℕ) : IMat := ⟨1, 0, j, 0, 1, 0, 0, 0, 1⟩

theorem skew_pass (N j : ℕ) (eps : ℚ) (he : 0 ≤ eps) (he1 : eps < 1) (hj : j < N) :
    niggliPass (skewCell N) eps (skewC j) = (skewC (j + 1), false) := by
  have hd : (1 : ℚ) ≤ N - j := by
    have : (j : ℚ) + 1 ≤ N := by exact_mod_cast hj
    linarith
  have hp : getParams (skewCell N) eps (skewC j) =
      ⟨1, 1, (N - j) ^ 2 + 1, 0, -2 * (N - j), 0, 0, -1, 0⟩ := by
    simp only [getParams, skewCell, skewC, dotInt, dot, Arith.add, Arith.mul, Arith.ofInt, signFlag, Arith.lt, Arith.neg,
      Params.mk.injEq, decide_eq_true_eq]
    push_cast
    refine ⟨by ring, by ring, by ring, by ring, by ring, by ring, ?_, ?_, ?_⟩
    · rw [if_neg (by rw [decide_eq_true_eq]; ring_nf; linarith),
        if_neg (by rw [decide_eq_true_eq]; ring_nf; linarith)]
    · rw [if_pos (by rw [decide_eq_true_eq]; linarith)]
    · rw [if_neg (by rw [decide_eq_true_eq]; ring_nf; linarith),
        if_neg (by rw [decide_eq_true_eq]; ring_nf; linarith)]
  have c1 : cond1 eps ⟨1, 1, (N - j) ^ 2 + 1, 0, -2 * (N - j), 0, 0, -1, 0⟩ = false := by
    simp only [cond1, Arith.add, Arith.sub, Arith.lt, Arith.abs, sub_self, abs_zero, Bool.or_eq_false_iff,
      Bool.and_eq_false_iff, decide_eq_false_iff_not, not_lt]
    exact ⟨by linarith, .inr (by positivity)⟩
  have c2 : cond2 eps ⟨1, 1, (N - j) ^ 2 + 1, 0, -2 * (N - j), 0, 0, -1, 0⟩ = false := by
    have h1 : (1 : ℚ) ≤ (N - j) ^ 2 := by nlinarith
    simp only [cond2, Arith.add, Arith.sub, Arith.lt, Arith.abs, Bool.or_eq_false_iff,
      Bool.and_eq_false_iff, decide_eq_false_iff_not, not_lt, Bool.not_eq_eq_eq_not, Bool.not_false,
      decide_eq_true_eq]
    refine ⟨by linarith, .inl ?_⟩
    rw [add_sub_cancel_right, abs_of_nonneg (by linarith)]
    linarith
  have c5 : cond5 eps ⟨1, 1, (N - j) ^ 2 + 1, 0, -2 * (N - j), 0, 0, -1, 0⟩ = false := by
    simp only [cond5, Arith.add, Arith.sub, Arith.lt, Arith.abs, Arith.neg, Bool.or_eq_false_iff,
      Bool.and_eq_false_iff, decide_eq_false_iff_not, not_lt, abs_zero, Bool.not_eq_eq_eq_not, Bool.not_false,
      decide_eq_true_eq, sub_zero, add_zero, abs_one]
    exact ⟨⟨by linarith, .inl he1⟩, .inl he1⟩
  have c6 : cond6 eps ⟨1, 1, (N - j) ^ 2 + 1, 0, -2 * (N - j), 0, 0, -1, 0⟩ = true := by
    simp only [cond6, Arith.add, Arith.lt, Arith.abs, Bool.or_eq_true, decide_eq_true_eq]
    left; left
    rw [abs_of_neg (by nlinarith)]
    linarith
  have hs : Arith.sign (-2 * ((N : ℚ) - j)) = -1 := by
    simp only [Arith.sign, Arith.lt, Arith.ofInt, decide_eq_true_eq, Int.cast_zero]
    rw [if_pos (by nlinarith)]
  have m4 : findC4 0 (-1) 0 = IMat.one := by decide
  have mo : mulC (skewC j) IMat.one = skewC j := by
    simp [mulC, skewC, IMat.one]
  have e1 : ((0 : ℤ) * -1 * 0 = 1) = False := by decide
  have e2 : ((0 : ℤ) * -1 * 0 = 0 ∨ (0 : ℤ) * -1 * 0 = -1) = True := by decide
  unfold niggliPass
  simp only [hp, c1, c2, Bool.false_eq_true, if_false, e1, e2, if_true, m4, mo, c5, c6, hs, Prod.mk.injEq, and_true]
  simp only [mulC, skewC, IMat.mk.injEq]
  refine ⟨?_, ?_, ?_, ?_, ?_, ?_, ?_, ?_, ?_⟩ <;> push_cast <;> first | rfl | omega

theorem niggliLoop_count_le (U : RMat ℚ) (eps : ℚ) : ∀ (fuel count : ℕ) (C : IMat),
    count + min fuel 1 ≤ (niggliLoop U eps fuel count C).2
  | 0, count, C => by simp [niggliLoop]
  | fuel + 1, count, C => by
    unfold niggliLoop
    rcases niggliPass U eps C with ⟨C', b⟩
    cases b
    · have := niggliLoop_count_le U eps fuel (count + 1) C'
      dsimp only
      omega
    · simp

theorem skew_count (N : ℕ) (eps : ℚ) (he : 0 ≤ eps) (he1 : eps < 1) : ∀ (fuel count j : ℕ), j ≤ N →
    count + min fuel (N - j + 1) ≤ (niggliLoop (skewCell N) eps fuel count (skewC j)).2
  | 0, count, j, _ => by simp [niggliLoop]
  | fuel + 1, count, j, hj => by
    rcases Nat.lt_or_ge j N with h | h
    · have := skew_count N eps he he1 fuel (count + 1) (j + 1) h
      unfold niggliLoop
      rw [skew_pass N j eps he he1 h]
      dsimp only
      omega
    · have := niggliLoop_count_le (skewCell N) eps (fuel + 1) count (skewC j)
      omega

end AutoGR
