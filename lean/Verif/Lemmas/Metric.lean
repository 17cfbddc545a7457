import Mathlib.Data.Matrix.Mul
import Mathlib.Tactic.FinCases
import Mathlib.Tactic.Ring
import Mathlib.Tactic.Linarith
import Mathlib.Tactic.Positivity
import Verif.Spec.Cell
import Verif.Lemmas.NiggliCheck

/-! # The parameters of the code and the metric of the cell -/

namespace AutoGR

open Matrix

theorem gram_apply (U : RMat ℚ) (C : IMat) (i j : Fin 3) :
    gram U C i j = cellMat U C 0 i * cellMat U C 0 j + cellMat U C 1 i * cellMat U C 1 j +
      cellMat U C 2 i * cellMat U C 2 j := by
  simp [gram, mul_apply, Fin.sum_univ_three]

theorem getParams_metric (U : RMat ℚ) (eps : ℚ) (C : IMat) :
    let p := getParams U eps C
    p.A = gram U C 0 0 ∧ p.B = gram U C 1 1 ∧ p.C = gram U C 2 2 ∧ p.xi = 2 * gram U C 1 2 ∧
      p.eta = 2 * gram U C 0 2 ∧ p.zeta = 2 * gram U C 0 1 := by
  refine ⟨?_, ?_, ?_, ?_, ?_, ?_⟩ <;>
  simp [getParams, gram_apply, cellMat, dot, dotInt, Arith.add, Arith.mul, Arith.ofInt, RMat.toMatrix, castMat,
    IMat.toMat, mul_apply, Fin.sum_univ_three] <;> ring

theorem cellMetric_metric (U : RMat ℚ) (C : IMat) :
    cellMetric U C = (gram U C 0 0, gram U C 1 1, gram U C 2 2, gram U C 1 2, gram U C 0 2,
      gram U C 0 1) := by
  simp only [cellMetric, Prod.mk.injEq]
  refine ⟨?_, ?_, ?_, ?_, ?_, ?_⟩ <;>
  simp [gram_apply, cellMat, dot, dotInt, Arith.add, Arith.mul, Arith.ofInt, RMat.toMatrix, castMat,
    IMat.toMat, mul_apply, Fin.sum_univ_three]

/-! ## The cube root -/

theorem icbrt_spec (n : ℕ) : ∀ (k r : ℕ), r ^ 3 ≤ n → n < (r + 2 ^ k) ^ 3 →
    icbrt n k r ^ 3 ≤ n ∧ n < (icbrt n k r + 1) ^ 3
  | 0, r, h1, h2 => by
    unfold icbrt
    exact ⟨h1, by simpa using h2⟩
  | k + 1, r, h1, h2 => by
    unfold icbrt
    split_ifs with h
    · refine icbrt_spec n k _ h ?_
      rwa [show r + 2 ^ k + 2 ^ k = r + 2 ^ (k + 1) by ring]
    · exact icbrt_spec n k _ h1 (by omega)

theorem cbrt_spec {x : ℚ} (h0 : 0 ≤ x) (h1 : x < 10 ^ 27) :
    0 ≤ (Arith.cbrt x : ℚ) ∧ (Arith.cbrt x : ℚ) ^ 3 ≤ x ∧ x < ((Arith.cbrt x : ℚ) + 1 / 10 ^ 15) ^ 3 := by
  have e : (Arith.cbrt x : ℚ) = (icbrt ⌊x * 10 ^ 45⌋.toNat 80 0 : ℚ) / 10 ^ 15 := rfl
  set n := ⌊x * 10 ^ 45⌋.toNat with hn
  have hf : (0 : ℤ) ≤ ⌊x * 10 ^ 45⌋ := Int.floor_nonneg.2 (by positivity)
  have hnz : (n : ℤ) = ⌊x * 10 ^ 45⌋ := Int.toNat_of_nonneg hf
  have hnq : (n : ℚ) = (⌊x * 10 ^ 45⌋ : ℚ) := by exact_mod_cast hnz
  have l1 : (n : ℚ) ≤ x * 10 ^ 45 := by rw [hnq]; exact Int.floor_le _
  have l2 : x * 10 ^ 45 < n + 1 := by rw [hnq]; exact Int.lt_floor_add_one _
  have hb : n < (0 + 2 ^ 80) ^ 3 := by
    have h2 : x * 10 ^ 45 < 10 ^ 27 * 10 ^ 45 := mul_lt_mul_of_pos_right h1 (by positivity)
    have : (n : ℚ) < ((0 + 2 ^ 80) ^ 3 : ℕ) := by
      refine lt_of_le_of_lt l1 (h2.trans ?_)
      norm_num
    exact_mod_cast this
  obtain ⟨s1, s2⟩ := icbrt_spec n 80 0 (by simp) hb
  set q := icbrt n 80 0 with hq
  rw [e]
  have s1q : (q : ℚ) ^ 3 ≤ n := by exact_mod_cast s1
  have s2q : (n : ℚ) + 1 ≤ ((q : ℚ) + 1) ^ 3 := by exact_mod_cast s2
  refine ⟨by positivity, ?_, ?_⟩
  · rw [div_pow, div_le_iff₀ (by positivity)]
    calc (q : ℚ) ^ 3 ≤ x * 10 ^ 45 := s1q.trans l1
      _ = x * (10 ^ 15) ^ 3 := by ring
  · rw [← add_div, div_pow, lt_div_iff₀ (by positivity)]
    calc x * (10 ^ 15) ^ 3 = x * 10 ^ 45 := by ring
      _ < ((q : ℚ) + 1) ^ 3 := lt_of_lt_of_le l2 s2q

end AutoGR
