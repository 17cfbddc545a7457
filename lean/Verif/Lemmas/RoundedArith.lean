import Verif.Model.Rounded
import Verif.Spec.Accurate
import Verif.Lemmas.Metric
import Mathlib.Tactic.Positivity
import Mathlib.Tactic.Linarith
import Mathlib.Tactic.NormNum

/-! # Exact and rounded arithmetic are accurate -/

namespace AutoGR

open Spec

/-- Exact arithmetic is accurate; only the cube root has an error. -/
theorem accurate_rat {M : ℝ} (hM : M < 10 ^ 27) : Accurate ℚ (fun q : ℚ => (q : ℝ)) M (1 / 10 ^ 15) := by
  have e0 : (0 : ℝ) ≤ 1 / 10 ^ 15 := by positivity
  refine ⟨e0, ?_, ?_, ?_, ?_, ?_, ?_, ?_, ?_, ?_, ?_, ?_⟩
  · intro x y _
    show |((x + y : ℚ) : ℝ) - (x + y)| ≤ _
    push_cast
    rw [sub_self, abs_zero]
    exact e0
  · intro x y _
    show |((x - y : ℚ) : ℝ) - (x - y)| ≤ _
    push_cast
    rw [sub_self, abs_zero]
    exact e0
  · intro x y _
    show |((x * y : ℚ) : ℝ) - (x * y)| ≤ _
    push_cast
    rw [sub_self, abs_zero]
    exact e0
  · intro x y _ _
    show |((x / y : ℚ) : ℝ) - (x / y)| ≤ _
    push_cast
    rw [sub_self, abs_zero]
    exact e0
  · intro x
    show ((-x : ℚ) : ℝ) = _
    push_cast
    rfl
  · intro x
    show ((|x| : ℚ) : ℝ) = _
    push_cast
    rfl
  · intro x y
    show decide (x < y) = true ↔ _
    rw [decide_eq_true_eq]
    exact Rat.cast_lt.symm
  · intro x y
    show decide (x ≤ y) = true ↔ _
    rw [decide_eq_true_eq]
    exact Rat.cast_le.symm
  · intro z _
    show ((z : ℚ) : ℝ) = _
    push_cast
    rfl
  · intro q _
    show |(q : ℝ) - q| ≤ _
    rw [sub_self, abs_zero]
    exact e0
  · intro x h0 h1
    have h0' : 0 ≤ x := by exact_mod_cast h0
    have h1' : x < 10 ^ 27 := by
      have : (x : ℝ) < ((10 ^ 27 : ℚ) : ℝ) := by push_cast; linarith
      exact_mod_cast this
    obtain ⟨a, b, c⟩ := cbrt_spec h0' h1'
    have a' : (0 : ℝ) ≤ ((Arith.cbrt x : ℚ) : ℝ) := by exact_mod_cast a
    have b' : ((Arith.cbrt x : ℚ) : ℝ) ^ 3 ≤ x := by exact_mod_cast b
    have c' : (x : ℝ) < (((Arith.cbrt x : ℚ) : ℝ) + 1 / 10 ^ 15) ^ 3 := by
      have : (x : ℝ) < (((Arith.cbrt x + 1 / 10 ^ 15) ^ 3 : ℚ) : ℝ) := by exact_mod_cast c
      push_cast at this
      exact this
    refine ⟨a', le_trans ?_ b', c'.le⟩
    exact (Odd.strictMono_pow (by decide : Odd 3)).monotone (by linarith)

/-- Arithmetic that rounds to binary64 after every operation is accurate: for results up to `M` the error is
`M / 2 ^ 53`, and that of the cube root. -/
theorem accurate_rounded {fl : ℚ → ℚ} (h : Binary64 fl) {M : ℝ} (h1 : 1 ≤ M) (hM : M ≤ 2 ^ 53) :
    Accurate (Rounded fl) (fun x => (x.q : ℝ)) M (M / 2 ^ 53 + 1 / 10 ^ 15) := by
  have e0 : (0 : ℝ) ≤ M / 2 ^ 53 := by positivity
  have e1 : (0 : ℝ) ≤ 1 / 10 ^ 15 := by positivity
  have close (q : ℚ) : |(fl q : ℝ) - q| ≤ |(q : ℝ)| / 2 ^ 53 := by
    have := h.close q
    exact_mod_cast this
  have near (q : ℚ) (hq : |(q : ℝ)| ≤ M) : |(fl q : ℝ) - q| ≤ M / 2 ^ 53 + 1 / 10 ^ 15 := by
    have := div_le_div_of_nonneg_right hq (show (0 : ℝ) ≤ 2 ^ 53 by positivity)
    linarith [close q]
  refine ⟨by linarith, ?_, ?_, ?_, ?_, ?_, ?_, ?_, ?_, ?_, ?_, ?_⟩
  · intro x y hxy
    have := near (x.q + y.q) (by push_cast; exact hxy)
    push_cast at this
    exact this
  · intro x y hxy
    have := near (x.q - y.q) (by push_cast; exact hxy)
    push_cast at this
    exact this
  · intro x y hxy
    have := near (x.q * y.q) (by push_cast; exact hxy)
    push_cast at this
    exact this
  · intro x y _ hxy
    have := near (x.q / y.q) (by push_cast; exact hxy)
    push_cast at this
    exact this
  · intro x
    show ((-x.q : ℚ) : ℝ) = _
    push_cast
    rfl
  · intro x
    show ((|x.q| : ℚ) : ℝ) = _
    push_cast
    rfl
  · intro x y
    show decide (x.q < y.q) = true ↔ _
    rw [decide_eq_true_eq]
    exact Rat.cast_lt.symm
  · intro x y
    show decide (x.q ≤ y.q) = true ↔ _
    rw [decide_eq_true_eq]
    exact Rat.cast_le.symm
  · intro z hz
    have hz' : |z| ≤ 2 ^ 53 := by
      have : ((|z| : ℤ) : ℝ) ≤ ((2 ^ 53 : ℤ) : ℝ) := by push_cast; linarith
      exact_mod_cast this
    show ((fl z : ℚ) : ℝ) = _
    rw [h.exact z hz']
    push_cast
    rfl
  · intro q hq
    exact near q hq
  · intro x h0 hx
    have h0' : 0 ≤ x.q := by exact_mod_cast h0
    have h27 : x.q < 10 ^ 27 := by
      have : (x.q : ℝ) < ((10 ^ 27 : ℚ) : ℝ) := by
        push_cast
        calc (x.q : ℝ) ≤ 2 ^ 53 := hx.trans hM
          _ < 10 ^ 27 := by norm_num
      exact_mod_cast this
    obtain ⟨a, b, c⟩ := cbrt_spec h0' h27
    set r : ℚ := Arith.cbrt x.q with hr
    have a' : (0 : ℝ) ≤ (r : ℝ) := by exact_mod_cast a
    have b' : (r : ℝ) ^ 3 ≤ x.q := by exact_mod_cast b
    have c' : (x.q : ℝ) < ((r : ℝ) + 1 / 10 ^ 15) ^ 3 := by
      have : (x.q : ℝ) < (((r + 1 / 10 ^ 15) ^ 3 : ℚ) : ℝ) := by exact_mod_cast c
      push_cast at this
      exact this
    have rM : (r : ℝ) ≤ M := by
      by_contra hc
      rw [not_le] at hc
      have h3 : M < (r : ℝ) ^ 3 := by
        calc M < r := hc
          _ ≤ (r : ℝ) ^ 3 := le_self_pow₀ (by linarith) (by norm_num)
      linarith
    have cl := close r
    rw [abs_of_nonneg a'] at cl
    have cl2 := div_le_div_of_nonneg_right rM (show (0 : ℝ) ≤ 2 ^ 53 by positivity)
    have cl' := abs_le.1 cl
    show 0 ≤ ((fl r : ℚ) : ℝ) ∧ (((fl r : ℚ) : ℝ) - _) ^ 3 ≤ _ ∧ _ ≤ (((fl r : ℚ) : ℝ) + _) ^ 3
    have mono := (Odd.strictMono_pow (R := ℝ) (by decide : Odd 3)).monotone
    refine ⟨?_, le_trans (mono ?_) b', c'.le.trans (mono ?_)⟩
    · have : (r : ℝ) / 2 ^ 53 ≤ r := div_le_self a' (by norm_num)
      linarith
    · linarith
    · linarith

end AutoGR
