import Verif.Model.Universal
import Verif.Spec.Float
import Mathlib.Tactic.Linarith
import Mathlib.Tactic.Positivity
import Mathlib.Tactic.FieldSimp

/-! # The triclinic loop of `find_volumes` -/

namespace AutoGR

open Spec

/-- A rounded quotient lies on the same side of a small integer as the exact one. -/
theorem fdiv_cmp {fl : ℚ → ℚ} {T : ℤ} (hfl : Rounding fl T (2 ^ 46)) {k m : ℤ} (hk : 0 ≤ k)
    (hT : 0 < T) (hm0 : 0 ≤ m) (hm : m ≤ 101) :
    (k < m * T → fdiv fl k T < m) ∧ (k = m * T → fdiv fl k T = m) ∧ (m * T < k → m < fdiv fl k T) := by
  have hTq : (0 : ℚ) < T := by exact_mod_cast hT
  have hmq : (m : ℚ) ≤ 101 := by exact_mod_cast hm
  have hm0q : (0 : ℚ) ≤ m := by exact_mod_cast hm0
  have hkq : (0 : ℚ) ≤ k := by exact_mod_cast hk
  have hq0 : (0 : ℚ) ≤ (k : ℚ) / T := by positivity
  rcases hfl with rfl | ⟨hfl, hT2⟩
  · simp only [fdiv, id]
    refine ⟨fun h => ?_, fun h => ?_, fun h => ?_⟩
    · rw [div_lt_iff₀ hTq]; exact_mod_cast h
    · rw [div_eq_iff hTq.ne']; exact_mod_cast h
    · rw [lt_div_iff₀ hTq]; exact_mod_cast h
  have hT2q : (T : ℚ) ≤ 2 ^ 46 := by exact_mod_cast hT2
  have hcl := hfl.close ((k : ℚ) / T)
  rw [abs_of_nonneg hq0] at hcl
  obtain ⟨c1, c2⟩ := abs_le.1 hcl
  have hinv : (1 : ℚ) / 2 ^ 46 ≤ 1 / T := one_div_le_one_div_of_le hTq hT2q
  unfold fdiv
  refine ⟨fun h => ?_, fun h => ?_, fun h => ?_⟩
  · have h1 : ((k + 1 : ℤ) : ℚ) ≤ ((m * T : ℤ) : ℚ) := by exact_mod_cast h
    push_cast at h1
    have h2 : (k : ℚ) / T + 1 / T ≤ m := by
      rw [← add_div, div_le_iff₀ hTq]; exact h1
    norm_num at *
    linarith
  · have h1 : (k : ℚ) / T = m := by
      rw [div_eq_iff hTq.ne']; exact_mod_cast h
    rw [h1]
    exact hfl.exact m (by rw [abs_of_nonneg hm0]; omega)
  · have h1 : ((m * T + 1 : ℤ) : ℚ) ≤ (k : ℚ) := by exact_mod_cast h
    push_cast at h1
    have h2 : (m : ℚ) + 1 / T ≤ k / T := by
      rw [le_div_iff₀ hTq, add_mul, one_div, inv_mul_cancel₀ hTq.ne']; exact h1
    norm_num at *
    linarith

theorem tricLoop_correct {fl : ℚ → ℚ} {kpd : ℤ} (hfl : Rounding fl kpd (10 ^ 14))
    (hk : 1 ≤ kpd) : ∀ (fuel : ℕ) (t : ℤ), 1 ≤ t → kpd + 2 ≤ t + fuel →
      (∀ s : ℤ, 1 ≤ s → s < t → 100 * s ^ 3 < kpd) →
      ∃ n m : ℤ, tricLoop fl kpd fuel t = some (n, m) ∧ 1 ≤ m ∧ n ≤ 100 ∧ n * m ^ 3 ≤ kpd ∧
        kpd < (n + 1) * m ^ 3 ∧ kpd ≤ 100 * m ^ 3 ∧
        ∀ s : ℤ, 1 ≤ s → s < m → 100 * s ^ 3 < kpd := by
  intro fuel
  induction fuel with
  | zero =>
    intro t ht hf hs
    exfalso
    push_cast at hf
    have h1 := hs (t - 1) (by omega) (by omega)
    have h2 : t - 1 ≤ (t - 1) ^ 3 := by
      nlinarith [sq_nonneg (t - 1), sq_nonneg (t - 2)]
    omega
  | succ fuel ih =>
    intro t ht hf hs
    have hT0 : 0 < t ^ 3 := by positivity
    have hfl' : Rounding fl (t ^ 3) (2 ^ 46) := by
      refine hfl.imp id fun ⟨hb, hk2⟩ => ⟨hb, ?_⟩
      have htb : t ≤ 10 ^ 4 := by
        by_contra hc
        have h1 := hs (t - 1) (by omega) (by omega)
        have h2 : (10 ^ 4 : ℤ) ≤ t - 1 := by omega
        have h3 : (10 ^ 4 : ℤ) ^ 3 ≤ (t - 1) ^ 3 := pow_le_pow_left₀ (by norm_num) h2 3
        omega
      have h3 : t ^ 3 ≤ (10 ^ 4 : ℤ) ^ 3 := pow_le_pow_left₀ (by omega) htb 3
      omega
    have cmp := fun m h0 h1 => fdiv_cmp hfl' (k := kpd) (m := m) (by omega) hT0 h0 h1
    unfold tricLoop
    dsimp only
    by_cases hq : kpd ≤ 100 * t ^ 3
    · have htest : fdiv fl kpd ((t ^ 3 : ℤ) : ℚ) ≤ 100 := by
        rcases lt_or_eq_of_le hq with h | h
        · exact_mod_cast ((cmp 100 (by norm_num) (by norm_num)).1 h).le
        · exact_mod_cast ((cmp 100 (by norm_num) (by norm_num)).2.1 h).le
      rw [if_pos htest]
      set m := kpd / t ^ 3 with hm
      have hm1 : m * t ^ 3 ≤ kpd := Int.ediv_mul_le _ hT0.ne'
      have hm2 : kpd < (m + 1) * t ^ 3 := Int.lt_ediv_add_one_mul_self _ hT0
      have hm0 : 0 ≤ m := Int.ediv_nonneg (by omega) hT0.le
      have hm100 : m ≤ 100 := by
        by_contra hc
        nlinarith
      have hfloor : ⌊fdiv fl kpd ((t ^ 3 : ℤ) : ℚ)⌋ = m := by
        rw [Int.floor_eq_iff]
        constructor
        · rcases lt_or_eq_of_le hm1 with h | h
          · exact ((cmp m hm0 (by omega)).2.2 h).le
          · exact ((cmp m hm0 (by omega)).2.1 h.symm).ge
        · have := (cmp (m + 1) (by omega) (by omega)).1 hm2
          exact_mod_cast this
      exact ⟨m, t, by rw [hfloor], ht, hm100, hm1, hm2, hq, hs⟩
    · have htest : ¬ fdiv fl kpd ((t ^ 3 : ℤ) : ℚ) ≤ 100 := by
        rw [not_le]
        exact_mod_cast (cmp 100 (by norm_num) (by norm_num)).2.2 (by omega)
      rw [if_neg htest]
      refine ih (t + 1) (by omega) (by push_cast at hf; omega) ?_
      intro s h1 h2
      rcases eq_or_lt_of_le (show s ≤ t by omega) with rfl | hlt
      · omega
      · exact hs s h1 hlt

end AutoGR
