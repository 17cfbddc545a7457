import Verif.Model.FortranGen
import Verif.Lemmas.IsInt

/-! # Truncating division and `MOD` as integrality conditions -/

namespace AutoGR

namespace Fortran

open Spec

theorem tmod_q {x m : ℤ} (hm : 0 < m) : Int.tmod x m = 0 ↔ IsInt ((x : ℚ) / m) := by
  rw [← emod_q hm, ← Int.dvd_iff_tmod_eq_zero, ← Int.dvd_iff_emod_eq_zero]

theorem tdiv_q {x y : ℤ} {r s : ℚ} (hx : (x : ℚ) = r) (hy : (y : ℚ) = s) (h : IsInt (r / s)) :
    ((Int.tdiv x y : ℤ) : ℚ) = r / s := by
  subst hx hy
  obtain ⟨k, hk⟩ := h
  rcases eq_or_ne y 0 with rfl | h0
  · simp
  · have h0' : (y : ℚ) ≠ 0 := by exact_mod_cast h0
    have : x = k * y := by
      rw [div_eq_iff h0'] at hk
      exact_mod_cast hk
    rw [hk, this, Int.mul_tdiv_cancel _ h0]

theorem mod_q {x m : ℤ} (hm : 0 < m) : MOD x m = 0 ↔ IsInt ((x : ℚ) / m) := tmod_q hm

theorem mod_emod {x m : ℤ} (hm : 0 < m) : MOD x m = 0 ↔ x % m = 0 := by
  unfold MOD
  rw [tmod_q hm, emod_q hm]

/-- Two halves with `2be/(cf)` an integer: one of them is zero. -/
theorem halves_prod {b c e f : ℤ} (hc : 0 < c) (hf : 0 < f) (b0 : 0 ≤ b) (b1 : b < c) (e0 : 0 ≤ e)
    (e1 : e < f) (hb : IsInt (2 * (b : ℚ) / c)) (he : IsInt (2 * (e : ℚ) / f))
    (h : IsInt (2 * (b : ℚ) * e / (c * f))) : IsInt ((b : ℚ) * e / c) := by
  have hc' : (c : ℚ) ≠ 0 := by exact_mod_cast hc.ne'
  have hf' : (f : ℚ) ≠ 0 := by exact_mod_cast hf.ne'
  obtain ⟨u, hu⟩ := hb
  obtain ⟨v, hv⟩ := he
  obtain ⟨t, ht⟩ := h
  rw [div_eq_iff hc'] at hu
  rw [div_eq_iff hf'] at hv
  have hu' : 2 * b = u * c := by exact_mod_cast hu
  have hv' : 2 * e = v * f := by exact_mod_cast hv
  have ht' : 2 * t = u * v := by
    have : (2 * t : ℚ) = u * v := by
      rw [← ht]
      have : (b : ℚ) = u * c / 2 := by linarith
      have h2 : (e : ℚ) = v * f / 2 := by linarith
      rw [this, h2]
      field_simp
    exact_mod_cast this
  have hu0 : u = 0 ∨ u = 1 := by
    have h1 : 0 ≤ u := by nlinarith
    have h2 : u < 2 := by nlinarith
    omega
  have hv0 : v = 0 ∨ v = 1 := by
    have h1 : 0 ≤ v := by nlinarith
    have h2 : v < 2 := by nlinarith
    omega
  have : b * e = 0 := by
    rcases hu0 with rfl | rfl
    · have : b = 0 := by omega
      simp [this]
    · rcases hv0 with rfl | rfl
      · have : e = 0 := by omega
        simp [this]
      · omega
  have : (b : ℚ) * e = 0 := by exact_mod_cast this
  rw [this]
  exact ⟨0, by simp⟩

theorem get_HNF_diagonals_eq (n : ℤ) : get_HNF_diagonals n = getHNFDiagonals n := by
  unfold get_HNF_diagonals getHNFDiagonals
  refine List.flatMap_congr fun i hi => ?_
  have hi' := mem_pyRange.1 hi
  have h1 : MOD n i = 0 ↔ n % i = 0 := mod_emod (by omega)
  by_cases h : n % i = 0
  · rw [if_pos h, if_pos (h1.2 h)]
    have e1 : Int.tdiv n i = n / i := Int.tdiv_eq_ediv_of_nonneg (by omega)
    have hq : 0 ≤ n / i := Int.ediv_nonneg (by omega) (by omega)
    dsimp only
    rw [e1]
    refine List.flatMap_congr fun j hj => ?_
    have hj' := mem_pyRange.1 hj
    have h2 : MOD (n / i) j = 0 ↔ n / i % j = 0 := mod_emod (by omega)
    have e2 : Int.tdiv (n / i) j = n / i / j := Int.tdiv_eq_ediv_of_nonneg hq
    simp only [h2, e2]
  · rw [if_neg h, if_neg (fun h' => h (h1.1 h'))]

/-- Closes `(integer expression : ℚ) = rational expression`, no divisions. -/
macro "q_cs" : tactic => `(tactic| first
  | rfl
  | (push_cast; rfl)
  | (push_cast; done)
  | (push_cast; ring))

open Lean.Parser.Tactic in
/-- The same with truncating divisions known to be exact. -/
macro "q_cst" "[" s:simpLemma,* "]" : tactic => `(tactic| first
  | rfl
  | (push_cast; done)
  | (push_cast; simp only [$s,*]; done)
  | (push_cast; simp only [$s,*]; ring)
  | (push_cast; ring))

open Lean.Parser.Tactic in
/-- `q_eq` with truncating divisions known to be exact. -/
macro "q_st" "[" s:simpLemma,* "]" : tactic => `(tactic| first
  | (push_cast; simp only [$s,*]; q_eq)
  | (push_cast; simp only [$s,*]; done)
  | q_eq)

end Fortran

end AutoGR
