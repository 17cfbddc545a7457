import Mathlib.LinearAlgebra.Matrix.NonsingularInverse
import Mathlib.Data.Int.GCD
import Mathlib.Tactic.FinCases
import Mathlib.Tactic.Ring
import Mathlib.Tactic.LinearCombination
import Verif.Spec.Lattice

/-! # Every sublattice of finite index has exactly one Hermite normal form -/

namespace AutoGR

open Spec Matrix

theorem Spec.SameSpan.refl (M : IntMat) : SameSpan M M := ⟨1, by simp, by simp⟩

theorem Spec.SameSpan.trans {M N P : IntMat} : SameSpan M N → SameSpan N P → SameSpan M P := by
  rintro ⟨W, hW, rfl⟩ ⟨V, hV, rfl⟩
  exact ⟨W * V, by rw [det_mul]; exact hW.mul hV, by rw [Matrix.mul_assoc]⟩

theorem Spec.SameSpan.symm {M N : IntMat} : SameSpan M N → SameSpan N M := by
  rintro ⟨W, hW, rfl⟩
  exact ⟨W⁻¹, by rw [det_nonsing_inv]; simpa using hW,
    by rw [Matrix.mul_assoc, mul_nonsing_inv _ hW, Matrix.mul_one]⟩

/-- The two-column Bezout step. -/
theorem bezout (x y : ℤ) : ∃ u v s t : ℤ, u * t - v * s = 1 ∧ x * s + y * t = 0 := by
  by_cases h : x = 0 ∧ y = 0
  · exact ⟨1, 0, 0, 1, by ring, by simp [h.1, h.2]⟩
  · have hg : (Int.gcd x y : ℤ) ≠ 0 := by
      intro h0
      exact h (Int.gcd_eq_zero_iff.1 (by exact_mod_cast h0))
    obtain ⟨a, ha⟩ := Int.gcd_dvd_left x y
    obtain ⟨b, hb⟩ := Int.gcd_dvd_right x y
    have e := Int.gcd_eq_gcd_ab x y
    set g : ℤ := (Int.gcd x y : ℤ)
    set u := Int.gcdA x y
    set v := Int.gcdB x y
    refine ⟨u, v, -b, a, ?_, ?_⟩
    · apply mul_left_cancel₀ hg
      linear_combination (-u) * ha - v * hb - e
    · have h1 : x = g * a := ha
      have h2 : y = g * b := hb
      linear_combination (-b) * h1 + a * h2

theorem ext9 {M N : IntMat} (h : ∀ i j, M i j = N i j) : M = N := by
  ext i j; exact h i j

/-- Kill entry (0,1). -/
theorem kill01 (M : IntMat) : ∃ N, SameSpan M N ∧ N 0 1 = 0 := by
  obtain ⟨u, v, s, t, h1, h2⟩ := bezout (M 0 0) (M 0 1)
  refine ⟨M * !![u, s, 0; v, t, 0; 0, 0, 1], ⟨_, ?_, rfl⟩, ?_⟩
  · rw [det_fin_three]; simp; rw [show u * t - s * v = 1 by linarith]; exact isUnit_one
  · simp [mul_apply, Fin.sum_univ_three]; linarith

theorem kill02 (M : IntMat) (h : M 0 1 = 0) : ∃ N, SameSpan M N ∧ N 0 1 = 0 ∧ N 0 2 = 0 := by
  obtain ⟨u, v, s, t, h1, h2⟩ := bezout (M 0 0) (M 0 2)
  refine ⟨M * !![u, 0, s; 0, 1, 0; v, 0, t], ⟨_, ?_, rfl⟩, ?_, ?_⟩
  · rw [det_fin_three]; simp; rw [show u * t - s * v = 1 by linarith]; exact isUnit_one
  · simp [mul_apply, Fin.sum_univ_three, h]
  · simp [mul_apply, Fin.sum_univ_three]; linarith

theorem kill12 (M : IntMat) (h : M 0 1 = 0) (h' : M 0 2 = 0) :
    ∃ N, SameSpan M N ∧ N 0 1 = 0 ∧ N 0 2 = 0 ∧ N 1 2 = 0 := by
  obtain ⟨u, v, s, t, h1, h2⟩ := bezout (M 1 1) (M 1 2)
  refine ⟨M * !![1, 0, 0; 0, u, s; 0, v, t], ⟨_, ?_, rfl⟩, ?_, ?_, ?_⟩
  · rw [det_fin_three]; simp; rw [show u * t - s * v = 1 by linarith]; exact isUnit_one
  · simp [mul_apply, Fin.sum_univ_three, h, h']
  · simp [mul_apply, Fin.sum_univ_three, h, h']
  · simp [mul_apply, Fin.sum_univ_three]; linarith

theorem lower_eq {N : IntMat} (h1 : N 0 1 = 0) (h2 : N 0 2 = 0) (h3 : N 1 2 = 0) :
    N = !![N 0 0, 0, 0; N 1 0, N 1 1, 0; N 2 0, N 2 1, N 2 2] := by
  ext i j
  fin_cases i <;> fin_cases j <;> simp [h1, h2, h3]

theorem exists_sign {x : ℤ} (hx : x ≠ 0) : ∃ e : ℤ, IsUnit e ∧ 0 < x * e := by
  rcases lt_or_gt_of_ne hx with h | h
  · exact ⟨-1, isUnit_one.neg, by omega⟩
  · exact ⟨1, isUnit_one, by omega⟩

theorem exists_lower {M : IntMat} (hM : M.det ≠ 0) : ∃ a b c d e f : ℤ, 0 < a ∧ 0 < c ∧ 0 < f ∧
    SameSpan M !![a, 0, 0; b, c, 0; d, e, f] := by
  obtain ⟨N1, s1, h1⟩ := kill01 M
  obtain ⟨N2, s2, h2, h3⟩ := kill02 N1 h1
  obtain ⟨N, s3, h4, h5, h6⟩ := kill12 N2 h2 h3
  have s := (s1.trans s2).trans s3
  have hN : N.det ≠ 0 := by
    obtain ⟨W, hW, rfl⟩ := s
    rw [det_mul]
    exact mul_ne_zero hM hW.ne_zero
  rw [lower_eq h4 h5 h6, det_fin_three] at hN
  simp only [of_apply, cons_val', cons_val_zero, cons_val_one, cons_val, mul_zero, zero_mul,
    sub_zero, add_zero] at hN
  obtain ⟨e0, u0, p0⟩ := exists_sign (x := N 0 0) (fun h => hN (by rw [h]; ring))
  obtain ⟨e1, u1, p1⟩ := exists_sign (x := N 1 1) (fun h => hN (by rw [h]; ring))
  obtain ⟨e2, u2, p2⟩ := exists_sign (x := N 2 2) (fun h => hN (by rw [h]; ring))
  refine ⟨_, N 1 0 * e0, _, N 2 0 * e0, N 2 1 * e1, _, p0, p1, p2, s.trans
    ⟨!![e0, 0, 0; 0, e1, 0; 0, 0, e2], ?_, ?_⟩⟩
  · rw [det_fin_three]; simpa using (u0.mul u1).mul u2
  · ext i j
    fin_cases i <;> fin_cases j <;> simp [mul_apply, Fin.sum_univ_three, h4, h5, h6]

theorem hnf_exists {M : IntMat} (hM : M.det ≠ 0) : ∃ H, IsHNF H ∧ SameSpan M H := by
  obtain ⟨a, b, c, d, e, f, ha, hc, hf, s⟩ := exists_lower hM
  let q := b / c
  let r := e / f
  let d' := d - q * e
  let p := d' / f
  refine ⟨!![a, 0, 0; b % c, c, 0; d' % f, e % f, f], ?_, s.trans
    ⟨!![1, 0, 0; -q, 1, 0; -p, -r, 1], ?_, ?_⟩⟩
  · constructor <;> simp [ha, hc, hf, Int.emod_nonneg _ hc.ne', Int.emod_lt_of_pos _ hc,
      Int.emod_nonneg _ hf.ne', Int.emod_lt_of_pos _ hf]
  · rw [det_fin_three]; simp
  · have e1 := Int.emod_add_mul_ediv b c
    have e2 := Int.emod_add_mul_ediv e f
    have e3 := Int.emod_add_mul_ediv d' f
    ext i j
    fin_cases i <;> fin_cases j <;> simp [mul_apply, Fin.sum_univ_three]
    · linear_combination e1
    · linear_combination e3
    · linear_combination e2

theorem hnf_unique {H H' : IntMat} (h : IsHNF H) (h' : IsHNF H') (s : SameSpan H H') : H = H' := by
  obtain ⟨W, hW, e⟩ := s
  have hWd : W.det = 1 ∨ W.det = -1 := Int.isUnit_iff.1 hW
  have E := fun i j => congrFun (congrFun e i) j
  simp only [mul_apply, Fin.sum_univ_three] at E
  obtain ⟨a1, a2, a3, a4, a5, a6, a7, a8, a9⟩ := h
  obtain ⟨b1, b2, b3, b4, b5, b6, b7, b8, b9⟩ := h'
  have E00 := E 0 0; have E01 := E 0 1; have E02 := E 0 2
  have E10 := E 1 0; have E11 := E 1 1; have E12 := E 1 2
  have E20 := E 2 0; have E21 := E 2 1; have E22 := E 2 2
  rw [a1, a2] at E00 E01 E02
  rw [a3] at E10 E11 E12
  rw [b1] at E01
  rw [b2] at E02
  rw [b3] at E12
  have w01 : W 0 1 = 0 := by
    have : H 0 0 * W 0 1 = 0 := by linarith
    exact (mul_eq_zero.1 this).resolve_left a4.ne'
  have w02 : W 0 2 = 0 := by
    have : H 0 0 * W 0 2 = 0 := by linarith
    exact (mul_eq_zero.1 this).resolve_left a4.ne'
  rw [w02] at E12 E22
  rw [w01] at E11 E21
  have w12 : W 1 2 = 0 := by
    have : H 1 1 * W 1 2 = 0 := by linarith
    exact (mul_eq_zero.1 this).resolve_left a5.ne'
  rw [w12] at E22
  have p0 : 0 < W 0 0 := by
    by_contra hc
    have : H 0 0 * W 0 0 ≤ 0 := mul_nonpos_of_nonneg_of_nonpos a4.le (by omega)
    linarith
  have p1 : 0 < W 1 1 := by
    by_contra hc
    have : H 1 1 * W 1 1 ≤ 0 := mul_nonpos_of_nonneg_of_nonpos a5.le (by omega)
    linarith
  have p2 : 0 < W 2 2 := by
    by_contra hc
    have : H 2 2 * W 2 2 ≤ 0 := mul_nonpos_of_nonneg_of_nonpos a6.le (by omega)
    linarith
  have hd : W 0 0 * (W 1 1 * W 2 2) = 1 := by
    rw [det_fin_three, w01, w02, w12] at hWd
    have h0 : 0 < W 0 0 * (W 1 1 * W 2 2) := mul_pos p0 (mul_pos p1 p2)
    rcases hWd with h | h
    · linarith
    · exfalso; linarith
  have w00 : W 0 0 = 1 := Int.eq_one_of_mul_eq_one_right p0.le hd
  rw [w00, one_mul] at hd
  have w11 : W 1 1 = 1 := Int.eq_one_of_mul_eq_one_right p1.le hd
  rw [w11, one_mul] at hd
  rw [w00] at E00 E10 E20
  rw [w11] at E11 E21
  rw [hd] at E22
  have d0 : H' 0 0 = H 0 0 := by linarith
  have d1 : H' 1 1 = H 1 1 := by linarith
  have d2 : H' 2 2 = H 2 2 := by linarith
  have small {x y c w : ℤ} (hx : 0 ≤ x ∧ x < c) (hy : 0 ≤ y ∧ y < c) (hxy : y = x + c * w) :
      w = 0 := by
    obtain ⟨hx1, hx2⟩ := hx
    obtain ⟨hy1, hy2⟩ := hy
    have l1 : c * w < c * 1 := by linarith
    have l2 : c * (-1) < c * w := by linarith
    have hc : 0 < c := by linarith
    have := lt_of_mul_lt_mul_left l1 hc.le
    have := lt_of_mul_lt_mul_left l2 hc.le
    omega
  rw [d1] at b7
  rw [d2] at b8 b9
  have w10 : W 1 0 = 0 := small a7 b7 (by linarith)
  have w21 : W 2 1 = 0 := small a9 b9 (by linarith)
  rw [w10] at E10 E20
  have w20 : W 2 0 = 0 := small a8 b8 (by linarith)
  rw [w20] at E20
  rw [w21] at E21
  ext i j
  fin_cases i <;> fin_cases j <;> simp <;> linarith

end AutoGR
