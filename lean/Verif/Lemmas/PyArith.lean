import Mathlib.Tactic
import Verif.Model.PyArith
import Verif.Model.Generators
import Verif.Spec.Lattice

/-! # Membership lemmas for ranges, `halves`, `%`, and the factor triples -/

namespace AutoGR

open Spec

theorem mem_pyRange {lo hi x : ℤ} : x ∈ pyRange lo hi ↔ lo ≤ x ∧ x < hi := by
  simp only [pyRange, List.mem_map, List.mem_range]
  constructor
  · rintro ⟨k, hk, rfl⟩; omega
  · rintro ⟨h1, h2⟩
    exact ⟨(x - lo).toNat, by omega, by omega⟩

theorem nodup_pyRange (lo hi : ℤ) : (pyRange lo hi).Nodup := by
  unfold pyRange
  refine (List.nodup_range).map ?_
  intro a b h
  simpa using h

theorem mem_pyRangeStep {hi step x : ℤ} (hs : 0 < step) :
    x ∈ pyRangeStep hi step ↔ (∃ t : ℤ, x = step * t) ∧ 0 ≤ x ∧ x < hi := by
  simp only [pyRangeStep, List.mem_map, List.mem_range]
  constructor
  · rintro ⟨k, hk, rfl⟩
    refine ⟨⟨k, by ring⟩, by positivity, ?_⟩
    have h1 : (k : ℤ) < (hi + step - 1) / step := by omega
    have h2 : (k : ℤ) + 1 ≤ (hi + step - 1) / step := by omega
    have h3 := (Int.le_ediv_iff_mul_le hs).1 h2
    nlinarith
  · rintro ⟨⟨t, rfl⟩, h0, h1⟩
    have ht : 0 ≤ t := by
      by_contra h
      have : t ≤ -1 := by omega
      nlinarith
    refine ⟨t.toNat, ?_, ?_⟩
    · have : t + 1 ≤ (hi + step - 1) / step := by
        rw [Int.le_ediv_iff_mul_le hs]
        nlinarith
      omega
    · rw [Int.toNat_of_nonneg ht]; ring

theorem nodup_pyRangeStep {hi step : ℤ} (hs : 0 < step) : (pyRangeStep hi step).Nodup := by
  unfold pyRangeStep
  refine (List.nodup_range).map ?_
  intro a b h
  have : (a : ℤ) * step = b * step := h
  have := mul_right_cancel₀ hs.ne' this
  exact_mod_cast this

theorem mem_halves {c b : ℤ} (hc : 0 < c) :
    b ∈ halves c ↔ (∃ t : ℤ, 2 * b = c * t) ∧ 0 ≤ b ∧ b < c := by
  unfold halves
  constructor
  · intro h
    split_ifs at h with h2
    · rcases List.mem_pair.1 h with rfl | rfl
      · exact ⟨⟨0, by ring⟩, le_rfl, hc⟩
      · exact ⟨⟨1, by omega⟩, by omega, by omega⟩
    · rw [List.mem_singleton] at h
      subst h
      exact ⟨⟨0, by ring⟩, le_rfl, hc⟩
  · rintro ⟨⟨t, ht⟩, h0, h1⟩
    have ht0 : 0 ≤ t := by
      by_contra h
      have : t ≤ -1 := by omega
      nlinarith
    have ht1 : t < 2 := by
      by_contra h
      have : 2 ≤ t := by omega
      nlinarith
    have : t = 0 ∨ t = 1 := by omega
    rcases this with rfl | rfl
    · have : b = 0 := by omega
      subst this
      split_ifs <;> simp
    · have : c % 2 = 0 := by omega
      rw [if_pos this]
      have : b = c / 2 := by omega
      simp [this]

theorem nodup_halves {c : ℤ} (hc : 0 < c) : (halves c).Nodup := by
  unfold halves
  split_ifs
  · simp only [List.nodup_cons, List.mem_singleton, List.not_mem_nil, not_false_eq_true,
      List.nodup_nil, and_true]
    omega
  · simp

theorem pyMod_eq_zero {x m : ℚ} (hm : m ≠ 0) : pyMod x m = 0 ↔ ∃ k : ℤ, x = m * k := by
  unfold pyMod
  constructor
  · intro h
    exact ⟨⌊x / m⌋, by linarith⟩
  · rintro ⟨k, rfl⟩
    rw [mul_div_cancel_left₀ _ hm]
    simp

/-- The form in which the generators use it: a multiple of a positive integer. -/
theorem pyMod_int {x : ℚ} {m : ℤ} (hm : 0 < m) : pyMod x m = 0 ↔ ∃ k : ℤ, x = m * k :=
  pyMod_eq_zero (by exact_mod_cast hm.ne')

theorem mem_getHNFDiagonals {n a c f : ℤ} :
    (a, c, f) ∈ getHNFDiagonals n ↔ 0 < a ∧ 0 < c ∧ 0 < f ∧ a * c * f = n := by
  simp only [getHNFDiagonals, List.mem_flatMap, mem_pyRange, List.mem_ite_nil_right,
    List.mem_singleton, Prod.mk.injEq]
  constructor
  · rintro ⟨i, ⟨hi1, hi2⟩, hni, j, ⟨hj1, hj2⟩, hq, rfl, rfl, rfl⟩
    have h1 := Int.ediv_mul_cancel (Int.dvd_of_emod_eq_zero hni)
    have h2 := Int.ediv_mul_cancel (Int.dvd_of_emod_eq_zero hq)
    refine ⟨by omega, by omega, ?_, ?_⟩
    · by_contra h
      have : n / a / c ≤ 0 := by omega
      nlinarith
    · calc a * c * (n / a / c) = a * (n / a / c * c) := by ring
        _ = n / a * a := by rw [h2]; ring
        _ = n := h1
  · rintro ⟨ha, hc, hf, rfl⟩
    have e1 : a * c * f / a = c * f := by
      rw [mul_assoc, Int.mul_ediv_cancel_left _ ha.ne']
    have e2 : c * f / c = f := Int.mul_ediv_cancel_left _ hc.ne'
    refine ⟨a, ⟨by omega, ?_⟩, ?_, c, ⟨by omega, ?_⟩, ?_, rfl, rfl, ?_⟩
    · have : 1 ≤ c * f := by nlinarith
      nlinarith
    · rw [mul_assoc]; exact Int.mul_emod_right _ _
    · rw [e1]; nlinarith
    · rw [e1]; exact Int.mul_emod_right _ _
    · rw [e1, e2]

/-- The HNFs of the specification are the matrices `hnf a b c d e f` with entries in range. -/
theorem isHNF_det_iff {H : IntMat} {n : ℤ} : IsHNF H ∧ H.det = n ↔
    ∃ a c f : ℤ, (0 < a ∧ 0 < c ∧ 0 < f ∧ a * c * f = n) ∧ ∃ b d e : ℤ,
      (0 ≤ b ∧ b < c) ∧ (0 ≤ d ∧ d < f) ∧ (0 ≤ e ∧ e < f) ∧ H = hnf a b c d e f := by
  constructor
  · rintro ⟨⟨h01, h02, h12, p0, p1, p2, l10, l20, l21⟩, hd⟩
    refine ⟨H 0 0, H 1 1, H 2 2, ⟨p0, p1, p2, ?_⟩, H 1 0, H 2 0, H 2 1, l10, l20, l21, ?_⟩
    · rw [← hd, Matrix.det_fin_three, h01, h02, h12]; ring
    · ext i j
      fin_cases i <;> fin_cases j <;> simp [hnf, h01, h02, h12]
  · rintro ⟨a, c, f, ⟨ha, hc, hf, hn⟩, b, d, e, hb, hd, he, rfl⟩
    refine ⟨⟨?_, ?_, ?_, ?_, ?_, ?_, ?_, ?_, ?_⟩, ?_⟩ <;>
      simp [hnf, Matrix.det_fin_three, ha, hc, hf, hb, hd, he, hn]

/-- `Keeps` for an HNF, column by column: the nine entries of `Y = H⁻¹ X H`. -/
theorem keeps_hnf_iff {x00 x01 x02 x10 x11 x12 x20 x21 x22 a b c d e f : ℤ} :
    Keeps !![x00, x01, x02; x10, x11, x12; x20, x21, x22] (hnf a b c d e f) ↔
    ∃ α₁ β₁ γ₁ α₂ β₂ γ₂ α₃ β₃ γ₃ : ℤ,
      (x00 * a + x01 * b + x02 * d = a * α₁ ∧
       x10 * a + x11 * b + x12 * d = b * α₁ + c * β₁ ∧
       x20 * a + x21 * b + x22 * d = d * α₁ + e * β₁ + f * γ₁) ∧
      (x01 * c + x02 * e = a * α₂ ∧
       x11 * c + x12 * e = b * α₂ + c * β₂ ∧
       x21 * c + x22 * e = d * α₂ + e * β₂ + f * γ₂) ∧
      (x02 * f = a * α₃ ∧
       x12 * f = b * α₃ + c * β₃ ∧
       x22 * f = d * α₃ + e * β₃ + f * γ₃) := by
  unfold Keeps hnf
  constructor
  · rintro ⟨Y, hY⟩
    refine ⟨Y 0 0, Y 1 0, Y 2 0, Y 0 1, Y 1 1, Y 2 1, Y 0 2, Y 1 2, Y 2 2, ?_⟩
    have h := fun i j => congrFun (congrFun hY i) j
    have h00 := h 0 0
    have h01 := h 0 1
    have h02 := h 0 2
    have h10 := h 1 0
    have h11 := h 1 1
    have h12 := h 1 2
    have h20 := h 2 0
    have h21 := h 2 1
    have h22 := h 2 2
    simp [Matrix.mul_apply, Fin.sum_univ_three] at h00 h01 h02 h10 h11 h12 h20 h21 h22
    refine ⟨⟨?_, ?_, ?_⟩, ⟨?_, ?_, ?_⟩, ?_, ?_, ?_⟩ <;> linarith
  · rintro ⟨α₁, β₁, γ₁, α₂, β₂, γ₂, α₃, β₃, γ₃, ⟨h1, h2, h3⟩, ⟨h4, h5, h6⟩, h7, h8, h9⟩
    refine ⟨!![α₁, α₂, α₃; β₁, β₂, β₃; γ₁, γ₂, γ₃], ?_⟩
    ext i j
    fin_cases i <;> fin_cases j <;> simp [Matrix.mul_apply, Fin.sum_univ_three] <;> linarith

theorem Keeps.mul {X Z H : IntMat} (hX : Keeps X H) (hZ : Keeps Z H) : Keeps (X * Z) H := by
  obtain ⟨Y, hY⟩ := hX
  obtain ⟨W, hW⟩ := hZ
  exact ⟨Y * W, by rw [mul_assoc, hW, ← mul_assoc, hY, mul_assoc]⟩

theorem Keeps.one (H : IntMat) : Keeps 1 H := ⟨1, by simp⟩

theorem Keeps.neg_one (H : IntMat) : Keeps (-1) H := ⟨-1, by simp⟩

end AutoGR
