import Verif.Lemmas.UniqCertI
import Verif.Lemmas.UniqCertM
import Verif.Lemmas.UniqCertII
import Verif.Lemmas.LatticeSym
import Mathlib.LinearAlgebra.Matrix.NonsingularInverse

/-!
# The Niggli cell of a lattice is unique
-/

namespace AutoGR

open Spec Matrix

variable {A B C D E F A' B' C' D' E' F' : ℝ}

/-- The lengths of a reduced basis are the smallest possible. -/
theorem minima_le (h : NiggliReduced A B C D E F) {X : IntMat} (hd : X.det ≠ 0)
    {a b c : ℝ} (hab : a ≤ b) (hbc : b ≤ c)
    (e1 : sqLen A B C D E F (X 0 0) (X 1 0) (X 2 0) = a) (e2 : sqLen A B C D E F (X 0 1) (X 1 1) (X 2 1) = b)
    (e3 : sqLen A B C D E F (X 0 2) (X 1 2) (X 2 2) = c) : A ≤ a ∧ B ≤ b ∧ C ≤ c := by
  have ab := h.ab
  have bc := h.bc
  have ha := h.pos
  rw [Matrix.det_fin_three] at hd
  have l1 := lowest_le h (X 0 0) (X 1 0) (X 2 0)
  have l2 := lowest_le h (X 0 1) (X 1 1) (X 2 1)
  have l3 := lowest_le h (X 0 2) (X 1 2) (X 2 2)
  rw [e1] at l1
  rw [e2] at l2
  rw [e3] at l3
  refine ⟨?_, ?_, ?_⟩
  · have z1 : ¬ (X 0 0 = 0 ∧ X 1 0 = 0 ∧ X 2 0 = 0) := by
      rintro ⟨a, b, c⟩; rw [a, b, c] at hd; apply hd; ring
    exact (lowest_pos h z1).trans l1
  · by_cases h20 : X 2 0 = 0
    · by_cases h21 : X 2 1 = 0
      · by_cases h10 : X 1 0 = 0
        · by_cases h11 : X 1 1 = 0
          · exfalso; rw [h20, h21, h10, h11] at hd; apply hd; ring
          · simp only [lowest, h21, h11, ne_eq, not_false_eq_true, not_true_eq_false, if_true, if_false] at l2
            exact l2
        · simp only [lowest, h20, h10, ne_eq, not_false_eq_true, not_true_eq_false, if_true, if_false] at l1
          linarith
      · simp only [lowest, h21, ne_eq, not_false_eq_true, if_true] at l2
        linarith
    · simp only [lowest, h20, ne_eq, not_false_eq_true, if_true] at l1
      linarith
  · by_cases h20 : X 2 0 = 0
    · by_cases h21 : X 2 1 = 0
      · by_cases h22 : X 2 2 = 0
        · exfalso; rw [h20, h21, h22] at hd; apply hd; ring
        · simp only [lowest, h22, ne_eq, not_false_eq_true, if_true] at l3
          exact l3
      · simp only [lowest, h21, ne_eq, not_false_eq_true, if_true] at l2
        linarith
    · simp only [lowest, h20, ne_eq, not_false_eq_true, if_true] at l1
      linarith

/-- The six equations between the two metrics. -/
theorem cols_of {X : IntMat} (hX : (toReal X)ᵀ * metric A B C D E F * toReal X = metric A' B' C' D' E' F') :
    sqLen A B C D E F (X 0 0) (X 1 0) (X 2 0) = A' ∧ sqLen A B C D E F (X 0 1) (X 1 1) (X 2 1) = B' ∧
      sqLen A B C D E F (X 0 2) (X 1 2) (X 2 2) = C' := by
  have h := fun i j => congrFun (congrFun hX i) j
  have h00 := h 0 0
  have h11 := h 1 1
  have h22 := h 2 2
  simp [metric, toReal, Matrix.mul_apply, Fin.sum_univ_three] at h00 h11 h22
  refine ⟨?_, ?_, ?_⟩ <;> rw [sqLen] <;> linarith

theorem twoBases_of {X : IntMat} (hX : (toReal X)ᵀ * metric A B C D E F * toReal X = metric A' B' C' D' E' F')
    (ha : A' = A) (hb : B' = B) (hc : C' = C) :
    TwoBases ⟨A, B, C, D, E, F⟩ ⟨A', B', C', D', E', F'⟩ (X 0 0, X 1 0, X 2 0) (X 0 1, X 1 1, X 2 1)
      (X 0 2, X 1 2, X 2 2) := by
  have h := fun i j => congrFun (congrFun hX i) j
  have h00 := h 0 0
  have h01 := h 0 1
  have h02 := h 0 2
  have h11 := h 1 1
  have h12 := h 1 2
  have h22 := h 2 2
  simp [metric, toReal, Matrix.mul_apply, Fin.sum_univ_three] at h00 h01 h02 h11 h12 h22
  refine ⟨ha, hb, hc, ?_, ?_, ?_, ?_, ?_, ?_⟩ <;> simp only [bilLin, Lin.val] <;> push_cast <;> linarith

/-- Vectors of the lengths of a reduced basis have coordinates -1, 0, 1. -/
theorem cols_entries (h : NiggliReduced A B C D E F) {X : IntMat} (hd : X.det = 1 ∨ X.det = -1)
    (e1 : sqLen A B C D E F (X 0 0) (X 1 0) (X 2 0) = A) (e2 : sqLen A B C D E F (X 0 1) (X 1 1) (X 2 1) = B)
    (e3 : sqLen A B C D E F (X 0 2) (X 1 2) (X 2 2) = C) (i j : Fin 3) : -1 ≤ X i j ∧ X i j ≤ 1 := by
  have ab := h.ab
  have bc := h.bc
  have ha := h.pos
  rw [Matrix.det_fin_three] at hd
  have z1 : ¬ (X 0 0 = 0 ∧ X 1 0 = 0 ∧ X 2 0 = 0) := by
    rintro ⟨a, b, c⟩; rw [a, b, c] at hd; omega
  have l1 := lowest_pos h z1
  have c1 := entries_of_lowest h (p := X 0 0) (q := X 1 0) (r := X 2 0) (by linarith)
  have c2 : (-1 ≤ X 0 1 ∧ X 0 1 ≤ 1) ∧ (-1 ≤ X 1 1 ∧ X 1 1 ≤ 1) ∧ (-1 ≤ X 2 1 ∧ X 2 1 ≤ 1) := by
    by_cases hr : X 2 1 = 0
    · by_cases hq : X 1 1 = 0
      · rw [hr, hq] at hd ⊢
        refine ⟨unit_of_mul (m := X 1 2 * X 2 0 - X 1 0 * X 2 2) ?_, by norm_num, by norm_num⟩
        rcases hd with hd | hd
        · left; linarith
        · right; linarith
      · exact entries_of_lowest h (by rw [e2]; simp [lowest, hr, hq])
    · exact entries_of_lowest h (by rw [e2]; simpa [lowest, hr] using bc)
  have c3 : (-1 ≤ X 0 2 ∧ X 0 2 ≤ 1) ∧ (-1 ≤ X 1 2 ∧ X 1 2 ≤ 1) ∧ (-1 ≤ X 2 2 ∧ X 2 2 ≤ 1) := by
    by_cases hr : X 2 2 = 0
    · have hCB : C = B := by
        by_cases h20 : X 2 0 = 0
        · have h21 : X 2 1 ≠ 0 := by
            intro h21; rw [hr, h20, h21] at hd; omega
          have := lowest_le h (X 0 1) (X 1 1) (X 2 1)
          rw [e2] at this
          simp only [lowest, h21, ne_eq, not_false_eq_true, if_true] at this
          linarith
        · have := lowest_le h (X 0 0) (X 1 0) (X 2 0)
          rw [e1] at this
          simp only [lowest, h20, ne_eq, not_false_eq_true, if_true] at this
          linarith
      by_cases hq : X 1 2 = 0
      · rw [hr, hq] at hd ⊢
        refine ⟨unit_of_mul (m := X 1 0 * X 2 1 - X 1 1 * X 2 0) ?_, by norm_num, by norm_num⟩
        rcases hd with hd | hd
        · left; linarith
        · right; linarith
      · exact entries_of_lowest h (by rw [e3]; simp [lowest, hr, hq, hCB])
    · exact entries_of_lowest h (by rw [e3]; simp [lowest, hr])
  fin_cases i <;> fin_cases j
  · exact c1.1
  · exact c2.1
  · exact c3.1
  · exact c1.2.1
  · exact c2.2.1
  · exact c3.2.1
  · exact c1.2.2
  · exact c2.2.2
  · exact c3.2.2

/-- The way back from the second basis to the first. -/
theorem back_of {X : IntMat} (hX : (toReal X)ᵀ * metric A B C D E F * toReal X = metric A' B' C' D' E' F')
    (hu : IsUnit X.det) :
    (toReal X⁻¹)ᵀ * metric A' B' C' D' E' F' * toReal X⁻¹ = metric A B C D E F := by
  have h1 : toReal X * toReal X⁻¹ = 1 := by
    rw [← toReal_mul, Matrix.mul_nonsing_inv _ hu, toReal_one]
  have h2 : (toReal X⁻¹)ᵀ * (toReal X)ᵀ = 1 := by
    rw [← Matrix.transpose_mul, h1, Matrix.transpose_one]
  rw [← hX]
  calc (toReal X⁻¹)ᵀ * ((toReal X)ᵀ * metric A B C D E F * toReal X) * toReal X⁻¹
      = ((toReal X⁻¹)ᵀ * (toReal X)ᵀ) * metric A B C D E F * (toReal X * toReal X⁻¹) := by
        simp only [Matrix.mul_assoc]
    _ = metric A B C D E F := by rw [h1, h2, Matrix.one_mul, Matrix.mul_one]

theorem det_unit_cases {X : IntMat} (hu : IsUnit X.det) : X.det = 1 ∨ X.det = -1 := Int.isUnit_iff.1 hu

theorem isUnit_inv_det {X : IntMat} (hu : IsUnit X.det) : IsUnit (X⁻¹).det := by
  have h := congrArg Matrix.det (Matrix.nonsing_inv_mul X hu)
  rw [Matrix.det_mul, Matrix.det_one] at h
  exact IsUnit.of_mul_eq_one _ h

/-- Two reduced bases of one lattice have the same lengths. -/
theorem lengths_unique (h : NiggliReduced A B C D E F) (h' : NiggliReduced A' B' C' D' E' F') {X : IntMat}
    (hX : (toReal X)ᵀ * metric A B C D E F * toReal X = metric A' B' C' D' E' F') (hu : IsUnit X.det) :
    A' = A ∧ B' = B ∧ C' = C := by
  obtain ⟨e1, e2, e3⟩ := cols_of hX
  obtain ⟨i1, i2, i3⟩ := minima_le h hu.ne_zero h'.ab h'.bc e1 e2 e3
  obtain ⟨f1, f2, f3⟩ := cols_of (back_of hX hu)
  obtain ⟨j1, j2, j3⟩ := minima_le h' (isUnit_inv_det hu).ne_zero h.ab h.bc f1 f2 f3
  exact ⟨le_antisymm j1 i1, le_antisymm j2 i2, le_antisymm j3 i3⟩

/-- The search, for types in the order it covers. -/
theorem angles_unique (h : NiggliReduced A B C D E F) (h' : NiggliReduced A' B' C' D' E' F') {X : IntMat}
    (hX : (toReal X)ᵀ * metric A B C D E F * toReal X = metric A' B' C' D' E' F') (hu : IsUnit X.det)
    {t t' : Bool} (ht : HasType t ⟨A, B, C, D, E, F⟩) (ht' : HasType t' ⟨A', B', C', D', E', F'⟩)
    (hT : ∀ u ∈ Form.vecs.drop 13, ∃ T : UTree1, T.check t t' u = true) :
    D' = D ∧ E' = E ∧ F' = F := by
  obtain ⟨a, b, c⟩ := lengths_unique h h' hX hu
  wlog hs : (X 0 0, X 1 0, X 2 0) ∈ Form.vecs.drop 13 generalizing X with H
  · have hX' : (toReal (-X))ᵀ * metric A B C D E F * toReal (-X) = metric A' B' C' D' E' F' := by
      have e : toReal (-X) = -toReal X := by ext i j; simp [toReal]
      rw [e, Matrix.transpose_neg, Matrix.neg_mul, Matrix.neg_mul, Matrix.mul_neg, neg_neg, hX]
    have hu' : IsUnit (-X).det := by
      rw [Matrix.det_neg]; simpa using hu
    refine H hX' hu' ?_
    obtain ⟨e1, e2, e3⟩ := cols_of hX
    have he := cols_entries h (det_unit_cases hu) (e1.trans a) (e2.trans b) (e3.trans c)
    rcases neg_vecs_drop (Form.mem_vecs (he 0 0) (he 1 0) (he 2 0)) with h1 | h1
    · exact absurd h1 hs
    · exact h1
  · obtain ⟨e1, e2, e3⟩ := cols_of hX
    have he := cols_entries h (det_unit_cases hu) (e1.trans a) (e2.trans b) (e3.trans c)
    obtain ⟨T, hT⟩ := hT _ hs
    refine UTree1.sound (g := ⟨A, B, C, D, E, F⟩) (g' := ⟨A', B', C', D', E', F'⟩) h h' ht ht'
      (Form.mem_vecs (he 0 1) (he 1 1) (he 2 1)) (Form.mem_vecs (he 0 2) (he 1 2) (he 2 2)) ?_
      (twoBases_of hX a b c) hT
    have : det3 (X 0 0, X 1 0, X 2 0) (X 0 1, X 1 1, X 2 1) (X 0 2, X 1 2, X 2 2) = X.det := by
      rw [Matrix.det_fin_three, det3]; ring
    rw [this]
    exact det_unit_cases hu

theorem hasType_cases (h : NiggliReduced A B C D E F) :
    HasType true ⟨A, B, C, D, E, F⟩ ∨ HasType false ⟨A, B, C, D, E, F⟩ := by
  simpa [HasType] using h.type

/-- Two reduced bases of one lattice have the same metric. -/
theorem niggli_unique (h : NiggliReduced A B C D E F) (h' : NiggliReduced A' B' C' D' E' F') {X : IntMat}
    (hX : (toReal X)ᵀ * metric A B C D E F * toReal X = metric A' B' C' D' E' F') (hu : IsUnit X.det) :
    A' = A ∧ B' = B ∧ C' = C ∧ D' = D ∧ E' = E ∧ F' = F := by
  obtain ⟨a, b, c⟩ := lengths_unique h h' hX hu
  refine ⟨a, b, c, ?_⟩
  rcases hasType_cases h with ht | ht <;> rcases hasType_cases h' with ht' | ht'
  · exact angles_unique h h' hX hu ht ht' fun u hu => uniqI hu
  · exact angles_unique h h' hX hu ht ht' fun u hu => uniqM hu
  · have := angles_unique h' h (back_of hX hu) (isUnit_inv_det hu) ht' ht fun u hu => uniqM hu
    exact ⟨this.1.symm, this.2.1.symm, this.2.2.symm⟩
  · exact angles_unique h h' hX hu ht ht' fun u hu => uniqII hu

end AutoGR
