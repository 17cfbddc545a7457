import Verif.Lemmas.TolTable
import Verif.Props.Fortran
import Verif.Props.FortranNiggli
import Verif.Spec.Classify

/-!
# C67: the canonical bases of `niggli.f90` under the user's tolerance

`id_cell` reduces the canonical basis of the class it has found with the tolerance the user gave for their own
cell.  The lists of supercells (C57) are made for the transformation found with the default tolerance.
-/

namespace AutoGR

open Spec Matrix

/-- The transformation that `reduce_cell` finds is one of the list. -/
private theorem range_mem {k : ℕ} {lo hi : ℚ} {cuts : List ℚ} {good : List IMat}
    (h : rangeOk k lo hi cuts good = true) {equal : ℚ → ℚ → ℚ → Bool} {O : RMat ℚ} (hO : fBasis k = some O)
    {eps : ℚ} (h1 : lo ≤ eps) (h2 : eps < hi) {Co : IMat} (hr : reduceCell equal O (some eps) = .ok Co) :
    Co ∈ good := by
  unfold rangeOk at h
  rw [hO] at h
  simp only [Bool.and_eq_true, decide_eq_true_eq] at h
  obtain ⟨hs, hc⟩ := h
  obtain ⟨-, n, -, hl, -⟩ := reduceCell_ok.1 hr
  have ht : fTol O (some eps) = eps * Arith.cbrt |rdet O| := rfl
  have := cutsOk_mem (t := fTol O (some eps)) _ _ hc
    ⟨_, rfl, by rw [ht]; exact mul_le_mul_of_nonneg_right h1 hs.le⟩
    (by rw [ht]; exact mul_lt_mul_of_pos_right h2 hs)
  rw [hl] at this
  exact this

private theorem only {k : ℕ} {Co : IMat} (h : Co ∈ [canonC k]) :
    ClassSym k Co.toMat = ClassSym k (canonC k).toMat := by
  rw [List.mem_singleton.1 h]

theorem classSym_fix4 : ClassSym 4 (mulC (canonC 4) ⟨0, -1, 0, -1, 0, 0, 0, 0, -1⟩).toMat =
    ClassSym 4 (canonC 4).toMat := by
  refine classSym_fix (Wi := ⟨0, -1, 0, -1, 0, 0, 0, 0, -1⟩) (by decide) (by decide) ?_
  class_fix

theorem classSym_fix6 : ClassSym 6 (mulC (canonC 6) ⟨-1, 0, 1, 0, -1, 1, 0, 0, 1⟩).toMat =
    ClassSym 6 (canonC 6).toMat := by
  refine classSym_fix (Wi := ⟨-1, 0, 1, 0, -1, 1, 0, 0, 1⟩) (by decide) (by decide) ?_
  class_fix

theorem classSym_fix16a : ClassSym 16 (mulC (canonC 16) ⟨-1, 0, 1, 0, -1, 1, 0, 0, 1⟩).toMat =
    ClassSym 16 (canonC 16).toMat := by
  refine classSym_fix (Wi := ⟨-1, 0, 1, 0, -1, 1, 0, 0, 1⟩) (by decide) (by decide) ?_
  class_fix

theorem classSym_fix16b : ClassSym 16 (mulC (canonC 16) ⟨0, 1, -1, 1, 0, -1, 0, 0, -1⟩).toMat =
    ClassSym 16 (canonC 16).toMat := by
  refine classSym_fix (Wi := ⟨0, 1, -1, 1, 0, -1, 0, 0, -1⟩) (by decide) (by decide) ?_
  class_fix

theorem classSym_fix24a : ClassSym 24 (mulC (canonC 24) ⟨1, 0, -1, 0, 0, -1, 0, 1, -1⟩).toMat =
    ClassSym 24 (canonC 24).toMat := by
  refine classSym_fix (Wi := ⟨1, -1, 0, 0, -1, 1, 0, -1, 0⟩) (by decide) (by decide) ?_
  class_fix

theorem classSym_fix24b : ClassSym 24 (mulC (canonC 24) ⟨-1, 0, 0, 0, 0, -1, 0, -1, 0⟩).toMat =
    ClassSym 24 (canonC 24).toMat := by
  refine classSym_fix (Wi := ⟨-1, 0, 0, 0, 0, -1, 0, -1, 0⟩) (by decide) (by decide) ?_
  class_fix

/-- C67, the part that holds: for every tolerance from `1e-5` to `0.1` the transformation that `reduce_cell`
finds for the canonical basis of a class gives the class the same symmetries as the transformation the
generators are made for (`reducedCanonical`, C51).  Missing: tolerances outside this range, and for class 6
those between `1.08e-5` and `1.22e-5`; there it is false (see below). -/
theorem canonical_range_partial (equal : ℚ → ℚ → ℚ → Bool) (k : ℕ) (O : RMat ℚ) (hO : fBasis k = some O)
    (eps : ℚ) (h1 : 1 / 100000 ≤ eps) (h2 : eps < 1 / 10)
    (h6 : k = 6 → eps < 27 / 2500000 ∨ 61 / 5000000 ≤ eps)
    (Co : IMat) (h : reduceCell equal O (some eps) = .ok Co)
    (Cp : IMat) (hp : reducedCanonical ℚ k = .ok Cp) :
    ClassSym k Co.toMat = ClassSym k Cp.toMat := by
  have key : ∀ {k : ℕ} {Cp : IMat}, reducedCanonical ℚ k = .ok Cp → reducedCanonical ℚ k = .ok (canonC k) →
      Cp = canonC k := by
    intro k Cp ha hb; rw [ha] at hb; exact Except.ok.inj hb
  unfold fBasis at hO
  split at hO
  · rw [key hp reduced_1]; exact only (range_mem range_1 hO h1 h2 h)
  · rw [key hp reduced_2]; exact only (range_mem range_2 hO h1 h2 h)
  · rw [key hp reduced_3]; exact only (range_mem range_3 hO h1 h2 h)
  · rw [key hp reduced_4]
    have := range_mem range_4 hO h1 h2 h
    simp only [List.mem_cons, List.not_mem_nil, or_false] at this
    rcases this with rfl | rfl
    · rfl
    · exact classSym_fix4
  · rw [key hp reduced_5]; exact only (range_mem range_5 hO h1 h2 h)
  · rw [key hp reduced_6]
    rcases h6 rfl with h6 | h6
    · exact only (range_mem range_6a hO h1 h6 h)
    · have := range_mem range_6b hO h6 h2 h
      simp only [List.mem_cons, List.not_mem_nil, or_false] at this
      rw [this]; exact classSym_fix6
  · rw [key hp reduced_7]; exact only (range_mem range_7 hO h1 h2 h)
  · rw [key hp reduced_8]; exact only (range_mem range_8 hO h1 h2 h)
  · rw [key hp reduced_9]; exact only (range_mem range_9 hO h1 h2 h)
  · rw [key hp reduced_10]; exact only (range_mem range_10 hO h1 h2 h)
  · rw [key hp reduced_11]; exact only (range_mem range_11 hO h1 h2 h)
  · rw [key hp reduced_12]; exact only (range_mem range_12 hO h1 h2 h)
  · rw [key hp reduced_13]; exact only (range_mem range_13 hO h1 h2 h)
  · rw [key hp reduced_14]; exact only (range_mem range_14 hO h1 h2 h)
  · rw [key hp reduced_15]; exact only (range_mem range_15 hO h1 h2 h)
  · rw [key hp reduced_16]
    have := range_mem range_16 hO h1 h2 h
    simp only [List.mem_cons, List.not_mem_nil, or_false] at this
    rcases this with rfl | rfl | rfl
    · rfl
    · exact classSym_fix16a
    · exact classSym_fix16b
  · rw [key hp reduced_17]; exact only (range_mem range_17 hO h1 h2 h)
  · rw [key hp reduced_18]; exact only (range_mem range_18 hO h1 h2 h)
  · rw [key hp reduced_19]; exact only (range_mem range_19 hO h1 h2 h)
  · rw [key hp reduced_20]; exact only (range_mem range_20 hO h1 h2 h)
  · rw [key hp reduced_21]; exact only (range_mem range_21 hO h1 h2 h)
  · rw [key hp reduced_22]; exact only (range_mem range_22 hO h1 h2 h)
  · rw [key hp reduced_23]; exact only (range_mem range_23 hO h1 h2 h)
  · rw [key hp reduced_24]
    have := range_mem range_24 hO h1 h2 h
    simp only [List.mem_cons, List.not_mem_nil, or_false] at this
    rcases this with rfl | rfl | rfl
    · rfl
    · exact classSym_fix24a
    · exact classSym_fix24b
  · rw [key hp reduced_25]; exact only (range_mem range_25 hO h1 h2 h)
  · rw [key hp reduced_26]; exact only (range_mem range_26 hO h1 h2 h)
  · rw [key hp reduced_27]; exact only (range_mem range_27 hO h1 h2 h)
  · rw [key hp reduced_28]; exact only (range_mem range_28 hO h1 h2 h)
  · rw [key hp reduced_29]; exact only (range_mem range_29 hO h1 h2 h)
  · rw [key hp reduced_30]; exact only (range_mem range_30 hO h1 h2 h)
  · rw [key hp reduced_32]; exact only (range_mem range_32 hO h1 h2 h)
  · rw [key hp reduced_33]; exact only (range_mem range_33 hO h1 h2 h)
  · rw [key hp reduced_34]; exact only (range_mem range_34 hO h1 h2 h)
  · rw [key hp reduced_35]; exact only (range_mem range_35 hO h1 h2 h)
  · rw [key hp reduced_36]; exact only (range_mem range_36 hO h1 h2 h)
  · rw [key hp reduced_37]; exact only (range_mem range_37 hO h1 h2 h)
  · rw [key hp reduced_38]; exact only (range_mem range_38 hO h1 h2 h)
  · rw [key hp reduced_39]; exact only (range_mem range_39 hO h1 h2 h)
  · rw [key hp reduced_40]; exact only (range_mem range_40 hO h1 h2 h)
  · rw [key hp reduced_41]; exact only (range_mem range_41 hO h1 h2 h)
  · rw [key hp reduced_42]; exact only (range_mem range_42 hO h1 h2 h)
  · rw [key hp reduced_43]; exact only (range_mem range_43 hO h1 h2 h)
  · cases hO

/-- C67 is false for smaller tolerances: with `eps = 1e-6` the basis of class 40 is accepted with another
transformation, and a supercell that `baseco_40` lists does not have the symmetry of the class. -/
theorem canonical_small_eps : ∃ (O : RMat ℚ) (Co : IMat), fBasis 40 = some O ∧
    reduceCell cmpEqual O (some (1 / 1000000)) = .ok Co ∧
    ∃ H ∈ Fortran.baseco_40 Fortran.wrap32 3, H ∉ SymmetricHNFs (ClassSym 40 Co.toMat) 3 := by
  refine ⟨(fBasis 40).getD ⟨0, 0, 0, 0, 0, 0, 0, 0, 0⟩, ⟨-1, 0, 0, 0, 1, 0, 0, 0, -1⟩, rfl, by decide +kernel,
    hnf 1 0 1 0 2 3, by decide +kernel, ?_⟩
  intro hH
  have hX : (⟨-1, 0, 0, 0, 1, 1, 0, 0, -1⟩ : IMat).toMat ∈
      ClassSym 40 (⟨-1, 0, 0, 0, 1, 0, 0, 0, -1⟩ : IMat).toMat := by
    refine mem_classSym (Ci := ⟨-1, 0, 0, 0, 1, 0, 0, 0, -1⟩) (Y := ⟨-1, 0, 0, 0, 1, -1, 0, 0, -1⟩)
      (by decide) (by decide) ?_
    class_fix
  obtain ⟨Y, hY⟩ := hH.2.2 _ hX
  have e1 := congrFun (congrFun hY 1) 1
  have e2 := congrFun (congrFun hY 2) 1
  have e0 := congrFun (congrFun hY 0) 1
  simp [IMat.toMat, hnf, Matrix.mul_apply, Fin.sum_univ_three] at e0 e1 e2
  omega

/-- C67 is false for class 6 with `eps = 1.1e-5`, next to the default of `id_cell`. -/
theorem canonical_class_6 : ∃ (O : RMat ℚ) (Co : IMat), fBasis 6 = some O ∧
    reduceCell cmpEqual O (some (11 / 1000000)) = .ok Co ∧
    ∃ H ∈ Fortran.bct_6_7_15_18 Fortran.wrap32 3, H ∉ SymmetricHNFs (ClassSym 6 Co.toMat) 3 := by
  refine ⟨(fBasis 6).getD ⟨0, 0, 0, 0, 0, 0, 0, 0, 0⟩, ⟨1, -1, 1, 0, 0, -1, 0, 1, -1⟩, rfl, by decide +kernel,
    hnf 3 0 1 0 0 1, by decide +kernel, ?_⟩
  intro hH
  have hX : (⟨-1, -2, 0, 0, 1, 0, 1, 1, 1⟩ : IMat).toMat ∈
      ClassSym 6 (⟨1, -1, 1, 0, 0, -1, 0, 1, -1⟩ : IMat).toMat := by
    refine mem_classSym (Ci := ⟨1, 0, 1, 0, -1, 1, 0, -1, 0⟩) (Y := ⟨0, 1, 0, 1, 0, 0, 0, 0, 1⟩)
      (by decide) (by decide) ?_
    class_fix
  obtain ⟨Y, hY⟩ := hH.2.2 _ hX
  have e0 := congrFun (congrFun hY 0) 1
  simp [IMat.toMat, hnf, Matrix.mul_apply, Fin.sum_univ_three] at e0
  omega

/-- C67 is false for large tolerances: class 16 with `eps = 0.11`. -/
theorem canonical_large_eps : ∃ (O : RMat ℚ) (Co : IMat), fBasis 16 = some O ∧
    reduceCell cmpEqual O (some (11 / 100)) = .ok Co ∧
    ∃ H ∈ Fortran.fco_16 Fortran.wrap32 2, H ∉ SymmetricHNFs (ClassSym 16 Co.toMat) 2 := by
  refine ⟨(fBasis 16).getD ⟨0, 0, 0, 0, 0, 0, 0, 0, 0⟩, ⟨0, 0, 1, 1, 0, 0, 0, 1, 0⟩, rfl, by decide +kernel,
    hnf 1 0 2 0 0 1, by decide +kernel, ?_⟩
  intro hH
  have hX : (⟨1, 0, 0, 0, 0, 1, 0, 1, 0⟩ : IMat).toMat ∈
      ClassSym 16 (⟨0, 0, 1, 1, 0, 0, 0, 1, 0⟩ : IMat).toMat := by
    refine mem_classSym (Ci := ⟨0, 1, 0, 0, 0, 1, 1, 0, 0⟩) (Y := ⟨0, 1, 0, 1, 0, 0, 0, 0, 1⟩)
      (by decide) (by decide) ?_
    class_fix
  obtain ⟨Y, hY⟩ := hH.2.2 _ hX
  have e0 := congrFun (congrFun hY 1) 2
  have e1 := congrFun (congrFun hY 0) 2
  simp [IMat.toMat, hnf, Matrix.mul_apply, Fin.sum_univ_three] at e0 e1
  omega

/-- The hypotheses of `canonical_range_partial` are met with the driver's default tolerance, also where the
transformation is not the one of the generators. -/
example : ∃ O Co, fBasis 16 = some O ∧ reduceCell cmpEqual O (some (1 / 1000)) = .ok Co ∧
    reducedCanonical ℚ 16 = .ok (canonC 16) ∧ Co ≠ canonC 16 :=
  ⟨(fBasis 16).getD ⟨0, 0, 0, 0, 0, 0, 0, 0, 0⟩, ⟨0, 0, 1, 1, -1, 0, 0, 1, -1⟩, rfl, by decide +kernel,
    reduced_16, by decide⟩

example : ∀ k ∈ classTable, k ≠ 31 → k ≠ 44 → ∃ O, fBasis k = some O ∧
    (match reduceCell cmpEqual O (some (1 / 1000)) with | .ok _ => true | .error _ => false) = true := by
  have : (classTable.all fun k => decide (k = 31) || decide (k = 44) ||
      match (fBasis k : Option (RMat ℚ)) with
      | some O => (match reduceCell cmpEqual O (some (1 / 1000)) with | .ok _ => true | .error _ => false)
      | none => false) = true := by decide +kernel
  intro k hk h1 h2
  have := List.all_eq_true.1 this k hk
  simp only [h1, h2, decide_false, Bool.false_or] at this
  split at this
  · rename_i O hO; exact ⟨O, hO, this⟩
  · cases this

end AutoGR
