import Verif.Lemmas.Grid
import Verif.Lemmas.HNF
import Verif.Lemmas.Irreducible
import Verif.Spec.AllGrids

/-!
# Every symmetric grid comes from a sublattice
-/

namespace AutoGR.Fortran

open Spec Matrix

/-- A commensurate grid with all symmetries of the lattice is the reciprocal of a sublattice that all symmetries keep. -/
theorem sublattice_of_grid {U K : Matrix (Fin 3) (Fin 3) ℝ} (hU : U.det ≠ 0) {n : ℤ} (hn : 1 ≤ n)
    (h : SymmetricGrid U K n) :
    ∃ M : IntMat, |M.det| = n ∧ K = ((U * toReal M)ᵀ)⁻¹ ∧ ∀ X ∈ PointSym U, Keeps X M := by
  obtain ⟨N, h1, h2⟩ := h.reciprocal
  have hN : N.det ≠ 0 := by
    intro h0
    rw [h0, abs_zero] at h2
    omega
  have hUt : IsUnit (Uᵀ).det := by rw [det_transpose]; exact isUnit_iff_ne_zero.2 hU
  have hKB : K * (U * toReal Nᵀ)ᵀ = 1 := by
    rw [transpose_mul, ← toReal_transpose, transpose_transpose, ← Matrix.mul_assoc, ← h1, nonsing_inv_mul _ hUt]
  have hBK := mul_eq_one_comm.1 hKB
  refine ⟨Nᵀ, by rw [det_transpose, h2], (inv_eq_left_inv hKB).symm, ?_⟩
  rintro X ⟨Q, hQ, hX⟩
  have hQd : Q.det * Q.det = 1 := by
    have := congrArg Matrix.det hQ
    rwa [det_mul, det_transpose, Matrix.det_one] at this
  have hXd : IsUnit X.det := by
    have h1 : Q.det = X.det := by
      have := congrArg Matrix.det hX
      rw [det_mul, det_mul, toReal_det, mul_comm] at this
      exact mul_left_cancel₀ hU this
    rw [h1] at hQd
    have : X.det * X.det = 1 := by exact_mod_cast hQd
    exact IsUnit.of_mul_eq_one _ this
  have hQ' : Q * Qᵀ = 1 := mul_eq_one_comm.1 hQ
  have hX' : Qᵀ * U = U * toReal X⁻¹ := by
    calc Qᵀ * U = Qᵀ * (U * (toReal X * toReal X⁻¹)) := by rw [toReal_inv_mul hXd, Matrix.mul_one]
      _ = Qᵀ * (Q * U) * toReal X⁻¹ := by rw [hX]; simp only [Matrix.mul_assoc]
      _ = U * toReal X⁻¹ := by rw [← Matrix.mul_assoc Qᵀ, hQ, Matrix.one_mul]
  obtain ⟨Y, hY⟩ := h.symmetric Qᵀ (by rw [transpose_transpose]; exact hQ') ⟨X⁻¹, hX'⟩
  refine ⟨Yᵀ, ?_⟩
  -- `B = U Nᵀ` is the inverse of the transpose of the grid
  have hB1 : (U * toReal Nᵀ) * Kᵀ = 1 := by
    have := congrArg Matrix.transpose hKB
    rwa [transpose_mul, transpose_transpose, transpose_one] at this
  have hB2 := mul_eq_one_comm.1 hB1
  have hY' : Kᵀ * Q = (toReal Y)ᵀ * Kᵀ := by
    have := congrArg Matrix.transpose hY
    simpa only [transpose_mul, transpose_transpose] using this
  have key : Q * (U * toReal Nᵀ) = (U * toReal Nᵀ) * (toReal Y)ᵀ := by
    calc Q * (U * toReal Nᵀ) = ((U * toReal Nᵀ) * Kᵀ) * Q * (U * toReal Nᵀ) := by rw [hB1, Matrix.one_mul]
      _ = (U * toReal Nᵀ) * (Kᵀ * Q) * (U * toReal Nᵀ) := by simp only [Matrix.mul_assoc]
      _ = (U * toReal Nᵀ) * (toReal Y)ᵀ * (Kᵀ * (U * toReal Nᵀ)) := by rw [hY']; simp only [Matrix.mul_assoc]
      _ = (U * toReal Nᵀ) * (toReal Y)ᵀ := by rw [hB2, Matrix.mul_one]
  have hU' : IsUnit U.det := isUnit_iff_ne_zero.2 hU
  have e : toReal (X * Nᵀ) = toReal (Nᵀ * Yᵀ) := by
    rw [← Matrix.mul_assoc, hX, Matrix.mul_assoc, Matrix.mul_assoc, ← toReal_mul, ← toReal_transpose, ← toReal_mul] at key
    have := congrArg (U⁻¹ * ·) key
    simpa only [← Matrix.mul_assoc, nonsing_inv_mul _ hU', Matrix.one_mul] using this
  ext i j
  have := congrFun (congrFun e i) j
  change ((_ : ℤ) : ℝ) = ((_ : ℤ) : ℝ) at this
  exact_mod_cast this

theorem gridPoints_mul (K : Matrix (Fin 3) (Fin 3) ℝ) {Y : IntMat} (hY : IsUnit Y.det) :
    gridPoints (K * toReal Y) = gridPoints K := by
  ext x
  constructor
  · rintro ⟨z, rfl⟩
    exact ⟨Y *ᵥ z, by rw [← intVec_mulVec, mulVec_mulVec]⟩
  · rintro ⟨z, rfl⟩
    refine ⟨Y⁻¹ *ᵥ z, ?_⟩
    rw [← intVec_mulVec, mulVec_mulVec, Matrix.mul_assoc, toReal_inv_mul hY, Matrix.mul_one]

/-- Two bases of the same grid differ by an integer matrix. -/
theorem gridPoints_sub {K K' : Matrix (Fin 3) (Fin 3) ℝ} (h : gridPoints K' ⊆ gridPoints K) :
    ∃ Y : IntMat, K' = K * toReal Y := by
  have h1 : ∀ j, ∃ z : Fin 3 → ℤ, K' *ᵥ intVec (Pi.single j 1) = K *ᵥ intVec z := fun j => h ⟨_, rfl⟩
  choose z hz using h1
  refine ⟨Matrix.of fun i j => z j i, ?_⟩
  ext i j
  have e : intVec (Pi.single j 1) = Pi.single j 1 := by
    funext l
    unfold intVec
    by_cases hl : l = j
    · subst hl; simp
    · simp [Pi.single_eq_of_ne hl]
  have := congrFun (hz j) i
  rw [e, mulVec_single_one] at this
  rw [col_apply] at this
  rw [this]
  rfl

/-- A list of all sublattices that the symmetries keep gives a list of all symmetric grids. -/
theorem listsGrids {U : Matrix (Fin 3) (Fin 3) ℝ} (hU : U.det ≠ 0) {n : ℤ} (hn : 1 ≤ n) {Ms : List IntMat}
    (h : ListsSublattices (PointSym U) n Ms) :
    ListsGrids U n (Ms.map fun M => ((U * toReal M)ᵀ)⁻¹) := by
  constructor
  · intro K hK
    obtain ⟨M, hM, rfl⟩ := List.mem_map.1 hK
    obtain ⟨h1, h2⟩ := h.sound M hM
    have := symmetricGrid (W := 1) hU (M := M) (by omega) (by simp) h2
    rwa [toReal_one, Matrix.mul_one, h1, abs_of_pos (by omega)] at this
  · intro K hK
    obtain ⟨M, m1, m2, m3⟩ := sublattice_of_grid hU hn hK
    obtain ⟨N, hN, W, hW, hNW⟩ := h.complete M m1 m3
    have hMd : M.det ≠ 0 := by
      intro h0
      rw [h0, abs_zero] at m1
      omega
    have dual : ∀ {M N V : IntMat}, M.det ≠ 0 → IsUnit V.det → N = M * V →
        ((U * toReal N)ᵀ)⁻¹ = ((U * toReal M)ᵀ)⁻¹ * toReal (V⁻¹)ᵀ := by
      rintro M _ V hM hV rfl
      apply inv_eq_right_inv
      have hMr : IsUnit ((U * toReal M)ᵀ).det := by
        rw [det_transpose, det_mul, toReal_det]
        exact isUnit_iff_ne_zero.2 (mul_ne_zero hU (by exact_mod_cast hM))
      have e : (toReal V)ᵀ * toReal (V⁻¹)ᵀ = 1 := by
        rw [← toReal_transpose, ← toReal_mul, ← transpose_mul, nonsing_inv_mul _ hV, transpose_one, toReal_one]
      rw [toReal_mul, ← Matrix.mul_assoc U, transpose_mul (U * toReal M)]
      calc (toReal V)ᵀ * (U * toReal M)ᵀ * (((U * toReal M)ᵀ)⁻¹ * toReal (V⁻¹)ᵀ)
          = (toReal V)ᵀ * ((U * toReal M)ᵀ * ((U * toReal M)ᵀ)⁻¹) * toReal (V⁻¹)ᵀ := by simp only [Matrix.mul_assoc]
        _ = 1 := by rw [mul_nonsing_inv _ hMr, Matrix.mul_one, e]
    have unitInv : ∀ {V : IntMat}, IsUnit V.det → IsUnit ((V⁻¹)ᵀ).det := fun {V} hV => by
      rw [det_transpose]
      exact IsUnit.of_mul_eq_one V.det (by rw [← det_mul, nonsing_inv_mul _ hV, Matrix.det_one])
    have hNK : gridPoints ((U * toReal N)ᵀ)⁻¹ = gridPoints K := by
      rw [dual hMd hW hNW, gridPoints_mul _ (unitInv hW), ← m2]
    -- grids with the same points come from the same sublattice
    have conv : ∀ {A B : IntMat}, A.det ≠ 0 → B.det ≠ 0 →
        gridPoints ((U * toReal A)ᵀ)⁻¹ = gridPoints ((U * toReal B)ᵀ)⁻¹ → SameSpan A B := by
      intro A B hA hB hAB
      have fac : ∀ {A B : IntMat}, A.det ≠ 0 → B.det ≠ 0 →
          gridPoints ((U * toReal A)ᵀ)⁻¹ ⊆ gridPoints ((U * toReal B)ᵀ)⁻¹ → ∃ Y : IntMat, B = A * Y := by
        intro A B hA hB hs
        obtain ⟨Y, hY⟩ := gridPoints_sub hs
        refine ⟨Yᵀ, ?_⟩
        have hu : ∀ {A : IntMat}, A.det ≠ 0 → IsUnit ((U * toReal A)ᵀ).det := fun {A} hA => by
          rw [det_transpose, det_mul, toReal_det]
          exact isUnit_iff_ne_zero.2 (mul_ne_zero hU (by exact_mod_cast hA))
        have e1 : (U * toReal B)ᵀ = toReal Y * (U * toReal A)ᵀ := by
          calc (U * toReal B)ᵀ = (U * toReal B)ᵀ * (((U * toReal A)ᵀ)⁻¹ * (U * toReal A)ᵀ) := by
                rw [nonsing_inv_mul _ (hu hA), Matrix.mul_one]
            _ = ((U * toReal B)ᵀ * ((U * toReal B)ᵀ)⁻¹) * toReal Y * (U * toReal A)ᵀ := by
                rw [hY]; simp only [Matrix.mul_assoc]
            _ = _ := by rw [mul_nonsing_inv _ (hu hB), Matrix.one_mul]
        have e2 : U * toReal B = U * toReal (A * Yᵀ) := by
          have := congrArg Matrix.transpose e1
          rw [transpose_transpose, transpose_mul, transpose_transpose, ← toReal_transpose, Matrix.mul_assoc,
            ← toReal_mul] at this
          exact this
        have e3 : toReal B = toReal (A * Yᵀ) := by
          have := congrArg (U⁻¹ * ·) e2
          simpa only [← Matrix.mul_assoc, nonsing_inv_mul _ (isUnit_iff_ne_zero.2 hU), Matrix.one_mul] using this
        ext i j
        have := congrFun (congrFun e3 i) j
        change ((_ : ℤ) : ℝ) = ((_ : ℤ) : ℝ) at this
        exact_mod_cast this
      obtain ⟨Y, hY⟩ := fac hA hB hAB.le
      obtain ⟨Z, hZ⟩ := fac hB hA hAB.ge
      refine ⟨Y, ?_, hY⟩
      have e := congrArg Matrix.det hY
      have e' := congrArg Matrix.det hZ
      rw [det_mul] at e e'
      refine IsUnit.of_mul_eq_one Z.det (mul_left_cancel₀ hA ?_)
      rw [mul_one, ← mul_assoc, ← e, ← e']
    obtain ⟨i, hi, hiN⟩ := List.mem_iff_getElem.1 hN
    have hlen : (Ms.map fun M => ((U * toReal M)ᵀ)⁻¹).length = Ms.length := List.length_map _
    have hget : ∀ j : Fin (Ms.map fun M => ((U * toReal M)ᵀ)⁻¹).length,
        (Ms.map fun M => ((U * toReal M)ᵀ)⁻¹).get j = ((U * toReal (Ms[j.1]'(by have := j.2; omega)))ᵀ)⁻¹ := fun j => by
      rw [List.get_eq_getElem, List.getElem_map]
    refine ⟨⟨i, by omega⟩, ?_, ?_⟩
    · dsimp only
      rw [hget]
      dsimp only
      rw [hiN, hNK]
    · intro j hj
      rw [hget, ← hNK] at hj
      have hjl : j.1 < Ms.length := by have := j.2; omega
      have hs := conv (A := Ms[j.1]) (B := N) (by have := (h.sound _ (List.getElem_mem hjl)).1; omega)
        (by have := (h.sound _ hN).1; omega) hj
      apply Fin.ext
      by_contra hne
      have hp := List.pairwise_iff_getElem.1 h.once
      rcases lt_or_gt_of_ne hne with hlt | hgt
      · exact hp _ _ hjl hi hlt (by rw [hiN]; exact hs)
      · exact hp _ _ hi hjl hgt (by rw [hiN]; exact hs.symm)

end AutoGR.Fortran
