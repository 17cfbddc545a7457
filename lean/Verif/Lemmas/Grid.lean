import Verif.Spec.SymGrid
import Verif.Spec.PointSym
import Verif.Model.FortranTransform
import Verif.Lemmas.Supercells

/-!
# Lemmas on `transform_supercell` and on the grid of a supercell
-/

namespace AutoGR.Fortran

open Spec Matrix

theorem nint_near {x : ℚ} {z : ℤ} (h : |x - z| < 1 / 2) : nint x = z := by
  rw [abs_lt] at h
  unfold nint
  split
  · rw [Int.floor_eq_iff]
    constructor <;> linarith
  · rw [Int.ceil_eq_iff]
    constructor <;> linarith

theorem nintMat_near {A : Matrix (Fin 3) (Fin 3) ℚ} {M : Mat3} (h : ∀ i j, |A i j - M i j| < 1 / 2) :
    nintMat A = M := by
  ext i j
  exact nint_near (h i j)

theorem nintMat_cast (M : Mat3) : nintMat (castMat M) = M :=
  nintMat_near fun i j => by simp [castMat]

theorem transform_eq {U O : Matrix (Fin 3) (Fin 3) ℚ} (hO : IsUnit O.det) {Co Cu Do Du : IntMat}
    (ho : Co * Do = 1) (hu : Cu * Du = 1) (H : Mat3) :
    transform_supercell H (O * castMat Co) (U * castMat Cu) Co Cu O =
      U * castMat (Cu * Do * H * (Co * Du)) := by
  have e1 : (castMat Cu : Matrix (Fin 3) (Fin 3) ℚ)⁻¹ = castMat Du :=
    inv_of_mul (by rw [← castMat_mul, hu, castMat_one])
  have e2 : (O * castMat Co)⁻¹ = castMat Do * O⁻¹ := by
    apply inv_of_mul
    calc O * castMat Co * (castMat Do * O⁻¹) = O * (castMat Co * castMat Do) * O⁻¹ := by
          simp only [Matrix.mul_assoc]
      _ = 1 := by rw [← castMat_mul, ho, castMat_one, Matrix.mul_one, mul_nonsing_inv _ hO]
  have e3 : castMat Do * O⁻¹ * (O * castMat H * O⁻¹ * O * castMat Co) =
      (castMat (Do * H * Co) : Matrix (Fin 3) (Fin 3) ℚ) := by
    calc castMat Do * O⁻¹ * (O * castMat H * O⁻¹ * O * castMat Co)
        = castMat Do * (O⁻¹ * O) * castMat H * (O⁻¹ * O) * castMat Co := by simp only [Matrix.mul_assoc]
      _ = castMat (Do * H * Co) := by
        rw [nonsing_inv_mul _ hO]
        simp only [Matrix.mul_one, castMat_mul]
  unfold transform_supercell
  simp only [e1, e2, e3, nintMat_cast]
  simp only [castMat_mul, Matrix.mul_assoc]

/-- The entries of the grid as real numbers. -/
def realMat (K : Matrix (Fin 3) (Fin 3) ℚ) : Matrix (Fin 3) (Fin 3) ℝ := K.map fun q => (q : ℝ)

theorem realMat_mul (A B : Matrix (Fin 3) (Fin 3) ℚ) : realMat (A * B) = realMat A * realMat B := by
  ext i j
  simp [realMat, Matrix.mul_apply]

theorem realMat_one : realMat 1 = 1 := by
  ext i j
  by_cases h : i = j <;> simp [realMat, Matrix.one_apply, h]

theorem realMat_castMat (M : IntMat) : realMat (castMat M) = toReal M := by
  ext i j
  simp [realMat, castMat, toReal]

theorem realMat_transpose (A : Matrix (Fin 3) (Fin 3) ℚ) : realMat Aᵀ = (realMat A)ᵀ := rfl

theorem realMat_inv {A : Matrix (Fin 3) (Fin 3) ℚ} (h : A.det ≠ 0) : realMat A⁻¹ = (realMat A)⁻¹ := by
  symm
  apply inv_eq_right_inv
  rw [← realMat_mul, mul_nonsing_inv _ (isUnit_iff_ne_zero.2 h), realMat_one]

theorem toReal_det (X : IntMat) : (toReal X).det = (X.det : ℝ) := by
  have := RingHom.map_det (Int.castRingHom ℝ) X
  simpa [toReal, RingHom.mapMatrix_apply] using this.symm

theorem toReal_inv_mul {W : IntMat} (hW : IsUnit W.det) : toReal W * toReal W⁻¹ = 1 := by
  rw [← toReal_mul, mul_nonsing_inv _ hW, toReal_one]

/-- The dual of a sublattice `U M` that all point symmetries of the lattice keep. -/
theorem symmetricGrid {U : Matrix (Fin 3) (Fin 3) ℝ} (hU : U.det ≠ 0) {M W : IntMat} (hM : M.det ≠ 0)
    (hW : IsUnit W.det) (hk : ∀ X ∈ PointSym U, Keeps X M) :
    SymmetricGrid U (((U * toReal M)ᵀ)⁻¹ * toReal W) |M.det| := by
  have hMr : (toReal M).det ≠ 0 := by rw [toReal_det]; exact_mod_cast hM
  set B := U * toReal M with hB
  have hBd : B.det ≠ 0 := by rw [hB, det_mul]; exact mul_ne_zero hU hMr
  have hBt : IsUnit (Bᵀ).det := by rw [det_transpose]; exact isUnit_iff_ne_zero.2 hBd
  have hUt : IsUnit (Uᵀ).det := by rw [det_transpose]; exact isUnit_iff_ne_zero.2 hU
  have hWW : toReal W * toReal W⁻¹ = 1 := toReal_inv_mul hW
  constructor
  · refine ⟨W⁻¹ * Mᵀ, ?_, ?_⟩
    · apply inv_eq_right_inv
      rw [toReal_mul, toReal_transpose]
      calc Uᵀ * ((Bᵀ)⁻¹ * toReal W * (toReal W⁻¹ * (toReal M)ᵀ))
          = Uᵀ * (Bᵀ)⁻¹ * (toReal W * toReal W⁻¹) * (toReal M)ᵀ := by simp only [Matrix.mul_assoc]
        _ = Uᵀ * ((Bᵀ)⁻¹ * (toReal M)ᵀ) := by rw [hWW, Matrix.mul_one, Matrix.mul_assoc]
        _ = Uᵀ * ((Bᵀ)⁻¹ * (toReal M)ᵀ) * (Uᵀ * (Uᵀ)⁻¹) := by rw [mul_nonsing_inv _ hUt, Matrix.mul_one]
        _ = Uᵀ * ((Bᵀ)⁻¹ * ((toReal M)ᵀ * Uᵀ)) * (Uᵀ)⁻¹ := by simp only [Matrix.mul_assoc]
        _ = 1 := by rw [← transpose_mul, ← hB, nonsing_inv_mul _ hBt, Matrix.mul_one, mul_nonsing_inv _ hUt]
    · rw [det_mul, det_transpose, abs_mul]
      have : |(W⁻¹).det| = 1 := by
        have h1 : W.det * (W⁻¹).det = 1 := by rw [← det_mul, mul_nonsing_inv _ hW, Matrix.det_one]
        exact Int.isUnit_iff_abs_eq.1 (IsUnit.of_mul_eq_one _ (by rw [mul_comm]; exact h1))
      rw [this, one_mul]
  · rintro Q hQ ⟨X, hX⟩
    have hQd : Q.det * Q.det = 1 := by
      have := congrArg Matrix.det hQ
      rwa [det_mul, det_transpose, Matrix.det_one] at this
    have hXd : IsUnit X.det := by
      have h1 : Q.det = X.det := by
        have := congrArg Matrix.det hX
        rw [det_mul, det_mul, toReal_det, mul_comm] at this
        exact mul_left_cancel₀ hU this
      rw [h1] at hQd
      have : X.det * X.det = 1 := by exact_mod_cast hQd
      exact IsUnit.of_mul_eq_one _ this
    have hQ' : Q * Qᵀ = 1 := mul_eq_one_comm.1 hQ
    have hX' : Qᵀ * U = U * toReal X⁻¹ := by
      calc Qᵀ * U = Qᵀ * (U * (toReal X * toReal X⁻¹)) := by rw [toReal_inv_mul hXd, Matrix.mul_one]
        _ = Qᵀ * (Q * U) * toReal X⁻¹ := by rw [hX]; simp only [Matrix.mul_assoc]
        _ = U * toReal X⁻¹ := by rw [← Matrix.mul_assoc Qᵀ, hQ, Matrix.one_mul]
    obtain ⟨Y, hY⟩ := hk X⁻¹ ⟨Qᵀ, by rw [transpose_transpose]; exact hQ', hX'⟩
    have hBY : Qᵀ * B = B * toReal Y := by
      rw [hB, ← Matrix.mul_assoc, hX', Matrix.mul_assoc, ← toReal_mul, hY, toReal_mul, Matrix.mul_assoc]
    have hBY' : Bᵀ * Q = (toReal Y)ᵀ * Bᵀ := by
      have := congrArg Matrix.transpose hBY
      simpa only [transpose_mul, transpose_transpose] using this
    have key : Q * (Bᵀ)⁻¹ = (Bᵀ)⁻¹ * (toReal Y)ᵀ := by
      calc Q * (Bᵀ)⁻¹ = ((Bᵀ)⁻¹ * Bᵀ) * Q * (Bᵀ)⁻¹ := by rw [nonsing_inv_mul _ hBt, Matrix.one_mul]
        _ = (Bᵀ)⁻¹ * (Bᵀ * Q) * (Bᵀ)⁻¹ := by simp only [Matrix.mul_assoc]
        _ = (Bᵀ)⁻¹ * (toReal Y)ᵀ * (Bᵀ * (Bᵀ)⁻¹) := by rw [hBY']; simp only [Matrix.mul_assoc]
        _ = (Bᵀ)⁻¹ * (toReal Y)ᵀ := by rw [mul_nonsing_inv _ hBt, Matrix.mul_one]
    refine ⟨W⁻¹ * Yᵀ * W, ?_⟩
    rw [toReal_mul, toReal_mul, toReal_transpose]
    calc Q * ((Bᵀ)⁻¹ * toReal W) = (Q * (Bᵀ)⁻¹) * toReal W := by rw [Matrix.mul_assoc]
      _ = (Bᵀ)⁻¹ * (toReal W * toReal W⁻¹) * (toReal Y)ᵀ * toReal W := by rw [key, hWW, Matrix.mul_one]
      _ = (Bᵀ)⁻¹ * toReal W * (toReal W⁻¹ * (toReal Y)ᵀ * toReal W) := by simp only [Matrix.mul_assoc]

end AutoGR.Fortran
