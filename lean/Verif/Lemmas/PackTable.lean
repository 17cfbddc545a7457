import Verif.Lemmas.Packing
import Verif.Props.LatticeSym

/-!
# A densely packed shape for each class

For each class a form that all symmetries of the class leave unchanged (as a form on the dual lattice) and whose
lattice is densely packed.
-/

namespace AutoGR

open Spec Matrix

/-- The forms. -/
def packForm : ℕ → Form
  | 1 => ⟨3, 3, 3, -1, -1, -1⟩
  | 2 => ⟨1, 1, 1, 0, 0, 0⟩
  | 3 => ⟨1, 1, 1, 0, 0, 0⟩
  | 4 => ⟨1, 1, 1, 0, 0, 0⟩
  | 5 => ⟨2, 2, 2, 1, 1, 1⟩
  | 6 => ⟨2, 2, 2, 1, 1, 1⟩
  | 7 => ⟨2, 2, 2, 1, 1, 1⟩
  | 8 => ⟨2, 2, 2, 1, 1, 1⟩
  | 9 => ⟨1, 1, 3, -1, -1, 0⟩
  | 10 => ⟨1, 1, 1, 0, 0, 0⟩
  | 11 => ⟨1, 1, 1, 0, 0, 0⟩
  | 12 => ⟨2, 2, 2, 0, 0, 1⟩
  | 13 => ⟨1, 1, 1, 0, 0, 0⟩
  | 14 => ⟨1, 1, 1, 0, 0, 0⟩
  | 15 => ⟨2, 2, 4, 2, 2, 1⟩
  | 16 => ⟨2, 2, 2, 1, 1, 0⟩
  | 17 => ⟨1, 2, 1, 1, 0, 0⟩
  | 18 => ⟨2, 2, 2, 0, -1, -1⟩
  | 19 => ⟨2, 2, 2, 0, -1, -1⟩
  | 20 => ⟨1, 1, 1, 0, 0, 0⟩
  | 21 => ⟨1, 1, 1, 0, 0, 0⟩
  | 22 => ⟨2, 2, 2, 1, 0, 0⟩
  | 23 => ⟨1, 1, 1, 0, 0, 0⟩
  | 24 => ⟨1, 2, 2, 1, 1, 1⟩
  | 25 => ⟨1, 1, 1, 0, 0, 0⟩
  | 26 => ⟨2, 2, 2, 0, -1, -1⟩
  | 27 => ⟨1, 1, 3, -1, -1, 0⟩
  | 28 => ⟨1, 1, 2, 0, -1, 0⟩
  | 29 => ⟨1, 2, 1, 0, 0, -1⟩
  | 30 => ⟨1, 1, 2, -1, 0, 0⟩
  | 31 => ⟨1, 1, 1, 0, 0, 0⟩
  | 32 => ⟨1, 1, 1, 0, 0, 0⟩
  | 33 => ⟨1, 1, 1, 0, 0, 0⟩
  | 34 => ⟨1, 1, 1, 0, 0, 0⟩
  | 35 => ⟨1, 1, 1, 0, 0, 0⟩
  | 36 => ⟨1, 1, 2, 0, 1, 0⟩
  | 37 => ⟨1, 1, 2, 0, 1, 0⟩
  | 38 => ⟨1, 2, 1, 0, 0, 1⟩
  | 39 => ⟨1, 2, 1, 0, 0, 1⟩
  | 40 => ⟨1, 1, 2, 1, 0, 0⟩
  | 41 => ⟨1, 1, 2, 1, 0, 0⟩
  | 42 => ⟨2, 2, 4, 2, 2, 1⟩
  | 43 => ⟨1, 2, 2, 1, 1, 0⟩
  | 44 => ⟨1, 1, 1, 0, 0, 0⟩
  | _ => ⟨1, 1, 1, 0, 0, 0⟩

/-- `X G Xᵀ = G` for the matrix `G` of the form. -/
def packFix (M : Form) (X : IMat) : Bool :=
  let u := (X.m00, X.m01, X.m02)
  let v := (X.m10, X.m11, X.m12)
  let w := (X.m20, X.m21, X.m22)
  M.bil u u = M.A && M.bil v v = M.B && M.bil w w = M.C && M.bil v w = M.D && M.bil u w = M.E && M.bil u v = M.F

theorem packFix_spec {M : Form} {X : IMat} (h : packFix M X = true) : X.toMat * M.mat * X.toMatᵀ = M.mat := by
  simp only [packFix, Bool.and_eq_true, decide_eq_true_eq] at h
  simp only [Form.bil] at h
  obtain ⟨⟨⟨⟨⟨h1, h2⟩, h3⟩, h4⟩, h5⟩, h6⟩ := h
  ext i j
  fin_cases i <;> fin_cases j <;>
    simp [IMat.toMat, Form.mat, Matrix.mul_apply, Fin.sum_univ_three, Matrix.transpose] <;> linarith

def packCheck (k : ℕ) : Bool :=
  (packForm k).tight && (wit k).bounded && 0 < (wit k).det && (wit k).autos.all (packFix (packForm k))

theorem packCheck_all : ∀ k ∈ classTable, packCheck k = true := by decide +kernel

/-- The symmetries of the chosen metric of a class. -/
def classAutos (k : ℕ) : Finset IntMat := ((wit k).autos.map IMat.toMat).toFinset.filter fun X =>
  Xᵀ * (wit k).mat * X = (wit k).mat

theorem mem_classAutos {k : ℕ} (hk : k ∈ classTable) {X : IntMat} :
    X ∈ classAutos k ↔ Xᵀ * (wit k).mat * X = (wit k).mat := by
  have h := packCheck_all k hk
  simp only [packCheck, Bool.and_eq_true] at h
  simp only [classAutos, Finset.mem_filter, List.mem_toFinset, List.mem_map]
  exact ⟨fun h => h.2, fun hX => ⟨Form.mem_autos h.1.1.2 hX, hX⟩⟩

theorem classAutos_group {k : ℕ} (hk : k ∈ classTable) : IsMatGroup (classAutos k) := by
  have h := packCheck_all k hk
  simp only [packCheck, Bool.and_eq_true, decide_eq_true_eq] at h
  have hd : (wit k).mat.det ≠ 0 := by
    have e : (wit k).mat.det = (wit k).det := by
      rw [det_fin_three]
      simp [Form.mat, Form.det]
      ring
    rw [e]
    exact h.1.2.ne'
  refine ⟨?_, fun X hX Y hY => ?_, fun X hX => ?_⟩
  · rw [mem_classAutos hk]
    simp
  · rw [mem_classAutos hk] at hX hY ⊢
    calc (X * Y)ᵀ * (wit k).mat * (X * Y) = Yᵀ * (Xᵀ * (wit k).mat * X) * Y := by
          simp only [transpose_mul, Matrix.mul_assoc]
      _ = (wit k).mat := by rw [hX, hY]
  · rw [mem_classAutos hk] at hX
    have hu : IsUnit X.det := by
      have h1 := congrArg Matrix.det hX
      rw [det_mul, det_mul, det_transpose] at h1
      have h2 : X.det * X.det = 1 := by
        have : (wit k).mat.det * (X.det * X.det) = (wit k).mat.det * 1 := by linarith
        exact mul_left_cancel₀ hd this
      exact IsUnit.of_mul_eq_one _ h2
    refine ⟨X⁻¹, ?_, mul_nonsing_inv _ hu⟩
    rw [mem_classAutos hk]
    have e1 : X * X⁻¹ = 1 := mul_nonsing_inv _ hu
    have e2 : X⁻¹ᵀ * Xᵀ = 1 := by rw [← transpose_mul, e1, transpose_one]
    calc X⁻¹ᵀ * (wit k).mat * X⁻¹ = X⁻¹ᵀ * (Xᵀ * (wit k).mat * X) * X⁻¹ := by rw [hX]
      _ = (X⁻¹ᵀ * Xᵀ) * (wit k).mat * (X * X⁻¹) := by simp only [Matrix.mul_assoc]
      _ = (wit k).mat := by rw [e1, e2, Matrix.one_mul, Matrix.mul_one]

/-- Every lattice has sublattices of arbitrarily large index, a multiple of 8, that all its symmetries keep and whose
dual grid is dense. -/
theorem dense_sublattice {U : Matrix (Fin 3) (Fin 3) ℝ} {Co : IntMat} {A B C D E F : ℝ}
    (h : NiggliCellOf U Co A B C D E F) {k : ℕ} (hk : IsClass k A B C D E F) (N : ℤ) :
    ∃ M : IntMat, N ≤ |M.det| ∧ M.det ≠ 0 ∧ 8 ∣ M.det ∧ (∀ X ∈ PointSym U, Keeps X M) ∧
      Dense ((U * toReal M)ᵀ)⁻¹ := by
  have hc := packCheck_all k hk.1
  simp only [packCheck, Bool.and_eq_true, decide_eq_true_eq, List.all_eq_true] at hc
  have c1 : Co * Co⁻¹ = 1 := mul_nonsing_inv Co h.unit
  have c2 : Co⁻¹ * Co = 1 := nonsing_inv_mul Co h.unit
  have hCd : (toReal Co).det ≠ 0 := by
    have h1 : toReal Co * toReal Co⁻¹ = 1 := by rw [← toReal_mul, c1, toReal_one]
    have := congrArg Matrix.det h1
    rw [det_mul, Matrix.det_one] at this
    exact left_ne_zero_of_mul_eq_one this
  have hPd : (U * toReal Co).det ≠ 0 := by
    rw [det_mul]
    exact mul_ne_zero h.det_ne hCd
  obtain ⟨A', a1, a2, a3, a4, a5⟩ := exists_dense hPd hc.1.1.1 (classAutos_group hk.1)
    (fun X hX => by
      rw [mem_classAutos hk.1] at hX
      have := (symm_iff_wit h.red hk).2 hX
      rw [← h.cell] at this
      exact (pointSym_iff hPd).2 this)
    (fun X hX => by
      rw [mem_classAutos hk.1] at hX
      obtain ⟨Z, hZ, rfl⟩ := Form.mem_autos hc.1.1.2 hX
      exact packFix_spec (hc.2 Z hZ)) N
  have hu : |Co.det| = 1 := Int.isUnit_iff_abs_eq.1 h.unit
  refine ⟨Co * A', ?_, ?_, ?_, ?_, ?_⟩
  · rw [det_mul, abs_mul, hu, one_mul]
    exact a1
  · rw [det_mul]
    exact mul_ne_zero h.unit.ne_zero a2
  · rw [det_mul]
    exact a3.mul_left _
  · intro X hX
    have hZ : Co⁻¹ * X * Co ∈ classAutos k := by
      rw [mem_classAutos hk.1]
      exact (symm_iff_wit h.red hk).1 ((pointSym_iff_niggli h).1 hX)
    refine ⟨Co⁻¹ * X * Co, ?_⟩
    calc X * (Co * A') = (Co * Co⁻¹) * X * (Co * A') := by rw [c1, Matrix.one_mul]
      _ = Co * ((Co⁻¹ * X * Co) * A') := by simp only [Matrix.mul_assoc]
      _ = Co * A' * (Co⁻¹ * X * Co) := by rw [a4 _ hZ]; simp only [Matrix.mul_assoc]
  · rw [toReal_mul, ← Matrix.mul_assoc]
    exact a5

end AutoGR
