import Verif.Model.RoundedUniversal
import Verif.Spec.SupercellErr
import Verif.Lemmas.RoundedTransform
import Verif.Lemmas.MayPy
import Verif.Lemmas.Supercells

/-!
# Errors in `transform_supercells`, and the stored bases of the Python code
-/

namespace AutoGR

open Arith Matrix Fortran
open AutoGR.Spec

section
variable {K : Type} [Arith K] {val : K → ℝ} {u : ℝ}
  {inverse : Matrix (Fin 3) (Fin 3) K → Matrix (Fin 3) (Fin 3) K}

theorem castMat_real (M : IntMat) : (castMat M : Matrix (Fin 3) (Fin 3) ℝ) = toReal M := by
  ext i j
  simp [castMat, toReal]

/-- The matrix `F` before any rounding to integers. -/
theorem changeF_near (hu : Relative K val u)
    {H Co Do : IntMat} (hCo : Co * Do = 1) {O No : Matrix (Fin 3) (Fin 3) K}
    {O0 : Matrix (Fin 3) (Fin 3) ℝ} (hdet : O0.det ≠ 0) {δ ι κ o l m c N f : ℝ}
    (hO : CloseTo val O O0 δ o) (hOi : CloseTo val (inverse O) O0⁻¹ ι l)
    (hNi : CloseTo val (inverse No) (O0 * toReal Co)⁻¹ κ m)
    (hN : N ≤ 2 ^ 53) (hH : ∀ i j, |(H i j : ℝ)| ≤ N) (hc : c ≤ 2 ^ 53) (hC : ∀ i j, |(Co i j : ℝ)| ≤ c)
    (hF : ∀ i j, |((Do * H * Co) i j : ℝ)| ≤ f) :
    NearMat val (matmulK (inverse No) (matmulK (matmulK (matmulK (matmulK O (intMat H)) (inverse O)) O) (intMat Co)))
      (toReal (Do * H * Co)) f (f + changeErr u δ ι κ o l m c N) := by
  have hun := isUnit_iff_ne_zero.2 hdet
  have nO := nearMat_of_close hO
  have nOi := nearMat_of_close hOi
  have nNi := nearMat_of_close hNi
  have nH := nearMat_int hu hN hH
  have nC := nearMat_int hu hc hC
  rw [castMat_real] at nH nC
  have o0 : 0 ≤ o := (nO 0 0).nonneg
  have p1 := nearMat_mul hu nO nH
  have p2 := nearMat_mul hu p1 nOi
  have p3 := nearMat_mul hu p2 nO
  have e3 : O0 * toReal H * O0⁻¹ * O0 = O0 * toReal H := by
    rw [Matrix.mul_assoc, nonsing_inv_mul _ hun, Matrix.mul_one]
  rw [e3] at p3
  have hs := size_mul o0 hO.size (show ∀ i j, |toReal H i j| ≤ N from fun i j => by
    simpa [toReal] using hH i j)
  have p3' : NearMat val _ (O0 * toReal H) (3 * o * N) _ := fun i j => (p3 i j).shrink (hs i j)
  have p4 := nearMat_mul hu p3' nC
  have p5 := nearMat_mul hu nNi p4
  have e5 : (O0 * toReal Co)⁻¹ * (O0 * toReal H * toReal Co) = toReal (Do * H * Co) := by
    have e2 : (O0 * toReal Co)⁻¹ = toReal Do * O0⁻¹ := by
      apply inv_eq_right_inv
      calc O0 * toReal Co * (toReal Do * O0⁻¹) = O0 * (toReal Co * toReal Do) * O0⁻¹ := by
            simp only [Matrix.mul_assoc]
        _ = 1 := by rw [← toReal_mul, hCo, toReal_one, Matrix.mul_one, mul_nonsing_inv _ hun]
    calc (O0 * toReal Co)⁻¹ * (O0 * toReal H * toReal Co)
        = toReal Do * (O0⁻¹ * O0) * toReal H * toReal Co := by rw [e2]; simp only [Matrix.mul_assoc]
      _ = toReal (Do * H * Co) := by
        rw [nonsing_inv_mul _ hun, Matrix.mul_one, toReal_mul, toReal_mul]
  rw [e5] at p5
  have d : 3 * (m + κ) * (3 * (3 * o * N + (3 * (3 * (3 * (o + δ) * N * (1 + u) ^ 3) * (l + ι) * (1 + u) ^ 3) *
      (o + δ) * (1 + u) ^ 3 - 3 * (3 * (3 * o * N) * l) * o)) * c * (1 + u) ^ 3) * (1 + u) ^ 3 -
      3 * m * (3 * (3 * o * N) * c) = changeErr u δ ι κ o l m c N := by
    unfold changeErr
    ring
  intro i j
  have := (p5 i j).shrink (t := f) (by simpa [toReal] using hF i j)
  rw [d] at this
  exact this

/-- The supercell is close to one made of the vectors of `U0` and an integer matrix. -/
theorem transformOneK_close (hu : Relative K val u)
    {H Co Do Cu Du : IntMat} (hCo : Co * Do = 1) (hCu : Cu * Du = 1) {O No Nu : Matrix (Fin 3) (Fin 3) K}
    {O0 U0 : Matrix (Fin 3) (Fin 3) ℝ} (hdet : O0.det ≠ 0) {δ ι κ o l m c N f α ω a w : ℝ}
    (hO : CloseTo val O O0 δ o) (hOi : CloseTo val (inverse O) O0⁻¹ ι l)
    (hNi : CloseTo val (inverse No) (O0 * toReal Co)⁻¹ κ m)
    (hN : N ≤ 2 ^ 53) (hH : ∀ i j, |(H i j : ℝ)| ≤ N) (hc : c ≤ 2 ^ 53) (hC : ∀ i j, |(Co i j : ℝ)| ≤ c)
    (hNu : CloseTo val Nu (U0 * toReal Cu) α a) (hCi : CloseTo val (inverse (intMat Cu)) (toReal Cu)⁻¹ ω w)
    (hF : ∀ i j, |((Do * H * Co) i j : ℝ)| ≤ f) (i j : Fin 3) :
    |val (transformOneK inverse No Nu Co Cu O H i j) - (U0 * toReal (Cu * Do * H * (Co * Du))) i j| ≤
      floatBackErr u α (changeErr u δ ι κ o l m c N) ω a f w := by
  have nF := changeF_near hu hCo hdet hO hOi hNi hN hH hc hC hF
  have p1 := nearMat_mul hu (nearMat_of_close hNu) nF
  have p2 := (nearMat_mul hu p1 (nearMat_of_close hCi) i j).err
  have ei : (toReal Cu)⁻¹ = toReal Du := by
    apply inv_eq_right_inv
    rw [← toReal_mul, hCu, toReal_one]
  have e : U0 * toReal Cu * toReal (Do * H * Co) * (toReal Cu)⁻¹ = U0 * toReal (Cu * Do * H * (Co * Du)) := by
    rw [ei]
    simp only [toReal_mul, Matrix.mul_assoc]
  rw [e] at p2
  refine p2.trans (le_of_eq ?_)
  unfold floatBackErr
  ring

end

/-! ## The stored bases -/

/-- The entries of a stored basis are at most 4 and those of its inverse at most 2 (by cofactors). -/
def canonSmall (O : RMat ℚ) : Bool :=
  [O.m00, O.m01, O.m02, O.m10, O.m11, O.m12, O.m20, O.m21, O.m22].all (fun x => decide (|x| ≤ 4)) &&
  [O.m11 * O.m22 - O.m12 * O.m21, O.m02 * O.m21 - O.m01 * O.m22, O.m01 * O.m12 - O.m02 * O.m11,
   O.m12 * O.m20 - O.m10 * O.m22, O.m00 * O.m22 - O.m02 * O.m20, O.m02 * O.m10 - O.m00 * O.m12,
   O.m10 * O.m21 - O.m11 * O.m20, O.m01 * O.m20 - O.m00 * O.m21, O.m00 * O.m11 - O.m01 * O.m10].all
    (fun x => decide (|x| ≤ 2 * |rdet O|)) && decide (rdet O ≠ 0)

theorem canonBasis_small {k : ℕ} {O : RMat ℚ} (h : canonBasis k = some O) : canonSmall O = true := by
  unfold canonBasis at h
  split at h <;> cases h <;> decide +kernel

theorem canonBasis_parts {k : ℕ} {O : RMat ℚ} (h : canonBasis k = some O) :
    (∀ i j, |O.toMatrix i j| ≤ 4) ∧ (∀ i j, |O.toMatrix⁻¹ i j| ≤ 2) ∧ O.toMatrix.det ≠ 0 := by
  have hs := canonBasis_small h
  clear h
  unfold canonSmall at hs
  simp only [Bool.and_eq_true, List.all_eq_true, decide_eq_true_eq] at hs
  obtain ⟨⟨h1, h2⟩, h3⟩ := hs
  have e : O.toMatrix.det = rdet O := (rdet_eq O).symm
  refine ⟨fun i j => ?_, fun i j => ?_, by rw [e]; exact h3⟩
  · apply h1
    clear h1 h2 e
    fin_cases i <;> fin_cases j <;> simp [RMat.toMatrix]
  · have hp : 0 < |rdet O| := abs_pos.2 h3
    have key : |O.toMatrix.adjugate i j| ≤ 2 * |rdet O| := by
      apply h2
      clear h1 h2 e hp h3
      rw [Matrix.adjugate_fin_three]
      fin_cases i <;> fin_cases j <;> simp [RMat.toMatrix, neg_add_eq_sub]
    rw [Matrix.inv_def, e, Ring.inverse_eq_inv', Matrix.smul_apply, smul_eq_mul, abs_mul, abs_inv,
      inv_mul_le_iff₀ hp, mul_comm]
    exact key

/-- The matrices `C` of the stored bases and their inverses have entries up to 4. -/
theorem canonC_small {k : ℕ} (h1 : 1 ≤ k) (h2 : k ≤ 44) :
    (canonC k).toMat.det = 1 ∧ ∃ Do : IntMat, (canonC k).toMat * Do = 1 ∧ (∀ i j, |(canonC k).toMat i j| ≤ 4) ∧
      ∀ i j, |Do i j| ≤ 4 := by
  have key : ∀ k ∈ Finset.Icc 1 44, (canonC k).toMat.det = 1 ∧ (canonC k).toMat * (canonC k).toMat.adjugate = 1 ∧
      (∀ i j, |(canonC k).toMat i j| ≤ 4) ∧ ∀ i j, |(canonC k).toMat.adjugate i j| ≤ 4 := by
    decide +kernel
  obtain ⟨a, b, c, d⟩ := key k (Finset.mem_Icc.2 ⟨h1, h2⟩)
  exact ⟨a, _, b, c, d⟩

theorem canonBasis_some {K : Type} [Arith K] {k : ℕ} (h1 : 1 ≤ k) (h2 : k ≤ 44) (hk : k ∉ [31, 44]) :
    ∃ O : RMat K, canonBasis k = some O := by
  simp only [List.mem_cons, List.not_mem_nil, or_false, not_or] at hk
  obtain ⟨a, b⟩ := hk
  interval_cases k <;> first | exact ⟨_, rfl⟩ | omega

end AutoGR
