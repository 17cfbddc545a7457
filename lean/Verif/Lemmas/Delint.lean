import Verif.Model.FortranDelint
import Mathlib.Analysis.InnerProductSpace.PiL2
import Mathlib.Tactic.FieldSimp
import Mathlib.Tactic.LinearCombination

/-!
# Lemmas about cell parameters and `delint`
-/

namespace AutoGR.Fortran

open Matrix

/-- The matrix of scalar products with given lengths and cosines. -/
noncomputable def gramOf (a b c x y z : ℝ) : Matrix (Fin 3) (Fin 3) ℝ :=
  !![a ^ 2, a * b * z, a * c * y; a * b * z, b ^ 2, b * c * x; a * c * y, b * c * x, c ^ 2]

/-- The vectors that `cell2basis` makes have the lengths and angles given. -/
theorem cell2basis_gram {p : Params} {W : Matrix (Fin 3) (Fin 3) ℝ} (h : cell2basis p = some W) :
    Wᵀ * W = gramOf p.a p.b p.c (Real.cos p.alpha) (Real.cos p.beta) (Real.cos p.gamma) := by
  unfold cell2basis at h
  split_ifs at h with h1
  dsimp only at h
  split_ifs at h with h2
  cases h
  push Not at h2
  have hs := Real.sq_sqrt h2
  have hsc := Real.sin_sq_add_cos_sq p.gamma
  set temp := (Real.cos p.alpha - Real.cos p.beta * Real.cos p.gamma) / Real.sin p.gamma with ht
  have htm : temp * Real.sin p.gamma = Real.cos p.alpha - Real.cos p.beta * Real.cos p.gamma :=
    div_mul_cancel₀ _ h1
  generalize Real.sqrt (1 - Real.cos p.beta ^ 2 - temp ^ 2) = r at hs
  generalize temp = t at *
  generalize Real.cos p.alpha = x at *
  generalize Real.cos p.beta = y at *
  generalize Real.cos p.gamma = z at *
  generalize Real.sin p.gamma = s at *
  ext i j
  fin_cases i <;> fin_cases j <;>
    simp [Matrix.mul_apply, Fin.sum_univ_three, gramOf, Matrix.transpose_apply, Matrix.cons_val_two]
  · ring
  · ring
  · ring
  · ring
  · linear_combination p.b ^ 2 * hsc
  · linear_combination p.b * p.c * htm
  · ring
  · linear_combination p.b * p.c * htm
  · linear_combination p.c ^ 2 * hs

/-- The parameters of three vectors that are linearly independent. -/
structure Proper (a b c x y z : ℝ) : Prop where
  ha : 0 < a
  hb : 0 < b
  hc : 0 < c
  hx : -1 < x ∧ x < 1
  hy : -1 < y ∧ y < 1
  hz : -1 < z ∧ z < 1
  hdet : 0 < 1 + 2 * x * y * z - x ^ 2 - y ^ 2 - z ^ 2

theorem cell2basis_proper {a b c x y z : ℝ} (h : Proper a b c x y z) :
    ∃ W, cell2basis ⟨a, b, c, Real.arccos x, Real.arccos y, Real.arccos z⟩ = some W := by
  unfold cell2basis
  dsimp only
  rw [Real.cos_arccos h.hx.1.le h.hx.2.le, Real.cos_arccos h.hy.1.le h.hy.2.le, Real.cos_arccos h.hz.1.le h.hz.2.le]
  have hz2 : 0 < 1 - z ^ 2 := by nlinarith [h.hz.1, h.hz.2]
  have hs : 0 < Real.sin (Real.arccos z) := by
    rw [Real.sin_arccos]
    exact Real.sqrt_pos.2 hz2
  have hs2 : Real.sin (Real.arccos z) ^ 2 = 1 - z ^ 2 := by
    rw [Real.sin_arccos]
    exact Real.sq_sqrt hz2.le
  rw [if_neg hs.ne', if_neg]
  · exact ⟨_, rfl⟩
  · push Not
    have e : 1 - y ^ 2 - ((x - y * z) / Real.sin (Real.arccos z)) ^ 2 =
        (1 + 2 * x * y * z - x ^ 2 - y ^ 2 - z ^ 2) / (1 - z ^ 2) := by
      rw [div_pow, hs2]
      field_simp
      ring
    rw [e]
    exact (div_pos h.hdet hz2).le

/-- The six numbers that `basis2cell` computes belong to the vectors. -/
theorem basis2cell_proper {V : Matrix (Fin 3) (Fin 3) ℝ} (hV : V.det ≠ 0) :
    ∃ a b c x y z, Proper a b c x y z ∧ Vᵀ * V = gramOf a b c x y z ∧
      basis2cell V = ⟨a, b, c, Real.arccos x, Real.arccos y, Real.arccos z⟩ := by
  set A := V.col 0 ⬝ᵥ V.col 0 with hA
  set B := V.col 1 ⬝ᵥ V.col 1 with hB
  set C := V.col 2 ⬝ᵥ V.col 2 with hC
  set D := V.col 1 ⬝ᵥ V.col 2 with hD
  set E := V.col 0 ⬝ᵥ V.col 2 with hE
  set F := V.col 0 ⬝ᵥ V.col 1 with hF
  have hdet : V.det ^ 2 = A * B * C + 2 * D * E * F - A * D ^ 2 - B * E ^ 2 - C * F ^ 2 := by
    rw [Matrix.det_fin_three]
    simp only [hA, hB, hC, hD, hE, hF, dotProduct, Fin.sum_univ_three, Matrix.col_apply]
    ring
  have hpos : 0 < V.det ^ 2 := by positivity
  have lag (i j : Fin 3) : (V.col i ⬝ᵥ V.col i) * (V.col j ⬝ᵥ V.col j) - (V.col i ⬝ᵥ V.col j) ^ 2 =
      (V 0 i * V 1 j - V 1 i * V 0 j) ^ 2 + (V 0 i * V 2 j - V 2 i * V 0 j) ^ 2 +
        (V 1 i * V 2 j - V 2 i * V 1 j) ^ 2 := by
    simp only [dotProduct, Fin.sum_univ_three, Matrix.col_apply]
    ring
  have minor (i j k : Fin 3) (e : V.det = (V 1 i * V 2 j - V 2 i * V 1 j) * V 0 k -
      (V 0 i * V 2 j - V 2 i * V 0 j) * V 1 k + (V 0 i * V 1 j - V 1 i * V 0 j) * V 2 k ∨
      V.det = -((V 1 i * V 2 j - V 2 i * V 1 j) * V 0 k -
      (V 0 i * V 2 j - V 2 i * V 0 j) * V 1 k + (V 0 i * V 1 j - V 1 i * V 0 j) * V 2 k)) :
      (V.col i ⬝ᵥ V.col j) ^ 2 < (V.col i ⬝ᵥ V.col i) * (V.col j ⬝ᵥ V.col j) := by
    by_contra hc
    have h0 := lag i j
    have h1 : (V 0 i * V 1 j - V 1 i * V 0 j) = 0 := by nlinarith
    have h2 : (V 0 i * V 2 j - V 2 i * V 0 j) = 0 := by nlinarith
    have h3 : (V 1 i * V 2 j - V 2 i * V 1 j) = 0 := by nlinarith
    rw [h1, h2, h3] at e
    apply hV
    rcases e with e | e <;> simpa using e
  have hF2 : F ^ 2 < A * B := minor 0 1 2 (.inl (by rw [Matrix.det_fin_three]; ring))
  have hE2 : E ^ 2 < A * C := minor 0 2 1 (.inr (by rw [Matrix.det_fin_three]; ring))
  have hD2 : D ^ 2 < B * C := minor 1 2 0 (.inl (by rw [Matrix.det_fin_three]; ring))
  have nn (i : Fin 3) : 0 ≤ V.col i ⬝ᵥ V.col i := by
    simp only [dotProduct]
    exact Finset.sum_nonneg fun k _ => mul_self_nonneg _
  have hA0 : 0 < A := lt_of_le_of_ne (nn 0) fun e => by rw [← e] at hF2; nlinarith [sq_nonneg F]
  have hB0 : 0 < B := lt_of_le_of_ne (nn 1) fun e => by rw [← e] at hF2; nlinarith [sq_nonneg F]
  have hC0 : 0 < C := lt_of_le_of_ne (nn 2) fun e => by rw [← e] at hE2; nlinarith [sq_nonneg E]
  have hG : Vᵀ * V = !![A, F, E; F, B, D; E, D, C] := by
    ext i j
    fin_cases i <;> fin_cases j <;>
      simp [Matrix.mul_apply, Fin.sum_univ_three, Matrix.transpose_apply, hA, hB, hC, hD, hE, hF, dotProduct,
        Matrix.col_apply] <;> ring
  have hbc : basis2cell V = ⟨Real.sqrt A, Real.sqrt B, Real.sqrt C, Real.arccos (D / (Real.sqrt B * Real.sqrt C)),
      Real.arccos (E / (Real.sqrt A * Real.sqrt C)), Real.arccos (F / (Real.sqrt A * Real.sqrt B))⟩ := rfl
  have ra := Real.sqrt_pos.2 hA0
  have rb := Real.sqrt_pos.2 hB0
  have rc := Real.sqrt_pos.2 hC0
  have sa := Real.sq_sqrt hA0.le
  have sb := Real.sq_sqrt hB0.le
  have sc := Real.sq_sqrt hC0.le
  generalize Real.sqrt A = a at *
  generalize Real.sqrt B = b at *
  generalize Real.sqrt C = c at *
  have range {u v w : ℝ} (hu : 0 < u) (hv : 0 < v) (h : w ^ 2 < u ^ 2 * v ^ 2) :
      -1 < w / (u * v) ∧ w / (u * v) < 1 := by
    have huv := mul_pos hu hv
    have : |w| < |u * v| := sq_lt_sq.1 (by rwa [mul_pow])
    rw [abs_of_pos huv, abs_lt] at this
    constructor
    · rw [lt_div_iff₀ huv]; linarith
    · rw [div_lt_iff₀ huv]; linarith
  refine ⟨a, b, c, D / (b * c), E / (a * c), F / (a * b), ⟨ra, rb, rc, range rb rc (by rw [sb, sc]; exact hD2),
    range ra rc (by rw [sa, sc]; exact hE2), range ra rb (by rw [sa, sb]; exact hF2), ?_⟩, ?_, hbc⟩
  · have e : 1 + 2 * (D / (b * c)) * (E / (a * c)) * (F / (a * b)) - (D / (b * c)) ^ 2 - (E / (a * c)) ^ 2 -
        (F / (a * b)) ^ 2 = V.det ^ 2 / (a * b * c) ^ 2 := by
      rw [hdet, ← sa, ← sb, ← sc]
      field_simp
    rw [e]
    positivity
  · rw [hG]
    unfold gramOf
    rw [← sa, ← sb, ← sc]
    congr! <;> field_simp

/-- `delint` in exact arithmetic: the new vectors have the scalar products of the new parameters, and they are
the old vectors if the parameters do not change. -/
theorem delint_core {equal : ℝ → ℝ → Bool} {close : Matrix (Fin 3) (Fin 3) ℝ → Matrix (Fin 3) (Fin 3) ℝ → Bool}
    (hclose : close 1 1 = true) {V : Matrix (Fin 3) (Fin 3) ℝ} (hV : V.det ≠ 0) :
    ∃ W R : Matrix (Fin 3) (Fin 3) ℝ, cell2basis (basis2cell V) = some W ∧ V = R * W ∧ Rᵀ * R = 1 ∧
      ∀ case, delint equal close V case = (symmetrize equal (basis2cell V) case).bind fun q =>
        (cell2basis q).bind fun W' => some (R * W') := by
  obtain ⟨a, b, c, x, y, z, hp, hG, hb⟩ := basis2cell_proper hV
  obtain ⟨W, hW⟩ := cell2basis_proper hp
  have hGW := cell2basis_gram hW
  dsimp only at hGW
  rw [Real.cos_arccos hp.hx.1.le hp.hx.2.le, Real.cos_arccos hp.hy.1.le hp.hy.2.le,
    Real.cos_arccos hp.hz.1.le hp.hz.2.le, ← hG] at hGW
  have hWdet : W.det ≠ 0 := by
    have := congrArg Matrix.det hGW
    rw [Matrix.det_mul, Matrix.det_mul, Matrix.det_transpose, Matrix.det_transpose] at this
    intro h0
    rw [h0] at this
    exact hV (mul_self_eq_zero.1 (by linarith))
  have hu : IsUnit W.det := Ne.isUnit hWdet
  have hR : (V * W⁻¹)ᵀ * (V * W⁻¹) = 1 := by
    rw [Matrix.transpose_mul, Matrix.mul_assoc, ← Matrix.mul_assoc Vᵀ, ← hGW, Matrix.mul_assoc Wᵀ,
      Matrix.mul_nonsing_inv _ hu, Matrix.mul_one, ← Matrix.transpose_mul, Matrix.mul_nonsing_inv _ hu,
      Matrix.transpose_one]
  refine ⟨W, V * W⁻¹, by rw [hb]; exact hW, ?_, hR, fun case => ?_⟩
  · rw [Matrix.mul_assoc, Matrix.nonsing_inv_mul _ hu, Matrix.mul_one]
  · unfold delint
    dsimp only
    rw [hb, hW, Option.bind_some, if_neg hWdet, mul_eq_one_comm.1 hR, if_pos hclose]

end AutoGR.Fortran
