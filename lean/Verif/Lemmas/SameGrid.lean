import Verif.Lemmas.Grid
import Verif.Lemmas.IrreducibleGroup
import Verif.Spec.SameCrystal

/-!
# Cells of one crystal: the grid of a symmetric supercell, and the irreducible points
-/

namespace AutoGR

open Matrix Spec

variable {R U U' K K' : Matrix (Fin 3) (Fin 3) ℝ}

/-- The grid of `C T C⁻¹` in the cell `U` and that of `C' T C'⁻¹` in the cell `U'` are the same, if `C` and `C'` lead to
cells of the same shape and the grid has the symmetries of the crystal. -/
theorem same_grid_of {s : ℝ} (hs : SameCrystal s R U U') {C Ci C' Ci' T : IntMat} (hC : C * Ci = 1) (hC' : C' * Ci' = 1)
    (hU : U.det ≠ 0) (hg : (U' * toReal C')ᵀ * (U' * toReal C') = s ^ 2 • ((U * toReal C)ᵀ * (U * toReal C)))
    (hK : (U * toReal (C * T * Ci))ᵀ * K = 1) (hK' : (U' * toReal (C' * T * Ci'))ᵀ * K' = 1)
    (hsym : ∀ Q : Matrix (Fin 3) (Fin 3) ℝ, Qᵀ * Q = 1 → (∃ X : IntMat, Q * U = U * toReal X) →
      ∃ Y : IntMat, Q * K = K * toReal Y) :
    ∃ Y : IntMat, IsUnit Y.det ∧ K' = s⁻¹ • (R * K * toReal Y) := by
  obtain ⟨hs0, hR, W, hW, rfl⟩ := hs
  have hCi := mul_eq_one_comm.1 hC
  have hCi' := mul_eq_one_comm.1 hC'
  have hCr : toReal C * toReal Ci = 1 := by rw [← toReal_mul, hC, toReal_one]
  have hCr' : toReal C' * toReal Ci' = 1 := by rw [← toReal_mul, hC', toReal_one]
  have hCir := mul_eq_one_comm.1 hCr
  have hCir' := mul_eq_one_comm.1 hCr'
  obtain ⟨X, hX⟩ : ∃ X : IntMat, X = Ci * W * C' := ⟨_, rfl⟩
  obtain ⟨N, hN⟩ : ∃ N, N = U * toReal C := ⟨_, rfl⟩
  have hNd : N.det ≠ 0 := by
    rw [hN, det_mul]
    refine mul_ne_zero hU fun h0 => ?_
    have := congrArg Matrix.det hCr
    rw [det_mul, h0, zero_mul, Matrix.det_one] at this
    exact zero_ne_one this
  have hNi : N * N⁻¹ = 1 := mul_nonsing_inv _ (isUnit_iff_ne_zero.2 hNd)
  have hNi' := mul_eq_one_comm.1 hNi
  have hUW : U * toReal W = N * toReal X * toReal Ci' := by
    rw [hX, hN, toReal_mul, toReal_mul]
    calc U * toReal W = U * (toReal C * toReal Ci) * toReal W * (toReal C' * toReal Ci') := by
          rw [hCr, hCr', Matrix.mul_one, Matrix.mul_one]
      _ = _ := by simp only [Matrix.mul_assoc]
  have hN' : (s • (R * U * toReal W)) * toReal C' = s • (R * (N * toReal X)) := by
    rw [Matrix.smul_mul, Matrix.mul_assoc R, hUW]
    congr 1
    calc R * (N * toReal X * toReal Ci') * toReal C' = R * (N * toReal X) * (toReal Ci' * toReal C') := by
          simp only [Matrix.mul_assoc]
      _ = _ := by rw [hCir', Matrix.mul_one]
  have hXG : (N * toReal X)ᵀ * (N * toReal X) = Nᵀ * N := by
    rw [hN', ← hN, transpose_smul, Matrix.smul_mul, Matrix.mul_smul, smul_smul, ← sq, transpose_mul R,
      Matrix.mul_assoc, ← Matrix.mul_assoc Rᵀ, hR, Matrix.one_mul] at hg
    exact smul_right_injective _ (pow_pos hs0 2).ne' hg
  obtain ⟨Q, hQ⟩ : ∃ Q, Q = N * toReal X * N⁻¹ := ⟨_, rfl⟩
  have hQN : Q * N = N * toReal X := by rw [hQ, Matrix.mul_assoc, hNi', Matrix.mul_one]
  have hQQ : Qᵀ * Q = 1 := by
    rw [hQ, transpose_mul]
    calc (N⁻¹)ᵀ * (N * toReal X)ᵀ * (N * toReal X * N⁻¹) = (N⁻¹)ᵀ * ((N * toReal X)ᵀ * (N * toReal X)) * N⁻¹ := by
          simp only [Matrix.mul_assoc]
      _ = (N * N⁻¹)ᵀ * (N * N⁻¹) := by rw [hXG, transpose_mul]; simp only [Matrix.mul_assoc]
      _ = 1 := by rw [hNi, transpose_one, Matrix.one_mul]
  have hUN : U = N * toReal Ci := by rw [hN, Matrix.mul_assoc, hCr, Matrix.mul_one]
  obtain ⟨Y, hY⟩ := hsym Q hQQ ⟨C * X * Ci, by
    rw [toReal_mul, toReal_mul]
    calc Q * U = Q * N * toReal Ci := by rw [Matrix.mul_assoc, ← hUN]
      _ = U * toReal C * toReal X * toReal Ci := by rw [hQN, hN]
      _ = _ := by simp only [Matrix.mul_assoc]⟩
  have hKd : K.det ≠ 0 := by
    intro h0
    have := congrArg Matrix.det hK
    rw [det_mul, h0, mul_zero, Matrix.det_one] at this
    exact zero_ne_one this
  have hYd : IsUnit Y.det := by
    have h1 : Q.det * Q.det = 1 := by
      have := congrArg Matrix.det hQQ
      rwa [det_mul, det_transpose, Matrix.det_one] at this
    have h2 : Q.det = (Y.det : ℝ) := by
      have := congrArg Matrix.det hY
      rw [det_mul, det_mul, mul_comm, Fortran.toReal_det] at this
      exact mul_left_cancel₀ hKd this
    rw [h2] at h1
    exact IsUnit.of_mul_eq_one Y.det (by exact_mod_cast h1)
  have hVu : IsUnit (C' * Ci)ᵀ.det := by
    rw [det_transpose, det_mul]
    refine IsUnit.mul ?_ ?_
    · refine IsUnit.of_mul_eq_one Ci'.det ?_
      rw [← det_mul, hC', Matrix.det_one]
    · refine IsUnit.of_mul_eq_one C.det ?_
      rw [← det_mul, hCi, Matrix.det_one]
  refine ⟨Y * (C' * Ci)ᵀ, by rw [det_mul]; exact hYd.mul hVu, ?_⟩
  have hB : (s • (R * U * toReal W)) * toReal (C' * T * Ci') =
      s • (R * Q * (U * toReal (C * T * Ci)) * toReal (C * Ci')) := by
    rw [Matrix.smul_mul, Matrix.mul_assoc R, hUW, ← hQN]
    congr 1
    have e1 : toReal Ci' * toReal (C' * T * Ci') = toReal T * toReal Ci' := by
      rw [toReal_mul, toReal_mul, ← Matrix.mul_assoc, ← Matrix.mul_assoc, hCir', Matrix.one_mul]
    have e2 : toReal (C * T * Ci) * toReal (C * Ci') = toReal C * (toReal T * toReal Ci') := by
      rw [toReal_mul, toReal_mul, toReal_mul]
      calc toReal C * toReal T * toReal Ci * (toReal C * toReal Ci')
          = toReal C * toReal T * (toReal Ci * toReal C) * toReal Ci' := by simp only [Matrix.mul_assoc]
        _ = _ := by rw [hCir, Matrix.mul_one, Matrix.mul_assoc]
    rw [Matrix.mul_assoc (R * Q), Matrix.mul_assoc U, e2, ← Matrix.mul_assoc U, ← hN, Matrix.mul_assoc R,
      Matrix.mul_assoc (Q * N), e1]
    simp only [Matrix.mul_assoc]
  have hB1 : (s • (R * U * toReal W) * toReal (C' * T * Ci'))ᵀ * (s⁻¹ • (R * K * toReal (Y * (C' * Ci)ᵀ))) = 1 := by
    rw [hB, transpose_smul, Matrix.smul_mul, Matrix.mul_smul, smul_smul, mul_inv_cancel₀ hs0.ne', one_smul, toReal_mul Y,
      Matrix.mul_assoc R K, ← Matrix.mul_assoc K, ← hY, transpose_mul (R * Q * _), transpose_mul (R * Q), transpose_mul R]
    calc (toReal (C * Ci'))ᵀ * ((U * toReal (C * T * Ci))ᵀ * (Qᵀ * Rᵀ)) * (R * (Q * K * toReal (C' * Ci)ᵀ))
        = (toReal (C * Ci'))ᵀ * ((U * toReal (C * T * Ci))ᵀ * (Qᵀ * (Rᵀ * R) * Q) * K) * toReal (C' * Ci)ᵀ := by
          simp only [Matrix.mul_assoc]
      _ = (toReal (C * Ci'))ᵀ * toReal (C' * Ci)ᵀ := by
          rw [hR, Matrix.mul_one, hQQ, Matrix.mul_one, hK, Matrix.mul_one]
      _ = 1 := by
          rw [toReal_transpose, ← transpose_mul, ← toReal_mul]
          have : C' * Ci * (C * Ci') = 1 := by
            calc C' * Ci * (C * Ci') = C' * (Ci * C) * Ci' := by simp only [Matrix.mul_assoc]
              _ = 1 := by rw [hCi, Matrix.mul_one, hC']
          rw [this, toReal_one, transpose_one]
  exact (inv_eq_right_inv hK').symm.trans (inv_eq_right_inv hB1)

/-- The symmetries of the crystal after the rotation or reflection `R`. -/
def turned (R : Matrix (Fin 3) (Fin 3) ℝ) (ops : Set (Matrix (Fin 3) (Fin 3) ℝ)) : Set (Matrix (Fin 3) (Fin 3) ℝ) :=
  {Q' | ∃ Q ∈ ops, Q' = R * Q * Rᵀ}

/-- Irreducible points after a rotation or reflection, with other bases of the grid and of the reciprocal lattice. -/
theorem Spec.IrreduciblePoints.turn {B K : Matrix (Fin 3) (Fin 3) ℝ} {off : Fin 3 → ℝ}
    {ops : Set (Matrix (Fin 3) (Fin 3) ℝ)} {pts : List ((Fin 3 → ℝ) × ℤ)} (h : IrreduciblePoints B K off ops pts)
    (hR : Rᵀ * R = 1) {V Y : IntMat} (hV : IsUnit V.det) (hY : IsUnit Y.det) :
    IrreduciblePoints (R * B * toReal V) (R * K * toReal Y) (R *ᵥ off) (turned R ops)
      (pts.map fun p => (R *ᵥ p.1, p.2)) := by
  have hR' := mul_eq_one_comm.1 hR
  have hinj : Function.Injective fun k : Fin 3 → ℝ => R *ᵥ k := by
    intro a b hab
    have := congrArg (fun v => Rᵀ *ᵥ v) hab
    simpa [mulVec_mulVec, hR] using this
  have hbasis : ∀ {M : Matrix (Fin 3) (Fin 3) ℝ} {W : IntMat}, IsUnit W.det → ∀ a b : Fin 3 → ℝ,
      (∃ z : Fin 3 → ℤ, R *ᵥ a = R *ᵥ b + (R * M * toReal W) *ᵥ intVec z) ↔ ∃ z : Fin 3 → ℤ, a = b + M *ᵥ intVec z := by
    intro M W hW a b
    constructor
    · rintro ⟨z, hz⟩
      refine ⟨W *ᵥ z, hinj ?_⟩
      dsimp only
      rw [hz, mulVec_add, ← intVec_mulVec, mulVec_mulVec, mulVec_mulVec, Matrix.mul_assoc]
    · rintro ⟨z, rfl⟩
      refine ⟨W⁻¹ *ᵥ z, ?_⟩
      rw [mulVec_add, ← mulVec_mulVec (M := R * M), intVec_mulVec, mulVec_mulVec (M := W), mul_nonsing_inv _ hW,
        one_mulVec, mulVec_mulVec]
  have hgrid : ∀ k, GridPoint (R * K * toReal Y) (R *ᵥ off) (R *ᵥ k) ↔ GridPoint K off k := fun k => hbasis hY k off
  have heq : ∀ k p, Equivalent (R * B * toReal V) (turned R ops) (R *ᵥ k) (R *ᵥ p) ↔ Equivalent B ops k p := by
    intro k p
    have e : ∀ Q : Matrix (Fin 3) (Fin 3) ℝ, (R * Q * Rᵀ) *ᵥ (R *ᵥ k) = R *ᵥ (Q *ᵥ k) := by
      intro Q
      rw [mulVec_mulVec, mulVec_mulVec, Matrix.mul_assoc (R * Q), hR, Matrix.mul_one]
    constructor
    · rintro ⟨_, ⟨Q, hQ, rfl⟩, hm⟩
      refine ⟨Q, hQ, ?_⟩
      rw [e] at hm
      exact (hbasis hV _ _).1 hm
    · rintro ⟨Q, hQ, hm⟩
      refine ⟨_, ⟨Q, hQ, rfl⟩, ?_⟩
      rw [e]
      exact (hbasis hV _ _).2 hm
  have hsur : ∀ k : Fin 3 → ℝ, ∃ k', k = R *ᵥ k' := fun k => ⟨Rᵀ *ᵥ k, by rw [mulVec_mulVec, hR', one_mulVec]⟩
  have htr : ∀ k, translates (R * B * toReal V) (R *ᵥ k) = (fun x => R *ᵥ x) '' translates B k := by
    intro k
    ext x
    obtain ⟨x, rfl⟩ := hsur x
    rw [hinj.mem_set_image]
    exact hbasis hV x k
  have hlen : (pts.map fun p => (R *ᵥ p.1, p.2)).length = pts.length := List.length_map _
  have hget : ∀ i, (pts.map fun p => (R *ᵥ p.1, p.2)).get i =
      (R *ᵥ (pts.get (Fin.cast hlen i)).1, (pts.get (Fin.cast hlen i)).2) := by
    intro i
    simp
  refine ⟨?_, ?_, ?_⟩
  · intro p hp
    obtain ⟨q, hq, rfl⟩ := List.mem_map.1 hp
    exact (hgrid _).2 (h.grid q hq)
  · intro k hk
    obtain ⟨k, rfl⟩ := hsur k
    obtain ⟨i, h1, h2⟩ := h.one k ((hgrid _).1 hk)
    refine ⟨Fin.cast hlen.symm i, ?_, ?_⟩
    · dsimp only
      rw [hget, heq]
      exact h1
    · intro j hj
      rw [hget, heq] at hj
      rw [← h2 _ hj]
      rfl
  · intro i
    rw [hget, h.weight]
    dsimp only
    generalize (pts.get (Fin.cast hlen i)).1 = p
    have : {c | ∃ k, GridPoint (R * K * toReal Y) (R *ᵥ off) k ∧
        Equivalent (R * B * toReal V) (turned R ops) k (R *ᵥ p) ∧ c = translates (R * B * toReal V) k} =
        (fun c => (fun x => R *ᵥ x) '' c) '' {c | ∃ k, GridPoint K off k ∧ Equivalent B ops k p ∧ c = translates B k} := by
      ext c
      constructor
      · rintro ⟨k, h1, h2, rfl⟩
        obtain ⟨k, rfl⟩ := hsur k
        exact ⟨_, ⟨k, (hgrid _).1 h1, (heq _ _).1 h2, rfl⟩, (htr k).symm⟩
      · rintro ⟨_, ⟨k, h1, h2, rfl⟩, rfl⟩
        exact ⟨R *ᵥ k, (hgrid _).2 h1, (heq _ _).2 h2, (htr k).symm⟩
    rw [this, Set.ncard_image_of_injective _ (Set.image_injective.2 hinj)]

end AutoGR
