import Verif.Lemmas.Irreducible
import Verif.Spec.PointSym
import Mathlib.Data.Set.Card

/-!
# Lemmas: irreducible points under groups of symmetries of a lattice
-/

namespace AutoGR

open Matrix Spec

variable {U R K : Matrix (Fin 3) (Fin 3) ℝ} {N : IntMat} {off : Fin 3 → ℝ} {ops : Set (Matrix (Fin 3) (Fin 3) ℝ)}
  {pts : List ((Fin 3 → ℝ) × ℤ)}

/-- The symmetries of the lattice map the reciprocal lattice to itself. -/
theorem Spec.LatticeGroup.reciprocal (h : LatticeGroup U ops) (hU : U.det ≠ 0) :
    ∀ Q ∈ ops, ∃ X : IntMat, Q * (Uᵀ)⁻¹ = (Uᵀ)⁻¹ * toReal X := by
  intro Q hQ
  obtain ⟨P, hP, hPQ⟩ := h.inv Q hQ
  obtain ⟨hPo, Y, hY⟩ := h.sym P hP
  have hQP : Pᵀ = Q := by
    have h1 : P * Pᵀ = 1 := mul_eq_one_comm.1 hPo
    have h2 : P * Q = 1 := hPQ
    calc Pᵀ = Pᵀ * (P * Q) := by rw [h2, Matrix.mul_one]
      _ = Q := by rw [← Matrix.mul_assoc, hPo, Matrix.one_mul]
  have hu : IsUnit (Uᵀ).det := by
    rw [det_transpose]
    exact isUnit_iff_ne_zero.2 hU
  have h3 : Uᵀ * Q = toReal Yᵀ * Uᵀ := by
    have := congrArg Matrix.transpose hY
    rw [transpose_mul, transpose_mul, hQP] at this
    rw [this]
    rfl
  refine ⟨Yᵀ, ?_⟩
  calc Q * (Uᵀ)⁻¹ = (Uᵀ)⁻¹ * (Uᵀ * Q) * (Uᵀ)⁻¹ := by
        rw [← Matrix.mul_assoc, nonsing_inv_mul _ hu, Matrix.one_mul]
    _ = (Uᵀ)⁻¹ * toReal Yᵀ := by
        rw [h3, Matrix.mul_assoc, Matrix.mul_assoc, mul_nonsing_inv _ hu, Matrix.mul_one]

/-- There are at most as many as the lattice has point symmetries. -/
theorem Spec.LatticeGroup.ncard_le (h : LatticeGroup U ops) (hU : U.det ≠ 0) (hf : (PointSym U).Finite) :
    ops.Finite ∧ ops.ncard ≤ (PointSym U).ncard := by
  have hu := isUnit_iff_ne_zero.2 hU
  have hmap : ∀ Q ∈ ops, U⁻¹ * Q * U ∈ toReal '' PointSym U := by
    intro Q hQ
    obtain ⟨h1, X, h2⟩ := h.sym Q hQ
    refine ⟨X, ⟨Q, h1, h2⟩, ?_⟩
    rw [Matrix.mul_assoc, h2, ← Matrix.mul_assoc, nonsing_inv_mul _ hu, Matrix.one_mul]
  have hinj : Set.InjOn (fun Q => U⁻¹ * Q * U) ops := by
    intro P _ Q _ hPQ
    have := congrArg (fun Z => U * Z * U⁻¹) hPQ
    have e : ∀ Z : Matrix (Fin 3) (Fin 3) ℝ, U * (U⁻¹ * Z * U) * U⁻¹ = Z := by
      intro Z
      calc U * (U⁻¹ * Z * U) * U⁻¹ = (U * U⁻¹) * Z * (U * U⁻¹) := by simp only [Matrix.mul_assoc]
        _ = Z := by rw [mul_nonsing_inv _ hu, Matrix.one_mul, Matrix.mul_one]
    simpa only [e] using this
  have hf' : (toReal '' PointSym U).Finite := hf.image _
  refine ⟨Set.Finite.of_injOn hmap hinj hf', ?_⟩
  exact (Set.ncard_le_ncard_of_injOn _ hmap hinj hf').trans (Set.ncard_image_le hf)

/-- The weight of a point is at most the number of symmetries. -/
theorem Spec.IrreduciblePoints.weight_le (h : IrreduciblePoints R K off ops pts)
    (hinv : ∀ Q ∈ ops, ∃ P ∈ ops, P * Q = 1) (hops : ∀ Q ∈ ops, ∃ X : IntMat, Q * R = R * toReal X) (hf : ops.Finite) :
    ∀ p ∈ pts, 0 ≤ p.2 ∧ p.2 ≤ ops.ncard := by
  intro p hp
  obtain ⟨i, hi⟩ := List.get_of_mem hp
  have hw := h.weight i
  rw [hi] at hw
  rw [hw]
  refine ⟨Int.natCast_nonneg _, ?_⟩
  have hsub : {c | ∃ k, GridPoint K off k ∧ Equivalent R ops k p.1 ∧ c = translates R k} ⊆
      (fun P : Matrix (Fin 3) (Fin 3) ℝ => translates R (P *ᵥ p.1)) '' ops := by
    rintro c ⟨k, -, ⟨Q, hQ, m, hk⟩, rfl⟩
    obtain ⟨P, hP, hPQ⟩ := hinv Q hQ
    obtain ⟨X, hX⟩ := hops P hP
    refine ⟨P, hP, ?_⟩
    dsimp only
    rw [hk]
    symm
    refine translates_eq_iff.2 ⟨X *ᵥ m, ?_⟩
    rw [mulVec_add, mulVec_mulVec, hPQ, one_mulVec, mulVec_mulVec, hX, ← mulVec_mulVec, intVec_mulVec]
  exact_mod_cast (Set.ncard_le_ncard hsub (hf.image _)).trans (Set.ncard_image_le hf)

/-- Irreducible points may be moved by vectors of the reciprocal lattice. -/
theorem Spec.IrreduciblePoints.move (h : IrreduciblePoints R K off ops pts) (hR : R = K * toReal N)
    {f : (Fin 3 → ℝ) → (Fin 3 → ℝ)} (hf : ∀ k, ∃ m : Fin 3 → ℤ, f k = k + R *ᵥ intVec m) :
    IrreduciblePoints R K off ops (pts.map fun p => (f p.1, p.2)) := by
  have heq : ∀ k p, Equivalent R ops k (f p) ↔ Equivalent R ops k p := by
    intro k p
    obtain ⟨m, hm⟩ := hf p
    constructor
    · rintro ⟨Q, hQ, m', hk⟩
      refine ⟨Q, hQ, m' - m, ?_⟩
      rw [hm] at hk
      rw [intVec_sub, mulVec_sub, ← sub_eq_zero]
      rw [← sub_eq_zero] at hk
      rw [← hk]
      abel
    · rintro ⟨Q, hQ, m', hk⟩
      refine ⟨Q, hQ, m' + m, ?_⟩
      rw [hm, hk, intVec_add, mulVec_add]
      abel
  have hlen : (pts.map fun p => (f p.1, p.2)).length = pts.length := List.length_map _
  have hget : ∀ i, (pts.map fun p => (f p.1, p.2)).get i = (f (pts.get (Fin.cast hlen i)).1, (pts.get (Fin.cast hlen i)).2) := by
    intro i
    simp
  refine ⟨?_, ?_, ?_⟩
  · intro p hp
    obtain ⟨q, hq, rfl⟩ := List.mem_map.1 hp
    obtain ⟨z, hz⟩ := h.grid q hq
    obtain ⟨m, hm⟩ := hf q.1
    refine ⟨z + N *ᵥ m, ?_⟩
    dsimp only
    rw [hm, hz, hR, ← mulVec_mulVec, intVec_mulVec, intVec_add, mulVec_add]
    abel
  · intro k hk
    obtain ⟨i, h1, h2⟩ := h.one k hk
    refine ⟨Fin.cast hlen.symm i, ?_, ?_⟩
    · dsimp only
      rw [hget, heq]
      exact h1
    · intro j hj
      rw [hget, heq] at hj
      have := h2 _ hj
      rw [← this]
      rfl
  · intro i
    rw [hget]
    simp only [heq]
    exact h.weight _

/-- Irreducible points in other units. -/
theorem Spec.IrreduciblePoints.scale (h : IrreduciblePoints R K off ops pts) {c : ℝ} (hc : c ≠ 0) :
    IrreduciblePoints (c • R) (c • K) (c • off) ops (pts.map fun p => (c • p.1, p.2)) := by
  have hinj : Function.Injective fun k : Fin 3 → ℝ => c • k := smul_right_injective _ hc
  have hgrid : ∀ k, GridPoint (c • K) (c • off) (c • k) ↔ GridPoint K off k := by
    intro k
    refine exists_congr fun z => ?_
    rw [smul_mulVec, ← smul_add]
    exact hinj.eq_iff
  have heq : ∀ k p, Equivalent (c • R) ops (c • k) (c • p) ↔ Equivalent R ops k p := by
    intro k p
    refine exists_congr fun Q => and_congr_right fun _ => exists_congr fun m => ?_
    rw [smul_mulVec, mulVec_smul, ← smul_add]
    exact hinj.eq_iff
  have htr : ∀ k, translates (c • R) (c • k) = (fun x => c • x) '' translates R k := by
    intro k
    ext x
    constructor
    · rintro ⟨m, rfl⟩
      exact ⟨k + R *ᵥ intVec m, ⟨m, rfl⟩, by dsimp only; rw [smul_add, smul_mulVec]⟩
    · rintro ⟨y, ⟨m, rfl⟩, rfl⟩
      exact ⟨m, by dsimp only; rw [smul_add, smul_mulVec]⟩
  have hsur : ∀ k : Fin 3 → ℝ, ∃ k', k = c • k' := fun k => ⟨c⁻¹ • k, by rw [smul_smul, mul_inv_cancel₀ hc, one_smul]⟩
  have hlen : (pts.map fun p => (c • p.1, p.2)).length = pts.length := List.length_map _
  have hget : ∀ i, (pts.map fun p => (c • p.1, p.2)).get i =
      (c • (pts.get (Fin.cast hlen i)).1, (pts.get (Fin.cast hlen i)).2) := by
    intro i
    simp
  refine ⟨?_, ?_, ?_⟩
  · intro p hp
    obtain ⟨q, hq, rfl⟩ := List.mem_map.1 hp
    exact (hgrid _).2 (h.grid q hq)
  · intro k hk
    obtain ⟨k, rfl⟩ := hsur k
    obtain ⟨i, h1, h2⟩ := h.one k ((hgrid _).1 hk)
    refine ⟨Fin.cast hlen.symm i, ?_, ?_⟩
    · dsimp only
      rw [hget, heq]
      exact h1
    · intro j hj
      rw [hget, heq] at hj
      rw [← h2 _ hj]
      rfl
  · intro i
    rw [hget, h.weight]
    have e : {x | ∃ k, GridPoint (c • K) (c • off) k ∧ Equivalent (c • R) ops k (c • (pts.get (Fin.cast hlen i)).1) ∧
        x = translates (c • R) k} = (fun s : Set (Fin 3 → ℝ) => (fun x => c • x) '' s) ''
        {x | ∃ k, GridPoint K off k ∧ Equivalent R ops k (pts.get (Fin.cast hlen i)).1 ∧ x = translates R k} := by
      ext x
      constructor
      · rintro ⟨k, h1, h2, rfl⟩
        obtain ⟨k, rfl⟩ := hsur k
        exact ⟨_, ⟨k, (hgrid _).1 h1, (heq _ _).1 h2, rfl⟩, (htr k).symm⟩
      · rintro ⟨_, ⟨k, h1, h2, rfl⟩, rfl⟩
        exact ⟨c • k, (hgrid _).2 h1, (heq _ _).2 h2, (htr k).symm⟩
    dsimp only
    rw [e, Set.ncard_image_of_injective _ (Set.image_injective.2 hinj)]

end AutoGR
