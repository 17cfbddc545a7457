import Verif.Lemmas.Irreducible
import Verif.Spec.AllGrids

/-!
# Irreducible points in other units of length, and in another basis of the grid
-/

namespace AutoGR

open Spec Matrix

/-- Irreducible points in other units of length. -/
theorem Spec.IrreduciblePoints.smul {B K : Matrix (Fin 3) (Fin 3) ℝ} {off : Fin 3 → ℝ}
    {ops : Set (Matrix (Fin 3) (Fin 3) ℝ)} {pts : List ((Fin 3 → ℝ) × ℤ)} (h : IrreduciblePoints B K off ops pts)
    {c : ℝ} (hc : c ≠ 0) :
    IrreduciblePoints (c • B) (c • K) (c • off) ops (pts.map fun p => (c • p.1, p.2)) := by
  have hinj : Function.Injective fun k : Fin 3 → ℝ => c • k := smul_right_injective _ hc
  have hbasis : ∀ (M : Matrix (Fin 3) (Fin 3) ℝ) (a b : Fin 3 → ℝ),
      (∃ z : Fin 3 → ℤ, c • a = c • b + (c • M) *ᵥ intVec z) ↔ ∃ z : Fin 3 → ℤ, a = b + M *ᵥ intVec z := by
    intro M a b
    have e : ∀ z : Fin 3 → ℤ, c • a = c • b + (c • M) *ᵥ intVec z ↔ a = b + M *ᵥ intVec z := fun z => by
      rw [smul_mulVec, ← smul_add]
      exact hinj.eq_iff
    simp only [e]
  have hgrid : ∀ k, GridPoint (c • K) (c • off) (c • k) ↔ GridPoint K off k := fun k => hbasis K k off
  have heq : ∀ k p, Equivalent (c • B) ops (c • k) (c • p) ↔ Equivalent B ops k p := by
    intro k p
    unfold Equivalent
    simp only [mulVec_smul]
    exact exists_congr fun Q => and_congr_right fun _ => hbasis B p (Q *ᵥ k)
  have hsur : ∀ k : Fin 3 → ℝ, ∃ k', k = c • k' := fun k => ⟨c⁻¹ • k, by rw [smul_smul, mul_inv_cancel₀ hc, one_smul]⟩
  have htr : ∀ k, translates (c • B) (c • k) = (fun x => c • x) '' translates B k := by
    intro k
    ext x
    obtain ⟨x, rfl⟩ := hsur x
    rw [hinj.mem_set_image]
    exact hbasis B x k
  have hlen : (pts.map fun p => (c • p.1, p.2)).length = pts.length := List.length_map _
  have hget : ∀ i, (pts.map fun p => (c • p.1, p.2)).get i =
      (c • (pts.get (Fin.cast hlen i)).1, (pts.get (Fin.cast hlen i)).2) := by
    intro i
    simp
  refine ⟨?_, ?_, ?_⟩
  · intro p hp
    obtain ⟨q, hq, rfl⟩ := List.mem_map.1 hp
    exact (hgrid _).2 (h.grid q hq)
  · intro k hk
    obtain ⟨k, rfl⟩ := hsur k
    obtain ⟨i, h1, h2⟩ := h.one k ((hgrid _).1 hk)
    refine ⟨Fin.cast hlen.symm i, ?_, ?_⟩
    · dsimp only
      rw [hget, heq]
      exact h1
    · intro j hj
      rw [hget, heq] at hj
      rw [← h2 _ hj]
      rfl
  · intro i
    rw [hget, h.weight]
    dsimp only
    generalize (pts.get (Fin.cast hlen i)).1 = p
    have : {x | ∃ k, GridPoint (c • K) (c • off) k ∧ Equivalent (c • B) ops k (c • p) ∧ x = translates (c • B) k} =
        (fun x => (fun k : Fin 3 → ℝ => c • k) '' x) ''
          {x | ∃ k, GridPoint K off k ∧ Equivalent B ops k p ∧ x = translates B k} := by
      ext x
      constructor
      · rintro ⟨k, h1, h2, rfl⟩
        obtain ⟨k, rfl⟩ := hsur k
        exact ⟨_, ⟨k, (hgrid _).1 h1, (heq _ _).1 h2, rfl⟩, (htr k).symm⟩
      · rintro ⟨_, ⟨k, h1, h2, rfl⟩, rfl⟩
        exact ⟨c • k, (hgrid _).2 h1, (heq _ _).2 h2, (htr k).symm⟩
    rw [this, Set.ncard_image_of_injective _ (Set.image_injective.2 hinj)]

/-- The irreducible points do not depend on the basis of the grid. -/
theorem Spec.IrreduciblePoints.points {B K K' : Matrix (Fin 3) (Fin 3) ℝ} {off : Fin 3 → ℝ}
    {ops : Set (Matrix (Fin 3) (Fin 3) ℝ)} {pts : List ((Fin 3 → ℝ) × ℤ)} (h : IrreduciblePoints B K off ops pts)
    (hK : gridPoints K = gridPoints K') : IrreduciblePoints B K' off ops pts := by
  have e : ∀ k, GridPoint K off k ↔ GridPoint K' off k := by
    intro k
    have e1 : ∀ K, GridPoint K off k ↔ k - off ∈ gridPoints K := fun K =>
      exists_congr fun z => by rw [sub_eq_iff_eq_add, add_comm]
    rw [e1, e1, hK]
  refine ⟨fun p hp => (e _).1 (h.grid p hp), fun k hk => h.one k ((e k).2 hk), fun i => ?_⟩
  rw [h.weight]
  simp only [e]

end AutoGR
