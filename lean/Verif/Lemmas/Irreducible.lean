import Verif.Spec.Irreducible
import Verif.Lemmas.LatticeSym
import Mathlib.LinearAlgebra.FreeModule.Finite.CardQuotient
import Mathlib.LinearAlgebra.Matrix.ToLin
import Mathlib.Algebra.BigOperators.Fin

/-! # The weights of the irreducible points -/

namespace AutoGR

open Spec Matrix

/-- The number of classes of integer vectors modulo the columns of a matrix. -/
theorem card_classes {N : IntMat} (hN : N.det ≠ 0) :
    Nat.card ((Fin 3 → ℤ) ⧸ LinearMap.range N.mulVecLin) = N.det.natAbs := by
  have hinj : Function.Injective N.mulVecLin := by
    have := Matrix.mulVec_injective_of_det_ne_zero hN
    exact this
  let e : (Fin 3 → ℤ) ≃ₗ[ℤ] LinearMap.range N.mulVecLin := LinearEquiv.ofInjective _ hinj
  have := Submodule.natAbs_det_equiv (LinearMap.range N.mulVecLin) e
  rw [← this]
  congr 1
  have h2 : (LinearMap.range N.mulVecLin).subtype ∘ₗ (AddMonoidHom.toIntLinearMap (e : (Fin 3 → ℤ) →+ LinearMap.range N.mulVecLin)) =
      N.mulVecLin := by
    ext
    rfl
  rw [h2]
  exact (LinearMap.det_toLin' N)


theorem intVec_add (a b : Fin 3 → ℤ) : intVec (a + b) = intVec a + intVec b := by
  funext j; simp [intVec]

theorem intVec_sub (a b : Fin 3 → ℤ) : intVec (a - b) = intVec a - intVec b := by
  funext j; simp [intVec]

theorem intVec_zero : intVec 0 = 0 := by
  funext j; simp [intVec]

theorem intVec_mulVec (N : IntMat) (m : Fin 3 → ℤ) : toReal N *ᵥ intVec m = intVec (N *ᵥ m) := by
  funext j
  simp [intVec, mulVec, dotProduct, toReal]

theorem intVec_injective : Function.Injective intVec := by
  intro a b h
  funext j
  have := congrFun h j
  simpa [intVec] using this

theorem mulVec_inj {K : Matrix (Fin 3) (Fin 3) ℝ} (hK : K.det ≠ 0) {x y : Fin 3 → ℝ} (h : K *ᵥ x = K *ᵥ y) : x = y := by
  have := congrArg (K⁻¹ *ᵥ ·) h
  simpa [mulVec_mulVec, nonsing_inv_mul _ (isUnit_iff_ne_zero.2 hK)] using this

variable {R K : Matrix (Fin 3) (Fin 3) ℝ} {N : IntMat} {off : Fin 3 → ℝ}

theorem translates_eq_iff {k k' : Fin 3 → ℝ} :
    translates R k = translates R k' ↔ ∃ m : Fin 3 → ℤ, k' = k + R *ᵥ intVec m := by
  constructor
  · intro h
    have : k' ∈ translates R k' := ⟨0, by rw [intVec_zero, mulVec_zero, add_zero]⟩
    rw [← h] at this
    exact this
  · rintro ⟨m, rfl⟩
    ext x
    constructor
    · rintro ⟨m', rfl⟩
      exact ⟨m' - m, by rw [intVec_sub, mulVec_sub]; abel⟩
    · rintro ⟨m', rfl⟩
      exact ⟨m + m', by rw [intVec_add, mulVec_add]; abel⟩

/-- The classes of the points of the grid. -/
def classes (R K : Matrix (Fin 3) (Fin 3) ℝ) (off : Fin 3 → ℝ) : Set (Set (Fin 3 → ℝ)) :=
  {c | ∃ k, GridPoint K off k ∧ c = translates R k}

/-- There are as many as the determinant says. -/
theorem card_grid (hK : K.det ≠ 0) (hR : R = K * toReal N) (hN : N.det ≠ 0) :
    Nat.card (classes R K off) = N.det.natAbs := by
  rw [← card_classes hN]
  symm
  let L := LinearMap.range N.mulVecLin
  have hiff : ∀ z z' : Fin 3 → ℤ, translates R (off + K *ᵥ intVec z) = translates R (off + K *ᵥ intVec z') ↔
      -z + z' ∈ L.toAddSubgroup := by
    intro z z'
    rw [translates_eq_iff]
    constructor
    · rintro ⟨m, hm⟩
      refine ⟨m, ?_⟩
      have h1 : K *ᵥ intVec z' = K *ᵥ (intVec (z + N *ᵥ m)) := by
        rw [intVec_add, mulVec_add, ← intVec_mulVec, mulVec_mulVec, ← hR]
        have := congrArg (· - off) hm
        simp only [add_sub_cancel_left] at this
        rw [this]
        abel
      have h2 := intVec_injective (mulVec_inj hK h1)
      rw [h2]
      simp
    · rintro ⟨m, hm⟩
      refine ⟨m, ?_⟩
      have : z' = z + N *ᵥ m := by
        have hm : N *ᵥ m = -z + z' := hm
        rw [hm]; abel
      rw [this, intVec_add, mulVec_add, ← intVec_mulVec, mulVec_mulVec, ← hR]
      abel
  refine Nat.card_congr (Equiv.ofBijective (Quotient.lift (fun z => (⟨translates R (off + K *ᵥ intVec z), _, ⟨z, rfl⟩,
    rfl⟩ : classes R K off)) ?_) ⟨?_, ?_⟩)
  · intro z z' h
    refine Subtype.ext ((hiff z z').2 ?_)
    exact QuotientAddGroup.leftRel_apply.1 h
  · intro a b
    induction a using Quotient.inductionOn with | _ z
    induction b using Quotient.inductionOn with | _ z'
    intro h
    refine Quotient.sound (QuotientAddGroup.leftRel_apply.2 ((hiff z z').1 ?_))
    exact congrArg Subtype.val h
  · rintro ⟨c, k, ⟨z, rfl⟩, rfl⟩
    exact ⟨Quotient.mk _ z, rfl⟩

/-- The weights of the irreducible points add up to the number of points of the grid in a cell of the reciprocal lattice. -/
theorem Spec.IrreduciblePoints.sum_weights {ops : Set (Matrix (Fin 3) (Fin 3) ℝ)} {pts : List ((Fin 3 → ℝ) × ℤ)}
    (h : IrreduciblePoints R K off ops pts) (hops : ∀ Q ∈ ops, ∃ X : IntMat, Q * R = R * toReal X) (hK : K.det ≠ 0)
    (hR : R = K * toReal N) (hN : N.det ≠ 0) : (pts.map Prod.snd).sum = |N.det| := by
  have hcard := card_grid (off := off) hK hR hN
  have hfin : (classes R K off).Finite := by
    refine Set.finite_coe_iff.1 (Nat.finite_of_card_ne_zero ?_)
    rw [hcard]
    simpa using hN
  obtain ⟨W, hW⟩ : ∃ W : Fin pts.length → Set (Set (Fin 3 → ℝ)), ∀ i, W i =
      {c | ∃ k, GridPoint K off k ∧ Equivalent R ops k (pts.get i).1 ∧ c = translates R k} := ⟨_, fun _ => rfl⟩
  have hsub : ∀ i, W i ⊆ classes R K off := by
    intro i c hc
    rw [hW] at hc
    obtain ⟨k, h1, -, h2⟩ := hc
    exact ⟨k, h1, h2⟩
  have hWf : ∀ i, (W i).Finite := fun i => hfin.subset (hsub i)
  have shift : ∀ {k k' p}, translates R k = translates R k' → Equivalent R ops k' p → Equivalent R ops k p := by
    rintro k k' p hk ⟨Q, hQ, m, rfl⟩
    obtain ⟨m', rfl⟩ := translates_eq_iff.1 hk
    obtain ⟨X, hX⟩ := hops Q hQ
    refine ⟨Q, hQ, X *ᵥ m' + m, ?_⟩
    rw [mulVec_add, mulVec_mulVec, hX, ← mulVec_mulVec, intVec_mulVec, intVec_add, mulVec_add]
    abel
  have hdisj : Set.PairwiseDisjoint (Finset.univ : Finset (Fin pts.length)) fun i => (hWf i).toFinset := by
    intro i _ j _ hij
    refine Finset.disjoint_left.2 fun c hi hj => hij ?_
    rw [Set.Finite.mem_toFinset, hW] at hi hj
    obtain ⟨k, a1, a2, rfl⟩ := hi
    obtain ⟨k', -, b2, b3⟩ := hj
    exact (h.one k a1).unique a2 (shift b3 b2)
  have hunion : Finset.univ.biUnion (fun i => (hWf i).toFinset) = hfin.toFinset := by
    ext c
    simp only [Finset.mem_biUnion, Finset.mem_univ, true_and, Set.Finite.mem_toFinset]
    constructor
    · rintro ⟨i, hi⟩
      exact hsub i hi
    · rintro ⟨k, h1, h2⟩
      obtain ⟨i, h3, -⟩ := h.one k h1
      exact ⟨i, by rw [hW]; exact ⟨k, h1, h3, h2⟩⟩
  have hc := Finset.card_biUnion hdisj
  rw [hunion, ← Set.ncard_eq_toFinset_card _ hfin] at hc
  have e1 : (classes R K off).ncard = N.det.natAbs := hcard
  rw [e1] at hc
  have e2 : (pts.map Prod.snd).sum = ∑ i : Fin pts.length, (pts.get i).2 := by
    rw [← List.sum_ofFn]
    congr 1
    apply List.ext_get <;> simp
  rw [e2, ← Int.natCast_natAbs, hc]
  push_cast
  refine Finset.sum_congr rfl fun i _ => ?_
  rw [h.weight i, ← hW, Set.ncard_eq_toFinset_card _ (hWf i)]

/-- For every finite grid and every group of symmetries of the reciprocal lattice there is a list of irreducible points. -/
theorem irreducible_exists {ops : Set (Matrix (Fin 3) (Fin 3) ℝ)} (h1 : 1 ∈ ops) (hmul : ∀ P ∈ ops, ∀ Q ∈ ops, P * Q ∈ ops)
    (hinv : ∀ Q ∈ ops, ∃ P ∈ ops, P * Q = 1) (hops : ∀ Q ∈ ops, ∃ X : IntMat, Q * R = R * toReal X) (hK : K.det ≠ 0)
    (hR : R = K * toReal N) (hN : N.det ≠ 0) : ∃ pts, IrreduciblePoints R K off ops pts := by
  have hrefl : ∀ k, Equivalent R ops k k := fun k => ⟨1, h1, 0, by rw [intVec_zero, mulVec_zero, one_mulVec, add_zero]⟩
  have htrans : ∀ {a b c}, Equivalent R ops a b → Equivalent R ops b c → Equivalent R ops a c := by
    rintro a _ _ ⟨P, hP, m, rfl⟩ ⟨Q, hQ, m', rfl⟩
    obtain ⟨X, hX⟩ := hops Q hQ
    refine ⟨Q * P, hmul Q hQ P hP, X *ᵥ m + m', ?_⟩
    rw [mulVec_add, mulVec_mulVec, mulVec_mulVec, hX, ← mulVec_mulVec (intVec m), intVec_mulVec, intVec_add, mulVec_add]
    abel
  have hsymm : ∀ {a b}, Equivalent R ops a b → Equivalent R ops b a := by
    rintro a _ ⟨Q, hQ, m, rfl⟩
    obtain ⟨P, hP, hPQ⟩ := hinv Q hQ
    obtain ⟨X, hX⟩ := hops P hP
    refine ⟨P, hP, -(X *ᵥ m), ?_⟩
    have : intVec (-(X *ᵥ m)) = -intVec (X *ᵥ m) := by funext j; simp [intVec]
    rw [mulVec_add, mulVec_mulVec, hPQ, one_mulVec, mulVec_mulVec, hX, ← mulVec_mulVec (intVec m), intVec_mulVec, this,
      mulVec_neg]
    abel
  let S : Setoid {k // GridPoint K off k} := ⟨fun a b => Equivalent R ops a.1 b.1, fun a => hrefl a.1, hsymm, htrans⟩
  have hcard := card_grid (off := off) hK hR hN
  have hfin : Finite (classes R K off) := by
    refine Nat.finite_of_card_ne_zero ?_
    rw [hcard]
    simpa using hN
  have hq : Finite (Quotient S) := by
    have pick : ∀ c : classes R K off, ∃ k : {k // GridPoint K off k}, c.1 = translates R k.1 := by
      rintro ⟨c, k, hk, hc⟩
      exact ⟨⟨k, hk⟩, hc⟩
    choose f hf using pick
    refine Finite.of_surjective (fun c => (Quotient.mk S (f c))) ?_
    intro q
    induction q using Quotient.inductionOn with | _ k
    refine ⟨⟨translates R k.1, k.1, k.2, rfl⟩, Quotient.sound ?_⟩
    obtain ⟨m, hm⟩ := translates_eq_iff.1 (hf ⟨translates R k.1, k.1, k.2, rfl⟩)
    refine hsymm ⟨1, h1, m, ?_⟩
    rw [one_mulVec]
    exact hm
  obtain ⟨n, ⟨e⟩⟩ := Finite.exists_equiv_fin (Quotient S)
  let g : Fin n → (Fin 3 → ℝ) := fun i => ((e.symm i).out).1
  let pts : List ((Fin 3 → ℝ) × ℤ) := List.ofFn fun i =>
    (g i, ({c | ∃ k, GridPoint K off k ∧ Equivalent R ops k (g i) ∧ c = translates R k}.ncard : ℤ))
  have hlen : pts.length = n := List.length_ofFn
  have hget : ∀ i : Fin pts.length, pts.get i = (g (Fin.cast hlen i),
      ({c | ∃ k, GridPoint K off k ∧ Equivalent R ops k (g (Fin.cast hlen i)) ∧ c = translates R k}.ncard : ℤ)) := by
    intro i
    simp only [pts, List.get_ofFn]
  refine ⟨pts, ⟨?_, ?_, ?_⟩⟩
  · intro p hp
    obtain ⟨i, rfl⟩ := List.mem_ofFn.1 hp
    exact ((e.symm i).out).2
  · intro k hk
    refine ⟨Fin.cast hlen.symm (e (Quotient.mk S ⟨k, hk⟩)), ?_, ?_⟩
    · dsimp only
      rw [hget]
      have : Quotient.mk S ⟨k, hk⟩ = Quotient.mk S ((Quotient.mk S ⟨k, hk⟩).out) := (Quotient.out_eq _).symm
      have h2 : Equivalent R ops k ((Quotient.mk S ⟨k, hk⟩).out).1 := Quotient.exact this
      simpa [g] using h2
    · intro j hj
      rw [hget] at hj
      have h2 : Quotient.mk S ⟨k, hk⟩ = Quotient.mk S ((e.symm (Fin.cast hlen j)).out) := Quotient.sound hj
      rw [Quotient.out_eq] at h2
      rw [h2]
      ext
      simp
  · intro i
    rw [hget]

end AutoGR
