import Verif.Props.AccurateId
import Verif.Props.RoundedBasis
import Verif.Props.RoundedTransform
import Verif.Props.NearlySymmetric

/-!
# C119: the grid in floating point

From the cell that is read, in binary64, to the supercell that is inverted and handed to the library: the class, the
two reductions and the change of basis are all computed with rounding.  `U0` is the cell of the crystal that is meant.
-/

namespace AutoGR.Fortran

open Spec Matrix Arith

variable {fl : ℚ → ℚ} {equal : Rounded fl → Rounded fl → Rounded fl → Bool} {U : RMat (Rounded fl)}
  {U0 : Matrix (Fin 3) (Fin 3) ℝ} {eps : Rounded fl} {r : IdCell} {M δ c L ℓ w : ℝ}
  {inverse : Matrix (Fin 3) (Fin 3) (Rounded fl) → Matrix (Fin 3) (Fin 3) (Rounded fl)}

/-- The error of one operation on numbers up to `M` in binary64. -/
noncomputable def opErr (M : ℝ) : ℝ := M / 2 ^ 53 + 1 / 10 ^ 15

/-- `id_cell`, in floating point, has found `r` for the cell `U`, which is `U0` up to `δ`, and this is right for `U0`:
the integer matrix takes `U0` to a Niggli cell, and the class is the class of this cell.  The numbers are of the sizes
`L` (the cell), `c` and `w` (the integer matrix and its inverse) and `ℓ` (the reduced cell).  The tolerance is one for
which the stored bases are reduced as the generators expect (C118). -/
structure RecognisedIn (equal : Rounded fl → Rounded fl → Rounded fl → Bool) (U : RMat (Rounded fl))
    (U0 : Matrix (Fin 3) (Fin 3) ℝ) (eps : Rounded fl) (r : IdCell) (M δ c L ℓ w : ℝ) : Prop where
  found : idCell equal U (some eps) = .ok r
  close : CloseTo (fun x : Rounded fl => (x.q : ℝ)) U.toMatrix U0 δ L
  ideal_det : U0.det ≠ 0
  right : ∃ A B C D E F, NiggliCellOf U0 r.Cu.toMat A B C D E F ∧ IsClass r.id A B C D E F
  factor : ∀ i j, |(r.Cu.toMat i j : ℝ)| ≤ c
  factor_inv : ∀ i j, |(r.Cu.toMat⁻¹ i j : ℝ)| ≤ w
  reduced : ∀ i j, |(U0 * toReal r.Cu.toMat) i j| ≤ ℓ
  range : 1 ≤ M ∧ M ≤ 2 ^ 53 ∧ c ≤ M ∧ 3 * (c * (L + δ)) + 5 * opErr M ≤ M
  eps_ge : 99 / 10000000 ≤ eps.q
  eps_le : eps.q ≤ 1 / 10
  six : r.id = 6 → eps.q ≤ 27 / 2500000 ∨ 123 / 10000000 ≤ eps.q

/-- A cell within `δ` of `U0` is recognised as `U0`, if the tolerance is above the errors and below the gap of the
exact metric (C113). -/
theorem recognisedIn_close (hfl : Binary64 fl) {g a : ℝ} {A B C D E F : ℝ} (h1 : 1 ≤ M) (hM : M ≤ 2 ^ 53)
    (hU : CloseTo (fun x : Rounded fl => (x.q : ℝ)) U.toMatrix U0 δ L)
    (ht : Tolerated M (opErr M) δ c L ℓ |U0.det| (eps.q : ℝ) g a)
    (h : idCell equal U (some eps) = .ok r) (hT : ∀ i j, |(r.Cu.toMat i j : ℝ)| ≤ c)
    (hw : ∀ i j, |(r.Cu.toMat⁻¹ i j : ℝ)| ≤ w)
    (hm : (U0 * toReal r.Cu.toMat)ᵀ * (U0 * toReal r.Cu.toMat) = metric A B C D E F)
    (ha : a ≤ A) (hA : A ≤ ℓ ^ 2) (hB : B ≤ ℓ ^ 2) (hC : C ≤ ℓ ^ 2) (hg : CellGap g A B C D E F)
    (hd0 : U0.det ≠ 0) (h2 : 99 / 10000000 ≤ eps.q) (h3 : eps.q ≤ 1 / 10)
    (h6 : r.id = 6 → eps.q ≤ 27 / 2500000 ∨ 123 / 10000000 ≤ eps.q) :
    RecognisedIn equal U U0 eps r M δ c L ℓ w := by
  have hK := accurate_rounded hfl h1 hM
  obtain ⟨a1, a2, -⟩ := idCell_ideal hK hU ht h hT hm ha hA hB hC hg
  have l0 : 0 ≤ L := (abs_nonneg _).trans (hU.size 0 0)
  have d0 := ht.data
  have c1 := ht.factor
  have e0 := hK.nonneg
  have hr := ht.range_cell
  have p : 0 ≤ 3 * (c * (L + δ)) := by positivity
  have e0' : 0 ≤ opErr M := e0
  exact ⟨h, hU, hd0, ⟨_, _, _, _, _, _, a1, a2⟩, hT, hw, entry_le hm ht.long hA hB hC,
    ⟨h1, hM, by linarith, by linarith⟩, h2, h3, h6⟩

theorem RecognisedIn.parts (h : RecognisedIn equal U U0 eps r M δ c L ℓ w) :
    reduceCell equal U (some eps) = .ok r.Cu ∧
      reduceCell equal ((fBasis r.id : Option (RMat (Rounded fl))).getD U) (some eps) = .ok r.Co ∧
      r.s_range = sRange r.id := by
  have := h.found
  unfold idCell at this
  dsimp only at this
  split at this
  · cases this
  · rename_i Cu hCu
    split at this
    · cases this
    · rename_i Co hCo
      cases this
      exact ⟨hCu, hCo, rfl⟩

theorem RecognisedIn.pointSym (h : RecognisedIn equal U U0 eps r M δ c L ℓ w) :
    PointSym U0 = ClassSym r.id r.Cu.toMat := by
  obtain ⟨A, B, C, D, E, F, h1, h2⟩ := h.right
  exact pointSym_eq_classSym h1 h2

theorem RecognisedIn.unit (h : RecognisedIn equal U U0 eps r M δ c L ℓ w) : IsUnit r.Cu.toMat.det := by
  obtain ⟨A, B, C, D, E, F, h1, -⟩ := h.right
  exact h1.1

theorem RecognisedIn.id_range (h : RecognisedIn equal U U0 eps r M δ c L ℓ w) : 1 ≤ r.id ∧ r.id ≤ 44 := by
  obtain ⟨A, B, C, D, E, F, -, h2⟩ := h.right
  have key : ∀ k ∈ classTable, 1 ≤ k ∧ k ≤ 44 := by decide
  exact key _ h2.1

theorem fBasis_some {K : Type} [Arith K] {k : ℕ} (h1 : 1 ≤ k) (h2 : k ≤ 44) (hk : k ∉ [31, 44]) :
    ∃ O : RMat K, fBasis k = some O := by
  simp only [List.mem_cons, List.not_mem_nil, or_false, not_or] at hk
  obtain ⟨a, b⟩ := hk
  interval_cases k <;> first | exact ⟨_, rfl⟩ | omega

/-- The transformations that can be found for the stored bases are unimodular and small, and so are their inverses. -/
theorem storedGood_small {k : ℕ} (h1 : 1 ≤ k) (h2 : k ≤ 44) {Co : IMat} (h : Co ∈ storedGood k) :
    Co.toMat.det = 1 ∧ ∃ Do : IntMat, Co.toMat * Do = 1 ∧ (∀ i j, |Co.toMat i j| ≤ 4) ∧ ∀ i j, |Do i j| ≤ 4 := by
  have key : ∀ k ∈ Finset.Icc 1 44, ∀ C ∈ storedGood k, C.toMat.det = 1 ∧ C.toMat * C.toMat.adjugate = 1 ∧
      (∀ i j, |C.toMat i j| ≤ 4) ∧ ∀ i j, |C.toMat.adjugate i j| ≤ 4 := by
    decide +kernel
  obtain ⟨a, b, c, d⟩ := key k (Finset.mem_Icc.2 ⟨h1, h2⟩) Co h
  exact ⟨a, _, b, c, d⟩

theorem RecognisedIn.stored (h : RecognisedIn equal U U0 eps r M δ c L ℓ w) (hfl : Binary64 fl) (hk : r.id ∉ [31, 44]) :
    r.Co ∈ storedGood r.id := by
  obtain ⟨k1, k2⟩ := h.id_range
  obtain ⟨O, hO⟩ := fBasis_some (K := Rounded fl) k1 k2 hk
  have h2 := h.parts.2.1
  rw [hO, Option.getD_some] at h2
  have e1 := (Rat.cast_le (K := ℝ)).2 h.eps_ge
  have e2 := (Rat.cast_le (K := ℝ)).2 h.eps_le
  push_cast at e1 e2
  refine reduceCell_stored equal (accurate_rounded hfl (M := 1000) (by norm_num) (by norm_num)) (by norm_num) r.id O hO
    eps e1 e2 (fun hi => ?_) r.Co h2
  refine (h.six hi).imp (fun a => ?_) (fun a => ?_)
  · have := (Rat.cast_le (K := ℝ)).2 a
    push_cast at this
    exact this
  · have := (Rat.cast_le (K := ℝ)).2 a
    push_cast at this
    exact this

theorem RecognisedIn.cell (h : RecognisedIn equal U U0 eps r M δ c L ℓ w) (hfl : Binary64 fl) :
    CloseTo (fun x : Rounded fl => (x.q : ℝ)) (matmulI U r.Cu).toMatrix (U0 * toReal r.Cu.toMat)
      (cellErr (opErr M) δ c) ℓ :=
  ⟨cell_close (accurate_rounded hfl h.range.1 h.range.2.1) h.close h.factor h.range.2.2.1 h.range.2.2.2, h.reduced⟩

/-- An integer matrix made from `H` as `transform_supercell` does is kept by the symmetries of the crystal, if `H` is
kept by the symmetries of the class. -/
theorem RecognisedIn.keeps (h : RecognisedIn equal U U0 eps r M δ c L ℓ w) {H Do : IntMat}
    (ho : r.Co.toMat * Do = 1) (hk : ∀ X ∈ ClassSym r.id r.Co.toMat, Keeps X H) :
    ∀ X ∈ PointSym U0, Keeps X (r.Cu.toMat * (Do * H * r.Co.toMat) * r.Cu.toMat⁻¹) := by
  have hu : r.Cu.toMat * r.Cu.toMat⁻¹ = 1 := mul_nonsing_inv _ h.unit
  have ho' := mul_eq_one_comm.1 ho
  have hu' := mul_eq_one_comm.1 hu
  have hQP : (r.Co.toMat * r.Cu.toMat⁻¹) * (r.Cu.toMat * Do) = 1 := by
    calc (r.Co.toMat * r.Cu.toMat⁻¹) * (r.Cu.toMat * Do)
        = r.Co.toMat * (r.Cu.toMat⁻¹ * r.Cu.toMat) * Do := by simp only [Matrix.mul_assoc]
      _ = 1 := by rw [hu', Matrix.mul_one, ho]
  have hPQ := mul_eq_one_comm.1 hQP
  have hC : (r.Co.toMat * r.Cu.toMat⁻¹) * r.Cu.toMat = r.Co.toMat := by
    rw [Matrix.mul_assoc, hu', Matrix.mul_one]
  intro X hX
  rw [h.pointSym] at hX
  have := keeps_change hQP hPQ (hk _ (classSym_change hQP hPQ hC hX))
  simpa only [Matrix.mul_assoc] using this

/-- `matrix_inverse` is accurate to `10^-12` on the three matrices it is given for a lattice with a stored basis. -/
structure InverseStored (inverse : Matrix (Fin 3) (Fin 3) (Rounded fl) → Matrix (Fin 3) (Fin 3) (Rounded fl))
    (r : IdCell) : Prop where
  basis : ∀ (O : RMat ℚ) (O' : RMat (Rounded fl)), fBasis r.id = some O → fBasis r.id = some O' → ∀ i j,
    |((inverse O'.toMatrix i j).q : ℝ) - (realMat O.toMatrix)⁻¹ i j| ≤ 1 / 10 ^ 12
  reduced : ∀ (O : RMat ℚ) (O' : RMat (Rounded fl)), fBasis r.id = some O → fBasis r.id = some O' → ∀ i j,
    |((inverse (matmulI O' r.Co).toMatrix i j).q : ℝ) - (realMat O.toMatrix * toReal r.Co.toMat)⁻¹ i j| ≤ 1 / 10 ^ 12
  factor : ∀ i j, |((inverse (intMat r.Cu.toMat) i j).q : ℝ) - (toReal r.Cu.toMat)⁻¹ i j| ≤ 1 / 10 ^ 12

/-- The error of the supercell for HNFs with entries up to `N`, for a lattice with a stored basis. -/
noncomputable def supercellErr (M δ c ℓ w N : ℝ) : ℝ :=
  backErr (1 / 2 ^ 53) (cellErr (opErr M) δ c) (1 / 10 ^ 12) ℓ (144 * N) w

theorem toReal_inv {C : IntMat} (h : IsUnit C.det) : (toReal C)⁻¹ = toReal C⁻¹ := by
  apply inv_eq_right_inv
  rw [← toReal_mul, mul_nonsing_inv _ h, toReal_one]

theorem product_size {A B C : IntMat} {a b c : ℤ} (hA : ∀ i j, |A i j| ≤ a) (hB : ∀ i j, |B i j| ≤ b)
    (hC : ∀ i j, |C i j| ≤ c) (i j : Fin 3) : |(A * B * C) i j| ≤ 9 * a * b * c := by
  have a0 : 0 ≤ a := (abs_nonneg _).trans (hA 0 0)
  have b0 : 0 ≤ b := (abs_nonneg _).trans (hB 0 0)
  have two {A B : IntMat} {a b : ℤ} (hA : ∀ i j, |A i j| ≤ a) (hB : ∀ i j, |B i j| ≤ b) (i j : Fin 3) :
      |(A * B) i j| ≤ 3 * a * b := by
    have a0 : 0 ≤ a := (abs_nonneg _).trans (hA 0 0)
    have t (k : Fin 3) : |A i k * B k j| ≤ a * b := by
      rw [abs_mul]
      exact mul_le_mul (hA i k) (hB k j) (abs_nonneg _) a0
    rw [Matrix.mul_apply, Fin.sum_univ_three]
    have t0 := abs_le.1 (t 0)
    have t1 := abs_le.1 (t 1)
    have t2 := abs_le.1 (t 2)
    rw [abs_le]
    constructor <;> linarith [t0.1, t0.2, t1.1, t1.2, t2.1, t2.2]
  have := two (two hA hB) hC i j
  linarith

/-- C119, the supercell of a lattice with a stored basis: for an HNF that is kept by the symmetries of the class, with
entries up to `N ≤ 10^6`, the supercell that `transform_supercell` computes is, up to rounding errors, made of vectors of
the crystal that is meant: it has the index that is wanted and is kept by all point symmetries of the crystal. -/
theorem supercell_rounded (hfl : Binary64 fl) (h : RecognisedIn equal U U0 eps r M δ c L ℓ w) (hk : r.id ∉ [31, 44])
    (hi : InverseStored inverse r) {N : ℤ} (hN : N ≤ 10 ^ 6) (H : IntMat) (hH : ∀ i j, |H i j| ≤ N)
    (hs : ∀ X ∈ ClassSym r.id (canonC r.id).toMat, Keeps X H) :
    ∃ T : IntMat, T.det = H.det ∧ (∀ X ∈ PointSym U0, Keeps X T) ∧
      ∀ i j, |((supercellK inverse (fun x => nint x.q) U r H i j).q : ℝ) - (U0 * toReal T) i j| ≤
        supercellErr M δ c ℓ w N := by
  obtain ⟨k1, k2⟩ := h.id_range
  obtain ⟨O, hO⟩ := fBasis_some (K := ℚ) k1 k2 hk
  obtain ⟨O', hO'⟩ := fBasis_some (K := Rounded fl) k1 k2 hk
  have hg := h.stored hfl hk
  obtain ⟨-, Do, d1, d2, d3⟩ := storedGood_small k1 k2 hg
  have hE := supercell_stored hfl hO hO' d1 (hi.basis O O' hO hO') (hi.reduced O O' hO hO') d2 d3 fun i j => (hH i j).trans hN
  have hu : r.Cu.toMat * r.Cu.toMat⁻¹ = 1 := mul_nonsing_inv _ h.unit
  have cI : CloseTo (fun x : Rounded fl => (x.q : ℝ)) (inverse (intMat r.Cu.toMat)) (toReal r.Cu.toMat)⁻¹
      (1 / 10 ^ 12) w := ⟨hi.factor, fun i j => by rw [toReal_inv h.unit]; exact h.factor_inv i j⟩
  obtain ⟨T, t1, t2, t3⟩ := transform_of_exact (relative_rounded hfl) d1 hu hE (h.cell hfl) cI (f := 144 * N)
    (by
      have : ((144 * N : ℤ) : ℝ) ≤ ((2 ^ 53 : ℤ) : ℝ) := by
        rw [Int.cast_le]
        omega
      push_cast at this
      norm_num at this ⊢
      exact this)
    (fun i j => by
      have := product_size d3 hH d2 i j
      have e : (9 : ℤ) * 4 * N * 4 = 144 * N := by ring
      rw [e] at this
      exact_mod_cast this)
  refine ⟨T, t2, ?_, fun i j => ?_⟩
  · rw [t1]
    exact h.keeps d1 (by rw [storedGood_sym hg]; exact hs)
  · have := t3 i j
    unfold supercellK supercellErr
    rw [hO', Option.getD_some]
    exact this

/-- C119, the supercell of a triclinic lattice, whose canonical basis is the user's cell: the same, if the bound on the
error in the change of basis is below one half. -/
theorem supercell_rounded_tric (hfl : Binary64 fl) (h : RecognisedIn equal U U0 eps r M δ c L ℓ w) (hk : r.id ∈ [31, 44])
    {ι κ ω l m : ℝ} {N : ℤ} (hN : N ≤ 2 ^ 53) (hc : c ≤ 2 ^ 53)
    (hOi : CloseTo (fun x : Rounded fl => (x.q : ℝ)) (inverse U.toMatrix) U0⁻¹ ι l)
    (hNi : CloseTo (fun x : Rounded fl => (x.q : ℝ)) (inverse (matmulI U r.Cu).toMatrix)
      (U0 * toReal r.Cu.toMat)⁻¹ κ m)
    (hCi : ∀ i j, |((inverse (intMat r.Cu.toMat) i j).q : ℝ) - (toReal r.Cu.toMat)⁻¹ i j| ≤ ω)
    (herr : changeErr (1 / 2 ^ 53) δ ι κ L l m c N < 1 / 2) {f : ℝ} (hf : f ≤ 2 ^ 53)
    (H : IntMat) (hH : ∀ i j, |H i j| ≤ N) (hF : ∀ i j, |((r.Cu.toMat⁻¹ * H * r.Cu.toMat) i j : ℝ)| ≤ f)
    (hs : ∀ X ∈ ClassSym r.id r.Co.toMat, Keeps X H) :
    ∃ T : IntMat, T.det = H.det ∧ (∀ X ∈ PointSym U0, Keeps X T) ∧
      ∀ i j, |((supercellK inverse (fun x => nint x.q) U r H i j).q : ℝ) - (U0 * toReal T) i j| ≤
        backErr (1 / 2 ^ 53) (cellErr (opErr M) δ c) ω ℓ f w := by
  have hb : (fBasis r.id : Option (RMat (Rounded fl))) = none := by
    simp only [List.mem_cons, List.not_mem_nil, or_false] at hk
    rcases hk with hk | hk <;> rw [hk] <;> rfl
  have hco : r.Co = r.Cu := by
    obtain ⟨a, b, -⟩ := h.parts
    rw [hb, Option.getD_none, a] at b
    exact (Except.ok.inj b).symm
  have hu : r.Cu.toMat * r.Cu.toMat⁻¹ = 1 := mul_nonsing_inv _ h.unit
  have cI : CloseTo (fun x : Rounded fl => (x.q : ℝ)) (inverse (intMat r.Cu.toMat)) (toReal r.Cu.toMat)⁻¹
      ω w := ⟨hCi, fun i j => by rw [toReal_inv h.unit]; exact h.factor_inv i j⟩
  obtain ⟨T, t1, t2, t3⟩ := transform_close (relative_rounded hfl) (nint := fun x => nint x.q) (fun x => by
      have := (Rat.cast_le (K := ℝ)).2 (nint_spec x.q)
      push_cast at this
      exact this) hu hu h.ideal_det h.close hOi hNi (N := N) (by exact_mod_cast hN)
      (fun i j => by exact_mod_cast hH i j) hc h.factor herr (h.cell hfl) cI hf hF
  refine ⟨T, t2, ?_, fun i j => ?_⟩
  · rw [t1]
    have := h.keeps (H := H) (Do := r.Cu.toMat⁻¹) (by rw [hco]; exact hu) hs
    rwa [hco] at this
  · have := t3 i j
    unfold supercellK
    rw [hb, Option.getD_none, hco]
    exact this

/-! ## The grid -/

/-- The entries of a Hermite normal form are at most its determinant. -/
theorem hnf_entries {H : IntMat} (h : IsHNF H) (i j : Fin 3) : |H i j| ≤ H.det := by
  have e : H.det = H 0 0 * H 1 1 * H 2 2 := by
    rw [det_fin_three, h.upper01, h.upper02, h.upper12]
    ring
  have p0 := h.pos0
  have p1 := h.pos1
  have p2 := h.pos2
  have q1 : H 0 0 * 1 ≤ H 0 0 * H 1 1 := mul_le_mul_of_nonneg_left (by omega) (by omega)
  have q2 : 1 * H 1 1 ≤ H 0 0 * H 1 1 := mul_le_mul_of_nonneg_right (by omega) (by omega)
  have q3 : H 0 0 * H 1 1 * 1 ≤ H 0 0 * H 1 1 * H 2 2 := mul_le_mul_of_nonneg_left (by omega) (by omega)
  have q4 : 1 * H 2 2 ≤ H 0 0 * H 1 1 * H 2 2 := mul_le_mul_of_nonneg_right (by omega) (by omega)
  have l10 := h.low10
  have l20 := h.low20
  have l21 := h.low21
  rw [e, abs_le]
  fin_cases i <;> fin_cases j <;> simp only [Fin.zero_eta, Fin.mk_one, Fin.reduceFinMk, Fin.isValue, h.upper01, h.upper02,
    h.upper12] <;> constructor <;> linarith [l10.1, l10.2, l20.1, l20.2, l21.1, l21.2]

/-- The library inverts a supercell `S H` and reduces the grid with a known accuracy: if `S H` is, up to `σ H`, the
supercell `U0 T` of the crystal that is meant, then the grid is, up to `ε H`, a basis of the grid that belongs to
`U0 T`. -/
structure LibClose {Off : Type} (S : IntMat → Matrix (Fin 3) (Fin 3) (Rounded fl)) (U0 : Matrix (Fin 3) (Fin 3) ℝ)
    (lib : Lib (Matrix (Fin 3) (Fin 3) (Rounded fl)) Off) (σ ε : IntMat → ℝ) : Prop where
  geom : ∀ H T : IntMat, T.det ≠ 0 → (∀ i j, |((S H i j).q : ℝ) - (U0 * toReal T) i j| ≤ σ H) →
    ∃ W : IntMat, IsUnit W.det ∧
      ∀ i j, |(((lib.geom H).grid i j).q : ℝ) - (((U0 * toReal T)ᵀ)⁻¹ * toReal W) i j| ≤ ε H
  grid : ∀ H T : IntMat, T.det ≠ 0 → (∀ i j, |((S H i j).q : ℝ) - (U0 * toReal T) i j| ≤ σ H) →
    ∀ i j, |((lib.gridOf H i j).q : ℝ) - ((U0 * toReal T)ᵀ)⁻¹ i j| ≤ ε H

variable {Off : Type} {lib : Lib (Matrix (Fin 3) (Fin 3) (Rounded fl)) Off} {ε : IntMat → ℝ}

/-- C119, for the lattices that are neither cubic nor triclinic: with up to a million points, the grid that `find_grid`
returns in floating point is, up to the errors of the library, one that contains the reciprocal lattice of the crystal
that is meant, has the number of points that is said, at least the number requested, and has all point symmetries of
the crystal. -/
theorem find_grid_rounded_general (hfl : Binary64 fl) (h : RecognisedIn equal U U0 eps r M δ c L ℓ w)
    (hk : r.id ∉ [1, 3, 5, 31, 44]) (hi : InverseStored inverse r)
    (hl : LibClose (supercellK inverse (fun x => nint x.q) U r) U0 lib (fun H => supercellErr M δ c ℓ w H.det) ε)
    (hirr : ∀ g o m, lib.irr g o = some m → 1 ≤ m) (wr : ℤ → ℤ) (tol : ℚ) (offsets : List Off)
    (min_kpts : Bool) (root : ℤ) (fuel s_range : ℕ) (hs : r.s_range = some s_range) (kpd : ℤ) (h1 : 1 ≤ kpd)
    (hfit : IntsFit wr (kpd + fuel)) (e : Entry (Matrix (Fin 3) (Fin 3) (Rounded fl)) Off)
    (he : findGrid lib wr tol offsets min_kpts root fuel r.id s_range kpd = .ok e) (hmil : e.nt_kpts ≤ 10 ^ 6) :
    ∃ G : Matrix (Fin 3) (Fin 3) ℝ, SymmetricGrid U0 G e.nt_kpts ∧ kpd ≤ e.nt_kpts ∧
      (∀ i j, |((e.sel.grid i j).q : ℝ) - G i j| ≤ ε e.sel.HNF) ∧ e.sel.offset ∈ offsets := by
  obtain ⟨k1, k2⟩ := h.id_range
  have hk' : r.id ∉ [31, 44] := fun hm => hk (by simp at hm ⊢; omega)
  obtain ⟨s, hs1, hs2⟩ := sRange_le r.id k1 k2 hk
  rw [h.parts.2.2, hs1] at hs
  cases hs
  rcases findGrid_general lib hirr wr tol offsets min_kpts root fuel r.id k1 k2 hk _ (reduced_canonC r.id k1 k2 hk')
    s_range hs2 kpd h1 hfit with hr | ⟨e', he', a1, a2, a3, -, a5, -⟩
  · rw [hr] at he
    cases he
  · rw [he'] at he
    cases he
    have hd := a2.2.1
    obtain ⟨T, t1, t2, t3⟩ := supercell_rounded hfl h hk' hi (by rw [hd]; exact hmil) e.sel.HNF (hnf_entries a2.1)
      a2.2.2
    have hT : T.det ≠ 0 := by rw [t1, hd]; omega
    obtain ⟨W, hW, hg⟩ := hl.geom e.sel.HNF T hT t3
    have := symmetricGrid h.ideal_det hT hW t2
    rw [t1, hd, abs_of_pos (by omega)] at this
    exact ⟨_, this, a1, fun i j => by rw [a3]; exact hg i j, a5⟩

/-- C119, for the cubic lattices. -/
theorem find_grid_rounded_cubic (hfl : Binary64 fl) (h : RecognisedIn equal U U0 eps r M δ c L ℓ w)
    (hk : r.id ∈ [1, 3, 5]) (hi : InverseStored inverse r)
    (hl : LibClose (supercellK inverse (fun x => nint x.q) U r) U0 lib (fun H => supercellErr M δ c ℓ w H.det) ε)
    (hirr : ∀ g o m, lib.irr g o = some m → 1 ≤ m) (wr : ℤ → ℤ) (hw : wr = id ∨ Int32 wr) (tol : ℚ)
    (offsets : List Off) (min_kpts : Bool) (root : ℤ) (fuel s_range : ℕ) (kpd : ℤ) (h1 : 1 ≤ kpd)
    (hroot : root ^ 3 ≤ kpd ∧ kpd < (root + 2) ^ 3) (hr : 0 ≤ root)
    (e : Entry (Matrix (Fin 3) (Fin 3) (Rounded fl)) Off)
    (he : findGrid lib wr tol offsets min_kpts root fuel r.id s_range kpd = .ok e) (hmil : e.nt_kpts ≤ 10 ^ 6) :
    ∃ G : Matrix (Fin 3) (Fin 3) ℝ, SymmetricGrid U0 G e.nt_kpts ∧ kpd ≤ e.nt_kpts ∧
      (∀ i j, |((e.sel.grid i j).q : ℝ) - G i j| ≤ ε e.sel.HNF) ∧ e.sel.offset ∈ offsets := by
  obtain ⟨k1, k2⟩ := h.id_range
  have hk' : r.id ∉ [31, 44] := fun hm => by simp at hm hk; omega
  obtain ⟨-, a1, -, a2, a3, a5, -⟩ := findGrid_cubic_sound lib hirr wr hw tol offsets min_kpts fuel r.id hk _
    (reduced_canonC r.id k1 k2 hk') s_range kpd root h1 hroot hr e he
  have hd := a2.2.1
  obtain ⟨T, t1, t2, t3⟩ := supercell_rounded hfl h hk' hi (by rw [hd]; exact hmil) e.sel.HNF (hnf_entries a2.1)
    a2.2.2
  have hT : T.det ≠ 0 := by rw [t1, hd]; omega
  have := symmetricGrid (W := 1) h.ideal_det hT (by simp) t2
  rw [t1, hd, abs_of_pos (by omega), toReal_one, Matrix.mul_one] at this
  exact ⟨_, this, a1, fun i j => by rw [a3]; exact hl.grid e.sel.HNF T hT t3 i j, a5⟩

/-- C119, for the triclinic lattices, if the bound on the error in the change of basis is below one half for HNFs with
entries up to `N`.  The number of points is `n m³`, as in C75. -/
theorem find_grid_rounded_tric (hfl : Binary64 fl) (h : RecognisedIn equal U U0 eps r M δ c L ℓ w) (hk : r.id ∈ [31, 44])
    {ι κ ω l m' : ℝ} {N : ℤ} (hc : c ≤ 2 ^ 53)
    (hOi : CloseTo (fun x : Rounded fl => (x.q : ℝ)) (inverse U.toMatrix) U0⁻¹ ι l)
    (hNi : CloseTo (fun x : Rounded fl => (x.q : ℝ)) (inverse (matmulI U r.Cu).toMatrix)
      (U0 * toReal r.Cu.toMat)⁻¹ κ m')
    (hCi : ∀ i j, |((inverse (intMat r.Cu.toMat) i j).q : ℝ) - (toReal r.Cu.toMat)⁻¹ i j| ≤ ω)
    (herr : changeErr (1 / 2 ^ 53) δ ι κ L l m' c N < 1 / 2) {cu cw : ℤ} (hcu : ∀ i j, |r.Cu.toMat i j| ≤ cu)
    (hcw : ∀ i j, |r.Cu.toMat⁻¹ i j| ≤ cw) (hf : 9 * cw * N * cu ≤ 2 ^ 53) (hN : N ≤ 2 ^ 53)
    (hl : LibClose (supercellK inverse (fun x => nint x.q) U r) U0 lib
      (fun H => backErr (1 / 2 ^ 53) (cellErr (opErr M) δ c) ω ℓ (9 * cw * H.det * cu : ℤ) w) ε)
    (hirr : ∀ g o m, lib.irr g o = some m → 1 ≤ m) (wr : ℤ → ℤ) (tol : ℚ) (offsets : List Off)
    (min_kpts : Bool) (root : ℤ) (fuel s_range : ℕ) (kpd : ℤ) (h1 : 1 ≤ kpd)
    (e : Entry (Matrix (Fin 3) (Fin 3) (Rounded fl)) Off)
    (he : findGrid lib wr tol offsets min_kpts root fuel r.id s_range kpd = .ok e) (hmil : e.sel.HNF.det ≤ N) :
    ∃ (n m : ℤ) (G : Matrix (Fin 3) (Fin 3) ℝ), SymmetricGrid U0 G (n * m ^ 3) ∧ 1 ≤ n ∧ 1 ≤ m ∧
      kpd - m ^ 3 < n * m ^ 3 ∧ (∀ i j, |((e.sel.grid i j).q : ℝ) - G i j| ≤ ε e.sel.HNF) ∧ e.sel.offset ∈ offsets := by
  have hCo : r.Co.toMat.det = 1 ∨ r.Co.toMat.det = -1 := by
    have hb : (fBasis r.id : Option (RMat (Rounded fl))) = none := by
      simp only [List.mem_cons, List.not_mem_nil, or_false] at hk
      rcases hk with hk | hk <;> rw [hk] <;> rfl
    obtain ⟨a, b, -⟩ := h.parts
    rw [hb, Option.getD_none, a] at b
    rw [← Except.ok.inj b]
    exact Int.isUnit_iff.1 h.unit
  rcases findGrid_tric lib hirr wr tol offsets min_kpts root fuel r.id hk r.Co.toMat hCo s_range kpd h1 with
    hr | ⟨e', he', ⟨n, m, H, b1, b2, b0, b5, b6, b3, b4⟩, a2, a3, -, a5, -⟩
  · rw [hr] at he
    cases he
  · rw [he'] at he
    cases he
    have hpos : 0 < n * m ^ 3 := mul_pos (by omega) (pow_pos (by omega) 3)
    have hent (i j : Fin 3) : |e.sel.HNF i j| ≤ e.sel.HNF.det := by
      have q := hnf_entries b0 i j
      rw [b5] at q
      have m3 : m ≤ m ^ 3 := by nlinarith [mul_pos (show 0 < m by omega) (show 0 < m by omega)]
      rw [b3, b6, Matrix.smul_apply, smul_eq_mul, abs_mul, abs_of_pos (by omega)]
      calc m * |H i j| ≤ m ^ 3 * n := mul_le_mul m3 q (abs_nonneg _) (by positivity)
        _ = n * m ^ 3 := mul_comm _ _
    obtain ⟨T, t1, t2, t3⟩ := supercell_rounded_tric hfl h hk hN hc hOi hNi hCi herr
      (f := ((9 * cw * e.sel.HNF.det * cu : ℤ) : ℝ)) (by
        have c0 : 0 ≤ cu := (abs_nonneg _).trans (hcu 0 0)
        have w0 : 0 ≤ cw := (abs_nonneg _).trans (hcw 0 0)
        have : 9 * cw * e.sel.HNF.det * cu ≤ 9 * cw * N * cu :=
          mul_le_mul_of_nonneg_right (mul_le_mul_of_nonneg_left hmil (by omega)) c0
        exact_mod_cast this.trans hf) e.sel.HNF (fun i j => (hent i j).trans hmil)
      (fun i j => by exact_mod_cast product_size hcw hent hcu i j) a2
    have hT : T.det ≠ 0 := by rw [t1, b3]; omega
    obtain ⟨W, hW, hg⟩ := hl.geom e.sel.HNF T hT t3
    have := symmetricGrid h.ideal_det hT hW t2
    rw [t1, b3, abs_of_pos hpos] at this
    exact ⟨n, m, _, this, b1, b2, b4, fun i j => by rw [a3]; exact hg i j, a5⟩

/-- `LibClose` holds for every library with some `ε`: for each `H` there are finitely many supercells of the crystal
within `σ H`.  The hypothesis of the theorems gives a name to the accuracy of the library. -/
theorem libClose_exists (S : IntMat → Matrix (Fin 3) (Fin 3) (Rounded fl)) (hU : U0.det ≠ 0)
    (lib : Lib (Matrix (Fin 3) (Fin 3) (Rounded fl)) Off) (σ : IntMat → ℝ) : ∃ ε, LibClose S U0 lib σ ε := by
  have hfin (H : IntMat) : Set.Finite {T : IntMat | ∀ i j, |((S H i j).q : ℝ) - (U0 * toReal T) i j| ≤ σ H} := by
    obtain ⟨B, hB⟩ : ∃ B : ℤ, ∀ T : IntMat, (∀ i j, |((S H i j).q : ℝ) - (U0 * toReal T) i j| ≤ σ H) →
        ∀ i j, |T i j| ≤ B := by
      let b : ℝ := ∑ i, ∑ j, ∑ k, |U0⁻¹ i k| * (|((S H k j).q : ℝ)| + σ H)
      refine ⟨⌈b⌉, fun T hT i j => ?_⟩
      have s0 : 0 ≤ σ H := (abs_nonneg _).trans (hT 0 0)
      have e : toReal T i j = ∑ k, U0⁻¹ i k * (U0 * toReal T) k j := by
        rw [← Matrix.mul_apply, ← Matrix.mul_assoc, nonsing_inv_mul _ (isUnit_iff_ne_zero.2 hU), Matrix.one_mul]
      have h1 : |toReal T i j| ≤ ∑ k, |U0⁻¹ i k| * (|((S H k j).q : ℝ)| + σ H) := by
        rw [e]
        refine (Finset.abs_sum_le_sum_abs _ _).trans (Finset.sum_le_sum fun k _ => ?_)
        rw [abs_mul]
        refine mul_le_mul_of_nonneg_left ?_ (abs_nonneg _)
        have := hT k j
        rw [abs_sub_comm] at this
        have := abs_sub_abs_le_abs_sub ((U0 * toReal T) k j) ((S H k j).q : ℝ)
        linarith
      have pos (i j : Fin 3) : 0 ≤ ∑ k, |U0⁻¹ i k| * (|((S H k j).q : ℝ)| + σ H) :=
        Finset.sum_nonneg fun k _ => by positivity
      have h2 : ∑ k, |U0⁻¹ i k| * (|((S H k j).q : ℝ)| + σ H) ≤ b :=
        (Finset.single_le_sum (f := fun j => ∑ k, |U0⁻¹ i k| * (|((S H k j).q : ℝ)| + σ H)) (fun j _ => pos i j)
          (Finset.mem_univ j)).trans
        (Finset.single_le_sum (f := fun i => ∑ j, ∑ k, |U0⁻¹ i k| * (|((S H k j).q : ℝ)| + σ H))
          (fun i _ => Finset.sum_nonneg fun j _ => pos i j) (Finset.mem_univ i))
      have h3 : ((|T i j| : ℤ) : ℝ) ≤ (⌈b⌉ : ℤ) := by
        refine le_trans ?_ ((h1.trans h2).trans (Int.le_ceil b))
        simp [toReal]
      exact_mod_cast h3
    refine Set.Finite.subset (Set.Finite.pi' fun _ : Fin 3 => Set.Finite.pi' fun _ : Fin 3 => Set.finite_Icc (-B) B) ?_
    intro T hT
    exact fun i j => abs_le.1 (hB T hT i j)
  have hb (H : IntMat) : ∃ e : ℝ, ∀ T ∈ {T : IntMat | ∀ i j, |((S H i j).q : ℝ) - (U0 * toReal T) i j| ≤ σ H}, ∀ i j,
      |(((lib.geom H).grid i j).q : ℝ) - ((U0 * toReal T)ᵀ)⁻¹ i j| ≤ e ∧
        |((lib.gridOf H i j).q : ℝ) - ((U0 * toReal T)ᵀ)⁻¹ i j| ≤ e := by
    obtain ⟨e, he⟩ := ((hfin H).image fun T => ∑ i, ∑ j, (|(((lib.geom H).grid i j).q : ℝ) - ((U0 * toReal T)ᵀ)⁻¹ i j| +
      |((lib.gridOf H i j).q : ℝ) - ((U0 * toReal T)ᵀ)⁻¹ i j|)).bddAbove
    refine ⟨e, fun T hT i j => ?_⟩
    have h1 := he ⟨T, hT, rfl⟩
    have pos (i j : Fin 3) : 0 ≤ |(((lib.geom H).grid i j).q : ℝ) - ((U0 * toReal T)ᵀ)⁻¹ i j| +
      |((lib.gridOf H i j).q : ℝ) - ((U0 * toReal T)ᵀ)⁻¹ i j| := by positivity
    have h2 := (Finset.single_le_sum (f := fun j => |(((lib.geom H).grid i j).q : ℝ) - ((U0 * toReal T)ᵀ)⁻¹ i j| +
      |((lib.gridOf H i j).q : ℝ) - ((U0 * toReal T)ᵀ)⁻¹ i j|) (fun j _ => pos i j) (Finset.mem_univ j)).trans
      (Finset.single_le_sum (f := fun i => ∑ j, (|(((lib.geom H).grid i j).q : ℝ) - ((U0 * toReal T)ᵀ)⁻¹ i j| +
        |((lib.gridOf H i j).q : ℝ) - ((U0 * toReal T)ᵀ)⁻¹ i j|)) (fun i _ => Finset.sum_nonneg fun j _ => pos i j)
        (Finset.mem_univ i))
    have a1 := abs_nonneg ((((lib.geom H).grid i j).q : ℝ) - ((U0 * toReal T)ᵀ)⁻¹ i j)
    have a2 := abs_nonneg (((lib.gridOf H i j).q : ℝ) - ((U0 * toReal T)ᵀ)⁻¹ i j)
    dsimp only at h1 h2
    constructor <;> linarith
  choose e he using hb
  exact ⟨e, fun H T _ hT => ⟨1, by simp, fun i j => by rw [toReal_one, Matrix.mul_one]; exact (he H T hT i j).1⟩,
    fun H T _ hT i j => (he H T hT i j).2⟩

/-! ## The hexagonal crystal of C113, typed with seven decimals, in binary64 -/

/-- The comparison of `symlib`, for the example. -/
def cmpRounded (a b e : Rounded roundNearest) : Bool := decide (|a.q - b.q| ≤ e.q)

/-- Cofactor `(j, i)` of a 3×3 matrix. -/
def cof (A : Matrix (Fin 3) (Fin 3) ℚ) (i j : Fin 3) : ℚ :=
  A (j + 1) (i + 1) * A (j + 2) (i + 2) - A (j + 1) (i + 2) * A (j + 2) (i + 1)

def det3 (A : Matrix (Fin 3) (Fin 3) ℚ) : ℚ := A 0 0 * cof A 0 0 + A 0 1 * cof A 1 0 + A 0 2 * cof A 2 0

theorem inv_cof (A : Matrix (Fin 3) (Fin 3) ℚ) (i j : Fin 3) : A⁻¹ i j = cof A i j / det3 A := by
  have hd : A.det = det3 A := by
    rw [det_fin_three]
    simp only [det3, cof, zero_add, show (1 + 1 : Fin 3) = 2 from rfl, show (1 + 2 : Fin 3) = 0 from rfl,
      show (2 + 1 : Fin 3) = 0 from rfl, show (2 + 2 : Fin 3) = 1 from rfl]
    ring
  rw [Matrix.inv_def, Ring.inverse_eq_inv', Matrix.smul_apply, smul_eq_mul, hd, div_eq_inv_mul, adjugate_fin_three]
  congr 1
  fin_cases i <;> fin_cases j <;> simp [cof, show (1 + 1 : Fin 3) = 2 from rfl, show (1 + 2 : Fin 3) = 0 from rfl,
    show (2 + 1 : Fin 3) = 0 from rfl, show (2 + 2 : Fin 3) = 1 from rfl] <;> ring

theorem matmulI_exact (U : RMat ℚ) (C : IMat) : (matmulI U C).toMatrix = U.toMatrix * castMat C.toMat := by
  ext i j
  rw [Matrix.mul_apply, Fin.sum_univ_three]
  fin_cases i <;> fin_cases j <;> rfl

/-- An inverse for the example: by cofactors, the result rounded. -/
def cofInverse (A : Matrix (Fin 3) (Fin 3) (Rounded roundNearest)) : Matrix (Fin 3) (Fin 3) (Rounded roundNearest) :=
  fun i j => ⟨roundNearest (cof (fun i j => (A i j).q) i j / det3 fun i j => (A i j).q)⟩

/-- What `id_cell` finds for the typed cell. -/
def hexFound : IdCell := ⟨IMat.one, canonC 12, 12, some 25⟩

theorem hexTyped_recognised : RecognisedIn cmpRounded hexTyped hexIdeal (ofRat (1 / 1000)) hexFound 10000 (5 / 10 ^ 8) 2 3
    (8 / 5) 1 := by
  have hK := accurate_rounded roundNearest_binary64 (M := 10000) (by norm_num) (by norm_num)
  have hη : (10000 / 2 ^ 53 + 1 / 10 ^ 15 : ℝ) ≤ 1 / 10 ^ 10 := by norm_num
  have he : |(((ofRat (1 / 1000) : Rounded roundNearest).q : ℚ) : ℝ) - 1 / 1000| ≤ 10000 / 2 ^ 53 + 1 / 10 ^ 15 := by
    have := hK.ofRat (1 / 1000) (by norm_num)
    push_cast at this
    exact this
  have hf := (hexTyped_found hK hη cmpRounded (by decide +kernel)).2 (canonC 12) (by decide +kernel)
  have h1 : toReal hexFound.Cu.toMat = 1 := by
    rw [show hexFound.Cu.toMat = 1 by decide, toReal_one]
  have hi : hexFound.Cu.toMat⁻¹ = 1 := by
    rw [show hexFound.Cu.toMat = 1 by decide, inv_one]
  have one (i j : Fin 3) : |(((1 : IntMat) i j : ℤ) : ℝ)| ≤ 1 := by
    by_cases h : i = j <;> simp [Matrix.one_apply, h]
  refine recognisedIn_close roundNearest_binary64 (by norm_num) (by norm_num) (hexTyped_close hK hη)
    (hexTyped_tolerated hK.nonneg hη (he.trans hη)) hf ?_ ?_ (by rw [h1, Matrix.mul_one]; exact hexIdeal_metric) le_rfl
    (by norm_num) (by norm_num) (by norm_num) hexIdeal_gap (by rw [hexIdeal_det]; positivity) (by decide +kernel)
    (by decide +kernel) (by decide)
  · intro i j
    rw [show hexFound.Cu.toMat = 1 by decide]
    exact (one i j).trans (by norm_num)
  · intro i j
    rw [hi]
    exact one i j

theorem cofInverse_stored : InverseStored cofInverse hexFound where
  basis := by
    intro O O' hO hO' i j
    have key : ∀ i j : Fin 3, |roundNearest (cof (fun i j => (O'.toMatrix i j).q) i j / det3 fun i j =>
        (O'.toMatrix i j).q) - cof O.toMatrix i j / det3 O.toMatrix| ≤ 1 / 10 ^ 12 := by
      cases hO
      cases hO'
      decide +kernel
    rw [← realMat_inv (by rw [← rdet_eq]; exact fBasis_det hO)]
    have := (Rat.cast_le (K := ℝ)).2 (key i j)
    rw [← inv_cof] at this
    push_cast at this
    exact this
  reduced := by
    intro O O' hO hO' i j
    have key : ∀ i j : Fin 3, |roundNearest (cof (fun i j => ((matmulI O' hexFound.Co).toMatrix i j).q) i j / det3 fun i j =>
        ((matmulI O' hexFound.Co).toMatrix i j).q) - cof (matmulI O hexFound.Co).toMatrix i j /
          det3 (matmulI O hexFound.Co).toMatrix| ≤ 1 / 10 ^ 12 := by
      cases hO
      cases hO'
      decide +kernel
    have hd : (matmulI O hexFound.Co).toMatrix.det ≠ 0 := by
      rw [← rdet_eq]
      cases hO
      decide +kernel
    rw [← realMat_castMat, ← realMat_mul, ← matmulI_exact, ← realMat_inv hd]
    have := (Rat.cast_le (K := ℝ)).2 (key i j)
    rw [← inv_cof] at this
    push_cast at this
    exact this
  factor := by
    intro i j
    have key : ∀ i j : Fin 3, (cofInverse (intMat hexFound.Cu.toMat) i j).q = (if i = j then 1 else 0) := by
      decide +kernel
    rw [key, show hexFound.Cu.toMat = 1 by decide, toReal_one, inv_one, Matrix.one_apply]
    split_ifs <;> norm_num

/-- A library for the example: it inverts as above, does not reduce, and counts one irreducible k-point. -/
def hexLib : Lib (Matrix (Fin 3) (Fin 3) (Rounded roundNearest)) Unit where
  equal := fun a b => decide (a = b)
  geom := fun H => ⟨cofInverse (supercellK cofInverse (fun x => nint x.q) hexTyped hexFound H)ᵀ, 1, true⟩
  gridOf := fun H => cofInverse (supercellK cofInverse (fun x => nint x.q) hexTyped hexFound H)ᵀ
  irr := fun _ _ => some 1
  irrDefault := fun _ _ => some 1

/-- The hypotheses of `find_grid_rounded_general` are met: 100 points are asked for, and a grid with all the symmetries
of the ideal hexagonal crystal is found, up to rounding. -/
example : ∃ ε e, findGrid hexLib wrap32 (1 / 1000) [()] false 4 60 12 25 100 = .ok e ∧
    LibClose (supercellK cofInverse (fun x => nint x.q) hexTyped hexFound) hexIdeal hexLib
      (fun H => supercellErr 10000 (5 / 10 ^ 8) 2 (8 / 5) 1 H.det) ε ∧
    ∃ G : Matrix (Fin 3) (Fin 3) ℝ, SymmetricGrid hexIdeal G e.nt_kpts ∧ 100 ≤ e.nt_kpts ∧
      (∀ i j, |((e.sel.grid i j).q : ℝ) - G i j| ≤ ε e.sel.HNF) := by
  obtain ⟨ε, hε⟩ := libClose_exists (supercellK cofInverse (fun x => nint x.q) hexTyped hexFound)
    hexTyped_recognised.ideal_det hexLib (fun H => supercellErr 10000 (5 / 10 ^ 8) 2 (8 / 5) 1 H.det)
  have hr : (match findGrid hexLib wrap32 (1 / 1000) [()] false 4 60 12 25 100 with
    | .ok e => decide (e.nt_kpts ≤ 10 ^ 6)
    | .error _ => false) = true := by decide +kernel
  cases he : findGrid hexLib wrap32 (1 / 1000) [()] false 4 60 12 25 100 with
  | error _ => rw [he] at hr; cases hr
  | ok e =>
    rw [he] at hr
    obtain ⟨G, g1, g2, g3, -⟩ := find_grid_rounded_general roundNearest_binary64 hexTyped_recognised (by decide)
      cofInverse_stored hε (fun _ _ _ h => by cases h; exact le_rfl) wrap32 (1 / 1000) [()] false 4 60 25 rfl 100
      (by norm_num) (.inr ⟨wrap32_int32, by norm_num⟩) e he (of_decide_eq_true hr)
    exact ⟨ε, e, rfl, hε, G, g1, g2, g3⟩

/-- The bound on the error of the supercell in this example, for 100 points. -/
example : supercellErr 10000 (5 / 10 ^ 8) 2 (8 / 5) 1 100 ≤ 1 / 20 := by
  norm_num [supercellErr, backErr, cellErr, opErr]

/-- In exact arithmetic the supercell is the one of the other theorems: `gridOf` is the inverse of its transpose. -/
theorem supercellK_exact (U : RMat ℚ) (r : IdCell) (H : IntMat) :
    gridOf U r H = ((supercellK (fun A => A⁻¹) nint U r H)ᵀ)⁻¹ := by
  unfold gridOf supercellK
  simp only [matmulI_exact, transformK_exact]

/-! ## A simple cubic and a triclinic cell -/

def cubicTyped : RMat (Rounded roundNearest) := ⟨⟨1⟩, ⟨0⟩, ⟨0⟩, ⟨0⟩, ⟨1⟩, ⟨0⟩, ⟨0⟩, ⟨0⟩, ⟨1⟩⟩

def cubicFound : IdCell := ⟨IMat.one, IMat.one, 3, some 1⟩

theorem cubicTyped_recognised : RecognisedIn cmpRounded cubicTyped 1 (ofRat (1 / 1000)) cubicFound 10000 0 1 1 1 1 := by
  have h1 : toReal cubicFound.Cu.toMat = 1 := by
    rw [show cubicFound.Cu.toMat = 1 by decide, toReal_one]
  have one (i j : Fin 3) : |(((1 : IntMat) i j : ℤ) : ℝ)| ≤ 1 := by
    by_cases h : i = j <;> simp [Matrix.one_apply, h]
  have oner (i j : Fin 3) : |(1 : Matrix (Fin 3) (Fin 3) ℝ) i j| ≤ 1 := by
    by_cases h : i = j <;> simp [Matrix.one_apply, h]
  refine ⟨by decide +kernel, ⟨fun i j => ?_, oner⟩, by simp, ⟨1, 1, 1, 0, 0, 0, ⟨by decide, ?_, ?_⟩, by decide, ?_, ?_⟩, ?_, ?_,
    ?_, ⟨by norm_num, by norm_num, by norm_num, by norm_num [opErr]⟩, by decide +kernel, by decide +kernel, by decide⟩
  · fin_cases i <;> fin_cases j <;> simp [cubicTyped, RMat.toMatrix]
  · rw [h1]
    ext i j
    fin_cases i <;> fin_cases j <;> simp [metric]
  · constructor <;> norm_num [TypeI, TypeII]
  · norm_num [NiggliClass, TypeII, cubicFound]
  · norm_num [classTable, NiggliClass, TypeI, TypeII, List.takeWhile, cubicFound]
  · intro i j
    rw [show cubicFound.Cu.toMat = 1 by decide]
    exact one i j
  · intro i j
    rw [show cubicFound.Cu.toMat = 1 by decide, inv_one]
    exact one i j
  · intro i j
    rw [h1, Matrix.mul_one]
    exact oner i j

theorem cofInverse_cubic : InverseStored cofInverse cubicFound where
  basis := by
    intro O O' hO hO' i j
    have key : ∀ i j : Fin 3, |roundNearest (cof (fun i j => (O'.toMatrix i j).q) i j / det3 fun i j =>
        (O'.toMatrix i j).q) - cof O.toMatrix i j / det3 O.toMatrix| ≤ 1 / 10 ^ 12 := by
      cases hO
      cases hO'
      decide +kernel
    rw [← realMat_inv (by rw [← rdet_eq]; exact fBasis_det hO)]
    have := (Rat.cast_le (K := ℝ)).2 (key i j)
    rw [← inv_cof] at this
    push_cast at this
    exact this
  reduced := by
    intro O O' hO hO' i j
    have key : ∀ i j : Fin 3, |roundNearest (cof (fun i j => ((matmulI O' cubicFound.Co).toMatrix i j).q) i j / det3 fun i j =>
        ((matmulI O' cubicFound.Co).toMatrix i j).q) - cof (matmulI O cubicFound.Co).toMatrix i j /
          det3 (matmulI O cubicFound.Co).toMatrix| ≤ 1 / 10 ^ 12 := by
      cases hO
      cases hO'
      decide +kernel
    have hd : (matmulI O cubicFound.Co).toMatrix.det ≠ 0 := by
      rw [← rdet_eq]
      cases hO
      decide +kernel
    rw [← realMat_castMat, ← realMat_mul, ← matmulI_exact, ← realMat_inv hd]
    have := (Rat.cast_le (K := ℝ)).2 (key i j)
    rw [← inv_cof] at this
    push_cast at this
    exact this
  factor := by
    intro i j
    have key : ∀ i j : Fin 3, (cofInverse (intMat cubicFound.Cu.toMat) i j).q = (if i = j then 1 else 0) := by
      decide +kernel
    rw [key, show cubicFound.Cu.toMat = 1 by decide, toReal_one, inv_one, Matrix.one_apply]
    split_ifs <;> norm_num

def cubicLib : Lib (Matrix (Fin 3) (Fin 3) (Rounded roundNearest)) Unit where
  equal := fun a b => decide (a = b)
  geom := fun H => ⟨cofInverse (supercellK cofInverse (fun x => nint x.q) cubicTyped cubicFound H)ᵀ, 1, true⟩
  gridOf := fun H => cofInverse (supercellK cofInverse (fun x => nint x.q) cubicTyped cubicFound H)ᵀ
  irr := fun _ _ => some 1
  irrDefault := fun _ _ => some 1

/-- The hypotheses of `find_grid_rounded_cubic` are met: 100 points. -/
example : ∃ (ε : IntMat → ℝ) (e : Entry _ _), findGrid cubicLib wrap32 (1 / 1000) [()] false 4 60 3 1 100 = .ok e ∧
    ∃ G : Matrix (Fin 3) (Fin 3) ℝ, SymmetricGrid 1 G e.nt_kpts ∧ 100 ≤ e.nt_kpts ∧
      (∀ i j, |((e.sel.grid i j).q : ℝ) - G i j| ≤ ε e.sel.HNF) := by
  obtain ⟨ε, hε⟩ := libClose_exists (supercellK cofInverse (fun x => nint x.q) cubicTyped cubicFound)
    cubicTyped_recognised.ideal_det cubicLib (fun H => supercellErr 10000 0 1 1 1 H.det)
  have hr : (match findGrid cubicLib wrap32 (1 / 1000) [()] false 4 60 3 1 100 with
    | .ok e => decide (e.nt_kpts ≤ 10 ^ 6)
    | .error _ => false) = true := by decide +kernel
  cases he : findGrid cubicLib wrap32 (1 / 1000) [()] false 4 60 3 1 100 with
  | error _ => rw [he] at hr; cases hr
  | ok e =>
    rw [he] at hr
    obtain ⟨G, g1, g2, g3, -⟩ := find_grid_rounded_cubic roundNearest_binary64 cubicTyped_recognised (by decide)
      cofInverse_cubic hε (fun _ _ _ h => by cases h; exact le_rfl) wrap32 (.inr wrap32_int32) (1 / 1000) [()] false 4 60 1
      100 (by norm_num) (by norm_num) (by norm_num) e he (of_decide_eq_true hr)
    exact ⟨ε, e, rfl, G, g1, g2, g3⟩

def tricTyped : RMat (Rounded roundNearest) :=
  ⟨⟨2⟩, ⟨1 / 2⟩, ⟨1 / 4⟩, ⟨0⟩, ⟨5 / 2⟩, ⟨3 / 4⟩, ⟨0⟩, ⟨0⟩, ⟨3⟩⟩

def tricRat : RMat ℚ := ⟨2, 1 / 2, 1 / 4, 0, 5 / 2, 3 / 4, 0, 0, 3⟩

theorem tricRat_real : realMat tricRat.toMatrix = !![2, 1 / 2, 1 / 4; 0, 5 / 2, 3 / 4; 0, 0, 3] := by
  ext i j
  fin_cases i <;> fin_cases j <;> simp [realMat, tricRat, RMat.toMatrix]

def tricFound : IdCell := ⟨IMat.one, IMat.one, 31, some 1⟩

theorem tric_one : toReal tricFound.Cu.toMat = 1 := by
  rw [show tricFound.Cu.toMat = 1 by decide, toReal_one]

theorem tricTyped_recognised : RecognisedIn cmpRounded tricTyped (realMat tricRat.toMatrix) (ofRat (1 / 1000)) tricFound
    10000 0 1 3 3 1 := by
  have one (i j : Fin 3) : |(((1 : IntMat) i j : ℤ) : ℝ)| ≤ 1 := by
    by_cases h : i = j <;> simp [Matrix.one_apply, h]
  have size (i j : Fin 3) : |realMat tricRat.toMatrix i j| ≤ 3 := by
    fin_cases i <;> fin_cases j <;> norm_num [realMat, tricRat, RMat.toMatrix, abs_of_pos]
  refine ⟨by decide +kernel, ⟨fun i j => ?_, size⟩, ?_, ⟨4, 13 / 2, 77 / 8, 2, 1 / 2, 1, ⟨by decide, ?_, ?_⟩, by decide, ?_, ?_⟩,
    ?_, ?_, ?_, ⟨by norm_num, by norm_num, by norm_num, by norm_num [opErr]⟩, by decide +kernel, by decide +kernel, by decide⟩
  · fin_cases i <;> fin_cases j <;> simp [tricTyped, tricRat, RMat.toMatrix, realMat]
  · rw [tricRat_real, det_fin_three]
    simp
  · rw [tric_one, Matrix.mul_one, tricRat_real]
    ext i j
    fin_cases i <;> fin_cases j <;> simp [metric, mul_apply, Fin.sum_univ_three] <;> norm_num
  · constructor <;> norm_num [TypeI, TypeII, abs_of_pos]
  · norm_num [NiggliClass, TypeI, tricFound]
  · norm_num [classTable, NiggliClass, TypeI, TypeII, List.takeWhile, tricFound]
  · intro i j
    rw [show tricFound.Cu.toMat = 1 by decide]
    exact one i j
  · intro i j
    rw [show tricFound.Cu.toMat = 1 by decide, inv_one]
    exact one i j
  · intro i j
    rw [tric_one, Matrix.mul_one]
    exact size i j

def tricLib : Lib (Matrix (Fin 3) (Fin 3) (Rounded roundNearest)) Unit where
  equal := fun a b => decide (a = b)
  geom := fun H => ⟨cofInverse (supercellK cofInverse (fun x => nint x.q) tricTyped tricFound H)ᵀ, 1, true⟩
  gridOf := fun H => cofInverse (supercellK cofInverse (fun x => nint x.q) tricTyped tricFound H)ᵀ
  irr := fun _ _ => some 1
  irrDefault := fun _ _ => some 1

/-- The hypotheses of `find_grid_rounded_tric` are met: 3 points; entries up to a million would be allowed. -/
example : ∃ (ε : IntMat → ℝ) (e : Entry _ _), findGrid tricLib wrap32 (1 / 1000) [()] false 1 60 31 1 3 = .ok e ∧
    ∃ (n m : ℤ) (G : Matrix (Fin 3) (Fin 3) ℝ), SymmetricGrid (realMat tricRat.toMatrix) G (n * m ^ 3) ∧
      3 - m ^ 3 < n * m ^ 3 ∧ (∀ i j, |((e.sel.grid i j).q : ℝ) - G i j| ≤ ε e.sel.HNF) := by
  obtain ⟨ε, hε⟩ := libClose_exists (supercellK cofInverse (fun x => nint x.q) tricTyped tricFound)
    tricTyped_recognised.ideal_det tricLib
    (fun H => backErr (1 / 2 ^ 53) (cellErr (opErr 10000) 0 1) 0 3 (9 * 1 * H.det * 1 : ℤ) 1)
  have hr : (match findGrid tricLib wrap32 (1 / 1000) [()] false 1 60 31 1 3 with
    | .ok e => decide (e.sel.HNF 0 1 = 0 ∧ e.sel.HNF 0 2 = 0 ∧ e.sel.HNF 1 2 = 0 ∧
        e.sel.HNF 0 0 * e.sel.HNF 1 1 * e.sel.HNF 2 2 ≤ 10 ^ 6)
    | .error _ => false) = true := by decide +kernel
  have hd : tricRat.toMatrix.det ≠ 0 := by
    rw [← rdet_eq]
    decide +kernel
  have size : ∀ i j : Fin 3, |(realMat tricRat.toMatrix)⁻¹ i j| ≤ 1 := by
    intro i j
    have key : ∀ i j : Fin 3, |cof tricRat.toMatrix i j / det3 tricRat.toMatrix| ≤ 1 := by decide +kernel
    rw [← realMat_inv hd]
    have := (Rat.cast_le (K := ℝ)).2 (key i j)
    rw [← inv_cof] at this
    push_cast at this
    exact this
  have inv1 : CloseTo (fun x : Rounded roundNearest => (x.q : ℝ)) (cofInverse tricTyped.toMatrix)
      (realMat tricRat.toMatrix)⁻¹ (1 / 10 ^ 15) 1 := by
    refine ⟨fun i j => ?_, size⟩
    have key : ∀ i j : Fin 3, |(cofInverse tricTyped.toMatrix i j).q - cof tricRat.toMatrix i j / det3 tricRat.toMatrix| ≤
      1 / 10 ^ 15 := by decide +kernel
    rw [← realMat_inv hd]
    have := (Rat.cast_le (K := ℝ)).2 (key i j)
    rw [← inv_cof] at this
    push_cast at this
    exact this
  have inv2 : CloseTo (fun x : Rounded roundNearest => (x.q : ℝ)) (cofInverse (matmulI tricTyped tricFound.Cu).toMatrix)
      (realMat tricRat.toMatrix * toReal tricFound.Cu.toMat)⁻¹ (1 / 10 ^ 15) 1 := by
    rw [tric_one, Matrix.mul_one]
    have e : ∀ i j, (cofInverse (matmulI tricTyped tricFound.Cu).toMatrix i j).q = (cofInverse tricTyped.toMatrix i j).q := by
      decide +kernel
    exact ⟨fun i j => by rw [e]; exact inv1.err i j, size⟩
  have one (i j : Fin 3) : |(1 : IntMat) i j| ≤ 1 := by
    by_cases h : i = j <;> simp [Matrix.one_apply, h]
  cases he : findGrid tricLib wrap32 (1 / 1000) [()] false 1 60 31 1 3 with
  | error _ => rw [he] at hr; cases hr
  | ok e =>
    rw [he] at hr
    obtain ⟨n, m, G, g1, -, -, g2, g3, -⟩ := find_grid_rounded_tric roundNearest_binary64 tricTyped_recognised (by decide)
      (ω := 0) (N := 10 ^ 6) (by norm_num) inv1 inv2 (fun i j => by
        have key : ∀ i j : Fin 3, (cofInverse (intMat tricFound.Cu.toMat) i j).q = (if i = j then 1 else 0) := by
          decide +kernel
        rw [key, tric_one, inv_one, Matrix.one_apply]
        split_ifs <;> norm_num) (by norm_num [changeErr]) (cu := 1) (cw := 1)
      (fun i j => by rw [show tricFound.Cu.toMat = 1 by decide]; exact one i j)
      (fun i j => by rw [show tricFound.Cu.toMat = 1 by decide, inv_one]; exact one i j) (by norm_num) (by norm_num)
      hε (fun _ _ _ h => by cases h; exact le_rfl) wrap32 (1 / 1000) [()] false 1 60 1 3 (by norm_num) e he
      (by
        obtain ⟨a, b, c, d⟩ := of_decide_eq_true hr
        rw [det_fin_three, a, b, c]
        linarith)
    exact ⟨ε, e, rfl, n, m, G, g1, g2, g3⟩

end AutoGR.Fortran
