import Verif.Lemmas.Grid
import Verif.Props.LatticeSym
import Verif.Props.FortranBasis
import Verif.Props.FortranFind
import Verif.Props.FortranFindCubic

/-!
# C79, C80: the grid in the user's basis

`transform_supercell` takes a symmetric supercell of the canonical lattice to the user's lattice, and the
program inverts and transposes it.  The grid made in this way contains the reciprocal lattice of the user's
crystal and has all point symmetries of the crystal lattice (`SymmetricGrid`).
-/

namespace AutoGR.Fortran

open Spec Matrix

/-- `id_cell` has found `r` for the user's cell `U`, for good reasons: the vectors of `U` are independent, the
reduced cell is a Niggli cell, no two quantities of the table of classes are nearly equal without being equal,
and the tolerance is one for which the canonical bases are reduced as the generators expect (C67). -/
structure Recognised (equal : ℚ → ℚ → ℚ → Bool) (U : RMat ℚ) (eps rho : ℚ) (r : IdCell) : Prop where
  found : idCell equal U (some eps) = .ok r
  det : U.toMatrix.det ≠ 0
  red : NiggliReduced (gram U r.Cu 0 0 : ℚ) (gram U r.Cu 1 1 : ℚ) (gram U r.Cu 2 2 : ℚ)
    (gram U r.Cu 1 2 : ℚ) (gram U r.Cu 0 2 : ℚ) (gram U r.Cu 0 1 : ℚ)
  apart : ClassApart eps rho (gram U r.Cu 0 0) (gram U r.Cu 1 1) (gram U r.Cu 2 2) (gram U r.Cu 1 2)
    (gram U r.Cu 0 2) (gram U r.Cu 0 1)
  eps_ge : 1 / 100000 ≤ eps
  eps_lt : eps < 1 / 10
  eps_le : eps ≤ rho
  six : r.id = 6 → eps < 27 / 2500000 ∨ 61 / 5000000 ≤ eps

theorem fBasis_det {k : ℕ} {O : RMat ℚ} (h : fBasis k = some O) : rdet O ≠ 0 := by
  unfold fBasis at h
  split at h <;> cases h <;> decide +kernel

variable {equal : ℚ → ℚ → ℚ → Bool} {U : RMat ℚ} {eps rho : ℚ} {r : IdCell}

theorem Recognised.parts (h : Recognised equal U eps rho r) :
    reduceCell equal U (some eps) = .ok r.Cu ∧
      reduceCell equal ((fBasis r.id : Option (RMat ℚ)).getD U) (some eps) = .ok r.Co := by
  have := h.found
  unfold idCell at this
  dsimp only at this
  split at this
  · cases this
  · rename_i Cu hCu
    split at this
    · cases this
    · rename_i Co hCo
      cases this
      exact ⟨hCu, hCo⟩

theorem Recognised.det_O (h : Recognised equal U eps rho r) :
    ((fBasis r.id : Option (RMat ℚ)).getD U).toMatrix.det ≠ 0 := by
  cases hb : (fBasis r.id : Option (RMat ℚ)) with
  | none => exact h.det
  | some O =>
    rw [Option.getD_some, ← rdet_eq]
    exact fBasis_det hb

theorem Recognised.real_det (h : Recognised equal U eps rho r) : (realCell U).det ≠ 0 := by
  have : realCell U = realMat U.toMatrix := rfl
  have e := RingHom.map_det (Rat.castHom ℝ) U.toMatrix
  have e' : (realMat U.toMatrix).det = ((U.toMatrix.det : ℚ) : ℝ) := by
    simpa [realMat, RingHom.mapMatrix_apply] using e.symm
  rw [this, e']
  exact_mod_cast h.det

/-- C79: rounding.  If each entry of the matrix that `transform_supercell` rounds is computed with an error
below one half, the rounded matrix is the exact one, `Co⁻¹ H Co`. -/
theorem transform_rounding (Co Do H : IntMat) (ho : Co * Do = 1) (O : Matrix (Fin 3) (Fin 3) ℚ)
    (hO : O.det ≠ 0) (A : Matrix (Fin 3) (Fin 3) ℚ)
    (hA : ∀ i j, |A i j - ((O * castMat Co)⁻¹ * (O * castMat H * O⁻¹ * O * castMat Co) :
      Matrix (Fin 3) (Fin 3) ℚ) i j| < 1 / 2) :
    nintMat A = Do * H * Co := by
  refine nintMat_near fun i j => ?_
  have hu := isUnit_iff_ne_zero.2 hO
  have e2 : (O * castMat Co)⁻¹ = castMat Do * O⁻¹ := by
    apply inv_of_mul
    calc O * castMat Co * (castMat Do * O⁻¹) = O * (castMat Co * castMat Do) * O⁻¹ := by
          simp only [Matrix.mul_assoc]
      _ = 1 := by rw [← castMat_mul, ho, castMat_one, Matrix.mul_one, mul_nonsing_inv _ hu]
  have e3 : (O * castMat Co)⁻¹ * (O * castMat H * O⁻¹ * O * castMat Co) =
      (castMat (Do * H * Co) : Matrix (Fin 3) (Fin 3) ℚ) := by
    calc (O * castMat Co)⁻¹ * (O * castMat H * O⁻¹ * O * castMat Co)
        = castMat Do * (O⁻¹ * O) * castMat H * (O⁻¹ * O) * castMat Co := by
          rw [e2]; simp only [Matrix.mul_assoc]
      _ = castMat (Do * H * Co) := by
        rw [nonsing_inv_mul _ hu]
        simp only [Matrix.mul_one, castMat_mul]
  have := hA i j
  rw [e3] at this
  exact this

/-- C79: the supercell that `transform_supercell` returns is made of vectors of the user's lattice, has the
index `det H`, and is kept by every point symmetry of the user's lattice if `H` is kept by the symmetries of
the class. -/
theorem transform_supercell_symmetric (h : Recognised equal U eps rho r) (H : IntMat)
    (hk : ∀ X ∈ ClassSym r.id r.Co.toMat, Keeps X H) :
    let O := ((fBasis r.id : Option (RMat ℚ)).getD U).toMatrix
    ∃ M : IntMat,
      transform_supercell H (O * castMat r.Co.toMat) (U.toMatrix * castMat r.Cu.toMat) r.Co.toMat r.Cu.toMat O =
        U.toMatrix * castMat M ∧
      M.det = H.det ∧ ∀ X ∈ PointSym (realCell U), Keeps X M := by
  intro O
  obtain ⟨p1, p2⟩ := h.parts
  have hCu : r.Cu.toMat.det = 1 := (reduceCell_same_lattice equal U (some eps) _ p1).1
  have hCo : r.Co.toMat.det = 1 := (reduceCell_same_lattice equal _ (some eps) _ p2).1
  have ho : r.Co.toMat * r.Co.toMat⁻¹ = 1 := mul_nonsing_inv _ (by rw [hCo]; exact isUnit_one)
  have hu : r.Cu.toMat * r.Cu.toMat⁻¹ = 1 := mul_nonsing_inv _ (by rw [hCu]; exact isUnit_one)
  have ho' := mul_eq_one_comm.1 ho
  have hu' := mul_eq_one_comm.1 hu
  have hQP : (r.Co.toMat * r.Cu.toMat⁻¹) * (r.Cu.toMat * r.Co.toMat⁻¹) = 1 := by
    calc (r.Co.toMat * r.Cu.toMat⁻¹) * (r.Cu.toMat * r.Co.toMat⁻¹)
        = r.Co.toMat * (r.Cu.toMat⁻¹ * r.Cu.toMat) * r.Co.toMat⁻¹ := by simp only [Matrix.mul_assoc]
      _ = 1 := by rw [hu', Matrix.mul_one, ho]
  have hPQ := mul_eq_one_comm.1 hQP
  have hC : (r.Co.toMat * r.Cu.toMat⁻¹) * r.Cu.toMat = r.Co.toMat := by
    rw [Matrix.mul_assoc, hu', Matrix.mul_one]
  refine ⟨_, transform_eq (isUnit_iff_ne_zero.2 h.det_O) ho hu H, ?_, fun X hX => ?_⟩
  · have := congrArg Matrix.det hPQ
    rw [det_mul, Matrix.det_one] at this
    rw [det_mul, det_mul, mul_right_comm, this, one_mul]
  · have he : (0 : ℚ) ≤ eps := le_trans (by norm_num) h.eps_ge
    rw [idCell_pointSym equal U eps r h.found rho he (h.eps_ge.trans h.eps_le) h.eps_le h.apart h.red] at hX
    exact keeps_change hQP hPQ (hk _ (classSym_change hQP hPQ hC hX))

/-- C79: the grid made from `H`, in any basis (`W` is the change of basis of a lattice reduction), contains
the reciprocal lattice with `|det H|` points in a cell and has all symmetries of the user's lattice, if `H`
is kept by the symmetries of the class. -/
theorem gridOf_symmetric (h : Recognised equal U eps rho r) (H : IntMat) (hH : H.det ≠ 0)
    (hk : ∀ X ∈ ClassSym r.id r.Co.toMat, Keeps X H) (W : IntMat) (hW : IsUnit W.det) :
    SymmetricGrid (realCell U) (realMat (gridOf U r H * castMat W)) |H.det| := by
  obtain ⟨M, h1, h2, h3⟩ := transform_supercell_symmetric h H hk
  have hM : M.det ≠ 0 := by rwa [h2]
  have hUr := h.real_det
  have hg : realMat (gridOf U r H * castMat W) = ((realCell U * toReal M)ᵀ)⁻¹ * toReal W := by
    have hd : (U.toMatrix * castMat M)ᵀ.det ≠ 0 := by
      rw [det_transpose, det_mul]
      refine mul_ne_zero h.det ?_
      have := RingHom.map_det (Int.castRingHom ℚ) M
      have e' : (castMat M : Matrix (Fin 3) (Fin 3) ℚ).det = (M.det : ℚ) := by
        simpa [castMat, RingHom.mapMatrix_apply] using this.symm
      rw [e']
      exact_mod_cast hM
    unfold gridOf
    dsimp only at h1 ⊢
    rw [h1, realMat_mul, realMat_castMat, realMat_inv hd, realMat_transpose, realMat_mul, realMat_castMat]
    rfl
  rw [hg, ← h2]
  exact symmetricGrid hUr hM hW h3

theorem Recognised.id_mem (h : Recognised equal U eps rho r) : r.id ∈ classTable := by
  have he : (0 : ℚ) ≤ eps := le_trans (by norm_num) h.eps_ge
  have sep := h.apart.separated (r := 1 / 100000) (by norm_num) (h.eps_ge.trans h.eps_le)
  exact (idCell_exact equal U eps r h.found rho he (h.eps_ge.trans h.eps_le) h.eps_le h.apart
    (sepTol_type sep.d_zero sep.e_zero sep.f_zero h.red.type)).1

theorem Recognised.id_range (h : Recognised equal U eps rho r) : 1 ≤ r.id ∧ r.id ≤ 44 := by
  have key : ∀ k ∈ classTable, 1 ≤ k ∧ k ≤ 44 := by decide
  exact key _ h.id_mem

theorem Recognised.s_range (h : Recognised equal U eps rho r) : r.s_range = sRange r.id := by
  have := h.found
  unfold idCell at this
  dsimp only at this
  split at this
  · cases this
  · split at this
    · cases this
    · cases this
      rfl

theorem reduced_canonC (k : ℕ) (h1 : 1 ≤ k) (h2 : k ≤ 44) (hk : k ∉ [31, 44]) :
    reducedCanonical ℚ k = .ok (canonC k) := by
  simp only [List.mem_cons, List.not_mem_nil, or_false, not_or] at hk
  interval_cases k
  · exact reduced_1
  · exact reduced_2
  · exact reduced_3
  · exact reduced_4
  · exact reduced_5
  · exact reduced_6
  · exact reduced_7
  · exact reduced_8
  · exact reduced_9
  · exact reduced_10
  · exact reduced_11
  · exact reduced_12
  · exact reduced_13
  · exact reduced_14
  · exact reduced_15
  · exact reduced_16
  · exact reduced_17
  · exact reduced_18
  · exact reduced_19
  · exact reduced_20
  · exact reduced_21
  · exact reduced_22
  · exact reduced_23
  · exact reduced_24
  · exact reduced_25
  · exact reduced_26
  · exact reduced_27
  · exact reduced_28
  · exact reduced_29
  · exact reduced_30
  · omega
  · exact reduced_32
  · exact reduced_33
  · exact reduced_34
  · exact reduced_35
  · exact reduced_36
  · exact reduced_37
  · exact reduced_38
  · exact reduced_39
  · exact reduced_40
  · exact reduced_41
  · exact reduced_42
  · exact reduced_43
  · omega

theorem sRange_le (k : ℕ) (h1 : 1 ≤ k) (h2 : k ≤ 44) (hk : k ∉ [1, 3, 5, 31, 44]) :
    ∃ s, sRange k = some s ∧ 5 ≤ s := by
  simp only [List.mem_cons, List.not_mem_nil, or_false, not_or] at hk
  interval_cases k <;> first | omega | exact ⟨_, rfl, by norm_num⟩

/-- The symmetries of the class in the basis that `id_cell` used are those the generators are made for. -/
theorem Recognised.classSym (h : Recognised equal U eps rho r) (hk : r.id ∉ [31, 44]) :
    ClassSym r.id r.Co.toMat = ClassSym r.id (canonC r.id).toMat := by
  obtain ⟨k1, k2⟩ := h.id_range
  have hp := reduced_canonC r.id k1 k2 hk
  cases hb : (fBasis r.id : Option (RMat ℚ)) with
  | none =>
    exfalso
    simp only [List.mem_cons, List.not_mem_nil, or_false, not_or] at hk
    have key : ∀ k, 1 ≤ k → k ≤ 44 → k ≠ 31 → k ≠ 44 → ((fBasis k : Option (RMat ℚ))).isSome := by
      intro k a b c d
      interval_cases k <;> first | rfl | omega
    have := key r.id k1 k2 hk.1 hk.2
    rw [hb] at this
    cases this
  | some O =>
    have h2 := h.parts.2
    rw [hb, Option.getD_some] at h2
    exact canonical_range_partial equal r.id O hb eps h.eps_ge h.eps_lt h.six r.Co h2 _ hp

/-- The grids that the library works on are the ones the program hands to it: the grid of the HNF, and for the
lattices that are not cubic a reduced basis of it. -/
structure Reduces {Off : Type} (U : RMat ℚ) (r : IdCell) (lib : Lib (Matrix (Fin 3) (Fin 3) ℚ) Off) : Prop where
  geom : ∀ H : IntMat, H.det ≠ 0 → ∃ W : IntMat, IsUnit W.det ∧ (lib.geom H).grid = gridOf U r H * castMat W
  grid : ∀ H : IntMat, lib.gridOf H = gridOf U r H

variable {Off : Type} {lib : Lib (Matrix (Fin 3) (Fin 3) ℚ) Off}

/-- C80, for the lattices that are neither cubic nor triclinic: the grid that `find_grid` returns contains the
reciprocal lattice of the user's crystal, has at least the requested number of points in a cell of it, and has
all point symmetries of the crystal lattice. -/
theorem find_grid_symmetric_general (h : Recognised equal U eps rho r) (hk : r.id ∉ [1, 3, 5, 31, 44])
    (hl : Reduces U r lib) (hirr : ∀ g o m, lib.irr g o = some m → 1 ≤ m) (w : ℤ → ℤ) (offsets : List Off)
    (min_kpts : Bool) (root : ℤ) (fuel s_range : ℕ) (hs : r.s_range = some s_range) (kpd : ℤ) (h1 : 1 ≤ kpd)
    (hfit : IntsFit w (kpd + fuel)) (e : Entry (Matrix (Fin 3) (Fin 3) ℚ) Off)
    (he : findGrid lib w eps offsets min_kpts root fuel r.id s_range kpd = .ok e) :
    SymmetricGrid (realCell U) (realMat e.sel.grid) e.nt_kpts ∧ kpd ≤ e.nt_kpts := by
  obtain ⟨k1, k2⟩ := h.id_range
  have hk' : r.id ∉ [31, 44] := fun hm => hk (by simp at hm ⊢; omega)
  obtain ⟨s, hs1, hs2⟩ := sRange_le r.id k1 k2 hk
  rw [h.s_range, hs1] at hs
  cases hs
  rcases findGrid_general lib hirr w eps offsets min_kpts root fuel r.id k1 k2 hk _ (reduced_canonC r.id k1 k2 hk')
    s_range hs2 kpd h1 hfit with hr | ⟨e', he', a1, a2, a3, -⟩
  · rw [hr] at he
    cases he
  · rw [he'] at he
    cases he
    have hd := a2.2.1
    obtain ⟨W, hW, hg⟩ := hl.geom e.sel.HNF (by rw [hd]; omega)
    have := gridOf_symmetric h e.sel.HNF (by rw [hd]; omega)
      (by rw [h.classSym hk']; exact a2.2.2) W hW
    rw [← hg, ← a3, hd, abs_of_pos (by omega)] at this
    exact ⟨this, a1⟩

/-- C80, for the cubic lattices. -/
theorem find_grid_symmetric_cubic (h : Recognised equal U eps rho r) (hk : r.id ∈ [1, 3, 5])
    (hl : Reduces U r lib) (hirr : ∀ g o m, lib.irr g o = some m → 1 ≤ m) (w : ℤ → ℤ) (hw : w = id ∨ Int32 w)
    (offsets : List Off) (min_kpts : Bool) (root : ℤ) (fuel s_range : ℕ) (kpd : ℤ) (h1 : 1 ≤ kpd)
    (hroot : root ^ 3 ≤ kpd ∧ kpd < (root + 2) ^ 3) (hr : 0 ≤ root) (tol : ℚ)
    (e : Entry (Matrix (Fin 3) (Fin 3) ℚ) Off)
    (he : findGrid lib w tol offsets min_kpts root fuel r.id s_range kpd = .ok e) :
    SymmetricGrid (realCell U) (realMat e.sel.grid) e.nt_kpts ∧ kpd ≤ e.nt_kpts ∧ e.sel.offset ∈ offsets := by
  obtain ⟨k1, k2⟩ := h.id_range
  have hk' : r.id ∉ [31, 44] := fun hm => by simp at hm hk; omega
  obtain ⟨-, a1, -, a2, a3, a5, -⟩ := findGrid_cubic_sound lib hirr w hw tol offsets min_kpts fuel r.id hk _
    (reduced_canonC r.id k1 k2 hk') s_range kpd root h1 hroot hr e he
  have hd := a2.2.1
  have hpos : 0 < e.nt_kpts := lt_of_lt_of_le (by omega) a1
  have := gridOf_symmetric h e.sel.HNF (by rw [hd]; omega) (by rw [h.classSym hk']; exact a2.2.2) 1 (by simp)
  rw [castMat_one, Matrix.mul_one, ← hl.grid, ← a3, hd, abs_of_pos hpos] at this
  exact ⟨this, a1, a5⟩

/-- A grid is found for the cubic lattices, up to `cubicLimit`; beyond it none is, see `findGrid_cubic_large`. -/
theorem find_grid_symmetric_cubic_partial (h : Recognised equal U eps rho r) (hk : r.id ∈ [1, 3, 5])
    (hl : Reduces U r lib) (hirr : ∀ g o m, lib.irr g o = some m → 1 ≤ m) (w : ℤ → ℤ) (hw : w = id ∨ Int32 w)
    (offsets : List Off) (hoff : offsets ≠ []) (htot : ∀ g, ∀ o ∈ offsets, lib.irr g o ≠ none)
    (min_kpts : Bool) (root : ℤ) (fuel s_range : ℕ) (kpd : ℤ) (h1 : 1 ≤ kpd)
    (hkpd : kpd ≤ cubicLimit r.id) (hroot : root ^ 3 ≤ kpd ∧ kpd < (root + 2) ^ 3)
    (hr : 0 ≤ root) (tol : ℚ) :
    ∃ e, findGrid lib w tol offsets min_kpts root fuel r.id s_range kpd = .ok e ∧
      SymmetricGrid (realCell U) (realMat e.sel.grid) e.nt_kpts ∧ kpd ≤ e.nt_kpts ∧ e.sel.offset ∈ offsets := by
  obtain ⟨k1, k2⟩ := h.id_range
  have hk' : r.id ∉ [31, 44] := fun hm => by simp at hm hk; omega
  obtain ⟨o, ho⟩ := List.exists_mem_of_ne_nil _ hoff
  obtain ⟨e, he, -⟩ := findGrid_cubic_answers lib hirr w hw tol offsets min_kpts fuel r.id hk _
    (reduced_canonC r.id k1 k2 hk') (fun _ _ _ _ => ⟨o, ho, htot _ o ho⟩) s_range kpd root h1 hkpd hroot hr
  exact ⟨e, he, find_grid_symmetric_cubic h hk hl hirr w hw offsets min_kpts root fuel s_range kpd h1 hroot hr tol e he⟩

/-- C80, for the triclinic lattices.  The number of points may be smaller than requested (C75): `m` is the
factor by which the program divides the supercell. -/
theorem find_grid_symmetric_tric (h : Recognised equal U eps rho r) (hk : r.id ∈ [31, 44])
    (hl : Reduces U r lib) (hirr : ∀ g o m, lib.irr g o = some m → 1 ≤ m) (w : ℤ → ℤ) (offsets : List Off)
    (min_kpts : Bool) (root : ℤ) (fuel s_range : ℕ) (kpd : ℤ) (h1 : 1 ≤ kpd)
    (e : Entry (Matrix (Fin 3) (Fin 3) ℚ) Off)
    (he : findGrid lib w eps offsets min_kpts root fuel r.id s_range kpd = .ok e) :
    ∃ n m : ℤ, SymmetricGrid (realCell U) (realMat e.sel.grid) (n * m ^ 3) ∧ 1 ≤ n ∧ 1 ≤ m ∧
      kpd - m ^ 3 < n * m ^ 3 := by
  have hCo : r.Co.toMat.det = 1 := (reduceCell_same_lattice equal _ (some eps) _ h.parts.2).1
  rcases findGrid_tric lib hirr w eps offsets min_kpts root fuel r.id hk r.Co.toMat (.inl hCo) s_range kpd h1 with
    hr | ⟨e', he', ⟨n, m, H, b1, b2, -, -, -, b3, b4⟩, a2, a3, -⟩
  · rw [hr] at he
    cases he
  · rw [he'] at he
    cases he
    have hpos : 0 < n * m ^ 3 := mul_pos (by omega) (pow_pos (by omega) 3)
    obtain ⟨W, hW, hg⟩ := hl.geom e.sel.HNF (by rw [b3]; omega)
    have := gridOf_symmetric h e.sel.HNF (by rw [b3]; omega) a2 W hW
    rw [← hg, ← a3, b3, abs_of_pos hpos] at this
    exact ⟨n, m, this, b1, b2, b4⟩

/-! ## The hypotheses are met -/

/-- The orthorhombic cell of C77, class 40, with the driver's default tolerance. -/
theorem orthoCell_recognised : Recognised cmpEqual orthoCell (1 / 1000) (1 / 1000)
    ⟨⟨-1, 0, -3, 0, -1, 0, 0, 0, 1⟩, ⟨1, 0, 0, 0, 1, 0, 0, 0, 1⟩, 40, some 15⟩ where
  found := by decide +kernel
  det := by rw [← rdet_eq]; decide +kernel
  red := by
    have hg := orthoCell_gram
    rw [cellMetric_metric] at hg
    simp only [Prod.mk.injEq] at hg
    obtain ⟨h1, h2, h3, h4, h5, h6⟩ := hg
    rw [h1, h2, h3, h4, h5, h6]
    constructor <;> norm_num [TypeI, TypeII]
  apart := by
    have hg := orthoCell_gram
    rw [cellMetric_metric] at hg
    simp only [Prod.mk.injEq] at hg
    obtain ⟨h1, h2, h3, h4, h5, h6⟩ := hg
    rw [h1, h2, h3, h4, h5, h6]
    constructor <;> decide +kernel
  eps_ge := by norm_num
  eps_lt := by norm_num
  eps_le := le_rfl
  six := by simp

/-- A simple cubic lattice in a skew basis. -/
theorem cubicCell_recognised : Recognised cmpEqual (⟨1, 1, 0, 0, 1, 0, 0, 0, 1⟩ : RMat ℚ) (1 / 1000) (1 / 1000)
    ⟨⟨-1, 0, -1, 0, 0, 1, 0, 1, 0⟩, ⟨1, 0, 0, 0, 1, 0, 0, 0, 1⟩, 3, some 1⟩ where
  found := by decide +kernel
  det := by rw [← rdet_eq]; decide +kernel
  red := by
    have hg : cellMetric (⟨1, 1, 0, 0, 1, 0, 0, 0, 1⟩ : RMat ℚ) ⟨-1, 0, -1, 0, 0, 1, 0, 1, 0⟩ = (1, 1, 1, 0, 0, 0) := by decide +kernel
    rw [cellMetric_metric] at hg
    simp only [Prod.mk.injEq] at hg
    obtain ⟨h1, h2, h3, h4, h5, h6⟩ := hg
    rw [h1, h2, h3, h4, h5, h6]
    constructor <;> norm_num [TypeI, TypeII]
  apart := by
    have hg : cellMetric (⟨1, 1, 0, 0, 1, 0, 0, 0, 1⟩ : RMat ℚ) ⟨-1, 0, -1, 0, 0, 1, 0, 1, 0⟩ = (1, 1, 1, 0, 0, 0) := by decide +kernel
    rw [cellMetric_metric] at hg
    simp only [Prod.mk.injEq] at hg
    obtain ⟨h1, h2, h3, h4, h5, h6⟩ := hg
    rw [h1, h2, h3, h4, h5, h6]
    constructor <;> decide +kernel
  eps_ge := by norm_num
  eps_lt := by norm_num
  eps_le := le_rfl
  six := by simp

/-- A triclinic lattice. -/
theorem tricCell_recognised : Recognised cmpEqual (⟨3, -1, -1, 0, 4, -1, 0, 0, 5⟩ : RMat ℚ) (1 / 1000) (1 / 1000)
    ⟨⟨1, 0, 0, 0, 1, 0, 0, 0, 1⟩, ⟨1, 0, 0, 0, 1, 0, 0, 0, 1⟩, 44, some 1⟩ where
  found := by decide +kernel
  det := by rw [← rdet_eq]; decide +kernel
  red := by
    have hg : cellMetric (⟨3, -1, -1, 0, 4, -1, 0, 0, 5⟩ : RMat ℚ) ⟨1, 0, 0, 0, 1, 0, 0, 0, 1⟩ = (9, 17, 27, -3, -3, -3) := by decide +kernel
    rw [cellMetric_metric] at hg
    simp only [Prod.mk.injEq] at hg
    obtain ⟨h1, h2, h3, h4, h5, h6⟩ := hg
    rw [h1, h2, h3, h4, h5, h6]
    constructor <;> norm_num [TypeI, TypeII]
  apart := by
    have hg : cellMetric (⟨3, -1, -1, 0, 4, -1, 0, 0, 5⟩ : RMat ℚ) ⟨1, 0, 0, 0, 1, 0, 0, 0, 1⟩ = (9, 17, 27, -3, -3, -3) := by decide +kernel
    rw [cellMetric_metric] at hg
    simp only [Prod.mk.injEq] at hg
    obtain ⟨h1, h2, h3, h4, h5, h6⟩ := hg
    rw [h1, h2, h3, h4, h5, h6]
    constructor <;> decide +kernel
  eps_ge := by norm_num
  eps_lt := by norm_num
  eps_le := le_rfl
  six := by simp

/-- A library that leaves each basis as it is and counts one irreducible k-point. -/
noncomputable def plainLib (U : RMat ℚ) (r : IdCell) : Lib (Matrix (Fin 3) (Fin 3) ℚ) Unit where
  equal := sampleEqual
  geom H := ⟨gridOf U r H, 1, true⟩
  gridOf := gridOf U r
  irr _ _ := some 1
  irrDefault _ _ := some 1

theorem plainLib_reduces (U : RMat ℚ) (r : IdCell) : Reduces U r (plainLib U r) where
  geom H _ := ⟨1, by simp, by rw [castMat_one, Matrix.mul_one]; rfl⟩
  grid _ := rfl

/-- C79 and C80 for the supercell `1 0 1 0 0 2` of this lattice. -/
example : SymmetricGrid (realCell orthoCell) (realMat (gridOf orthoCell
    ⟨⟨-1, 0, -3, 0, -1, 0, 0, 0, 1⟩, ⟨1, 0, 0, 0, 1, 0, 0, 0, 1⟩, 40, some 15⟩ (hnf 1 0 1 0 0 2) * castMat 1))
    |(hnf 1 0 1 0 0 2).det| := by
  refine gridOf_symmetric orthoCell_recognised _ (by rw [det_hnf]; norm_num) ?_ 1 (by simp)
  rw [orthoCell_recognised.classSym (by decide)]
  obtain ⟨gen, hg, good⟩ := generatorOf_good id 40 (by norm_num) (by norm_num) (by decide) reduced_40
  have hm : hnf 1 0 1 0 0 2 ∈ gen 2 := by
    simp only [generatorOf] at hg
    cases hg
    decide +kernel
  exact (((good.lists 2 (.inl rfl)).2 _).1 hm).2.2

/-- The hypotheses of C80: this lattice, 10 points requested, 32-bit integers. -/
example : ∃ e, findGrid (plainLib orthoCell ⟨⟨-1, 0, -3, 0, -1, 0, 0, 0, 1⟩, ⟨1, 0, 0, 0, 1, 0, 0, 0, 1⟩, 40, some 15⟩)
      wrap32 (1 / 1000) [()] false 2 41 40 15 10 = .ok e ∧
    SymmetricGrid (realCell orthoCell) (realMat e.sel.grid) e.nt_kpts ∧ 10 ≤ e.nt_kpts := by
  have hirr : ∀ g o m, (plainLib orthoCell
      ⟨⟨-1, 0, -3, 0, -1, 0, 0, 0, 1⟩, ⟨1, 0, 0, 0, 1, 0, 0, 0, 1⟩, 40, some 15⟩).irr g o = some m → 1 ≤ m := by
    intro g o m h
    simp only [plainLib, Option.some.injEq] at h
    omega
  obtain ⟨e, he, -⟩ := findGrid_ends (plainLib orthoCell
      ⟨⟨-1, 0, -3, 0, -1, 0, 0, 0, 1⟩, ⟨1, 0, 0, 0, 1, 0, 0, 0, 1⟩, 40, some 15⟩) hirr wrap32 (1 / 1000) [()] (by simp)
    (fun g o _ => by simp [plainLib]) false 2 41 40 (by norm_num) (by norm_num) (by decide) (canonC 40)
    reduced_40 15 (by norm_num) 10 (by norm_num) (.inr ⟨wrap32_int32, by norm_num⟩) (by norm_num) (by
      intro n hn hn' _
      obtain ⟨H, hH⟩ := symmetric_supercell_exists 40 (by norm_num) (by norm_num) (by decide) _ reduced_40 n (by omega)
      refine ⟨H, hH, rfl, ?_⟩
      simp only [plainLib]
      norm_num)
  exact ⟨e, he, find_grid_symmetric_general orthoCell_recognised (by decide) (plainLib_reduces _ _) hirr wrap32 [()]
    false 2 41 15 rfl 10 (by norm_num) (.inr ⟨wrap32_int32, by norm_num⟩) e he⟩

/-- The hypotheses of C80 for a cubic lattice, 1000 points requested. -/
example : ∃ e, findGrid (plainLib ⟨1, 1, 0, 0, 1, 0, 0, 0, 1⟩
      ⟨⟨-1, 0, -1, 0, 0, 1, 0, 1, 0⟩, ⟨1, 0, 0, 0, 1, 0, 0, 0, 1⟩, 3, some 1⟩)
      wrap32 (1 / 1000) [()] false 9 0 3 1 1000 = .ok e ∧
    SymmetricGrid (realCell ⟨1, 1, 0, 0, 1, 0, 0, 0, 1⟩) (realMat e.sel.grid) e.nt_kpts ∧ 1000 ≤ e.nt_kpts ∧
      e.sel.offset ∈ [()] :=
  find_grid_symmetric_cubic_partial cubicCell_recognised (by decide) (plainLib_reduces _ _)
    (fun g o m h => by simp only [plainLib, Option.some.injEq] at h; omega) wrap32 (.inr wrap32_int32) [()] (by simp)
    (fun g o _ => by simp [plainLib]) false 9 0 1 1000 (by norm_num) (by decide) (by norm_num) (by norm_num) _

/-- The hypotheses of C80 for a triclinic lattice, 801 points requested. -/
example : ∃ e, findGrid (plainLib ⟨3, -1, -1, 0, 4, -1, 0, 0, 5⟩
      ⟨⟨1, 0, 0, 0, 1, 0, 0, 0, 1⟩, ⟨1, 0, 0, 0, 1, 0, 0, 0, 1⟩, 44, some 1⟩)
      wrap32 (1 / 1000) [()] false 9 1 44 1 801 = .ok e ∧ ∃ n m : ℤ,
    SymmetricGrid (realCell ⟨3, -1, -1, 0, 4, -1, 0, 0, 5⟩) (realMat e.sel.grid) (n * m ^ 3) := by
  have hirr : ∀ g o m, (plainLib ⟨3, -1, -1, 0, 4, -1, 0, 0, 5⟩
      ⟨⟨1, 0, 0, 0, 1, 0, 0, 0, 1⟩, ⟨1, 0, 0, 0, 1, 0, 0, 0, 1⟩, 44, some 1⟩).irr g o = some m → 1 ≤ m := by
    intro g o m h
    simp only [plainLib, Option.some.injEq] at h
    omega
  obtain ⟨e, he, -⟩ := findGrid_tric_ends (plainLib ⟨3, -1, -1, 0, 4, -1, 0, 0, 5⟩
      ⟨⟨1, 0, 0, 0, 1, 0, 0, 0, 1⟩, ⟨1, 0, 0, 0, 1, 0, 0, 0, 1⟩, 44, some 1⟩) hirr wrap32 (1 / 1000)
    [()] (by simp) (fun g o _ => by simp [plainLib]) false 9 1 44 le_rfl (by simp) 1 801 100 2 (by norm_num)
    get_kpd_tric_short.1 ⟨hnf 1 0 1 0 0 100, isHNF_hnf (by norm_num) (by norm_num) (by norm_num) (by norm_num)
      (by norm_num) (by norm_num), by rw [det_hnf]; norm_num, rfl, by simp only [plainLib]; norm_num⟩
  obtain ⟨n, m, hs, -⟩ := find_grid_symmetric_tric tricCell_recognised (by decide) (plainLib_reduces _ _) hirr
    wrap32 [()] false 9 1 1 801 (by norm_num) e he
  exact ⟨e, he, n, m, hs⟩

end AutoGR.Fortran
