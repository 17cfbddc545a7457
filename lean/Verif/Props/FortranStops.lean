import Verif.Spec.Packing
import Verif.Lemmas.PackTable
import Verif.Lemmas.FortranStops
import Verif.Props.FortranMain
import Verif.Props.FortranPack

/-!
# C94, C95: the search of the program ends

A supercell counts only if its grid is packed densely enough (C73), and nothing bounds the search.  Every lattice has
symmetric grids that are packed densely enough, beyond any number of points, so the search ends.
-/

namespace AutoGR

open Spec Matrix

/-- C94: every lattice has, beyond any number of points, a grid that contains its reciprocal lattice, has all its
symmetries, and whose spheres fill at least 31% of space (the program asks for 30%).  The number of points can be
chosen as a multiple of 8. -/
theorem packed_symmetric_grid_exists {U : Matrix (Fin 3) (Fin 3) ℝ} {Co : IntMat} {A B C D E F : ℝ}
    (h : NiggliCellOf U Co A B C D E F) {k : ℕ} (hk : IsClass k A B C D E F) (N : ℤ) :
    ∃ (n : ℤ) (K : Matrix (Fin 3) (Fin 3) ℝ), N ≤ n ∧ 8 ∣ n ∧ SymmetricGrid U K n ∧ PackedAtLeast (31 / 100) K := by
  obtain ⟨M, h1, h2, h3, h4, h5⟩ := dense_sublattice h hk N
  refine ⟨|M.det|, ((U * toReal M)ᵀ)⁻¹ * toReal 1, h1, (dvd_abs _ _).2 h3,
    Fortran.symmetricGrid h.det_ne h2 (by simp) h4, ?_⟩
  rw [toReal_one, Matrix.mul_one]
  exact h5.packed

/-- C94 for every cell with rational entries and independent vectors. -/
theorem packed_symmetric_grid_exists_rat (U : RMat ℚ) (hU : U.toMatrix.det ≠ 0) (N : ℤ) :
    ∃ (n : ℤ) (K : Matrix (Fin 3) (Fin 3) ℝ), N ≤ n ∧ 8 ∣ n ∧ SymmetricGrid (realCell U) K n ∧
      PackedAtLeast (31 / 100) K := by
  obtain ⟨Co, A, B, C, D, E, F, k, h, hk⟩ := niggliCell_exists U hU
  exact packed_symmetric_grid_exists h hk N

namespace Fortran

variable {equal : ℚ → ℚ → ℚ → Bool} {U : RMat ℚ} {eps rho : ℚ} {r : IdCell}

/-- The grid of `H`. -/
theorem gridOf_real (h : Recognised equal U eps rho r) (H : IntMat) (hH : H.det ≠ 0) (W : IntMat) :
    realMat (gridOf U r H * castMat W) = ((realCell U *
      toReal ((r.Cu.toMat * r.Co.toMat⁻¹) * H * (r.Co.toMat * r.Cu.toMat⁻¹)))ᵀ)⁻¹ * toReal W := by
  obtain ⟨p1, p2⟩ := h.parts
  have hCu : r.Cu.toMat.det = 1 := (reduceCell_same_lattice equal U (some eps) _ p1).1
  have hCo : r.Co.toMat.det = 1 := (reduceCell_same_lattice equal _ (some eps) _ p2).1
  have ho : r.Co.toMat * r.Co.toMat⁻¹ = 1 := mul_nonsing_inv _ (by rw [hCo]; exact isUnit_one)
  have hu : r.Cu.toMat * r.Cu.toMat⁻¹ = 1 := mul_nonsing_inv _ (by rw [hCu]; exact isUnit_one)
  have ho' : r.Co.toMat⁻¹.det = 1 := by
    have := congrArg Matrix.det ho
    rwa [det_mul, hCo, one_mul, Matrix.det_one] at this
  have hu' : r.Cu.toMat⁻¹.det = 1 := by
    have := congrArg Matrix.det hu
    rwa [det_mul, hCu, one_mul, Matrix.det_one] at this
  have h1 := transform_eq (U := U.toMatrix) (isUnit_iff_ne_zero.2 h.det_O) ho hu H
  set M := (r.Cu.toMat * r.Co.toMat⁻¹) * H * (r.Co.toMat * r.Cu.toMat⁻¹) with hMdef
  have hM : M.det ≠ 0 := by
    rw [hMdef, det_mul, det_mul, det_mul, det_mul, hCu, hCo, ho', hu']
    simpa using hH
  have hd : (U.toMatrix * castMat M)ᵀ.det ≠ 0 := by
    rw [det_transpose, det_mul]
    refine mul_ne_zero h.det ?_
    have := RingHom.map_det (Int.castRingHom ℚ) M
    have e' : (castMat M : Matrix (Fin 3) (Fin 3) ℚ).det = (M.det : ℚ) := by
      simpa [castMat, RingHom.mapMatrix_apply] using this.symm
    rw [e']
    exact_mod_cast hM
  unfold gridOf
  dsimp only at h1 ⊢
  rw [h1, realMat_mul, realMat_castMat, realMat_inv hd, realMat_transpose, realMat_mul, realMat_castMat]
  rfl

theorem Dense.smul {K : Matrix (Fin 3) (Fin 3) ℝ} (h : Dense K) (c : ℝ) : Dense (c • K) := by
  intro v hv
  have h1 := h v hv
  have e1 : ∑ i, ((c • K) *ᵥ fun j => (v j : ℝ)) i ^ 2 = c ^ 2 * ∑ i, (K *ᵥ fun j => (v j : ℝ)) i ^ 2 := by
    rw [smul_mulVec, Finset.mul_sum]
    refine Finset.sum_congr rfl fun i _ => ?_
    simp only [Pi.smul_apply, smul_eq_mul]
    ring
  rw [e1, det_smul, Fintype.card_fin, mul_pow]
  have : 0 ≤ (c ^ 2) ^ 3 := by positivity
  nlinarith

theorem isHNF_det_pos {H : IntMat} (h : IsHNF H) : 0 < H.det := by
  rw [det_fin_three, h.upper01, h.upper02, h.upper12]
  have := mul_pos (mul_pos h.pos0 h.pos1) h.pos2
  linarith

theorem Recognised.niggliCell (h : Recognised equal U eps rho r) :
    NiggliCellOf (realCell U) r.Cu.toMat (gram U r.Cu 0 0 : ℚ) (gram U r.Cu 1 1 : ℚ) (gram U r.Cu 2 2 : ℚ)
      (gram U r.Cu 1 2 : ℚ) (gram U r.Cu 0 2 : ℚ) (gram U r.Cu 0 1 : ℚ) := by
  have hd : r.Cu.toMat.det = 1 := (reduceCell_same_lattice equal U (some eps) _ h.parts.1).1
  exact ⟨by rw [hd]; exact isUnit_one, realCell_metric U r.Cu, h.red⟩

theorem Recognised.isClass (h : Recognised equal U eps rho r) :
    IsClass r.id (gram U r.Cu 0 0 : ℚ) (gram U r.Cu 1 1 : ℚ) (gram U r.Cu 2 2 : ℚ)
      (gram U r.Cu 1 2 : ℚ) (gram U r.Cu 0 2 : ℚ) (gram U r.Cu 0 1 : ℚ) := by
  have he : (0 : ℚ) ≤ eps := le_trans (by norm_num) h.eps_ge
  have sep := h.apart.separated (r := 1 / 100000) (by norm_num) (h.eps_ge.trans h.eps_le)
  exact idCell_exact equal U eps r h.found rho he (h.eps_ge.trans h.eps_le) h.eps_le h.apart
    (sepTol_type sep.d_zero sep.e_zero sep.f_zero h.red.type)

/-- C94, for the supercells that the generators list: beyond any number there is a Hermite normal form with all
symmetries of the class whose grid, in any basis, is packed densely enough; so are the grids of its multiples. -/
theorem packed_supercell_exists (h : Recognised equal U eps rho r) (N : ℤ) :
    ∃ H : IntMat, N ≤ H.det ∧ 8 ∣ H.det ∧ H ∈ SymmetricHNFs (ClassSym r.id r.Co.toMat) H.det ∧
      ∀ (m : ℤ), m ≠ 0 → ∀ W : IntMat, IsUnit W.det →
        PackedAtLeast (31 / 100) (realMat (gridOf U r (m • H) * castMat W)) := by
  obtain ⟨M, h1, h2, h3, h4, h5⟩ := dense_sublattice h.niggliCell h.isClass N
  obtain ⟨p1, p2⟩ := h.parts
  have hCu : r.Cu.toMat.det = 1 := (reduceCell_same_lattice equal U (some eps) _ p1).1
  have hCo : r.Co.toMat.det = 1 := (reduceCell_same_lattice equal _ (some eps) _ p2).1
  have ho : r.Co.toMat * r.Co.toMat⁻¹ = 1 := mul_nonsing_inv _ (by rw [hCo]; exact isUnit_one)
  have hu : r.Cu.toMat * r.Cu.toMat⁻¹ = 1 := mul_nonsing_inv _ (by rw [hCu]; exact isUnit_one)
  have ho' := mul_eq_one_comm.1 ho
  have hu' := mul_eq_one_comm.1 hu
  obtain ⟨Q, hQ⟩ : ∃ Q, Q = r.Co.toMat * r.Cu.toMat⁻¹ := ⟨_, rfl⟩
  obtain ⟨P, hP⟩ : ∃ P, P = r.Cu.toMat * r.Co.toMat⁻¹ := ⟨_, rfl⟩
  have hQP : Q * P = 1 := by
    rw [hQ, hP]
    calc (r.Co.toMat * r.Cu.toMat⁻¹) * (r.Cu.toMat * r.Co.toMat⁻¹)
        = r.Co.toMat * (r.Cu.toMat⁻¹ * r.Cu.toMat) * r.Co.toMat⁻¹ := by simp only [Matrix.mul_assoc]
      _ = 1 := by rw [hu', Matrix.mul_one, ho]
  have hPQ := mul_eq_one_comm.1 hQP
  have hQd : Q.det = 1 := by
    have e := congrArg Matrix.det hu
    rw [det_mul, hCu, one_mul, Matrix.det_one] at e
    rw [hQ, det_mul, hCo, e, one_mul]
  have hPC : P * r.Co.toMat = r.Cu.toMat := by
    rw [hP, Matrix.mul_assoc, ho', Matrix.mul_one]
  have hQM : (Q * M).det ≠ 0 := by rwa [det_mul, hQd, one_mul]
  obtain ⟨H, hH1, V, hV, hH2⟩ := hnf_exists hQM
  have hHd : H.det = |M.det| := by
    have e : H.det = M.det * V.det := by rw [hH2, det_mul, det_mul, hQd, one_mul]
    have hpos : 0 < H.det := isHNF_det_pos hH1
    rw [← abs_of_pos hpos, e, abs_mul, Int.isUnit_iff_abs_eq.1 hV, mul_one]
  refine ⟨H, by rw [hHd]; exact h1, by rw [hHd]; exact (dvd_abs _ _).2 h3, ⟨hH1, rfl, fun X hX => ?_⟩,
    fun m hm W hW => ?_⟩
  · refine keeps_span ⟨V, hV, hH2⟩ ?_
    have hX' : P * X * Q ∈ PointSym (realCell U) := by
      rw [pointSym_eq_classSym h.niggliCell h.isClass]
      exact classSym_change hPQ hQP hPC hX
    obtain ⟨Y, hY⟩ := h4 _ hX'
    refine ⟨Y, ?_⟩
    calc X * (Q * M) = (Q * P) * X * (Q * M) := by rw [hQP, Matrix.one_mul]
      _ = Q * ((P * X * Q) * M) := by simp only [Matrix.mul_assoc]
      _ = Q * M * Y := by rw [hY, Matrix.mul_assoc]
  · refine Dense.packed ?_
    have hmH : (m • H).det ≠ 0 := by
      rw [det_smul]
      exact mul_ne_zero (pow_ne_zero _ hm) (isHNF_det_pos hH1).ne'
    rw [gridOf_real h _ hmH]
    refine Dense.basis ?_ hW
    rw [← hQ, ← hP]
    have e : P * (m • H) * Q = m • (M * (V * Q)) := by
      rw [Matrix.mul_smul, Matrix.smul_mul, hH2]
      congr 1
      calc P * (Q * M * V) * Q = (P * Q) * M * (V * Q) := by simp only [Matrix.mul_assoc]
        _ = M * (V * Q) := by rw [hPQ, Matrix.one_mul]
    have hmr : ((m : ℤ) : ℝ) ≠ 0 := by exact_mod_cast hm
    have hVQ : IsUnit (V * Q).det := by rw [det_mul, hQd, mul_one]; exact hV
    have e2 : (V * Q) * (V * Q)⁻¹ = 1 := mul_nonsing_inv _ hVQ
    have e3 : ((realCell U * toReal (P * (m • H) * Q))ᵀ)⁻¹ =
        (m : ℝ)⁻¹ • (((realCell U * toReal M)ᵀ)⁻¹ * toReal ((V * Q)⁻¹)ᵀ) := by
      refine inv_eq_right_inv ?_
      have e4 : toReal (m • (M * (V * Q))) = (m : ℝ) • (toReal M * toReal (V * Q)) := by
        rw [← toReal_mul]
        ext i j
        change (((m • (M * (V * Q))) i j : ℤ) : ℝ) = (m : ℝ) * (((M * (V * Q)) i j : ℤ) : ℝ)
        rw [Matrix.smul_apply, smul_eq_mul, Int.cast_mul]
      have hUM : IsUnit ((realCell U * toReal M)ᵀ).det := by
        rw [det_transpose, det_mul, toReal_det]
        exact isUnit_iff_ne_zero.2 (mul_ne_zero h.real_det (by exact_mod_cast h2))
      have e5 : (toReal (V * Q))ᵀ * toReal ((V * Q)⁻¹)ᵀ = 1 := by
        rw [← toReal_transpose, ← toReal_mul, ← transpose_mul, mul_eq_one_comm.1 e2, transpose_one, toReal_one]
      rw [e, e4, Matrix.mul_smul (realCell U), transpose_smul, Matrix.smul_mul, Matrix.mul_smul, smul_smul, mul_inv_cancel₀ hmr,
        one_smul, ← Matrix.mul_assoc (realCell U), transpose_mul (realCell U * toReal M)]
      calc (toReal (V * Q))ᵀ * (realCell U * toReal M)ᵀ * (((realCell U * toReal M)ᵀ)⁻¹ * toReal ((V * Q)⁻¹)ᵀ)
          = (toReal (V * Q))ᵀ * ((realCell U * toReal M)ᵀ * ((realCell U * toReal M)ᵀ)⁻¹) * toReal ((V * Q)⁻¹)ᵀ := by
            simp only [Matrix.mul_assoc]
        _ = 1 := by rw [mul_nonsing_inv _ hUM, Matrix.mul_one, e5]
    rw [e3]
    refine Dense.smul (Dense.basis h5 ?_) _
    rw [det_transpose]
    have := congrArg Matrix.det e2
    rw [det_mul, Matrix.det_one] at this
    exact IsUnit.of_mul_eq_one _ (by rw [mul_comm]; exact this)

/-! ## The search -/

/-- The vectors of a grid are not 0. -/
theorem gridLength_pos {K : Matrix (Fin 3) (Fin 3) ℝ} (hK : K.det ≠ 0) {v : Fin 3 → ℤ} (hv : v ≠ 0) :
    0 < gridLength K v := by
  refine Real.sqrt_pos.2 (lt_of_le_of_ne (Finset.sum_nonneg fun i _ => sq_nonneg _) fun h => hv ?_)
  have h1 : K *ᵥ (fun j => (v j : ℝ)) = 0 := by
    funext i
    have := (Finset.sum_eq_zero_iff_of_nonneg (fun i _ => sq_nonneg _)).1 h.symm i (Finset.mem_univ i)
    simpa using this
  have h2 : (fun j => (v j : ℝ)) = 0 := by
    have := congrArg (K⁻¹ *ᵥ ·) h1
    simpa [nonsing_inv_mul _ (isUnit_iff_ne_zero.2 hK)] using this
  funext j
  have := congrFun h2 j
  simpa using this

/-- The part of the library that looks at one grid does its work: a grid that is packed densely enough, with some
margin for rounding, is taken for one, and the shortest vector has a length above 0. -/
structure GeomRight {Off : Type} (lib : Lib (Matrix (Fin 3) (Fin 3) ℚ) Off) : Prop where
  packed : ∀ H : IntMat, H.det ≠ 0 → PackedAtLeast (31 / 100) (realMat (lib.geom H).grid) → (lib.geom H).packed = true
  rmin : ∀ H : IntMat, H.det ≠ 0 → 0 < (lib.geom H).rmin

variable {Off : Type} {lib : Lib (Matrix (Fin 3) (Fin 3) ℚ) Off}

/-- The library that `compare_grids` and the cubic generators make of a lattice reduction and a square root. -/
structure BuiltFrom (mink : Matrix (Fin 3) (Fin 3) ℚ → Matrix (Fin 3) (Fin 3) ℚ) (sqrt : ℚ → ℚ) (U : RMat ℚ)
    (r : IdCell) (lib : Lib (Matrix (Fin 3) (Fin 3) ℚ) Off) : Prop where
  geom : ∀ H : IntMat, lib.geom H = compareGeom sqrt (mink (gridOf U r H))
  grid : ∀ H : IntMat, lib.gridOf H = gridOf U r H

theorem gridOf_det (h : Recognised equal U eps rho r) {H : IntMat} (hH : H.det ≠ 0) : (gridOf U r H).det ≠ 0 := by
  obtain ⟨p1, p2⟩ := h.parts
  have hCu : r.Cu.toMat.det = 1 := (reduceCell_same_lattice equal U (some eps) _ p1).1
  have hCo : r.Co.toMat.det = 1 := (reduceCell_same_lattice equal _ (some eps) _ p2).1
  have ho : r.Co.toMat * r.Co.toMat⁻¹ = 1 := mul_nonsing_inv _ (by rw [hCo]; exact isUnit_one)
  have hu : r.Cu.toMat * r.Cu.toMat⁻¹ = 1 := mul_nonsing_inv _ (by rw [hCu]; exact isUnit_one)
  have ho' : r.Co.toMat⁻¹.det = 1 := by
    have := congrArg Matrix.det ho
    rwa [det_mul, hCo, one_mul, Matrix.det_one] at this
  have hu' : r.Cu.toMat⁻¹.det = 1 := by
    have := congrArg Matrix.det hu
    rwa [det_mul, hCu, one_mul, Matrix.det_one] at this
  have h1 := gridOf_real h H hH 1
  rw [castMat_one, Matrix.mul_one, toReal_one, Matrix.mul_one] at h1
  have h2 : (realMat (gridOf U r H)).det ≠ 0 := by
    rw [h1, det_nonsing_inv, det_transpose, det_mul, toReal_det, det_mul, det_mul, det_mul, det_mul, hCu, hCo, ho', hu',
      Ring.inverse_eq_inv']
    refine inv_ne_zero (mul_ne_zero h.real_det ?_)
    simpa using hH
  rw [realMat_det] at h2
  exact_mod_cast h2

/-- Such a library does its work if the reduction and the square root do theirs (C96). -/
theorem BuiltFrom.right {mink : Matrix (Fin 3) (Fin 3) ℚ → Matrix (Fin 3) (Fin 3) ℚ} (hm : Minkowski mink)
    {sqrt : ℚ → ℚ} (hs : SqrtOk sqrt) (h : Recognised equal U eps rho r) (hl : BuiltFrom mink sqrt U r lib) :
    Reduces U r lib ∧ GeomRight lib := by
  refine ⟨⟨fun H hH => ?_, hl.grid⟩, ⟨fun H hH hp => ?_, fun H hH => ?_⟩⟩
  · rw [hl.geom]
    exact (hm _ (gridOf_det h hH)).1
  · rw [hl.geom] at hp ⊢
    obtain ⟨-, h2, h3⟩ := hm _ (gridOf_det h hH)
    exact (compareGeom_packed hs h2 h3).1 hp
  · rw [hl.geom]
    obtain ⟨-, h2, h3⟩ := hm _ (gridOf_det h hH)
    obtain ⟨l, ⟨v, hv, hl⟩, -, hr⟩ := rmin_near hs h3
    have hl0 : 0 < l := by
      rw [hl]
      refine gridLength_pos ?_ hv
      rw [realMat_det]
      exact_mod_cast h2.ne'
    have := (abs_le.1 hr).1
    have : (0 : ℝ) < ((compareGeom sqrt (mink (gridOf U r H))).rmin : ℝ) := by linarith
    exact_mod_cast this

/-- C95, for the lattices that are neither cubic nor triclinic: the search ends, whatever number of points is
requested.  (The integers are exact: with 32 bits there may be no such grid within the range.) -/
theorem findGrid_stops_general (h : Recognised equal U eps rho r) (hk : r.id ∉ [1, 3, 5, 31, 44])
    (hl : Reduces U r lib) (hg : GeomRight lib) (hirr : ∀ g o m, lib.irr g o = some m → 1 ≤ m) (offsets : List Off)
    (hoff : offsets ≠ []) (htot : ∀ g, ∀ o ∈ offsets, lib.irr g o ≠ none)
    (min_kpts : Bool) (root : ℤ) (s_range : ℕ) (hs : r.s_range = some s_range) (kpd : ℤ) (h1 : 1 ≤ kpd) :
    ∃ N e, ∀ fuel, N ≤ fuel → findGrid lib id eps offsets min_kpts root fuel r.id s_range kpd = .ok e := by
  obtain ⟨k1, k2⟩ := h.id_range
  have hk' : r.id ∉ [31, 44] := fun hm => hk (by simp at hm ⊢; omega)
  obtain ⟨s, hs1, hs2⟩ := sRange_le r.id k1 k2 hk
  rw [h.s_range, hs1] at hs
  cases hs
  have hCo := reduced_canonC r.id k1 k2 hk'
  obtain ⟨gen, hgen, good⟩ := generatorOf_good id r.id k1 k2 hk hCo
  have heps : eps < 1 := h.eps_lt.trans (by norm_num)
  obtain ⟨N, found, hN⟩ := generalLoop_stops
    (tryN := fun n => tryHNFs lib.equal eps lib.geom lib.irr lib.irrDefault offsets (gen n)) hs2 (kpd := kpd)
    (fun n hn => by
      obtain ⟨t, ht, -⟩ := tryHNFs_ok lib hirr eps offsets (gen n) (good.one n (by omega) (.inl rfl))
      exact ⟨_, ht⟩)
    (fun N => by
      obtain ⟨H, a1, ⟨t, a2⟩, a3, a4⟩ := packed_supercell_exists h (max N 1)
      have hpos : 0 < H.det := isHNF_det_pos a3.1
      rw [h.classSym hk'] at a3
      obtain ⟨W, hW, hgr⟩ := hl.geom H hpos.ne'
      have hp := hg.packed H hpos.ne' (by
        have := a4 1 (by norm_num) W hW
        rw [one_smul] at this
        rw [hgr]
        exact this)
      have hr := hg.rmin H hpos.ne'
      obtain ⟨b, hb⟩ := tryHNFs_some lib hirr eps offsets hoff htot (gen H.det) H
        (((good.lists _ (.inl rfl)).2 H).2 a3) hp (by nlinarith)
      refine ⟨H.det, by omega, b, _, ?_, hb⟩
      have := good.two t (by omega) (.inl rfl)
      rwa [← a2] at this) 5 kpd [] le_rfl (by simp) (by simp)
  have key : ∀ fuel, N ≤ fuel → findGrid lib id eps offsets min_kpts root fuel r.id s_range kpd =
      choose min_kpts kpd found := by
    intro fuel hf
    simp only [List.mem_cons, List.not_mem_nil, or_false, not_or] at hk
    unfold findGrid
    rw [if_neg (by omega), if_neg (by omega), hgen]
    dsimp only
    rw [hN fuel hf]
  rcases findGrid_general lib hirr id eps offsets min_kpts root N r.id k1 k2 hk _ hCo s_range hs2 kpd h1
    (.inl rfl) with hr | ⟨e, he, -⟩
  · rw [key N le_rfl] at hr
    exfalso
    unfold choose at hr
    split_ifs at hr <;> (try split at hr) <;> cases hr
  · refine ⟨N, e, fun fuel hf => ?_⟩
    rw [key fuel hf, ← key N le_rfl, he]

/-- C95, for the triclinic lattices. -/
theorem findGrid_stops_tric (h : Recognised equal U eps rho r) (hk : r.id ∈ [31, 44])
    (hl : Reduces U r lib) (hg : GeomRight lib) (hirr : ∀ g o m, lib.irr g o = some m → 1 ≤ m) (w : ℤ → ℤ)
    (offsets : List Off) (hoff : offsets ≠ []) (htot : ∀ g, ∀ o ∈ offsets, lib.irr g o ≠ none)
    (min_kpts : Bool) (root : ℤ) (s_range : ℕ) (kpd : ℤ) (h1 : 1 ≤ kpd) :
    ∃ N e, ∀ fuel, N ≤ fuel → findGrid lib w eps offsets min_kpts root fuel r.id s_range kpd = .ok e := by
  have heps : eps < 1 := h.eps_lt.trans (by norm_num)
  have hCo : r.Co.toMat.det = 1 := (reduceCell_same_lattice equal _ (some eps) _ h.parts.2).1
  obtain ⟨n0, mult, g1, g2, -, g3, -, g4, -⟩ := get_kpd_tric_partial kpd h1
  obtain ⟨H, a1, -, a3, a4⟩ := packed_supercell_exists h n0
  have hpos : 0 < H.det := isHNF_det_pos a3.1
  have hmH : (mult • H).det ≠ 0 := by
    rw [det_smul]
    exact mul_ne_zero (pow_ne_zero _ (by omega)) hpos.ne'
  obtain ⟨W, hW, hgr⟩ := hl.geom _ hmH
  have hp := hg.packed _ hmH (by rw [hgr]; exact a4 mult (by omega) W hW)
  have hr := hg.rmin _ hmH
  have hH : H ∈ tric_31_44 H.det := ((tric_31_44_correct r.id hk H.det _ (.inl hCo)).2.1 H).2 ⟨a3.1, rfl⟩
  obtain ⟨b, hb⟩ := tryHNFs_some lib hirr eps offsets hoff htot ((tric_31_44 H.det).map (mult • ·)) (mult • H)
    (List.mem_map.2 ⟨H, hH, rfl⟩) hp (by nlinarith)
  obtain ⟨N, e, hN⟩ := tricLoop_stops (tryN := fun n => tryHNFs lib.equal eps lib.geom lib.irr lib.irrDefault offsets
      ((tric_31_44 n).map (mult • ·))) mult (H.det - n0).toNat n0
    (fun n hn => by
      obtain ⟨t, ht, -⟩ := tryHNFs_ok lib hirr eps offsets ((tric_31_44 n).map (mult • ·))
        (by simpa using tric_ne_nil (by omega))
      exact ⟨_, ht⟩)
    ⟨H.det, a1, by omega, b, _, by rw [List.length_map]; exact List.length_pos_of_mem hH, hb⟩
  refine ⟨N, e, fun fuel hf => ?_⟩
  unfold findGrid
  simp only [List.mem_cons, List.not_mem_nil, or_false] at hk
  rw [if_neg (by omega), if_pos (by omega), g1]
  exact hN fuel hf

/-! ## The program -/

variable {rd : Reader} {junk : ℤ} {rt2 : ℚ} {poscar kpgen : List (List Char)} {d : PoscarData}
  {settings : List (Key × List Char)} {env : Env (Matrix (Fin 3) (Fin 3) ℚ)} {k : Key} {v : List Char}

/-- C95, from the input files, for the lattices that are neither cubic nor triclinic: the program comes to an end with
a grid, as in C88. -/
theorem program_stops_general (hp : PoscarSays rd poscar d) (hdet : (d.scale • d.columns).det ≠ 0) (hrt : rt2 ≠ 0)
    (hf : FileSays kpgen settings) (hu : Usable rd rt2 d.counts.sum |(d.scale • d.columns).det| settings)
    (hk : lastOf densitySetting settings = some (k, v)) (he : Tolerance rd settings eps)
    (h : Recognised env.equal (cellOf d.columns) eps rho r) (hl : EnvRight env (cellOf d.columns) eps r)
    (hg : ∀ base types flag, GeomRight (env.lib (cellOf d.columns) base types flag eps r))
    (htot : ∀ base types flag g o, (env.lib (cellOf d.columns) base types flag eps r).irr g o ≠ none)
    (hw : env.wrap = id)
    (hasks : ∀ n, Asks rd piLit rt2 d.counts.sum |(d.scale • d.columns).det| k v n → 1 ≤ n)
    (hid : r.id ∉ [1, 3, 5, 31, 44]) :
    ∃ N e n, (∀ fuel, N ≤ fuel → program env rd junk rt2 fuel poscar kpgen = .ok e) ∧
      Asks rd piLit rt2 d.counts.sum |(d.scale • d.columns).det| k v n ∧ n ≤ e.nt_kpts ∧
      SymmetricGrid (realMat (d.scale • d.columns)) (realMat (d.scale⁻¹ • e.sel.grid)) e.nt_kpts ∧
      OffsetRight rd env settings (cellOf d.columns) r.id eps e.sel.offset := by
  have hwf : ∀ m, IntsFit env.wrap m := fun m => .inl hw
  have hrun : ∃ N e, ∀ fuel, N ≤ fuel → program env rd junk rt2 fuel poscar kpgen = .ok e := by
    obtain ⟨n, base, types, s, p1, p2, p3, p4⟩ := program_reads (junk := junk) env hp hdet hrt hf hu hk he
    obtain ⟨offsets, s_range, q1, q2, -, q4⟩ := find_grid_searches env h hl.pgSize n base types s.offset
      s.find_offset (offset_ne_none p3 p4 hu.readable) s.symm_flag s.min_kpts
    obtain ⟨N, e, hN⟩ := findGrid_stops_general h hid (hl.reduces base types s.symm_flag) (hg base types s.symm_flag)
      (hl.irr base types s.symm_flag) offsets q2 (fun g o _ => htot base types s.symm_flag g o) s.min_kpts
      (env.root n) s_range q1 n (hasks n p2)
    refine ⟨N, e, fun fuel hf => ?_⟩
    rw [p1 fuel, q4 fuel, hw, hN fuel hf]
  obtain ⟨N, e, hN⟩ := hrun
  rcases program_general (junk := junk) (fuel := N) hp hdet hrt hf hu hk he h hl
    (fun n hn => ⟨hasks n hn, hwf _⟩) hid with hr | ⟨e', n, h1, h2⟩
  · rw [hN N le_rfl] at hr
    cases hr
  · rw [hN N le_rfl] at h1
    cases h1
    exact ⟨N, e, n, hN, h2⟩

/-- C95, from the input files, for the triclinic lattices. -/
theorem program_stops_tric (hp : PoscarSays rd poscar d) (hdet : (d.scale • d.columns).det ≠ 0) (hrt : rt2 ≠ 0)
    (hf : FileSays kpgen settings) (hu : Usable rd rt2 d.counts.sum |(d.scale • d.columns).det| settings)
    (hk : lastOf densitySetting settings = some (k, v)) (he : Tolerance rd settings eps)
    (h : Recognised env.equal (cellOf d.columns) eps rho r) (hl : EnvRight env (cellOf d.columns) eps r)
    (hg : ∀ base types flag, GeomRight (env.lib (cellOf d.columns) base types flag eps r))
    (htot : ∀ base types flag g o, (env.lib (cellOf d.columns) base types flag eps r).irr g o ≠ none)
    (hasks : ∀ n, Asks rd piLit rt2 d.counts.sum |(d.scale • d.columns).det| k v n → 1 ≤ n)
    (hid : r.id ∈ [31, 44]) :
    ∃ N e n q m, (∀ fuel, N ≤ fuel → program env rd junk rt2 fuel poscar kpgen = .ok e) ∧
      Asks rd piLit rt2 d.counts.sum |(d.scale • d.columns).det| k v n ∧ 1 ≤ q ∧ 1 ≤ m ∧ n - m ^ 3 < q * m ^ 3 ∧
      SymmetricGrid (realMat (d.scale • d.columns)) (realMat (d.scale⁻¹ • e.sel.grid)) (q * m ^ 3) ∧
      OffsetRight rd env settings (cellOf d.columns) r.id eps e.sel.offset := by
  have hrun : ∃ N e, ∀ fuel, N ≤ fuel → program env rd junk rt2 fuel poscar kpgen = .ok e := by
    obtain ⟨n, base, types, s, p1, p2, p3, p4⟩ := program_reads (junk := junk) env hp hdet hrt hf hu hk he
    obtain ⟨offsets, s_range, q1, q2, -, q4⟩ := find_grid_searches env h hl.pgSize n base types s.offset
      s.find_offset (offset_ne_none p3 p4 hu.readable) s.symm_flag s.min_kpts
    obtain ⟨N, e, hN⟩ := findGrid_stops_tric h hid (hl.reduces base types s.symm_flag) (hg base types s.symm_flag)
      (hl.irr base types s.symm_flag) env.wrap offsets q2 (fun g o _ => htot base types s.symm_flag g o) s.min_kpts
      (env.root n) s_range n (hasks n p2)
    refine ⟨N, e, fun fuel hf => ?_⟩
    rw [p1 fuel, q4 fuel, hN fuel hf]
  obtain ⟨N, e, hN⟩ := hrun
  rcases program_tric (junk := junk) (fuel := N) hp hdet hrt hf hu hk he h hl hasks hid with
    hr | ⟨e', n, q, m, h1, h2⟩
  · rw [hN N le_rfl] at hr
    cases hr
  · rw [hN N le_rfl] at h1
    cases h1
    exact ⟨N, e, n, q, m, hN, h2⟩

/-! ## The hypotheses are met -/

/-- The library made of a lattice reduction and a square root, which counts one irreducible k-point, and the point
symmetries of the lattice; exact integers. -/
noncomputable def packEnv (mink : Matrix (Fin 3) (Fin 3) ℚ → Matrix (Fin 3) (Fin 3) ℚ) (sqrt : ℚ → ℚ) :
    Env (Matrix (Fin 3) (Fin 3) ℚ) where
  equal := cmpEqual
  norms _ := (1, 2, 3)
  pgSize U _ := (PointSym (realCell U)).ncard
  lib U _ _ _ _ r := ⟨sampleEqual, fun H => compareGeom sqrt (mink (gridOf U r H)), gridOf U r, fun _ _ => some 1,
    fun _ _ => some 1⟩
  root n := if n < 1000 then 9 - 9 * (if n < 729 then 1 else 0) else 10
  wrap := id

variable {mink : Matrix (Fin 3) (Fin 3) ℚ → Matrix (Fin 3) (Fin 3) ℚ} {sqrt : ℚ → ℚ}

theorem packEnv_right (hm : Minkowski mink) (hs : SqrtOk sqrt) (h : Recognised equal U eps rho r) :
    EnvRight (packEnv mink sqrt) U eps r ∧
      ∀ base types flag, GeomRight ((packEnv mink sqrt).lib U base types flag eps r) := by
  have hb : ∀ base types flag, BuiltFrom mink sqrt U r ((packEnv mink sqrt).lib U base types flag eps r) :=
    fun _ _ _ => ⟨fun _ => rfl, fun _ => rfl⟩
  refine ⟨⟨rfl, fun base types flag => (BuiltFrom.right hm hs h (hb base types flag)).1, ?_⟩,
    fun base types flag => (BuiltFrom.right hm hs h (hb base types flag)).2⟩
  intro _ _ _ _ _ m hirr
  simp only [packEnv, Option.some.injEq] at hirr
  omega

/-- C95 for the orthorhombic lattice of C88: the program ends with a grid of at least 801 points.  Reductions and square
roots as required exist (`minkowski_exists`, `sqrtOk_exists`). -/
example (hm : Minkowski mink) (hs : SqrtOk sqrt) (junk : ℤ) : ∃ N e,
    (∀ fuel, N ≤ fuel → program (packEnv mink sqrt) wordsReader junk (7 / 5) fuel
      (mainPoscar "1 0 0".toList "0 2 0".toList "3 1 5".toList) mainKpgen = .ok e) ∧ 801 ≤ e.nt_kpts := by
  obtain ⟨N, e, n, h1, h2, h3, -⟩ := program_stops_general (junk := junk) (rt2 := 7 / 5)
    (mainPoscar_says (l1 := "1 0 0".toList) (l2 := "0 2 0".toList) (l3 := "3 1 5".toList) (by decide) (by decide)
      (by decide)) (main_det (by decide +kernel)) (by norm_num) mainKpgen_says (main_usable _ _ _) rfl main_tolerance
    (env := packEnv mink sqrt) main_ortho (packEnv_right hm hs main_ortho).1
    (packEnv_right hm hs main_ortho).2 (by simp [packEnv]) rfl
    (fun n hn => by rw [main_asks hn]; norm_num) (by decide)
  rw [main_asks h2] at h3
  exact ⟨N, e, h1, h3⟩

/-- C95 for a triclinic lattice. -/
example (hm : Minkowski mink) (hs : SqrtOk sqrt) (junk : ℤ) : ∃ N e,
    ∀ fuel, N ≤ fuel → program (packEnv mink sqrt) wordsReader junk (7 / 5) fuel
      (mainPoscar "3 0 0".toList "1 4 0".toList "1 1 5".toList) mainKpgen = .ok e := by
  obtain ⟨N, e, -, -, -, h1, -⟩ := program_stops_tric (junk := junk) (rt2 := 7 / 5)
    (mainPoscar_says (l1 := "3 0 0".toList) (l2 := "1 4 0".toList) (l3 := "1 1 5".toList) (by decide) (by decide)
      (by decide)) (main_det (by decide +kernel)) (by norm_num) mainKpgen_says (main_usable _ _ _) rfl main_tolerance
    (env := packEnv mink sqrt) main_tric (packEnv_right hm hs main_tric).1
    (packEnv_right hm hs main_tric).2 (by simp [packEnv])
    (fun n hn => by rw [main_asks hn]; norm_num) (by decide)
  exact ⟨N, e, h1⟩

/-- C94 for this triclinic lattice. -/
example (N : ℤ) : ∃ (n : ℤ) (K : Matrix (Fin 3) (Fin 3) ℝ), N ≤ n ∧ 8 ∣ n ∧
    SymmetricGrid (realCell (cellOf (mainData (3, 0, 0) (1, 4, 0) (1, 1, 5)).columns)) K n ∧
      PackedAtLeast (31 / 100) K :=
  packed_symmetric_grid_exists main_tric.niggliCell main_tric.isClass N

end Fortran

end AutoGR
