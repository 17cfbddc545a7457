import Verif.Spec.Fractions
import Verif.Props.AccurateId
import Verif.Props.FortranMain
import Verif.Props.ListRead

/-!
# C112: crystals whose coordinates are rounded

The lattice vectors of `POSCAR` are decimals; the crystal that is meant may have irrational ones (`U0`).  The vectors
that the program reads then have fewer symmetries than the crystal, or none.  The k-points are written in fractions of
the reciprocal vectors, so they can be taken in the crystal that is meant: there they are a grid with all its
symmetries.
-/

namespace AutoGR.Fortran

open Spec Matrix

/-- `id_cell` has found `r` for the cell `U`, and this is right for the crystal with the cell `U0`: the integer matrix
that reduces `U` takes `U0` to a Niggli cell, and the class is the class of this cell.  The tolerance is one for which
the canonical bases are reduced as the generators expect (C67). -/
structure RecognisedAs (equal : ℚ → ℚ → ℚ → Bool) (U : RMat ℚ) (U0 : Matrix (Fin 3) (Fin 3) ℝ) (eps : ℚ)
    (r : IdCell) : Prop where
  found : idCell equal U (some eps) = .ok r
  det : U.toMatrix.det ≠ 0
  ideal_det : U0.det ≠ 0
  right : ∃ A B C D E F, NiggliCellOf U0 r.Cu.toMat A B C D E F ∧ IsClass r.id A B C D E F
  eps_ge : 1 / 100000 ≤ eps
  eps_lt : eps < 1 / 10
  six : r.id = 6 → eps < 27 / 2500000 ∨ 61 / 5000000 ≤ eps

variable {equal : ℚ → ℚ → ℚ → Bool} {U : RMat ℚ} {U0 : Matrix (Fin 3) (Fin 3) ℝ} {eps rho : ℚ} {r : IdCell}

/-- A cell without rounding errors is recognised as itself. -/
theorem Recognised.as (h : Recognised equal U eps rho r) : RecognisedAs equal U (realCell U) eps r where
  found := h.found
  det := h.det
  ideal_det := h.real_det
  right := by
    have he : (0 : ℚ) ≤ eps := le_trans (by norm_num) h.eps_ge
    have sep := h.apart.separated (r := 1 / 100000) (by norm_num) (h.eps_ge.trans h.eps_le)
    have hc := idCell_exact equal U eps r h.found rho he (h.eps_ge.trans h.eps_le) h.eps_le h.apart
      (sepTol_type sep.d_zero sep.e_zero sep.f_zero h.red.type)
    have hd : r.Cu.toMat.det = 1 := (reduceCell_same_lattice equal U (some eps) _ h.parts.1).1
    exact ⟨_, _, _, _, _, _, ⟨by rw [hd]; exact isUnit_one, realCell_metric U r.Cu, h.red⟩, hc⟩
  eps_ge := h.eps_ge
  eps_lt := h.eps_lt
  six := h.six

/-- A cell within `δ` of `U0` is recognised as `U0`, if the tolerance is above the errors and below the gap of the
exact metric (C113). -/
theorem recognisedAs_close {M η δ c L ℓ g a : ℝ} {A B C D E F : ℝ} (hK : Accurate ℚ (fun q => (q : ℝ)) M η)
    (hU : CloseTo (fun q : ℚ => (q : ℝ)) U.toMatrix U0 δ L) (ht : Tolerated M η δ c L ℓ |U0.det| (eps : ℝ) g a)
    (h : idCell equal U (some eps) = .ok r) (hT : ∀ i j, |(r.Cu.toMat i j : ℝ)| ≤ c)
    (hm : (U0 * toReal r.Cu.toMat)ᵀ * (U0 * toReal r.Cu.toMat) = metric A B C D E F)
    (ha : a ≤ A) (hA : A ≤ ℓ ^ 2) (hB : B ≤ ℓ ^ 2) (hC : C ≤ ℓ ^ 2) (hg : CellGap g A B C D E F)
    (hd : U.toMatrix.det ≠ 0) (hd0 : U0.det ≠ 0) (h1 : 1 / 100000 ≤ eps) (h2 : eps < 1 / 10)
    (h6 : r.id = 6 → eps < 27 / 2500000 ∨ 61 / 5000000 ≤ eps) : RecognisedAs equal U U0 eps r := by
  obtain ⟨a1, a2, -⟩ := idCell_ideal hK hU ht h hT hm ha hA hB hC hg
  exact ⟨h, hd, hd0, ⟨_, _, _, _, _, _, a1, a2⟩, h1, h2, h6⟩

theorem RecognisedAs.parts (h : RecognisedAs equal U U0 eps r) :
    reduceCell equal U (some eps) = .ok r.Cu ∧
      reduceCell equal ((fBasis r.id : Option (RMat ℚ)).getD U) (some eps) = .ok r.Co := by
  have := h.found
  unfold idCell at this
  dsimp only at this
  split at this
  · cases this
  · rename_i Cu hCu
    split at this
    · cases this
    · rename_i Co hCo
      cases this
      exact ⟨hCu, hCo⟩

theorem RecognisedAs.det_O (h : RecognisedAs equal U U0 eps r) :
    ((fBasis r.id : Option (RMat ℚ)).getD U).toMatrix.det ≠ 0 := by
  cases hb : (fBasis r.id : Option (RMat ℚ)) with
  | none => exact h.det
  | some O =>
    rw [Option.getD_some, ← rdet_eq]
    exact fBasis_det hb

theorem RecognisedAs.pointSym (h : RecognisedAs equal U U0 eps r) : PointSym U0 = ClassSym r.id r.Cu.toMat := by
  obtain ⟨A, B, C, D, E, F, h1, h2⟩ := h.right
  exact pointSym_eq_classSym h1 h2

theorem RecognisedAs.id_range (h : RecognisedAs equal U U0 eps r) : 1 ≤ r.id ∧ r.id ≤ 44 := by
  obtain ⟨A, B, C, D, E, F, -, h2⟩ := h.right
  have key : ∀ k ∈ classTable, 1 ≤ k ∧ k ≤ 44 := by decide
  exact key _ h2.1

theorem RecognisedAs.s_range (h : RecognisedAs equal U U0 eps r) : r.s_range = sRange r.id := by
  have := h.found
  unfold idCell at this
  dsimp only at this
  split at this
  · cases this
  · split at this
    · cases this
    · cases this
      rfl

theorem RecognisedAs.classSym (h : RecognisedAs equal U U0 eps r) (hk : r.id ∉ [31, 44]) :
    ClassSym r.id r.Co.toMat = ClassSym r.id (canonC r.id).toMat := by
  obtain ⟨k1, k2⟩ := h.id_range
  have hp := reduced_canonC r.id k1 k2 hk
  cases hb : (fBasis r.id : Option (RMat ℚ)) with
  | none =>
    exfalso
    simp only [List.mem_cons, List.not_mem_nil, or_false, not_or] at hk
    have key : ∀ k, 1 ≤ k → k ≤ 44 → k ≠ 31 → k ≠ 44 → ((fBasis k : Option (RMat ℚ))).isSome := by
      intro k a b c d
      interval_cases k <;> first | rfl | omega
    have := key r.id k1 k2 hk.1 hk.2
    rw [hb] at this
    cases this
  | some O =>
    have h2 := h.parts.2
    rw [hb, Option.getD_some] at h2
    exact canonical_range_partial equal r.id O hb eps h.eps_ge h.eps_lt h.six r.Co h2 _ hp

/-- The supercell of the user's cell is made of vectors of the user's lattice, and the same combinations of the
vectors of the crystal that is meant are kept by all its point symmetries. -/
theorem transform_supercell_ideal (h : RecognisedAs equal U U0 eps r) (H : IntMat)
    (hk : ∀ X ∈ ClassSym r.id r.Co.toMat, Keeps X H) :
    let O := ((fBasis r.id : Option (RMat ℚ)).getD U).toMatrix
    ∃ M : IntMat,
      transform_supercell H (O * castMat r.Co.toMat) (U.toMatrix * castMat r.Cu.toMat) r.Co.toMat r.Cu.toMat O =
        U.toMatrix * castMat M ∧
      M.det = H.det ∧ ∀ X ∈ PointSym U0, Keeps X M := by
  intro O
  obtain ⟨p1, p2⟩ := h.parts
  have hCu : r.Cu.toMat.det = 1 := (reduceCell_same_lattice equal U (some eps) _ p1).1
  have hCo : r.Co.toMat.det = 1 := (reduceCell_same_lattice equal _ (some eps) _ p2).1
  have ho : r.Co.toMat * r.Co.toMat⁻¹ = 1 := mul_nonsing_inv _ (by rw [hCo]; exact isUnit_one)
  have hu : r.Cu.toMat * r.Cu.toMat⁻¹ = 1 := mul_nonsing_inv _ (by rw [hCu]; exact isUnit_one)
  have ho' := mul_eq_one_comm.1 ho
  have hu' := mul_eq_one_comm.1 hu
  have hQP : (r.Co.toMat * r.Cu.toMat⁻¹) * (r.Cu.toMat * r.Co.toMat⁻¹) = 1 := by
    calc (r.Co.toMat * r.Cu.toMat⁻¹) * (r.Cu.toMat * r.Co.toMat⁻¹)
        = r.Co.toMat * (r.Cu.toMat⁻¹ * r.Cu.toMat) * r.Co.toMat⁻¹ := by simp only [Matrix.mul_assoc]
      _ = 1 := by rw [hu', Matrix.mul_one, ho]
  have hPQ := mul_eq_one_comm.1 hQP
  have hC : (r.Co.toMat * r.Cu.toMat⁻¹) * r.Cu.toMat = r.Co.toMat := by
    rw [Matrix.mul_assoc, hu', Matrix.mul_one]
  refine ⟨_, transform_eq (isUnit_iff_ne_zero.2 h.det_O) ho hu H, ?_, fun X hX => ?_⟩
  · have := congrArg Matrix.det hPQ
    rw [det_mul, Matrix.det_one] at this
    rw [det_mul, det_mul, mul_right_comm, this, one_mul]
  · rw [h.pointSym] at hX
    exact keeps_change hQP hPQ (hk _ (classSym_change hQP hPQ hC hX))

/-- C112, one grid: the grid made from `H`, taken in the crystal that is meant, contains its reciprocal lattice with
`|det H|` points in a cell and has all its symmetries, if `H` is kept by the symmetries of the class. -/
theorem gridOf_ideal (h : RecognisedAs equal U U0 eps r) (H : IntMat) (hH : H.det ≠ 0)
    (hk : ∀ X ∈ ClassSym r.id r.Co.toMat, Keeps X H) (W : IntMat) (hW : IsUnit W.det) :
    SymmetricGrid U0 (sameFractions (realCell U) U0 (realMat (gridOf U r H * castMat W))) |H.det| := by
  obtain ⟨M, h1, h2, h3⟩ := transform_supercell_ideal h H hk
  have hM : M.det ≠ 0 := by rwa [h2]
  have hU : (realCell U).det ≠ 0 := by
    have e := RingHom.map_det (Rat.castHom ℝ) U.toMatrix
    have e' : (realMat U.toMatrix).det = ((U.toMatrix.det : ℚ) : ℝ) := by
      simpa [realMat, RingHom.mapMatrix_apply] using e.symm
    rw [show realCell U = realMat U.toMatrix from rfl, e']
    exact_mod_cast h.det
  have hg : sameFractions (realCell U) U0 (realMat (gridOf U r H * castMat W)) =
      ((U0 * toReal M)ᵀ)⁻¹ * toReal W := by
    have hd : (U.toMatrix * castMat M)ᵀ.det ≠ 0 := by
      rw [det_transpose, det_mul]
      refine mul_ne_zero h.det ?_
      have := RingHom.map_det (Int.castRingHom ℚ) M
      have e' : (castMat M : Matrix (Fin 3) (Fin 3) ℚ).det = (M.det : ℚ) := by
        simpa [castMat, RingHom.mapMatrix_apply] using this.symm
      rw [e']
      exact_mod_cast hM
    have hUt : IsUnit (realCell U)ᵀ.det := by rw [det_transpose]; exact isUnit_iff_ne_zero.2 hU
    unfold sameFractions gridOf
    dsimp only at h1 ⊢
    rw [h1, realMat_mul, realMat_castMat, realMat_inv hd, realMat_transpose, realMat_mul, realMat_castMat,
      show realMat U.toMatrix = realCell U from rfl, transpose_mul, transpose_mul, Matrix.mul_inv_rev,
      Matrix.mul_inv_rev]
    calc (U0ᵀ)⁻¹ * ((realCell U)ᵀ * (((realCell U)ᵀ)⁻¹ * ((toReal M)ᵀ)⁻¹ * toReal W))
        = (U0ᵀ)⁻¹ * (((realCell U)ᵀ * ((realCell U)ᵀ)⁻¹) * ((toReal M)ᵀ)⁻¹ * toReal W) := by
          simp only [Matrix.mul_assoc]
      _ = (U0ᵀ)⁻¹ * ((toReal M)ᵀ)⁻¹ * toReal W := by
          rw [mul_nonsing_inv _ hUt, Matrix.one_mul, Matrix.mul_assoc]
  rw [hg, ← h2]
  exact symmetricGrid h.ideal_det hM hW h3

variable {Off : Type} {lib : Lib (Matrix (Fin 3) (Fin 3) ℚ) Off}

theorem find_grid_ideal_general (h : RecognisedAs equal U U0 eps r) (hk : r.id ∉ [1, 3, 5, 31, 44])
    (hl : Reduces U r lib) (hirr : ∀ g o m, lib.irr g o = some m → 1 ≤ m) (w : ℤ → ℤ) (offsets : List Off)
    (min_kpts : Bool) (root : ℤ) (fuel s_range : ℕ) (hs : r.s_range = some s_range) (kpd : ℤ) (h1 : 1 ≤ kpd)
    (hfit : IntsFit w (kpd + fuel)) (e : Entry (Matrix (Fin 3) (Fin 3) ℚ) Off)
    (he : findGrid lib w eps offsets min_kpts root fuel r.id s_range kpd = .ok e) :
    SymmetricGrid U0 (sameFractions (realCell U) U0 (realMat e.sel.grid)) e.nt_kpts ∧ kpd ≤ e.nt_kpts ∧
      e.sel.offset ∈ offsets := by
  obtain ⟨k1, k2⟩ := h.id_range
  have hk' : r.id ∉ [31, 44] := fun hm => hk (by simp at hm ⊢; omega)
  obtain ⟨s, hs1, hs2⟩ := sRange_le r.id k1 k2 hk
  rw [h.s_range, hs1] at hs
  cases hs
  rcases findGrid_general lib hirr w eps offsets min_kpts root fuel r.id k1 k2 hk _ (reduced_canonC r.id k1 k2 hk')
    s_range hs2 kpd h1 hfit with hr | ⟨e', he', a1, a2, a3, -, a5, -⟩
  · rw [hr] at he
    cases he
  · rw [he'] at he
    cases he
    have hd := a2.2.1
    obtain ⟨W, hW, hg⟩ := hl.geom e.sel.HNF (by rw [hd]; omega)
    have := gridOf_ideal h e.sel.HNF (by rw [hd]; omega)
      (by rw [h.classSym hk']; exact a2.2.2) W hW
    rw [← hg, ← a3, hd, abs_of_pos (by omega)] at this
    exact ⟨this, a1, a5⟩

theorem find_grid_ideal_cubic (h : RecognisedAs equal U U0 eps r) (hk : r.id ∈ [1, 3, 5])
    (hl : Reduces U r lib) (hirr : ∀ g o m, lib.irr g o = some m → 1 ≤ m) (w : ℤ → ℤ) (hw : w = id ∨ Int32 w)
    (offsets : List Off) (min_kpts : Bool) (root : ℤ) (fuel s_range : ℕ) (kpd : ℤ) (h1 : 1 ≤ kpd)
    (hroot : root ^ 3 ≤ kpd ∧ kpd < (root + 2) ^ 3) (hr : 0 ≤ root) (tol : ℚ)
    (e : Entry (Matrix (Fin 3) (Fin 3) ℚ) Off)
    (he : findGrid lib w tol offsets min_kpts root fuel r.id s_range kpd = .ok e) :
    SymmetricGrid U0 (sameFractions (realCell U) U0 (realMat e.sel.grid)) e.nt_kpts ∧ kpd ≤ e.nt_kpts ∧
      e.sel.offset ∈ offsets := by
  obtain ⟨k1, k2⟩ := h.id_range
  have hk' : r.id ∉ [31, 44] := fun hm => by simp at hm hk; omega
  obtain ⟨-, a1, -, a2, a3, a5, -⟩ := findGrid_cubic_sound lib hirr w hw tol offsets min_kpts fuel r.id hk _
    (reduced_canonC r.id k1 k2 hk') s_range kpd root h1 hroot hr e he
  have hd := a2.2.1
  have hpos : 0 < e.nt_kpts := lt_of_lt_of_le (by omega) a1
  have := gridOf_ideal h e.sel.HNF (by rw [hd]; omega) (by rw [h.classSym hk']; exact a2.2.2) 1 (by simp)
  rw [castMat_one, Matrix.mul_one, ← hl.grid, ← a3, hd, abs_of_pos hpos] at this
  exact ⟨this, a1, a5⟩

theorem find_grid_ideal_tric (h : RecognisedAs equal U U0 eps r) (hk : r.id ∈ [31, 44])
    (hl : Reduces U r lib) (hirr : ∀ g o m, lib.irr g o = some m → 1 ≤ m) (w : ℤ → ℤ) (offsets : List Off)
    (min_kpts : Bool) (root : ℤ) (fuel s_range : ℕ) (kpd : ℤ) (h1 : 1 ≤ kpd)
    (e : Entry (Matrix (Fin 3) (Fin 3) ℚ) Off)
    (he : findGrid lib w eps offsets min_kpts root fuel r.id s_range kpd = .ok e) :
    ∃ n m : ℤ, SymmetricGrid U0 (sameFractions (realCell U) U0 (realMat e.sel.grid)) (n * m ^ 3) ∧ 1 ≤ n ∧ 1 ≤ m ∧
      kpd - m ^ 3 < n * m ^ 3 ∧ e.sel.offset ∈ offsets := by
  have hCo : r.Co.toMat.det = 1 := (reduceCell_same_lattice equal _ (some eps) _ h.parts.2).1
  rcases findGrid_tric lib hirr w eps offsets min_kpts root fuel r.id hk r.Co.toMat (.inl hCo) s_range kpd h1 with
    hr | ⟨e', he', ⟨n, m, H, b1, b2, -, -, -, b3, b4⟩, a2, a3, -, a5, -⟩
  · rw [hr] at he
    cases he
  · rw [he'] at he
    cases he
    have hpos : 0 < n * m ^ 3 := mul_pos (by omega) (pow_pos (by omega) 3)
    obtain ⟨W, hW, hg⟩ := hl.geom e.sel.HNF (by rw [b3]; omega)
    have := gridOf_ideal h e.sel.HNF (by rw [b3]; omega) a2 W hW
    rw [← hg, ← a3, b3, abs_of_pos hpos] at this
    exact ⟨n, m, this, b1, b2, b4, a5⟩

/-! ## The program -/

variable {G : Type} {rd : Reader} {junk : ℤ} {rt2 : ℚ} {poscar kpgen : List (List Char)} {d : PoscarData}
  {settings : List (Key × List Char)}

/-- `find_grid` searches, if the library counts the point symmetries of the crystal that is meant. -/
theorem find_grid_searches_ideal (env : Env G) (h : RecognisedAs env.equal U U0 eps r)
    (hpg : env.pgSize U eps = (PointSym U0).ncard) (kpd : ℤ)
    (base : List (Fin 3 → ℚ)) (types : List ℕ) (offset : Option Offset) (find_offset : Bool)
    (ho : find_offset = false → offset ≠ none) (flag : ℕ) (min_kpts : Bool) :
    ∃ offsets s_range, r.s_range = some s_range ∧ offsets ≠ [] ∧
      offsetsTried env U r.id eps offset find_offset = some offsets ∧
      ∀ fuel, find_grid env fuel U kpd base types offset find_offset flag min_kpts eps =
        match findGrid (env.lib U base types flag eps r) env.wrap eps offsets min_kpts (env.root kpd) fuel r.id
          s_range kpd with
        | .error e => .error (.grid e)
        | .ok e => .ok e := by
  have hcs : check_sym (env.pgSize U eps) r.id = some true := by
    obtain ⟨A, B, C, D, E, F, a1, a2⟩ := h.right
    rw [hpg]
    exact check_sym_right a1 a2
  have hs : ∃ s, r.s_range = some s := by
    rw [h.s_range]
    obtain ⟨k1, k2⟩ := h.id_range
    generalize r.id = k at k1 k2
    interval_cases k <;> exact ⟨_, rfl⟩
  obtain ⟨s_range, hs⟩ := hs
  have hoff : ∃ offsets, offsetsTried env U r.id eps offset find_offset = some offsets ∧ offsets ≠ [] := by
    cases find_offset with
    | false =>
      cases offset with
      | none => exact absurd rfl (ho rfl)
      | some o => exact ⟨[o], rfl, by simp⟩
    | true =>
      have h0 := offsets_zero_first r.id (env.equal (env.norms U).1 (env.norms U).2.1 eps)
        (env.equal (env.norms U).1 (env.norms U).2.2 eps) (env.equal (env.norms U).2.1 (env.norms U).2.2 eps)
        (env.norms U).1 (env.norms U).2.1 (env.norms U).2.2
      refine ⟨_, rfl, ?_⟩
      intro hnil
      rw [hnil] at h0
      cases h0
  obtain ⟨offsets, o1, o2⟩ := hoff
  refine ⟨offsets, s_range, hs, o2, o1, fun fuel => ?_⟩
  unfold find_grid
  rw [h.found]
  dsimp only
  rw [hcs]
  dsimp only
  rw [o1, hs]
  rfl

/-- The library computes what it is documented to compute, for vectors `U` that are those of the crystal `U0` up to
rounding: the number of point symmetries of the crystal, a reduced basis of each grid, and at least one irreducible
k-point. -/
structure EnvIdeal (env : Env (Matrix (Fin 3) (Fin 3) ℚ)) (U : RMat ℚ) (U0 : Matrix (Fin 3) (Fin 3) ℝ) (eps : ℚ)
    (r : IdCell) : Prop where
  pgSize : env.pgSize U eps = (PointSym U0).ncard
  reduces : ∀ base types flag, Reduces U r (env.lib U base types flag eps r)
  irr : ∀ base types flag g o m, (env.lib U base types flag eps r).irr g o = some m → 1 ≤ m

theorem sameFractions_scale {U U0 K : Matrix (Fin 3) (Fin 3) ℝ} (hU : U0.det ≠ 0) {s : ℝ} (hs : s ≠ 0) :
    sameFractions (s • U) (s • U0) (s⁻¹ • K) = s⁻¹ • sameFractions U U0 K := by
  unfold sameFractions
  have hUt : IsUnit U0ᵀ.det := by rw [det_transpose]; exact isUnit_iff_ne_zero.2 hU
  let _ := invertibleOfNonzero hs
  rw [transpose_smul, transpose_smul, Matrix.inv_smul _ s hUt, invOf_eq_inv, smul_mul_assoc, smul_mul_assoc,
    mul_smul_comm, smul_smul, inv_mul_cancel₀ hs, one_smul, mul_smul_comm, mul_smul_comm]

theorem ideal_scaled (hdet : (d.scale • d.columns).det ≠ 0) (hU : U0.det ≠ 0) {K : Matrix (Fin 3) (Fin 3) ℚ} {n : ℤ}
    (h : SymmetricGrid U0 (sameFractions (realCell (cellOf d.columns)) U0 (realMat K)) n) :
    SymmetricGrid ((d.scale : ℝ) • U0) (sameFractions (realMat (d.scale • d.columns)) ((d.scale : ℝ) • U0)
      (realMat (d.scale⁻¹ • K))) n := by
  have hs : (d.scale : ℝ) ≠ 0 := by
    intro h0
    have h0 : d.scale = 0 := by exact_mod_cast h0
    rw [h0, zero_smul, det_zero] at hdet
    exact hdet rfl
  have hc : realCell (cellOf d.columns) = realMat d.columns := by
    unfold realCell
    rw [cellOf_toMatrix]
    rfl
  rw [hc] at h
  rw [realMat_smul, realMat_smul, Rat.cast_inv, sameFractions_scale hU hs]
  exact symmetricGrid_scale h hs

variable {env : Env (Matrix (Fin 3) (Fin 3) ℚ)} {fuel : ℕ} {k : Key} {v : List Char}

/-- C112, for the lattices that are neither cubic nor triclinic.  The vectors of `POSCAR` are recognised as those of
the crystal `U0` (in units of the scale).  The program finds a grid, or is still searching; the grid, in fractions of
the reciprocal vectors, is commensurate with the crystal, has all its symmetries and at least the number of points
asked for. -/
theorem program_ideal_general (hp : PoscarSays rd poscar d) (hdet : (d.scale • d.columns).det ≠ 0) (hrt : rt2 ≠ 0)
    (hf : FileSays kpgen settings) (hu : Usable rd rt2 d.counts.sum |(d.scale • d.columns).det| settings)
    (hk : lastOf densitySetting settings = some (k, v)) (he : Tolerance rd settings eps)
    (h : RecognisedAs env.equal (cellOf d.columns) U0 eps r) (hl : EnvIdeal env (cellOf d.columns) U0 eps r)
    (hasks : ∀ n, Asks rd piLit rt2 d.counts.sum |(d.scale • d.columns).det| k v n →
      1 ≤ n ∧ IntsFit env.wrap (n + fuel))
    (hid : r.id ∉ [1, 3, 5, 31, 44]) :
    program env rd junk rt2 fuel poscar kpgen = .error (.grid .running) ∨
    ∃ e n, program env rd junk rt2 fuel poscar kpgen = .ok e ∧
      Asks rd piLit rt2 d.counts.sum |(d.scale • d.columns).det| k v n ∧ n ≤ e.nt_kpts ∧
      SymmetricGrid ((d.scale : ℝ) • U0) (sameFractions (realMat (d.scale • d.columns)) ((d.scale : ℝ) • U0)
        (realMat (d.scale⁻¹ • e.sel.grid))) e.nt_kpts ∧
      OffsetRight rd env settings (cellOf d.columns) r.id eps e.sel.offset := by
  obtain ⟨n, base, types, s, p1, p2, p3, p4⟩ := program_reads (junk := junk) env hp hdet hrt hf hu hk he
  obtain ⟨offsets, s_range, q1, q2, q3, q4⟩ := find_grid_searches_ideal env h hl.pgSize n base types s.offset
    s.find_offset (offset_ne_none p3 p4 hu.readable) s.symm_flag s.min_kpts
  obtain ⟨h1, hfit⟩ := hasks n p2
  obtain ⟨k1, k2⟩ := h.id_range
  obtain ⟨s', hs1, hs2⟩ := sRange_le r.id k1 k2 hid
  have hs3 : s_range = s' := by
    rw [h.s_range, hs1] at q1
    exact (Option.some.inj q1).symm
  rw [p1 fuel, q4 fuel]
  rcases findGrid_general (env.lib (cellOf d.columns) base types s.symm_flag eps r)
    (hl.irr base types s.symm_flag) env.wrap eps offsets s.min_kpts (env.root n) fuel r.id k1 k2 hid _
    (reduced_canonC r.id k1 k2 fun hm => hid (by simp at hm ⊢; omega)) s_range (by omega) n h1 hfit with
    hr | ⟨e, he', -⟩
  · left
    rw [hr]
  · right
    obtain ⟨b1, b2, b3⟩ := find_grid_ideal_general h hid (hl.reduces base types s.symm_flag)
      (hl.irr base types s.symm_flag) env.wrap offsets s.min_kpts (env.root n) fuel s_range q1 n h1 hfit e he'
    exact ⟨e, n, by rw [he'], p2, b2, ideal_scaled hdet h.ideal_det b1, offsetRight_of p3 p4 hu.readable q3 b3⟩

/-- C112, for the cubic lattices: the grid returned. -/
theorem program_ideal_cubic (hp : PoscarSays rd poscar d) (hdet : (d.scale • d.columns).det ≠ 0) (hrt : rt2 ≠ 0)
    (hf : FileSays kpgen settings) (hu : Usable rd rt2 d.counts.sum |(d.scale • d.columns).det| settings)
    (hk : lastOf densitySetting settings = some (k, v)) (he : Tolerance rd settings eps)
    (h : RecognisedAs env.equal (cellOf d.columns) U0 eps r) (hl : EnvIdeal env (cellOf d.columns) U0 eps r)
    (hw : env.wrap = id ∨ Int32 env.wrap)
    (hasks : ∀ n, Asks rd piLit rt2 d.counts.sum |(d.scale • d.columns).det| k v n →
      1 ≤ n ∧ 0 ≤ env.root n ∧ env.root n ^ 3 ≤ n ∧ n < (env.root n + 2) ^ 3)
    (hid : r.id ∈ [1, 3, 5]) {e : Entry (Matrix (Fin 3) (Fin 3) ℚ) Offset}
    (hok : program env rd junk rt2 fuel poscar kpgen = .ok e) :
    ∃ n, Asks rd piLit rt2 d.counts.sum |(d.scale • d.columns).det| k v n ∧ n ≤ e.nt_kpts ∧
      SymmetricGrid ((d.scale : ℝ) • U0) (sameFractions (realMat (d.scale • d.columns)) ((d.scale : ℝ) • U0)
        (realMat (d.scale⁻¹ • e.sel.grid))) e.nt_kpts ∧
      OffsetRight rd env settings (cellOf d.columns) r.id eps e.sel.offset := by
  obtain ⟨n, base, types, s, p1, p2, p3, p4⟩ := program_reads (junk := junk) env hp hdet hrt hf hu hk he
  obtain ⟨offsets, s_range, q1, q2, q3, q4⟩ := find_grid_searches_ideal env h hl.pgSize n base types s.offset
    s.find_offset (offset_ne_none p3 p4 hu.readable) s.symm_flag s.min_kpts
  obtain ⟨h1, r0, r1, r2⟩ := hasks n p2
  rw [p1 fuel, q4 fuel] at hok
  split at hok
  · cases hok
  · rename_i e' he'
    cases hok
    obtain ⟨b1, b2, a5⟩ := find_grid_ideal_cubic h hid (hl.reduces base types s.symm_flag)
      (hl.irr base types s.symm_flag) env.wrap hw offsets s.min_kpts (env.root n) fuel s_range n h1 ⟨r1, r2⟩ r0 eps e he'
    exact ⟨n, p2, b2, ideal_scaled hdet h.ideal_det b1, offsetRight_of p3 p4 hu.readable q3 a5⟩

/-- C112, for the cubic lattices: a grid is returned, if the number of points asked for is not above `cubicLimit`
(C111). -/
theorem program_ideal_cubic_answers (hp : PoscarSays rd poscar d) (hdet : (d.scale • d.columns).det ≠ 0) (hrt : rt2 ≠ 0)
    (hf : FileSays kpgen settings) (hu : Usable rd rt2 d.counts.sum |(d.scale • d.columns).det| settings)
    (hk : lastOf densitySetting settings = some (k, v)) (he : Tolerance rd settings eps)
    (h : RecognisedAs env.equal (cellOf d.columns) U0 eps r) (hl : EnvIdeal env (cellOf d.columns) U0 eps r)
    (htot : ∀ base types flag g o, (env.lib (cellOf d.columns) base types flag eps r).irr g o ≠ none)
    (hw : env.wrap = id ∨ Int32 env.wrap)
    (hasks : ∀ n, Asks rd piLit rt2 d.counts.sum |(d.scale • d.columns).det| k v n →
      1 ≤ n ∧ n ≤ cubicLimit r.id ∧ 0 ≤ env.root n ∧ env.root n ^ 3 ≤ n ∧ n < (env.root n + 2) ^ 3)
    (hid : r.id ∈ [1, 3, 5]) :
    ∃ e, program env rd junk rt2 fuel poscar kpgen = .ok e := by
  obtain ⟨n, base, types, s, p1, p2, p3, p4⟩ := program_reads (junk := junk) env hp hdet hrt hf hu hk he
  obtain ⟨offsets, s_range, q1, q2, q3, q4⟩ := find_grid_searches_ideal env h hl.pgSize n base types s.offset
    s.find_offset (offset_ne_none p3 p4 hu.readable) s.symm_flag s.min_kpts
  obtain ⟨h1, hn, r0, r1, r2⟩ := hasks n p2
  obtain ⟨k1, k2⟩ := h.id_range
  have hk' : r.id ∉ [31, 44] := fun hm => by simp at hm hid; omega
  obtain ⟨o, ho⟩ := List.exists_mem_of_ne_nil _ q2
  obtain ⟨e, he', -⟩ := findGrid_cubic_answers (env.lib (cellOf d.columns) base types s.symm_flag eps r)
    (hl.irr base types s.symm_flag) env.wrap hw eps offsets s.min_kpts fuel r.id hid _
    (reduced_canonC r.id k1 k2 hk') (fun _ _ _ _ => ⟨o, ho, htot base types s.symm_flag _ o⟩) s_range n (env.root n) h1 hn
    ⟨r1, r2⟩ r0
  exact ⟨e, by rw [p1 fuel, q4 fuel, he']⟩

/-- C112, for the triclinic lattices.  The number of points, `q m³`, may be smaller than asked for (C75). -/
theorem program_ideal_tric (hp : PoscarSays rd poscar d) (hdet : (d.scale • d.columns).det ≠ 0) (hrt : rt2 ≠ 0)
    (hf : FileSays kpgen settings) (hu : Usable rd rt2 d.counts.sum |(d.scale • d.columns).det| settings)
    (hk : lastOf densitySetting settings = some (k, v)) (he : Tolerance rd settings eps)
    (h : RecognisedAs env.equal (cellOf d.columns) U0 eps r) (hl : EnvIdeal env (cellOf d.columns) U0 eps r)
    (hasks : ∀ n, Asks rd piLit rt2 d.counts.sum |(d.scale • d.columns).det| k v n → 1 ≤ n)
    (hid : r.id ∈ [31, 44]) :
    program env rd junk rt2 fuel poscar kpgen = .error (.grid .running) ∨
    ∃ e n q m, program env rd junk rt2 fuel poscar kpgen = .ok e ∧
      Asks rd piLit rt2 d.counts.sum |(d.scale • d.columns).det| k v n ∧ 1 ≤ q ∧ 1 ≤ m ∧ n - m ^ 3 < q * m ^ 3 ∧
      SymmetricGrid ((d.scale : ℝ) • U0) (sameFractions (realMat (d.scale • d.columns)) ((d.scale : ℝ) • U0)
        (realMat (d.scale⁻¹ • e.sel.grid))) (q * m ^ 3) ∧
      OffsetRight rd env settings (cellOf d.columns) r.id eps e.sel.offset := by
  obtain ⟨n, base, types, s, p1, p2, p3, p4⟩ := program_reads (junk := junk) env hp hdet hrt hf hu hk he
  obtain ⟨offsets, s_range, q1, q2, q3, q4⟩ := find_grid_searches_ideal env h hl.pgSize n base types s.offset
    s.find_offset (offset_ne_none p3 p4 hu.readable) s.symm_flag s.min_kpts
  have h1 := hasks n p2
  rw [p1 fuel, q4 fuel]
  have hCo : r.Co.toMat.det = 1 := (reduceCell_same_lattice env.equal _ (some eps) _ h.parts.2).1
  rcases findGrid_tric (env.lib (cellOf d.columns) base types s.symm_flag eps r) (hl.irr base types s.symm_flag)
    env.wrap eps offsets s.min_kpts (env.root n) fuel r.id hid r.Co.toMat (.inl hCo) s_range n h1 with
    hr | ⟨e, he', -⟩
  · left
    rw [hr]
  · right
    obtain ⟨q, m, b1, b2, b3, b4, b5⟩ := find_grid_ideal_tric h hid (hl.reduces base types s.symm_flag)
      (hl.irr base types s.symm_flag) env.wrap offsets s.min_kpts (env.root n) fuel s_range n h1 e he'
    exact ⟨e, n, q, m, by rw [he'], p2, b2, b3, b4, ideal_scaled hdet h.ideal_det b1,
      offsetRight_of p3 p4 hu.readable q3 b5⟩

/-! ## The hypotheses are met: a hexagonal crystal in a text file -/

/-- A file `POSCAR`: scale 3.2, a hexagonal cell with seven decimals, one atom. -/
def hexPoscar : List (List Char) :=
  ["Ti".toList, "3.2".toList, "1.0 0.0 0.0".toList, "-0.5 0.8660254 0.0".toList, "0.0 0.0 1.6".toList, "1".toList,
    "Direct".toList, "0 0 0".toList]

/-- What it says. -/
def hexData : PoscarData := ⟨3.2, (1, 0, 0), (-0.5, 0.8660254, 0), (0, 0, 1.6), [1], .direct, [(0, 0, 0)]⟩

theorem numbers3_of {a b c : List Char} {x : ℚ × ℚ × ℚ} (ha : a ≠ [] ∧ ' ' ∉ a) (hb : b ≠ [] ∧ ' ' ∉ b)
    (hc : c ≠ [] ∧ ' ' ∉ c) (h1 : parseReal a = some x.1) (h2 : parseReal b = some x.2.1)
    (h3 : parseReal c = some x.2.2) : Numbers3 (a ++ ' ' :: (b ++ ' ' :: c)) x :=
  ⟨a, b, c, [], by
    have w3 := Words.cons (word := c) (rest := []) 1 hc (.inl rfl) (.none 0)
    have w2 := Words.cons (word := b) 1 hb (.inr ⟨_, by rfl⟩) w3
    have w1 := Words.cons (word := a) 0 ha (.inr ⟨_, by rfl⟩) w2
    simpa using w1, parseReal_sound h1, parseReal_sound h2, parseReal_sound h3⟩

theorem hexPoscar_text : PoscarText hexPoscar hexData := by
  refine ⟨"Ti".toList, "3.2".toList, "1.0 0.0 0.0".toList, "-0.5 0.8660254 0.0".toList, "0.0 0.0 1.6".toList, [],
    "1".toList, "Direct".toList, ["0 0 0".toList], [], ["1".toList], rfl,
    ⟨"3.2".toList, [], words_single (by decide), parseReal_sound (by decide +kernel)⟩,
    numbers3_of (a := "1.0".toList) (b := "0.0".toList) (c := "0.0".toList) (by decide) (by decide) (by decide)
      (by decide +kernel) (by decide +kernel) (by decide +kernel),
    numbers3_of (a := "-0.5".toList) (b := "0.8660254".toList) (c := "0.0".toList) (by decide) (by decide) (by decide)
      (by decide +kernel) (by decide +kernel) (by decide +kernel),
    numbers3_of (a := "0.0".toList) (b := "0.0".toList) (c := "1.6".toList) (by decide) (by decide) (by decide)
      (by decide +kernel) (by decide +kernel) (by decide +kernel),
    .inl rfl, by simp [hexData], ⟨words_single (by decide), by decide⟩,
    .cons ⟨parseInt_sound (by decide +kernel), by norm_num⟩ .nil,
    ⟨0, 'D', "irect".toList, rfl, by decide,
      show Mode.direct = .cartesian ↔ 'D' = 'c' ∨ 'D' = 'C' ∨ 'D' = 'k' ∨ 'D' = 'K' by decide⟩, by decide,
    .cons (numbers3_of (a := "0".toList) (b := "0".toList) (c := "0".toList) (by decide) (by decide) (by decide)
      (by decide +kernel) (by decide +kernel) (by decide +kernel)) .nil, rfl⟩

variable {fl : ℚ → ℚ}

/-- The vectors that are read are those of the hexagonal crystal up to `5e-8`. -/
theorem hexData_close (hfl : Binary64 fl) :
    CloseTo (fun q : ℚ => (q : ℝ)) (cellOf (hexData.rounded fl).columns).toMatrix hexIdeal (5 / 10 ^ 8) 3 := by
  have key (q : ℚ) (x : ℝ) (hq : |q| ≤ 2) (hx : |(q : ℝ) - x| ≤ 4 / 10 ^ 8) : |((fl q : ℚ) : ℝ) - x| ≤ 5 / 10 ^ 8 := by
    have h1 : |fl q - q| ≤ 1 / 10 ^ 8 := (hfl.close q).trans (by linarith)
    have h1 : |((fl q : ℚ) : ℝ) - q| ≤ 1 / 10 ^ 8 := by
      have := (Rat.cast_le (K := ℝ)).2 h1
      push_cast at this
      exact this
    have h2 := abs_sub_le ((fl q : ℚ) : ℝ) q x
    linarith
  have h3 := sqrt3_close
  have h2 : √3 ≤ 2 := Real.sqrt_le_iff.2 ⟨by norm_num, by norm_num⟩
  have h0 : 0 ≤ √3 := Real.sqrt_nonneg 3
  rw [cellOf_toMatrix]
  constructor
  · intro i j
    fin_cases i <;> fin_cases j
    · exact key 1 1 (by norm_num) (by norm_num)
    · exact key (-0.5) (-1 / 2) (by norm_num [abs_of_neg]) (by norm_num)
    · exact key 0 0 (by norm_num) (by norm_num)
    · exact key 0 0 (by norm_num) (by norm_num)
    · exact key 0.8660254 (√3 / 2) (by norm_num [abs_of_pos]) (by convert h3 using 1; norm_num)
    · exact key 0 0 (by norm_num) (by norm_num)
    · exact key 0 0 (by norm_num) (by norm_num)
    · exact key 0 0 (by norm_num) (by norm_num)
    · exact key 1.6 (8 / 5) (by norm_num [abs_of_pos]) (by norm_num)
  · intro i j
    fin_cases i <;> fin_cases j <;> norm_num [hexIdeal, abs_of_pos, abs_of_neg, abs_of_nonneg h0]
    linarith

theorem hexIdeal_det : hexIdeal.det = 4 / 5 * √3 := by
  rw [det_fin_three]
  simp [hexIdeal]
  ring

/-- They are recognised, with the default tolerance, as those of the crystal: class 12. -/
theorem hexData_recognised (hfl : Binary64 fl) : RecognisedAs cmpEqual (cellOf (hexData.rounded fl).columns) hexIdeal
    (8589935 / 2 ^ 33) ⟨IMat.one, canonC 12, 12, some 25⟩ := by
  have hK : Accurate ℚ (fun q : ℚ => (q : ℝ)) 10000 (1 / 10 ^ 15) := accurate_rat (by norm_num)
  have hc := hexData_close hfl
  have ht : Tolerated 10000 (1 / 10 ^ 15) (5 / 10 ^ 8) 2 3 (8 / 5) |hexIdeal.det| ((8589935 / 2 ^ 33 : ℚ) : ℝ) (6 / 25) 1 :=
    hexTyped_tolerated (by norm_num) (by norm_num) (by norm_num [abs_le])
  have hdet : |((rdet (cellOf (hexData.rounded fl).columns) : ℚ) : ℝ) - hexIdeal.det| ≤
      detErr (1 / 10 ^ 15) (5 / 10 ^ 8) 3 := rep_det hK hc ht.range_square ht.range_det
  have s1 : (1.732 : ℝ) ≤ √3 := Real.le_sqrt_of_sq_le (by norm_num)
  have v1 : detErr (1 / 10 ^ 15) (5 / 10 ^ 8) 3 ≤ 1 / 10 ^ 4 := by
    norm_num [detErr, tripleErr, prodErr]
  rw [hexIdeal_det] at hdet
  have hpos : (1 : ℝ) < (rdet (cellOf (hexData.rounded fl).columns) : ℚ) := by
    have := (abs_le.1 hdet).1
    linarith
  have hpos : 1 < rdet (cellOf (hexData.rounded fl).columns) := by exact_mod_cast hpos
  have h0 : cmpEqual (rdet (cellOf (hexData.rounded fl).columns)) (Arith.ofInt 0) (Arith.ofRat (1 / 1000000)) = false := by
    show decide (|rdet (cellOf (hexData.rounded fl).columns) - ((0 : ℤ) : ℚ)| < 1 / 1000000) = false
    rw [decide_eq_false_iff_not, Int.cast_zero, sub_zero, abs_of_pos (by linarith)]
    linarith
  obtain ⟨-, k, hk, h2⟩ := idCell_finds hK hc ht h0 hexIdeal_metric hexIdeal_reduced le_rfl (by norm_num) hexIdeal_gap
  have h12 : IsClass 12 1 1 (64 / 25) 0 0 (-1 / 2) := by
    refine ⟨by decide, by norm_num [NiggliClass, TypeII], ?_⟩
    norm_num [classTable, NiggliClass, TypeI, TypeII, List.takeWhile]
  cases isClass_unique hk h12
  have hb : (fBasis 12 : Option (RMat ℚ)).isSome := rfl
  obtain ⟨O, hO⟩ := Option.isSome_iff_exists.1 hb
  have hCo : reduceCell cmpEqual ((fBasis 12 : Option (RMat ℚ)).getD ⟨0, 0, 0, 0, 0, 0, 0, 0, 0⟩)
      (some (8589935 / 2 ^ 33)) = .ok (canonC 12) := by decide +kernel
  rw [hO, Option.getD_some] at hCo
  refine ⟨h2 _ (by rw [hO, Option.getD_some]; exact hCo), by rw [← rdet_eq]; linarith, ?_, ?_, by norm_num, by norm_num, by simp⟩
  · rw [hexIdeal_det]
    positivity
  · refine ⟨_, _, _, _, _, _, ⟨?_, ?_, hexIdeal_reduced⟩, h12⟩
    · decide
    · have h1 : toReal IMat.one.toMat = 1 := by
        rw [show IMat.one.toMat = 1 by decide, toReal_one]
      rw [h1, Matrix.mul_one, hexIdeal_metric]

/-- The library of C88, which counts the point symmetries of the hexagonal crystal. -/
noncomputable def hexEnv : Env (Matrix (Fin 3) (Fin 3) ℚ) := { plainEnv with pgSize := fun _ _ => (PointSym hexIdeal).ncard }

theorem hexEnv_ideal (U : RMat ℚ) (eps : ℚ) (r : IdCell) : EnvIdeal hexEnv U hexIdeal eps r where
  pgSize := rfl
  reduces := (plainEnv_right U eps r).reduces
  irr := (plainEnv_right U eps r).irr

theorem main_801 : (listReader fl).int "801".toList = some 801 :=
  (listReader_decimals fl).int _ _ ⟨_, [], words_single (by decide), parseInt_sound (by decide +kernel), by norm_num,
    by norm_num⟩

/-- C112 for this crystal, with numbers rounded in any way to 53 bits: 801 points. -/
theorem hex_program (hfl : Binary64 fl) (junk : ℤ) (fuel : ℕ) (hfuel : fuel ≤ 1000) :
    program hexEnv (listReader fl) junk (7 / 5) fuel hexPoscar mainKpgen = .error (.grid .running) ∨
    ∃ e, program hexEnv (listReader fl) junk (7 / 5) fuel hexPoscar mainKpgen = .ok e ∧ 801 ≤ e.nt_kpts ∧
      SymmetricGrid (((fl 3.2 : ℚ) : ℝ) • hexIdeal) (sameFractions
        (realMat (fl 3.2 • (hexData.rounded fl).columns)) (((fl 3.2 : ℚ) : ℝ) • hexIdeal)
        (realMat ((fl 3.2)⁻¹ • e.sel.grid))) e.nt_kpts := by
  have hr := hexData_recognised hfl
  have hs : fl 3.2 ≠ 0 := by
    have := hfl.close 3.2
    intro h0
    rw [h0] at this
    norm_num [abs_of_pos] at this
  have hdet : ((hexData.rounded fl).scale • (hexData.rounded fl).columns).det ≠ 0 := by
    rw [det_smul]
    refine mul_ne_zero (pow_ne_zero _ hs) ?_
    have := hr.det
    rwa [cellOf_toMatrix] at this
  have hasks {natoms : ℤ} {vol : ℚ} {n : ℤ} (h : Asks (listReader fl) piLit (7 / 5) natoms vol .nkpts "801".toList n) :
      n = 801 := Option.some.inj (h.symm.trans main_801)
  have hu (natoms : ℤ) (vol : ℚ) : Usable (listReader fl) (7 / 5) natoms vol mainSettings := by
    refine ⟨?_, ?_⟩
    · intro p hp
      simp only [mainSettings, List.mem_cons, List.not_mem_nil, or_false] at hp
      rcases hp with rfl | rfl
      · exact ⟨801, main_801⟩
      · exact ⟨_, (listReader_decimals fl).real3 _ (0, 0, 1) (numbers3_of (a := "0".toList) (b := "0".toList)
          (c := "1".toList) (by decide) (by decide) (by decide) (by decide +kernel) (by decide +kernel) (by decide +kernel))⟩
    · intro p hp n hn
      simp only [mainSettings, List.mem_cons, List.not_mem_nil, or_false] at hp
      rcases hp with rfl | rfl
      · rw [hasks hn]
        norm_num
      · exact absurd hn (by simp [Asks])
  rcases program_ideal_general (junk := junk) (fuel := fuel) (rt2 := 7 / 5)
    (poscarText_says (listReader_decimals fl) hexPoscar_text) hdet (by norm_num) mainKpgen_says (hu _ _) rfl rfl
    (env := hexEnv) hr (hexEnv_ideal _ _ _)
    (fun n hn => by
      rw [hasks hn]
      exact ⟨by norm_num, .inr ⟨wrap32_int32, by omega⟩⟩) (by decide) with h | ⟨e, n, h1, h2, h3, h4, h5⟩
  · exact .inl h
  · rw [hasks h2] at h3
    exact .inr ⟨e, h1, h3, h4⟩

/-- The cubic lattice of C88, without rounding errors. -/
example (junk : ℤ) (fuel : ℕ) :
    ∃ e, program plainEnv wordsReader junk (7 / 5) fuel (mainPoscar "1 0 0".toList "1 1 0".toList "0 0 1".toList)
        mainKpgen = .ok e := by
  refine program_ideal_cubic_answers (junk := junk) (fuel := fuel) (rt2 := 7 / 5)
    (mainPoscar_says (l1 := "1 0 0".toList) (l2 := "1 1 0".toList)
      (l3 := "0 0 1".toList) (by decide) (by decide) (by decide))
    (main_det (by decide +kernel)) (by norm_num) mainKpgen_says (main_usable _ _ _) rfl main_tolerance
    (env := plainEnv) main_cubic.as ⟨rfl, (plainEnv_right _ _ _).reduces, (plainEnv_right _ _ _).irr⟩ (by simp [plainEnv])
    (.inr wrap32_int32)
    (fun n hn => by
      rw [main_asks hn]
      simp only [plainEnv]
      norm_num [cubicLimit]) (by decide)

/-- The triclinic lattice of C88. -/
example (junk : ℤ) (fuel : ℕ) :
    program plainEnv wordsReader junk (7 / 5) fuel (mainPoscar "3 0 0".toList "1 4 0".toList "1 1 5".toList)
      mainKpgen = .error (.grid .running) ∨
    ∃ e, program plainEnv wordsReader junk (7 / 5) fuel (mainPoscar "3 0 0".toList "1 4 0".toList "1 1 5".toList)
        mainKpgen = .ok e ∧ e.sel.offset = (0, 0, 1) := by
  rcases program_ideal_tric (junk := junk) (fuel := fuel) (rt2 := 7 / 5)
    (mainPoscar_says (l1 := "3 0 0".toList) (l2 := "1 4 0".toList)
      (l3 := "1 1 5".toList) (by decide) (by decide) (by decide))
    (main_det (by decide +kernel)) (by norm_num) mainKpgen_says (main_usable _ _ _) rfl main_tolerance
    (env := plainEnv) main_tric.as ⟨rfl, (plainEnv_right _ _ _).reduces, (plainEnv_right _ _ _).irr⟩
    (fun n hn => by rw [main_asks hn]; norm_num) (by decide) with h | ⟨e, n, q, m, h1, -, -, -, -, -, h5⟩
  · exact .inl h
  · exact .inr ⟨e, h1, h5.1 _ (by decide)⟩

end AutoGR.Fortran
