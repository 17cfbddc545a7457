import Verif.Props.WidestGrid
import Verif.Props.SameGrid
import Verif.Lemmas.TricSearch

/-!
# C109: which of the grids of a triclinic lattice is chosen

Every grid has the symmetries of a triclinic lattice, and the program does not look at all of them.  It takes the smallest
factor `m` for which the number `n` of points asked for is at most 100 in units of `m³`, and looks at the grids of the cell
that is `m` times as large in every direction, with `n / m³` points and then with more, until it finds one that is packed
densely enough.
-/

namespace AutoGR.Fortran

open Spec Matrix

theorem toReal_smul (m : ℤ) (N : IntMat) : toReal (m • N) = (m : ℝ) • toReal N := by
  ext i j
  change ((m * N i j : ℤ) : ℝ) = (m : ℝ) * (N i j : ℝ)
  push_cast
  rfl

/-- A grid of the cell that is `m` times as large. -/
theorem symmetricGrid_multiple {U K : Matrix (Fin 3) (Fin 3) ℝ} {m n : ℤ} (hU : U.det ≠ 0) (hm : 1 ≤ m)
    (h : SymmetricGrid ((m : ℝ) • U) K n) : SymmetricGrid U K (n * m ^ 3) := by
  have hm0 : (m : ℝ) ≠ 0 := by exact_mod_cast (by omega : m ≠ 0)
  constructor
  · obtain ⟨N, h1, h2⟩ := h.reciprocal
    refine ⟨m • N, ?_, ?_⟩
    · let _ := invertibleOfNonzero hm0
      rw [transpose_smul, Matrix.inv_smul _ (m : ℝ) (by rw [det_transpose]; exact isUnit_iff_ne_zero.2 hU), invOf_eq_inv] at h1
      rw [toReal_smul, Matrix.mul_smul, ← h1, smul_smul, mul_inv_cancel₀ hm0, one_smul]
    · rw [Matrix.det_smul, abs_mul, h2]
      have : |m ^ Fintype.card (Fin 3)| = m ^ 3 := by
        rw [Fintype.card_fin, abs_of_pos (by positivity)]
      rw [this, mul_comm]
  · rintro Q h1 ⟨X, hX⟩
    exact h.symmetric Q h1 ⟨X, by rw [Matrix.mul_smul, hX, Matrix.smul_mul]⟩

theorem gridPoints_smul_inj {s : ℝ} (hs : s ≠ 0) {A B : Matrix (Fin 3) (Fin 3) ℝ} :
    gridPoints (s • A) = gridPoints (s • B) ↔ gridPoints A = gridPoints B := by
  have key : ∀ (A : Matrix (Fin 3) (Fin 3) ℝ) x, x ∈ gridPoints A ↔ s • x ∈ gridPoints (s • A) := by
    intro A x
    refine exists_congr fun z => ?_
    rw [smul_mulVec, (smul_right_injective (Fin 3 → ℝ) hs).eq_iff]
  constructor
  · intro h
    ext x
    rw [key, h, ← key]
  · intro h
    ext x
    have e : x = s • (s⁻¹ • x) := by rw [smul_smul, mul_inv_cancel₀ hs, one_smul]
    rw [e, ← key, h, key]

theorem listsGrids_smul {U : Matrix (Fin 3) (Fin 3) ℝ} {n : ℤ} {Ks : List (Matrix (Fin 3) (Fin 3) ℝ)}
    (h : ListsGrids U n Ks) {s : ℝ} (hs : s ≠ 0) : ListsGrids (s • U) n (Ks.map (s⁻¹ • ·)) := by
  have hs' := inv_ne_zero hs
  constructor
  · intro K hK
    obtain ⟨K0, h0, rfl⟩ := List.mem_map.1 hK
    exact symmetricGrid_scale (h.sound K0 h0) hs
  · intro K hK
    have h1 := symmetricGrid_scale hK hs'
    rw [smul_smul, inv_mul_cancel₀ hs, one_smul, inv_inv] at h1
    have hlen : (Ks.map (s⁻¹ • ·)).length = Ks.length := List.length_map _
    have hget : ∀ i : Fin Ks.length, gridPoints ((Ks.map (s⁻¹ • ·)).get (i.cast hlen.symm)) = gridPoints K ↔
        gridPoints (Ks.get i) = gridPoints (s • K) := by
      intro i
      have e : (Ks.map (s⁻¹ • ·)).get (i.cast hlen.symm) = s⁻¹ • Ks.get i := by simp
      rw [e, ← gridPoints_smul_inj hs, smul_smul, mul_inv_cancel₀ hs, one_smul]
    obtain ⟨i, i1, i2⟩ := h.complete _ h1
    refine ⟨i.cast hlen.symm, (hget i).2 i1, fun j hj => ?_⟩
    have := i2 (j.cast hlen) ((hget _).1 (by simpa using hj))
    rw [← this]
    rfl

variable {equal : ℚ → ℚ → ℚ → Bool} {U U' : RMat ℚ} {eps rho rho' : ℚ} {r r' : IdCell}

/-- The grid of a multiple of a supercell. -/
theorem gridOf_multiple (h : Recognised equal U eps rho r) {H : IntMat} (hH : H.det ≠ 0) {m : ℤ} (hm : 1 ≤ m) :
    realMat (gridOf U r (m • H)) = (m : ℝ)⁻¹ • realMat (gridOf U r H) := by
  have hm0 : (m : ℝ) ≠ 0 := by exact_mod_cast (by omega : m ≠ 0)
  have hmH : (m • H).det ≠ 0 := by
    rw [Matrix.det_smul]
    exact mul_ne_zero (pow_ne_zero _ (by omega)) hH
  have g1 := gridOf_real h H hH 1
  have g2 := gridOf_real h (m • H) hmH 1
  rw [castMat_one, Matrix.mul_one, toReal_one, Matrix.mul_one] at g1 g2
  have e : toReal ((r.Cu.toMat * r.Co.toMat⁻¹) * (m • H) * (r.Co.toMat * r.Cu.toMat⁻¹)) =
      (m : ℝ) • toReal ((r.Cu.toMat * r.Co.toMat⁻¹) * H * (r.Co.toMat * r.Cu.toMat⁻¹)) := by
    rw [Matrix.mul_smul, Matrix.smul_mul, toReal_smul]
  have hd := gridOf_det h hH
  have hu : IsUnit (realCell U * toReal ((r.Cu.toMat * r.Co.toMat⁻¹) * H * (r.Co.toMat * r.Cu.toMat⁻¹)))ᵀ.det := by
    by_contra hcon
    have : (realMat (gridOf U r H)).det = 0 := by
      rw [g1, Matrix.nonsing_inv_apply_not_isUnit _ hcon, Matrix.det_zero]
    rw [realMat_det] at this
    exact hd (by exact_mod_cast this)
  rw [g2, e, Matrix.mul_smul, transpose_smul, g1]
  let _ := invertibleOfNonzero hm0
  rw [Matrix.inv_smul _ (m : ℝ) hu, invOf_eq_inv]

/-- The supercells that the triclinic branch looks at give all grids of the larger cell, each once. -/
theorem grids_tric_multiple (h : Recognised equal U eps rho r) (hid : r.id ∈ [31, 44]) {n m : ℤ} (hn : 1 ≤ n) (hm : 1 ≤ m) :
    ListsGrids ((m : ℝ) • realCell U) n (((tric_31_44 n).map (m • ·)).map fun H => realMat (gridOf U r H)) := by
  have hm0 : (m : ℝ) ≠ 0 := by exact_mod_cast (by omega : m ≠ 0)
  have h1 := listsGrids_smul (grids_tric h hid hn) hm0
  have hCo : r.Co.toMat.det = 1 := (reduceCell_same_lattice equal _ (some eps) _ h.parts.2).1
  rw [List.map_map] at h1 ⊢
  convert h1 using 1
  refine List.map_congr_left fun H hH => ?_
  have hd : H.det ≠ 0 := by
    have := (((tric_31_44_correct r.id hid n r.Co.toMat (.inl hCo)).2.1 H).1 hH).2
    omega
  exact gridOf_multiple h hd hm

/-- A grid that is packed densely enough has a smallest distance that the comparison with a tolerance sees. -/
theorem packed_positive {sqrt : ℚ → ℚ} {K : Matrix (Fin 3) (Fin 3) ℚ} (hK : 0 < K.det) (he : eps < 1)
    (hp : (compareGeom sqrt K).packed = true) : (compareGeom sqrt K).rmin * eps < (compareGeom sqrt K).rmin := by
  have e : (compareGeom sqrt K).packed =
      decide (3 / 10 ≤ 4 * piLit * ((compareGeom sqrt K).rmin / 2) ^ 3 / 3 / K.det) := rfl
  rw [e, decide_eq_true_eq] at hp
  have hpi : (0 : ℚ) < piLit := by decide +kernel
  generalize (compareGeom sqrt K).rmin = x at hp ⊢
  have hx : 0 < x := by
    by_contra hneg
    have h3 : (x / 2) ^ 3 ≤ 0 := by
      have : x / 2 ≤ 0 := by linarith
      exact Odd.pow_nonpos (by decide) this
    have : 4 * piLit * (x / 2) ^ 3 / 3 / K.det ≤ 0 :=
      div_nonpos_of_nonpos_of_nonneg (div_nonpos_of_nonpos_of_nonneg
        (mul_nonpos_of_nonneg_of_nonpos (by linarith) h3) (by norm_num)) hK.le
    linarith
  nlinarith

/-- The library counts the points of a symmetric grid. -/
theorem counts_some {U : Matrix (Fin 3) (Fin 3) ℝ} {ops ops0 : Set (Matrix (Fin 3) (Fin 3) ℝ)}
    {lib : Lib (Matrix (Fin 3) (Fin 3) ℚ) Offset} (hU : U.det ≠ 0) (hG : LatticeGroup U ops) (hc : Counts U ops ops0 lib)
    {K : Matrix (Fin 3) (Fin 3) ℚ} {n : ℤ} (hn : 1 ≤ n) (h : SymmetricGrid U (realMat K) n) :
    lib.irr K (0, 0, 0) ≠ none := by
  obtain ⟨N, h1, h2⟩ := h.reciprocal
  obtain ⟨pts, hpts⟩ := irreducible_exists (off := 0) hG.one hG.mul hG.inv (hG.reciprocal hU)
    (symmetricGrid_det_ne hU hn h) h1 (by
      intro h0
      rw [h0, abs_zero] at h2
      omega)
  rw [hc.irr _ _ _ h hpts]
  simp

theorem smul_det_ne {U : Matrix (Fin 3) (Fin 3) ℝ} (hU : U.det ≠ 0) {m : ℤ} (hm : 1 ≤ m) : ((m : ℝ) • U).det ≠ 0 := by
  rw [Matrix.det_smul]
  exact mul_ne_zero (pow_ne_zero _ (by exact_mod_cast (by omega : m ≠ 0))) hU

/-! ## The search -/

variable {mink : Matrix (Fin 3) (Fin 3) ℚ → Matrix (Fin 3) (Fin 3) ℚ} {sqrt : ℚ → ℚ}
  {lib : Lib (Matrix (Fin 3) (Fin 3) ℚ) Offset} {ops ops0 : Set (Matrix (Fin 3) (Fin 3) ℝ)}

theorem tric_list_ne {n m : ℤ} (hn : 1 ≤ n) : (tric_31_44 n).map (m • ·) ≠ [] := by simpa using tric_ne_nil hn

/-- What the triclinic branch returns. -/
theorem findGrid_tric_own (hirr : ∀ g o m, lib.irr g o = some m → 1 ≤ m) (w : ℤ → ℤ) (offsets : List Offset) (min_kpts : Bool)
    (root : ℤ) (fuel k : ℕ) (hk : k ∈ [31, 44]) (s_range : ℕ) (kpd a0 m : ℤ) (h0 : 1 ≤ a0)
    (hkpd : get_kpd_tric kpd = some (a0, m)) (e : Entry (Matrix (Fin 3) (Fin 3) ℚ) Offset)
    (he : findGrid lib w eps offsets min_kpts root fuel k s_range kpd = .ok e) :
    ∃ k : ℕ, k < fuel ∧ e.nt_kpts = (a0 + k) * m ∧
      tryHNFs lib.equal eps lib.geom lib.irr lib.irrDefault offsets ((tric_31_44 (a0 + k)).map (m • ·)) =
        .ok ⟨((tric_31_44 (a0 + k)).map (m • ·)).length, some e.sel⟩ ∧
      ∀ j : ℕ, j < k → tryHNFs lib.equal eps lib.geom lib.irr lib.irrDefault offsets ((tric_31_44 (a0 + j)).map (m • ·)) =
        .ok ⟨((tric_31_44 (a0 + j)).map (m • ·)).length, none⟩ := by
  rw [findGrid_tric_loop lib w eps offsets min_kpts root fuel k hk s_range kpd a0 m hkpd] at he
  have hok : ∀ n, a0 ≤ n → ∃ r, tryHNFs lib.equal eps lib.geom lib.irr lib.irrDefault offsets
      ((tric_31_44 n).map (m • ·)) = .ok ⟨((tric_31_44 n).map (m • ·)).length, r⟩ := fun n hn => by
    obtain ⟨r, hr, -⟩ := tryHNFs_ok lib hirr eps offsets _ (tric_list_ne (m := m) (by omega : 1 ≤ n))
    exact ⟨r, hr⟩
  obtain ⟨k, l, b, k1, k2, k3, -, k5⟩ := tricLoop_inv m fuel a0 (fun n hn => by
    obtain ⟨r, hr⟩ := hok n hn
    exact ⟨_, _, hr, List.length_pos_of_ne_nil (tric_list_ne (by omega))⟩) e he
  subst k5
  have hlen : ∀ (j : ℕ) l r, tryHNFs lib.equal eps lib.geom lib.irr lib.irrDefault offsets ((tric_31_44 (a0 + j)).map (m • ·)) =
      .ok ⟨l, r⟩ → tryHNFs lib.equal eps lib.geom lib.irr lib.irrDefault offsets ((tric_31_44 (a0 + j)).map (m • ·)) =
        .ok ⟨((tric_31_44 (a0 + j)).map (m • ·)).length, r⟩ := by
    intro j l r h
    obtain ⟨r', hr'⟩ := hok (a0 + j) (by omega)
    rw [h] at hr' ⊢
    cases hr'
    rfl
  refine ⟨k, k1, rfl, hlen k _ _ k3, fun j hj => ?_⟩
  obtain ⟨l', h'⟩ := k2 j hj
  exact hlen j _ _ h'

/-- As long as the triclinic branch runs it has not found anything. -/
theorem findGrid_tric_running (hirr : ∀ g o m, lib.irr g o = some m → 1 ≤ m) (w : ℤ → ℤ) (offsets : List Offset) (min_kpts : Bool)
    (root : ℤ) (fuel k : ℕ) (hk : k ∈ [31, 44]) (s_range : ℕ) (kpd a0 m : ℤ) (h0 : 1 ≤ a0)
    (hkpd : get_kpd_tric kpd = some (a0, m))
    (he : findGrid lib w eps offsets min_kpts root fuel k s_range kpd = .error .running) (j : ℕ) (hj : j < fuel) :
    tryHNFs lib.equal eps lib.geom lib.irr lib.irrDefault offsets ((tric_31_44 (a0 + j)).map (m • ·)) =
      .ok ⟨((tric_31_44 (a0 + j)).map (m • ·)).length, none⟩ := by
  induction j using Nat.strong_induction_on with
  | _ j ih =>
    have hne := tric_list_ne (m := m) (by omega : 1 ≤ a0 + j)
    obtain ⟨q, q1, -⟩ := tryHNFs_ok lib hirr eps offsets _ hne
    cases q with
    | none => exact q1
    | some b =>
      rw [findGrid_tric_loop lib w eps offsets min_kpts root fuel k hk s_range kpd a0 m hkpd,
        tricLoop_of m j fuel a0 hj (fun i hi => ⟨_, ih i hi (by omega)⟩) b _ q1 (List.length_pos_of_ne_nil hne)] at he
      cases he

/-- If nothing is found for a number of points, no grid with that number of points is packed densely. -/
theorem tric_none_unpacked_offsets (h : Recognised equal U eps rho r) (hid : r.id ∈ [31, 44]) (hm : Minkowski mink) (hs : SqrtOk sqrt)
    (hmono : ∀ x y : ℚ, 0 ≤ x → x ≤ y → sqrt x ≤ sqrt y) (hb : BuiltFrom mink sqrt U r lib)
    (hirr : ∀ g o m, lib.irr g o = some m → 1 ≤ m) (offsets : List Offset)
    (htot : ∀ K N, 1 ≤ N → SymmetricGrid (realCell U) (realMat K) N → ∃ o ∈ offsets, lib.irr K o ≠ none) {n m : ℤ} (hn : 1 ≤ n) (hm1 : 1 ≤ m) {l : ℕ}
    (hno : tryHNFs lib.equal eps lib.geom lib.irr lib.irrDefault offsets ((tric_31_44 n).map (m • ·)) = .ok ⟨l, none⟩)
    {K : Matrix (Fin 3) (Fin 3) ℝ} (hK : SymmetricGrid ((m : ℝ) • realCell U) K n) : ¬ PackedAtLeast (31 / 100) K := by
  intro hp
  have hU := h.real_det
  have hV := smul_det_ne hU hm1
  have hl := grids_tric_multiple h hid hn hm1
  have hmean := listed_mean hV hm hs hmono hb hn hl
  obtain ⟨i, hi, -⟩ := hl.complete K hK
  obtain ⟨H, hH, hHe⟩ := List.mem_map.1 (List.get_mem _ i)
  rw [← hHe] at hi
  obtain ⟨g1, g2, g3, -, g5, -⟩ := hmean H hH
  have habs : |K.det| = |(realMat (lib.geom H).grid).det| := by
    rw [(symmetricGrid_det hV hn hK).1, (symmetricGrid_det hV hn g2).1]
  have hpacked := g5 (packed_points g3 (by rw [g1, hi]) habs hp)
  have hdet : (gridOf U r H).det ≠ 0 := by
    intro h0
    refine symmetricGrid_det_ne hV hn (hl.sound _ (List.mem_map_of_mem hH)) ?_
    rw [realMat_det, h0, Rat.cast_zero]
  have hpos : (lib.geom H).rmin * eps < (lib.geom H).rmin := by
    rw [hb.geom] at hpacked ⊢
    exact packed_positive (hm _ hdet).2.1 (by linarith [h.eps_lt]) hpacked
  have hn3 : 1 ≤ n * m ^ 3 := by
    have : 0 < n * m ^ 3 := by positivity
    omega
  obtain ⟨b, hb'⟩ := tryHNFs_some_offsets lib hirr eps offsets _ (fun H hH => htot _ _ hn3
    (symmetricGrid_multiple hU hm1 (hmean H hH).2.1)) H hH hpacked hpos
  rw [hno] at hb'
  cases hb'

/-- Without a shift. -/
theorem tric_none_unpacked (h : Recognised equal U eps rho r) (hid : r.id ∈ [31, 44]) (hm : Minkowski mink) (hs : SqrtOk sqrt)
    (hmono : ∀ x y : ℚ, 0 ≤ x → x ≤ y → sqrt x ≤ sqrt y) (hb : BuiltFrom mink sqrt U r lib)
    (hirr : ∀ g o m, lib.irr g o = some m → 1 ≤ m) (hG : LatticeGroup (realCell U) ops)
    (hc : Counts (realCell U) ops ops0 lib) {n m : ℤ} (hn : 1 ≤ n) (hm1 : 1 ≤ m) {l : ℕ}
    (hno : tryHNFs lib.equal eps lib.geom lib.irr lib.irrDefault [(0, 0, 0)] ((tric_31_44 n).map (m • ·)) = .ok ⟨l, none⟩)
    {K : Matrix (Fin 3) (Fin 3) ℝ} (hK : SymmetricGrid ((m : ℝ) • realCell U) K n) : ¬ PackedAtLeast (31 / 100) K :=
  tric_none_unpacked_offsets h hid hm hs hmono hb hirr [(0, 0, 0)]
    (fun _ _ hN hK => ⟨(0, 0, 0), by simp, counts_some h.real_det hG hc hN hK⟩) hn hm1 hno hK

/-- Of the widest grids with the number of points that is returned none has fewer irreducible points. -/
theorem tric_widest (h : Recognised equal U eps rho r) (hid : r.id ∈ [31, 44]) (hm : Minkowski mink) (hs : SqrtOk sqrt)
    (hmono : ∀ x y : ℚ, 0 ≤ x → x ≤ y → sqrt x ≤ sqrt y) (hb : BuiltFrom mink sqrt U r lib)
    (hirr : ∀ g o m, lib.irr g o = some m → 1 ≤ m)
    (hc : Counts (realCell U) ops ops0 lib) {n m : ℤ} (hn : 1 ≤ n) (hm1 : 1 ≤ m) {l : ℕ} {b : Selected _ Offset}
    (hb' : tryHNFs lib.equal eps lib.geom lib.irr lib.irrDefault [(0, 0, 0)] ((tric_31_44 n).map (m • ·)) = .ok ⟨l, some b⟩)
    (ht : TellsApart lib.equal eps sqrt ((m : ℝ) • realCell U) n) {K : Matrix (Fin 3) (Fin 3) ℝ}
    (hK : Widest ((m : ℝ) • realCell U) n K)
    {pts : List ((Fin 3 → ℝ) × ℤ)} (hpts : IrreduciblePoints ((realCell U)ᵀ)⁻¹ K 0 ops pts) : b.n_irr ≤ pts.length := by
  obtain ⟨b', h1, h2⟩ := widest_list (smul_det_ne h.real_det hm1) hm hs hmono hb hirr hc hn (grids_tric_multiple h hid hn hm1)
    (fun K hK => ⟨_, symmetricGrid_multiple h.real_det hm1 hK⟩) ht hK hpts
  rw [hb'] at h1
  cases h1
  exact h2

/-! ## The program -/

section Program

variable {rd : Reader} {junk : ℤ} {rt2 : ℚ} {poscar kpgen : List (List Char)} {d : PoscarData}
  {settings : List (Key × List Char)} {env : Env (Matrix (Fin 3) (Fin 3) ℚ)} {fuel : ℕ} {k : Key} {v : List Char}

/-- C109.  `n` points are asked for, without a shift, for a triclinic lattice; `ops` are the symmetries that the library works
with by the level of symmetry that the user asks for, `ops0` those by default.  Let `m` be the smallest factor with
`n / m³ ≤ 100`, rounded down.  The program looks at the grids of the cell that is `m` times as large as the one of `POSCAR`, with
`n / m³` points, and then with more.  As long as it runs, none of those with `n / m³` up to `n / m³ + fuel` points has a packing
fraction of 0.3 (0.31, with rounding).  If it returns a grid, it is one with `a` points of the larger cell (with `a m³` points of
the cell itself, of which `a m` are reported); its packing fraction is at least 0.3 (0.29, with rounding); no grid of the
larger cell with a smaller number of points, from `n / m³` on, has a packing fraction of 0.3 (0.31, with rounding); and
none of those with `a` points whose points are farthest apart has fewer irreducible points. -/
theorem program_best_tric (hp : PoscarSays rd poscar d) (hdet : (d.scale • d.columns).det ≠ 0) (hrt : rt2 ≠ 0)
    (hf : FileSays kpgen settings) (hu : Usable rd rt2 d.counts.sum |(d.scale • d.columns).det| settings)
    (hk : lastOf densitySetting settings = some (k, v)) (he : Tolerance rd settings eps)
    (hshift : lastOf (shiftValue rd) settings = some (0, 0, 0))
    (h : Recognised env.equal (cellOf d.columns) eps rho r) (hb : EnvBuilt env mink sqrt (cellOf d.columns) eps r)
    (hmono : ∀ x y : ℚ, 0 ≤ x → x ≤ y → sqrt x ≤ sqrt y)
    {ops ops0 : List (Fin 3 → ℚ) → List ℕ → ℕ → Set (Matrix (Fin 3) (Fin 3) ℝ)}
    (hG : ∀ base types flag, LatticeGroup (realCell (cellOf d.columns)) (ops base types flag))
    (hG0 : ∀ base types flag, LatticeGroup (realCell (cellOf d.columns)) (ops0 base types flag))
    (hc : ∀ base types flag, Counts (realCell (cellOf d.columns)) (ops base types flag) (ops0 base types flag)
      (env.lib (cellOf d.columns) base types flag eps r))
    (hasks : ∀ n, Asks rd piLit rt2 d.counts.sum |(d.scale • d.columns).det| k v n → 1 ≤ n)
    (hid : r.id ∈ [31, 44]) :
    ∃ n base types flag, ∃ m : ℤ, Asks rd piLit rt2 d.counts.sum |(d.scale • d.columns).det| k v n ∧
      (lastOf symmetryLevel settings = some flag ∨ lastOf symmetryLevel settings = none ∧ flag = 0) ∧
      1 ≤ m ∧ n / m ^ 3 ≤ 100 ∧ (∀ s, 1 ≤ s → s < m → 100 < n / s ^ 3) ∧
      (program env rd junk rt2 fuel poscar kpgen = .error (.grid .running) ∧
        (∀ a K, n / m ^ 3 ≤ a → a < n / m ^ 3 + fuel → SymmetricGrid ((m : ℝ) • realMat (d.scale • d.columns)) K a →
          ¬ PackedAtLeast (31 / 100) K) ∨
      ∃ e syms pts, ∃ a : ℤ, program env rd junk rt2 fuel poscar kpgen = .ok e ∧ n / m ^ 3 ≤ a ∧ e.nt_kpts = a * m ∧
        SymmetricGrid ((m : ℝ) • realMat (d.scale • d.columns)) (realMat (d.scale⁻¹ • e.sel.grid)) a ∧
        PackedAtLeast (29 / 100) (realMat (d.scale⁻¹ • e.sel.grid)) ∧
        (syms = ops base types flag ∨ syms = ops0 base types flag) ∧
        IrreduciblePoints ((realMat (d.scale • d.columns))ᵀ)⁻¹ (realMat (d.scale⁻¹ • e.sel.grid)) 0 syms pts ∧
        (∀ a' K, n / m ^ 3 ≤ a' → a' < a → SymmetricGrid ((m : ℝ) • realMat (d.scale • d.columns)) K a' →
          ¬ PackedAtLeast (31 / 100) K) ∧
        ∀ K pts',
          TellsApart (env.lib (cellOf d.columns) base types flag eps r).equal eps sqrt ((m : ℝ) • realCell (cellOf d.columns)) a →
          Widest ((m : ℝ) • realMat (d.scale • d.columns)) a K →
          IrreduciblePoints ((realMat (d.scale • d.columns))ᵀ)⁻¹ K 0 (ops base types flag) pts' → pts.length ≤ pts'.length) := by
  have hl := hb.right h
  obtain ⟨n, base, types, s, p1, p2, p3, p4, p5, p6⟩ := program_reads_choice (junk := junk) env hp hdet hrt hf hu hk he
  obtain ⟨offsets, s_range, q1, q2, q3, q4⟩ := find_grid_searches env h hl.pgSize n base types s.offset
    s.find_offset (offset_ne_none p3 p4 hu.readable) s.symm_flag s.min_kpts
  have hoff : offsets = [(0, 0, 0)] := by
    have e1 : s.find_offset = false := by
      rw [Bool.eq_false_iff]
      intro hcon
      have := p4.1 hcon
      have hnone : lastOf (shiftValue rd) settings = none := by
        unfold lastOf
        rw [List.getLast?_eq_none_iff, List.filterMap_eq_nil_iff]
        rintro ⟨k', v'⟩ hmem
        have := this _ hmem
        cases k' <;> first | rfl | exact absurd rfl this
      rw [hnone] at hshift
      cases hshift
    rw [e1, p3, hshift] at q3
    exact (Option.some.inj q3).symm
  subst hoff
  have h1 := hasks n p2
  have hCo : r.Co.toMat.det = 1 := (reduceCell_same_lattice env.equal _ (some eps) _ h.parts.2).1
  obtain ⟨a0, m, t1, t2, t3, t4, t5, t6, t7⟩ := get_kpd_tric_partial n h1
  have hm3 : 0 < m ^ 3 := by positivity
  have ha0 : n / m ^ 3 = a0 :=
    le_antisymm (Int.lt_add_one_iff.1 ((Int.ediv_lt_iff_lt_mul hm3).2 t6)) ((Int.le_ediv_iff_mul_le hm3).2 t5)
  have hUd := h.real_det
  have hs : (d.scale : ℝ) ≠ 0 := by exact_mod_cast scale_ne hdet
  have hU : realCell (cellOf d.columns) = realMat d.columns := by
    unfold realCell
    rw [cellOf_toMatrix]
    rfl
  have hrec : ((realMat (d.scale • d.columns))ᵀ)⁻¹ = (d.scale : ℝ)⁻¹ • ((realCell (cellOf d.columns))ᵀ)⁻¹ := by
    rw [realMat_smul, ← hU, transpose_smul]
    let _ := invertibleOfNonzero hs
    rw [Matrix.inv_smul _ (d.scale : ℝ) (by rw [det_transpose]; exact isUnit_iff_ne_zero.2 hUd), invOf_eq_inv]
  have hcell : (m : ℝ) • realMat (d.scale • d.columns) = (d.scale : ℝ) • ((m : ℝ) • realCell (cellOf d.columns)) := by
    rw [realMat_smul, ← hU, smul_comm]
  have hback : ∀ {K : Matrix (Fin 3) (Fin 3) ℝ} {N : ℤ}, SymmetricGrid ((m : ℝ) • realMat (d.scale • d.columns)) K N →
      SymmetricGrid ((m : ℝ) • realCell (cellOf d.columns)) ((d.scale : ℝ) • K) N := by
    intro K N hK
    rw [hcell] at hK
    have := symmetricGrid_scale hK (inv_ne_zero hs)
    rwa [smul_smul, inv_mul_cancel₀ hs, one_smul, inv_inv] at this
  have hforth : ∀ {K : Matrix (Fin 3) (Fin 3) ℝ} {N : ℤ}, SymmetricGrid ((m : ℝ) • realCell (cellOf d.columns)) K N →
      SymmetricGrid ((m : ℝ) • realMat (d.scale • d.columns)) ((d.scale : ℝ)⁻¹ • K) N := by
    intro K N hK
    rw [hcell]
    exact symmetricGrid_scale hK hs
  have hunpacked : ∀ a', 1 ≤ a' → ∀ l, tryHNFs (env.lib (cellOf d.columns) base types s.symm_flag eps r).equal eps
      (env.lib (cellOf d.columns) base types s.symm_flag eps r).geom (env.lib (cellOf d.columns) base types s.symm_flag eps r).irr
      (env.lib (cellOf d.columns) base types s.symm_flag eps r).irrDefault [(0, 0, 0)] ((tric_31_44 a').map (m • ·)) =
        .ok ⟨l, none⟩ →
      ∀ K, SymmetricGrid ((m : ℝ) • realMat (d.scale • d.columns)) K a' → ¬ PackedAtLeast (31 / 100) K := by
    intro a' h1' l hno K k3 k4
    exact tric_none_unpacked h hid hb.reduction hb.root hmono (hb.built base types s.symm_flag)
      (hl.irr base types s.symm_flag) (hG base types s.symm_flag) (hc base types s.symm_flag) h1' t4 hno (hback k3)
      (packedAtLeast_smul k4)
  refine ⟨n, base, types, s.symm_flag, m, p2, p5, t4, by omega, t7, ?_⟩
  rw [p1 fuel, q4 fuel]
  rcases findGrid_tric (env.lib (cellOf d.columns) base types s.symm_flag eps r)
    (hl.irr base types s.symm_flag) env.wrap eps [(0, 0, 0)] s.min_kpts (env.root n) fuel r.id hid r.Co.toMat (.inl hCo)
    s_range n h1 with
    hr | ⟨e, he', -, -, -, -, -, -⟩
  · left
    refine ⟨by rw [hr], fun a K k1 k2 k3 => ?_⟩
    have k5 := findGrid_tric_running (hl.irr base types s.symm_flag) env.wrap [(0, 0, 0)] s.min_kpts (env.root n) fuel r.id hid
      s_range n a0 m t2 t1 hr (a - a0).toNat (by omega)
    have k6 : a0 + ((a - a0).toNat : ℤ) = a := by omega
    rw [k6] at k5
    exact hunpacked a (by omega) _ k5 K k3
  right
  obtain ⟨j, j1, j2, j3, j4⟩ := findGrid_tric_own (lib := env.lib (cellOf d.columns) base types s.symm_flag eps r)
    (hl.irr base types s.symm_flag) env.wrap [(0, 0, 0)] s.min_kpts (env.root n) fuel r.id hid s_range n a0 m t2 t1 e he'
  have ha : 1 ≤ a0 + j := by omega
  have hV := smul_det_ne hUd t4
  have hlist := grids_tric_multiple h hid ha t4
  have hmean := listed_mean hV hb.reduction hb.root hmono (hb.built base types s.symm_flag) ha hlist
  obtain ⟨r', c1, c2⟩ := tryHNFs_ok (env.lib (cellOf d.columns) base types s.symm_flag eps r)
    (hl.irr base types s.symm_flag) eps [(0, 0, 0)] _ (tric_list_ne (m := m) ha)
  rw [j3] at c1
  cases c1
  have hch := c2 _ rfl
  obtain ⟨-, g2, g3, -, -, g6⟩ := hmean _ hch.mem
  rw [← hch.grid] at g2 g3 g6
  have e1 : realMat (d.scale⁻¹ • e.sel.grid) = (d.scale : ℝ)⁻¹ • realMat e.sel.grid := by
    rw [realMat_smul, Rat.cast_inv]
  have ho : e.sel.offset = (0, 0, 0) := by simpa using hch.offset
  have hgU := symmetricGrid_multiple hUd t4 g2
  -- the number of irreducible points of the grid
  have hsyms : ∃ syms pts, (syms = ops base types s.symm_flag ∨ syms = ops0 base types s.symm_flag) ∧
      IrreduciblePoints ((realMat (d.scale • d.columns))ᵀ)⁻¹ (realMat (d.scale⁻¹ • e.sel.grid)) 0 syms pts ∧
      pts.length = e.sel.n_irr := by
    have hscale : ∀ {syms ps}, IrreduciblePoints ((realCell (cellOf d.columns))ᵀ)⁻¹ (realMat e.sel.grid) 0 syms ps →
        ∃ ps', IrreduciblePoints ((realMat (d.scale • d.columns))ᵀ)⁻¹ (realMat (d.scale⁻¹ • e.sel.grid)) 0 syms ps' ∧
          ps'.length = ps.length := by
      intro syms ps hps
      have := hps.smul (inv_ne_zero hs)
      rw [smul_zero, ← hrec] at this
      rw [e1]
      exact ⟨_, this, List.length_map _⟩
    have hpts : ∀ {syms}, LatticeGroup (realCell (cellOf d.columns)) syms →
        ∃ pts, IrreduciblePoints ((realCell (cellOf d.columns))ᵀ)⁻¹ (realMat e.sel.grid) 0 syms pts := by
      intro syms hG'
      obtain ⟨M, m1, m2⟩ := hgU.reciprocal
      refine irreducible_exists hG'.one hG'.mul hG'.inv (hG'.reciprocal hUd) g3 m1 ?_
      rintro h0
      rw [h0, abs_zero] at m2
      have : 0 < (a0 + j) * m ^ 3 := by positivity
      omega
    rcases hch.irr with a6 | a6
    · obtain ⟨pts, hpt⟩ := hpts (hG base types s.symm_flag)
      have := (hc base types s.symm_flag).irr _ _ _ hgU hpt
      rw [ho, this] at a6
      obtain ⟨ps, c1, c2⟩ := hscale hpt
      exact ⟨_, ps, .inl rfl, c1, c2.trans (Option.some.inj a6)⟩
    · obtain ⟨pts, hpt⟩ := hpts (hG0 base types s.symm_flag)
      have := (hc base types s.symm_flag).irrDefault _ _ _ hgU hpt
      rw [ho, this] at a6
      obtain ⟨ps, c1, c2⟩ := hscale hpt
      exact ⟨_, ps, .inr rfl, c1, c2.trans (Option.some.inj a6)⟩
  obtain ⟨syms, pts, d1, d2, d3⟩ := hsyms
  refine ⟨e, syms, pts, a0 + j, by rw [he'], by omega, j2, by rw [e1]; exact hforth g2, ?_, d1, d2, ?_, ?_⟩
  · rw [e1]
    exact packedAtLeast_smul (g6 hch.packed)
  · intro a' K k1 k2 k3
    have k5 := j4 (a' - a0).toNat (by omega)
    have k6 : a0 + ((a' - a0).toNat : ℤ) = a' := by omega
    rw [k6] at k5
    exact hunpacked a' (by omega) _ k5 K k3
  · intro K pts' ht hK hpts'
    rw [d3]
    have hb' : IrreduciblePoints ((realCell (cellOf d.columns))ᵀ)⁻¹ ((d.scale : ℝ) • K) 0
        (ops base types s.symm_flag) (pts'.map fun p => ((d.scale : ℝ) • p.1, p.2)) := by
      have := hpts'.smul hs
      rwa [smul_zero, hrec, smul_smul, mul_inv_cancel₀ hs, one_smul] at this
    have hw : Widest ((m : ℝ) • realCell (cellOf d.columns)) (a0 + j) ((d.scale : ℝ) • K) := by
      obtain ⟨l, l1, l2⟩ := hK.widest
      refine ⟨hback hK.grid, packedAtLeast_smul hK.packed, _, smallestDistance_smul l1, ?_⟩
      intro K' l' k1 k2 k3
      have := l2 ((d.scale : ℝ)⁻¹ • K') (|(d.scale : ℝ)⁻¹| * l') (hforth k1) (packedAtLeast_smul k2) (smallestDistance_smul k3)
      rwa [abs_inv, inv_mul_le_iff₀ (abs_pos.2 hs)] at this
    have := tric_widest h hid hb.reduction hb.root hmono (hb.built base types s.symm_flag)
      (hl.irr base types s.symm_flag) (hc base types s.symm_flag) ha t4 j3 ht hw hb'
    rwa [List.length_map] at this

end Program

/-! ## The hypotheses are met

A triclinic lattice with the vectors (4, 0, 0), (1, 4, 0) and (1, 1, 4), before the factor 2 of `POSCAR`. -/

def triPoscar : List (List Char) := mainPoscar "4 0 0".toList "1 4 0".toList "1 1 4".toList

def triData : PoscarData := mainData (4, 0, 0) (1, 4, 0) (1, 1, 4)

def triId : IdCell := ⟨⟨1, 0, 0, 0, 1, 0, 0, 0, 1⟩, ⟨1, 0, 0, 0, 1, 0, 0, 0, 1⟩, 31, some 1⟩

theorem tri_says : PoscarSays wordsReader triPoscar triData := mainPoscar_says (by decide) (by decide) (by decide)

theorem tri_det : (triData.scale • triData.columns).det ≠ 0 := main_det (by decide +kernel)

theorem tri_recognised : Recognised cmpEqual (cellOf triData.columns) (8589935 / 2 ^ 33) (8589935 / 2 ^ 33) triId :=
  recognised_of (A := 16) (B := 17) (C := 18) (D := 5) (E := 4) (F := 4) (by decide +kernel) (by decide +kernel)
    (by decide +kernel) (by constructor <;> norm_num [TypeI, TypeII]) (by constructor <;> decide +kernel)
    (by norm_num) (by decide)

theorem tri_realCell : realCell (cellOf triData.columns) = !![4, 1, 1; 0, 4, 1; 0, 0, 4] := by
  have h5 : realCell (cellOf triData.columns) = realMat triData.columns := by
    unfold realCell
    rw [cellOf_toMatrix]
    rfl
  rw [h5]
  ext i j
  fin_cases i <;> fin_cases j <;> simp [realMat, triData, mainData, PoscarData.columns, Spec.vec]

/-- The reciprocal lattice. -/
noncomputable def triGrid : Matrix (Fin 3) (Fin 3) ℝ := !![1 / 4, 0, 0; -1 / 16, 1 / 4, 0; -3 / 64, -1 / 16, 1 / 4]

theorem tri_gridOf : realMat (gridOf (cellOf triData.columns) triId (hnf 1 0 1 0 0 1)) = triGrid := by
  have h := gridOf_real tri_recognised (hnf 1 0 1 0 0 1) (by decide) 1
  have e : triId.Cu.toMat = 1 := by decide
  have e' : triId.Co.toMat = 1 := by decide
  rw [castMat_one, Matrix.mul_one, toReal_one, Matrix.mul_one, e, e', inv_one, Matrix.mul_one, Matrix.one_mul, Matrix.mul_one,
    tri_realCell] at h
  rw [h]
  refine inv_eq_left_inv ?_
  ext i j
  fin_cases i <;> fin_cases j <;>
    simp [triGrid, toReal, hnf, Matrix.mul_apply, vecMul, dotProduct, Fin.sum_univ_three] <;> norm_num

theorem tri_list : tric_31_44 1 = [hnf 1 0 1 0 0 1] := by decide +kernel

theorem tri_grid : SymmetricGrid (realCell (cellOf triData.columns)) triGrid 1 := by
  have hl := grids_tric tri_recognised (by decide) (n := 1) (by norm_num)
  rw [tri_list] at hl
  have := hl.sound _ (List.mem_map_of_mem (List.mem_singleton_self _))
  rwa [tri_gridOf] at this

theorem triGrid_distance : SmallestDistance triGrid √(1 / 16) := by
  refine smallestDistance_of (fun a b c => (a : ℝ) ^ 2 / 16 + (-a / 16 + b / 4 : ℝ) ^ 2 + (-3 * a / 64 - b / 16 + c / 4 : ℝ) ^ 2) ?_
    ![0, 0, 1] (by decide) ?_ ?_
  · intro v
    simp [triGrid, mulVec, dotProduct, Fin.sum_univ_three]
    ring
  · simp; norm_num
  · intro a b c h
    have h1 := sq_nonneg (-a / 16 + b / 4 : ℝ)
    have h2 := sq_nonneg (-3 * a / 64 - b / 16 + c / 4 : ℝ)
    by_cases ha : a = 0
    · subst ha
      by_cases hb : b = 0
      · subst hb
        have := sq_one_le (a := c) (by omega)
        push_cast
        nlinarith
      · have := sq_one_le hb
        push_cast at h1 h2 ⊢
        nlinarith
    · have := sq_one_le ha
      linarith

/-- There is only one grid with one point. -/
theorem tri_distance {K : Matrix (Fin 3) (Fin 3) ℝ} (hK : SymmetricGrid (realCell (cellOf triData.columns)) K 1) :
    SmallestDistance K √(1 / 16) := by
  have hU := tri_recognised.real_det
  have hl := grids_tric tri_recognised (by decide) (n := 1) (by norm_num)
  obtain ⟨i, hi, -⟩ := hl.complete K hK
  obtain ⟨H, hH, hHe⟩ := List.mem_map.1 (List.get_mem _ i)
  rw [tri_list, List.mem_singleton] at hH
  rw [← hHe, hH, tri_gridOf] at hi
  exact smallestDistance_points (symmetricGrid_det_ne hU (by norm_num) tri_grid) (symmetricGrid_det_ne hU (by norm_num) hK) hi
    triGrid_distance

theorem tri_packed : PackedAtLeast (31 / 100) triGrid := by
  intro v hv
  have h1 := triGrid_distance.2 v hv
  rw [show (1 / 16 : ℝ) = (1 / 4) ^ 2 by norm_num, Real.sqrt_sq (by norm_num)] at h1
  have h2 : triGrid.det = 1 / 64 := by
    rw [triGrid, det_fin_three]
    simp
    norm_num
  rw [h2]
  have h3 := pow_le_pow_left₀ (by norm_num) h1 3
  have := Real.pi_gt_three
  rw [abs_of_pos (by norm_num)]
  nlinarith

theorem tri_scaled : ((1 : ℤ) : ℝ) • realMat (triData.scale • triData.columns) = (2 : ℝ) • realCell (cellOf triData.columns) := by
  have hU : realCell (cellOf triData.columns) = realMat triData.columns := by
    unfold realCell
    rw [cellOf_toMatrix]
    rfl
  rw [Int.cast_one, one_smul, realMat_smul, ← hU]
  norm_num [triData, mainData]

theorem tri_scaled_grid : SymmetricGrid (((1 : ℤ) : ℝ) • realMat (triData.scale • triData.columns)) ((2 : ℝ)⁻¹ • triGrid) 1 := by
  rw [tri_scaled]
  exact symmetricGrid_scale tri_grid (by norm_num)

theorem tri_widest : Widest (((1 : ℤ) : ℝ) • realMat (triData.scale • triData.columns)) 1 ((2 : ℝ)⁻¹ • triGrid) := by
  refine ⟨tri_scaled_grid, packedAtLeast_smul tri_packed, _, smallestDistance_smul triGrid_distance, ?_⟩
  intro K' l' k1 _ k3
  rw [tri_scaled] at k1
  have k2 := symmetricGrid_scale k1 (by norm_num : (2 : ℝ)⁻¹ ≠ 0)
  rw [smul_smul, inv_inv, inv_mul_cancel₀ (by norm_num), one_smul] at k2
  have k4 := smallestDistance_unique (smallestDistance_smul (s := 2) k3) (tri_distance k2)
  rw [abs_of_pos (by norm_num)] at k4 ⊢
  linarith

theorem tri_apart {sqrt : ℚ → ℚ} (hs : SqrtOk sqrt) :
    TellsApart sampleEqual (8589935 / 2 ^ 33) sqrt (((1 : ℤ) : ℝ) • realCell (cellOf triData.columns)) 1 := by
  rw [Int.cast_one, one_smul]
  have hx : ∀ {K : Matrix (Fin 3) (Fin 3) ℝ} {x : ℚ}, SymmetricGrid (realCell (cellOf triData.columns)) K 1 → 0 ≤ x →
      SmallestDistance K √(x : ℝ) → x = 1 / 16 := by
    intro K x hK hx hd
    have := smallestDistance_unique hd (tri_distance hK)
    rw [Real.sqrt_inj (by exact_mod_cast hx) (by norm_num)] at this
    have h2 : (x : ℝ) = ((1 / 16 : ℚ) : ℝ) := by rw [this]; norm_num
    exact_mod_cast h2
  intro K K' x x' hK hK' h0 h0' hd hd'
  rw [hx hK h0 hd, hx hK' h0' hd']
  have h1 := abs_le.1 (hs (1 / 16) (by norm_num))
  have h2 : √(((1 / 16 : ℚ)) : ℝ) = 1 / 4 := by
    rw [show (((1 / 16 : ℚ)) : ℝ) = (1 / 4) ^ 2 by norm_num, Real.sqrt_sq (by norm_num)]
  rw [h2] at h1
  have h3 : (24 / 100 : ℚ) ≤ sqrt (1 / 16) := by
    have : ((24 / 100 : ℚ) : ℝ) ≤ sqrt (1 / 16) := by push_cast; linarith [h1.1]
    exact_mod_cast this
  generalize sqrt (1 / 16) = y at h3
  refine ⟨by norm_num, ?_, ?_, ?_⟩
  · intro r hr
    have hr : r = y := by simpa using hr
    subst hr
    refine ⟨by linarith, by linarith, ?_⟩
    unfold sampleEqual
    rw [decide_eq_false_iff_not, sub_zero, abs_of_pos (by linarith)]
    linarith
  · intro r _
    unfold sampleEqual
    rw [decide_eq_true_iff, sub_self, abs_zero]
    norm_num
  · intro r hr r' hr' hlt
    have hr : r = y := by simpa using hr
    have hr' : r' = y := by simpa using hr'
    rw [hr, hr'] at hlt
    exact absurd hlt (lt_irrefl _)

def oneKpgen : List (List Char) := ["NKPTS=1".toList, "SHIFT=0 0 0".toList]

def oneSettings : List (Key × List Char) := [(.nkpts, "1".toList), (.shift, "0 0 0".toList)]

theorem oneKpgen_says : FileSays oneKpgen oneSettings :=
  .sets ⟨0, by decide⟩ (.sets ⟨0, by decide⟩ .nil)

theorem one_asks {vol : ℚ} {natoms n : ℤ} (h : Asks wordsReader piLit rt2Double natoms vol .nkpts "1".toList n) : n = 1 :=
  Option.some.inj (Eq.trans (Eq.symm h) (by decide))

/-- C109 for this crystal and at least 1 point: the program returns a grid with 1 point, which does not have more irreducible
points than the reciprocal lattice. -/
example (hm : Minkowski mink) (hs : SqrtOk sqrt) (hmono : ∀ x y : ℚ, 0 ≤ x → x ≤ y → sqrt x ≤ sqrt y) (junk : ℤ) (fuel : ℕ) :
    ∃ e pts, program (totalEnv mink sqrt) wordsReader junk rt2Double (fuel + 1) triPoscar oneKpgen = .ok e ∧ e.nt_kpts = 1 ∧
      IrreduciblePoints ((realMat (triData.scale • triData.columns))ᵀ)⁻¹ (realMat (triData.scale⁻¹ • e.sel.grid)) 0
        (allOps (realCell (cellOf triData.columns))) pts ∧
      ∀ pts', IrreduciblePoints ((realMat (triData.scale • triData.columns))ᵀ)⁻¹ ((2 : ℝ)⁻¹ • triGrid) 0
        (allOps (realCell (cellOf triData.columns))) pts' → pts.length ≤ pts'.length := by
  obtain ⟨-, -, hrt, -⟩ := rt2Double_bounds
  obtain ⟨n, base, types, flag, m, a1, a2, a3, a4, a5, a6⟩ := program_best_tric (env := totalEnv mink sqrt) (mink := mink)
    (sqrt := sqrt) (junk := junk) (fuel := fuel + 1) tri_says tri_det (by linarith) oneKpgen_says
    ⟨by
      intro p hp
      simp only [oneSettings, List.mem_cons, List.not_mem_nil, or_false] at hp
      rcases hp with rfl | rfl
      · exact ⟨1, by decide⟩
      · exact ⟨(0, 0, 0), by decide⟩, by
      intro p hp n hn
      simp only [oneSettings, List.mem_cons, List.not_mem_nil, or_false] at hp
      rcases hp with rfl | rfl
      · rw [one_asks hn]
        norm_num
      · exact absurd hn (by simp [Asks])⟩ (k := .nkpts)
    (v := "1".toList) rfl rfl (by decide) tri_recognised (totalEnv_built hm hs _ _ _) hmono
    (ops := fun _ _ _ => allOps (realCell (cellOf triData.columns)))
    (ops0 := fun _ _ _ => allOps (realCell (cellOf triData.columns)))
    (fun _ _ _ => latticeGroup_all tri_recognised.real_det) (fun _ _ _ => latticeGroup_all tri_recognised.real_det)
    (fun _ _ _ => totalEnv_counts tri_recognised.real_det ..)
    (fun n hn => by rw [one_asks hn]) (by decide)
  have hn := one_asks a1
  subst hn
  have hm1 : m = 1 := by
    by_contra hne
    have := a5 1 le_rfl (by omega)
    norm_num at this
  subst hm1
  rcases a6 with ⟨-, b⟩ | ⟨e, syms, pts, a, b1, b2, b3, b4, b5, b6, b7, b8, b9⟩
  · exact absurd (packedAtLeast_smul tri_packed) (b 1 _ (by norm_num) (by push_cast; norm_num) tri_scaled_grid)
  · have ha : a = 1 := by
      by_contra hne
      exact absurd (packedAtLeast_smul tri_packed) (b8 1 _ (by norm_num) (by norm_num at b2; omega) tri_scaled_grid)
    subst ha
    have hsy : syms = allOps (realCell (cellOf triData.columns)) := b6.elim id id
    rw [hsy] at b7
    exact ⟨e, pts, b1, b3, b7, fun pts' hp => b9 _ pts' (tri_apart hs) tri_widest hp⟩

end AutoGR.Fortran
