import Verif.Lemmas.Hermite
import Verif.Spec.Density
import Verif.Props.FortranStops
import Verif.Props.SameGrid

/-!
# C103: what the keywords for the number of points guarantee

`README.md` promises a density, a spacing between the k-points and a minimal distance in real space.  The program turns
each of them into a number of points.  Here is what the grid that it finds then has.
-/

namespace AutoGR.Fortran

open Spec Matrix

theorem gridLength_smul (s : ℝ) (K : Matrix (Fin 3) (Fin 3) ℝ) (v : Fin 3 → ℤ) :
    gridLength (s • K) v = |s| * gridLength K v := by
  unfold gridLength
  rw [smul_mulVec, ← Real.sqrt_sq_eq_abs, ← Real.sqrt_mul (sq_nonneg s)]
  congr 1
  rw [Finset.mul_sum]
  refine Finset.sum_congr rfl fun i _ => ?_
  simp only [Pi.smul_apply, smul_eq_mul]
  ring

theorem packedAtLeast_smul {c s : ℝ} {K : Matrix (Fin 3) (Fin 3) ℝ} (h : PackedAtLeast c K) :
    PackedAtLeast c (s • K) := by
  intro v hv
  have h1 := h v hv
  rw [gridLength_smul, det_smul, Fintype.card_fin, abs_mul, abs_pow]
  have : 0 ≤ |s| ^ 3 := by positivity
  nlinarith

/-- The volume of a cell of a grid. -/
theorem symmetricGrid_det {U K : Matrix (Fin 3) (Fin 3) ℝ} {N : ℤ} (hU : U.det ≠ 0) (hN : 1 ≤ N)
    (h : SymmetricGrid U K N) : |K.det| = 1 / (|U.det| * N) ∧ |((Kᵀ)⁻¹).det| = |U.det| * N := by
  obtain ⟨M, h1, h2⟩ := h.reciprocal
  have h3 := congrArg Matrix.det h1
  rw [det_mul, det_nonsing_inv, det_transpose, toReal_det, Ring.inverse_eq_inv'] at h3
  have h4 := congrArg abs h3
  have h5 : |((M.det : ℤ) : ℝ)| = N := by
    rw [← Int.cast_abs, h2]
  rw [abs_inv, abs_mul, h5] at h4
  have hN' : (0 : ℝ) < N := by exact_mod_cast (by omega : 0 < N)
  have hU' : 0 < |U.det| := abs_pos.2 hU
  have h6 : |K.det| = 1 / (|U.det| * N) := by
    rw [eq_div_iff (by positivity), mul_left_comm, ← h4, mul_inv_cancel₀ hU'.ne']
  refine ⟨h6, ?_⟩
  rw [det_nonsing_inv, det_transpose, Ring.inverse_eq_inv', abs_inv, h6, one_div, inv_inv]

/-- A number of points and the shape of the grid together meet the wish. -/
theorem meets_of {q : Quality} {rd : Reader} {rt2 : ℚ} {natoms : ℤ} {U K : Matrix (Fin 3) (Fin 3) ℝ} {vol : ℚ} {k : Key}
    {v : List Char} {n N : ℤ} {w f : ℝ} (hvol : (vol : ℝ) = |U.det|) (hU : U.det ≠ 0)
    (ha : Asks rd piLit rt2 natoms vol k v n) (h1 : 1 ≤ n) (hN : 1 ≤ N) (hq0 : 0 < q.share) (hshare : q.share * n ≤ N)
    (hg : SymmetricGrid U K N) (hrt0 : 0 < rt2) (hrt : (rt2 : ℝ) ≤ 1415 / 1000)
    (hnear : ∃ z : Fin 3 → ℤ, z ≠ 0 ∧ gridLength K z ^ 3 ≤ √2 * |K.det|)
    (hspan : ∃ W : IntMat, IsUnit W.det ∧ ∀ j, gridLength K (W *ᵥ Pi.single j 1) ^ 3 ≤ w * |K.det|)
    (hfar : ∀ z : Fin 3 → ℤ, z ≠ 0 → f * |((Kᵀ)⁻¹).det| ≤ gridLength (Kᵀ)⁻¹ z ^ 3)
    (q1 : q.density ≤ 66 / 100 * q.share) (q2 : √2 * (3 / 2) ≤ q.share * q.near ^ 3) (n0 : 0 ≤ q.near)
    (q3 : w * (3 / 2) ≤ q.share * q.span ^ 3) (s0 : 0 ≤ q.span) (w0 : 0 ≤ w)
    (q4 : q.far ^ 3 * (3 / 2 * (1415 / 1000)) ≤ f * q.share) (f0 : 0 ≤ f) :
    Meets q rd natoms U K N k v := by
  obtain ⟨d1, d2⟩ := symmetricGrid_det hU hN hg
  have hU' : 0 < |U.det| := abs_pos.2 hU
  have hN' : (1 : ℝ) ≤ N := by exact_mod_cast hN
  have hn' : (1 : ℝ) ≤ n := by exact_mod_cast h1
  have hv0 : (0 : ℝ) < vol := by rw [hvol]; exact hU'
  have hround : ∀ x : ℚ, |x - n| ≤ 1 / 2 → 0 < (x : ℝ) ∧ q.share * (x : ℝ) ≤ 3 / 2 * N := by
    intro x hx
    have hx' : ((|x - n| : ℚ) : ℝ) ≤ ((1 / 2 : ℚ) : ℝ) := Rat.cast_le.2 hx
    push_cast at hx'
    obtain ⟨a1, a2⟩ := abs_le.1 hx'
    refine ⟨by linarith, ?_⟩
    have : (x : ℝ) ≤ 3 / 2 * n := by linarith
    nlinarith
  have hcube : ∀ {x y : ℝ}, 0 ≤ y → x ^ 3 ≤ y ^ 3 → x ≤ y := by
    intro x y hy h
    exact le_of_pow_le_pow_left₀ (by norm_num) hy h
  cases k with
  | nkpts => exact ⟨n, ha, hshare⟩
  | kppra =>
    obtain ⟨m, e1, e2⟩ := ha
    refine ⟨m, e1, ?_⟩
    rw [e2] at hshare
    exact_mod_cast hshare
  | kpdensity =>
    obtain ⟨d, e1, e2⟩ := ha
    refine ⟨d, e1, ?_⟩
    obtain ⟨b1, b2⟩ := hround _ e2
    push_cast at b1 b2
    rw [hvol] at b1 b2
    have hp := piLit_bounds
    obtain ⟨p3, p4⟩ := abs_le.1 hp.2
    have hpi := Real.pi_gt_d2
    have hpi' := Real.pi_lt_d2
    rw [det_nonsing_inv, det_transpose, Ring.inverse_eq_inv', abs_inv, le_div_iff₀ (by positivity)]
    have hd0 : 0 < (d : ℝ) := by
      by_contra hneg
      push Not at hneg
      have : (d : ℝ) * ((2 * piLit) ^ 3 / |U.det|) ≤ 0 :=
        mul_nonpos_of_nonpos_of_nonneg hneg (div_nonneg (pow_nonneg (by linarith) 3) hU'.le)
      linarith
    have hpp : 66 / 100 * (2 * Real.pi) ^ 3 ≤ 2 / 3 * (2 * (piLit : ℝ)) ^ 3 := by
      have h5 : (999 / 1000 : ℝ) * (2 * Real.pi) ≤ 2 * (piLit : ℝ) := by linarith
      have h6 := pow_le_pow_left₀ (by positivity) h5 3
      have h7 : 0 < (2 * Real.pi) ^ 3 := by positivity
      rw [mul_pow] at h6
      linarith
    have e : (d : ℝ) * ((2 * (piLit : ℝ)) ^ 3 / |U.det|) = d * (|U.det|)⁻¹ * (2 * (piLit : ℝ)) ^ 3 := by
      rw [div_eq_mul_inv]
      ring
    rw [e] at b2
    have c0 : 0 ≤ d * (|U.det|)⁻¹ := by positivity
    calc q.density * d * ((2 * Real.pi) ^ 3 * |U.det|⁻¹) = q.density * (d * (|U.det|)⁻¹) * (2 * Real.pi) ^ 3 := by ring
      _ ≤ (66 / 100 * q.share) * (d * (|U.det|)⁻¹) * (2 * Real.pi) ^ 3 := by gcongr
      _ = q.share * (d * (|U.det|)⁻¹) * (66 / 100 * (2 * Real.pi) ^ 3) := by ring
      _ ≤ q.share * (d * (|U.det|)⁻¹) * (2 / 3 * (2 * (piLit : ℝ)) ^ 3) := by gcongr
      _ ≤ N := by linarith
  | kspacing =>
    obtain ⟨s, e1, e2⟩ := ha
    obtain ⟨b1, b2⟩ := hround _ e2
    push_cast at b1 b2
    rw [hvol] at b1 b2
    have hs0 : 0 < (s : ℝ) := by
      by_contra hneg
      push Not at hneg
      have : (s : ℝ) ^ 3 ≤ 0 := by
        have := mul_nonpos_of_nonneg_of_nonpos (sq_nonneg (s : ℝ)) hneg
        calc (s : ℝ) ^ 3 = s ^ 2 * s := by ring
          _ ≤ 0 := this
      have : 1 / |U.det| / (s : ℝ) ^ 3 ≤ 0 := div_nonpos_of_nonneg_of_nonpos (by positivity) this
      linarith
    have hdet : q.share * |K.det| ≤ 3 / 2 * s ^ 3 := by
      rw [d1, mul_one_div, div_le_iff₀ (by positivity)]
      have : q.share * (1 / |U.det| / (s : ℝ) ^ 3) * (|U.det| * s ^ 3) ≤ 3 / 2 * N * (|U.det| * s ^ 3) :=
        mul_le_mul_of_nonneg_right b2 (by positivity)
      have e : q.share * (1 / |U.det| / (s : ℝ) ^ 3) * (|U.det| * s ^ 3) = q.share := by field_simp
      rw [e] at this
      linarith
    have hall : ∀ {g u Q : ℝ}, g ^ 3 ≤ u * |K.det| → 0 ≤ u → 0 ≤ Q → u * (3 / 2) ≤ q.share * Q ^ 3 → g ≤ Q * s := by
      intro g u Q a1 a2 a3 a4
      refine hcube (by positivity) ?_
      have : q.share * g ^ 3 ≤ q.share * (Q * s) ^ 3 := by
        calc q.share * g ^ 3 ≤ q.share * (u * |K.det|) := by gcongr
          _ = u * (q.share * |K.det|) := by ring
          _ ≤ u * (3 / 2 * s ^ 3) := by gcongr
          _ = u * (3 / 2) * s ^ 3 := by ring
          _ ≤ q.share * Q ^ 3 * s ^ 3 := by gcongr
          _ = _ := by ring
      exact le_of_mul_le_mul_left this hq0
    obtain ⟨z, z1, z2⟩ := hnear
    obtain ⟨W, w1, w2⟩ := hspan
    exact ⟨s, e1, ⟨z, z1, hall z2 (Real.sqrt_nonneg 2) n0 q2⟩, W, w1, fun j => hall (w2 j) w0 s0 q3⟩
  | rmin =>
    obtain ⟨r, e1, e2⟩ := ha
    refine ⟨r, e1, fun z hz => ?_⟩
    obtain ⟨b1, b2⟩ := hround _ e2
    push_cast at b1 b2
    rw [hvol] at b1 b2
    have hrt0' : (0 : ℝ) < rt2 := by exact_mod_cast hrt0
    have hr3 : 0 < (r : ℝ) ^ 3 := by
      rw [div_div] at b1
      exact (div_pos_iff_of_pos_right (by positivity)).1 b1
    refine hcube (gridLength_nonneg _ _) ((le_trans ?_ (hfar z hz)))
    rw [d2]
    have hb : q.share * (r : ℝ) ^ 3 ≤ 3 / 2 * N * (rt2 * |U.det|) := by
      have : q.share * ((r : ℝ) ^ 3 / rt2 / |U.det|) * (rt2 * |U.det|) ≤ 3 / 2 * N * (rt2 * |U.det|) :=
        mul_le_mul_of_nonneg_right b2 (by positivity)
      have e : q.share * ((r : ℝ) ^ 3 / rt2 / |U.det|) * (rt2 * |U.det|) = q.share * r ^ 3 := by field_simp
      rwa [e] at this
    have hb' : q.share * (r : ℝ) ^ 3 ≤ 3 / 2 * (1415 / 1000) * (|U.det| * N) := by
      refine hb.trans ?_
      have : (rt2 : ℝ) * (|U.det| * N) ≤ 1415 / 1000 * (|U.det| * N) := mul_le_mul_of_nonneg_right hrt (by positivity)
      nlinarith
    have key : q.share * (q.far * r) ^ 3 ≤ q.share * (f * (|U.det| * N)) := by
      rcases le_or_gt 0 (q.far ^ 3) with h0 | h0
      · calc q.share * (q.far * r) ^ 3 = q.far ^ 3 * (q.share * r ^ 3) := by ring
          _ ≤ q.far ^ 3 * (3 / 2 * (1415 / 1000) * (|U.det| * N)) := by gcongr
          _ = q.far ^ 3 * (3 / 2 * (1415 / 1000)) * (|U.det| * N) := by ring
          _ ≤ f * q.share * (|U.det| * N) := by gcongr
          _ = _ := by ring
      · have a1 : (q.far * r) ^ 3 ≤ 0 := by
          rw [mul_pow]
          exact mul_nonpos_of_nonpos_of_nonneg h0.le hr3.le
        have a2 : 0 ≤ f * (|U.det| * N) := by positivity
        gcongr
        linarith
    exact le_of_mul_le_mul_left key hq0
  | _ => exact ha.elim

/-! ## The program -/

/-- The library is made of a lattice reduction and a square root, counts the point symmetries of the lattice, and each
grid has an irreducible point. -/
structure EnvBuilt (env : Env (Matrix (Fin 3) (Fin 3) ℚ)) (mink : Matrix (Fin 3) (Fin 3) ℚ → Matrix (Fin 3) (Fin 3) ℚ)
    (sqrt : ℚ → ℚ) (U : RMat ℚ) (eps : ℚ) (r : IdCell) : Prop where
  reduction : Minkowski mink
  root : SqrtOk sqrt
  pgSize : env.pgSize U eps = (PointSym (realCell U)).ncard
  built : ∀ base types flag, BuiltFrom mink sqrt U r (env.lib U base types flag eps r)
  irr : ∀ base types flag g o m, (env.lib U base types flag eps r).irr g o = some m → 1 ≤ m

theorem EnvBuilt.right {env : Env (Matrix (Fin 3) (Fin 3) ℚ)} {mink : Matrix (Fin 3) (Fin 3) ℚ → Matrix (Fin 3) (Fin 3) ℚ}
    {sqrt : ℚ → ℚ} {U : RMat ℚ} {eps rho : ℚ} {r : IdCell} (hb : EnvBuilt env mink sqrt U eps r)
    (h : Recognised equal U eps rho r) : EnvRight env U eps r :=
  ⟨hb.pgSize, fun base types flag => ((hb.built base types flag).right hb.reduction hb.root h).1, hb.irr⟩

/-- The grid that `compare_grids` takes is packed. -/
theorem EnvBuilt.packed {env : Env (Matrix (Fin 3) (Fin 3) ℚ)} {mink : Matrix (Fin 3) (Fin 3) ℚ → Matrix (Fin 3) (Fin 3) ℚ}
    {sqrt : ℚ → ℚ} {U : RMat ℚ} {eps rho : ℚ} {r : IdCell} (hb : EnvBuilt env mink sqrt U eps r)
    (h : Recognised equal U eps rho r) {H : IntMat} (hH : H.det ≠ 0) {base : List (Fin 3 → ℚ)} {types : List ℕ} {flag : ℕ}
    (hp : ((env.lib U base types flag eps r).geom H).packed = true) :
    PackedAtLeast (29 / 100) (realMat ((env.lib U base types flag eps r).geom H).grid) ∧
      ((env.lib U base types flag eps r).geom H).grid.det ≠ 0 := by
  rw [(hb.built base types flag).geom] at hp ⊢
  obtain ⟨-, h2, h3⟩ := hb.reduction _ (gridOf_det h hH)
  exact ⟨(compareGeom_packed hb.root h2 h3).2 hp, h2.ne'⟩

variable {rd : Reader} {junk : ℤ} {rt2 : ℚ} {poscar kpgen : List (List Char)} {d : PoscarData}
  {settings : List (Key × List Char)} {env : Env (Matrix (Fin 3) (Fin 3) ℚ)} {fuel : ℕ} {k : Key} {v : List Char}
  {eps rho : ℚ} {r : IdCell} {mink : Matrix (Fin 3) (Fin 3) ℚ → Matrix (Fin 3) (Fin 3) ℚ} {sqrt : ℚ → ℚ}

/-- The shape of a grid that is packed. -/
theorem packed_shape {s : ℚ} (hs : s ≠ 0) {M : Matrix (Fin 3) (Fin 3) ℚ} (hM : M.det ≠ 0)
    (hp : PackedAtLeast (29 / 100) (realMat M)) :
    (∃ z : Fin 3 → ℤ, z ≠ 0 ∧ gridLength (realMat (s • M)) z ^ 3 ≤ √2 * |(realMat (s • M)).det|) ∧
    (∃ W : IntMat, IsUnit W.det ∧
      ∀ j, gridLength (realMat (s • M)) (W *ᵥ Pi.single j 1) ^ 3 ≤ 927 / 100 * |(realMat (s • M)).det|) ∧
    ∀ z : Fin 3 → ℤ, z ≠ 0 → 108 / 1000 * |(((realMat (s • M))ᵀ)⁻¹).det| ≤
      gridLength ((realMat (s • M))ᵀ)⁻¹ z ^ 3 := by
  have hM' : (s • M).det ≠ 0 := by
    rw [det_smul]
    exact mul_ne_zero (pow_ne_zero _ hs) hM
  have hp' : PackedAtLeast (29 / 100) (realMat (s • M)) := by
    rw [realMat_smul]
    exact packedAtLeast_smul hp
  have hd : (realMat (s • M)).det ≠ 0 := by
    rw [realMat_det]
    exact_mod_cast hM'
  have hpi := Real.pi_lt_d4
  have hpi0 := Real.pi_pos
  have hc : (3066 / 10000 : ℝ) ≤ (6 * (29 / 100) / Real.pi) ^ 2 := by
    have : (5538 / 10000 : ℝ) ≤ 6 * (29 / 100) / Real.pi := by
      rw [le_div_iff₀ hpi0]
      linarith
    have := pow_le_pow_left₀ (by norm_num) this 2
    norm_num at this ⊢
    linarith
  have h2 : √2 ≤ 14143 / 10000 := by
    rw [Real.sqrt_le_left (by norm_num)]
    norm_num
  obtain ⟨Co, A, B, C, D, E, F, -, hn, -⟩ := niggli_realMat hM'
  have hd0 : 0 < |(realMat (s • M)).det| := abs_pos.2 hd
  refine ⟨shortest_upper hn, ⟨Co, hn.unit, fun j => ?_⟩, fun z hz => ?_⟩
  · have := packed_basis hn hd (by norm_num) hp' j
    have g0 : 0 ≤ gridLength (realMat (s • M)) (Co *ᵥ Pi.single j 1) ^ 3 := pow_nonneg (gridLength_nonneg _ _) 3
    generalize gridLength (realMat (s • M)) (Co *ᵥ Pi.single j 1) ^ 3 = g at *
    generalize |(realMat (s • M)).det| = x at *
    nlinarith
  · have := dual_packed hn hd (by norm_num) hp' z hz
    have g0 : 0 ≤ gridLength ((realMat (s • M))ᵀ)⁻¹ z ^ 3 := pow_nonneg (gridLength_nonneg _ _) 3
    rw [det_nonsing_inv, det_transpose, Ring.inverse_eq_inv', abs_inv, ← div_eq_mul_inv, div_le_iff₀ hd0]
    generalize gridLength ((realMat (s • M))ᵀ)⁻¹ z ^ 3 = g at *
    generalize |(realMat (s • M)).det| = x at *
    have : 0 ≤ g * x := by positivity
    nlinarith

/-- The lattices that are neither cubic nor triclinic. -/
noncomputable def generalQuality : Quality := ⟨1, 66 / 100, 13 / 10, 241 / 100, 37 / 100⟩

/-- The cubic lattices. -/
noncomputable def cubicQuality : Quality := ⟨1, 66 / 100, 13 / 10, 13 / 10, 77 / 100⟩

/-- The triclinic lattices. -/
noncomputable def tricQuality : Quality := ⟨1 / 2, 33 / 100, 163 / 100, 304 / 100, 29 / 100⟩

theorem scale_ne (hdet : (d.scale • d.columns).det ≠ 0) : d.scale ≠ 0 := by
  rintro h0
  rw [h0, zero_smul, det_zero] at hdet
  exact hdet rfl

theorem pointSym_scaled (hdet : (d.scale • d.columns).det ≠ 0) :
    PointSym (realMat (d.scale • d.columns)) = PointSym (realCell (cellOf d.columns)) := by
  have hU : realCell (cellOf d.columns) = realMat d.columns := by
    unfold realCell
    rw [cellOf_toMatrix]
    rfl
  rw [hU, realMat_smul]
  have hs' : (d.scale : ℝ) ≠ 0 := by exact_mod_cast scale_ne hdet
  ext X
  constructor
  · rintro ⟨R, h1, h2⟩
    refine ⟨R, h1, ?_⟩
    rw [mul_smul_comm, smul_mul_assoc] at h2
    exact smul_right_injective _ hs' h2
  · rintro ⟨R, h1, h2⟩
    exact ⟨R, h1, by rw [mul_smul_comm, smul_mul_assoc, h2]⟩

theorem vol_eq : ((|(d.scale • d.columns).det| : ℚ) : ℝ) = |(realMat (d.scale • d.columns)).det| := by
  rw [realMat_det, Rat.cast_abs]

theorem sqrt_two_le : √2 ≤ 14143 / 10000 := by
  rw [Real.sqrt_le_left (by norm_num)]
  norm_num

/-- C103, for the lattices that are neither cubic nor triclinic: the grid has at least the number of points wished and
two thirds of the density, neighbouring points are at most 1.3 times the spacing apart, the grid is spanned by vectors
of at most 2.41 times the spacing, and the distances in real space are at least 0.37 times the one wished. -/
theorem program_meets_general (hp : PoscarSays rd poscar d) (hdet : (d.scale • d.columns).det ≠ 0) (hrt0 : 0 < rt2)
    (hrt : (rt2 : ℝ) ≤ 1415 / 1000)
    (hf : FileSays kpgen settings) (hu : Usable rd rt2 d.counts.sum |(d.scale • d.columns).det| settings)
    (hk : lastOf densitySetting settings = some (k, v)) (he : Tolerance rd settings eps)
    (h : Recognised env.equal (cellOf d.columns) eps rho r) (hb : EnvBuilt env mink sqrt (cellOf d.columns) eps r)
    (hasks : ∀ n, Asks rd piLit rt2 d.counts.sum |(d.scale • d.columns).det| k v n →
      1 ≤ n ∧ IntsFit env.wrap (n + fuel))
    (hid : r.id ∉ [1, 3, 5, 31, 44]) :
    program env rd junk rt2 fuel poscar kpgen = .error (.grid .running) ∨
    ∃ e, program env rd junk rt2 fuel poscar kpgen = .ok e ∧
      SymmetricGrid (realMat (d.scale • d.columns)) (realMat (d.scale⁻¹ • e.sel.grid)) e.nt_kpts ∧
      Meets generalQuality rd d.counts.sum (realMat (d.scale • d.columns)) (realMat (d.scale⁻¹ • e.sel.grid)) e.nt_kpts
        k v := by
  have hl := hb.right h
  obtain ⟨n, base, types, s, p1, p2, p3, p4⟩ := program_reads (junk := junk) env hp hdet hrt0.ne' hf hu hk he
  obtain ⟨offsets, s_range, q1, q2, q3, q4⟩ := find_grid_searches env h hl.pgSize n base types s.offset
    s.find_offset (offset_ne_none p3 p4 hu.readable) s.symm_flag s.min_kpts
  obtain ⟨h1, hfit⟩ := hasks n p2
  obtain ⟨k1, k2⟩ := h.id_range
  obtain ⟨s', hs1, hs2⟩ := sRange_le r.id k1 k2 hid
  have hs3 : s_range = s' := by
    rw [h.s_range, hs1] at q1
    exact (Option.some.inj q1).symm
  rw [p1 fuel, q4 fuel]
  rcases findGrid_general (env.lib (cellOf d.columns) base types s.symm_flag eps r)
    (hl.irr base types s.symm_flag) env.wrap eps offsets s.min_kpts (env.root n) fuel r.id k1 k2 hid _
    (reduced_canonC r.id k1 k2 fun hm => hid (by simp at hm ⊢; omega)) s_range (by omega) n h1 hfit with
    hr | ⟨e, he', -, a2, a3, a4, -, -⟩
  · left
    rw [hr]
  · right
    obtain ⟨b1, b2⟩ := find_grid_symmetric_general h hid (hl.reduces base types s.symm_flag)
      (hl.irr base types s.symm_flag) env.wrap offsets s.min_kpts (env.root n) fuel s_range q1 n h1 hfit e he'
    have hsym := real_scaled hdet b1
    refine ⟨e, by rw [he'], hsym, ?_⟩
    have hH : e.sel.HNF.det ≠ 0 := by
      rw [a2.2.1]
      omega
    obtain ⟨c1, c2⟩ := hb.packed h hH a4
    rw [← a3] at c1 c2
    obtain ⟨g1, g2, g3⟩ := packed_shape (inv_ne_zero (scale_ne hdet)) c2 c1
    have h2 := sqrt_two_le
    refine meets_of vol_eq (by rw [realMat_det]; exact_mod_cast hdet) p2 h1 (h1.trans b2) (by norm_num [generalQuality])
      ?_ hsym hrt0 hrt g1 g2 g3 ?_ ?_ ?_ ?_ ?_ ?_ ?_ ?_
    · simp only [generalQuality]
      rw [one_mul]
      exact_mod_cast b2
    all_goals norm_num [generalQuality]
    linarith

/-- C103, for the cubic lattices, if a grid is found (see C88): here the spanning vectors are at most
1.3 times the spacing long, and the distances in real space are at least 0.77 times the one wished. -/
theorem program_meets_cubic (hp : PoscarSays rd poscar d) (hdet : (d.scale • d.columns).det ≠ 0) (hrt0 : 0 < rt2)
    (hrt : (rt2 : ℝ) ≤ 1415 / 1000)
    (hf : FileSays kpgen settings) (hu : Usable rd rt2 d.counts.sum |(d.scale • d.columns).det| settings)
    (hk : lastOf densitySetting settings = some (k, v)) (he : Tolerance rd settings eps)
    (h : Recognised env.equal (cellOf d.columns) eps rho r) (hl : EnvRight env (cellOf d.columns) eps r)
    (hw : env.wrap = id ∨ Int32 env.wrap)
    (hasks : ∀ n, Asks rd piLit rt2 d.counts.sum |(d.scale • d.columns).det| k v n →
      1 ≤ n ∧ 0 ≤ env.root n ∧ env.root n ^ 3 ≤ n ∧
        n < (env.root n + 2) ^ 3)
    (hid : r.id ∈ [1, 3, 5]) {e : Entry (Matrix (Fin 3) (Fin 3) ℚ) Offset}
    (hok : program env rd junk rt2 fuel poscar kpgen = .ok e) :
      SymmetricGrid (realMat (d.scale • d.columns)) (realMat (d.scale⁻¹ • e.sel.grid)) e.nt_kpts ∧
      Meets cubicQuality rd d.counts.sum (realMat (d.scale • d.columns)) (realMat (d.scale⁻¹ • e.sel.grid)) e.nt_kpts
        k v := by
  obtain ⟨n, e2, e3, e4, -⟩ := program_cubic hp hdet hrt0.ne' hf hu hk he h hl hw hasks hid hok
  refine ⟨e4, ?_⟩
  have h1 := (hasks n e2).1
  have hU : (realMat (d.scale • d.columns)).det ≠ 0 := by
    rw [realMat_det]
    exact_mod_cast hdet
  have hM : (d.scale⁻¹ • e.sel.grid).det ≠ 0 := by
    intro h0
    have := (symmetricGrid_det hU (h1.trans e3) e4).1
    rw [realMat_det, h0] at this
    have hN' : (0 : ℝ) < e.nt_kpts := by exact_mod_cast (by omega : 0 < e.nt_kpts)
    have hU' := abs_pos.2 hU
    have : (0 : ℝ) < 1 / (|(realMat (d.scale • d.columns)).det| * e.nt_kpts) := by positivity
    simp_all
  have h48 : 48 ≤ (PointSym (realMat (d.scale • d.columns))).ncard := by
    obtain ⟨b, hb, hc⟩ := pointSym_order h.niggliCell h.isClass
    rw [pointSym_scaled hdet, hc]
    simp only [List.mem_cons, List.not_mem_nil, or_false] at hid
    rcases hid with e | e | e <;> rw [e] at hb <;> cases hb <;> decide
  have hs := symmetric_many hU hM e4
  have hdual : ((realMat (d.scale⁻¹ • e.sel.grid))ᵀ)⁻¹ = realMat ((d.scale⁻¹ • e.sel.grid)ᵀ)⁻¹ := by
    rw [realMat_inv (by rwa [det_transpose]), realMat_transpose]
  obtain ⟨-, W, w1, w2⟩ := many_cubic hM (h48.trans hs.1)
  have h5 := h48.trans hs.2
  rw [hdual] at h5
  obtain ⟨g3, -⟩ := many_cubic (by rw [det_nonsing_inv, det_transpose, Ring.inverse_eq_inv']; exact inv_ne_zero hM) h5
  have h2 := sqrt_two_le
  rw [← hdual] at g3
  refine meets_of (f := 1) vol_eq hU e2 h1 (h1.trans e3) (by norm_num [cubicQuality])
      ?_ e4 hrt0 hrt ⟨_, unit_mulVec_ne w1 (single_ne_zero 0), w2 0⟩ ⟨W, w1, w2⟩
      (fun z hz => by rw [one_mul]; exact g3 z hz) ?_ ?_ ?_ ?_ ?_ ?_ ?_ ?_
  · simp only [cubicQuality]
    rw [one_mul]
    exact_mod_cast e3
  all_goals norm_num [cubicQuality]
  all_goals linarith

/-- C103, for the triclinic lattices: the grid has at least half of the points wished (C75). -/
theorem program_meets_tric (hp : PoscarSays rd poscar d) (hdet : (d.scale • d.columns).det ≠ 0) (hrt0 : 0 < rt2)
    (hrt : (rt2 : ℝ) ≤ 1415 / 1000)
    (hf : FileSays kpgen settings) (hu : Usable rd rt2 d.counts.sum |(d.scale • d.columns).det| settings)
    (hk : lastOf densitySetting settings = some (k, v)) (he : Tolerance rd settings eps)
    (h : Recognised env.equal (cellOf d.columns) eps rho r) (hb : EnvBuilt env mink sqrt (cellOf d.columns) eps r)
    (hasks : ∀ n, Asks rd piLit rt2 d.counts.sum |(d.scale • d.columns).det| k v n → 1 ≤ n)
    (hid : r.id ∈ [31, 44]) :
    program env rd junk rt2 fuel poscar kpgen = .error (.grid .running) ∨
    ∃ e N, program env rd junk rt2 fuel poscar kpgen = .ok e ∧
      SymmetricGrid (realMat (d.scale • d.columns)) (realMat (d.scale⁻¹ • e.sel.grid)) N ∧
      Meets tricQuality rd d.counts.sum (realMat (d.scale • d.columns)) (realMat (d.scale⁻¹ • e.sel.grid)) N k v := by
  have hl := hb.right h
  obtain ⟨n, base, types, s, p1, p2, p3, p4⟩ := program_reads (junk := junk) env hp hdet hrt0.ne' hf hu hk he
  obtain ⟨offsets, s_range, q1, q2, q3, q4⟩ := find_grid_searches env h hl.pgSize n base types s.offset
    s.find_offset (offset_ne_none p3 p4 hu.readable) s.symm_flag s.min_kpts
  have h1 := hasks n p2
  rw [p1 fuel, q4 fuel]
  have hCo : r.Co.toMat.det = 1 := (reduceCell_same_lattice env.equal _ (some eps) _ h.parts.2).1
  rcases findGrid_tric (env.lib (cellOf d.columns) base types s.symm_flag eps r) (hl.irr base types s.symm_flag)
    env.wrap eps offsets s.min_kpts (env.root n) fuel r.id hid r.Co.toMat (.inl hCo) s_range n h1 with
    hr | ⟨e, he', ⟨q', m', H, u1, u2, -, -, -, u3, -⟩, -, a3, a4, -, -⟩
  · left
    rw [hr]
  · right
    obtain ⟨q, m, b1, b2, b3, b4⟩ := find_grid_symmetric_tric h hid (hl.reduces base types s.symm_flag)
      (hl.irr base types s.symm_flag) env.wrap offsets s.min_kpts (env.root n) fuel s_range n h1 e he'
    have hsym := real_scaled hdet b1
    refine ⟨e, q * m ^ 3, by rw [he'], hsym, ?_⟩
    have hH : e.sel.HNF.det ≠ 0 := by
      rw [u3]
      exact mul_ne_zero (by omega) (pow_ne_zero _ (by omega))
    obtain ⟨c1, c2⟩ := hb.packed h hH a4
    rw [← a3] at c1 c2
    obtain ⟨g1, g2, g3⟩ := packed_shape (inv_ne_zero (scale_ne hdet)) c2 c1
    have h2 := sqrt_two_le
    have hm3 : 1 ≤ m ^ 3 := one_le_pow₀ b3
    have hN : n ≤ 2 * (q * m ^ 3) := by nlinarith
    have hN1 : 1 ≤ q * m ^ 3 := by nlinarith
    refine meets_of vol_eq (by rw [realMat_det]; exact_mod_cast hdet) p2 h1 hN1 (by norm_num [tricQuality])
      ?_ hsym hrt0 hrt g1 g2 g3 ?_ ?_ ?_ ?_ ?_ ?_ ?_ ?_
    · simp only [tricQuality]
      have : (n : ℝ) ≤ 2 * ((q * m ^ 3 : ℤ) : ℝ) := by exact_mod_cast hN
      linarith
    all_goals norm_num [tricQuality]
    linarith

/-! ## The distance in real space -/

/-- C103: the number of points that `RMIN = r` asks for is not too large.  Every commensurate grid whose real-space lattice
has no distance below `r` has at least that many points. -/
theorem rmin_needed {U : Matrix (Fin 3) (Fin 3) ℚ} (hU : U.det ≠ 0) {K : Matrix (Fin 3) (Fin 3) ℝ} {N : ℤ} (hN : 1 ≤ N)
    (hg : ∃ M : IntMat, ((realMat U)ᵀ)⁻¹ = K * toReal M ∧ |M.det| = N) {s : ℚ} (hv : rd.real v = some s)
    (hdist : ∀ z : Fin 3 → ℤ, z ≠ 0 → (s : ℝ) ≤ gridLength (Kᵀ)⁻¹ z) (hrt : √2 ≤ rt2) {natoms n : ℤ}
    (ha : Asks rd piLit rt2 natoms |U.det| .rmin v n) : n ≤ N := by
  obtain ⟨M, m1, m2⟩ := hg
  have hU' : (realMat U).det ≠ 0 := by rw [realMat_det]; exact_mod_cast hU
  have hM : M.det ≠ 0 := by
    rintro h0
    rw [h0] at m2
    simp at m2
    omega
  have hMr : IsUnit (toReal M).det := by
    rw [toReal_det]
    exact isUnit_iff_ne_zero.2 (by exact_mod_cast hM)
  have hS : (Kᵀ)⁻¹ = realMat (U * castMat Mᵀ) := by
    have hK : K = ((realMat U)ᵀ)⁻¹ * (toReal M)⁻¹ := by
      rw [m1, Matrix.mul_assoc, mul_nonsing_inv _ hMr, Matrix.mul_one]
    rw [realMat_mul, realMat_castMat]
    apply inv_eq_right_inv
    have e : toReal Mᵀ = (toReal M)ᵀ := rfl
    rw [hK, transpose_mul, transpose_nonsing_inv, transpose_nonsing_inv, transpose_transpose, e, Matrix.mul_assoc,
      ← Matrix.mul_assoc _ (realMat U), nonsing_inv_mul _ (isUnit_iff_ne_zero.2 hU'), Matrix.one_mul, nonsing_inv_mul]
    rw [det_transpose]
    exact hMr
  have hd : (U * castMat Mᵀ).det ≠ 0 := by
    have : (realMat (U * castMat Mᵀ)).det ≠ 0 := by
      rw [realMat_mul, realMat_castMat, det_mul, toReal_det, det_transpose]
      exact mul_ne_zero hU' (by exact_mod_cast hM)
    rw [realMat_det] at this
    exact_mod_cast this
  obtain ⟨Co, A, B, C, D, E, F, -, hn, -⟩ := niggli_realMat hd
  obtain ⟨z, z1, z2⟩ := shortest_upper hn
  have z3 := hdist z z1
  rw [hS] at z3
  have hvol : |(realMat (U * castMat Mᵀ)).det| = |(realMat U).det| * N := by
    rw [realMat_mul, realMat_castMat, det_mul, toReal_det, det_transpose, abs_mul, ← Int.cast_abs, m2]
  rw [hvol] at z2
  obtain ⟨s', e1, e2⟩ := ha
  rw [hv] at e1
  cases e1
  have e3 : ((|s ^ 3 / rt2 / |U.det| - n| : ℚ) : ℝ) ≤ ((1 / 2 : ℚ) : ℝ) := Rat.cast_le.2 e2
  push_cast at e3
  change |(s : ℝ) ^ 3 / rt2 / |(realMat U).det| - n| ≤ 1 / 2 at e3
  have hU0 : 0 < |(realMat U).det| := abs_pos.2 hU'
  have h20 : 0 < √2 := by positivity
  have hr0 : (0 : ℝ) < rt2 := lt_of_lt_of_le h20 hrt
  have hN' : (1 : ℝ) ≤ N := by exact_mod_cast hN
  have hx : (s : ℝ) ^ 3 / rt2 / |(realMat U).det| ≤ N := by
    rw [div_div, div_le_iff₀ (by positivity)]
    have h1 : (s : ℝ) ^ 3 ≤ √2 * (|(realMat U).det| * N) := by
      refine le_trans ?_ z2
      exact (Odd.strictMono_pow (by decide : Odd 3)).monotone z3
    refine h1.trans ?_
    have : √2 * (|(realMat U).det| * N) ≤ rt2 * (|(realMat U).det| * N) :=
      mul_le_mul_of_nonneg_right hrt (by positivity)
    linarith
  have h5 := (abs_le.1 e3).1
  have h6 : (n : ℝ) < N + 1 := by linarith
  have h7 : n < N + 1 := by exact_mod_cast h6
  omega

/-- A grid with one class of equivalent points, unshifted, is the reciprocal lattice. -/
theorem one_irreducible {U K : Matrix (Fin 3) (Fin 3) ℝ} (hU : U.det ≠ 0) {N : ℤ} (hN : 1 ≤ N) (hg : SymmetricGrid U K N)
    {ops : Set (Matrix (Fin 3) (Fin 3) ℝ)} (hG : LatticeGroup U ops) {pts : List ((Fin 3 → ℝ) × ℤ)}
    (h : IrreduciblePoints (Uᵀ)⁻¹ K 0 ops pts) (hlen : pts.length = 1) : N = 1 := by
  obtain ⟨M, m1, m2⟩ := hg.reciprocal
  obtain ⟨p, rfl⟩ := List.length_eq_one_iff.1 hlen
  -- every point of the grid is equivalent to the point listed, hence to zero
  have hops := hG.reciprocal hU
  have hzero : ∃ m : Fin 3 → ℤ, p.1 = (Uᵀ)⁻¹ *ᵥ intVec m := by
    obtain ⟨i, ⟨Q, -, m, hm⟩, -⟩ := h.one 0 ⟨0, by rw [intVec_zero, mulVec_zero, add_zero]⟩
    have hi : i = ⟨0, by simp⟩ := Fin.ext (by have := i.isLt; simp at this ⊢)
    subst hi
    rw [mulVec_zero, zero_add] at hm
    exact ⟨m, hm⟩
  obtain ⟨m0, hm0⟩ := hzero
  have hall : ∀ z : Fin 3 → ℤ, ∃ m : Fin 3 → ℤ, K *ᵥ intVec z = (Uᵀ)⁻¹ *ᵥ intVec m := by
    intro z
    obtain ⟨i, ⟨Q, hQ, m, hm⟩, -⟩ := h.one (K *ᵥ intVec z) ⟨z, by rw [zero_add]⟩
    have hi : i = ⟨0, by simp⟩ := Fin.ext (by have := i.isLt; simp at this ⊢)
    subst hi
    obtain ⟨P, hP, hPQ⟩ := hG.inv Q hQ
    obtain ⟨X, hX⟩ := hops P hP
    have e1 : p.1 = Q *ᵥ (K *ᵥ intVec z) + (Uᵀ)⁻¹ *ᵥ intVec m := hm
    rw [hm0] at e1
    have e2 : Q *ᵥ (K *ᵥ intVec z) = (Uᵀ)⁻¹ *ᵥ intVec (m0 - m) := by
      have : intVec (m0 - m) = intVec m0 - intVec m := by
        funext j
        simp [intVec]
      rw [this, mulVec_sub, e1, add_sub_cancel_right]
    have e3 := congrArg (P *ᵥ ·) e2
    simp only [mulVec_mulVec] at e3
    rw [← Matrix.mul_assoc, hPQ, Matrix.one_mul, hX, ← mulVec_mulVec, intVec_mulVec] at e3
    exact ⟨_, e3⟩
  choose f hf using fun j : Fin 3 => hall (Pi.single j 1)
  have hK : K.det ≠ 0 := by
    intro h0
    have := (symmetricGrid_det hU hN hg).1
    rw [h0, abs_zero] at this
    have hU' := abs_pos.2 hU
    have hN' : (0 : ℝ) < N := by exact_mod_cast (by omega : 0 < N)
    have h1 : 0 < 1 / (|U.det| * N) := by positivity
    rw [← this] at h1
    exact lt_irrefl _ h1
  have hKB : K = (Uᵀ)⁻¹ * toReal (Matrix.of fun i j => f j i) := by
    ext i j
    have h1 := congrFun (hf j) i
    have e : intVec (Pi.single j 1) = Pi.single j 1 := by
      funext l
      by_cases hl : l = j
      · subst hl; simp [intVec]
      · simp [intVec, hl]
    rw [e, mulVec_single_one] at h1
    rw [Matrix.mul_apply]
    simpa [mulVec, dotProduct, intVec, toReal] using h1
  rw [m1, Matrix.mul_assoc, ← toReal_mul] at hKB
  have h1 := congrArg Matrix.det hKB
  rw [det_mul, toReal_det] at h1
  have h2 : (((M * Matrix.of fun i j => f j i).det : ℤ) : ℝ) = 1 := mul_left_cancel₀ hK (by rw [← h1, mul_one])
  have h3 : (M * Matrix.of fun i j => f j i).det = 1 := by exact_mod_cast h2
  rw [det_mul] at h3
  have h4 : IsUnit M.det := IsUnit.of_mul_eq_one _ h3
  rw [← m2]
  exact Int.isUnit_iff_abs_eq.1 h4

/-- A cube with the side 4, and the wish for a distance of 5 in real space; no shift. -/
def cubePoscar : List (List Char) := mainPoscar "2 0 0".toList "0 2 0".toList "0 0 2".toList

def cubeData : PoscarData := mainData (2, 0, 0) (0, 2, 0) (0, 0, 2)

def cubeKpgen : List (List Char) := ["RMIN=5".toList, "SHIFT=0 0 0".toList]

def cubeSettings : List (Key × List Char) := [(.rmin, "5".toList), (.shift, "0 0 0".toList)]

theorem cubeKpgen_says : FileSays cubeKpgen cubeSettings :=
  .sets ⟨0, by decide⟩ (.sets ⟨0, by decide⟩ .nil)

theorem cube_says : PoscarSays wordsReader cubePoscar cubeData :=
  mainPoscar_says (by decide) (by decide) (by decide)

theorem cube_det : (cubeData.scale • cubeData.columns).det = 64 := by
  have h : cubeData.columns.det = 8 := by
    rw [← cellOf_toMatrix cubeData.columns, ← rdet_eq]
    decide +kernel
  rw [det_smul, h]
  norm_num [cubeData, mainData]

theorem cube_asks {rt2 : ℚ} (h1 : 14 / 10 ≤ rt2) (h2 : rt2 ≤ 15 / 10) {natoms n : ℤ}
    (h : Asks wordsReader piLit rt2 natoms |(cubeData.scale • cubeData.columns).det| .rmin "5".toList n) : n = 1 := by
  obtain ⟨r, e1, e2⟩ := h
  have hr : r = 5 := Option.some.inj (e1.symm.trans (by decide))
  subst hr
  have e64 : |(64 : ℚ)| = 64 := abs_of_pos (by norm_num)
  rw [cube_det, e64, div_div] at e2
  obtain ⟨a1, a2⟩ := abs_le.1 e2
  have b1 : (5 : ℚ) ^ 3 / (rt2 * 64) ≤ 14 / 10 := by
    rw [div_le_iff₀ (by linarith)]
    linarith
  have b2 : 13 / 10 ≤ (5 : ℚ) ^ 3 / (rt2 * 64) := by
    rw [le_div_iff₀ (by linarith)]
    linarith
  have c1 : (n : ℚ) < 2 := by linarith
  have c2 : (0 : ℚ) < n := by linarith
  have c3 : n < 2 := by exact_mod_cast c1
  have c4 : 0 < n := by exact_mod_cast c2
  omega

theorem cube_usable {rt2 : ℚ} (h1 : 14 / 10 ≤ rt2) (h2 : rt2 ≤ 15 / 10) (natoms : ℤ) :
    Usable wordsReader rt2 natoms |(cubeData.scale • cubeData.columns).det| cubeSettings where
  readable := by
    intro p hp
    simp only [cubeSettings, List.mem_cons, List.not_mem_nil, or_false] at hp
    rcases hp with rfl | rfl
    · exact ⟨5, by decide⟩
    · exact ⟨(0, 0, 0), by decide⟩
  fits := by
    intro p hp n hn
    simp only [cubeSettings, List.mem_cons, List.not_mem_nil, or_false] at hp
    rcases hp with rfl | rfl
    · rw [cube_asks h1 h2 hn]
      norm_num
    · exact absurd hn (by simp [Asks])

/-- What `id_cell` finds for the cube. -/
def cubeId : IdCell := ⟨⟨1, 0, 0, 0, 1, 0, 0, 0, 1⟩, ⟨1, 0, 0, 0, 1, 0, 0, 0, 1⟩, 3, some 1⟩

theorem cube_recognised : Recognised cmpEqual (cellOf cubeData.columns) (8589935 / 2 ^ 33) (8589935 / 2 ^ 33) cubeId :=
  recognised_of (A := 4) (B := 4) (C := 4) (D := 0) (E := 0) (F := 0) (by decide +kernel) (by decide +kernel)
    (by decide +kernel) (by constructor <;> norm_num [TypeI, TypeII]) (by constructor <;> decide +kernel)
    (by norm_num) (by decide)

/-- The points of the reciprocal lattice are equivalent. -/
theorem all_irreducible {U K : Matrix (Fin 3) (Fin 3) ℝ} (hg : SymmetricGrid U K 1)
    {ops : Set (Matrix (Fin 3) (Fin 3) ℝ)} (hG : LatticeGroup U ops) {pts : List ((Fin 3 → ℝ) × ℤ)}
    (h : IrreduciblePoints (Uᵀ)⁻¹ K 0 ops pts) : pts.length = 1 := by
  obtain ⟨M, m1, m2⟩ := hg.reciprocal
  have hM : IsUnit M.det := Int.isUnit_iff_abs_eq.2 m2
  have hall : ∀ i : Fin pts.length, Equivalent (Uᵀ)⁻¹ ops 0 (pts.get i).1 := by
    intro i
    obtain ⟨z, hz⟩ := h.grid _ (List.get_mem pts i)
    refine ⟨1, hG.one, M⁻¹ *ᵥ z, ?_⟩
    rw [hz, mulVec_zero, m1, ← intVec_mulVec, mulVec_mulVec, Matrix.mul_assoc, ← toReal_mul, mul_nonsing_inv _ hM, toReal_one,
      Matrix.mul_one]
  obtain ⟨i, hi, huniq⟩ := h.one 0 ⟨0, by rw [intVec_zero, mulVec_zero, add_zero]⟩
  have h1 : 0 < pts.length := lt_of_le_of_lt (Nat.zero_le _) i.isLt
  by_contra hne
  have h2 : 1 < pts.length := by omega
  have e1 := huniq ⟨0, h1⟩ (hall _)
  have e2 := huniq ⟨1, h2⟩ (hall _)
  rw [← e2] at e1
  simp at e1

theorem keeps_one (X : IntMat) : Keeps X 1 := ⟨X, by rw [Matrix.mul_one, Matrix.one_mul]⟩

theorem isHNF_one : IsHNF 1 := by
  constructor <;> decide

/-- C103, the other side: a grid may have a smaller distance in real space than `RMIN`.  For a cube with the side 4 and
`RMIN = 5`, whatever library counts the irreducible points, the grid is the reciprocal lattice itself, and the distance is
4: one point is wished (1.38, rounded), and the grid of one point has the fewest irreducible ones. -/
theorem rmin_short (henv : env.equal = cmpEqual)
    (hl : EnvRight env (cellOf cubeData.columns) (8589935 / 2 ^ 33) cubeId)
    (htot : ∀ base types flag g o, (env.lib (cellOf cubeData.columns) base types flag (8589935 / 2 ^ 33) cubeId).irr g o ≠ none)
    (hw : env.wrap = id ∨ Int32 env.wrap) {ops ops0 : Set (Matrix (Fin 3) (Fin 3) ℝ)}
    (hG : LatticeGroup (realCell (cellOf cubeData.columns)) ops)
    (hc : ∀ base types flag, Counts (realCell (cellOf cubeData.columns)) ops ops0
      (env.lib (cellOf cubeData.columns) base types flag (8589935 / 2 ^ 33) cubeId))
    (hroot : 0 ≤ env.root 1 ∧ env.root 1 ^ 3 ≤ 1) (h1 : 14 / 10 ≤ rt2) (h2 : rt2 ≤ 15 / 10) :
    ∃ e, program env wordsReader junk rt2 fuel cubePoscar cubeKpgen = .ok e ∧ e.nt_kpts = 1 ∧
      SymmetricGrid (realMat (cubeData.scale • cubeData.columns)) (realMat (cubeData.scale⁻¹ • e.sel.grid)) 1 ∧
      ∃ z : Fin 3 → ℤ, z ≠ 0 ∧ gridLength ((realMat (cubeData.scale⁻¹ • e.sel.grid))ᵀ)⁻¹ z = 4 := by
  have hdet : (cubeData.scale • cubeData.columns).det ≠ 0 := by rw [cube_det]; norm_num
  have hrec := cube_recognised
  rw [← henv] at hrec
  have hu := cube_usable h1 h2 (cubeData.counts.sum : ℕ)
  obtain ⟨n, base, types, s, p1, p2, p3, p4⟩ := program_reads (junk := junk) env cube_says hdet (by linarith)
    cubeKpgen_says hu (k := .rmin) (v := "5".toList) rfl (eps := 8589935 / 2 ^ 33) rfl
  have hn := cube_asks h1 h2 p2
  subst hn
  obtain ⟨offsets, s_range, q1, q2, q3, q4⟩ := find_grid_searches env hrec hl.pgSize 1 base types s.offset
    s.find_offset (offset_ne_none p3 p4 hu.readable) s.symm_flag s.min_kpts
  have hoff : offsets = [(0, 0, 0)] := by
    have e1 : s.find_offset = false := by
      rw [Bool.eq_false_iff]
      intro h
      exact p4.1 h (.shift, "0 0 0".toList) (by simp [cubeSettings]) rfl
    have e2 : s.offset = some (0, 0, 0) := by
      rw [p3]
      decide
    rw [e1, e2] at q3
    exact (Option.some.inj q3).symm
  subst hoff
  have hid : cubeId.id ∈ [1, 3, 5] := by decide
  have hr2 : (1 : ℤ) < (env.root 1 + 2) ^ 3 := by
    have : (2 : ℤ) ^ 3 ≤ (env.root 1 + 2) ^ 3 := pow_le_pow_left₀ (by norm_num) (by linarith [hroot.1]) 3
    linarith
  obtain ⟨e, he, b1, b2, -⟩ := find_grid_symmetric_cubic_partial hrec hid (hl.reduces base types s.symm_flag)
    (hl.irr base types s.symm_flag) env.wrap hw [(0, 0, 0)] q2 (fun g o _ => htot base types s.symm_flag g o) s.min_kpts
    (env.root 1) fuel s_range 1 le_rfl (by decide) ⟨hroot.2, hr2⟩ hroot.1 (8589935 / 2 ^ 33)
  obtain ⟨e', he', -, -, -, a5, a6, a7⟩ := findGrid_cubic_partial
    (env.lib (cellOf cubeData.columns) base types s.symm_flag (8589935 / 2 ^ 33) cubeId)
    (hl.irr base types s.symm_flag) env.wrap hw (8589935 / 2 ^ 33) [(0, 0, 0)] q2
    (fun g o _ => htot base types s.symm_flag g o) s.min_kpts fuel cubeId.id hid _
    (reduced_canonC cubeId.id (by decide) (by decide) (by decide)) s_range 1 (env.root 1) le_rfl (by decide)
    ⟨hroot.2, hr2⟩ hroot.1
  rw [he] at he'
  cases he'
  have hUd := hrec.real_det
  have hpts : ∀ {K : Matrix (Fin 3) (Fin 3) ℚ} {N : ℤ}, 1 ≤ N → SymmetricGrid (realCell (cellOf cubeData.columns)) (realMat K) N →
      ∃ pts, IrreduciblePoints ((realCell (cellOf cubeData.columns))ᵀ)⁻¹ (realMat K) 0 ops pts := by
    intro K N hN hg
    obtain ⟨M, m1, m2⟩ := hg.reciprocal
    refine irreducible_exists hG.one hG.mul hG.inv (hG.reciprocal hUd) ?_ m1 ?_
    · intro h0
      have := (symmetricGrid_det hUd hN hg).1
      rw [h0, abs_zero] at this
      have hU' := abs_pos.2 hUd
      have hN' : (0 : ℝ) < N := by exact_mod_cast (by omega : 0 < N)
      have h1 : 0 < 1 / (|(realCell (cellOf cubeData.columns)).det| * N) := by positivity
      rw [← this] at h1
      exact lt_irrefl _ h1
    · rintro h0
      rw [h0] at m2
      simp at m2
      omega
  -- the grid of one point
  have hone : ∃ m, (env.lib (cellOf cubeData.columns) base types s.symm_flag (8589935 / 2 ^ 33) cubeId).irr
      ((env.lib (cellOf cubeData.columns) base types s.symm_flag (8589935 / 2 ^ 33) cubeId).gridOf 1) (0, 0, 0) = some m ∧
      m = 1 := by
    have hg := gridOf_symmetric hrec 1 (by simp) (fun X hX => keeps_one X) 1 (by simp)
    rw [castMat_one, Matrix.mul_one, Matrix.det_one, abs_one] at hg
    rw [(hl.reduces base types s.symm_flag).2]
    obtain ⟨pts, hp⟩ := hpts le_rfl hg
    exact ⟨_, (hc base types s.symm_flag).irr _ _ _ hg hp, all_irreducible hg hG hp⟩
  obtain ⟨m, m1, m2⟩ := hone
  have hpref := a7 1 ⟨le_rfl, ⟨1, isHNF_one, by simp, fun X _ => keeps_one X⟩, by
    have : {u : ℤ | 1 ≤ u ∧ u < 1 ∧ ∃ H, H ∈ SymmetricHNFs (ClassSym cubeId.id (canonC cubeId.id).toMat) u} = ∅ := by
      ext u
      simp
      intros
      omega
    rw [this]
    simp⟩ 1 ⟨isHNF_one, by simp, fun X _ => keeps_one X⟩ (0, 0, 0) (by simp) m m1
  rw [Preferred, if_neg (by norm_num), m2] at hpref
  have ho : e.sel.offset = (0, 0, 0) := by simpa using a5
  obtain ⟨pts, hp⟩ := hpts b2 b1
  have hirr := (hc base types s.symm_flag).irr _ _ _ b1 hp
  rw [ho, hirr] at a6
  have hlen : pts.length = 1 := by
    have e1 := Option.some.inj a6
    have e2 := hl.irr base types s.symm_flag _ _ _ hirr
    omega
  have hN := one_irreducible hUd b2 b1 hG hp hlen
  rw [hN] at b1
  have hsym := real_scaled hdet b1
  refine ⟨e, by rw [p1 fuel, q4 fuel, he], hN, hsym, ?_⟩
  obtain ⟨M, u1, u2⟩ := hsym.reciprocal
  generalize realMat (cubeData.scale⁻¹ • e.sel.grid) = K at u1
  have hM : IsUnit M.det := Int.isUnit_iff_abs_eq.2 u2
  have hMt : IsUnit (Mᵀ)⁻¹.det := by
    rw [det_nonsing_inv, det_transpose]
    exact hM.ringInverse
  refine ⟨(Mᵀ)⁻¹ *ᵥ Pi.single 0 1, unit_mulVec_ne hMt (single_ne_zero 0), ?_⟩
  have hS : (Kᵀ)⁻¹ = realMat (cubeData.scale • cubeData.columns) * toReal Mᵀ := by
    have hUd' : IsUnit (realMat (cubeData.scale • cubeData.columns)).det := by
      rw [realMat_det, cube_det]
      exact isUnit_iff_ne_zero.2 (by norm_num)
    apply inv_eq_left_inv
    have := congrArg transpose u1
    rw [transpose_nonsing_inv, transpose_transpose, transpose_mul] at this
    have e : (toReal M)ᵀ = toReal Mᵀ := rfl
    rw [Matrix.mul_assoc, ← e, ← this, mul_nonsing_inv _ hUd']
  rw [hS, gridLength_change, mulVec_mulVec, mul_nonsing_inv _ (by rwa [det_transpose]), one_mulVec, gridLength_single]
  have : (∑ i, (cubeData.scale • cubeData.columns) i 0 * (cubeData.scale • cubeData.columns) i 0) = 16 := by
    rw [Fin.sum_univ_three]
    decide +kernel
  rw [this]
  have : √((16 : ℚ) : ℝ) = √(4 ^ 2) := by norm_num
  rw [this, Real.sqrt_sq (by norm_num)]

/-! ## The hypotheses are met -/

open Classical in
/-- The machine of C102; for the matrices that are not a grid of the lattice it says 1. -/
noncomputable def totalEnv (mink : Matrix (Fin 3) (Fin 3) ℚ → Matrix (Fin 3) (Fin 3) ℚ) (sqrt : ℚ → ℚ) :
    Env (Matrix (Fin 3) (Fin 3) ℚ) :=
  let count (U : RMat ℚ) (K : Matrix (Fin 3) (Fin 3) ℚ) : Option ℕ :=
    if h : ∃ pts, IrreduciblePoints ((realCell U)ᵀ)⁻¹ (realMat K) 0 (allOps (realCell U)) pts then some h.choose.length
    else some 1
  { packEnv mink sqrt with
    lib := fun U _ _ _ _ r => ⟨sampleEqual, fun H => compareGeom sqrt (mink (gridOf U r H)), gridOf U r, fun K _ => count U K,
      fun K _ => count U K⟩ }

theorem totalEnv_counts {U : RMat ℚ} (hU : (realCell U).det ≠ 0) (base : List (Fin 3 → ℚ)) (types : List ℕ) (flag : ℕ)
    (eps : ℚ) (r : IdCell) :
    Counts (realCell U) (allOps (realCell U)) (allOps (realCell U)) ((totalEnv mink sqrt).lib U base types flag eps r) := by
  have key : ∀ (K : Matrix (Fin 3) (Fin 3) ℚ) pts,
      IrreduciblePoints ((realCell U)ᵀ)⁻¹ (realMat K) 0 (allOps (realCell U)) pts →
      ((totalEnv mink sqrt).lib U base types flag eps r).irr K (0, 0, 0) = some pts.length ∧
      ((totalEnv mink sqrt).lib U base types flag eps r).irrDefault K (0, 0, 0) = some pts.length := by
    intro K pts hp
    have hex : ∃ pts, IrreduciblePoints ((realCell U)ᵀ)⁻¹ (realMat K) 0 (allOps (realCell U)) pts := ⟨pts, hp⟩
    have hlen : hex.choose.length = pts.length := irreducible_length hU (latticeGroup_all hU) hex.choose_spec hp
    simp only [totalEnv]
    rw [dif_pos hex, hlen]
    exact ⟨rfl, rfl⟩
  exact ⟨fun K n pts _ hp => (key K pts hp).1, fun K n pts _ hp => (key K pts hp).2⟩

theorem totalEnv_built (hm : Minkowski mink) (hs : SqrtOk sqrt) (U : RMat ℚ) (eps : ℚ) (r : IdCell) :
    EnvBuilt (totalEnv mink sqrt) mink sqrt U eps r where
  reduction := hm
  root := hs
  pgSize := rfl
  built _ _ _ := ⟨fun _ => rfl, fun _ => rfl⟩
  irr base types flag K o m h := by
    simp only [totalEnv] at h
    split at h
    · rename_i hex
      have h1 := Option.some.inj h
      obtain ⟨i, -, -⟩ := hex.choose_spec.one 0 ⟨0, by rw [intVec_zero, mulVec_zero, add_zero]⟩
      have := i.isLt
      omega
    · have := Option.some.inj h
      omega

theorem totalEnv_total (U : RMat ℚ) (base : List (Fin 3 → ℚ)) (types : List ℕ) (flag : ℕ) (eps : ℚ) (r : IdCell)
    (g : Matrix (Fin 3) (Fin 3) ℚ) (o : Offset) : ((totalEnv mink sqrt).lib U base types flag eps r).irr g o ≠ none := by
  simp only [totalEnv]
  split <;> simp

/-- `sqrt(2._dp)`, rounded to 53 bits. -/
def rt2Double : ℚ := 6369051672525773 / 2 ^ 52

theorem rt2Double_bounds : √2 ≤ rt2Double ∧ (rt2Double : ℝ) ≤ 1415 / 1000 ∧ 14 / 10 ≤ rt2Double ∧ rt2Double ≤ 15 / 10 := by
  refine ⟨?_, by norm_num [rt2Double], by norm_num [rt2Double], by norm_num [rt2Double]⟩
  rw [Real.sqrt_le_left (by norm_num [rt2Double])]
  norm_num [rt2Double]

/-- C103 for the cube with `RMIN = 5`: the guarantee is 3.85, the distance is 4. -/
example (hm : Minkowski mink) (hs : SqrtOk sqrt) (junk : ℤ) (fuel : ℕ) :
    ∃ e, program (totalEnv mink sqrt) wordsReader junk rt2Double fuel cubePoscar cubeKpgen = .ok e ∧
      (∀ z : Fin 3 → ℤ, z ≠ 0 → 385 / 100 ≤ gridLength ((realMat (cubeData.scale⁻¹ • e.sel.grid))ᵀ)⁻¹ z) ∧
      ∃ z : Fin 3 → ℤ, z ≠ 0 ∧ gridLength ((realMat (cubeData.scale⁻¹ • e.sel.grid))ᵀ)⁻¹ z < 5 := by
  have hdet : (cubeData.scale • cubeData.columns).det ≠ 0 := by rw [cube_det]; norm_num
  obtain ⟨r1, r2, r3, r4⟩ := rt2Double_bounds
  have hl := (totalEnv_built hm hs (cellOf cubeData.columns) (8589935 / 2 ^ 33) cubeId).right cube_recognised
  obtain ⟨e, e1, -, -, z, z1, z2⟩ := rmin_short (env := totalEnv mink sqrt) (junk := junk) (fuel := fuel) rfl hl
    (fun b t f g o => totalEnv_total _ b t f _ _ g o) (.inl rfl) (latticeGroup_all cube_recognised.real_det)
    (fun _ _ _ => totalEnv_counts cube_recognised.real_det ..) (by simp [totalEnv, packEnv]) r3 r4
  obtain ⟨-, s, s1, s2⟩ := program_meets_cubic (env := totalEnv mink sqrt) (junk := junk) (fuel := fuel)
    cube_says hdet (by linarith) r2 cubeKpgen_says (cube_usable r3 r4 _) (k := .rmin) (v := "5".toList) rfl rfl
    cube_recognised hl (.inl rfl)
    (fun n hn => by
      rw [cube_asks r3 r4 hn]
      simp [totalEnv, packEnv]) (by decide) e1
  refine ⟨e, e1, fun w hw => ?_, z, z1, by rw [z2]; norm_num⟩
  have := s2 w hw
  have hs5 : s = 5 := Option.some.inj (s1.symm.trans (by decide))
  rw [hs5] at this
  norm_num [cubicQuality] at this ⊢
  exact this

/-- The wish for a distance of 20. -/
def farKpgen : List (List Char) := ["RMIN=20".toList, "SHIFT=0 0 0".toList]

def farSettings : List (Key × List Char) := [(.rmin, "20".toList), (.shift, "0 0 0".toList)]

theorem farKpgen_says : FileSays farKpgen farSettings :=
  .sets ⟨0, by decide⟩ (.sets ⟨0, by decide⟩ .nil)

theorem far_asks {natoms n : ℤ} {vol : ℚ} (h1 : 1 ≤ vol) (h2 : vol ≤ 1000)
    (h : Asks wordsReader piLit rt2Double natoms vol .rmin "20".toList n) : 1 ≤ n ∧ n ≤ 10000 := by
  obtain ⟨r, e1, e2⟩ := h
  have hr : r = 20 := Option.some.inj (e1.symm.trans (by decide))
  subst hr
  obtain ⟨-, -, r3, r4⟩ := rt2Double_bounds
  rw [div_div] at e2
  obtain ⟨a1, a2⟩ := abs_le.1 e2
  have b1 : (20 : ℚ) ^ 3 / (rt2Double * vol) ≤ 9000 := by
    rw [div_le_iff₀ (by nlinarith)]
    nlinarith
  have b2 : 1 ≤ (20 : ℚ) ^ 3 / (rt2Double * vol) := by
    rw [le_div_iff₀ (by nlinarith)]
    nlinarith
  have c1 : (n : ℚ) < 10000 := by linarith
  have c2 : (0 : ℚ) < n := by linarith
  have c3 : n < 10000 := by exact_mod_cast c1
  have c4 : 0 < n := by exact_mod_cast c2
  omega

theorem far_usable (natoms : ℤ) {vol : ℚ} (h1 : 1 ≤ vol) (h2 : vol ≤ 1000) :
    Usable wordsReader rt2Double natoms vol farSettings where
  readable := by
    intro p hp
    simp only [farSettings, List.mem_cons, List.not_mem_nil, or_false] at hp
    rcases hp with rfl | rfl
    · exact ⟨20, by decide⟩
    · exact ⟨(0, 0, 0), by decide⟩
  fits := by
    intro p hp n hn
    simp only [farSettings, List.mem_cons, List.not_mem_nil, or_false] at hp
    rcases hp with rfl | rfl
    · have := far_asks h1 h2 hn
      omega
    · exact absurd hn (by simp [Asks])

theorem main_vol {v1 v2 v3 : ℚ × ℚ × ℚ} {x : ℚ} (h : rdet (cellOf (mainData v1 v2 v3).columns) = x) :
    |((mainData v1 v2 v3).scale • (mainData v1 v2 v3).columns).det| = 8 * |x| := by
  rw [rdet_eq, cellOf_toMatrix] at h
  rw [det_smul, h, abs_mul]
  norm_num [mainData]

/-- C103 for an orthorhombic lattice: the distance is at least 7.4. -/
example (hm : Minkowski mink) (hs : SqrtOk sqrt) (junk : ℤ) (fuel : ℕ) :
    program (totalEnv mink sqrt) wordsReader junk rt2Double fuel
      (mainPoscar "1 0 0".toList "0 2 0".toList "3 1 5".toList) farKpgen = .error (.grid .running) ∨
    ∃ e, program (totalEnv mink sqrt) wordsReader junk rt2Double fuel
        (mainPoscar "1 0 0".toList "0 2 0".toList "3 1 5".toList) farKpgen = .ok e ∧
      ∀ z : Fin 3 → ℤ, z ≠ 0 → 74 / 10 ≤ gridLength ((realMat ((2 : ℚ)⁻¹ • e.sel.grid))ᵀ)⁻¹ z := by
  obtain ⟨r1, r2, r3, r4⟩ := rt2Double_bounds
  have hv : |((mainData (1, 0, 0) (0, 2, 0) (3, 1, 5)).scale • (mainData (1, 0, 0) (0, 2, 0) (3, 1, 5)).columns).det| = 80 := by
    rw [main_vol (x := 10) (by decide +kernel)]
    norm_num [abs_of_pos]
  rcases program_meets_general (junk := junk) (fuel := fuel) (mainPoscar_says (l1 := "1 0 0".toList) (l2 := "0 2 0".toList)
      (l3 := "3 1 5".toList) (by decide) (by decide) (by decide))
    (main_det (by decide +kernel)) (by linarith) r2 farKpgen_says
    (far_usable _ (by rw [hv]; norm_num) (by rw [hv]; norm_num)) (k := .rmin) (v := "20".toList) rfl
    (eps := 8589935 / 2 ^ 33) rfl
    (env := totalEnv mink sqrt) main_ortho (totalEnv_built hm hs _ _ _)
    (fun n hn => ⟨(far_asks (by rw [hv]; norm_num) (by rw [hv]; norm_num) hn).1, .inl rfl⟩) (by decide) with
    h | ⟨e, h1, -, s, s1, s2⟩
  · exact .inl h
  · refine .inr ⟨e, h1, fun z hz => ?_⟩
    have hs5 : s = 20 := Option.some.inj (s1.symm.trans (by decide))
    have := s2 z hz
    rw [hs5] at this
    exact le_trans (by norm_num [generalQuality]) this

/-- C103 for a triclinic lattice: the distance is at least 5.8. -/
example (hm : Minkowski mink) (hs : SqrtOk sqrt) (junk : ℤ) (fuel : ℕ) :
    program (totalEnv mink sqrt) wordsReader junk rt2Double fuel
      (mainPoscar "3 0 0".toList "1 4 0".toList "1 1 5".toList) farKpgen = .error (.grid .running) ∨
    ∃ e, program (totalEnv mink sqrt) wordsReader junk rt2Double fuel
        (mainPoscar "3 0 0".toList "1 4 0".toList "1 1 5".toList) farKpgen = .ok e ∧
      ∀ z : Fin 3 → ℤ, z ≠ 0 → 58 / 10 ≤ gridLength ((realMat ((2 : ℚ)⁻¹ • e.sel.grid))ᵀ)⁻¹ z := by
  obtain ⟨r1, r2, r3, r4⟩ := rt2Double_bounds
  have hv : |((mainData (3, 0, 0) (1, 4, 0) (1, 1, 5)).scale • (mainData (3, 0, 0) (1, 4, 0) (1, 1, 5)).columns).det| = 480 := by
    rw [main_vol (x := 60) (by decide +kernel)]
    norm_num [abs_of_pos]
  rcases program_meets_tric (junk := junk) (fuel := fuel) (mainPoscar_says (l1 := "3 0 0".toList) (l2 := "1 4 0".toList)
      (l3 := "1 1 5".toList) (by decide) (by decide) (by decide))
    (main_det (by decide +kernel)) (by linarith) r2 farKpgen_says
    (far_usable _ (by rw [hv]; norm_num) (by rw [hv]; norm_num)) (k := .rmin) (v := "20".toList) rfl
    (eps := 8589935 / 2 ^ 33) rfl
    (env := totalEnv mink sqrt) main_tric (totalEnv_built hm hs _ _ _)
    (fun n hn => (far_asks (by rw [hv]; norm_num) (by rw [hv]; norm_num) hn).1) (by decide) with
    h | ⟨e, N, h1, -, s, s1, s2⟩
  · exact .inl h
  · refine .inr ⟨e, h1, fun z hz => ?_⟩
    have hs5 : s = 20 := Option.some.inj (s1.symm.trans (by decide))
    have := s2 z hz
    rw [hs5] at this
    exact le_trans (by norm_num [tricQuality]) this

/-- `rmin_needed` for the cube of side 4 and the grid of 8 points. -/
example {n : ℤ} (h : Asks wordsReader piLit rt2Double 1 |(!![4, 0, 0; 0, 4, 0; 0, 0, 4] : Matrix (Fin 3) (Fin 3) ℚ).det| .rmin "5".toList n) : n ≤ 8 := by
  refine rmin_needed (K := (1 / 8 : ℝ) • 1) (s := 5) ?_ (by norm_num) ⟨!![2, 0, 0; 0, 2, 0; 0, 0, 2], ?_, ?_⟩ (by decide) ?_ rt2Double_bounds.1 h
  · simp [det_fin_three]
  · apply inv_eq_left_inv
    ext i j
    fin_cases i <;> fin_cases j <;> simp [realMat, toReal, Matrix.mul_apply, Fin.sum_univ_three] <;> norm_num
  · decide
  · intro z hz
    have hK : (((1 / 8 : ℝ) • (1 : Matrix (Fin 3) (Fin 3) ℝ))ᵀ)⁻¹ = (8 : ℝ) • 1 := by
      apply inv_eq_left_inv
      simp
    rw [hK, gridLength_smul]
    have h1 : (1 : ℝ) ≤ gridLength 1 z := by
      unfold gridLength
      rw [Real.one_le_sqrt]
      simp only [one_mulVec, Fin.sum_univ_three]
      obtain ⟨j, hj⟩ : ∃ j, z j ≠ 0 := by
        by_contra hall
        push Not at hall
        exact hz (funext hall)
      have hpos : ∀ a : ℤ, a ≠ 0 → (1 : ℝ) ≤ (a : ℝ) ^ 2 := by
        intro a ha
        have : (1 : ℤ) ≤ a ^ 2 := Int.one_le_abs ha |>.trans (by nlinarith [abs_nonneg a, sq_abs a, Int.one_le_abs ha])
        exact_mod_cast this
      have hj2 := hpos _ hj
      have s0 := sq_nonneg (z 0 : ℝ)
      have s1 := sq_nonneg (z 1 : ℝ)
      have s2 := sq_nonneg (z 2 : ℝ)
      have hj' : j = 0 ∨ j = 1 ∨ j = 2 := by omega
      rcases hj' with rfl | rfl | rfl <;> linarith
    rw [abs_of_pos (by norm_num)]
    push_cast
    linarith

end AutoGR.Fortran
