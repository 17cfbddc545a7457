import Mathlib.Analysis.SpecialFunctions.Log.Base
import Verif.Props.NiggliUnique
import Verif.Props.FortranDriver
import Verif.Lemmas.SameSearch
import Verif.Lemmas.SameGrid

/-!
# C102: the grid does not depend on the cell that is chosen to describe the crystal

The full statement is: `find_grid` gives the same answer for any two descriptions of one crystal.  Proved here without a
shift, for the lattices that are not triclinic.  Missing: a shift that the user gives or the program chooses, which is
counted along the vectors of the cell the user happened to choose (`offsets_depend`).  The triclinic lattices, whose grids are
enumerated in the basis of the user, are in `SameTriclinic`.
-/

namespace AutoGR.Fortran

open Matrix Spec

variable {R : Matrix (Fin 3) (Fin 3) ℝ} {equal : ℚ → ℚ → ℚ → Bool} {U U' : RMat ℚ} {eps rho rho' : ℚ} {r r' : IdCell}

/-- C102: the grid that the program makes of a symmetric supercell is the same for every cell of the crystal. -/
theorem gridOf_same {q : ℚ} (hs : SameCrystal q R (realCell U) (realCell U')) (h : Recognised equal U eps rho r)
    (h' : Recognised equal U' eps rho' r') (hk : r.id ∉ [31, 44]) (H : IntMat) (hH : H.det ≠ 0)
    (hkeep : ∀ X ∈ ClassSym r.id (canonC r.id).toMat, Keeps X H) :
    SameGrid (q : ℝ)⁻¹ R (realMat (gridOf U r H)) (realMat (gridOf U' r' H)) := by
  have hCo := idCell_unique_Co hs h h' hk
  obtain ⟨-, -, hgram⟩ := idCell_unique hs h h'
  have hsym := gridOf_symmetric h H hH (by rw [h.classSym hk]; exact hkeep) 1 (by simp)
  have g1 := gridOf_real h H hH 1
  have g2 := gridOf_real h' H hH 1
  rw [castMat_one, Matrix.mul_one] at hsym g1 g2
  rw [toReal_one, Matrix.mul_one] at g1 g2
  rw [hCo] at g2
  have hCu : r.Cu.toMat.det = 1 := (reduceCell_same_lattice equal U (some eps) _ h.parts.1).1
  have hCu' : r'.Cu.toMat.det = 1 := (reduceCell_same_lattice equal U' (some eps) _ h'.parts.1).1
  have hCod : r.Co.toMat.det = 1 := (reduceCell_same_lattice equal _ (some eps) _ h.parts.2).1
  have hinv : ∀ {M : IntMat}, M.det = 1 → M * M⁻¹ = 1 := fun hM => mul_nonsing_inv _ (by rw [hM]; exact isUnit_one)
  have hunit : ∀ {M : IntMat}, M.det = 1 → M⁻¹.det = 1 := fun {M} hM => by
    have := congrArg Matrix.det (hinv hM)
    rwa [det_mul, hM, one_mul, Matrix.det_one] at this
  have hassoc : ∀ C : IntMat, C * r.Co.toMat⁻¹ * H * (r.Co.toMat * C⁻¹) = C * (r.Co.toMat⁻¹ * H * r.Co.toMat) * C⁻¹ :=
    fun C => by simp only [Matrix.mul_assoc]
  rw [hassoc] at g1 g2
  have hTd : ∀ {C : IntMat}, C.det = 1 → (C * (r.Co.toMat⁻¹ * H * r.Co.toMat) * C⁻¹).det ≠ 0 := fun hC => by
    rw [det_mul, det_mul, det_mul, det_mul, hC, hCod, hunit hC, hunit hCod]
    simpa using hH
  have hunitR : ∀ {V : RMat ℚ} {M : IntMat}, (realCell V).det ≠ 0 → M.det ≠ 0 →
      (realCell V * toReal M)ᵀ * ((realCell V * toReal M)ᵀ)⁻¹ = 1 := fun hV hM => by
    refine mul_nonsing_inv _ (isUnit_iff_ne_zero.2 ?_)
    rw [det_transpose, det_mul, toReal_det]
    exact mul_ne_zero hV (by exact_mod_cast hM)
  refine same_grid_of hs (hinv hCu) (hinv hCu') h.real_det ?_ (T := r.Co.toMat⁻¹ * H * r.Co.toMat)
    (by rw [g1]; exact hunitR h.real_det (hTd hCu)) (by rw [g2]; exact hunitR h'.real_det (hTd hCu')) hsym.symmetric
  have e : ∀ (V : RMat ℚ) (C : IMat), (realCell V * toReal C.toMat)ᵀ * (realCell V * toReal C.toMat) =
      realMat (gram V C) := by
    intro V C
    rw [gram, realMat_mul, realMat_transpose, cellMat, realMat_mul]
    rfl
  rw [e, e, hgram, realMat_smul, Rat.cast_pow]

/-- `temp_rmin` of a reduced basis is the square root of the smallest squared length. -/
theorem rmin_eq {sqrt : ℚ → ℚ} (hmono : ∀ x y : ℚ, 0 ≤ x → x ≤ y → sqrt x ≤ sqrt y) {K : Matrix (Fin 3) (Fin 3) ℚ}
    (hK : HasShortest (realMat K)) : ∃ x : ℚ, 0 ≤ x ∧ (compareGeom sqrt K).rmin = sqrt x ∧
      (∃ v : Fin 3 → ℤ, v ≠ 0 ∧ gridLength (realMat K) v = √(x : ℝ)) ∧
      ∀ v : Fin 3 → ℤ, v ≠ 0 → √(x : ℝ) ≤ gridLength (realMat K) v := by
  obtain ⟨j, hj⟩ := hK
  have hne : ∀ j : Fin 3, (Pi.single j 1 : Fin 3 → ℤ) ≠ 0 := fun j h0 => by
    have := congrFun h0 j
    simp at this
  have hpos : ∀ j : Fin 3, 0 ≤ ∑ i, K i j * K i j := fun j => Finset.sum_nonneg fun i _ => mul_self_nonneg _
  have hle : ∀ i, ∑ l, K l j * K l j ≤ ∑ l, K l i * K l i := by
    intro i
    have := hj _ (hne i)
    rw [gridLength_single, gridLength_single,
      Real.sqrt_le_sqrt_iff (by exact_mod_cast hpos i)] at this
    exact_mod_cast this
  have hm : ∀ i, sqrt (∑ l, K l j * K l j) ≤ sqrt (∑ l, K l i * K l i) := fun i => hmono _ _ (hpos j) (hle i)
  refine ⟨_, hpos j, ?_, ⟨_, hne j, gridLength_single K j⟩, fun v hv => ?_⟩
  · have h0 := hm 0
    have h1 := hm 1
    have h2 := hm 2
    unfold compareGeom
    dsimp only
    refine le_antisymm ?_ (le_min (le_min h0 h1) h2)
    fin_cases j
    · exact (min_le_left _ _).trans (min_le_left _ _)
    · exact (min_le_left _ _).trans (min_le_right _ _)
    · exact min_le_right _ _
  · rw [← gridLength_single]
    exact hj v hv

theorem gridLength_turn {K : Matrix (Fin 3) (Fin 3) ℝ} (hR : Rᵀ * R = 1) (Y : IntMat) (v : Fin 3 → ℤ) :
    gridLength (R * K * toReal Y) v = gridLength K (Y *ᵥ v) := by
  have e : ∀ (M : Matrix (Fin 3) (Fin 3) ℝ) (v : Fin 3 → ℤ), ∑ i, (M *ᵥ fun j => (v j : ℝ)) i ^ 2 =
      (M *ᵥ intVec v) ⬝ᵥ (M *ᵥ intVec v) := by
    intro M v
    simp only [dotProduct, sq]
    rfl
  unfold gridLength
  rw [e, e, ← mulVec_mulVec, intVec_mulVec, ← mulVec_mulVec, dotProduct_mulVec (v := R *ᵥ _), vecMul_mulVec, hR,
    vecMul_one]

/-- `compare_grids` sees the same lengths and makes the same decision for two bases of the same grid. -/
theorem compareGeom_same {mink : Matrix (Fin 3) (Fin 3) ℚ → Matrix (Fin 3) (Fin 3) ℚ} (hm : Minkowski mink)
    {sqrt : ℚ → ℚ} (hmono : ∀ x y : ℚ, 0 ≤ x → x ≤ y → sqrt x ≤ sqrt y) (hR : Rᵀ * R = 1)
    {K K' : Matrix (Fin 3) (Fin 3) ℚ} (hK : K.det ≠ 0) (hK' : K'.det ≠ 0)
    (hs : SameGrid 1 R (realMat K) (realMat K')) :
    SameGrid 1 R (realMat (compareGeom sqrt (mink K)).grid) (realMat (compareGeom sqrt (mink K')).grid) ∧
      (compareGeom sqrt (mink K')).rmin = (compareGeom sqrt (mink K)).rmin ∧
      (compareGeom sqrt (mink K')).packed = (compareGeom sqrt (mink K)).packed := by
  obtain ⟨Y, hY, hKY⟩ := hs
  obtain ⟨⟨W, hW, h1⟩, h2, h3⟩ := hm K hK
  obtain ⟨⟨W', hW', h1'⟩, h2', h3'⟩ := hm K' hK'
  rw [one_smul] at hKY
  have hgrid : realMat (mink K') = R * realMat (mink K) * toReal (W⁻¹ * Y * W') := by
    rw [h1', h1, realMat_mul, realMat_mul, realMat_castMat, realMat_castMat, hKY, toReal_mul, toReal_mul]
    have hWW : toReal W * toReal W⁻¹ = 1 := toReal_inv_mul hW
    calc R * realMat K * toReal Y * toReal W' = R * realMat K * (toReal W * toReal W⁻¹) * toReal Y * toReal W' := by
          rw [hWW, Matrix.mul_one]
      _ = _ := by simp only [Matrix.mul_assoc]
  have hZ : IsUnit (W⁻¹ * Y * W').det := by
    rw [det_mul, det_mul]
    refine (IsUnit.mul ?_ hY).mul hW'
    refine IsUnit.of_mul_eq_one W.det ?_
    rw [← det_mul, nonsing_inv_mul _ hW, Matrix.det_one]
  generalize W⁻¹ * Y * W' = Z at hgrid hZ
  have hdet : (mink K').det = (mink K).det := by
    have hd := congrArg Matrix.det hgrid
    rw [det_mul, det_mul, realMat_det, realMat_det, toReal_det] at hd
    have hRR : R.det * R.det = 1 := by
      have := congrArg Matrix.det hR
      rwa [det_mul, det_transpose, Matrix.det_one] at this
    have hp : (0 : ℝ) < ((mink K).det : ℝ) := by exact_mod_cast h2
    have hp' : (0 : ℝ) < ((mink K').det : ℝ) := by exact_mod_cast h2'
    have hd' : ((mink K').det : ℝ) = ((mink K).det : ℝ) := by
      generalize ((mink K').det : ℝ) = d' at hd hp' ⊢
      generalize ((mink K).det : ℝ) = d at hd hp ⊢
      rcases mul_self_eq_one_iff.1 hRR with hr | hr <;> rcases Int.isUnit_iff.1 hZ with hz | hz <;>
        rw [hr, hz] at hd <;> push_cast at hd <;> linarith
    exact_mod_cast hd'
  have hrmin : (compareGeom sqrt (mink K')).rmin = (compareGeom sqrt (mink K)).rmin := by
    obtain ⟨x, hx0, hx, ⟨v, hv, hvx⟩, hxl⟩ := rmin_eq hmono h3
    obtain ⟨x', hx0', hx', ⟨v', hv', hvx'⟩, hxl'⟩ := rmin_eq hmono h3'
    have hne : ∀ {M : IntMat} {v : Fin 3 → ℤ}, IsUnit M.det → v ≠ 0 → M *ᵥ v ≠ 0 := fun {M v} hM hv h0 => hv (by
      have := congrArg (fun u => M⁻¹ *ᵥ u) h0
      simpa [mulVec_mulVec, nonsing_inv_mul _ hM] using this)
    have a1 : √(x : ℝ) ≤ √(x' : ℝ) := by
      rw [← hvx', hgrid, gridLength_turn hR]
      exact hxl _ (hne hZ hv')
    have a2 : √(x' : ℝ) ≤ √(x : ℝ) := by
      have e : v = Z *ᵥ (Z⁻¹ *ᵥ v) := by rw [mulVec_mulVec, mul_nonsing_inv _ hZ, one_mulVec]
      rw [← hvx, e, ← gridLength_turn hR, ← hgrid]
      refine hxl' _ fun h0 => hv ?_
      rw [e, h0, mulVec_zero]
    have : x = x' := by
      have := le_antisymm a1 a2
      rw [Real.sqrt_inj (by exact_mod_cast hx0) (by exact_mod_cast hx0')] at this
      exact_mod_cast this
    rw [hx, hx', this]
  refine ⟨⟨Z, hZ, by rw [one_smul]; exact hgrid⟩, hrmin, ?_⟩
  have e : ∀ K, (compareGeom sqrt K).packed =
      decide (3 / 10 ≤ 4 * piLit * ((compareGeom sqrt K).rmin / 2) ^ 3 / 3 / K.det) := fun _ => rfl
  rw [e, e, hrmin, hdet]

/-- The library counts the irreducible points of the grids without a shift: `ops` are the symmetries of the crystal
that it finds with the level of symmetry and the tolerance the user asks for, `ops0` those it finds by default. -/
structure Counts (U : Matrix (Fin 3) (Fin 3) ℝ) (ops ops0 : Set (Matrix (Fin 3) (Fin 3) ℝ))
    (lib : Lib (Matrix (Fin 3) (Fin 3) ℚ) Offset) : Prop where
  irr : ∀ K n pts, SymmetricGrid U (realMat K) n → IrreduciblePoints (Uᵀ)⁻¹ (realMat K) 0 ops pts →
    lib.irr K (0, 0, 0) = some pts.length
  irrDefault : ∀ K n pts, SymmetricGrid U (realMat K) n → IrreduciblePoints (Uᵀ)⁻¹ (realMat K) 0 ops0 pts →
    lib.irrDefault K (0, 0, 0) = some pts.length

/-- A grid with the symmetries of the crystal, and the same grid for the other description of it. -/
def SameSymmetricGrid (R : Matrix (Fin 3) (Fin 3) ℝ) (U : Matrix (Fin 3) (Fin 3) ℝ) (K K' : Matrix (Fin 3) (Fin 3) ℚ) :
    Prop :=
  (∃ n, SymmetricGrid U (realMat K) n) ∧ SameGrid 1 R (realMat K) (realMat K')

/-- The reciprocal lattice of the other cell. -/
theorem reciprocal_same {U U' : Matrix (Fin 3) (Fin 3) ℝ} (hR : Rᵀ * R = 1) {W : IntMat} (hW : IsUnit W.det)
    (hU : U' = R * U * toReal W) : (U'ᵀ)⁻¹ = R * (Uᵀ)⁻¹ * toReal (W⁻¹)ᵀ := by
  have hWi : (toReal W)⁻¹ = toReal W⁻¹ := inv_eq_right_inv (toReal_inv_mul hW)
  have hRi : (Rᵀ)⁻¹ = R := inv_eq_right_inv hR
  rw [hU, transpose_mul, transpose_mul, Matrix.mul_inv_rev, Matrix.mul_inv_rev, hRi, ← transpose_nonsing_inv (toReal W),
    hWi, toReal_transpose]

/-- A grid with the symmetries of the crystal has them in the other description. -/
theorem symmetricGrid_same {U U' K K' : Matrix (Fin 3) (Fin 3) ℝ} (hs : SameCrystal 1 R U U') (hg : SameGrid 1 R K K')
    {n : ℤ} (h : SymmetricGrid U K n) : SymmetricGrid U' K' n := by
  obtain ⟨-, hR, W, hW, hU⟩ := hs
  obtain ⟨Y, hY, hK⟩ := hg
  rw [one_smul] at hU hK
  have hR' := mul_eq_one_comm.1 hR
  have hYY : toReal Y * toReal Y⁻¹ = 1 := toReal_inv_mul hY
  have hWW : toReal W * toReal W⁻¹ = 1 := toReal_inv_mul hW
  have hdet : ∀ {M : IntMat}, IsUnit M.det → |M⁻¹.det| = 1 := fun {M} hM => by
    have hu : IsUnit M⁻¹.det := IsUnit.of_mul_eq_one M.det (by rw [← det_mul, nonsing_inv_mul _ hM, Matrix.det_one])
    rcases Int.isUnit_iff.1 hu with h | h <;> rw [h] <;> rfl
  constructor
  · obtain ⟨N, hN, hn⟩ := h.reciprocal
    refine ⟨Y⁻¹ * N * (W⁻¹)ᵀ, ?_, ?_⟩
    · rw [reciprocal_same hR hW hU, hN, hK, toReal_mul, toReal_mul]
      calc R * (K * toReal N) * toReal (W⁻¹)ᵀ = R * K * (toReal Y * toReal Y⁻¹) * toReal N * toReal (W⁻¹)ᵀ := by
            rw [hYY, Matrix.mul_one]; simp only [Matrix.mul_assoc]
        _ = _ := by simp only [Matrix.mul_assoc]
    · rw [det_mul, det_mul, abs_mul, abs_mul, det_transpose, hdet hY, hdet hW, hn, one_mul, mul_one]
  · rintro Q hQ ⟨X, hX⟩
    have hQ' : (Rᵀ * Q * R)ᵀ * (Rᵀ * Q * R) = 1 := by
      rw [transpose_mul, transpose_mul, transpose_transpose]
      calc Rᵀ * (Qᵀ * R) * (Rᵀ * Q * R) = Rᵀ * (Qᵀ * (R * Rᵀ) * Q) * R := by simp only [Matrix.mul_assoc]
        _ = 1 := by rw [hR', Matrix.mul_one, hQ, Matrix.mul_one, hR]
    obtain ⟨Z, hZ⟩ := h.symmetric _ hQ' ⟨W * X * W⁻¹, by
      rw [toReal_mul, toReal_mul]
      calc Rᵀ * Q * R * U = Rᵀ * (Q * (R * U * toReal W)) * toReal W⁻¹ := by
            simp only [Matrix.mul_assoc]
            rw [hWW, Matrix.mul_one]
        _ = Rᵀ * (R * U * toReal W * toReal X) * toReal W⁻¹ := by rw [← hU, hX]
        _ = (Rᵀ * R) * U * (toReal W * toReal X * toReal W⁻¹) := by simp only [Matrix.mul_assoc]
        _ = _ := by rw [hR, Matrix.one_mul]⟩
    refine ⟨Y⁻¹ * Z * Y, ?_⟩
    rw [hK, toReal_mul, toReal_mul]
    calc Q * (R * K * toReal Y) = (R * Rᵀ) * Q * R * K * toReal Y := by
          rw [hR', Matrix.one_mul]; simp only [Matrix.mul_assoc]
      _ = R * (Rᵀ * Q * R * K) * toReal Y := by simp only [Matrix.mul_assoc]
      _ = R * K * (toReal Y * toReal Y⁻¹) * toReal Z * toReal Y := by
          rw [hZ, hYY, Matrix.mul_one]; simp only [Matrix.mul_assoc]
      _ = _ := by simp only [Matrix.mul_assoc]

/-- The numbers of irreducible points are the same. -/
theorem irr_same {U U' : Matrix (Fin 3) (Fin 3) ℝ} {ops ops0 : Set (Matrix (Fin 3) (Fin 3) ℝ)}
    {lib lib' : Lib (Matrix (Fin 3) (Fin 3) ℚ) Offset} (hU : U.det ≠ 0) (hs : SameCrystal 1 R U U')
    (hG : LatticeGroup U ops) (hG0 : LatticeGroup U ops0) (hc : Counts U ops ops0 lib)
    (hc' : Counts U' (turned R ops) (turned R ops0) lib') {K K' : Matrix (Fin 3) (Fin 3) ℚ}
    (hK : SameSymmetricGrid R U K K') :
    lib'.irr K' (0, 0, 0) = lib.irr K (0, 0, 0) ∧ lib'.irrDefault K' (0, 0, 0) = lib.irrDefault K (0, 0, 0) := by
  obtain ⟨⟨n, hn⟩, hg⟩ := hK
  have hn' := symmetricGrid_same hs hg hn
  obtain ⟨-, hR, W, hW, hU'⟩ := hs
  obtain ⟨Y, hY, hK⟩ := hg
  rw [one_smul] at hU' hK
  obtain ⟨N, hN, -⟩ := hn.reciprocal
  have hprod : (realMat K).det * (toReal N).det ≠ 0 := by
    rw [← det_mul, ← hN, det_nonsing_inv, Ring.inverse_eq_inv', det_transpose]
    exact inv_ne_zero hU
  have hNdet : N.det ≠ 0 := by
    have := right_ne_zero_of_mul hprod
    rw [toReal_det] at this
    exact_mod_cast this
  have hWt : IsUnit (W⁻¹)ᵀ.det := by
    rw [det_transpose]
    exact IsUnit.of_mul_eq_one W.det (by rw [← det_mul, nonsing_inv_mul _ hW, Matrix.det_one])
  have key : ∀ ops, LatticeGroup U ops → ∃ pts pts', IrreduciblePoints (Uᵀ)⁻¹ (realMat K) 0 ops pts ∧
      IrreduciblePoints (U'ᵀ)⁻¹ (realMat K') 0 (turned R ops) pts' ∧ pts'.length = pts.length := by
    intro ops hG
    obtain ⟨pts, hpts⟩ := irreducible_exists (off := 0) hG.one hG.mul hG.inv (hG.reciprocal hU)
      (left_ne_zero_of_mul hprod) hN hNdet
    refine ⟨pts, pts.map fun p => (R *ᵥ p.1, p.2), hpts, ?_, List.length_map _⟩
    have := hpts.turn hR hWt hY
    rwa [mulVec_zero, ← reciprocal_same hR hW hU', ← hK] at this
  obtain ⟨p, p', h1, h2, h3⟩ := key ops hG
  obtain ⟨q, q', k1, k2, k3⟩ := key ops0 hG0
  rw [hc.irr K n p hn h1, hc'.irr K' n p' hn' h2, h3, hc.irrDefault K n q hn k1, hc'.irrDefault K' n q' hn' k2, k3]
  exact ⟨rfl, rfl⟩

variable {env : Env (Matrix (Fin 3) (Fin 3) ℚ)} {mink : Matrix (Fin 3) (Fin 3) ℚ → Matrix (Fin 3) (Fin 3) ℚ}
  {sqrt : ℚ → ℚ} {ops ops0 : Set (Matrix (Fin 3) (Fin 3) ℝ)} {base base' : List (Fin 3 → ℚ)} {types types' : List ℕ}
  {flag : ℕ}

/-- The machine and the libraries do their work for the two descriptions `U`, `U'` of one crystal; the library finds
the same symmetries of the crystal in both. -/
structure BothRight (env : Env (Matrix (Fin 3) (Fin 3) ℚ)) (mink : Matrix (Fin 3) (Fin 3) ℚ → Matrix (Fin 3) (Fin 3) ℚ)
    (sqrt : ℚ → ℚ) (R : Matrix (Fin 3) (Fin 3) ℝ) (ops ops0 : Set (Matrix (Fin 3) (Fin 3) ℝ)) (U U' : RMat ℚ)
    (r r' : IdCell) (eps : ℚ) (lib lib' : Lib (Matrix (Fin 3) (Fin 3) ℚ) Offset) : Prop where
  reduction : Minkowski mink
  root : ∀ x y : ℚ, 0 ≤ x → x ≤ y → sqrt x ≤ sqrt y
  pgSize : env.pgSize U eps = (PointSym (realCell U)).ncard
  pgSize' : env.pgSize U' eps = (PointSym (realCell U')).ncard
  built : BuiltFrom mink sqrt U r lib
  built' : BuiltFrom mink sqrt U' r' lib'
  equal : lib'.equal = lib.equal
  group : LatticeGroup (realCell U) ops
  group0 : LatticeGroup (realCell U) ops0
  counts : Counts (realCell U) ops ops0 lib
  counts' : Counts (realCell U') (turned R ops) (turned R ops0) lib'

/-- What the user sees is the same: the error, or the number of points, the number of irreducible points and the
grid. -/
def SameAnswer (R : Matrix (Fin 3) (Fin 3) ℝ) :
    Except MainErr (Entry (Matrix (Fin 3) (Fin 3) ℚ) Offset) →
      Except MainErr (Entry (Matrix (Fin 3) (Fin 3) ℚ) Offset) → Prop
  | .ok e, .ok e' => e'.nt_kpts = e.nt_kpts ∧ e'.sel.n_irr = e.sel.n_irr ∧ e'.sel.offset = e.sel.offset ∧
      SameGrid 1 R (realMat e.sel.grid) (realMat e'.sel.grid)
  | .error x, .error y => y = x
  | _, _ => False

private theorem find_grid_same_of (hs : SameCrystal 1 R (realCell U) (realCell U')) (h : Recognised env.equal U eps rho r)
    (h' : Recognised env.equal U' eps rho' r') (hk : r.id ∉ [31, 44])
    (hb : BothRight env mink sqrt R ops ops0 U U' r r' eps (env.lib U base types flag eps r)
      (env.lib U' base' types' flag eps r')) (kpd : ℤ) (fuel : ℕ) (min_kpts : Bool)
    (hcub : r.id ∈ [1, 3, 5] → ∀ n ∈ get_kpd_cubic r.id (env.root kpd) kpd,
      ∀ H ∈ (if r.id = 3 then sc_3 n else if r.id = 5 then bcc_5 env.wrap n else fcc_1 n),
        H ∈ SymmetricHNFs (ClassSym r.id (canonC r.id).toMat) n)
    (hgen : r.id ∉ [1, 3, 5] → ∀ gen, generatorOf env.wrap r.id = some gen → ∀ n, kpd ≤ n → n < kpd + fuel →
      ∀ H ∈ gen n, H ∈ SymmetricHNFs (ClassSym r.id (canonC r.id).toMat) n) :
    SameAnswer R (find_grid env fuel U kpd base types (some (0, 0, 0)) false flag min_kpts eps)
      (find_grid env fuel U' kpd base' types' (some (0, 0, 0)) false flag min_kpts eps) := by
  obtain ⟨hid, hsr, -⟩ := idCell_unique (q := 1) (by simpa using hs) h h'
  obtain ⟨o1, s1, a1, -, a3, a4⟩ := find_grid_searches env h hb.pgSize kpd base types (some (0, 0, 0)) false
    (by simp) flag min_kpts
  obtain ⟨o2, s2, b1, -, b3, b4⟩ := find_grid_searches env h' hb.pgSize' kpd base' types' (some (0, 0, 0)) false
    (by simp) flag min_kpts
  have ho1 : o1 = [(0, 0, 0)] := by simpa [offsetsTried] using a3.symm
  have ho2 : o2 = [(0, 0, 0)] := by simpa [offsetsTried] using b3.symm
  subst ho1 ho2
  rw [hsr, a1] at b1
  cases b1
  rw [a4, b4, hid]
  have hg : ∀ n, ∀ H ∈ SymmetricHNFs (ClassSym r.id (canonC r.id).toMat) n, H.det ≠ 0 ∧
      SameSymmetricGrid R (realCell U) (gridOf U r H) (gridOf U' r' H) := by
    rintro n H ⟨e1, e2, e3⟩
    have hd := (isHNF_det_pos e1).ne'
    refine ⟨hd, ⟨|H.det|, ?_⟩, ?_⟩
    · have := gridOf_symmetric h H hd (by rw [h.classSym hk]; exact e3) 1 (by simp)
      rwa [castMat_one, Matrix.mul_one] at this
    · have := gridOf_same (q := 1) (by simpa using hs) h h' hk H hd e3
      simpa using this
  have hrel := findGrid_rel (P := SameSymmetricGrid R (realCell U)) (lib := env.lib U base types flag eps r)
    (lib' := env.lib U' base' types' flag eps r') hb.equal (offsets := [(0, 0, 0)])
    (fun g g' hgg o ho => by
      rw [List.mem_singleton.1 ho]
      exact (irr_same h.real_det hs hb.group hb.group0 hb.counts hb.counts' hgg).1)
    (fun g g' hgg o ho => by
      rw [List.mem_singleton.1 ho]
      exact (irr_same h.real_det hs hb.group hb.group0 hb.counts hb.counts' hgg).2)
    env.wrap eps min_kpts (env.root kpd) fuel r.id s1 kpd hk
    (fun hc n hn H hH => by
      rw [hb.built.grid, hb.built'.grid]
      exact (hg n H (hcub hc n hn H hH)).2)
    (fun hc gen hgen' n hn hn' H hH => by
      obtain ⟨hd, hsg, hsg'⟩ := hg n H (hgen hc gen hgen' n hn hn' H hH)
      rw [hb.built.geom, hb.built'.geom]
      obtain ⟨c1, c2, c3⟩ := compareGeom_same hb.reduction hb.root hs.2.1 (gridOf_det h hd) (gridOf_det h' hd) hsg'
      refine ⟨⟨?_, c1⟩, c2, c3⟩
      obtain ⟨W, hW, hWK⟩ := (hb.reduction _ (gridOf_det h hd)).1
      refine ⟨|H.det|, ?_⟩
      have := gridOf_symmetric h H hd (by rw [h.classSym hk]; exact (hgen hc gen hgen' n hn hn' H hH).2.2) W hW
      rwa [← hWK] at this)
  generalize findGrid (env.lib U base types flag eps r) _ _ _ _ _ _ _ _ _ = u at hrel ⊢
  generalize findGrid (env.lib U' base' types' flag eps r') _ _ _ _ _ _ _ _ _ = v at hrel ⊢
  cases u <;> cases v
  · exact congrArg MainErr.grid hrel
  · exact hrel.elim
  · exact hrel.elim
  · have hrel : EntryRel _ _ _ := hrel
    exact ⟨hrel.nt_kpts, hrel.sel.n_irr, hrel.sel.offset, hrel.sel.grid.2⟩

/-- C102, for the lattices that are neither cubic nor triclinic: without a shift, `find_grid` finds the same grid for any
two descriptions of one crystal, or fails in the same way for both. -/
theorem find_grid_same_general_partial (hs : SameCrystal 1 R (realCell U) (realCell U'))
    (h : Recognised env.equal U eps rho r) (h' : Recognised env.equal U' eps rho' r') (hk : r.id ∉ [1, 3, 5, 31, 44])
    (hb : BothRight env mink sqrt R ops ops0 U U' r r' eps (env.lib U base types flag eps r)
      (env.lib U' base' types' flag eps r')) (kpd : ℤ) (fuel : ℕ) (min_kpts : Bool)
    (hfit : IntsFit env.wrap (kpd + fuel)) :
    SameAnswer R (find_grid env fuel U kpd base types (some (0, 0, 0)) false flag min_kpts eps)
      (find_grid env fuel U' kpd base' types' (some (0, 0, 0)) false flag min_kpts eps) := by
  obtain ⟨k1, k2⟩ := h.id_range
  have hk' : r.id ∉ [31, 44] := fun hm => hk (by simp at hm ⊢; omega)
  refine find_grid_same_of hs h h' hk' hb kpd fuel min_kpts (fun hc => absurd ?_ hk) ?_
  · simp at hc ⊢
    omega
  · intro _ gen hgen n hn hn' H hH
    obtain ⟨gen', hgen', good⟩ := generatorOf_good env.wrap r.id k1 k2 hk (reduced_canonC r.id k1 k2 hk')
    rw [hgen] at hgen'
    cases hgen'
    exact ((good.lists n (intsFit_mono hfit (by omega))).2 H).1 hH

/-- C102, for the cubic lattices. -/
theorem find_grid_same_cubic_partial (hs : SameCrystal 1 R (realCell U) (realCell U'))
    (h : Recognised env.equal U eps rho r) (h' : Recognised env.equal U' eps rho' r') (hk : r.id ∈ [1, 3, 5])
    (hb : BothRight env mink sqrt R ops ops0 U U' r r' eps (env.lib U base types flag eps r)
      (env.lib U' base' types' flag eps r')) (kpd : ℤ) (fuel : ℕ) (min_kpts : Bool)
    (hfit : env.wrap = id ∨ Int32 env.wrap ∧ 1 ≤ kpd ∧ 0 ≤ env.root kpd ∧ env.root kpd ≤ 281) :
    SameAnswer R (find_grid env fuel U kpd base types (some (0, 0, 0)) false flag min_kpts eps)
      (find_grid env fuel U' kpd base' types' (some (0, 0, 0)) false flag min_kpts eps) := by
  obtain ⟨k1, k2⟩ := h.id_range
  have hk' : r.id ∉ [31, 44] := fun hm => by simp at hm hk; omega
  refine find_grid_same_of hs h h' hk' hb kpd fuel min_kpts ?_ (fun hc => absurd hk hc)
  intro _ n hn H hH
  have hc := reduced_canonC r.id k1 k2 hk'
  generalize r.id = k at hk hn hH hc ⊢
  simp only [List.mem_cons, List.not_mem_nil, or_false] at hk
  rcases hk with rfl | rfl | rfl
  · exact ((fcc_1_correct n _ hc).2 H).1 hH
  · exact ((sc_3_correct n _ hc).2 H).1 hH
  · have hw : bcc_5 env.wrap n = bcc_5 id n := by
      rcases hfit with hw | ⟨hw, c1, c2, c3⟩
      · rw [hw]
      · refine bcc5Loop_big hw _ fun x hx => ?_
        obtain ⟨a, c, f⟩ := x
        rw [get_HNF_diagonals_eq] at hx
        obtain ⟨ha, hc, hf, he⟩ := mem_getHNFDiagonals.1 hx
        have hcf : 1 ≤ c * f := Int.mul_pos hc hf
        have := get_kpd_cubic_le 5 kpd _ c1 c2 c3 n hn
        exact ⟨ha, by nlinarith⟩
    have hH : H ∈ bcc_5 id n := hw ▸ hH
    exact ((bcc_5_correct n (.inl rfl) _ hc).2 H).1 hH

/-! ## The automatic shift -/

/-- C102 with the automatic choice of the shift: the shifts that are tried are not the same for two descriptions of one
crystal.  Here the shortest vector is the first one in one cell and the third one in the other. -/
theorem offsets_depend (env : Env (Matrix (Fin 3) (Fin 3) ℚ)) (eps : ℚ)
    (hn : let n := env.norms ⟨1, 0, 3, 0, 2, 1, 0, 0, 5⟩; n.1 < n.2.1 ∧ n.1 < n.2.2)
    (hn' : let n := env.norms ⟨1, 3, 1, 2, 1, 0, 0, 5, 0⟩; n.2.2 < n.1 ∧ n.2.2 < n.2.1) :
    SameCrystal 1 1 (realCell ⟨1, 0, 3, 0, 2, 1, 0, 0, 5⟩) (realCell ⟨1, 3, 1, 2, 1, 0, 0, 5, 0⟩) ∧
    ∀ l l', offsetsTried env ⟨1, 0, 3, 0, 2, 1, 0, 0, 5⟩ 40 eps none true = some l →
      offsetsTried env ⟨1, 3, 1, 2, 1, 0, 0, 5, 0⟩ 40 eps none true = some l' → (3/4, 1/4, 0) ∈ l ∧ (3/4, 1/4, 0) ∉ l' := by
  refine ⟨by simpa using sameCrystal_ortho, fun l l' h h' => ?_⟩
  dsimp only at hn hn'
  obtain ⟨a1, a2⟩ := hn'
  simp only [offsetsTried, Bool.true_eq_false, if_false, Option.some.injEq] at h h'
  subst h h'
  unfold get_offsets
  constructor
  · simp [hn.1, hn.2]
  · simp [a1, a2, a1.not_gt, a2.not_gt]
    norm_num

/-! ## The hypotheses are met -/

/-- There is a square root that is accurate enough and monotone. -/
theorem sqrt_exists : ∃ sqrt : ℚ → ℚ, SqrtOk sqrt ∧ ∀ x y : ℚ, 0 ≤ x → x ≤ y → sqrt x ≤ sqrt y := by
  have hb : (1 : ℝ) < 1001 / 1000 := by norm_num
  have hpow : ∀ z : ℤ, (((1001 / 1000 : ℚ) ^ z : ℚ) : ℝ) = (1001 / 1000 : ℝ) ^ z := fun z => by push_cast; rfl
  refine ⟨fun x => if x ≤ 0 then 0 else (1001 / 1000 : ℚ) ^ ⌊Real.logb (1001 / 1000) √(x : ℝ)⌋, ?_, ?_⟩
  · intro x hx
    dsimp only
    split_ifs with h0
    · have : x = 0 := le_antisymm h0 hx
      subst this
      simp
    · have hx' : 0 < √(x : ℝ) := Real.sqrt_pos.2 (by exact_mod_cast not_le.1 h0)
      rw [hpow]
      have h1 := Int.floor_le (Real.logb (1001 / 1000) √(x : ℝ))
      have h2 := Int.lt_floor_add_one (Real.logb (1001 / 1000) √(x : ℝ))
      generalize ⌊Real.logb (1001 / 1000) √(x : ℝ)⌋ = z at h1 h2
      rw [Real.le_logb_iff_rpow_le hb hx', Real.rpow_intCast] at h1
      rw [show ((z : ℝ) + 1) = ((z + 1 : ℤ) : ℝ) by push_cast; rfl, Real.logb_lt_iff_lt_rpow hb hx', Real.rpow_intCast,
        zpow_add_one₀ (by norm_num)] at h2
      rw [abs_le]
      constructor <;> linarith
  · intro x y hx hxy
    dsimp only
    split_ifs with h1 h2 h2
    · exact le_rfl
    · positivity
    · exact absurd (hxy.trans h2) h1
    · refine zpow_le_zpow_right₀ (by norm_num) (Int.floor_le_floor ?_)
      refine Real.logb_le_logb_of_le hb (Real.sqrt_pos.2 (by exact_mod_cast not_le.1 h1)) (Real.sqrt_le_sqrt ?_)
      exact_mod_cast hxy

/-- Two lists of irreducible points of one grid have the same length. -/
theorem irreducible_length {U K : Matrix (Fin 3) (Fin 3) ℝ} (hU : U.det ≠ 0) (hG : LatticeGroup U ops) {off : Fin 3 → ℝ}
    {pts pts' : List ((Fin 3 → ℝ) × ℤ)} (h : IrreduciblePoints (Uᵀ)⁻¹ K off ops pts)
    (h' : IrreduciblePoints (Uᵀ)⁻¹ K off ops pts') : pts.length = pts'.length := by
  have hops := hG.reciprocal hU
  generalize (Uᵀ)⁻¹ = B at h h' hops
  have hrefl : ∀ k, Equivalent B ops k k := fun k =>
    ⟨1, hG.one, 0, by rw [intVec_zero, mulVec_zero, one_mulVec, add_zero]⟩
  have htrans : ∀ {a b c}, Equivalent B ops a b → Equivalent B ops b c → Equivalent B ops a c := by
    rintro a _ _ ⟨P, hP, m, rfl⟩ ⟨Q, hQ, m', rfl⟩
    obtain ⟨X, hX⟩ := hops Q hQ
    refine ⟨Q * P, hG.mul Q hQ P hP, X *ᵥ m + m', ?_⟩
    rw [mulVec_add, mulVec_mulVec, mulVec_mulVec, hX, ← mulVec_mulVec (intVec m), intVec_mulVec, intVec_add, mulVec_add]
    abel
  have hsymm : ∀ {a b}, Equivalent B ops a b → Equivalent B ops b a := by
    rintro a _ ⟨Q, hQ, m, rfl⟩
    obtain ⟨P, hP, hPQ⟩ := hG.inv Q hQ
    obtain ⟨X, hX⟩ := hops P hP
    refine ⟨P, hP, -(X *ᵥ m), ?_⟩
    have : intVec (-(X *ᵥ m)) = -intVec (X *ᵥ m) := by funext j; simp [intVec]
    rw [mulVec_add, mulVec_mulVec, hPQ, one_mulVec, mulVec_mulVec, hX, ← mulVec_mulVec (intVec m), intVec_mulVec, this,
      mulVec_neg]
    abel
  have key : ∀ {p q : List ((Fin 3 → ℝ) × ℤ)}, IrreduciblePoints B K off ops p → IrreduciblePoints B K off ops q →
      p.length ≤ q.length := by
    intro p q hp hq
    choose f hf using fun i : Fin p.length => (hq.one _ (hp.grid _ (List.get_mem p i))).exists
    have hinj : Function.Injective f := by
      intro i j hij
      have e : Equivalent B ops (p.get i).1 (p.get j).1 := htrans (hf i) (by rw [hij]; exact hsymm (hf j))
      exact (hp.one _ (hp.grid _ (List.get_mem p i))).unique (hrefl _) e
    simpa using Fintype.card_le_of_injective f hinj
  exact le_antisymm (key h h') (key h' h)

/-- All symmetries of a lattice. -/
def allOps (U : Matrix (Fin 3) (Fin 3) ℝ) : Set (Matrix (Fin 3) (Fin 3) ℝ) :=
  {Q | Qᵀ * Q = 1 ∧ ∃ X : IntMat, Q * U = U * toReal X}

theorem allOps_turned {U U' : Matrix (Fin 3) (Fin 3) ℝ} (hs : SameCrystal 1 R U U') : allOps U' = turned R (allOps U) := by
  obtain ⟨-, hR, W, hW, hU⟩ := hs
  rw [one_smul] at hU
  have hR' := mul_eq_one_comm.1 hR
  have hWW : toReal W * toReal W⁻¹ = 1 := toReal_inv_mul hW
  have hWW' := mul_eq_one_comm.1 hWW
  ext Q
  constructor
  · rintro ⟨hQ, X, hX⟩
    refine ⟨Rᵀ * Q * R, ⟨?_, W * X * W⁻¹, ?_⟩, ?_⟩
    · rw [transpose_mul, transpose_mul, transpose_transpose]
      calc Rᵀ * (Qᵀ * R) * (Rᵀ * Q * R) = Rᵀ * (Qᵀ * (R * Rᵀ) * Q) * R := by simp only [Matrix.mul_assoc]
        _ = 1 := by rw [hR', Matrix.mul_one, hQ, Matrix.mul_one, hR]
    · rw [toReal_mul, toReal_mul]
      calc Rᵀ * Q * R * U = Rᵀ * (Q * (R * U * toReal W)) * toReal W⁻¹ := by
            simp only [Matrix.mul_assoc]
            rw [hWW, Matrix.mul_one]
        _ = Rᵀ * (R * U * toReal W * toReal X) * toReal W⁻¹ := by rw [← hU, hX]
        _ = (Rᵀ * R) * U * (toReal W * toReal X * toReal W⁻¹) := by simp only [Matrix.mul_assoc]
        _ = _ := by rw [hR, Matrix.one_mul]
    · calc Q = (R * Rᵀ) * Q * (R * Rᵀ) := by rw [hR', Matrix.one_mul, Matrix.mul_one]
        _ = _ := by simp only [Matrix.mul_assoc]
  · rintro ⟨Q, ⟨hQ, X, hX⟩, rfl⟩
    refine ⟨?_, W⁻¹ * X * W, ?_⟩
    · rw [transpose_mul, transpose_mul, transpose_transpose]
      calc R * (Qᵀ * Rᵀ) * (R * Q * Rᵀ) = R * (Qᵀ * (Rᵀ * R) * Q) * Rᵀ := by simp only [Matrix.mul_assoc]
        _ = 1 := by rw [hR, Matrix.mul_one, hQ, Matrix.mul_one, hR']
    · rw [hU, toReal_mul, toReal_mul]
      calc R * Q * Rᵀ * (R * U * toReal W) = R * Q * (Rᵀ * R) * U * toReal W := by simp only [Matrix.mul_assoc]
        _ = R * (Q * U) * toReal W := by rw [hR, Matrix.mul_one, Matrix.mul_assoc R]
        _ = R * U * (toReal W * toReal W⁻¹) * toReal X * toReal W := by
            rw [hX, hWW, Matrix.mul_one]; simp only [Matrix.mul_assoc]
        _ = _ := by simp only [Matrix.mul_assoc]

open Classical in
/-- A machine that counts the irreducible points of the grids without a shift, with all symmetries of the lattice. -/
noncomputable def countEnv (mink : Matrix (Fin 3) (Fin 3) ℚ → Matrix (Fin 3) (Fin 3) ℚ) (sqrt : ℚ → ℚ) :
    Env (Matrix (Fin 3) (Fin 3) ℚ) :=
  let count (U : RMat ℚ) (K : Matrix (Fin 3) (Fin 3) ℚ) : Option ℕ :=
    if h : ∃ pts, IrreduciblePoints ((realCell U)ᵀ)⁻¹ (realMat K) 0 (allOps (realCell U)) pts then some h.choose.length
    else none
  { packEnv mink sqrt with
    lib := fun U _ _ _ _ r => ⟨sampleEqual, fun H => compareGeom sqrt (mink (gridOf U r H)), gridOf U r, fun K _ => count U K,
      fun K _ => count U K⟩ }

theorem countEnv_counts {U : RMat ℚ} (hU : (realCell U).det ≠ 0) (base : List (Fin 3 → ℚ)) (types : List ℕ) (flag : ℕ)
    (eps : ℚ) (r : IdCell) :
    Counts (realCell U) (allOps (realCell U)) (allOps (realCell U)) ((countEnv mink sqrt).lib U base types flag eps r) := by
  have key : ∀ (K : Matrix (Fin 3) (Fin 3) ℚ) pts,
      IrreduciblePoints ((realCell U)ᵀ)⁻¹ (realMat K) 0 (allOps (realCell U)) pts →
      ((countEnv mink sqrt).lib U base types flag eps r).irr K (0, 0, 0) = some pts.length ∧
      ((countEnv mink sqrt).lib U base types flag eps r).irrDefault K (0, 0, 0) = some pts.length := by
    intro K pts hp
    have hex : ∃ pts, IrreduciblePoints ((realCell U)ᵀ)⁻¹ (realMat K) 0 (allOps (realCell U)) pts := ⟨pts, hp⟩
    have hlen : hex.choose.length = pts.length := irreducible_length hU (latticeGroup_all hU) hex.choose_spec hp
    simp only [countEnv]
    rw [dif_pos hex, hlen]
    exact ⟨rfl, rfl⟩
  exact ⟨fun K n pts _ hp => (key K pts hp).1, fun K n pts _ hp => (key K pts hp).2⟩

theorem countEnv_bothRight (hm : Minkowski mink) (hmono : ∀ x y : ℚ, 0 ≤ x → x ≤ y → sqrt x ≤ sqrt y)
    (hs : SameCrystal 1 R (realCell U) (realCell U')) (h : Recognised equal U eps rho r)
    (h' : Recognised equal U' eps rho' r') :
    BothRight (countEnv mink sqrt) mink sqrt R (allOps (realCell U)) (allOps (realCell U)) U U' r r' eps
      ((countEnv mink sqrt).lib U base types flag eps r) ((countEnv mink sqrt).lib U' base' types' flag eps r') where
  reduction := hm
  root := hmono
  pgSize := rfl
  pgSize' := rfl
  built := ⟨fun _ => rfl, fun _ => rfl⟩
  built' := ⟨fun _ => rfl, fun _ => rfl⟩
  equal := rfl
  group := latticeGroup_all h.real_det
  group0 := latticeGroup_all h.real_det
  counts := countEnv_counts h.real_det ..
  counts' := by
    rw [← allOps_turned hs]
    exact countEnv_counts h'.real_det ..

/-- The lattice of `sameCrystal_ortho`, mirrored, in another cell. -/
theorem sameCrystal_mirror1 : SameCrystal 1 !![1, 0, 0; 0, -1, 0; 0, 0, 1]
    (realCell ⟨1, 0, 3, 0, 2, 1, 0, 0, 5⟩) (realCell ⟨1, 0, 3, -2, -2, -1, 0, 0, 5⟩) := by
  refine ⟨by norm_num, ?_, !![1, 0, 0; 1, 1, 0; 0, 0, 1], by decide, ?_⟩
  · ext i j
    fin_cases i <;> fin_cases j <;> simp [Matrix.mul_apply, Fin.sum_univ_three]
  · ext i j
    rw [Matrix.smul_apply, Matrix.mul_apply, Fin.sum_univ_three, Matrix.mul_apply, Matrix.mul_apply,
      Matrix.mul_apply, Fin.sum_univ_three, Fin.sum_univ_three, Fin.sum_univ_three]
    fin_cases i <;> fin_cases j <;> simp [realCell, RMat.toMatrix, toReal]

theorem recognised_mirror1 : Recognised cmpEqual ⟨1, 0, 3, -2, -2, -1, 0, 0, 5⟩ (8589935 / 2 ^ 33)
    (8589935 / 2 ^ 33) ⟨⟨1, 0, 3, -1, -1, -2, 0, 0, -1⟩, ⟨1, 0, 0, 0, 1, 0, 0, 0, 1⟩, 40, some 15⟩ :=
  recognised_of (A := 1) (B := 4) (C := 26) (D := -2) (E := 0) (F := 0) (by decide +kernel) (by decide +kernel)
    (by decide +kernel) (by constructor <;> norm_num [TypeI, TypeII]) (by constructor <;> decide +kernel)
    (by norm_num) (by decide)

/-- The search for a grid of 801 points or more for the two cells of this lattice. -/
example : ∃ env : Env (Matrix (Fin 3) (Fin 3) ℚ), ∀ fuel, SameAnswer !![1, 0, 0; 0, -1, 0; 0, 0, 1]
    (find_grid env fuel ⟨1, 0, 3, 0, 2, 1, 0, 0, 5⟩ 801 [0] [1] (some (0, 0, 0)) false 1 true (8589935 / 2 ^ 33))
    (find_grid env fuel ⟨1, 0, 3, -2, -2, -1, 0, 0, 5⟩ 801 [0] [1] (some (0, 0, 0)) false 1 true (8589935 / 2 ^ 33)) := by
  obtain ⟨mink, hm⟩ := minkowski_exists
  obtain ⟨sqrt, -, hmono⟩ := sqrt_exists
  exact ⟨countEnv mink sqrt, fun fuel => find_grid_same_general_partial sameCrystal_mirror1 recognised_ortho recognised_mirror1
    (by decide) (countEnv_bothRight hm hmono sameCrystal_mirror1 recognised_ortho recognised_mirror1) 801 fuel true
    (.inl rfl)⟩

end AutoGR.Fortran
