import Verif.Model.FortranPack
import Verif.Model.FortranMain
import Verif.Spec.Packing
import Verif.Props.LatticeSym
import Verif.Lemmas.Grid
import Mathlib.Analysis.Real.Pi.Bounds

/-!
# C96: the packing fraction

`compare_grids` takes a grid for packed densely enough if its spheres fill 30% of space, up to the accuracy of the
square root, provided that the reduced basis contains a shortest vector and is right-handed.  A left-handed basis is
never taken: the determinant is used with its sign.
-/

namespace AutoGR.Fortran

open Spec Matrix

/-- A square root with a relative error below one thousandth. -/
def SqrtOk (sqrt : ℚ → ℚ) : Prop := ∀ x : ℚ, 0 ≤ x → |(sqrt x : ℝ) - √(x : ℝ)| ≤ 1 / 1000 * √(x : ℝ)

/-- The length of the `j`-th vector of the basis. -/
theorem gridLength_single (K : Matrix (Fin 3) (Fin 3) ℚ) (j : Fin 3) :
    gridLength (realMat K) (Pi.single j 1) = √((∑ i, K i j * K i j : ℚ) : ℝ) := by
  unfold gridLength
  congr 1
  have : (fun l => (((Pi.single j 1 : Fin 3 → ℤ) l : ℤ) : ℝ)) = Pi.single j 1 := by
    funext l
    by_cases h : l = j
    · subst h; simp
    · simp [h]
  rw [this]
  push_cast
  refine Finset.sum_congr rfl fun i _ => ?_
  rw [mulVec_single_one]
  simp [realMat, sq]

theorem single_ne_zero (j : Fin 3) : (Pi.single j 1 : Fin 3 → ℤ) ≠ 0 := by
  intro h
  have := congrFun h j
  simp at this

/-- A smallest length of the basis is a smallest length of the grid. -/
theorem rmin_near {sqrt : ℚ → ℚ} (hs : SqrtOk sqrt) {K : Matrix (Fin 3) (Fin 3) ℚ} (hK : HasShortest (realMat K)) :
    ∃ l : ℝ, (∃ v : Fin 3 → ℤ, v ≠ 0 ∧ l = gridLength (realMat K) v) ∧
      (∀ v : Fin 3 → ℤ, v ≠ 0 → l ≤ gridLength (realMat K) v) ∧
      |((compareGeom sqrt K).rmin : ℝ) - l| ≤ 1 / 1000 * l := by
  obtain ⟨j, hj⟩ := hK
  refine ⟨gridLength (realMat K) (Pi.single j 1), ⟨_, single_ne_zero j, rfl⟩, hj, ?_⟩
  have hn : ∀ j, |(sqrt (∑ i, K i j * K i j) : ℝ) - gridLength (realMat K) (Pi.single j 1)| ≤
      1 / 1000 * gridLength (realMat K) (Pi.single j 1) := by
    intro j
    rw [gridLength_single]
    exact hs _ (Finset.sum_nonneg fun i _ => mul_self_nonneg _)
  set l := fun j => gridLength (realMat K) (Pi.single j 1) with hl
  have hmin : ∀ i, l j ≤ l i := fun i => hj _ (single_ne_zero i)
  have h0 := abs_le.1 (hn 0)
  have h1 := abs_le.1 (hn 1)
  have h2 := abs_le.1 (hn 2)
  have hj' := abs_le.1 (hn j)
  have m0 := hmin 0
  have m1 := hmin 1
  have m2 := hmin 2
  simp only [hl] at *
  have key : ∀ q : ℝ, (∃ i, q = (sqrt (∑ l, K l i * K l i) : ℝ)) → (∀ i, q ≤ (sqrt (∑ l, K l i * K l i) : ℝ)) →
      |q - gridLength (realMat K) (Pi.single j 1)| ≤ 1 / 1000 * gridLength (realMat K) (Pi.single j 1) := by
    rintro q ⟨i, rfl⟩ hq
    have a1 := abs_le.1 (hn i)
    have a2 := hmin i
    have a3 := hq j
    rw [abs_le]
    constructor <;> linarith
  refine key _ ?_ ?_
  · simp only [compareGeom]
    rcases min_choice (min (sqrt (∑ i, K i 0 * K i 0)) (sqrt (∑ i, K i 1 * K i 1))) (sqrt (∑ i, K i 2 * K i 2)) with
      h | h
    · rcases min_choice (sqrt (∑ i, K i 0 * K i 0)) (sqrt (∑ i, K i 1 * K i 1)) with h' | h'
      · exact ⟨0, by rw [h, h']⟩
      · exact ⟨1, by rw [h, h']⟩
    · exact ⟨2, by rw [h]⟩
  · intro i
    simp only [compareGeom]
    fin_cases i
    · exact_mod_cast (min_le_left _ _).trans (min_le_left _ _)
    · exact_mod_cast (min_le_left _ _).trans (min_le_right _ _)
    · exact_mod_cast min_le_right _ _

theorem piLit_bounds : (314 / 100 : ℝ) < piLit ∧ |(piLit : ℝ) - Real.pi| ≤ 1 / 10 ^ 9 := by
  have h1 := Real.pi_gt_d20
  have h2 := Real.pi_lt_d20
  have e : (piLit : ℝ) = 31415926535897932385 / 10 ^ 19 := by
    unfold piLit
    push_cast
    rfl
  rw [e, abs_le]
  constructor
  · norm_num
  · constructor <;> norm_num at * <;> linarith

theorem realMat_det (K : Matrix (Fin 3) (Fin 3) ℚ) : (realMat K).det = ((K.det : ℚ) : ℝ) := by
  have e := RingHom.map_det (Rat.castHom ℝ) K
  simpa [realMat, RingHom.mapMatrix_apply] using e.symm

/-- C96: for a right-handed reduced basis with a shortest vector among its vectors, the length that the program
computes is that of a shortest vector of the grid, within a thousandth; a grid is taken if its spheres fill 31% of
space, and only if they fill 29%. -/
theorem compareGeom_packed {sqrt : ℚ → ℚ} (hs : SqrtOk sqrt) {K : Matrix (Fin 3) (Fin 3) ℚ} (hdet : 0 < K.det)
    (hK : HasShortest (realMat K)) :
    (PackedAtLeast (31 / 100) (realMat K) → (compareGeom sqrt K).packed = true) ∧
      ((compareGeom sqrt K).packed = true → PackedAtLeast (29 / 100) (realMat K)) := by
  obtain ⟨l, ⟨v, hv, hl⟩, hmin, hr⟩ := rmin_near hs hK
  have hl0 : 0 ≤ l := by
    rw [hl]
    exact Real.sqrt_nonneg _
  have hD : (0 : ℝ) < (K.det : ℚ) := by exact_mod_cast hdet
  obtain ⟨R, hR⟩ : ∃ R : ℚ, R = (compareGeom sqrt K).rmin := ⟨_, rfl⟩
  rw [← hR] at hr
  obtain ⟨r1, r2⟩ := abs_le.1 hr
  obtain ⟨p1, p2⟩ := piLit_bounds
  obtain ⟨p3, p4⟩ := abs_le.1 p2
  have hpi := Real.pi_gt_d2
  have hiff : (compareGeom sqrt K).packed = true ↔ 3 / 10 * ((K.det : ℚ) : ℝ) ≤ piLit / 6 * (R : ℝ) ^ 3 := by
    have e : (compareGeom sqrt K).packed = decide (3 / 10 ≤ 4 * piLit * (R / 2) ^ 3 / 3 / K.det) := by
      rw [hR]
      rfl
    rw [e, decide_eq_true_eq, le_div_iff₀ hdet]
    have e2 : 4 * piLit * (R / 2) ^ 3 / 3 = piLit / 6 * R ^ 3 := by ring
    rw [e2]
    have : (3 / 10 * K.det ≤ piLit / 6 * R ^ 3) ↔
        (((3 / 10 * K.det : ℚ) : ℝ) ≤ ((piLit / 6 * R ^ 3 : ℚ) : ℝ)) := Rat.cast_le.symm
    rw [this]
    push_cast
    rfl
  have hR0 : 0 ≤ (R : ℝ) := by nlinarith
  constructor
  · intro h
    rw [hiff]
    have h1 := h v hv
    rw [← hl, realMat_det, abs_of_pos hD] at h1
    have h2 : (999 / 1000 * l) ^ 3 ≤ (R : ℝ) ^ 3 := pow_le_pow_left₀ (by positivity) (by linarith) 3
    have h3 : 0 ≤ l ^ 3 := by positivity
    have h4 : Real.pi - 1 / 10 ^ 9 ≤ piLit := by linarith
    nlinarith
  · intro h w hw
    rw [hiff] at h
    rw [realMat_det, abs_of_pos hD]
    have h1 : l ^ 3 ≤ gridLength (realMat K) w ^ 3 := pow_le_pow_left₀ hl0 (hmin w hw) 3
    have h2 : (R : ℝ) ^ 3 ≤ (1001 / 1000 * l) ^ 3 := pow_le_pow_left₀ hR0 (by linarith) 3
    have h3 : 0 ≤ l ^ 3 := by positivity
    have h4 : (piLit : ℝ) ≤ Real.pi + 1 / 10 ^ 9 := by linarith
    have h5 : piLit / 6 * (R : ℝ) ^ 3 ≤ piLit / 6 * (1001 / 1000 * l) ^ 3 :=
      mul_le_mul_of_nonneg_left h2 (by linarith)
    have h6 : piLit / 6 * (1001 / 1000 * l) ^ 3 ≤ (Real.pi + 1 / 10 ^ 9) / 6 * (1001 / 1000 * l) ^ 3 :=
      mul_le_mul_of_nonneg_right (by linarith) (by positivity)
    have h7 : Real.pi / 6 * l ^ 3 ≤ Real.pi / 6 * gridLength (realMat K) w ^ 3 :=
      mul_le_mul_of_nonneg_left h1 (by linarith)
    nlinarith

/-- C96, the other side: a grid with a left-handed reduced basis is never taken, however densely it is packed. -/
theorem compareGeom_left_handed {sqrt : ℚ → ℚ} (hs : SqrtOk sqrt) {K : Matrix (Fin 3) (Fin 3) ℚ} (hdet : K.det < 0) :
    (compareGeom sqrt K).packed = false := by
  have h0 : ∀ x : ℚ, 0 ≤ x → 0 ≤ sqrt x := by
    intro x hx
    have h1 := (abs_le.1 (hs x hx)).1
    have h2 := Real.sqrt_nonneg (x : ℝ)
    have : (0 : ℝ) ≤ sqrt x := by linarith
    exact_mod_cast this
  have hn : ∀ j, 0 ≤ sqrt (∑ i, K i j * K i j) := fun j => h0 _ (Finset.sum_nonneg fun i _ => mul_self_nonneg _)
  have hr : 0 ≤ (compareGeom sqrt K).rmin := le_min (le_min (hn 0) (hn 1)) (hn 2)
  obtain ⟨R, hR⟩ : ∃ R : ℚ, R = (compareGeom sqrt K).rmin := ⟨_, rfl⟩
  have e : (compareGeom sqrt K).packed = decide (3 / 10 ≤ 4 * piLit * (R / 2) ^ 3 / 3 / K.det) := by
    rw [hR]
    rfl
  rw [e, decide_eq_false_iff_not, not_le]
  rw [← hR] at hr
  have hp : (0 : ℚ) < piLit := by norm_num [piLit]
  have : 4 * piLit * (R / 2) ^ 3 / 3 / K.det ≤ 0 := div_nonpos_of_nonneg_of_nonpos (by positivity) hdet.le
  linarith

/-! ## The hypotheses are met -/

/-- `minkowski_reduce_basis` as documented: another basis of the same grid, right-handed, with a shortest vector of the
grid among its vectors. -/
def Minkowski (mink : Matrix (Fin 3) (Fin 3) ℚ → Matrix (Fin 3) (Fin 3) ℚ) : Prop :=
  ∀ K : Matrix (Fin 3) (Fin 3) ℚ, K.det ≠ 0 → (∃ W : IntMat, IsUnit W.det ∧ mink K = K * castMat W) ∧
    0 < (mink K).det ∧ HasShortest (realMat (mink K))

theorem gridLength_metric {K : Matrix (Fin 3) (Fin 3) ℝ} {A B C D E F : ℝ} (h : Kᵀ * K = metric A B C D E F)
    (v : Fin 3 → ℤ) : gridLength K v = √(sqLen A B C D E F (v 0) (v 1) (v 2)) := by
  unfold gridLength
  congr 1
  have e : ∑ i, (K *ᵥ fun j => (v j : ℝ)) i ^ 2 = (K *ᵥ fun j => (v j : ℝ)) ⬝ᵥ (K *ᵥ fun j => (v j : ℝ)) := by
    simp only [dotProduct, sq]
  rw [e, dotProduct_mulVec, vecMul_mulVec, h]
  simp [metric, sqLen, dotProduct, vecMul, Fin.sum_univ_three]
  ring

/-- A basis with a reduced metric has a shortest vector. -/
theorem hasShortest_of_reduced {K : Matrix (Fin 3) (Fin 3) ℝ} {A B C D E F : ℝ} (h : Kᵀ * K = metric A B C D E F)
    (hr : NiggliReduced A B C D E F) : HasShortest K := by
  refine ⟨0, fun v hv => ?_⟩
  rw [gridLength_metric h, gridLength_metric h]
  refine Real.sqrt_le_sqrt ?_
  have h1 : ¬ (v 0 = 0 ∧ v 1 = 0 ∧ v 2 = 0) := by
    rintro ⟨a, b, c⟩
    apply hv
    funext i
    fin_cases i
    · exact a
    · exact b
    · exact c
  refine le_trans ?_ ((lowest_pos hr h1).trans (lowest_le hr _ _ _))
  simp [sqLen]

/-- There is such a reduction: each grid has a right-handed basis with a shortest vector. -/
theorem minkowski_exists : ∃ mink, Minkowski mink := by
  have key : ∀ K : Matrix (Fin 3) (Fin 3) ℚ, ∃ K' : Matrix (Fin 3) (Fin 3) ℚ, K.det ≠ 0 →
      (∃ W : IntMat, IsUnit W.det ∧ K' = K * castMat W) ∧ 0 < K'.det ∧ HasShortest (realMat K') := by
    intro K
    by_cases hK : K.det = 0
    · exact ⟨K, fun h => absurd hK h⟩
    · have hU : (cellOf K).toMatrix = K := by
        ext i j
        fin_cases i <;> fin_cases j <;> rfl
      obtain ⟨n, C, hC, -, red⟩ := niggliLoop_total_partial (cellOf K) (by rwa [hU])
      have hm := realCell_metric (cellOf K) C
      have hd : (castMat C.toMat : Matrix (Fin 3) (Fin 3) ℚ).det = 1 := by
        have := RingHom.map_det (Int.castRingHom ℚ) C.toMat
        have e' : (castMat C.toMat : Matrix (Fin 3) (Fin 3) ℚ).det = (C.toMat.det : ℚ) := by
          simpa [castMat, RingHom.mapMatrix_apply] using this.symm
        rw [e', hC]
        simp
      have hreal : realCell (cellOf K) * toReal C.toMat = realMat (K * castMat C.toMat) := by
        rw [realMat_mul, realMat_castMat]
        unfold realCell
        rw [hU]
        rfl
      rw [hreal] at hm
      rcases lt_or_gt_of_ne hK with h | h
      · refine ⟨K * castMat (-C.toMat), fun _ => ⟨⟨-C.toMat, ?_, rfl⟩, ?_, ?_⟩⟩
        · rw [det_neg, Fintype.card_fin, hC]
          exact ⟨-1, by simp⟩
        · have e : (castMat (-C.toMat) : Matrix (Fin 3) (Fin 3) ℚ) = -castMat C.toMat := by
            ext i j
            simp [castMat]
          rw [e, Matrix.mul_neg, det_neg, Fintype.card_fin, det_mul, hd]
          linarith
        · refine hasShortest_of_reduced (A := (gram (cellOf K) C 0 0 : ℚ)) (B := (gram (cellOf K) C 1 1 : ℚ))
            (C := (gram (cellOf K) C 2 2 : ℚ)) (D := (gram (cellOf K) C 1 2 : ℚ)) (E := (gram (cellOf K) C 0 2 : ℚ))
            (F := (gram (cellOf K) C 0 1 : ℚ)) ?_ red
          have e : realMat (K * castMat (-C.toMat)) = -realMat (K * castMat C.toMat) := by
            have e' : (castMat (-C.toMat) : Matrix (Fin 3) (Fin 3) ℚ) = -castMat C.toMat := by
              ext i j
              simp [castMat]
            rw [e', Matrix.mul_neg]
            ext i j
            simp [realMat]
          rw [e, transpose_neg, Matrix.neg_mul, Matrix.mul_neg, neg_neg, hm]
      · refine ⟨K * castMat C.toMat, fun _ => ⟨⟨C.toMat, by rw [hC]; exact isUnit_one, rfl⟩, ?_, ?_⟩⟩
        · rw [det_mul, hd, mul_one]
          exact h
        · exact hasShortest_of_reduced hm red
  choose mink hmink using key
  exact ⟨mink, hmink⟩

/-- There is such a square root. -/
theorem sqrtOk_exists : ∃ sqrt, SqrtOk sqrt := by
  have key : ∀ x : ℚ, ∃ q : ℚ, 0 ≤ x → |(q : ℝ) - √(x : ℝ)| ≤ 1 / 1000 * √(x : ℝ) := by
    intro x
    by_cases hx : 0 < x
    · have h0 : 0 < √(x : ℝ) := Real.sqrt_pos.2 (by exact_mod_cast hx)
      obtain ⟨q, h1, h2⟩ := exists_rat_btwn (show 999 / 1000 * √(x : ℝ) < √(x : ℝ) by linarith)
      exact ⟨q, fun _ => abs_le.2 ⟨by linarith, by linarith⟩⟩
    · refine ⟨0, fun h => ?_⟩
      have : x = 0 := le_antisymm (not_lt.1 hx) h
      subst this
      simp
  choose sqrt h using key
  exact ⟨sqrt, h⟩

/-- C96 applies to the simple cubic grid, which is taken, and, left-handed, is not. -/
example {sqrt : ℚ → ℚ} (hs : SqrtOk sqrt) : (compareGeom sqrt 1).packed = true ∧
    (compareGeom sqrt (-1)).packed = false := by
  have hm : (realMat 1)ᵀ * realMat 1 = metric 1 1 1 0 0 0 := by
    ext i j
    fin_cases i <;> fin_cases j <;> simp [realMat, metric, Matrix.mul_apply, Matrix.one_apply]
  refine ⟨(compareGeom_packed hs (by simp) (hasShortest_of_reduced hm (by constructor <;> norm_num [TypeI, TypeII]))).1
    ?_, compareGeom_left_handed hs (by rw [det_neg]; norm_num)⟩
  intro v hv
  rw [gridLength_metric hm]
  have h1 : (1 : ℝ) ≤ √(sqLen 1 1 1 0 0 0 (v 0) (v 1) (v 2)) := by
    rw [Real.one_le_sqrt]
    refine (lowest_pos (D := 0) (E := 0) (F := 0) (by constructor <;> norm_num [TypeI, TypeII]) ?_).trans
      (lowest_le (by constructor <;> norm_num [TypeI, TypeII]) _ _ _)
    rintro ⟨a, b, c⟩
    apply hv
    funext i
    fin_cases i
    · exact a
    · exact b
    · exact c
  have h2 : (1 : ℝ) ≤ √(sqLen 1 1 1 0 0 0 (v 0) (v 1) (v 2)) ^ 3 := one_le_pow₀ h1
  have hpi := Real.pi_gt_d2
  have e : (realMat 1).det = 1 := by rw [realMat_det]; simp
  rw [e]
  simp only [abs_one]
  nlinarith

end AutoGR.Fortran
