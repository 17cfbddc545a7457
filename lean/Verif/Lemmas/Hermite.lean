import Verif.Props.FortranPack
import Verif.Props.FortranMain

/-!
# Lattices and their reciprocal lattices: how far apart the points can be
-/

namespace AutoGR

open Spec Matrix

/-- Gauss: the product of the squared lengths of a reduced basis is at most twice the squared volume. -/
theorem reduced_product {A B C D E F : ℝ} (h : NiggliReduced A B C D E F) :
    A * B * C ≤ 2 * (A * B * C + 2 * D * E * F - A * D ^ 2 - B * E ^ 2 - C * F ^ 2) := by
  have ab := h.ab
  have bc := h.bc
  have ha := h.pos
  have hb : 0 < B := by linarith
  rcases h.signs with ⟨h1, h2, h3, d, e, f⟩ | ⟨h1, h2, h3, d, e, f⟩
  · have hC : 0 ≤ (C - B) * (A * B - 2 * F ^ 2) := mul_nonneg (by linarith) (by nlinarith)
    obtain ⟨x, hx⟩ : ∃ x, x = B - 2 * D := ⟨_, rfl⟩
    obtain ⟨y, hy⟩ : ∃ y, y = A - 2 * E := ⟨_, rfl⟩
    obtain ⟨z, hz⟩ : ∃ z, z = A - 2 * F := ⟨_, rfl⟩
    have x0 : 0 ≤ x := by linarith
    have y0 : 0 ≤ y := by linarith
    have z0 : 0 ≤ z := by linarith
    have t1 : 0 ≤ A * (B - A) * (B + x) := by
      refine mul_nonneg (mul_nonneg ha.le (by linarith)) (by linarith)
    have t2 : 0 ≤ A * x * (y + z) := by positivity
    have t3 : 0 ≤ (2 * D) * (y * z) := by positivity
    have t4 : 0 ≤ 2 * A * D * x + 2 * B * E * y + 2 * B * F * z := by positivity
    obtain rfl : D = (B - x) / 2 := by linarith
    obtain rfl : E = (A - y) / 2 := by linarith
    obtain rfl : F = (A - z) / 2 := by linarith
    nlinarith
  · have s := h.sum
    obtain ⟨d', rfl⟩ : ∃ d', D = -d' := ⟨-D, by ring⟩
    obtain ⟨e', rfl⟩ : ∃ e', E = -e' := ⟨-E, by ring⟩
    obtain ⟨f', rfl⟩ : ∃ f', F = -f' := ⟨-F, by ring⟩
    have d0 : 0 ≤ d' := by linarith
    have e0 : 0 ≤ e' := by linarith
    have f0 : 0 ≤ f' := by linarith
    have hC : 0 ≤ (C - B) * (A * B - 2 * f' ^ 2) := mul_nonneg (by linarith) (by nlinarith)
    have t1 : 0 ≤ A * B * (B - d' - e' - f') := mul_nonneg (by positivity) (by linarith)
    have t2 : 0 ≤ B * f' * (A - 2 * f') := mul_nonneg (by positivity) (by linarith)
    have t3 : 0 ≤ (A - 2 * e') * (d' * (B - 2 * d')) := mul_nonneg (by linarith) (mul_nonneg d0 (by linarith))
    have t4 : 0 ≤ (B - 2 * d') * (e' * (A - 2 * e')) := mul_nonneg (by linarith) (mul_nonneg e0 (by linarith))
    have t5 : 0 ≤ 2 * (d' * e') * ((B - 2 * d') + (A - 2 * e') - 2 * f') := mul_nonneg (by positivity) (by linarith)
    nlinarith

theorem metric_det (A B C D E F : ℝ) :
    (metric A B C D E F).det = A * B * C + 2 * D * E * F - A * D ^ 2 - B * E ^ 2 - C * F ^ 2 := by
  rw [det_fin_three]
  simp [metric]
  ring

theorem gridLength_change (K : Matrix (Fin 3) (Fin 3) ℝ) (W : IntMat) (v : Fin 3 → ℤ) :
    gridLength (K * toReal W) v = gridLength K (W *ᵥ v) := by
  unfold gridLength
  have : (K * toReal W) *ᵥ (fun j => (v j : ℝ)) = K *ᵥ fun j => ((W *ᵥ v) j : ℝ) := by
    rw [← mulVec_mulVec]
    congr 1
    funext i
    simp [toReal, mulVec, dotProduct]
  rw [this]

theorem gridLength_nonneg (K : Matrix (Fin 3) (Fin 3) ℝ) (v : Fin 3 → ℤ) : 0 ≤ gridLength K v := Real.sqrt_nonneg _

theorem gridLength_sq (K : Matrix (Fin 3) (Fin 3) ℝ) (v : Fin 3 → ℤ) :
    gridLength K v ^ 2 = (K *ᵥ fun j => (v j : ℝ)) ⬝ᵥ (K *ᵥ fun j => (v j : ℝ)) := by
  rw [gridLength, Real.sq_sqrt (Finset.sum_nonneg fun i _ => sq_nonneg _)]
  simp only [dotProduct, sq]

theorem unit_mulVec_ne {W : IntMat} (hW : IsUnit W.det) {v : Fin 3 → ℤ} (hv : v ≠ 0) : W *ᵥ v ≠ 0 := by
  intro h
  apply hv
  have := congrArg (W⁻¹ *ᵥ ·) h
  simpa [mulVec_mulVec, nonsing_inv_mul _ hW] using this

variable {K : Matrix (Fin 3) (Fin 3) ℝ} {Co : IntMat} {A B C D E F : ℝ}

theorem Spec.NiggliCellOf.product (h : NiggliCellOf K Co A B C D E F) : A * B * C ≤ 2 * K.det ^ 2 := by
  have hd := congrArg Matrix.det h.cell
  have hu : (toReal Co).det ^ 2 = 1 := by
    rw [Fortran.toReal_det]
    rcases Int.isUnit_iff.1 h.unit with e | e <;> rw [e] <;> norm_num
  rw [det_mul, det_transpose, det_mul, metric_det] at hd
  have := reduced_product h.red
  rw [← hd] at this
  nlinarith

/-- The distance between the points of a lattice is at most that of the close-packed lattice of the same volume. -/
theorem shortest_upper (h : NiggliCellOf K Co A B C D E F) :
    ∃ v : Fin 3 → ℤ, v ≠ 0 ∧ gridLength K v ^ 3 ≤ √2 * |K.det| := by
  refine ⟨Co *ᵥ Pi.single 0 1, unit_mulVec_ne h.unit (Fortran.single_ne_zero 0), ?_⟩
  have hl : gridLength K (Co *ᵥ Pi.single 0 1) = √A := by
    rw [← gridLength_change, Fortran.gridLength_metric h.cell]
    simp [sqLen]
  have ha := h.red.pos
  have ab := h.red.ab
  have bc := h.red.bc
  rw [hl]
  have h1 : A ^ 3 ≤ 2 * K.det ^ 2 := by
    refine le_trans ?_ h.product
    have : A * A ≤ B * C := mul_le_mul ab (ab.trans bc) ha.le (by linarith)
    nlinarith
  refine le_of_sq_le_sq ?_ (by positivity)
  rw [mul_pow, Real.sq_sqrt (by norm_num), sq_abs, ← pow_mul, mul_comm 3 2, pow_mul, Real.sq_sqrt ha.le]
  exact h1

/-- If the points of a lattice are at least `l` apart, those of the reciprocal lattice are not too close. -/
theorem dual_lower (h : NiggliCellOf K Co A B C D E F) (hK : K.det ≠ 0) {l : ℝ} (hl : 0 ≤ l)
    (hmin : ∀ v : Fin 3 → ℤ, v ≠ 0 → l ≤ gridLength K v) (w : Fin 3 → ℤ) (hw : w ≠ 0) :
    l ^ 2 ≤ √2 * |K.det| * gridLength (Kᵀ)⁻¹ w := by
  have hX : ∀ j, ∃ X, gridLength (K * toReal Co) (Pi.single j 1) ^ 2 = X ∧ l ^ 4 * X ≤ 2 * K.det ^ 2 := by
    have hA : l ^ 2 ≤ A := by
      have := hmin (Co *ᵥ Pi.single 0 1) (unit_mulVec_ne h.unit (Fortran.single_ne_zero 0))
      rw [← gridLength_change, Fortran.gridLength_metric h.cell] at this
      have e : sqLen A B C D E F ((Pi.single 0 1 : Fin 3 → ℤ) 0) ((Pi.single 0 1 : Fin 3 → ℤ) 1)
          ((Pi.single 0 1 : Fin 3 → ℤ) 2) = A := by simp [sqLen]
      rw [e] at this
      have h2 := pow_le_pow_left₀ hl this 2
      rwa [Real.sq_sqrt h.red.pos.le] at h2
    have ha := h.red.pos
    have ab := h.red.ab
    have bc := h.red.bc
    have l0 : 0 ≤ l ^ 2 := sq_nonneg l
    have e4 : l ^ 4 = l ^ 2 * l ^ 2 := by ring
    have key : ∀ Y Z : ℝ, A ≤ Y → A ≤ Z → l ^ 4 ≤ Y * Z := fun Y Z hY hZ => by
      rw [e4]; exact mul_le_mul (hA.trans hY) (hA.trans hZ) l0 (by linarith)
    intro j
    refine ⟨_, rfl, ?_⟩
    rw [Fortran.gridLength_metric h.cell]
    have e : sqLen A B C D E F ((Pi.single j 1 : Fin 3 → ℤ) 0) ((Pi.single j 1 : Fin 3 → ℤ) 1)
        ((Pi.single j 1 : Fin 3 → ℤ) 2) = ![A, B, C] j := by fin_cases j <;> simp [sqLen]
    have e0 : 0 ≤ ![A, B, C] j := by fin_cases j <;> simp <;> linarith
    rw [e, Real.sq_sqrt e0]
    refine le_trans ?_ h.product
    fin_cases j
    · have := mul_le_mul_of_nonneg_right (key B C ab (ab.trans bc)) ha.le
      simp only [Fin.zero_eta, cons_val_zero]; linarith
    · have := mul_le_mul_of_nonneg_right (key A C le_rfl (ab.trans bc)) (by linarith : 0 ≤ B)
      simp; linarith
    · have := mul_le_mul_of_nonneg_right (key A B le_rfl ab) (by linarith : 0 ≤ C)
      simp; linarith
  have hu : Coᵀ *ᵥ w ≠ 0 := unit_mulVec_ne (by rw [det_transpose]; exact h.unit) hw
  obtain ⟨j, hj⟩ : ∃ j, (Coᵀ *ᵥ w) j ≠ 0 := by
    by_contra hall
    push Not at hall
    exact hu (funext hall)
  obtain ⟨X, hX1, hX2⟩ := hX j
  -- the scalar product of the two vectors is an integer different from zero
  obtain ⟨p, hp⟩ : ∃ p, p = (Kᵀ)⁻¹ *ᵥ fun j => (w j : ℝ) := ⟨_, rfl⟩
  obtain ⟨q, hq⟩ : ∃ q, q = (K * toReal Co) *ᵥ fun i => ((Pi.single j 1 : Fin 3 → ℤ) i : ℝ) := ⟨_, rfl⟩
  have hpq : p ⬝ᵥ q = ((Coᵀ *ᵥ w) j : ℝ) := by
    have hK' : IsUnit (Kᵀ).det := by rw [det_transpose]; exact isUnit_iff_ne_zero.2 hK
    rw [hq, ← mulVec_mulVec, dotProduct_mulVec, ← mulVec_transpose, hp, mulVec_mulVec, mul_nonsing_inv _ hK', one_mulVec]
    have : toReal Co *ᵥ (fun i => ((Pi.single j 1 : Fin 3 → ℤ) i : ℝ)) = fun i => (Co i j : ℝ) := by
      funext i
      rw [show (fun i => ((Pi.single j 1 : Fin 3 → ℤ) i : ℝ)) = Pi.single j 1 by
        funext i; by_cases hi : i = j <;> simp [hi]]
      rw [mulVec_single]
      simp [toReal]
    rw [this]
    simp [dotProduct, mulVec, mul_comm]
  have hcs : (p ⬝ᵥ q) ^ 2 ≤ (p ⬝ᵥ p) * (q ⬝ᵥ q) := by
    simp only [dotProduct, ← sq]
    exact Finset.sum_mul_sq_le_sq_mul_sq _ _ _
  have hone : 1 ≤ (p ⬝ᵥ q) ^ 2 := by
    rw [hpq]
    have : (1 : ℤ) ≤ ((Coᵀ *ᵥ w) j) ^ 2 := by
      have := sq_pos_of_ne_zero hj
      omega
    exact_mod_cast this
  rw [gridLength_sq, ← hq] at hX1
  refine le_of_sq_le_sq ?_ (mul_nonneg (by positivity) (gridLength_nonneg _ _))
  rw [mul_pow, mul_pow, Real.sq_sqrt (by norm_num), sq_abs, gridLength_sq, ← hp]
  have hpp : 0 ≤ p ⬝ᵥ p := by rw [dotProduct]; exact Finset.sum_nonneg fun i _ => mul_self_nonneg _
  rw [hX1] at hcs
  have l4 : 0 ≤ l ^ 4 := by positivity
  calc (l ^ 2) ^ 2 = l ^ 4 * 1 := by ring
    _ ≤ l ^ 4 * ((p ⬝ᵥ p) * X) := mul_le_mul_of_nonneg_left (hone.trans hcs) l4
    _ = (l ^ 4 * X) * (p ⬝ᵥ p) := by ring
    _ ≤ _ := mul_le_mul_of_nonneg_right hX2 hpp

/-- A lattice that is packed densely has a reciprocal lattice that is not packed too thinly. -/
theorem dual_packed (h : NiggliCellOf K Co A B C D E F) (hK : K.det ≠ 0) {c : ℝ} (hc : 0 ≤ c)
    (hp : PackedAtLeast c K) (w : Fin 3 → ℤ) (hw : w ≠ 0) :
    (6 * c / Real.pi) ^ 2 ≤ 2 * √2 * |K.det| * gridLength (Kᵀ)⁻¹ w ^ 3 := by
  obtain ⟨v, hv, hmin⟩ : ∃ v : Fin 3 → ℤ, v ≠ 0 ∧ ∀ v' : Fin 3 → ℤ, v' ≠ 0 → gridLength K v ≤ gridLength K v' := by
    obtain ⟨j, hj⟩ := Fortran.hasShortest_of_reduced h.cell h.red
    refine ⟨Co *ᵥ Pi.single j 1, unit_mulVec_ne h.unit (Fortran.single_ne_zero j), fun v' hv' => ?_⟩
    have hu : IsUnit (Co⁻¹).det := by
      rw [det_nonsing_inv]
      exact h.unit.ringInverse
    have := hj (Co⁻¹ *ᵥ v') (unit_mulVec_ne hu hv')
    rwa [gridLength_change, gridLength_change, mulVec_mulVec, mul_nonsing_inv _ h.unit, one_mulVec] at this
  have h1 := hp v hv
  have h2 := dual_lower h hK (gridLength_nonneg K v) hmin w hw
  have hpi := Real.pi_pos
  have hd : 0 < |K.det| := abs_pos.2 hK
  obtain ⟨l, hl⟩ : ∃ l, l = gridLength K v := ⟨_, rfl⟩
  rw [← hl] at h1 h2
  generalize gridLength (Kᵀ)⁻¹ w = g at h2 ⊢
  generalize |K.det| = d at h1 h2 hd ⊢
  have h3 : 6 * c / Real.pi * d ≤ l ^ 3 := by
    rw [div_mul_eq_mul_div, div_le_iff₀ hpi]
    linarith
  have h4 : (6 * c / Real.pi * d) ^ 2 ≤ (√2 * d * g) ^ 3 := by
    calc (6 * c / Real.pi * d) ^ 2 ≤ (l ^ 3) ^ 2 := pow_le_pow_left₀ (by positivity) h3 2
      _ = (l ^ 2) ^ 3 := by ring
      _ ≤ _ := pow_le_pow_left₀ (sq_nonneg l) h2 3
  have h5 : (√2 * d * g) ^ 3 = d ^ 2 * (2 * √2 * d * g ^ 3) := by
    have : √2 ^ 2 = 2 := Real.sq_sqrt (by norm_num)
    calc (√2 * d * g) ^ 3 = √2 ^ 2 * √2 * d ^ 3 * g ^ 3 := by ring
      _ = _ := by rw [this]; ring
  rw [h5, mul_pow, mul_comm] at h4
  exact le_of_mul_le_mul_left h4 (by positivity)

open Fortran

/-- The lengths of the vectors of a reduced basis. -/
theorem reduced_length (h : NiggliCellOf K Co A B C D E F) (j : Fin 3) :
    gridLength K (Co *ᵥ Pi.single j 1) = √(![A, B, C] j) := by
  rw [← gridLength_change, gridLength_metric h.cell]
  congr 1
  fin_cases j <;> simp [sqLen]

/-- The vectors of a reduced basis of a lattice that is packed densely are not too long. -/
theorem packed_basis (h : NiggliCellOf K Co A B C D E F) (hK : K.det ≠ 0) {c : ℝ} (hc : 0 ≤ c)
    (hp : PackedAtLeast c K) (j : Fin 3) :
    (6 * c / Real.pi) ^ 2 * gridLength K (Co *ᵥ Pi.single j 1) ^ 3 ≤ 2 * √2 * |K.det| := by
  have ha := h.red.pos
  have ab := h.red.ab
  have bc := h.red.bc
  have hd : 0 < |K.det| := abs_pos.2 hK
  have hpi := Real.pi_pos
  have hj : ![A, B, C] j ≤ C := by fin_cases j <;> simp <;> linarith
  have h1 := hp (Co *ᵥ Pi.single 0 1) (unit_mulVec_ne h.unit (single_ne_zero 0))
  rw [reduced_length h] at h1 ⊢
  have e0 : ![A, B, C] 0 = A := rfl
  rw [e0] at h1
  obtain ⟨l, hl⟩ : ∃ l, l = √A := ⟨_, rfl⟩
  obtain ⟨g, hg⟩ : ∃ g, g = √(![A, B, C] j) := ⟨_, rfl⟩
  rw [← hl] at h1
  rw [← hg]
  have hlA : l ^ 2 = A := by rw [hl, Real.sq_sqrt ha.le]
  have hl0 : 0 < l := by rw [hl]; exact Real.sqrt_pos.2 ha
  have hg0 : 0 ≤ g := by rw [hg]; exact Real.sqrt_nonneg _
  have hgC : g ^ 2 ≤ C := by
    rw [hg, Real.sq_sqrt (by fin_cases j <;> simp <;> linarith)]
    exact hj
  have h2 : l ^ 4 * g ^ 2 ≤ 2 * K.det ^ 2 := by
    refine le_trans ?_ h.product
    have e : l ^ 4 = A * A := by rw [← hlA]; ring
    rw [e]
    have : A * A ≤ A * B := mul_le_mul_of_nonneg_left ab ha.le
    exact mul_le_mul this hgC (sq_nonneg g) (by nlinarith)
  have h3 : l ^ 2 * g ≤ √2 * |K.det| := by
    refine le_of_sq_le_sq ?_ (by positivity)
    rw [mul_pow √2, Real.sq_sqrt (by norm_num), sq_abs]
    nlinarith
  generalize |K.det| = d at *
  have h4 : 6 * c / Real.pi * d ≤ l ^ 3 := by
    rw [div_mul_eq_mul_div, div_le_iff₀ hpi]
    linarith
  have h5 : (6 * c / Real.pi * d) ^ 2 ≤ (l ^ 3) ^ 2 := pow_le_pow_left₀ (by positivity) h4 2
  have h6 : (l ^ 2 * g) ^ 3 ≤ (√2 * d) ^ 3 := pow_le_pow_left₀ (by positivity) h3 3
  have h7 : (√2 * d) ^ 3 = d ^ 2 * (2 * √2 * d) := by
    have : √2 ^ 2 = 2 := Real.sq_sqrt (by norm_num)
    calc (√2 * d) ^ 3 = √2 ^ 2 * √2 * d ^ 3 := by ring
      _ = _ := by rw [this]; ring
  have h8 : d ^ 2 * ((6 * c / Real.pi) ^ 2 * g ^ 3) ≤ d ^ 2 * (2 * √2 * d) := by
    rw [← h7]
    refine le_trans ?_ h6
    calc d ^ 2 * ((6 * c / Real.pi) ^ 2 * g ^ 3) = (6 * c / Real.pi * d) ^ 2 * g ^ 3 := by ring
      _ ≤ (l ^ 3) ^ 2 * g ^ 3 := mul_le_mul_of_nonneg_right h5 (by positivity)
      _ = _ := by ring
  exact le_of_mul_le_mul_left h8 (by positivity)

/-- The reduced cell of a grid. -/
theorem niggli_realMat {M : Matrix (Fin 3) (Fin 3) ℚ} (hM : M.det ≠ 0) :
    ∃ (Co : IntMat) (A B C D E F : ℝ) (k : ℕ), NiggliCellOf (realMat M) Co A B C D E F ∧ IsClass k A B C D E F := by
  obtain ⟨Co, A, B, C, D, E, F, k, h1, h2⟩ := niggliCell_exists (cellOf M) (by rwa [cellOf_toMatrix])
  have e : realCell (cellOf M) = realMat M := by
    unfold realCell
    rw [cellOf_toMatrix]
    rfl
  rw [e] at h1
  exact ⟨Co, A, B, C, D, E, F, k, h1, h2⟩

/-- A lattice with 48 point symmetries is cubic: its reduced basis consists of shortest vectors. -/
theorem many_cubic {M : Matrix (Fin 3) (Fin 3) ℚ} (hM : M.det ≠ 0) (hn : 48 ≤ (PointSym (realMat M)).ncard) :
    (∀ w : Fin 3 → ℤ, w ≠ 0 → |(realMat M).det| ≤ gridLength (realMat M) w ^ 3) ∧
    ∃ W : IntMat, IsUnit W.det ∧ ∀ j, gridLength (realMat M) (W *ᵥ Pi.single j 1) ^ 3 ≤ √2 * |(realMat M).det| := by
  obtain ⟨Co, A, B, C, D, E, F, k, h1, h2⟩ := niggli_realMat hM
  obtain ⟨b, hb, hc⟩ := pointSym_order h1 h2
  rw [hc] at hn
  have hk : k = 1 ∨ k = 3 ∨ k = 5 := by
    have hall : ∀ k ∈ classTable, ∀ b, bravais k = some b → 48 ≤ holohedryOrder b → k = 1 ∨ k = 3 ∨ k = 5 := by decide
    exact hall k h2.1 b hb hn
  have hd := congrArg Matrix.det h1.cell
  have hu : (toReal Co).det ^ 2 = 1 := by
    rw [toReal_det]
    rcases Int.isUnit_iff.1 h1.unit with e | e <;> rw [e] <;> norm_num
  rw [det_mul, det_transpose, det_mul, metric_det] at hd
  have hd2 : (realMat M).det ^ 2 = A * B * C + 2 * D * E * F - A * D ^ 2 - B * E ^ 2 - C * F ^ 2 := by
    rw [← hd]
    linear_combination -((realMat M).det ^ 2) * hu
  have ha := h1.red.pos
  have key : A = B ∧ B = C ∧ (realMat M).det ^ 2 ≤ A ^ 3 ∧ A ^ 3 ≤ 2 * (realMat M).det ^ 2 := by
    have h3 : 0 < A ^ 3 := by positivity
    rcases hk with rfl | rfl | rfl
    · obtain ⟨-, rfl, rfl, rfl, rfl, rfl⟩ := h2.2.1
      exact ⟨rfl, rfl, by rw [hd2]; nlinarith, by rw [hd2]; nlinarith⟩
    · obtain ⟨-, rfl, rfl, rfl, rfl, rfl⟩ := h2.2.1
      exact ⟨rfl, rfl, by rw [hd2]; nlinarith, by rw [hd2]; nlinarith⟩
    · obtain ⟨-, rfl, rfl, rfl, rfl, rfl⟩ := h2.2.1
      exact ⟨rfl, rfl, by rw [hd2]; nlinarith, by rw [hd2]; nlinarith⟩
  obtain ⟨rfl, rfl, k1, k2⟩ := key
  have hA : (√A ^ 3) ^ 2 = A ^ 3 := by rw [← pow_mul, mul_comm, pow_mul, Real.sq_sqrt ha.le]
  refine ⟨fun w hw => ?_, Co, h1.unit, fun j => ?_⟩
  · have h3 : √A ≤ gridLength (realMat M) w := by
      obtain ⟨j, hj⟩ := hasShortest_of_reduced h1.cell h1.red
      have hu : IsUnit (Co⁻¹).det := by
        rw [det_nonsing_inv]
        exact h1.unit.ringInverse
      have := hj (Co⁻¹ *ᵥ w) (unit_mulVec_ne hu hw)
      rw [gridLength_change, gridLength_change, mulVec_mulVec, mul_nonsing_inv _ h1.unit, one_mulVec,
        reduced_length h1] at this
      fin_cases j <;> exact this
    refine le_trans (le_of_sq_le_sq ?_ (by positivity)) (pow_le_pow_left₀ (Real.sqrt_nonneg A) h3 3)
    rw [hA, sq_abs]
    exact k1
  · rw [reduced_length h1]
    have e : ![A, A, A] j = A := by fin_cases j <;> rfl
    rw [e]
    refine le_of_sq_le_sq ?_ (by positivity)
    rw [hA, mul_pow, Real.sq_sqrt (by norm_num), sq_abs]
    exact k2

/-- A grid that has the symmetries of a lattice has at least as many; its reciprocal lattice too. -/
theorem symmetric_many {U : Matrix (Fin 3) (Fin 3) ℝ} (hU : U.det ≠ 0) {M : Matrix (Fin 3) (Fin 3) ℚ} (hM : M.det ≠ 0)
    {n : ℤ} (h : SymmetricGrid U (realMat M) n) :
    (PointSym U).ncard ≤ (PointSym (realMat M)).ncard ∧
      (PointSym U).ncard ≤ (PointSym ((realMat M)ᵀ)⁻¹).ncard := by
  have hfin : ∀ {M : Matrix (Fin 3) (Fin 3) ℚ}, M.det ≠ 0 → (PointSym (realMat M)).Finite := by
    intro M hM
    obtain ⟨Co, A, B, C, D, E, F, k, h1, h2⟩ := niggli_realMat hM
    obtain ⟨b, hb, hc⟩ := pointSym_order h1 h2
    apply Set.finite_of_ncard_ne_zero
    rw [hc]
    cases b <;> simp [holohedryOrder]
  have hM' : (realMat M).det ≠ 0 := by
    rw [realMat_det]
    exact_mod_cast hM
  have hdual : ((realMat M)ᵀ)⁻¹ = realMat (Mᵀ)⁻¹ := by
    rw [realMat_inv (by rwa [det_transpose]), realMat_transpose]
  have hUu := isUnit_iff_ne_zero.2 hU
  have hMu := isUnit_iff_ne_zero.2 hM'
  -- the rotation of a symmetry is determined by each of the three matrices
  have key : ∀ X : IntMat, ∃ Y Z : IntMat, X ∈ PointSym U → ∃ Q : Matrix (Fin 3) (Fin 3) ℝ, Qᵀ * Q = 1 ∧
      Q * U = U * toReal X ∧ Q * realMat M = realMat M * toReal Y ∧
      Q * ((realMat M)ᵀ)⁻¹ = ((realMat M)ᵀ)⁻¹ * toReal Z := by
    intro X
    by_cases hX : X ∈ PointSym U
    · obtain ⟨Q, q1, q2⟩ := hX
      obtain ⟨Y, hY⟩ := h.symmetric Q q1 ⟨X, q2⟩
      have hYu : IsUnit Y.det := by
        have e1 := congrArg Matrix.det hY
        have e2 := congrArg Matrix.det q1
        rw [det_mul, det_mul, mul_comm, mul_right_inj' hM', toReal_det] at e1
        rw [det_mul, det_transpose, Matrix.det_one, e1] at e2
        have e3 : Y.det * Y.det = 1 := by exact_mod_cast e2
        exact IsUnit.of_mul_eq_one _ e3
      refine ⟨Y, (Yᵀ)⁻¹, fun _ => ⟨Q, q1, q2, hY, ?_⟩⟩
      have hQ : (Qᵀ)⁻¹ = Q := inv_eq_right_inv q1
      have e1 : ((Q * realMat M)ᵀ)⁻¹ = Q * ((realMat M)ᵀ)⁻¹ := by
        rw [transpose_mul, Matrix.mul_inv_rev, hQ]
      have e2 : ((realMat M * toReal Y)ᵀ)⁻¹ = ((realMat M)ᵀ)⁻¹ * toReal (Yᵀ)⁻¹ := by
        rw [transpose_mul, Matrix.mul_inv_rev]
        congr 1
        apply inv_eq_right_inv
        have : (toReal Y)ᵀ = toReal Yᵀ := rfl
        rw [this, ← toReal_mul, mul_nonsing_inv _ (by rwa [det_transpose]), toReal_one]
      rw [← e1, hY, e2]
    · exact ⟨0, 0, fun h => absurd h hX⟩
  choose f g hfg using key
  have hdet : ∀ {L : Matrix (Fin 3) (Fin 3) ℝ} (hL : IsUnit L.det) {X X' Y : IntMat} {Q Q' : Matrix (Fin 3) (Fin 3) ℝ},
      Q * U = U * toReal X → Q' * U = U * toReal X' → Q * L = L * toReal Y → Q' * L = L * toReal Y → X = X' := by
    intro L hL X X' Y Q Q' a1 a2 a3 a4
    have e1 : Q = Q' := by
      have := a3.trans a4.symm
      have := congrArg (· * L⁻¹) this
      simpa [Matrix.mul_assoc, mul_nonsing_inv _ hL] using this
    subst e1
    have e2 := a1.symm.trans a2
    have e3 := congrArg (U⁻¹ * ·) e2
    simp only [← Matrix.mul_assoc, nonsing_inv_mul _ hUu, Matrix.one_mul] at e3
    ext i j
    have := congrFun (congrFun e3 i) j
    simpa [toReal] using this
  constructor
  · refine Set.ncard_le_ncard_of_injOn f (fun X hX => ?_) (fun X hX X' hX' e => ?_) (hfin hM)
    · obtain ⟨Q, q1, -, q3, -⟩ := hfg X hX
      exact ⟨Q, q1, q3⟩
    · obtain ⟨Q, q1, q2, q3, -⟩ := hfg X hX
      obtain ⟨Q', -, q2', q3', -⟩ := hfg X' hX'
      rw [← e] at q3'
      exact hdet hMu q2 q2' q3 q3'
  · refine Set.ncard_le_ncard_of_injOn g (fun X hX => ?_) (fun X hX X' hX' e => ?_) (by
      rw [hdual]
      refine hfin ?_
      rw [det_nonsing_inv, det_transpose]
      simpa using hM)
    · obtain ⟨Q, q1, -, -, q3⟩ := hfg X hX
      exact ⟨Q, q1, q3⟩
    · obtain ⟨Q, q1, q2, -, q3⟩ := hfg X hX
      obtain ⟨Q', -, q2', -, q3'⟩ := hfg X' hX'
      rw [← e] at q3'
      refine hdet ?_ q2 q2' q3 q3'
      rw [det_nonsing_inv, det_transpose]
      exact hMu.ringInverse

end AutoGR
