import Verif.Lemmas.RoundedPy

/-! # `reduced_cell` and `niggli_id` in accurate arithmetic: the ideal cell is found -/

namespace AutoGR

open Spec Arith Classical Matrix

section
variable {K : Type} [Arith K] {U : RMat K} {τ eps : K} {p : Params K} {T : IMat}

theorem niggliCheck_pos (h : niggliCheck p τ = true) : lt (ofInt 0) (sub p.A τ) = true := by
  by_contra hb
  rw [Bool.not_eq_true] at hb
  have : niggliCheck p τ = false := by
    unfold niggliCheck
    dsimp only
    rw [hb, Bool.false_and, Bool.false_and, Bool.not_false, if_pos rfl]
  rw [this] at h
  cases h

theorem niggliReduction_one (hp : getParams U τ IMat.one = p) (a1 : fCond1 τ p = false) (a2 : fCond2 τ p = false)
    (a5 : fCond5 τ p = false) (a6 : fCond6 τ p = false) (a7 : fCond7 τ p = false) (a8 : fCond8 τ p = false)
    (ht : (p.l = 1 ∧ p.m = 1 ∧ p.n = 1) ∨ ((p.l = 0 ∨ p.l = -1) ∧ (p.m = 0 ∨ p.m = -1) ∧ (p.n = 0 ∨ p.n = -1)))
    (hc : niggliCheck p τ = true) : niggliReduction U τ = .ok IMat.one := by
  rw [← cond1_eq] at a1
  rw [← cond2_eq] at a2
  rw [← cond5_eq] at a5
  rw [← cond6_eq] at a6
  rw [← cond7_eq] at a7
  rw [← cond8_eq] at a8
  have m1 : mulC IMat.one IMat.one = IMat.one := rfl
  have c3 : findC3 1 1 1 = IMat.one := rfl
  have hpass : niggliPass U τ IMat.one = (IMat.one, true) := by
    unfold niggliPass
    dsimp only
    rw [hp, a1]
    simp only [Bool.false_eq_true, if_false, hp, a2]
    rcases ht with ⟨l, m, n⟩ | ht
    · have e1 : (1 : ℤ) * 1 * 1 = 1 := by norm_num
      have e2 : ¬ ((1 : ℤ) * 1 * 1 = 0 ∨ (1 : ℤ) * 1 * 1 = -1) := by norm_num
      simp only [l, m, n, c3, if_pos e1, m1, hp, if_neg e2, a5, a6, a7, a8]
      simp
    · have c4 : findC4 p.l p.m p.n = IMat.one := by
        obtain ⟨l | l, m | m, n | n⟩ := ht <;> rw [l, m, n] <;> rfl
      have e1 : ¬ p.l * p.m * p.n = 1 := by
        obtain ⟨l | l, m | m, n | n⟩ := ht <;> rw [l, m, n] <;> decide
      have e2 : p.l * p.m * p.n = 0 ∨ p.l * p.m * p.n = -1 := by
        obtain ⟨l | l, m | m, n | n⟩ := ht <;> rw [l, m, n] <;> decide
      simp only [if_neg e1, hp, if_pos e2, c4, m1, a5, a6, a7, a8]
      simp [e1]
  have hl : niggliLoop U τ 1001 0 IMat.one = (IMat.one, 1) := by
    rw [niggliLoop, hpass]
  unfold niggliReduction
  rw [hl]
  dsimp only
  rw [if_neg (by norm_num), hp, hc, if_pos rfl]

theorem reducedCell_some (h0 : (le (rdet U) (ofInt 0) && le (ofInt 0) (rdet U)) = false)
    (h : niggliReduction U (cellTol U eps) = .ok T) : reducedCell U (some eps) = .ok T := by
  unfold reducedCell
  dsimp only
  rw [h0, if_neg (by simp)]
  exact h

end

section
variable {K : Type} [Arith K] {val : K → ℝ} {M η δ c L ℓ g a : ℝ} {U : RMat K} {eps : K} {T : IMat}
  {U0 : Matrix (Fin 3) (Fin 3) ℝ} {A B C D E F : ℝ}

theorem sumErr_three (hK : Accurate K val M η) (h : CloseTo val U.toMatrix U0 δ L)
    (ht : Tolerated M η δ c L ℓ |U0.det| (val eps) g a) :
    6 * (2 * dotErr η (cellErr η δ c) ℓ + η) + 5 * η ≤ sumErr η δ c ℓ ∧ 3 * η ≤ sumErr η δ c ℓ := by
  obtain ⟨e1, e2, e3, e4, e5⟩ := sumErr_nonneg hK h ht
  have hη := hK.nonneg
  unfold sumErr
  constructor <;> linarith

/-- The tolerance, with its relative part. -/
theorem tol_rel (hK : Accurate K val M η) (h : CloseTo val U.toMatrix U0 δ L)
    (ht : Tolerated M η δ c L ℓ |U0.det| (val eps) g a) (hr : RelTolerated η δ c L ℓ |U0.det| (val eps) g) :
    val (cellTol U eps) + (1 / 100000 + η) * (6 * (2 * ℓ ^ 2) + sumErr η δ c ℓ) + 5 * sumErr η δ c ℓ ≤ g := by
  obtain ⟨e1, e2, e3, e4, e5⟩ := sumErr_nonneg hK h ht
  have hη := hK.nonneg
  have hd := rep_det hK h ht.range_square ht.range_det
  have he : 0 ≤ val eps := by linarith [ht.class_low]
  have b1 := abs_sub_abs_le_abs_sub (val (rdet U)) U0.det
  have hv : |U0.det| + detErr η δ L ≤ M ∨ M < |U0.det| + detErr η δ L := le_or_gt _ _
  have hv' : |U0.det| ≤ 6 * L ^ 3 := by
    have s := h.size
    have l0 : 0 ≤ L := (abs_nonneg _).trans (s 0 0)
    have three (x y z : ℝ) (hx : |x| ≤ L) (hy : |y| ≤ L) (hz : |z| ≤ L) : |x * y * z| ≤ L ^ 3 := by
      rw [abs_mul, abs_mul]
      calc |x| * |y| * |z| ≤ L * L * L := mul_le_mul (mul_le_mul hx hy (abs_nonneg _) l0) hz (abs_nonneg _) (by positivity)
        _ = L ^ 3 := by ring
    have t1 := abs_le.1 (three _ _ _ (s 0 0) (s 1 1) (s 2 2))
    have t2 := abs_le.1 (three _ _ _ (s 0 0) (s 1 2) (s 2 1))
    have t3 := abs_le.1 (three _ _ _ (s 0 1) (s 1 0) (s 2 2))
    have t4 := abs_le.1 (three _ _ _ (s 0 1) (s 1 2) (s 2 0))
    have t5 := abs_le.1 (three _ _ _ (s 0 2) (s 1 0) (s 2 1))
    have t6 := abs_le.1 (three _ _ _ (s 0 2) (s 1 1) (s 2 0))
    rw [det_fin_three, abs_le]
    constructor <;> linarith
  obtain ⟨c0, c1, c2⟩ := hK.cbrt (abs (rdet U)) (by rw [hK.abs]; exact abs_nonneg _)
    (by rw [hK.abs]; linarith [ht.range_det])
  rw [hK.abs] at c1 c2
  obtain ⟨hi, h1, h2, h3⟩ := hr.cell
  set x := val (cbrt (abs (rdet U))) with hx
  have x2 : x - η ≤ hi := by
    by_contra hc
    rw [not_le] at hc
    have := pow_lt_pow_left₀ hc h1 (n := 3) (by norm_num)
    linarith
  have y2 := mul_le_mul_of_nonneg_left (show x ≤ hi + η by linarith) he
  have hp : 0 ≤ (1 / 100000 + η) * (12 * ℓ ^ 2 + sumErr η δ c ℓ) := by positivity
  have hsq := sq_nonneg ℓ
  have hm := hK.mul eps (cbrt (abs (rdet U))) (by
    rw [← hx, abs_of_nonneg (mul_nonneg he c0)]
    linarith [ht.range_sum])
  rw [← hx] at hm
  have hm' := abs_le.1 hm
  unfold cellTol
  rw [show 6 * (2 * ℓ ^ 2) = 12 * ℓ ^ 2 by ring]
  linarith

/-- If `reduced_cell` returns, the integer matrix it returns takes the ideal cell to its Niggli cell. -/
theorem reducedCell_ideal (hK : Accurate K val M η) (h : CloseTo val U.toMatrix U0 δ L)
    (ht : Tolerated M η δ c L ℓ |U0.det| (val eps) g a) (hr : reducedCell U (some eps) = .ok T)
    (hT : ∀ i j, |(T.toMat i j : ℝ)| ≤ c)
    (hm : (U0 * toReal T.toMat)ᵀ * (U0 * toReal T.toMat) = metric A B C D E F)
    (hA : A ≤ ℓ ^ 2) (hB : B ≤ ℓ ^ 2) (hC : C ≤ ℓ ^ 2) (hg : CellGap g A B C D E F) :
    NiggliCellOf U0 T.toMat A B C D E F := by
  obtain ⟨e1, e2, e3, e4, e5⟩ := sumErr_nonneg hK h ht
  obtain ⟨hp, hc⟩ := reducedCell_end hr
  obtain ⟨-, k1, k2, ⟨k3, k4⟩, k5, k6, k7, k8⟩ := niggliPass_true hp
  obtain ⟨s1, -⟩ := six_params hK h ht hT hm hA hB hC (cellTol U eps)
  refine ⟨by rw [reducedCell_det U _ T hr]; exact isUnit_one, hm,
    conds_ideal (slack_cell hK h ht) s1 (sumErr_three hK h ht).1 (by linarith) hg ?_ k1 k2 k5 k6 k7 k8 k3 k4⟩
  exact niggliCheck_pos hc

/-- A cell that is close to a Niggli cell is returned as it is. -/
theorem reducedCell_keeps (hK : Accurate K val M η) (h : CloseTo val U.toMatrix U0 δ L)
    (ht : Tolerated M η δ c L ℓ |U0.det| (val eps) g a) (hrel : RelTolerated η δ c L ℓ |U0.det| (val eps) g)
    (hm : U0ᵀ * U0 = metric A B C D E F)
    (hA : A ≤ ℓ ^ 2) (hB : B ≤ ℓ ^ 2) (hC : C ≤ ℓ ^ 2) (hg : CellGap g A B C D E F)
    (hn : NiggliReduced A B C D E F) : reducedCell U (some eps) = .ok IMat.one := by
  obtain ⟨e1, e2, e3, e4, e5⟩ := sumErr_nonneg hK h ht
  have hη := hK.nonneg
  have hf := ht.factor
  have h1 : toReal IMat.one.toMat = 1 := by
    rw [show IMat.one.toMat = 1 by decide]
    ext i j
    fin_cases i <;> fin_cases j <;> simp [toReal]
  obtain ⟨s1, -⟩ := six_params (T := IMat.one) hK h ht (by
    intro i j
    refine le_trans ?_ hf
    rw [show IMat.one.toMat = 1 by decide]
    fin_cases i <;> fin_cases j <;> simp) (by rw [h1, mul_one]; exact hm) hA hB hC (cellTol U eps)
  have sl := slack_cell hK h ht
  obtain ⟨hs, hs3⟩ := sumErr_three hK h ht
  have hcheck := niggliCheck_ideal sl hs3 ht.literal (tol_rel hK h ht hrel) hrel.last s1 hs (by linarith) hg hn
  obtain ⟨a1, a2, a5, a6, a7, a8, aI, aII⟩ := fConds_ideal sl s1 hs (by linarith) hg hn
  have hred := niggliReduction_one (getParams_eq U _ IMat.one) a1 a2 a5 a6 a7 a8 (hn.type.imp aI aII) hcheck
  have hdet : (le (rdet U) (ofInt 0) && le (ofInt 0) (rdet U)) = false := by
    obtain ⟨lo, l0, l1, l2⟩ := ht.cell_low
    have hd := rep_det hK h ht.range_square ht.range_det
    have he : 0 ≤ val eps := by linarith [ht.class_low]
    have z := hK.ofInt 0 (by simp; linarith)
    rw [← Bool.not_eq_true, Bool.and_eq_true, hK.le, hK.le, z]
    rintro ⟨t, u⟩
    have hz : val (rdet U) = 0 := by
      push_cast at t u
      linarith
    rw [hz, zero_sub, abs_neg] at hd
    have lpos : η < lo := by
      by_contra hc
      rw [not_lt] at hc
      have := mul_nonpos_of_nonneg_of_nonpos he (show lo - η ≤ 0 by linarith)
      linarith
    have : 0 < lo ^ 3 := by
      have : 0 < lo := by linarith
      positivity
    linarith
  exact reducedCell_some hdet hred

theorem pyAtoms_ideal {K : Type} [Arith K] {val : K → ℝ} {M η : ℝ} {eps A B C D E F : K} {κ g r s a b c d e f : ℝ}
    (h : ClassSlack val M η eps κ g (6 * s) a) (h6 : Products val r s A B C D E F a b c d e f)
    (hr : 6 * r + 5 * η ≤ κ) (hg : CellGap g a b c d e f) :
    PyAtoms eps A B C D E F a b c d e f := by
  have hη := h.acc.nonneg
  have r0 : 0 ≤ r := (abs_nonneg _).trans h6.a.err
  have s0 : 0 ≤ s := (abs_nonneg _).trans h6.a.size
  have hlow := h.low
  have hk := h.kpos
  have he : 0 ≤ val eps := by linarith
  have hprod : 0 ≤ val eps * (6 * s + κ) := by positivity
  have hM : 4 + 3 * (6 * s + κ) + val eps ≤ M := by linarith [h.size]
  have h2 : 2 ≤ M := by linarith
  have up {x : K} {x0 e t : ℝ} (hx : Rep val x x0 e t) (he : e ≤ 6 * r + 5 * η := by linarith)
    (ht : t ≤ 6 * s := by linarith) : Rep val x x0 κ (6 * s) := hx.mono (he.trans hr) ht
  have z : Rep val (ofInt 0) 0 κ (6 * s) := (rep_zero h.acc (by linarith)).mono hk (by linarith)
  have d2 := h6.d.twice h.acc h2 (by linarith)
  have e2 := h6.e.twice h.acc h2 (by linarith)
  have flip (x y : ℝ) : decide (y = x) = decide (x = y) := by simp only [eq_comm]
  have hb := h6.b.over h.acc 2 (by norm_num) (by push_cast; linarith) (by linarith)
  have ha := h6.a.over h.acc 2 (by norm_num) (by push_cast; linarith) (by linarith)
  have hna := (h6.a.neg h.acc).over h.acc 2 (by norm_num) (by push_cast; linarith) (by linarith)
  have ta := (h6.a.neg h.acc).over h.acc 3 (by norm_num) (by push_cast; linarith) (by linarith)
  have qa := h6.a.over h.acc 4 (by norm_num) (by push_cast; linarith) (by linarith)
  push_cast at ha hna hb ta qa
  have t := atoms_ideal h h6 hr hg
  constructor
  · exact t.a_b
  · exact t.b_c
  · exact t.d_e
  · exact t.d_f
  · exact t.e_f
  · exact t.zero_d
  · rw [allclose_eq, h.close (up h6.d) z hg.d_zero.symm, flip]
  · rw [allclose_eq, h.close (up h6.e) z hg.e_zero.symm, flip]
  · rw [allclose_eq, h.close (up h6.f) z hg.f_zero.symm, flip]
  · exact t.ha_d
  · exact t.ha_e
  · exact t.ha_f
  · rw [allclose_eq, h.close (up h6.e) (up ha) hg.e_ha.symm, flip]
  · rw [allclose_eq, h.close (up h6.f) (up ha) hg.f_ha.symm, flip]
  · exact t.nha_e
  · exact t.nha_f
  · rw [allclose_eq, h.close (up h6.d) (up hna) hg.d_nha.symm, flip]
  · rw [allclose_eq, h.close (up h6.e) (up hna) hg.e_nha.symm, flip]
  · rw [allclose_eq, h.close (up h6.f) (up hna) hg.f_nha.symm, flip]
  · rw [allclose_eq, h.close (up h6.d) (up hb) hg.d_hb.symm, flip]
  · exact t.nhb_d
  · exact t.d_nhb
  · exact t.ta_d
  · rw [allclose_eq, h.close (up h6.e) (up ta) hg.e_ta.symm, flip]
  · exact t.qa_d
  · rw [allclose_eq, h.close (up h6.d) (up qa) hg.d_qa.symm, flip]
  · rw [allclose_eq, h.close (up h6.f) (up d2) hg.f_2d.symm, flip]
  · rw [allclose_eq, h.close (up h6.e) (up d2) hg.e_2d.symm, flip]
  · rw [allclose_eq, h.close (up h6.f) (up e2) hg.f_2e.symm, flip]
  · exact t.sum
  · exact t.last
  · exact t.pos

/-- The class found from the products of the reduced cell is the class of the ideal cell. -/
theorem niggliNum_ideal (hK : Accurate K val M η) (h : CloseTo val U.toMatrix U0 δ L)
    (ht : Tolerated M η δ c L ℓ |U0.det| (val eps) g a) (hT : ∀ i j, |(T.toMat i j : ℝ)| ≤ c)
    (hn : NiggliCellOf U0 T.toMat A B C D E F) (ha : a ≤ A)
    (hA : A ≤ ℓ ^ 2) (hB : B ≤ ℓ ^ 2) (hC : C ≤ ℓ ^ 2) (hg : CellGap g A B C D E F)
    (hr : reducedCell U (some eps) = .ok T) :
    (∃ k, niggliId U (some eps) = .ok k ∧ IsClass k A B C D E F ∧ ¬ (k = 31 ∧ E = F)) ∨
      (niggliId U (some eps) = .error .unboundLocal ∧ IsClass 31 A B C D E F ∧ E = F) := by
  obtain ⟨e1, e2, e3, e4, e5⟩ := sumErr_nonneg hK h ht
  have hη := hK.nonneg
  have hrc := ht.range_cell
  have hf := ht.factor
  have s0 := sq_nonneg ℓ
  have hg0 : 0 ≤ g := by
    have := (slack_cell hK h ht).high
    have := (slack_cell hK h ht).low
    linarith
  obtain ⟨p, -⟩ := products_cell hK (cell_close hK h hT e4 (by linarith)) hn.cell ht.long hA hB hC (by
    have := ht.range_sum
    unfold sumErr at *
    linarith)
  have := niggliNum_isClass (pyAtoms_ideal (classSlack_cell hK h ht ha) p (by unfold sumErr; linarith) hg) hn.red.type
  unfold niggliId
  rw [hr]
  exact this

end

end AutoGR
