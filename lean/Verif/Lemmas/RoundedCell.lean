import Verif.Lemmas.Rounded

/-! # `niggli.f90` in accurate arithmetic: the loop and the class -/

namespace AutoGR

open Spec Arith Classical

section
variable {K : Type} [Arith K] {val : K → ℝ} {M η : ℝ} {τ : K} {κ g r s : ℝ} {p : Params K} {A B C D E F : ℝ}

/-- A cell that is close to a Niggli cell is left alone. -/
theorem fPass_ideal {IN : RMat K} {p0 : Params K} (h : Slack val M η τ κ g (6 * s))
    (h0 : SixParams val τ r s p0 A B C D E F)
    (h1 : SixParams val τ r s (fGetParams (matmulI IN IMat.one) τ) A B C D E F) (hr : 6 * r + 5 * η ≤ κ) (h2 : 2 ≤ M)
    (hg : CellGap g A B C D E F) (q : NiggliReduced A B C D E F) :
    fPass IN τ ⟨IMat.one, p0⟩ = (⟨IMat.one, fGetParams (matmulI IN IMat.one) τ⟩, true) := by
  set p1 := fGetParams (matmulI IN IMat.one) τ with hp1
  obtain ⟨a1, a2, a5, a6, a7, a8, aI, aII⟩ := fConds_ideal h h0 hr h2 hg q
  obtain ⟨b1, b2, b5, b6, b7, b8, bI, bII⟩ := fConds_ideal h h1 hr h2 hg q
  have hap : fApply IN τ ⟨IMat.one, p0⟩ IMat.one = ⟨IMat.one, p1⟩ := rfl
  have c3 : fFindC3 1 1 1 = IMat.one := rfl
  unfold fPass
  dsimp only
  rw [a1]
  simp only [Bool.false_eq_true, if_false, a2]
  rcases q.type with ht | ht
  · obtain ⟨l, m, n⟩ := aI ht
    obtain ⟨l', m', n'⟩ := bI ht
    have e1 : (1 : ℤ) * 1 * 1 = 1 := by norm_num
    have e2 : ¬ ((1 : ℤ) * 1 * 1 = 0 ∨ (1 : ℤ) * 1 * 1 = -1) := by norm_num
    simp only [l, m, n, c3, if_pos e1, hap, l', m', n', if_neg e2, b5, b6, b7, b8]
    simp [IMat.one]
  · have c4 : fFindC4 p0.l p0.m p0.n = IMat.one := by
      obtain ⟨l | l, m | m, n | n⟩ := aII ht <;> rw [l, m, n] <;> rfl
    have e1 : ¬ p0.l * p0.m * p0.n = 1 := by
      obtain ⟨l | l, m | m, n | n⟩ := aII ht <;> rw [l, m, n] <;> decide
    have e2 : p0.l * p0.m * p0.n = 0 ∨ p0.l * p0.m * p0.n = -1 := by
      obtain ⟨l | l, m | m, n | n⟩ := aII ht <;> rw [l, m, n] <;> decide
    simp only [if_neg e1, if_pos e2, c4, hap, b5, b6, b7, b8]
    simp [IMat.one, e1]

end

/-! ## The class -/

/-- The tolerance `ε` of the search for the class against the error `κ` of the compared quantities, the gap `g`
and the size `S` of the ideal ones; `a` is the smallest squared length. -/
structure ClassSlack {K : Type} [Arith K] (val : K → ℝ) (M η : ℝ) (eps : K) (κ g S a : ℝ) : Prop where
  acc : Accurate K val M η
  round : η ≤ κ
  small : η ≤ 1 / 100000
  low : 5 * κ ≤ val eps
  rel : 5 * κ ≤ val eps * (a / 4 - κ)
  high : val eps * (1 + S + κ) + (1 / 100000 + η) * (S + κ) + 5 * κ ≤ g
  size : 4 + (3 + val eps) * (S + κ) + val eps ≤ M

namespace ClassSlack

variable {K : Type} [Arith K] {val : K → ℝ} {M η : ℝ} {eps x y : K} {x0 y0 κ g S a : ℝ}

theorem kpos (h : ClassSlack val M η eps κ g S a) : 0 ≤ κ := h.acc.nonneg.trans h.round

theorem close (h : ClassSlack val M η eps κ g S a) (hx : Rep val x x0 κ S) (hy : Rep val y y0 κ S)
    (hg : Gap g y0 x0) : fClose eps x y = decide (y0 = x0) := by
  have hk := h.kpos
  have hη := h.acc.nonneg
  have hS : 0 ≤ S := (abs_nonneg _).trans hx.size
  have hlow := h.low
  have hround := h.round
  have hsmall := h.small
  have he : 0 ≤ val eps := by linarith
  have hb := hy.bound
  have hprod : 0 ≤ val eps * (S + κ) := by positivity
  have hsz : 4 + 3 * (S + κ) + val eps ≤ M := by linarith [h.size]
  have hq := h.acc.ofRat (1 / 100000) (by
    rw [abs_of_nonneg (by norm_num)]
    push_cast
    linarith)
  push_cast at hq
  set c := val (ofRat (1 / 100000) : K) with hc
  have hc' := abs_le.1 hq
  have c0 : 0 ≤ c := by linarith
  have c1 : c ≤ 1 := by linarith
  have ys : 0 ≤ |val y| := abs_nonneg _
  have hm := h.acc.mul (ofRat (1 / 100000)) (abs y) (by
    rw [h.acc.abs, ← hc, abs_mul, abs_abs, abs_of_nonneg c0]
    have := mul_le_mul c1 hb ys zero_le_one
    linarith)
  rw [h.acc.abs, ← hc] at hm
  have p0 : 0 ≤ c * |val y| := by positivity
  have p1 : c * |val y| ≤ (1 / 100000 + η) * (S + κ) :=
    mul_le_mul (by linarith) hb ys (by linarith)
  have p2 : c * |val y| ≤ S + κ := by
    have := mul_le_mul c1 hb ys zero_le_one
    linarith
  have hm' := abs_le.1 hm
  have ha := h.acc.add eps (mul (ofRat (1 / 100000)) (abs y)) (by
    rw [abs_le]
    constructor <;> linarith)
  have ha' := abs_le.1 ha
  have hs := (hx.sub h.acc hy (by linarith)).err
  have hhigh := h.high
  unfold fClose
  rw [Bool.eq_iff_iff, h.acc.le, decide_eq_true_eq, h.acc.abs]
  have t1 := abs_sub_abs_le_abs_sub (val (sub x y)) (x0 - y0)
  have t2 := abs_sub_abs_le_abs_sub (x0 - y0) (val (sub x y))
  rw [abs_sub_comm (x0 - y0)] at t2
  constructor
  · intro hl
    rcases hg with hg | hg
    · exact hg
    · rw [abs_sub_comm] at hg
      nlinarith
  · intro hl
    rw [hl, sub_self, abs_zero] at t1
    rw [hl, sub_self] at hs
    linarith

theorem rclose (h : ClassSlack val M η eps κ g S a) (hx : Rep val x x0 κ S) (hy : Rep val y y0 κ S)
    (hg : Gap g y0 x0) (hl : y0 = x0 → a / 4 ≤ |y0|) :
    le (abs (sub x y)) (abs (mul eps y)) = decide (y0 = x0) := by
  have hk := h.kpos
  have hη := h.acc.nonneg
  have hS : 0 ≤ S := (abs_nonneg _).trans hx.size
  have hlow := h.low
  have hround := h.round
  have he : 0 ≤ val eps := by linarith
  have hb := hy.bound
  have hprod : 0 ≤ val eps * (S + κ) := by positivity
  have hsz : 4 + 3 * (S + κ) + val eps ≤ M := by linarith [h.size]
  have hsz' : val eps * (S + κ) ≤ M := by linarith [h.size]
  have hep : val eps * |val y| ≤ val eps * (S + κ) := mul_le_mul_of_nonneg_left hb he
  have hm := h.acc.mul eps y (by
    rw [abs_mul, abs_of_nonneg he]
    linarith)
  have u1 := abs_sub_abs_le_abs_sub (val (mul eps y)) (val eps * val y)
  have u2 := abs_sub_abs_le_abs_sub (val eps * val y) (val (mul eps y))
  rw [abs_sub_comm (val eps * val y)] at u2
  rw [abs_mul, abs_of_nonneg he] at u1 u2
  have hs := (hx.sub h.acc hy (by linarith)).err
  have hhigh := h.high
  have hq : 0 ≤ (1 / 100000 + η) * (S + κ) := by positivity
  rw [Bool.eq_iff_iff, h.acc.le, decide_eq_true_eq, h.acc.abs, h.acc.abs]
  have t1 := abs_sub_abs_le_abs_sub (val (sub x y)) (x0 - y0)
  have t2 := abs_sub_abs_le_abs_sub (x0 - y0) (val (sub x y))
  rw [abs_sub_comm (x0 - y0)] at t2
  constructor
  · intro hc
    rcases hg with hg | hg
    · exact hg
    · rw [abs_sub_comm] at hg
      nlinarith
  · intro hc
    have v1 := hl hc
    have v2 := abs_sub_abs_le_abs_sub y0 (val y)
    rw [abs_sub_comm] at v2
    have v3 : a / 4 - κ ≤ |val y| := by linarith [hy.err]
    have v4 := mul_le_mul_of_nonneg_left v3 he
    have v5 := h.rel
    rw [hc, sub_self, abs_zero] at t1
    rw [hc, sub_self] at hs
    linarith

theorem pos_sub (h : ClassSlack val M η eps κ g S a) (hx : Rep val x x0 κ S) (hg : Gap g x0 0) :
    lt (ofInt 0) (sub x eps) = decide (0 < x0) := by
  have hk := h.kpos
  have hS : 0 ≤ S := (abs_nonneg _).trans hx.size
  have hlow := h.low
  have he : 0 ≤ val eps := by linarith
  have hprod : 0 ≤ val eps * (S + κ) := by positivity
  have hη := h.acc.nonneg
  have hround := h.round
  have hsz : 4 + 3 * (S + κ) + val eps ≤ M := by linarith [h.size]
  have hq : 0 ≤ (1 / 100000 + η) * (S + κ) := by positivity
  have h0 : val (ofInt 0 : K) = 0 := by
    have := h.acc.ofInt 0 (by simp; linarith)
    simpa using this
  have hs := h.acc.sub x eps ((abs_sub _ _).trans (by
    rw [abs_of_nonneg he]
    linarith [hx.bound]))
  have h1 := hx.err
  have hhigh := h.high
  rw [Bool.eq_iff_iff, h.acc.lt, decide_eq_true_eq, h0]
  rw [abs_le] at h1 hs
  constructor
  · intro hl
    linarith
  · intro hl
    rcases hg with hg | hg
    · linarith
    · rw [sub_zero, abs_of_pos hl] at hg
      nlinarith

end ClassSlack

section
variable {K : Type} [Arith K] {val : K → ℝ} {M η : ℝ} {eps A B C D E F : K} {κ g r s a b c d e f : ℝ}

/-- The products computed for a cell that is close to an ideal one. -/
structure Products (val : K → ℝ) (r s : ℝ) (A B C D E F : K) (a b c d e f : ℝ) : Prop where
  a : Rep val A a r s
  b : Rep val B b r s
  c : Rep val C c r s
  d : Rep val D d r s
  e : Rep val E e r s
  f : Rep val F f r s

theorem atoms_ideal (h : ClassSlack val M η eps κ g (6 * s) a) (h6 : Products val r s A B C D E F a b c d e f)
    (hr : 6 * r + 5 * η ≤ κ) (hg : CellGap g a b c d e f) :
    Atoms eps A B C D E F a b c d e f := by
  have hη := h.acc.nonneg
  have r0 : 0 ≤ r := (abs_nonneg _).trans h6.a.err
  have s0 : 0 ≤ s := (abs_nonneg _).trans h6.a.size
  have hlow := h.low
  have hk := h.kpos
  have he : 0 ≤ val eps := by linarith
  have hprod : 0 ≤ val eps * (6 * s + κ) := by positivity
  have hM : 4 + 3 * (6 * s + κ) + val eps ≤ M := by linarith [h.size]
  have h2 : 2 ≤ M := by linarith
  have up {x : K} {x0 e t : ℝ} (hx : Rep val x x0 e t) (he : e ≤ 6 * r + 5 * η := by linarith)
    (ht : t ≤ 6 * s := by linarith) : Rep val x x0 κ (6 * s) := hx.mono (he.trans hr) ht
  have z : Rep val (ofInt 0) 0 κ (6 * s) := (rep_zero h.acc (by linarith)).mono hk (by linarith)
  have ha := h6.a.over h.acc 2 (by norm_num) (by push_cast; linarith) (by linarith)
  have hna := (h6.a.neg h.acc).over h.acc 2 (by norm_num) (by push_cast; linarith) (by linarith)
  have hb := h6.b.over h.acc 2 (by norm_num) (by push_cast; linarith) (by linarith)
  have hnb := (h6.b.neg h.acc).over h.acc 2 (by norm_num) (by push_cast; linarith) (by linarith)
  have ta := (h6.a.neg h.acc).over h.acc 3 (by norm_num) (by push_cast; linarith) (by linarith)
  have qa := h6.a.over h.acc 4 (by norm_num) (by push_cast; linarith) (by linarith)
  push_cast at ha hna hb hnb ta qa
  have d2 := h6.d.twice h.acc h2 (by linarith)
  have e2 := h6.e.twice h.acc h2 (by linarith)
  have de := h6.d.add h.acc h6.e (by linarith)
  have def' := de.add h.acc h6.f (by linarith)
  have sum := (def'.abs h.acc).twice h.acc h2 (by linarith)
  have ab := h6.a.add h.acc h6.b (by linarith)
  have df := (d2.add h.acc h6.f (by linarith)).abs h.acc
  have flip (x y : ℝ) : decide (y = x) = decide (x = y) := by simp only [eq_comm]
  have a4 (x : ℝ) : x / 4 ≤ |x / 4| := le_abs_self _
  have a2 (x : ℝ) : x / 4 ≤ |x / 2| := by
    rcases le_total 0 x with h | h
    · exact le_trans (by linarith) (le_abs_self _)
    · exact le_trans (by linarith) (abs_nonneg _)
  constructor
  · rw [h.close (up h6.a) (up h6.b) hg.a_b.symm, flip]
  · rw [h.close (up h6.b) (up h6.c) hg.b_c.symm, flip]
  · rw [h.close (up h6.d) (up h6.e) hg.d_e.symm, flip]
  · rw [h.close (up h6.d) (up h6.f) hg.d_f.symm, flip]
  · rw [h.close (up h6.e) (up h6.f) hg.e_f.symm, flip]
  · exact h.close z (up h6.d) hg.d_zero
  · exact h.close z (up h6.e) hg.e_zero
  · exact h.close z (up h6.f) hg.f_zero
  · exact h.close (up ha) (up h6.d) hg.d_ha
  · exact h.close (up ha) (up h6.e) hg.e_ha
  · exact h.close (up ha) (up h6.f) hg.f_ha
  · exact h.close (up hna) (up h6.d) hg.d_nha
  · exact h.close (up hna) (up h6.e) hg.e_nha
  · exact h.close (up hna) (up h6.f) hg.f_nha
  · exact h.close (up hb) (up h6.d) hg.d_hb
  · exact h.close (up hnb) (up h6.d) hg.d_nhb
  · rw [h.close (up h6.d) (up hnb) hg.d_nhb.symm, flip]
  · exact h.close (up ta) (up h6.d) hg.d_ta
  · exact h.close (up ta) (up h6.e) hg.e_ta
  · exact h.close (up qa) (up h6.d) hg.d_qa
  · exact h.close (up d2) (up h6.f) hg.f_2d
  · exact h.close (up d2) (up h6.e) hg.e_2d
  · exact h.close (up e2) (up h6.f) hg.f_2e
  · rw [h.close (up sum) (up ab) hg.sum.symm, flip]
  · rw [h.close (up df) (up h6.b) hg.last.symm, flip]
  · exact h.rclose (up qa) (up h6.d) hg.d_qa fun t => by rw [t]; exact a4 a
  · exact h.rclose (up ha) (up h6.e) hg.e_ha fun t => by rw [t]; exact a2 a
  · exact h.rclose (up hna) (up h6.f) hg.f_nha fun t => by rw [t, neg_div, abs_neg]; exact a2 a
  · rw [h.pos_sub (up h6.d) hg.d_zero, h.pos_sub (up h6.e) hg.e_zero, h.pos_sub (up h6.f) hg.f_zero]
    simp [Bool.and_assoc]

end

end AutoGR
