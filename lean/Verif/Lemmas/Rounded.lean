import Verif.Lemmas.RealClass
import Verif.Spec.Accurate
import Verif.Spec.Gap
import Mathlib.Tactic.Linarith
import Mathlib.Tactic.Ring
import Mathlib.Tactic.Positivity
import Mathlib.Tactic.GCongr

/-! # `niggli.f90` in accurate arithmetic, on a cell that is close to an ideal one -/

namespace AutoGR

open Spec Arith Classical

/-- `x` stands for a number that differs from `x0` by at most `e`, and `|x0|` is at most `s`. -/
structure Rep {K : Type} (val : K → ℝ) (x : K) (x0 e s : ℝ) : Prop where
  err : |val x - x0| ≤ e
  size : |x0| ≤ s

section
variable {K : Type} [Arith K] {val : K → ℝ} {M η : ℝ} {x y : K} {x0 y0 e e' s s' : ℝ}

omit [Arith K] in
theorem Rep.mono (h : Rep val x x0 e s) (he : e ≤ e') (hs : s ≤ s') : Rep val x x0 e' s' :=
  ⟨h.err.trans he, h.size.trans hs⟩

omit [Arith K] in
theorem Rep.bound (h : Rep val x x0 e s) : |val x| ≤ s + e := by
  have := abs_sub_abs_le_abs_sub (val x) x0
  linarith [h.err, h.size]

theorem Rep.add (hK : Accurate K val M η) (hx : Rep val x x0 e s) (hy : Rep val y y0 e' s')
    (hM : s + s' + e + e' ≤ M) : Rep val (add x y) (x0 + y0) (e + e' + η) (s + s') := by
  refine ⟨?_, (abs_add_le _ _).trans (add_le_add hx.size hy.size)⟩
  have h := hK.add x y ((abs_add_le _ _).trans (by linarith [hx.bound, hy.bound]))
  have h1 := hx.err
  have h2 := hy.err
  rw [abs_le] at *
  constructor <;> linarith

theorem Rep.sub (hK : Accurate K val M η) (hx : Rep val x x0 e s) (hy : Rep val y y0 e' s')
    (hM : s + s' + e + e' ≤ M) : Rep val (sub x y) (x0 - y0) (e + e' + η) (s + s') := by
  refine ⟨?_, (abs_sub _ _).trans (add_le_add hx.size hy.size)⟩
  have h := hK.sub x y ((abs_sub _ _).trans (by linarith [hx.bound, hy.bound]))
  have h1 := hx.err
  have h2 := hy.err
  rw [abs_le] at *
  constructor <;> linarith

theorem Rep.neg (hK : Accurate K val M η) (hx : Rep val x x0 e s) : Rep val (neg x) (-x0) e s := by
  refine ⟨?_, by rw [abs_neg]; exact hx.size⟩
  rw [hK.neg, neg_sub_neg, abs_sub_comm]
  exact hx.err

theorem Rep.abs (hK : Accurate K val M η) (hx : Rep val x x0 e s) : Rep val (abs x) |x0| e s := by
  refine ⟨?_, by rw [abs_abs]; exact hx.size⟩
  rw [hK.abs]
  exact (abs_abs_sub_abs_le _ _).trans hx.err

theorem Rep.mul (hK : Accurate K val M η) (hx : Rep val x x0 e s) (hy : Rep val y y0 e' s')
    (hM : (s + e) * (s' + e') ≤ M) :
    Rep val (mul x y) (x0 * y0) (s * e' + e * s' + e * e' + η) (s * s') := by
  have p1 : 0 ≤ e := (abs_nonneg _).trans hx.err
  have p2 : 0 ≤ e' := (abs_nonneg _).trans hy.err
  have p3 : 0 ≤ s := (abs_nonneg _).trans hx.size
  have p4 : 0 ≤ s' := (abs_nonneg _).trans hy.size
  refine ⟨?_, by rw [abs_mul]; exact mul_le_mul hx.size hy.size (abs_nonneg _) p3⟩
  have h := hK.mul x y (by
    rw [abs_mul]
    exact (mul_le_mul hx.bound hy.bound (abs_nonneg _) (by linarith)).trans hM)
  have e1 : val x * val y - x0 * y0 = x0 * (val y - y0) + (val x - x0) * y0 + (val x - x0) * (val y - y0) := by ring
  have e2 : |val x * val y - x0 * y0| ≤ s * e' + e * s' + e * e' := by
    rw [e1]
    refine (abs_add_three _ _ _).trans ?_
    simp only [abs_mul]
    have a1 := mul_le_mul hx.size hy.err (abs_nonneg _) p3
    have a2 := mul_le_mul hx.err hy.size (abs_nonneg _) p1
    have a3 := mul_le_mul hx.err hy.err (abs_nonneg _) p1
    linarith
  have e3 := abs_add_le (val (Arith.mul x y) - val x * val y) (val x * val y - x0 * y0)
  rw [sub_add_sub_cancel] at e3
  linarith

theorem rep_int (hK : Accurate K val M η) (z : ℤ) (hz : |(z : ℝ)| ≤ M) : Rep val (ofInt z) (z : ℝ) 0 |(z : ℝ)| :=
  ⟨by rw [hK.ofInt z hz, sub_self, abs_zero], le_rfl⟩

theorem rep_zero (hK : Accurate K val M η) (hM : 0 ≤ M) : Rep val (ofInt 0) 0 0 0 := by
  have := rep_int hK 0 (by simpa using hM)
  simpa using this

theorem Rep.twice (hK : Accurate K val M η) (hx : Rep val x x0 e s) (h2 : 2 ≤ M) (hM : 2 * (s + e) ≤ M) :
    Rep val (Arith.mul (ofInt 2) x) (2 * x0) (2 * e + η) (2 * s) := by
  have h := Rep.mul hK (rep_int hK 2 (by simpa using h2)) hx (by simpa using hM)
  simp only [Int.cast_ofNat, Nat.abs_ofNat, zero_mul, add_zero] at h
  exact h

theorem Rep.over (hK : Accurate K val M η) (hx : Rep val x x0 e s) (n : ℤ) (hn : 1 ≤ n) (hn' : (n : ℝ) ≤ M)
    (hM : s + e ≤ M) : Rep val (div x (ofInt n)) (x0 / n) (e + η) s := by
  have hr : (1 : ℝ) ≤ n := by exact_mod_cast hn
  have hv : val (ofInt n : K) = n := hK.ofInt n (by rw [abs_of_nonneg (by linarith)]; exact hn')
  have hd (z : ℝ) : |z / (n : ℝ)| ≤ |z| := by
    rw [abs_div]
    exact div_le_self (abs_nonneg _) (by rwa [abs_of_nonneg (by linarith)])
  refine ⟨?_, (hd _).trans hx.size⟩
  have h := hK.div x (ofInt n) (by rw [hv]; linarith) (by rw [hv]; exact (hd _).trans (hx.bound.trans hM))
  rw [hv] at h
  have h' := (hd (val x - x0)).trans hx.err
  rw [sub_div] at h'
  have e3 := abs_add_le (val (Arith.div x (ofInt n)) - val x / n) (val x / n - x0 / n)
  rw [sub_add_sub_cancel] at e3
  linarith

end

/-- The tolerance `τ` of the program against the error `κ` of the compared quantities, the gap `g` and the size
`S` of the ideal ones. -/
structure Slack {K : Type} [Arith K] (val : K → ℝ) (M η : ℝ) (τ : K) (κ g S : ℝ) : Prop where
  acc : Accurate K val M η
  round : η ≤ κ
  low : 3 * κ < val τ
  high : val τ + 3 * κ ≤ g
  size : 2 * S + 2 * κ + val τ ≤ M

namespace Slack

variable {K : Type} [Arith K] {val : K → ℝ} {M η : ℝ} {τ x y : K} {x0 y0 κ g S : ℝ}

theorem kpos (h : Slack val M η τ κ g S) : 0 ≤ κ := h.acc.nonneg.trans h.round

/-- `x < y - τ` -/
theorem lt_sub (h : Slack val M η τ κ g S) (hx : Rep val x x0 κ S) (hy : Rep val y y0 κ S) (hg : Gap g x0 y0) :
    lt x (sub y τ) = decide (x0 < y0) := by
  have hk := h.kpos
  have hS : 0 ≤ S := (abs_nonneg _).trans hx.size
  have ht : |val τ| = val τ := abs_of_nonneg (by linarith [h.low])
  have hs := h.acc.sub y τ ((abs_sub _ _).trans (by linarith [hy.bound, h.size, h.low]))
  have h1 := hx.err
  have h2 := hy.err
  have := h.low
  have := h.high
  have := h.round
  rw [Bool.eq_iff_iff, h.acc.lt, decide_eq_true_eq]
  rw [abs_le] at h1 h2 hs
  constructor
  · intro hl
    linarith
  · intro hl
    rcases hg with hg | hg
    · linarith
    · rw [abs_of_neg (by linarith)] at hg
      linarith

/-- `y + τ < x` -/
theorem add_lt (h : Slack val M η τ κ g S) (hx : Rep val x x0 κ S) (hy : Rep val y y0 κ S) (hg : Gap g x0 y0) :
    lt (add y τ) x = decide (y0 < x0) := by
  have hk := h.kpos
  have hS : 0 ≤ S := (abs_nonneg _).trans hx.size
  have ht : |val τ| = val τ := abs_of_nonneg (by linarith [h.low])
  have hs := h.acc.add y τ ((abs_add_le _ _).trans (by linarith [hy.bound, h.size, h.low]))
  have h1 := hx.err
  have h2 := hy.err
  have := h.low
  have := h.high
  have := h.round
  rw [Bool.eq_iff_iff, h.acc.lt, decide_eq_true_eq]
  rw [abs_le] at h1 h2 hs
  constructor
  · intro hl
    linarith
  · intro hl
    rcases hg with hg | hg
    · linarith
    · rw [abs_of_pos (by linarith)] at hg
      linarith

/-- `|x - y| < τ` -/
theorem near (h : Slack val M η τ κ g S) (hx : Rep val x x0 κ S) (hy : Rep val y y0 κ S) (hg : Gap g x0 y0) :
    lt (abs (sub x y)) τ = decide (x0 = y0) := by
  have hk := h.kpos
  have hs := (hx.sub h.acc hy (by linarith [h.size, h.low])).err
  have := h.low
  have := h.high
  have := h.round
  rw [Bool.eq_iff_iff, h.acc.lt, decide_eq_true_eq, h.acc.abs]
  have t1 := abs_sub_abs_le_abs_sub (val (sub x y)) (x0 - y0)
  have t2 := abs_sub_abs_le_abs_sub (x0 - y0) (val (sub x y))
  rw [abs_sub_comm (x0 - y0)] at t2
  constructor
  · intro hl
    rcases hg with hg | hg
    · exact hg
    · linarith
  · intro hl
    rw [hl, sub_self, abs_zero] at t1
    rw [hl, sub_self] at hs
    linarith

/-- `τ < |x - y|` -/
theorem far (h : Slack val M η τ κ g S) (hx : Rep val x x0 κ S) (hy : Rep val y y0 κ S) (hg : Gap g x0 y0) :
    lt τ (abs (sub x y)) = decide (x0 ≠ y0) := by
  have hk := h.kpos
  have hs := (hx.sub h.acc hy (by linarith [h.size, h.low])).err
  have := h.low
  have := h.high
  have := h.round
  rw [Bool.eq_iff_iff, h.acc.lt, decide_eq_true_eq, h.acc.abs]
  have t1 := abs_sub_abs_le_abs_sub (val (sub x y)) (x0 - y0)
  have t2 := abs_sub_abs_le_abs_sub (x0 - y0) (val (sub x y))
  rw [abs_sub_comm (x0 - y0)] at t2
  constructor
  · intro hl he
    rw [he, sub_self, abs_zero] at t1
    rw [he, sub_self] at hs
    linarith
  · intro hl
    rcases hg with hg | hg
    · exact absurd hg hl
    · linarith

/-- `x < 0` or `|x| < τ` -/
theorem nonpos (h : Slack val M η τ κ g S) (hx : Rep val x x0 κ S) (hg : Gap g x0 0) :
    (lt x (ofInt 0) || lt (abs x) τ) = decide (x0 ≤ 0) := by
  have hk := h.kpos
  have hS : 0 ≤ S := (abs_nonneg _).trans hx.size
  have hM : 0 ≤ M := by linarith [h.size, h.low]
  have h1 := hx.err
  have := h.low
  have := h.high
  have h0 : val (ofInt 0 : K) = 0 := by
    have := h.acc.ofInt 0 (by simpa using hM)
    simpa using this
  rw [Bool.eq_iff_iff, Bool.or_eq_true, h.acc.lt, h.acc.lt, decide_eq_true_eq, h.acc.abs, h0]
  rw [abs_le] at h1
  constructor
  · intro hl
    by_contra hp
    push Not at hp
    rcases hg with hg | hg
    · linarith
    · rw [sub_zero, abs_of_pos hp] at hg
      rcases hl with hl | hl
      · linarith
      · rw [abs_lt] at hl
        linarith
  · intro hl
    rcases hg with hg | hg
    · right
      rw [abs_lt]
      constructor <;> linarith
    · left
      rw [sub_zero, abs_of_nonpos hl] at hg
      linarith

/-- `|x| < τ` -/
theorem small (h : Slack val M η τ κ g S) (hx : Rep val x x0 κ S) (hg : Gap g x0 0) :
    lt (abs x) τ = decide (x0 = 0) := by
  have hk := h.kpos
  have h1 := hx.err
  have := h.low
  have := h.high
  rw [Bool.eq_iff_iff, h.acc.lt, decide_eq_true_eq, h.acc.abs]
  rw [abs_le] at h1
  constructor
  · intro hl
    rw [abs_lt] at hl
    rcases hg with hg | hg
    · exact hg
    · rw [sub_zero, lt_abs] at hg
      rcases hg with hg | hg <;> linarith
  · rintro rfl
    rw [abs_lt]
    constructor <;> linarith

/-- `τ < |x|` -/
theorem large (h : Slack val M η τ κ g S) (hx : Rep val x x0 κ S) (hg : Gap g x0 0) :
    lt τ (abs x) = decide (x0 ≠ 0) := by
  have hk := h.kpos
  have h1 := hx.err
  have := h.low
  have := h.high
  rw [Bool.eq_iff_iff, h.acc.lt, decide_eq_true_eq, h.acc.abs]
  rw [abs_le] at h1
  constructor
  · rintro hl rfl
    rw [lt_abs] at hl
    rcases hl with hl | hl <;> linarith
  · intro hl
    rcases hg with hg | hg
    · exact absurd hg hl
    · rw [sub_zero, lt_abs] at hg
      rw [lt_abs]
      rcases hg with hg | hg
      · left; linarith
      · right; linarith

/-- `x < -τ` -/
theorem lt_neg (h : Slack val M η τ κ g S) (hx : Rep val x x0 κ S) (hg : Gap g x0 0) :
    lt x (neg τ) = decide (x0 < 0) := by
  have hk := h.kpos
  have h1 := hx.err
  have := h.low
  have := h.high
  rw [Bool.eq_iff_iff, h.acc.lt, decide_eq_true_eq, h.acc.neg]
  rw [abs_le] at h1
  constructor
  · intro hl
    linarith
  · intro hl
    rcases hg with hg | hg
    · linarith
    · rw [sub_zero, abs_of_neg hl] at hg
      linarith

/-- `τ < x` -/
theorem tol_lt (h : Slack val M η τ κ g S) (hx : Rep val x x0 κ S) (hg : Gap g x0 0) :
    lt τ x = decide (0 < x0) := by
  have hk := h.kpos
  have h1 := hx.err
  have := h.low
  have := h.high
  rw [Bool.eq_iff_iff, h.acc.lt, decide_eq_true_eq]
  rw [abs_le] at h1
  constructor
  · intro hl
    linarith
  · intro hl
    rcases hg with hg | hg
    · linarith
    · rw [sub_zero, abs_of_pos hl] at hg
      linarith

/-- `0 < x - τ` -/
theorem pos_sub (h : Slack val M η τ κ g S) (hx : Rep val x x0 κ S) (hg : Gap g x0 0) :
    lt (ofInt 0) (sub x τ) = decide (0 < x0) := by
  have hk := h.kpos
  have hS : 0 ≤ S := (abs_nonneg _).trans hx.size
  have hM : 0 ≤ M := by linarith [h.size, h.low]
  refine h.lt_sub ((rep_zero h.acc hM).mono hk hS) hx ?_
  rcases hg with hg | hg
  · exact .inl hg.symm
  · exact .inr (by rwa [abs_sub_comm])

end Slack

/-! ## Gaps -/

section
variable {g x y z : ℝ}

theorem Spec.Gap.symm (h : Gap g x y) : Gap g y x := by
  rcases h with h | h
  · exact .inl h.symm
  · exact .inr (by rwa [abs_sub_comm])

theorem Spec.Gap.of_sub {x' y' : ℝ} (h : Gap g x y) (e : x' - y' = x - y) : Gap g x' y' := by
  rcases h with h | h
  · exact .inl (by linarith)
  · exact .inr (by rwa [e])

theorem Spec.Gap.twice (h : Gap g x y) : Gap g (2 * x) (2 * y) := by
  rcases h with h | h
  · exact .inl (by rw [h])
  · right
    rw [← mul_sub, abs_mul, abs_two]
    linarith [abs_nonneg (x - y)]

theorem Spec.Gap.abs_left (h : Gap g x y) (h' : Gap g x (-y)) : Gap g |x| y := by
  rcases abs_choice x with e | e
  · rwa [e]
  · rw [e]
    rcases h' with h' | h'
    · exact .inl (by rw [h', neg_neg])
    · right
      rwa [← abs_neg, neg_sub, sub_neg_eq_add, add_comm, ← sub_neg_eq_add]

theorem Spec.Gap.abs_abs (h : Gap g x y) (h' : Gap g x (-y)) : Gap g |x| |y| := by
  rcases abs_choice y with e | e
  · rw [e]
    exact h.abs_left h'
  · rw [e]
    exact h'.abs_left (by rwa [neg_neg])

end

/-! ## The parameters of a cell -/

/-- The parameters computed for a cell are those of the ideal metric, up to the error `r`. -/
structure SixParams {K : Type} [Arith K] (val : K → ℝ) (τ : K) (r s : ℝ) (p : Params K) (A B C D E F : ℝ) : Prop where
  a : Rep val p.A A r s
  b : Rep val p.B B r s
  c : Rep val p.C C r s
  d : Rep val p.xi (2 * D) r s
  e : Rep val p.eta (2 * E) r s
  f : Rep val p.zeta (2 * F) r s
  l : p.l = fFlag τ p.xi
  m : p.m = fFlag τ p.eta
  n : p.n = fFlag τ p.zeta

section
variable {K : Type} [Arith K] {val : K → ℝ} {M η : ℝ} {τ : K} {κ g r s : ℝ} {p : Params K} {A B C D E F : ℝ}

theorem fCheck_ideal (h : Slack val M η τ κ g (6 * s)) (h6 : SixParams val τ r s p A B C D E F)
    (hr : 6 * r + 5 * η ≤ κ) (h2 : 2 ≤ M) (hg : CellGap g A B C D E F) :
    fCheck p τ = decide (NiggliReduced A B C D E F) := by
  have hη := h.acc.nonneg
  have r0 : 0 ≤ r := (abs_nonneg _).trans h6.a.err
  have s0 : 0 ≤ s := (abs_nonneg _).trans h6.a.size
  have hsz := h.size
  have hlo := h.low
  have up {x : K} {x0 e t : ℝ} (hx : Rep val x x0 e t) (he : e ≤ 6 * r + 5 * η := by linarith)
    (ht : t ≤ 6 * s := by linarith) : Rep val x x0 κ (6 * s) := hx.mono (he.trans hr) ht
  have ab := h6.a.add h.acc h6.b (by linarith)
  have abc := ab.add h.acc h6.c (by linarith)
  have abcd := abc.add h.acc h6.d (by linarith)
  have abcde := abcd.add h.acc h6.e (by linarith)
  have tot := abcde.add h.acc h6.f (by linarith)
  have a2 := h6.a.twice h.acc h2 (by linarith)
  have d2 := h6.d.twice h.acc h2 (by linarith)
  have e2 := h6.e.twice h.acc h2 (by linarith)
  have ae := a2.add h.acc e2 (by linarith)
  have aef := ae.add h.acc h6.f (by linarith)
  have db := h6.d.add h.acc h6.b (by linarith)
  have ea := h6.e.add h.acc h6.a (by linarith)
  have fa := h6.f.add h.acc h6.a (by linarith)
  have g_d0 : Gap g (2 * D) 0 := hg.d_zero.twice.of_sub (by ring)
  have g_e0 : Gap g (2 * E) 0 := hg.e_zero.twice.of_sub (by ring)
  have g_f0 : Gap g (2 * F) 0 := hg.f_zero.twice.of_sub (by ring)
  have g_de : Gap g |2 * D| |2 * E| := hg.d_e.twice.abs_abs (hg.d_ne.twice.of_sub (by ring))
  have g_ef : Gap g |2 * E| |2 * F| := hg.e_f.twice.abs_abs (hg.e_nf.twice.of_sub (by ring))
  have g_db : Gap g (2 * D) B := hg.d_hb.twice.of_sub (by ring)
  have g_dnb : Gap g (2 * D) (-B) := hg.d_nhb.twice.of_sub (by ring)
  have g_ea : Gap g (2 * E) A := hg.e_ha.twice.of_sub (by ring)
  have g_ena : Gap g (2 * E) (-A) := hg.e_nha.twice.of_sub (by ring)
  have g_fa : Gap g (2 * F) A := hg.f_ha.twice.of_sub (by ring)
  have g_fna : Gap g (2 * F) (-A) := hg.f_nha.twice.of_sub (by ring)
  have g_tot : Gap g C (A + B + C + 2 * D + 2 * E + 2 * F) := hg.total.symm.of_sub (by ring)
  have g_turn : Gap g (2 * A + 2 * (2 * E) + 2 * F) 0 := hg.turn.of_sub (by ring)
  unfold fCheck fSumC
  dsimp only
  rw [h.nonpos (up h6.d) g_d0, h.nonpos (up h6.e) g_e0, h.nonpos (up h6.f) g_f0]
  simp only [h.pos_sub (up h6.a) hg.a_zero, h.lt_sub (up h6.a) (up h6.b) hg.a_b, h.near (up h6.a) (up h6.b) hg.a_b,
    h.lt_sub (up h6.b) (up h6.c) hg.b_c, h.near (up h6.b) (up h6.c) hg.b_c,
    h.lt_sub (up (h6.d.abs h.acc)) (up (h6.e.abs h.acc)) g_de,
    h.near (up (h6.d.abs h.acc)) (up (h6.e.abs h.acc)) g_de,
    h.lt_sub (up (h6.e.abs h.acc)) (up (h6.f.abs h.acc)) g_ef,
    h.near (up (h6.e.abs h.acc)) (up (h6.f.abs h.acc)) g_ef,
    h.pos_sub (up h6.d) g_d0, h.pos_sub (up h6.e) g_e0, h.pos_sub (up h6.f) g_f0,
    h.lt_sub (up (h6.d.abs h.acc)) (up h6.b) (g_db.abs_left g_dnb),
    h.near (up (h6.d.abs h.acc)) (up h6.b) (g_db.abs_left g_dnb),
    h.lt_sub (up (h6.e.abs h.acc)) (up h6.a) (g_ea.abs_left g_ena),
    h.near (up (h6.e.abs h.acc)) (up h6.a) (g_ea.abs_left g_ena),
    h.lt_sub (up (h6.f.abs h.acc)) (up h6.a) (g_fa.abs_left g_fna),
    h.near (up (h6.f.abs h.acc)) (up h6.a) (g_fa.abs_left g_fna),
    h.lt_sub (up h6.c) (up tot) g_tot, h.near (up h6.c) (up tot) g_tot,
    h.near (up h6.d) (up h6.b) g_db, h.near (up h6.e) (up h6.a) g_ea, h.near (up h6.f) (up h6.a) g_fa,
    h.lt_sub (up h6.f) (up e2) (hg.f_2e.twice), h.near (up h6.f) (up e2) (hg.f_2e.twice),
    h.lt_sub (up h6.f) (up d2) (hg.f_2d.twice), h.near (up h6.f) (up d2) (hg.f_2d.twice),
    h.lt_sub (up h6.e) (up d2) (hg.e_2d.twice), h.near (up h6.e) (up d2) (hg.e_2d.twice),
    h.small (up db) (g_dnb.of_sub (by ring)), h.small (up ea) (g_ena.of_sub (by ring)),
    h.small (up fa) (g_fna.of_sub (by ring)), h.small (up h6.f) g_f0, h.small (up h6.e) g_e0,
    h.lt_neg (up aef) g_turn, h.small (up aef) g_turn]
  rw [Bool.eq_iff_iff, decide_eq_true_eq]
  simp only [Bool.not_not, Bool.and_eq_true, Bool.or_eq_true, decide_eq_true_eq, Bool.not_eq_true', Bool.and_eq_false_iff,
    Bool.not_eq_false', decide_eq_false_iff_not, abs_mul, abs_two]
  constructor
  · rintro ⟨⟨⟨⟨⟨⟨⟨⟨⟨⟨⟨⟨⟨c1, c2⟩, c3⟩, c4⟩, c5⟩, c6⟩, c7⟩, c8⟩, c9⟩, c10⟩, c11⟩, c12⟩, c13⟩, c14⟩
    constructor
    · exact c1.1.1
    · rcases c1.1.2 with h | h <;> linarith
    · rcases c1.2 with h | h <;> linarith
    · rcases c4 with h | h
      · left; exact ⟨by linarith [h.1.1], by linarith [h.1.2], by linarith [h.2]⟩
      · right; exact ⟨by linarith [h.1.1], by linarith [h.1.2], by linarith [h.2]⟩
    · rcases c5 with h | h <;> linarith
    · rcases c6.1 with h | h <;> linarith
    · rcases c6.2 with h | h <;> linarith
    · rcases c7 with h | h <;> linarith
    · intro e; rcases c2 with h | h | h
      · exact absurd e h
      · linarith
      · linarith
    · intro e; rcases c3 with h | h | h
      · exact absurd e h
      · linarith
      · linarith
    · intro e; rcases c8 with h | h | h
      · exact absurd e h
      · linarith
      · linarith
    · intro e; rcases c9 with h | h | h
      · exact absurd e h
      · linarith
      · linarith
    · intro e; rcases c10 with h | h | h
      · exact absurd e h
      · linarith
      · linarith
    · intro e; rcases c11 with h | h
      · exact absurd (by linarith) h
      · linarith
    · intro e; rcases c12 with h | h
      · exact absurd (by linarith) h
      · linarith
    · intro e; rcases c13 with h | h
      · exact absurd (by linarith) h
      · linarith
    · intro e; rcases c14 with h | h | h
      · exact absurd (by linarith) h
      · linarith
      · linarith
  · intro q
    have le {x y : ℝ} (h : x ≤ y) : x < y ∨ x = y := lt_or_eq_of_le h
    have imp {P Q : Prop} (h : P → Q) : ¬ P ∨ Q := not_or_of_imp h
    refine ⟨⟨⟨⟨⟨⟨⟨⟨⟨⟨⟨⟨⟨⟨⟨q.pos, le q.ab⟩, le q.bc⟩, imp fun e => le ?_⟩, imp fun e => le ?_⟩, ?_⟩, le ?_⟩, le ?_, le ?_⟩,
      le ?_⟩, imp fun e => le ?_⟩, imp fun e => le ?_⟩, imp fun e => le ?_⟩, imp fun e => ?_⟩, imp fun e => ?_⟩,
      imp fun e => ?_⟩, imp fun e => le ?_⟩
    · linarith [q.ab_eq e]
    · linarith [q.bc_eq e]
    · rcases q.type with t | t
      · left; exact ⟨⟨by linarith [t.1], by linarith [t.2.1]⟩, by linarith [t.2.2]⟩
      · right; exact ⟨⟨by linarith [t.1], by linarith [t.2.1]⟩, by linarith [t.2.2]⟩
    · exact q.d_le
    · exact q.e_le
    · exact q.f_le
    · linarith [q.sum]
    · linarith [q.d_eq e]
    · linarith [q.e_eq e]
    · linarith [q.f_eq e]
    · linarith [q.d_neg (by linarith)]
    · linarith [q.e_neg (by linarith)]
    · linarith [q.f_neg (by linarith)]
    · linarith [q.sum_eq (by linarith)]

/-- None of the steps of the loop is taken. -/
theorem fConds_ideal (h : Slack val M η τ κ g (6 * s)) (h6 : SixParams val τ r s p A B C D E F)
    (hr : 6 * r + 5 * η ≤ κ) (h2 : 2 ≤ M) (hg : CellGap g A B C D E F) (q : NiggliReduced A B C D E F) :
    fCond1 τ p = false ∧ fCond2 τ p = false ∧ fCond5 τ p = false ∧ fCond6 τ p = false ∧ fCond7 τ p = false ∧
      fCond8 τ p = false ∧
      (TypeI D E F → p.l = 1 ∧ p.m = 1 ∧ p.n = 1) ∧
      (TypeII D E F → (p.l = 0 ∨ p.l = -1) ∧ (p.m = 0 ∨ p.m = -1) ∧ (p.n = 0 ∨ p.n = -1)) := by
  have hη := h.acc.nonneg
  have r0 : 0 ≤ r := (abs_nonneg _).trans h6.a.err
  have s0 : 0 ≤ s := (abs_nonneg _).trans h6.a.size
  have hsz := h.size
  have hlo := h.low
  have up {x : K} {x0 e t : ℝ} (hx : Rep val x x0 e t) (he : e ≤ 6 * r + 5 * η := by linarith)
    (ht : t ≤ 6 * s := by linarith) : Rep val x x0 κ (6 * s) := hx.mono (he.trans hr) ht
  have de := h6.d.add h.acc h6.e (by linarith)
  have def' := de.add h.acc h6.f (by linarith)
  have defa := def'.add h.acc h6.a (by linarith)
  have tot := defa.add h.acc h6.b (by linarith)
  have d2 := h6.d.twice h.acc h2 (by linarith)
  have e2 := h6.e.twice h.acc h2 (by linarith)
  have ae := h6.a.add h.acc h6.e (by linarith)
  have ae2 := ae.twice h.acc h2 (by linarith)
  have aef := ae2.add h.acc h6.f (by linarith)
  have bd := h6.b.add h.acc h6.d (by linarith)
  have fa := h6.a.add h.acc h6.f (by linarith)
  have g_d0 : Gap g (2 * D) 0 := hg.d_zero.twice.of_sub (by ring)
  have g_e0 : Gap g (2 * E) 0 := hg.e_zero.twice.of_sub (by ring)
  have g_f0 : Gap g (2 * F) 0 := hg.f_zero.twice.of_sub (by ring)
  have g_de : Gap g |2 * D| |2 * E| := hg.d_e.twice.abs_abs (hg.d_ne.twice.of_sub (by ring))
  have g_ef : Gap g |2 * E| |2 * F| := hg.e_f.twice.abs_abs (hg.e_nf.twice.of_sub (by ring))
  have g_db : Gap g (2 * D) B := hg.d_hb.twice.of_sub (by ring)
  have g_dnb : Gap g (2 * D) (-B) := hg.d_nhb.twice.of_sub (by ring)
  have g_ea : Gap g (2 * E) A := hg.e_ha.twice.of_sub (by ring)
  have g_ena : Gap g (2 * E) (-A) := hg.e_nha.twice.of_sub (by ring)
  have g_fa : Gap g (2 * F) A := hg.f_ha.twice.of_sub (by ring)
  have g_fna : Gap g (2 * F) (-A) := hg.f_nha.twice.of_sub (by ring)
  have g_tot : Gap g (2 * D + 2 * E + 2 * F + A + B) 0 := hg.total.of_sub (by ring)
  have g_turn : Gap g (2 * (A + 2 * E) + 2 * F) 0 := hg.turn.of_sub (by ring)
  have ad : |2 * D| = 2 * |D| := by rw [abs_mul, abs_two]
  have ae' : |2 * E| = 2 * |E| := by rw [abs_mul, abs_two]
  have af : |2 * F| = 2 * |F| := by rw [abs_mul, abs_two]
  refine ⟨?_, ?_, ?_, ?_, ?_, ?_, ?_⟩
  · unfold fCond1
    rw [h.add_lt (up h6.a) (up h6.b) hg.a_b, h.far (up h6.a) (up h6.b) hg.a_b,
      h.add_lt (up (h6.d.abs h.acc)) (up (h6.e.abs h.acc)) g_de, ad, ae']
    rw [← Bool.not_eq_true]
    simp only [Bool.or_eq_true, Bool.and_eq_true, decide_eq_true_eq, Bool.not_eq_true', decide_eq_false_iff_not, not_not]
    rintro (t | ⟨t, t'⟩)
    · linarith [q.ab]
    · linarith [q.ab_eq t]
  · unfold fCond2
    rw [h.add_lt (up h6.b) (up h6.c) hg.b_c, h.far (up h6.c) (up h6.b) hg.b_c.symm,
      h.add_lt (up (h6.e.abs h.acc)) (up (h6.f.abs h.acc)) g_ef, ae', af]
    rw [← Bool.not_eq_true]
    simp only [Bool.or_eq_true, Bool.and_eq_true, decide_eq_true_eq, Bool.not_eq_true', decide_eq_false_iff_not, not_not]
    rintro (t | ⟨t, t'⟩)
    · linarith [q.bc]
    · linarith [q.bc_eq t.symm]
  · unfold fCond5
    rw [h.add_lt (up (h6.d.abs h.acc)) (up h6.b) (g_db.abs_left g_dnb), h.far (up h6.b) (up h6.d) g_db.symm,
      h.lt_sub (up e2) (up h6.f) hg.f_2e.twice.symm, h.large (up bd) (g_dnb.of_sub (by ring)), h.lt_neg (up h6.f) g_f0, ad]
    rw [← Bool.not_eq_true]
    simp only [Bool.or_eq_true, Bool.and_eq_true, decide_eq_true_eq, Bool.not_eq_true', decide_eq_false_iff_not, not_not]
    rintro ((t | ⟨t, t'⟩) | ⟨t, t'⟩)
    · linarith [q.d_le]
    · linarith [q.d_eq t.symm]
    · linarith [q.d_neg (by linarith)]
  · unfold fCond6
    rw [h.add_lt (up (h6.e.abs h.acc)) (up h6.a) (g_ea.abs_left g_ena), h.far (up h6.a) (up h6.e) g_ea.symm,
      h.lt_sub (up d2) (up h6.f) hg.f_2d.twice.symm, h.large (up ae) (g_ena.of_sub (by ring)), h.lt_neg (up h6.f) g_f0, ae']
    rw [← Bool.not_eq_true]
    simp only [Bool.or_eq_true, Bool.and_eq_true, decide_eq_true_eq, Bool.not_eq_true', decide_eq_false_iff_not, not_not]
    rintro ((t | ⟨t, t'⟩) | ⟨t, t'⟩)
    · linarith [q.e_le]
    · linarith [q.e_eq t.symm]
    · linarith [q.e_neg (by linarith)]
  · unfold fCond7
    rw [h.add_lt (up (h6.f.abs h.acc)) (up h6.a) (g_fa.abs_left g_fna), h.far (up h6.a) (up h6.f) g_fa.symm,
      h.lt_sub (up d2) (up h6.e) hg.e_2d.twice.symm, h.large (up fa) (g_fna.of_sub (by ring)), h.lt_neg (up h6.e) g_e0, af]
    rw [← Bool.not_eq_true]
    simp only [Bool.or_eq_true, Bool.and_eq_true, decide_eq_true_eq, Bool.not_eq_true', decide_eq_false_iff_not, not_not]
    rintro ((t | ⟨t, t'⟩) | ⟨t, t'⟩)
    · linarith [q.f_le]
    · linarith [q.f_eq t.symm]
    · linarith [q.f_neg (by linarith)]
  · unfold fCond8 fSum
    rw [h.lt_neg (up tot) g_tot, h.large (up tot) g_tot, h.tol_lt (up aef) g_turn]
    rw [← Bool.not_eq_true]
    simp only [Bool.or_eq_true, Bool.and_eq_true, decide_eq_true_eq, Bool.not_eq_true', decide_eq_false_iff_not, not_not]
    rintro (t | ⟨t, t'⟩)
    · linarith [q.sum]
    · linarith [q.sum_eq (by linarith)]
  · rw [h6.l, h6.m, h6.n]
    unfold fFlag
    rw [h.lt_neg (up h6.d) g_d0, h.tol_lt (up h6.d) g_d0, h.lt_neg (up h6.e) g_e0, h.tol_lt (up h6.e) g_e0,
      h.lt_neg (up h6.f) g_f0, h.tol_lt (up h6.f) g_f0]
    simp only [decide_eq_true_eq]
    constructor
    · rintro ⟨t1, t2, t3⟩
      rw [if_neg (by linarith), if_pos (by linarith), if_neg (by linarith), if_pos (by linarith), if_neg (by linarith),
        if_pos (by linarith)]
      exact ⟨rfl, rfl, rfl⟩
    · rintro ⟨t1, t2, t3⟩
      refine ⟨?_, ?_, ?_⟩
      · rw [if_neg (by linarith : ¬ 0 < 2 * D)]
        split_ifs <;> simp
      · rw [if_neg (by linarith : ¬ 0 < 2 * E)]
        split_ifs <;> simp
      · rw [if_neg (by linarith : ¬ 0 < 2 * F)]
        split_ifs <;> simp

end

end AutoGR
