import Verif.Lemmas.RoundedId
import Verif.Lemmas.RealClassPy
import Verif.Lemmas.LoopExit
import Verif.Props.Reduction
import Verif.Spec.RelTolerance

/-! # `pyniggli.py` and `niggli_lat_id.py` in accurate arithmetic -/

namespace AutoGR

open Spec Arith Classical Matrix

/-! ## The Python names for the steps of the reduction -/

section
variable {K : Type} [Arith K]

theorem getParams_eq (U : RMat K) (τ : K) (T : IMat) : getParams U τ T = fGetParams (matmulI U T) τ := rfl

theorem cond1_eq (τ : K) (p : Params K) : cond1 τ p = fCond1 τ p := rfl
theorem cond2_eq (τ : K) (p : Params K) : cond2 τ p = fCond2 τ p := rfl
theorem cond5_eq (τ : K) (p : Params K) : cond5 τ p = fCond5 τ p := rfl
theorem cond6_eq (τ : K) (p : Params K) : cond6 τ p = fCond6 τ p := rfl
theorem cond7_eq (τ : K) (p : Params K) : cond7 τ p = fCond7 τ p := rfl
theorem cond8_eq (τ : K) (p : Params K) : cond8 τ p = fCond8 τ p := rfl

theorem allclose_eq (τ x y : K) : allclose τ x y = fClose τ x y := rfl

theorem flag_values (τ x : K) : fFlag τ x = -1 ∨ fFlag τ x = 0 ∨ fFlag τ x = 1 := by
  unfold fFlag
  split_ifs <;> simp

end

section
variable {K : Type} [Arith K] {val : K → ℝ} {M η : ℝ} {τ : K} {κ g r s : ℝ} {p : Params K} {A B C D E F : ℝ}

/-- `np.allclose(x,y,atol=τ)` -/
theorem Slack.allclose {S : ℝ} {x y : K} {x0 y0 : ℝ} (h : Slack val M η τ κ g S) (h3 : 3 * η ≤ κ) (h1 : η ≤ 1 / 100000)
    (hM : 1 ≤ M) (hrel : val τ + (1 / 100000 + η) * (S + κ) + 5 * κ ≤ g) (hx : Rep val x x0 κ S) (hy : Rep val y y0 κ S)
    (hg : Gap g x0 y0) : AutoGR.allclose τ x y = decide (x0 = y0) := by
  have hk := h.kpos
  have hη := h.acc.nonneg
  have hS : 0 ≤ S := (abs_nonneg _).trans hx.size
  have hlow := h.low
  have hround := h.round
  have hsz := h.size
  have hb := hy.bound
  have hq := h.acc.ofRat (1 / 100000) (by
    rw [abs_of_nonneg (by norm_num)]
    push_cast
    linarith)
  push_cast at hq
  set c := val (ofRat (1 / 100000) : K) with hc
  have hc' := abs_le.1 hq
  have c0 : 0 ≤ c := by linarith
  have c1 : c ≤ 1 := by linarith
  have ys : 0 ≤ |val y| := abs_nonneg _
  have p2 : c * |val y| ≤ S + κ := by
    have := mul_le_mul c1 hb ys zero_le_one
    linarith
  have p0 : 0 ≤ c * |val y| := by positivity
  have hm := h.acc.mul (ofRat (1 / 100000)) (abs y) (by
    rw [h.acc.abs, ← hc, abs_mul, abs_abs, abs_of_nonneg c0]
    linarith)
  rw [h.acc.abs, ← hc] at hm
  have p1 : c * |val y| ≤ (1 / 100000 + η) * (S + κ) :=
    mul_le_mul (by linarith) hb ys (by linarith)
  have hm' := abs_le.1 hm
  have ha := h.acc.add τ (mul (ofRat (1 / 100000)) (abs y)) (by
    rw [abs_le]
    constructor <;> linarith)
  have ha' := abs_le.1 ha
  have hs := (hx.sub h.acc hy (by linarith)).err
  unfold AutoGR.allclose allcloseR
  rw [Bool.eq_iff_iff, h.acc.le, decide_eq_true_eq, h.acc.abs]
  have t1 := abs_sub_abs_le_abs_sub (val (sub x y)) (x0 - y0)
  have t2 := abs_sub_abs_le_abs_sub (x0 - y0) (val (sub x y))
  rw [abs_sub_comm (x0 - y0)] at t2
  constructor
  · intro hl
    rcases hg with hg | hg
    · exact hg
    · nlinarith
  · intro hl
    rw [hl, sub_self, abs_zero] at t1
    rw [hl, sub_self] at hs
    linarith

/-- `np.allclose(x,y,rtol=0.0)` holds only for equal numbers. -/
theorem Slack.last {S : ℝ} {x y : K} {x0 y0 : ℝ} (h : Slack val M η τ κ g S) (h3 : 3 * η ≤ κ)
    (hM : 1 ≤ M) (hrel : 1 / 10 ^ 8 + 5 * κ ≤ g) (hx : Rep val x x0 κ S) (hy : Rep val y y0 κ S)
    (hg : Gap g x0 y0) (hc : allcloseR (ofInt 0) (ofRat (1 / 100000000)) x y = true) : x0 = y0 := by
  have hk := h.kpos
  have hη := h.acc.nonneg
  have hS : 0 ≤ S := (abs_nonneg _).trans hx.size
  have hlow := h.low
  have hround := h.round
  have hsz := h.size
  have hb := hy.bound
  have hq := h.acc.ofRat (1 / 100000000) (by
    rw [abs_of_nonneg (by norm_num)]
    push_cast
    linarith)
  push_cast at hq
  have hz := h.acc.ofInt 0 (by simp; linarith)
  have hm := h.acc.mul (ofInt 0) (abs y) (by rw [hz]; simp; linarith)
  rw [hz] at hm
  simp only [Int.cast_zero, zero_mul, sub_zero] at hm
  have hq' := abs_le.1 hq
  have hm' := abs_le.1 hm
  have ha := h.acc.add (ofRat (1 / 100000000)) (mul (ofInt 0) (abs y)) (by
    rw [abs_le]
    constructor <;> linarith [h.high])
  have ha' := abs_le.1 ha
  have hs := (hx.sub h.acc hy (by linarith)).err
  unfold allcloseR at hc
  rw [h.acc.le, h.acc.abs] at hc
  have t2 := abs_sub_abs_le_abs_sub (x0 - y0) (val (sub x y))
  rw [abs_sub_comm (x0 - y0)] at t2
  rcases hg with hg | hg
  · exact hg
  · exfalso
    have : η ≤ κ / 3 := by linarith
    linarith

/-- `_niggli_check` accepts a cell that is close to a Niggli cell. -/
theorem niggliCheck_ideal (h : Slack val M η τ κ g (6 * s)) (h3 : 3 * η ≤ κ) (h1 : η ≤ 1 / 100000)
    (hrel : val τ + (1 / 100000 + η) * (6 * s + κ) + 5 * κ ≤ g) (hlast : 1 / 10 ^ 8 + 5 * κ ≤ g)
    (h6 : SixParams val τ r s p A B C D E F)
    (hr : 6 * r + 5 * η ≤ κ) (h2 : 2 ≤ M) (hg : CellGap g A B C D E F) (q : NiggliReduced A B C D E F) :
    niggliCheck p τ = true := by
  have hη := h.acc.nonneg
  have r0 : 0 ≤ r := (abs_nonneg _).trans h6.a.err
  have s0 : 0 ≤ s := (abs_nonneg _).trans h6.a.size
  have hsz := h.size
  have hlo := h.low
  have hk := h.kpos
  have up {x : K} {x0 e t : ℝ} (hx : Rep val x x0 e t) (he : e ≤ 6 * r + 5 * η := by linarith)
    (ht : t ≤ 6 * s := by linarith) : Rep val x x0 κ (6 * s) := hx.mono (he.trans hr) ht
  have z : Rep val (ofInt 0) 0 κ (6 * s) := (rep_zero h.acc (by linarith)).mono hk (by linarith)
  have ab := h6.a.add h.acc h6.b (by linarith)
  have abc := ab.add h.acc h6.c (by linarith)
  have abcd := abc.add h.acc h6.d (by linarith)
  have abcde := abcd.add h.acc h6.e (by linarith)
  have tot := abcde.add h.acc h6.f (by linarith)
  have a2 := h6.a.twice h.acc h2 (by linarith)
  have d2 := h6.d.twice h.acc h2 (by linarith)
  have e2 := h6.e.twice h.acc h2 (by linarith)
  have ae := a2.add h.acc e2 (by linarith)
  have aef := ae.add h.acc h6.f (by linarith)
  have g_d0 : Gap g (2 * D) 0 := hg.d_zero.twice.of_sub (by ring)
  have g_e0 : Gap g (2 * E) 0 := hg.e_zero.twice.of_sub (by ring)
  have g_f0 : Gap g (2 * F) 0 := hg.f_zero.twice.of_sub (by ring)
  have g_de : Gap g |2 * D| |2 * E| := hg.d_e.twice.abs_abs (hg.d_ne.twice.of_sub (by ring))
  have g_ef : Gap g |2 * E| |2 * F| := hg.e_f.twice.abs_abs (hg.e_nf.twice.of_sub (by ring))
  have g_db : Gap g (2 * D) B := hg.d_hb.twice.of_sub (by ring)
  have g_dnb : Gap g (2 * D) (-B) := hg.d_nhb.twice.of_sub (by ring)
  have g_ea : Gap g (2 * E) A := hg.e_ha.twice.of_sub (by ring)
  have g_ena : Gap g (2 * E) (-A) := hg.e_nha.twice.of_sub (by ring)
  have g_fa : Gap g (2 * F) A := hg.f_ha.twice.of_sub (by ring)
  have g_fna : Gap g (2 * F) (-A) := hg.f_nha.twice.of_sub (by ring)
  have g_tot : Gap g C (A + B + C + 2 * D + 2 * E + 2 * F) := hg.total.symm.of_sub (by ring)
  have g_turn : Gap g (2 * A + 2 * (2 * E) + 2 * F) 0 := hg.turn.of_sub (by ring)
  have cl {x y : K} {x0 y0 : ℝ} (hx : Rep val x x0 κ (6 * s)) (hy : Rep val y y0 κ (6 * s)) (hgap : Gap g x0 y0) :
      AutoGR.allclose τ x y = decide (x0 = y0) := h.allclose h3 h1 (by linarith) hrel hx hy hgap
  have le {x y : ℝ} (h : x ≤ y) : x < y ∨ x = y := lt_or_eq_of_le h
  have ad : |2 * D| = 2 * |D| := by rw [abs_mul, abs_two]
  have ae' : |2 * E| = 2 * |E| := by rw [abs_mul, abs_two]
  have af : |2 * F| = 2 * |F| := by rw [abs_mul, abs_two]
  unfold niggliCheck
  dsimp only
  have hl : AutoGR.allcloseR (ofInt 0) (ofRat (1 / 100000000)) p.C
      (add (add (add (add (add p.A p.B) p.C) p.xi) p.eta) p.zeta) = true → A + B + 2 * (D + E + F) = 0 := by
    intro t
    have := h.last h3 (by linarith) hlast (up h6.c) (up tot) g_tot t
    linarith
  simp only [h.pos_sub (up h6.a) hg.a_zero, h.lt_sub (up h6.a) (up h6.b) hg.a_b, cl (up h6.a) (up h6.b) hg.a_b,
    h.lt_sub (up h6.b) (up h6.c) hg.b_c, cl (up h6.b) (up h6.c) hg.b_c,
    h.lt_sub (up (h6.d.abs h.acc)) (up (h6.e.abs h.acc)) g_de,
    cl (up (h6.d.abs h.acc)) (up (h6.e.abs h.acc)) g_de,
    h.lt_sub (up (h6.e.abs h.acc)) (up (h6.f.abs h.acc)) g_ef,
    cl (up (h6.e.abs h.acc)) (up (h6.f.abs h.acc)) g_ef,
    h.pos_sub (up h6.d) g_d0, h.pos_sub (up h6.e) g_e0, h.pos_sub (up h6.f) g_f0,
    h.lt_sub (up h6.d) z g_d0, h.lt_sub (up h6.e) z g_e0, h.lt_sub (up h6.f) z g_f0,
    cl (up h6.d) z g_d0, cl (up h6.e) z g_e0, cl (up h6.f) z g_f0,
    h.lt_sub (up (h6.d.abs h.acc)) (up h6.b) (g_db.abs_left g_dnb),
    cl (up (h6.d.abs h.acc)) (up h6.b) (g_db.abs_left g_dnb),
    h.lt_sub (up (h6.e.abs h.acc)) (up h6.a) (g_ea.abs_left g_ena),
    cl (up (h6.e.abs h.acc)) (up h6.a) (g_ea.abs_left g_ena),
    h.lt_sub (up (h6.f.abs h.acc)) (up h6.a) (g_fa.abs_left g_fna),
    cl (up (h6.f.abs h.acc)) (up h6.a) (g_fa.abs_left g_fna),
    h.lt_sub (up h6.c) (up tot) g_tot, cl (up h6.c) (up tot) g_tot,
    cl (up h6.d) (up h6.b) g_db, cl (up h6.e) (up h6.a) g_ea, cl (up h6.f) (up h6.a) g_fa,
    h.lt_sub (up h6.f) (up e2) (hg.f_2e.twice), cl (up h6.f) (up e2) (hg.f_2e.twice),
    h.lt_sub (up h6.f) (up d2) (hg.f_2d.twice), cl (up h6.f) (up d2) (hg.f_2d.twice),
    h.lt_sub (up h6.e) (up d2) (hg.e_2d.twice), cl (up h6.e) (up d2) (hg.e_2d.twice),
    cl (up h6.d) (up (h6.b.neg h.acc)) g_dnb, cl (up h6.e) (up (h6.a.neg h.acc)) g_ena,
    cl (up h6.f) (up (h6.a.neg h.acc)) g_fna,
    h.lt_sub (up aef) z g_turn, cl (up aef) z g_turn, ad, ae', af]
  generalize AutoGR.allcloseR (ofInt 0) (ofRat (1 / 100000000)) p.C
    (add (add (add (add (add p.A p.B) p.C) p.xi) p.eta) p.zeta) = l at hl ⊢
  simp only [Bool.not_eq_true', Bool.and_eq_true, decide_eq_true_eq, Bool.and_eq_false_iff,
    Bool.or_eq_false_iff, decide_eq_false_iff_not]
  rw [if_neg, if_neg, if_neg, if_neg, if_neg, if_neg, if_neg, if_neg, if_neg, if_neg, if_neg, if_neg, if_neg, if_neg]
  · rintro ⟨t, u⟩
    have := le (q.sum_eq (hl t))
    rcases this with v | v
    · exact u.1 (by linarith)
    · exact u.2 (by linarith)
  · rintro ⟨t, u⟩; exact u (by linarith [q.f_neg t])
  · rintro ⟨t, u⟩; exact u (by linarith [q.e_neg t])
  · rintro ⟨t, u⟩; exact u (by linarith [q.d_neg t])
  · rintro ⟨t, u, v⟩; rcases le (q.f_eq t) with w | w
    · exact u (by linarith)
    · exact v (by linarith)
  · rintro ⟨t, u, v⟩; rcases le (q.e_eq t) with w | w
    · exact u (by linarith)
    · exact v (by linarith)
  · rintro ⟨t, u, v⟩; rcases le (q.d_eq t) with w | w
    · exact u (by linarith)
    · exact v (by linarith)
  · rintro ⟨u, v⟩; rcases le q.sum with w | w
    · exact u (by linarith)
    · exact v (by linarith)
  · rintro (⟨u, v⟩ | ⟨u, v⟩)
    · rcases le q.e_le with w | w
      · exact u w
      · exact v w
    · rcases le q.f_le with w | w
      · exact u w
      · exact v w
  · rintro ⟨u, v⟩; rcases le q.d_le with w | w
    · exact u w
    · exact v w
  · rintro ⟨u, v⟩
    rcases q.type with ⟨t1, t2, t3⟩ | ⟨t1, t2, t3⟩
    · rcases u with (u | u) | u <;> exact u (by linarith)
    · rcases v with (v | v) | v
      · rcases le t1 with w | w
        · exact v.1 (by linarith)
        · exact v.2 (by linarith)
      · rcases le t2 with w | w
        · exact v.1 (by linarith)
        · exact v.2 (by linarith)
      · rcases le t3 with w | w
        · exact v.1 (by linarith)
        · exact v.2 (by linarith)
  · rintro ⟨t, u, v⟩; rcases le (q.bc_eq t) with w | w
    · exact u (by linarith)
    · exact v (by linarith)
  · rintro ⟨t, u, v⟩; rcases le (q.ab_eq t) with w | w
    · exact u (by linarith)
    · exact v (by linarith)
  · rintro ((u | u) | u)
    · exact u q.pos
    · rcases le q.ab with w | w
      · exact u.1 w
      · exact u.2 w
    · rcases le q.bc with w | w
      · exact u.1 w
      · exact u.2 w

/-- A pass of the loop that changes nothing has found a Niggli cell. -/
theorem conds_ideal (h : Slack val M η τ κ g (6 * s)) (h6 : SixParams val τ r s p A B C D E F)
    (hr : 6 * r + 5 * η ≤ κ) (h2 : 2 ≤ M) (hg : CellGap g A B C D E F) (hpos : lt (ofInt 0) (sub p.A τ) = true)
    (k1 : fCond1 τ p = false) (k2 : fCond2 τ p = false) (k5 : fCond5 τ p = false) (k6 : fCond6 τ p = false)
    (k7 : fCond7 τ p = false) (k8 : fCond8 τ p = false)
    (k3 : p.l * p.m * p.n = 1 → findC3 p.l p.m p.n = IMat.one)
    (k4 : p.l * p.m * p.n = 0 ∨ p.l * p.m * p.n = -1 → findC4 p.l p.m p.n = IMat.one) :
    NiggliReduced A B C D E F := by
  have hη := h.acc.nonneg
  have r0 : 0 ≤ r := (abs_nonneg _).trans h6.a.err
  have s0 : 0 ≤ s := (abs_nonneg _).trans h6.a.size
  have hsz := h.size
  have hlo := h.low
  have up {x : K} {x0 e t : ℝ} (hx : Rep val x x0 e t) (he : e ≤ 6 * r + 5 * η := by linarith)
    (ht : t ≤ 6 * s := by linarith) : Rep val x x0 κ (6 * s) := hx.mono (he.trans hr) ht
  have de := h6.d.add h.acc h6.e (by linarith)
  have def' := de.add h.acc h6.f (by linarith)
  have defa := def'.add h.acc h6.a (by linarith)
  have tot := defa.add h.acc h6.b (by linarith)
  have d2 := h6.d.twice h.acc h2 (by linarith)
  have e2 := h6.e.twice h.acc h2 (by linarith)
  have ae := h6.a.add h.acc h6.e (by linarith)
  have ae2 := ae.twice h.acc h2 (by linarith)
  have aef := ae2.add h.acc h6.f (by linarith)
  have bd := h6.b.add h.acc h6.d (by linarith)
  have fa := h6.a.add h.acc h6.f (by linarith)
  have g_d0 : Gap g (2 * D) 0 := hg.d_zero.twice.of_sub (by ring)
  have g_e0 : Gap g (2 * E) 0 := hg.e_zero.twice.of_sub (by ring)
  have g_f0 : Gap g (2 * F) 0 := hg.f_zero.twice.of_sub (by ring)
  have g_de : Gap g |2 * D| |2 * E| := hg.d_e.twice.abs_abs (hg.d_ne.twice.of_sub (by ring))
  have g_ef : Gap g |2 * E| |2 * F| := hg.e_f.twice.abs_abs (hg.e_nf.twice.of_sub (by ring))
  have g_db : Gap g (2 * D) B := hg.d_hb.twice.of_sub (by ring)
  have g_dnb : Gap g (2 * D) (-B) := hg.d_nhb.twice.of_sub (by ring)
  have g_ea : Gap g (2 * E) A := hg.e_ha.twice.of_sub (by ring)
  have g_ena : Gap g (2 * E) (-A) := hg.e_nha.twice.of_sub (by ring)
  have g_fa : Gap g (2 * F) A := hg.f_ha.twice.of_sub (by ring)
  have g_fna : Gap g (2 * F) (-A) := hg.f_nha.twice.of_sub (by ring)
  have g_tot : Gap g (2 * D + 2 * E + 2 * F + A + B) 0 := hg.total.of_sub (by ring)
  have g_turn : Gap g (2 * (A + 2 * E) + 2 * F) 0 := hg.turn.of_sub (by ring)
  have ad : |2 * D| = 2 * |D| := by rw [abs_mul, abs_two]
  have ae' : |2 * E| = 2 * |E| := by rw [abs_mul, abs_two]
  have af : |2 * F| = 2 * |F| := by rw [abs_mul, abs_two]
  rw [h.pos_sub (up h6.a) hg.a_zero, decide_eq_true_eq] at hpos
  unfold fCond1 at k1
  rw [h.add_lt (up h6.a) (up h6.b) hg.a_b, h.far (up h6.a) (up h6.b) hg.a_b,
    h.add_lt (up (h6.d.abs h.acc)) (up (h6.e.abs h.acc)) g_de, ad, ae'] at k1
  unfold fCond2 at k2
  rw [h.add_lt (up h6.b) (up h6.c) hg.b_c, h.far (up h6.c) (up h6.b) hg.b_c.symm,
    h.add_lt (up (h6.e.abs h.acc)) (up (h6.f.abs h.acc)) g_ef, ae', af] at k2
  unfold fCond5 at k5
  rw [h.add_lt (up (h6.d.abs h.acc)) (up h6.b) (g_db.abs_left g_dnb), h.far (up h6.b) (up h6.d) g_db.symm,
    h.lt_sub (up e2) (up h6.f) hg.f_2e.twice.symm, h.large (up bd) (g_dnb.of_sub (by ring)), h.lt_neg (up h6.f) g_f0, ad] at k5
  unfold fCond6 at k6
  rw [h.add_lt (up (h6.e.abs h.acc)) (up h6.a) (g_ea.abs_left g_ena), h.far (up h6.a) (up h6.e) g_ea.symm,
    h.lt_sub (up d2) (up h6.f) hg.f_2d.twice.symm, h.large (up ae) (g_ena.of_sub (by ring)), h.lt_neg (up h6.f) g_f0, ae'] at k6
  unfold fCond7 at k7
  rw [h.add_lt (up (h6.f.abs h.acc)) (up h6.a) (g_fa.abs_left g_fna), h.far (up h6.a) (up h6.f) g_fa.symm,
    h.lt_sub (up d2) (up h6.e) hg.e_2d.twice.symm, h.large (up fa) (g_fna.of_sub (by ring)), h.lt_neg (up h6.e) g_e0, af] at k7
  unfold fCond8 fSum at k8
  rw [h.lt_neg (up tot) g_tot, h.large (up tot) g_tot, h.tol_lt (up aef) g_turn] at k8
  simp only [Bool.or_eq_false_iff, Bool.and_eq_false_iff, Bool.not_eq_false', decide_eq_false_iff_not, decide_eq_true_eq,
    not_lt, ne_eq] at k1 k2 k5 k6 k7 k8
  have hI : TypeI D E F ∨ TypeII D E F := by
    have fl {x : K} {x0 : ℝ} (hx : Rep val x (2 * x0) κ (6 * s)) (hgap : Gap g (2 * x0) 0) :
        (fFlag τ x = 1 → 0 < x0) ∧ (fFlag τ x = 0 ∨ fFlag τ x = -1 → x0 ≤ 0) := by
      unfold fFlag
      rw [h.lt_neg hx hgap, h.tol_lt hx hgap]
      simp only [decide_eq_true_eq]
      rcases lt_trichotomy x0 0 with t | t | t
      · rw [if_pos (by linarith)]
        exact ⟨fun h => by norm_num at h, fun _ => t.le⟩
      · rw [if_neg (by linarith), if_neg (by linarith)]
        exact ⟨fun h => by norm_num at h, fun _ => t.le⟩
      · rw [if_neg (by linarith), if_pos (by linarith)]
        exact ⟨fun _ => t, fun h => by norm_num at h⟩
    obtain ⟨fd1, fd2⟩ := fl (up h6.d) g_d0
    obtain ⟨fe1, fe2⟩ := fl (up h6.e) g_e0
    obtain ⟨ff1, ff2⟩ := fl (up h6.f) g_f0
    rw [← h6.l] at fd1 fd2
    rw [← h6.m] at fe1 fe2
    rw [← h6.n] at ff1 ff2
    have vl := flag_values τ p.xi
    have vm := flag_values τ p.eta
    have vn := flag_values τ p.zeta
    rw [← h6.l] at vl
    rw [← h6.m] at vm
    rw [← h6.n] at vn
    have : (p.l = 1 ∧ p.m = 1 ∧ p.n = 1) ∨ ((p.l = 0 ∨ p.l = -1) ∧ (p.m = 0 ∨ p.m = -1) ∧ (p.n = 0 ∨ p.n = -1)) := by
      revert k3 k4
      rcases vl with l | l | l <;> rcases vm with m | m | m <;> rcases vn with n | n | n <;> rw [l, m, n] <;> decide
    rcases this with ⟨l, m, n⟩ | ⟨l, m, n⟩
    · exact .inl ⟨fd1 l, fe1 m, ff1 n⟩
    · exact .inr ⟨fd2 l, fe2 m, ff2 n⟩
  constructor
  · exact hpos
  · exact k1.1
  · exact k2.1
  · exact hI
  · exact k5.1.1
  · exact k6.1.1
  · exact k7.1.1
  · linarith [k8.1]
  · intro t; rcases k1.2 with u | u
    · exact absurd t u
    · linarith
  · intro t; rcases k2.2 with u | u
    · exact absurd t.symm u
    · linarith
  · intro t; rcases k5.1.2 with u | u
    · exact absurd t.symm u
    · linarith
  · intro t; rcases k6.1.2 with u | u
    · exact absurd t.symm u
    · linarith
  · intro t; rcases k7.1.2 with u | u
    · exact absurd t.symm u
    · linarith
  · intro t; rcases k5.2 with u | u
    · exact absurd (by linarith) u
    · rcases hI with i | i
      · have := i.1; have := k5.1.1; rw [abs_of_pos i.1] at this; linarith
      · linarith [i.2.2]
  · intro t; rcases k6.2 with u | u
    · exact absurd (by linarith) u
    · rcases hI with i | i
      · linarith [i.2.1]
      · linarith [i.2.2]
  · intro t; rcases k7.2 with u | u
    · exact absurd (by linarith) u
    · rcases hI with i | i
      · linarith [i.2.2]
      · linarith [i.2.1]
  · intro t; rcases k8.2 with u | u
    · exact absurd (by linarith) u
    · linarith

end

end AutoGR
