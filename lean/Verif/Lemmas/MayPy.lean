import Verif.Lemmas.RoundedBasis
import Verif.Lemmas.RoundedPy

/-! # `reduced_cell` of `pyniggli.py` with unknown rounding

The passes of `pyniggli.py` are those of `niggli.f90`, so `mayPass` runs over all ways they can go.  The final check is a
different one: it compares with `np.allclose`, whose tolerance has a relative part. -/

namespace AutoGR

open Spec Arith Matrix Fortran

/-! ## The passes -/

section
variable {K : Type} [Arith K] {U : RMat K} {τ : K} {T : IMat}

theorem findC4_eq {l m n : ℤ} (hl : l = -1 ∨ l = 0 ∨ l = 1) (hm : m = -1 ∨ m = 0 ∨ m = 1)
    (hn : n = -1 ∨ n = 0 ∨ n = 1) : findC4 l m n = fFindC4 l m n := by
  rcases hl with rfl | rfl | rfl <;> rcases hm with rfl | rfl | rfl <;> rcases hn with rfl | rfl | rfl <;> rfl

theorem apply_ite {b : Prop} [Decidable b] (C N : IMat) :
    (if b then fApply U τ ⟨C, getParams U τ C⟩ N else ⟨C, getParams U τ C⟩) =
      (⟨if b then mulC C N else C, getParams U τ (if b then mulC C N else C)⟩ : FState K) := by
  split_ifs <;> rfl

/-- A pass of `pyniggli.py` is a pass of `niggli.f90`. -/
theorem niggliPass_eq (hs : ∀ x : K, sign x = fSign x) (U : RMat K) (τ : K) (T : IMat) :
    niggliPass U τ T = ((fPass U τ ⟨T, getParams U τ T⟩).1.trans, (fPass U τ ⟨T, getParams U τ T⟩).2) := by
  unfold niggliPass fPass
  dsimp only
  rw [cond1_eq]
  generalize fCond1 τ (getParams U τ T) = b1
  rw [apply_ite]
  generalize (if b1 = true then mulC T ⟨0, -1, 0, -1, 0, 0, 0, 0, -1⟩ else T) = C1
  dsimp only
  rw [cond2_eq]
  by_cases c2 : fCond2 τ (getParams U τ C1) = true
  · rw [if_pos c2, if_pos c2]; rfl
  rw [if_neg c2, if_neg c2]
  have e3 : findC3 = fFindC3 := rfl
  rw [e3]
  generalize fFindC3 (getParams U τ C1).l (getParams U τ C1).m (getParams U τ C1).n = M3
  rw [apply_ite]
  generalize (if (getParams U τ C1).l * (getParams U τ C1).m * (getParams U τ C1).n = 1 then mulC C1 M3 else C1) = C2
  dsimp only
  have e4 : findC4 (getParams U τ C2).l (getParams U τ C2).m (getParams U τ C2).n =
      fFindC4 (getParams U τ C2).l (getParams U τ C2).m (getParams U τ C2).n :=
    findC4_eq (flag_values _ _) (flag_values _ _) (flag_values _ _)
  rw [e4]
  generalize fFindC4 (getParams U τ C2).l (getParams U τ C2).m (getParams U τ C2).n = M4
  rw [apply_ite]
  generalize (if (getParams U τ C2).l * (getParams U τ C2).m * (getParams U τ C2).n = 0 ∨
    (getParams U τ C2).l * (getParams U τ C2).m * (getParams U τ C2).n = -1 then mulC C2 M4 else C2) = C4
  dsimp only
  rw [cond5_eq, cond6_eq, cond7_eq, cond8_eq, hs, hs, hs]
  by_cases c5 : fCond5 τ (getParams U τ C4) = true
  · rw [if_pos c5, if_pos c5]; rfl
  rw [if_neg c5, if_neg c5]
  by_cases c6 : fCond6 τ (getParams U τ C4) = true
  · rw [if_pos c6, if_pos c6]; rfl
  rw [if_neg c6, if_neg c6]
  by_cases c7 : fCond7 τ (getParams U τ C4) = true
  · rw [if_pos c7, if_pos c7]; rfl
  rw [if_neg c7, if_neg c7]
  by_cases c8 : fCond8 τ (getParams U τ C4) = true
  · rw [if_pos c8, if_pos c8]; rfl
  rw [if_neg c8, if_neg c8]
  rfl

end

/-! ## The check -/

/-- `np.allclose(x,y,atol=tolerance)`, where `d = x - y`, succeeds whatever the tolerance. -/
def pyClose (lo d y : ℚ) : Bool := decide (|d| - |y| / 100000 ≤ lo)

/-- It fails whatever the tolerance. -/
def pyFar (hi d y : ℚ) : Bool := decide (hi ≤ |d| - |y| / 100000)

/-- `x < y - tolerance or np.allclose(x,y,atol=tolerance)` holds whatever the tolerance. -/
def pyLe (lo hi x y : ℚ) : Bool := decide (hi ≤ y - x) || pyClose lo (x - y) y

/-- `_niggli_check` succeeds, whatever the tolerance. -/
def mustPy (lo hi m : ℚ) (p : Params ℚ) : Bool :=
  (decide (hi ≤ p.A) && pyLe lo hi p.A p.B && pyLe lo hi p.B p.C) &&
  (pyFar hi (p.A - p.B) p.B || pyLe lo hi |p.xi| |p.eta|) &&
  (pyFar hi (p.B - p.C) p.C || pyLe lo hi |p.eta| |p.zeta|) &&
  ((decide (hi ≤ p.xi) && decide (hi ≤ p.eta) && decide (hi ≤ p.zeta)) ||
    (pyLe lo hi p.xi 0 && pyLe lo hi p.eta 0 && pyLe lo hi p.zeta 0)) &&
  pyLe lo hi |p.xi| p.B && (pyLe lo hi |p.eta| p.A && pyLe lo hi |p.zeta| p.A) &&
  pyLe lo hi p.C (p.A + p.B + p.C + p.xi + p.eta + p.zeta) &&
  (pyFar hi (p.xi - p.B) p.B || pyLe lo hi p.zeta (2 * p.eta)) &&
  (pyFar hi (p.eta - p.A) p.A || pyLe lo hi p.zeta (2 * p.xi)) &&
  (pyFar hi (p.zeta - p.A) p.A || pyLe lo hi p.eta (2 * p.xi)) &&
  (pyFar hi (p.xi + p.B) p.B || pyClose lo p.zeta 0) &&
  (pyFar hi (p.eta + p.A) p.A || pyClose lo p.zeta 0) &&
  (pyFar hi (p.zeta + p.A) p.A || pyClose lo p.eta 0) &&
  (decide (1 / 100000000 + m ≤ |p.A + p.B + p.xi + p.eta + p.zeta|) ||
    pyLe lo hi (2 * p.A + 2 * p.eta + p.zeta) 0)

section
variable {K : Type} [Arith K] {val : K → ℝ} {M η : ℝ} {τ x y : K} {x0 y0 e e' s s' : ℝ} {lo hi m q d b : ℚ}

/-- The numbers are small enough for the error bounds of `_niggli_check`. -/
structure FinePy (K : Type) [Arith K] (val : K → ℝ) (M η : ℝ) (τ : K) (lo hi m : ℚ) (r s : ℝ) : Prop extends
    Finer K val M η τ lo hi m r s where
  rel : (8 + 1 / 1000) * r + 20 * η + 6 * η * s < m
  small : η ≤ 1 / 100000

/-- The right hand side of `np.allclose`. -/
theorem rhs_close (hK : Accurate K val M η) (hη : η ≤ 1 / 100000) (h1 : 1 ≤ M) (ht : 0 ≤ val τ) (hy : Rep val y y0 e s)
    (hs : s + e + val τ + 2 * η ≤ M) :
    |val (add τ (mul (ofRat (1 / 100000)) (abs y))) - (val τ + |y0| / 100000)| ≤ 2 / 100000 * e + η * s + 2 * η := by
  have h0 := hK.nonneg
  have he : 0 ≤ e := (abs_nonneg _).trans hy.err
  have hq := hK.ofRat (1 / 100000) (by
    rw [abs_of_nonneg (by norm_num)]
    push_cast
    linarith)
  push_cast at hq
  set c := val (ofRat (1 / 100000) : K) with hc
  have hc' := abs_le.1 hq
  have c0 : 0 ≤ c := by linarith
  have c1 : c ≤ 2 / 100000 := by linarith
  have hb := hy.bound
  have yp := abs_nonneg (val y)
  have y0p := abs_nonneg y0
  have hsz := hy.size
  have p1 : c * |val y| ≤ 1 * |val y| := mul_le_mul_of_nonneg_right (by linarith) yp
  have p0 : 0 ≤ c * |val y| := by positivity
  have hm := hK.mul (ofRat (1 / 100000)) (abs y) (by
    rw [hK.abs, ← hc, abs_of_nonneg p0]
    linarith)
  rw [hK.abs, ← hc] at hm
  have hm' := abs_le.1 hm
  have ha := hK.add τ (mul (ofRat (1 / 100000)) (abs y)) (by
    rw [abs_le]
    constructor <;> linarith)
  have ha' := abs_le.1 ha
  have t := (abs_abs_sub_abs_le (val y) y0).trans hy.err
  have d1 : |c * |val y| - |y0| / 100000| ≤ 2 / 100000 * e + η * s := by
    have e1 : c * |val y| - |y0| / 100000 = c * (|val y| - |y0|) + (c - 1 / 100000) * |y0| := by ring
    rw [e1]
    refine (abs_add_le _ _).trans (add_le_add ?_ ?_)
    · rw [abs_mul, abs_of_nonneg c0]
      exact mul_le_mul c1 t (abs_nonneg _) (by norm_num)
    · rw [abs_mul, abs_abs]
      exact mul_le_mul hq hsz y0p h0
  have d1' := abs_le.1 d1
  rw [abs_le]
  constructor <;> linarith

section
variable (hK : Accurate K val M η) (h : Between val τ lo hi m) (hη : η ≤ 1 / 100000) (h1 : 1 ≤ M) (ht : 0 ≤ val τ)
  (hx : Rep val x x0 e s) (hy : Rep val y y0 e' s') (hd : x0 - y0 = d) (hb : y0 = b)
  (he : e + e' + 3 * η + 2 / 100000 * e' + η * s' < m) (hs : s + s' + e + e' + val τ + 2 * η ≤ M)
include hK h hη h1 ht hx hy hd hb he hs

theorem allclose_low (hm : pyClose lo d b = true) : allclose τ x y = true := by
  have h0 := hK.nonneg
  have he0 : 0 ≤ e := (abs_nonneg _).trans hx.err
  have hs0 : 0 ≤ s := (abs_nonneg _).trans hx.size
  have r := abs_le.1 (rhs_close hK hη h1 ht hy (by linarith))
  have l := (hx.sub hK hy (by linarith)).abs hK
  have l' := abs_le.1 l.err
  unfold pyClose at hm
  rw [decide_eq_true_eq] at hm
  have hm' := (Rat.cast_le (K := ℝ)).2 hm
  push_cast at hm'
  rw [hd] at l'
  rw [hb] at r
  unfold allclose allcloseR
  rw [hK.le]
  linarith [h.low]

theorem allclose_high (hm : pyFar hi d b = true) : allclose τ x y = false := by
  have h0 := hK.nonneg
  have he0 : 0 ≤ e := (abs_nonneg _).trans hx.err
  have hs0 : 0 ≤ s := (abs_nonneg _).trans hx.size
  have r := abs_le.1 (rhs_close hK hη h1 ht hy (by linarith))
  have l := (hx.sub hK hy (by linarith)).abs hK
  have l' := abs_le.1 l.err
  unfold pyFar at hm
  rw [decide_eq_true_eq] at hm
  have hm' := (Rat.cast_le (K := ℝ)).2 hm
  push_cast at hm'
  rw [hd] at l'
  rw [hb] at r
  unfold allclose allcloseR
  rw [← Bool.not_eq_true, hK.le]
  linarith [h.high]

end

theorem le_py {a b : ℚ} (hK : Accurate K val M η) (h : Between val τ lo hi m) (hη : η ≤ 1 / 100000) (h1 : 1 ≤ M)
    (ht : 0 ≤ val τ) (hx : Rep val x x0 e s) (hy : Rep val y y0 e' s') (hm : pyLe lo hi a b = true)
    (ha : x0 = a) (hb : y0 = b)
    (he : e + e' + 3 * η + 2 / 100000 * e' + η * s' < m) (hs : s + s' + e + e' + val τ + 2 * η ≤ M) :
    (lt x (sub y τ) || allclose τ x y) = true := by
  have h0 := hK.nonneg
  have he0 : 0 ≤ e := (abs_nonneg _).trans hx.err
  have he1 : 0 ≤ e' := (abs_nonneg _).trans hy.err
  have hs0 : 0 ≤ s := (abs_nonneg _).trans hx.size
  have hs1 : 0 ≤ s' := (abs_nonneg _).trans hy.size
  have hp : 0 ≤ η * s' := mul_nonneg h0 hs1
  have hτ : Rep val τ (val τ) 0 (val τ) := ⟨by simp, by rw [abs_of_nonneg ht]⟩
  unfold pyLe at hm
  rw [Bool.or_eq_true, decide_eq_true_eq] at hm
  rw [Bool.or_eq_true]
  refine hm.imp (fun hm => ?_) (fun hm => ?_)
  · exact lt_high hK h hx (hy.sub hK hτ (by linarith)) hm (by rw [ha, hb]; push_cast; ring) (by linarith)
  · exact allclose_low (d := a - b) hK h hη h1 ht hx hy (by rw [ha, hb]; push_cast; rfl) hb he hs hm

omit [Arith K] in
theorem not_flip {b : Bool} (h : b = true) : ¬ (!b) = true := by rw [h]; simp

omit [Arith K] in
theorem not_guard {N L : Bool} (h : N = false ∨ L = true) : ¬ (N && !L) = true := by
  cases N <;> cases L <;> simp_all

variable {r : ℝ} {p : Params K} {p0 : Params ℚ}

/-- `_niggli_check` succeeds. -/
theorem niggliCheck_must (h : FinePy K val M η τ lo hi m r s) (hp : RepPar val τ r s p p0)
    (hm : mustPy lo hi m p0 = true) : niggliCheck p τ = true := by
  have hK := h.acc
  have h0 := hK.nonneg
  have hη := h.small
  have he := h.rel
  have hr := h.nonneg
  have hs : 0 ≤ s := (abs_nonneg _).trans hp.a.size
  have hM := h.size'
  have ht := h.tol
  have h2 := h.two
  have hbt := h.btw
  have hp0 : 0 ≤ η * s := mul_nonneg h0 hs
  have h1 : 1 ≤ M := by linarith
  have hτ : Rep val τ (val τ) 0 (val τ) := ⟨by simp, by rw [abs_of_nonneg h.tol]⟩
  have hz : val (ofInt 0 : K) = 0 := by
    have := hK.ofInt 0 (by simpa using (show (0 : ℝ) ≤ M by linarith))
    simpa using this
  have hz' : Rep val (ofInt 0 : K) 0 0 0 := ⟨by rw [hz]; simp, by simp⟩
  have pos {x : K} {x0 : ℚ} (hx : Rep val x x0 r s) (hq : hi ≤ x0) : lt (ofInt 0) (sub x τ) = true :=
    lt_high hK hbt hz' (hx.sub hK hτ (by linarith)) hq (by ring) (by linarith)
  have hsum : Rep val (add (add (add (add (add p.A p.B) p.C) p.xi) p.eta) p.zeta)
      (p0.A + p0.B + p0.C + p0.xi + p0.eta + p0.zeta) (6 * r + 5 * η) (6 * s) :=
    (((((hp.a.add hK hp.b (by linarith)).add hK hp.c (by linarith)).add hK hp.d (by linarith)).add hK hp.e
      (by linarith)).add hK hp.f (by linarith)).mono (by linarith) (by linarith)
  have hlast : Rep val (add (add (mul (ofInt 2) p.A) (mul (ofInt 2) p.eta)) p.zeta)
      (2 * p0.A + 2 * p0.eta + p0.zeta) (5 * r + 4 * η) (5 * s) :=
    (((hp.a.twice hK h2 (by linarith)).add hK (hp.e.twice hK h2 (by linarith)) (by linarith)).add hK hp.f
      (by linarith)).mono (by linarith) (by linarith)
  have ge {x y : K} {x0 y0 : ℝ} {e e' s' s'' : ℝ} {a b : ℚ} (hx : Rep val x x0 e s') (hy : Rep val y y0 e' s'')
      (hm : pyLe lo hi a b = true) (ha : x0 = a) (hb : y0 = b)
      (he : e + e' + 3 * η + 2 / 100000 * e' + η * s'' < m) (hs : s' + s'' + e + e' + val τ + 2 * η ≤ M) :=
    le_py hK hbt hη h1 ht hx hy hm ha hb he hs
  have far {x y : K} {x0 y0 : ℝ} {d b : ℚ} (hx : Rep val x x0 r s) (hy : Rep val y y0 r s)
      (hm : pyFar hi d b = true) (hd : x0 - y0 = d) (hb : |y0| = |(b : ℝ)|) : allclose τ x y = false := by
    rcases abs_eq_abs.1 hb with hb | hb
    · exact allclose_high hK hbt hη h1 ht hx hy hd hb (by linarith) (by linarith) hm
    · refine allclose_high (b := -b) hK hbt hη h1 ht hx hy hd (by rw [hb]; push_cast; rfl) (by linarith) (by linarith) ?_
      unfold pyFar at hm ⊢
      rwa [abs_neg]
  have zero {x : K} {x0 : ℚ} (hx : Rep val x x0 r s) (hm : pyClose lo x0 0 = true) : allclose τ x (ofInt 0) = true :=
    allclose_low (d := x0) (b := 0) hK hbt hη h1 ht hx hz' (by simp) (by simp) (by linarith) (by linarith) hm
  have tw {x : K} {x0 : ℚ} (hx : Rep val x x0 r s) := hx.twice hK h2 (by linarith)
  unfold mustPy at hm
  simp only [Bool.and_eq_true, Bool.or_eq_true (pyFar _ _ _), Bool.or_eq_true (decide _), decide_eq_true_eq] at hm
  obtain ⟨⟨⟨⟨⟨⟨⟨⟨⟨⟨⟨⟨⟨⟨⟨cA, cAB⟩, cBC⟩, c2⟩, c3⟩, c4⟩, c5⟩, c6, c6'⟩, c7⟩, c8⟩, c9⟩, c10⟩, c11⟩, c12⟩, c13⟩, c14⟩ := hm
  unfold niggliCheck
  dsimp only
  refine (if_neg (not_flip ?_)).trans ?_
  · rw [Bool.and_eq_true, Bool.and_eq_true]
    exact ⟨⟨pos hp.a cA, ge hp.a hp.b cAB rfl rfl (by linarith) (by linarith)⟩,
      ge hp.b hp.c cBC rfl rfl (by linarith) (by linarith)⟩
  refine (if_neg (not_guard ?_)).trans ?_
  · refine c2.imp (fun c => far hp.a hp.b c ?_ rfl) (fun c => ge (hp.d.abs hK) (hp.e.abs hK) c ?_ ?_ ?_ ?_) <;>
    first | linarith | (push_cast; ring)
  refine (if_neg (not_guard ?_)).trans ?_
  · refine c3.imp (fun c => far hp.b hp.c c ?_ rfl) (fun c => ge (hp.e.abs hK) (hp.f.abs hK) c ?_ ?_ ?_ ?_) <;>
    first | linarith | (push_cast; ring)
  refine (if_neg (not_flip ?_)).trans ?_
  · rw [Bool.or_eq_true] at c4 ⊢
    simp only [Bool.and_eq_true, decide_eq_true_eq] at c4
    refine c4.imp (fun c => ?_) (fun c => ?_)
    · rw [pos hp.d c.1.1, pos hp.e c.1.2, pos hp.f c.2]; rfl
    · rw [ge hp.d hz' c.1.1 rfl (by simp) (by linarith) (by linarith), ge hp.e hz' c.1.2 rfl (by simp) (by linarith) (by linarith),
        ge hp.f hz' c.2 rfl (by simp) (by linarith) (by linarith)]
      rfl
  refine (if_neg (not_flip ?_)).trans ?_
  · refine ge (hp.d.abs hK) hp.b c5 ?_ ?_ ?_ ?_ <;> first | linarith | (push_cast; ring)
  refine (if_neg (not_flip ?_)).trans ?_
  · rw [Bool.and_eq_true]
    refine ⟨ge (hp.e.abs hK) hp.a c6 ?_ ?_ ?_ ?_, ge (hp.f.abs hK) hp.a c6' ?_ ?_ ?_ ?_⟩ <;>
    first | linarith | (push_cast; ring)
  refine (if_neg (not_flip ?_)).trans ?_
  · refine ge hp.c hsum c7 ?_ ?_ ?_ ?_ <;> first | linarith | (push_cast; ring)
  refine (if_neg (not_guard ?_)).trans ?_
  · refine c8.imp (fun c => far hp.d hp.b c ?_ rfl) (fun c => ge hp.f (tw hp.e) c ?_ ?_ ?_ ?_) <;>
    first | linarith | (push_cast; ring)
  refine (if_neg (not_guard ?_)).trans ?_
  · refine c9.imp (fun c => far hp.e hp.a c ?_ rfl) (fun c => ge hp.f (tw hp.d) c ?_ ?_ ?_ ?_) <;>
    first | linarith | (push_cast; ring)
  refine (if_neg (not_guard ?_)).trans ?_
  · refine c10.imp (fun c => far hp.f hp.a c ?_ rfl) (fun c => ge hp.e (tw hp.d) c ?_ ?_ ?_ ?_) <;>
    first | linarith | (push_cast; ring)
  refine (if_neg (not_guard ?_)).trans ?_
  · exact c11.imp (fun c => far hp.d (hp.b.neg hK) c (by push_cast; ring) (abs_neg _)) (fun c => zero hp.f c)
  refine (if_neg (not_guard ?_)).trans ?_
  · exact c12.imp (fun c => far hp.e (hp.a.neg hK) c (by push_cast; ring) (abs_neg _)) (fun c => zero hp.f c)
  refine (if_neg (not_guard ?_)).trans ?_
  · exact c13.imp (fun c => far hp.f (hp.a.neg hK) c (by push_cast; ring) (abs_neg _)) (fun c => zero hp.e c)
  refine if_neg (not_guard ?_)
  refine c14.imp (fun c => ?_) (fun c => ?_)
  · have c' := (Rat.cast_le (K := ℝ)).2 c
    push_cast at c'
    have l := ((hp.c.sub hK hsum (by linarith)).abs hK)
    have l' := abs_le.1 l.err
    have hb := hsum.bound
    have m1 := hK.mul (ofInt 0) (abs (add (add (add (add (add p.A p.B) p.C) p.xi) p.eta) p.zeta)) (by
      rw [hz]; simp; linarith)
    rw [hz, zero_mul, sub_zero] at m1
    have m1' := abs_le.1 m1
    have q1 := hK.ofRat (1 / 100000000) (by
      rw [abs_of_nonneg (by norm_num)]
      push_cast
      linarith)
    push_cast at q1
    have q1' := abs_le.1 q1
    have a1 := hK.add (ofRat (1 / 100000000)) (mul (ofInt 0) (abs (add (add (add (add (add p.A p.B) p.C) p.xi) p.eta) p.zeta))) (by
      rw [abs_le]
      constructor <;> linarith)
    have a1' := abs_le.1 a1
    unfold allcloseR
    rw [← Bool.not_eq_true, hK.le]
    have e1 : (p0.C : ℝ) - (p0.A + p0.B + p0.C + p0.xi + p0.eta + p0.zeta) = -(p0.A + p0.B + p0.xi + p0.eta + p0.zeta) := by
      ring
    rw [e1, abs_neg] at l'
    linarith
  · refine ge hlast hz' c ?_ ?_ ?_ ?_ <;> first | linarith | (push_cast; ring)

/-! ## The loop -/

/-- All ways the loop can go from `T` end within `n` passes, with the matrix `G`, which passes `_niggli_check`. -/
def runsPy (O : RMat ℚ) (lo hi m : ℚ) (G : IMat) : ℕ → IMat → Bool
  | 0, _ => false
  | n + 1, T =>
    mayPass O lo hi m (fun T' b => if b then fits O T' && mustPy lo hi m (atQ O T') && decide (T' = G)
      else runsPy O lo hi m G n T') T

variable {O : RMat ℚ} {U : RMat K} {G : IMat}

theorem loop_py (hs : ∀ x : K, sign x = fSign x) (h : FinePy K val M η τ lo hi m r s) (hf : Follows val O U τ r s) (n : ℕ) :
    ∀ (fuel count : ℕ) (T : IMat), n ≤ fuel → IsUnit T.toMat.det → runsPy O lo hi m G n T = true →
      (niggliLoop U τ fuel count T).1 = G ∧ (niggliLoop U τ fuel count T).2 ≤ count + n ∧
        niggliCheck (getParams U τ G) τ = true := by
  induction n with
  | zero => intro _ _ _ _ _ hn; exact absurd hn (by simp [runsPy])
  | succ n ih =>
    intro fuel count T hle hu hn
    obtain ⟨fuel, rfl⟩ : ∃ f, fuel = f + 1 := ⟨fuel - 1, by omega⟩
    have hr : Reach U τ ⟨T, getParams U τ T⟩ := ⟨hu, .inl rfl⟩
    rw [runsPy] at hn
    have hp := pass_may h.toFine hf hr hn
    have hr' := hr.pass
    rw [niggliLoop, niggliPass_eq hs]
    revert hp hr'
    generalize fPass U τ ⟨T, getParams U τ T⟩ = q
    rcases q with ⟨st', b⟩
    intro hp hr'
    cases b
    · have := ih fuel (count + 1) st'.trans (by omega) hr'.unit (by simpa using hp)
      exact ⟨this.1, this.2.1.trans (by omega), this.2.2⟩
    · simp only [if_true, Bool.and_eq_true, decide_eq_true_eq] at hp
      obtain ⟨⟨p1, p2⟩, p3⟩ := hp
      refine ⟨p3, by simp, ?_⟩
      rw [← p3]
      exact niggliCheck_must h (hf ⟨st'.trans, getParams U τ st'.trans⟩ ⟨hr'.unit, .inl rfl⟩ p1) p2

theorem niggliReduction_py {n : ℕ} (hs : ∀ x : K, sign x = fSign x) (h : FinePy K val M η τ lo hi m r s)
    (hf : Follows val O U τ r s) (hn : n < 1000) (hS : runsPy O lo hi m G n IMat.one = true) :
    niggliReduction U τ = .ok G := by
  have hl := loop_py hs h hf n 1001 0 IMat.one (by omega) (by decide) hS
  unfold niggliReduction
  revert hl
  generalize niggliLoop U τ 1001 0 IMat.one = q
  rcases q with ⟨C, count⟩
  rintro ⟨h1, h2, h3⟩
  dsimp only at h1 h2 ⊢
  rw [if_neg (by omega), h1, h3, if_pos rfl]

end

/-! ## The stored bases -/

/-- For all tolerances from `a` to `b` (times the cube root of the volume) the reduction of the basis of class `k` ends
within 30 passes with the matrix `canonC k`. -/
def canonRuns (k : ℕ) (a b : ℚ) : Bool :=
  match (canonBasis k : Option (RMat ℚ)) with
  | none => false
  | some O =>
    let s := Arith.cbrt |rdet O|
    decide (1 / 2 ≤ s) && decide (s ≤ 4) && decide ((s - 1 / 10 ^ 8) ^ 3 + 1 / 10 ^ 10 ≤ |rdet O|) &&
      decide (|rdet O| + 1 / 10 ^ 10 ≤ (s + 1 / 10 ^ 8) ^ 3) &&
      ([O.m00, O.m01, O.m02, O.m10, O.m11, O.m12, O.m20, O.m21, O.m22].all fun x => decide (|x| ≤ 4)) &&
      runsPy O (a * s - 3 / 10 ^ 8) (b * s + 3 / 10 ^ 8) (1 / 10 ^ 8) (canonC k) 30 IMat.one

theorem canonRuns_all : ∀ k ∈ [1, 2, 3, 4, 5, 6, 7, 8, 9, 10, 11, 12, 13, 14, 15, 16, 17, 18, 19, 20, 21, 22, 23, 24, 25, 26,
    27, 28, 29, 30, 32, 33, 34, 35, 36, 37, 38, 39, 40, 41, 42, 43], canonRuns k (99 / 10 ^ 7) (101 / 10 ^ 7) = true := by
  decide +kernel

section
variable {K : Type} [Arith K] {val : K → ℝ} {η : ℝ} {k : ℕ} {O : RMat ℚ} {O' : RMat K} {eps : K} {a b : ℚ}

theorem canonBasis_literals (h : canonBasis k = some O) (h' : canonBasis k = some O') :
    O' = ⟨ofRat O.m00, ofRat O.m01, ofRat O.m02, ofRat O.m10, ofRat O.m11, ofRat O.m12, ofRat O.m20, ofRat O.m21,
      ofRat O.m22⟩ := by
  unfold canonBasis at h h'
  split at h <;> first | (cases h; cases h'; rfl) | cases h

theorem canonBasis_close (hK : Accurate K val 1000 η) (hO : canonBasis k = some O) (hO' : canonBasis k = some O')
    (hs : ∀ i j, |O.toMatrix i j| ≤ 4) : CloseTo val O'.toMatrix (realMat O.toMatrix) η 4 := by
  have hs' (i j : Fin 3) : |(realMat O.toMatrix) i j| ≤ 4 := by
    have := (Rat.cast_le (K := ℝ)).2 (hs i j)
    push_cast at this
    exact this
  refine ⟨fun i j => ?_, hs'⟩
  have e : O'.toMatrix i j = ofRat (O.toMatrix i j) := by
    rw [canonBasis_literals hO hO']
    fin_cases i <;> fin_cases j <;> rfl
  rw [e]
  exact hK.ofRat _ ((hs' i j).trans (by norm_num))

theorem canonical_py (hs : ∀ x : K, sign x = fSign x) (hK : Accurate K val 1000 η) (hη : η ≤ 2 / 10 ^ 13)
    (h : canonRuns k a b = true) (hO' : canonBasis k = some O') (ha : 1 / 10 ^ 6 ≤ a) (hb : b ≤ 1)
    (h1 : (a : ℝ) ≤ val eps) (h2 : val eps ≤ b) :
    niggliReduction O' (cellTol O' eps) = .ok (canonC k) ∧ 1 / 10 ≤ |val (rdet O')| := by
  unfold canonRuns at h
  cases hO : (canonBasis k : Option (RMat ℚ)) with
  | none => rw [hO] at h; cases h
  | some O =>
    rw [hO] at h
    simp only [Bool.and_eq_true, decide_eq_true_eq, List.all_eq_true] at h
    obtain ⟨⟨⟨⟨⟨s1, s2⟩, d1⟩, d2⟩, hsz⟩, hc⟩ := h
    have hcl := canonBasis_close hK hO hO' (fun i j => by
      apply hsz
      fin_cases i <;> fin_cases j <;> simp [RMat.toMatrix])
    generalize Arith.cbrt |rdet O| = s at s1 s2 d1 d2 hc
    have hf := stored_fine hK hη hcl s1 s2 d1 d2 ha hb h1 h2
    refine ⟨niggliReduction_py hs ⟨hf, ?_, ?_⟩ (stored_follows hK hη hcl) (by norm_num) hc, stored_volume hK hη hcl s1 d1⟩
    · push_cast; linarith
    · linarith

end

end AutoGR
