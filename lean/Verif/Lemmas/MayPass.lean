import Verif.Lemmas.RoundedId

/-! # `reduce_cell` with unknown tolerance and rounding

All tests of a pass compare the tolerance with a quantity of the cell.  If the quantity is above `hi`, the test succeeds
for every tolerance and every rounding in question; if it is below `lo`, it fails; between them it may go either way.
`mayPass` runs over all ways a pass can go; a set of matrices that no way leaves contains the result of `reduce_cell`. -/

namespace AutoGR

open Spec Arith Matrix

/-! ## All ways a pass can go -/

/-- The possible outcomes of the test `tolerance < q`. -/
def may (lo hi q : ℚ) : List Bool := if hi ≤ q then [true] else if q ≤ lo then [false] else [true, false]

/-- The possible flags of `get_params`. -/
def mayFlag (lo hi x : ℚ) : List ℤ :=
  (may lo hi (-x)).flatMap fun a => (may lo hi x).map fun b => if a then -1 else if b then 1 else 0

/-- The possible signs. -/
def maySign (m x : ℚ) : List ℤ := if m ≤ x then [1] else if x ≤ -m then [-1] else [1, -1, 0]

/-- `f a b c` for all possible `a`, `b`, `c`. -/
def may3 (f : Bool → Bool → Bool → Bool) (x y z : List Bool) : List Bool :=
  (x.flatMap fun a => y.flatMap fun b => z.map fun c => f a b c).dedup

/-- `f a b c d e` for all possible `a`, …, `e`. -/
def may5 (f : Bool → Bool → Bool → Bool → Bool → Bool) (x y z v w : List Bool) : List Bool :=
  (x.flatMap fun a => y.flatMap fun b => z.flatMap fun c => v.flatMap fun d => w.map fun e => f a b c d e).dedup

section
variable (lo hi : ℚ) (p : Params ℚ)

def mayStep1 : List Bool :=
  may3 (fun a b c => a || (!b && c)) (may lo hi (p.A - p.B)) (may lo hi |p.A - p.B|) (may lo hi (|p.xi| - |p.eta|))

def mayStep2 : List Bool :=
  may3 (fun a b c => a || (!b && c)) (may lo hi (p.B - p.C)) (may lo hi |p.C - p.B|) (may lo hi (|p.eta| - |p.zeta|))

def mayStep5 : List Bool :=
  may5 (fun a b c d e => a || (!b && c) || (!d && e)) (may lo hi (|p.xi| - p.B)) (may lo hi |p.B - p.xi|)
    (may lo hi (p.zeta - 2 * p.eta)) (may lo hi |p.B + p.xi|) (may lo hi (-p.zeta))

def mayStep6 : List Bool :=
  may5 (fun a b c d e => a || (!b && c) || (!d && e)) (may lo hi (|p.eta| - p.A)) (may lo hi |p.A - p.eta|)
    (may lo hi (p.zeta - 2 * p.xi)) (may lo hi |p.A + p.eta|) (may lo hi (-p.zeta))

def mayStep7 : List Bool :=
  may5 (fun a b c d e => a || (!b && c) || (!d && e)) (may lo hi (|p.zeta| - p.A)) (may lo hi |p.A - p.zeta|)
    (may lo hi (p.eta - 2 * p.xi)) (may lo hi |p.A + p.zeta|) (may lo hi (-p.eta))

def mayStep8 : List Bool :=
  may3 (fun a b c => a || (!b && c)) (may lo hi (-(p.xi + p.eta + p.zeta + p.A + p.B)))
    (may lo hi |p.xi + p.eta + p.zeta + p.A + p.B|) (may lo hi (2 * (p.A + p.eta) + p.zeta))

end

/-- The exact parameters of the cell `O T`. -/
def atQ (O : RMat ℚ) (T : IMat) : Params ℚ := fGetParams (matmulI O T) 0

/-- The numbers are small enough for the error bounds. -/
def fits (O : RMat ℚ) (T : IMat) : Bool :=
  [T.m00, T.m01, T.m02, T.m10, T.m11, T.m12, T.m20, T.m21, T.m22].all (fun z => decide (|z| ≤ 4)) &&
    decide ((atQ O T).A ≤ 64) && decide ((atQ O T).B ≤ 64) && decide ((atQ O T).C ≤ 64)

section
variable (O : RMat ℚ) (lo hi m : ℚ) (Q : IMat → Bool → Bool)

/-- Steps 5 to 8. -/
def mayEnd (T : IMat) (red : Bool) : Bool :=
  fits O T &&
  (mayStep5 lo hi (atQ O T)).all fun b5 =>
    if b5 then (maySign m (atQ O T).xi).all fun s => Q (mulC T ⟨1, 0, 0, 0, 1, -s, 0, 0, 1⟩) false else
  (mayStep6 lo hi (atQ O T)).all fun b6 =>
    if b6 then (maySign m (atQ O T).eta).all fun s => Q (mulC T ⟨1, 0, -s, 0, 1, 0, 0, 0, 1⟩) false else
  (mayStep7 lo hi (atQ O T)).all fun b7 =>
    if b7 then (maySign m (atQ O T).zeta).all fun s => Q (mulC T ⟨1, -s, 0, 0, 1, 0, 0, 0, 1⟩) false else
  (mayStep8 lo hi (atQ O T)).all fun b8 =>
    if b8 then Q (mulC T ⟨1, 0, 1, 0, 1, 1, 0, 0, 1⟩) false else Q T red

/-- Step 4 and what follows. -/
def mayFour (T : IMat) (red : Bool) : Bool :=
  fits O T &&
  (mayFlag lo hi (atQ O T).xi).all fun a => (mayFlag lo hi (atQ O T).eta).all fun b =>
  (mayFlag lo hi (atQ O T).zeta).all fun c =>
    mayEnd O lo hi m Q (if a * b * c = 0 ∨ a * b * c = -1 then mulC T (fFindC4 a b c) else T)
      (red && !(decide (a * b * c = 0 ∨ a * b * c = -1) && decide (fFindC4 a b c ≠ ⟨1, 0, 0, 0, 1, 0, 0, 0, 1⟩)))

/-- Step 2 and what follows. -/
def mayTwo (T : IMat) (red : Bool) : Bool :=
  fits O T &&
  (mayStep2 lo hi (atQ O T)).all fun b2 =>
    if b2 then Q (mulC T ⟨-1, 0, 0, 0, 0, -1, 0, -1, 0⟩) false else
  (mayFlag lo hi (atQ O T).xi).all fun a => (mayFlag lo hi (atQ O T).eta).all fun b =>
  (mayFlag lo hi (atQ O T).zeta).all fun c =>
    mayFour O lo hi m Q (if a * b * c = 1 then mulC T (fFindC3 a b c) else T)
      (red && !(decide (a * b * c = 1) && decide (fFindC3 a b c ≠ ⟨1, 0, 0, 0, 1, 0, 0, 0, 1⟩)))

/-- All ways in which a pass that starts with the matrix `T` can go end with a matrix and a flag `reduced` for which
`Q` holds. -/
def mayPass (T : IMat) : Bool :=
  fits O T &&
  (mayStep1 lo hi (atQ O T)).all fun b1 =>
    mayTwo O lo hi m Q (if b1 then mulC T ⟨0, -1, 0, -1, 0, 0, 0, 0, -1⟩ else T) (!b1)

end

/-! ## The computed tests are among them -/

section
variable {K : Type} [Arith K] {val : K → ℝ} {M η : ℝ} {τ x y : K} {x0 y0 e e' s s' : ℝ} {lo hi m q : ℚ}

/-- `q` is compared with a tolerance in `[lo + m, hi - m]`, with an error below `m`. -/
structure Between (val : K → ℝ) (τ : K) (lo hi m : ℚ) : Prop where
  low : (lo : ℝ) + m ≤ val τ
  high : val τ + m ≤ hi

theorem lt_may (hK : Accurate K val M η) (h : Between val τ lo hi m) (hx : Rep val x x0 e s) (hy : Rep val y y0 e' s')
    (heq : y0 - x0 = q - val τ) (he : e + e' < m) : lt x y ∈ may lo hi q := by
  have h1 := abs_le.1 hx.err
  have h2 := abs_le.1 hy.err
  have a := h.low
  have b := h.high
  unfold may
  split_ifs with c1 c2
  · have : ((hi : ℚ) : ℝ) ≤ q := by exact_mod_cast c1
    have hl : lt x y = true := (hK.lt x y).2 (by linarith)
    rw [hl]
    exact List.mem_singleton.2 rfl
  · have : ((q : ℚ) : ℝ) ≤ lo := by exact_mod_cast c2
    have hl : ¬ lt x y = true := fun hl => by
      have := (hK.lt x y).1 hl
      linarith
    rw [Bool.not_eq_true] at hl
    rw [hl]
    exact List.mem_singleton.2 rfl
  · cases lt x y <;> simp

omit [Arith K] in
theorem mem_may3 {f : Bool → Bool → Bool → Bool} {x y z : List Bool} {a b c : Bool} (ha : a ∈ x) (hb : b ∈ y) (hc : c ∈ z) :
    f a b c ∈ may3 f x y z := by
  unfold may3
  rw [List.mem_dedup]
  exact List.mem_flatMap.2 ⟨a, ha, List.mem_flatMap.2 ⟨b, hb, List.mem_map.2 ⟨c, hc, rfl⟩⟩⟩

omit [Arith K] in
theorem mem_may5 {f : Bool → Bool → Bool → Bool → Bool → Bool} {x y z v w : List Bool} {a b c d e : Bool} (ha : a ∈ x)
    (hb : b ∈ y) (hc : c ∈ z) (hd : d ∈ v) (he : e ∈ w) : f a b c d e ∈ may5 f x y z v w := by
  unfold may5
  rw [List.mem_dedup]
  exact List.mem_flatMap.2 ⟨a, ha, List.mem_flatMap.2 ⟨b, hb, List.mem_flatMap.2 ⟨c, hc, List.mem_flatMap.2
    ⟨d, hd, List.mem_map.2 ⟨e, he, rfl⟩⟩⟩⟩⟩

/-- The parameters are those of an exact cell, up to `r`. -/
structure RepPar (val : K → ℝ) (τ : K) (r s : ℝ) (p : Params K) (p0 : Params ℚ) : Prop where
  a : Rep val p.A p0.A r s
  b : Rep val p.B p0.B r s
  c : Rep val p.C p0.C r s
  d : Rep val p.xi p0.xi r s
  e : Rep val p.eta p0.eta r s
  f : Rep val p.zeta p0.zeta r s
  l : p.l = fFlag τ p.xi
  m : p.m = fFlag τ p.eta
  n : p.n = fFlag τ p.zeta

/-- The error bounds fit together. -/
structure Fine (K : Type) [Arith K] (val : K → ℝ) (M η : ℝ) (τ : K) (lo hi m : ℚ) (r s : ℝ) : Prop where
  acc : Accurate K val M η
  btw : Between val τ lo hi m
  nonneg : 0 ≤ r
  err : 6 * r + 6 * η < m
  two : 2 ≤ M
  size : 6 * (s + r) + val τ + 6 * η ≤ M
  tol : 0 ≤ val τ

variable {r : ℝ} {p : Params K} {p0 : Params ℚ}

theorem flag_may (h : Fine K val M η τ lo hi m r s) {x0 : ℚ} (hx : Rep val x x0 r s) : fFlag τ x ∈ mayFlag lo hi x0 := by
  have hK := h.acc
  have hη := hK.nonneg
  have h1 := h.err
  have h0 := h.nonneg
  have hτ : Rep val τ (val τ) 0 (val τ) := ⟨by simp, by rw [abs_of_nonneg h.tol]⟩
  have t1 : lt x (neg τ) ∈ may lo hi (-x0) :=
    lt_may hK h.btw hx (hτ.neg hK) (by push_cast; ring) (by linarith)
  have t2 : lt τ x ∈ may lo hi x0 := lt_may hK h.btw hτ hx rfl (by linarith)
  unfold mayFlag fFlag
  exact List.mem_flatMap.2 ⟨_, t1, List.mem_map.2 ⟨_, t2, rfl⟩⟩

theorem sign_may (h : Fine K val M η τ lo hi m r s) {x0 : ℚ} (hx : Rep val x x0 r s) : fSign x ∈ maySign m x0 := by
  have hK := h.acc
  have hη := hK.nonneg
  have h1 := h.err
  have h0 := h.nonneg
  have hz : val (ofInt 0 : K) = 0 := by
    have := hK.ofInt 0 (by simpa using (show (0 : ℝ) ≤ M by linarith [h.two]))
    simpa using this
  have h2 := abs_le.1 hx.err
  have hl (a b : K) : lt a b = true ↔ val a < val b := hK.lt a b
  unfold fSign maySign
  simp only [hl, hz]
  by_cases c1 : m ≤ x0
  · have : ((m : ℚ) : ℝ) ≤ x0 := by exact_mod_cast c1
    rw [if_pos c1, if_pos (by linarith)]
    simp
  rw [if_neg c1]
  by_cases c2 : x0 ≤ -m
  · have : ((x0 : ℚ) : ℝ) ≤ -m := by exact_mod_cast c2
    rw [if_pos c2, if_neg (by linarith), if_pos (by linarith)]
    simp
  rw [if_neg c2]
  by_cases a : 0 < val x
  · rw [if_pos a]; simp
  rw [if_neg a]
  by_cases b : val x < 0
  · rw [if_pos b]; simp
  · rw [if_neg b]; simp

section
variable (h : Fine K val M η τ lo hi m r s) (hp : RepPar val τ r s p p0)
include h hp

theorem step1_may : fCond1 τ p ∈ mayStep1 lo hi p0 := by
  have hK := h.acc
  have hη := hK.nonneg
  have h1 := h.err
  have h0 := h.nonneg
  have hs : 0 ≤ s := (abs_nonneg _).trans hp.a.size
  have hM := h.size
  have ht := h.tol
  have hτ : Rep val τ (val τ) 0 (val τ) := ⟨by simp, by rw [abs_of_nonneg h.tol]⟩
  unfold fCond1 mayStep1
  refine mem_may3 (f := fun a b c => a || (!b && c)) (lt_may hK h.btw (hp.b.add hK hτ ?_) hp.a ?_ ?_)
    (lt_may hK h.btw hτ ((hp.a.sub hK hp.b ?_).abs hK) ?_ ?_)
    (lt_may hK h.btw ((hp.e.abs hK).add hK hτ ?_) (hp.d.abs hK) ?_ ?_) <;>
  first | linarith | (push_cast; ring)

theorem step2_may : fCond2 τ p ∈ mayStep2 lo hi p0 := by
  have hK := h.acc
  have hη := hK.nonneg
  have h1 := h.err
  have h0 := h.nonneg
  have hs : 0 ≤ s := (abs_nonneg _).trans hp.a.size
  have hM := h.size
  have ht := h.tol
  have hτ : Rep val τ (val τ) 0 (val τ) := ⟨by simp, by rw [abs_of_nonneg h.tol]⟩
  unfold fCond2 mayStep2
  refine mem_may3 (f := fun a b c => a || (!b && c)) (lt_may hK h.btw (hp.c.add hK hτ ?_) hp.b ?_ ?_)
    (lt_may hK h.btw hτ ((hp.c.sub hK hp.b ?_).abs hK) ?_ ?_)
    (lt_may hK h.btw ((hp.f.abs hK).add hK hτ ?_) (hp.e.abs hK) ?_ ?_) <;>
  first | linarith | (push_cast; ring)

theorem step5_may : fCond5 τ p ∈ mayStep5 lo hi p0 := by
  have hK := h.acc
  have hη := hK.nonneg
  have h1 := h.err
  have h0 := h.nonneg
  have hs : 0 ≤ s := (abs_nonneg _).trans hp.a.size
  have hM := h.size
  have ht := h.tol
  have h2 := h.two
  have hτ : Rep val τ (val τ) 0 (val τ) := ⟨by simp, by rw [abs_of_nonneg h.tol]⟩
  unfold fCond5 mayStep5
  refine mem_may5 (f := fun a b c d e => a || (!b && c) || (!d && e))
    (lt_may hK h.btw (hp.b.add hK hτ ?_) (hp.d.abs hK) ?_ ?_)
    (lt_may hK h.btw hτ ((hp.b.sub hK hp.d ?_).abs hK) ?_ ?_)
    (lt_may hK h.btw (hp.e.twice hK h2 ?_) (hp.f.sub hK hτ ?_) ?_ ?_)
    (lt_may hK h.btw hτ ((hp.b.add hK hp.d ?_).abs hK) ?_ ?_)
    (lt_may hK h.btw hp.f (hτ.neg hK) ?_ ?_) <;>
  first | linarith | (push_cast; ring)

theorem step6_may : fCond6 τ p ∈ mayStep6 lo hi p0 := by
  have hK := h.acc
  have hη := hK.nonneg
  have h1 := h.err
  have h0 := h.nonneg
  have hs : 0 ≤ s := (abs_nonneg _).trans hp.a.size
  have hM := h.size
  have ht := h.tol
  have h2 := h.two
  have hτ : Rep val τ (val τ) 0 (val τ) := ⟨by simp, by rw [abs_of_nonneg h.tol]⟩
  unfold fCond6 mayStep6
  refine mem_may5 (f := fun a b c d e => a || (!b && c) || (!d && e))
    (lt_may hK h.btw (hp.a.add hK hτ ?_) (hp.e.abs hK) ?_ ?_)
    (lt_may hK h.btw hτ ((hp.a.sub hK hp.e ?_).abs hK) ?_ ?_)
    (lt_may hK h.btw (hp.d.twice hK h2 ?_) (hp.f.sub hK hτ ?_) ?_ ?_)
    (lt_may hK h.btw hτ ((hp.a.add hK hp.e ?_).abs hK) ?_ ?_)
    (lt_may hK h.btw hp.f (hτ.neg hK) ?_ ?_) <;>
  first | linarith | (push_cast; ring)

theorem step7_may : fCond7 τ p ∈ mayStep7 lo hi p0 := by
  have hK := h.acc
  have hη := hK.nonneg
  have h1 := h.err
  have h0 := h.nonneg
  have hs : 0 ≤ s := (abs_nonneg _).trans hp.a.size
  have hM := h.size
  have ht := h.tol
  have h2 := h.two
  have hτ : Rep val τ (val τ) 0 (val τ) := ⟨by simp, by rw [abs_of_nonneg h.tol]⟩
  unfold fCond7 mayStep7
  refine mem_may5 (f := fun a b c d e => a || (!b && c) || (!d && e))
    (lt_may hK h.btw (hp.a.add hK hτ ?_) (hp.f.abs hK) ?_ ?_)
    (lt_may hK h.btw hτ ((hp.a.sub hK hp.f ?_).abs hK) ?_ ?_)
    (lt_may hK h.btw (hp.d.twice hK h2 ?_) (hp.e.sub hK hτ ?_) ?_ ?_)
    (lt_may hK h.btw hτ ((hp.a.add hK hp.f ?_).abs hK) ?_ ?_)
    (lt_may hK h.btw hp.e (hτ.neg hK) ?_ ?_) <;>
  first | linarith | (push_cast; ring)

theorem step8_may : fCond8 τ p ∈ mayStep8 lo hi p0 := by
  have hK := h.acc
  have hη := hK.nonneg
  have h1 := h.err
  have h0 := h.nonneg
  have hs : 0 ≤ s := (abs_nonneg _).trans hp.a.size
  have hM := h.size
  have ht := h.tol
  have h2 := h.two
  have hτ : Rep val τ (val τ) 0 (val τ) := ⟨by simp, by rw [abs_of_nonneg h.tol]⟩
  have hsum : Rep val (fSum p) (p0.xi + p0.eta + p0.zeta + p0.A + p0.B) (5 * r + 4 * η) (5 * s) :=
    ((((hp.d.add hK hp.e (by linarith)).add hK hp.f (by linarith)).add hK hp.a (by linarith)).add hK hp.b
      (by linarith)).mono (by linarith) (by linarith)
  unfold fCond8 mayStep8
  refine mem_may3 (f := fun a b c => a || (!b && c)) (lt_may hK h.btw hsum (hτ.neg hK) ?_ ?_)
    (lt_may hK h.btw hτ (hsum.abs hK) ?_ ?_)
    (lt_may hK h.btw hτ (((hp.a.add hK hp.e ?_).twice hK h2 ?_).add hK hp.f ?_) ?_ ?_) <;>
  first | linarith | (push_cast; ring)

end

/-! ## A pass -/

/-- The variables of the loop are close to the exact ones. -/
def Follows (val : K → ℝ) (O : RMat ℚ) (IN : RMat K) (τ : K) (r s : ℝ) : Prop :=
  ∀ st : FState K, Reach IN τ st → fits O st.trans = true → RepPar val τ r s st.p (atQ O st.trans)

variable {O : RMat ℚ} {IN : RMat K} {Q : IMat → Bool → Bool} {st : FState K}

theorem end_may (h : Fine K val M η τ lo hi m r s) (hf : Follows val O IN τ r s) (hr : Reach IN τ st) {red : Bool}
    (hm : mayEnd O lo hi m Q st.trans red = true) :
    let out := if fCond5 τ st.p then (fApply IN τ st ⟨1, 0, 0, 0, 1, -fSign st.p.xi, 0, 0, 1⟩, false)
      else if fCond6 τ st.p then (fApply IN τ st ⟨1, 0, -fSign st.p.eta, 0, 1, 0, 0, 0, 1⟩, false)
      else if fCond7 τ st.p then (fApply IN τ st ⟨1, -fSign st.p.zeta, 0, 0, 1, 0, 0, 0, 1⟩, false)
      else if fCond8 τ st.p then (fApply IN τ st ⟨1, 0, 1, 0, 1, 1, 0, 0, 1⟩, false)
      else (st, red)
    Q out.1.trans out.2 = true := by
  dsimp only
  unfold mayEnd at hm
  rw [Bool.and_eq_true] at hm
  obtain ⟨h0, hm⟩ := hm
  have hp := hf st hr h0
  replace hm := List.all_eq_true.1 hm _ (step5_may h hp)
  by_cases c5 : fCond5 τ st.p = true
  · rw [if_pos c5] at hm ⊢
    exact List.all_eq_true.1 hm _ (sign_may h hp.d)
  rw [if_neg c5] at hm ⊢
  replace hm := List.all_eq_true.1 hm _ (step6_may h hp)
  by_cases c6 : fCond6 τ st.p = true
  · rw [if_pos c6] at hm ⊢
    exact List.all_eq_true.1 hm _ (sign_may h hp.e)
  rw [if_neg c6] at hm ⊢
  replace hm := List.all_eq_true.1 hm _ (step7_may h hp)
  by_cases c7 : fCond7 τ st.p = true
  · rw [if_pos c7] at hm ⊢
    exact List.all_eq_true.1 hm _ (sign_may h hp.f)
  rw [if_neg c7] at hm ⊢
  replace hm := List.all_eq_true.1 hm _ (step8_may h hp)
  by_cases c8 : fCond8 τ st.p = true
  · rw [if_pos c8] at hm ⊢
    exact hm
  · rw [if_neg c8] at hm ⊢
    exact hm

theorem trans_ite {b : Prop} [Decidable b] (st : FState K) (N : IMat) :
    (if b then fApply IN τ st N else st).trans = if b then mulC st.trans N else st.trans := by
  split_ifs <;> rfl

theorem Reach.ite {b : Prop} [Decidable b] {N : IMat} (h : Reach IN τ st) (hN : IsUnit N.toMat.det) :
    Reach IN τ (if b then fApply IN τ st N else st) := by
  by_cases hb : b
  · rw [if_pos hb]; exact h.apply hN
  · rw [if_neg hb]; exact h

/-- The pass goes one of the ways. -/
theorem pass_may (h : Fine K val M η τ lo hi m r s) (hf : Follows val O IN τ r s) (hr : Reach IN τ st)
    (hm : mayPass O lo hi m Q st.trans = true) :
    Q (fPass IN τ st).1.trans (fPass IN τ st).2 = true := by
  have u1 : IsUnit (IMat.toMat ⟨0, -1, 0, -1, 0, 0, 0, 0, -1⟩).det := by rw [Int.isUnit_iff]; decide
  unfold mayPass at hm
  rw [Bool.and_eq_true] at hm
  obtain ⟨h0, hm⟩ := hm
  replace hm := List.all_eq_true.1 hm _ (step1_may h (hf st hr h0))
  unfold fPass
  dsimp only
  generalize fCond1 τ st.p = b1 at hm ⊢
  have hr1 := Reach.ite (b := b1 = true) hr u1
  rw [← trans_ite (IN := IN) (τ := τ) (b := b1 = true)] at hm
  revert hm hr1
  generalize (if b1 = true then fApply IN τ st ⟨0, -1, 0, -1, 0, 0, 0, 0, -1⟩ else st) = s1
  intro hm hr1
  unfold mayTwo at hm
  rw [Bool.and_eq_true] at hm
  obtain ⟨h1, hm⟩ := hm
  have hp1 := hf s1 hr1 h1
  replace hm := List.all_eq_true.1 hm _ (step2_may h hp1)
  by_cases c2 : fCond2 τ s1.p = true
  · rw [if_pos c2] at hm ⊢
    exact hm
  rw [if_neg c2] at hm ⊢
  replace hm := List.all_eq_true.1 (List.all_eq_true.1 (List.all_eq_true.1 hm _ (flag_may h hp1.d)) _ (flag_may h hp1.e)) _
    (flag_may h hp1.f)
  rw [← hp1.l, ← hp1.m, ← hp1.n] at hm
  have hr3 := Reach.ite (b := s1.p.l * s1.p.m * s1.p.n = 1) hr1 (unit_fFindC3 s1.p.l s1.p.m s1.p.n)
  rw [← trans_ite (IN := IN) (τ := τ) (b := s1.p.l * s1.p.m * s1.p.n = 1)] at hm
  revert hm hr3
  generalize (if s1.p.l * s1.p.m * s1.p.n = 1 then fApply IN τ s1 (fFindC3 s1.p.l s1.p.m s1.p.n) else s1) = s3
  intro hm hr3
  unfold mayFour at hm
  rw [Bool.and_eq_true] at hm
  obtain ⟨h3, hm⟩ := hm
  have hp3 := hf s3 hr3 h3
  replace hm := List.all_eq_true.1 (List.all_eq_true.1 (List.all_eq_true.1 hm _ (flag_may h hp3.d)) _ (flag_may h hp3.e)) _
    (flag_may h hp3.f)
  rw [← hp3.l, ← hp3.m, ← hp3.n] at hm
  have hr4 := Reach.ite (b := s3.p.l * s3.p.m * s3.p.n = 0 ∨ s3.p.l * s3.p.m * s3.p.n = -1) hr3
    (unit_fFindC4 s3.p.l s3.p.m s3.p.n)
  rw [← trans_ite (IN := IN) (τ := τ) (b := s3.p.l * s3.p.m * s3.p.n = 0 ∨ s3.p.l * s3.p.m * s3.p.n = -1)] at hm
  exact end_may h hf hr4 hm

/-- The set `S` is not left before the loop ends, and the loop ends with a matrix in `good`. -/
def closedSet (O : RMat ℚ) (lo hi m : ℚ) (S good : List IMat) : Bool :=
  S.contains IMat.one && S.all fun T => mayPass O lo hi m (fun T' b => if b then good.contains T' else S.contains T') T

theorem loop_may (h : Fine K val M η τ lo hi m r s) (hf : Follows val O IN τ r s) {S good : List IMat}
    (hS : ∀ T ∈ S, mayPass O lo hi m (fun T' b => if b then good.contains T' else S.contains T') T = true) :
    ∀ (fuel count : ℕ) (st : FState K), Reach IN τ st → st.trans ∈ S →
      (fLoop IN τ fuel count st).1.trans ∈ good ∨ count + fuel ≤ (fLoop IN τ fuel count st).2
  | 0, count, st, _, _ => .inr le_rfl
  | fuel + 1, count, st, hr, hT => by
    have hp := pass_may h hf hr (hS _ hT)
    have hr' := hr.pass
    unfold fLoop
    revert hp hr'
    generalize fPass IN τ st = q
    rcases q with ⟨st', b⟩
    intro hp hr'
    cases b
    · have := loop_may h hf hS fuel (count + 1) st' hr' (by simpa using hp)
      rcases this with this | this
      · exact .inl this
      · refine .inr (le_trans ?_ this)
        omega
    · exact .inl (by simpa using hp)

/-- The result of `reduce_cell`. -/
theorem reduceCell_may {equal : K → K → K → Bool} {eps : K} {T : IMat} (hτ : τ = cellTol IN eps)
    (h : Fine K val M η τ lo hi m r s) (hf : Follows val O IN τ r s) {S good : List IMat}
    (hS : closedSet O lo hi m S good = true) (hr : reduceCell equal IN (some eps) = .ok T) : T ∈ good := by
  unfold closedSet at hS
  rw [Bool.and_eq_true] at hS
  obtain ⟨h1, h2⟩ := hS
  have hl := loop_may h hf (fun T hT => List.all_eq_true.1 h2 T hT) 1001 0 ⟨IMat.one, fGetParams IN τ⟩ reach_start
    (by simpa using h1)
  subst hτ
  obtain ⟨st, count, hq⟩ : ∃ s count, fLoop IN (mul eps (cbrt (abs (rdet IN)))) 1001 0
      ⟨⟨1, 0, 0, 0, 1, 0, 0, 0, 1⟩, fGetParams IN (mul eps (cbrt (abs (rdet IN))))⟩ = (s, count) := ⟨_, _, rfl⟩
  have hq' : fLoop IN (cellTol IN eps) 1001 0 ⟨IMat.one, fGetParams IN (cellTol IN eps)⟩ = (st, count) := hq
  rw [hq'] at hl
  unfold reduceCell at hr
  simp only [hq] at hr
  by_cases h0 : equal (rdet IN) (ofInt 0) (ofRat (1 / 1000000)) = true
  · rw [if_pos h0] at hr; cases hr
  rw [if_neg h0] at hr
  by_cases h1 : 1000 ≤ count
  · rw [if_pos h1] at hr; cases hr
  rw [if_neg h1] at hr
  rcases hl with hl | hl
  · by_cases h2 : fCheck st.p (mul eps (cbrt (abs (rdet IN)))) = true
    · rw [h2] at hr
      simp only [Bool.not_true, Bool.false_eq_true, if_false, Except.ok.injEq] at hr
      subst hr
      exact hl
    · rw [Bool.not_eq_true] at h2
      rw [h2] at hr
      simp at hr
  · dsimp only at hl
    omega

end

end AutoGR
