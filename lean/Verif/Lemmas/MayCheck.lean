import Verif.Lemmas.MayPass

/-! # `reduce_cell` ends, with unknown tolerance and rounding

`runs` follows all ways the loop can go; if all of them end, with a cell that passes `condition_check` for every
tolerance and every rounding in question, `reduce_cell` returns a result. -/

namespace AutoGR

open Spec Arith Matrix

/-- `x < y - tolerance` or `|x - y| < tolerance`, where `d = y - x`, whatever the tolerance. -/
def leMust (lo hi d : ℚ) : Bool := decide (hi ≤ d) || decide (|d| ≤ lo)

/-- `condition_check` succeeds, whatever the tolerance. -/
def mustCheck (lo hi : ℚ) (p : Params ℚ) : Bool :=
  (decide (hi ≤ p.A) && leMust lo hi (p.B - p.A) && leMust lo hi (p.C - p.B)) &&
  (decide (hi ≤ |p.A - p.B|) || leMust lo hi (|p.eta| - |p.xi|)) &&
  (decide (hi ≤ |p.B - p.C|) || leMust lo hi (|p.zeta| - |p.eta|)) &&
  ((decide (hi ≤ p.xi) && decide (hi ≤ p.eta) && decide (hi ≤ p.zeta)) ||
    (decide (p.xi ≤ lo) && decide (p.eta ≤ lo) && decide (p.zeta ≤ lo))) &&
  leMust lo hi (p.B - |p.xi|) && (leMust lo hi (p.A - |p.eta|) && leMust lo hi (p.A - |p.zeta|)) &&
  leMust lo hi (p.A + p.B + p.xi + p.eta + p.zeta) &&
  (decide (hi ≤ |p.xi - p.B|) || leMust lo hi (2 * p.eta - p.zeta)) &&
  (decide (hi ≤ |p.eta - p.A|) || leMust lo hi (2 * p.xi - p.zeta)) &&
  (decide (hi ≤ |p.zeta - p.A|) || leMust lo hi (2 * p.xi - p.eta)) &&
  (decide (hi ≤ |p.xi + p.B|) || decide (|p.zeta| ≤ lo)) &&
  (decide (hi ≤ |p.eta + p.A|) || decide (|p.zeta| ≤ lo)) &&
  (decide (hi ≤ |p.zeta + p.A|) || decide (|p.eta| ≤ lo)) &&
  (decide (hi ≤ |p.A + p.B + p.xi + p.eta + p.zeta|) || leMust lo hi (-(2 * p.A + 2 * p.eta + p.zeta)))

section
variable {K : Type} [Arith K] {val : K → ℝ} {M η : ℝ} {τ x y : K} {x0 y0 e e' s s' : ℝ} {lo hi m q d : ℚ}

theorem lt_high (hK : Accurate K val M η) (h : Between val τ lo hi m) (hx : Rep val x x0 e s) (hy : Rep val y y0 e' s')
    (hq : hi ≤ q) (heq : y0 - x0 = q - val τ) (he : e + e' < m) : lt x y = true := by
  have := lt_may hK h hx hy heq he
  unfold may at this
  rw [if_pos hq] at this
  exact List.mem_singleton.1 this

/-- `q < tolerance` is true if `q` is low. -/
theorem near_low (hK : Accurate K val M η) (h : Between val τ lo hi m) (hx : Rep val x q e s) (hq : q ≤ lo)
    (he : e < m) : lt x τ = true := by
  have h1 := abs_le.1 hx.err
  have h2 := (Rat.cast_le (K := ℝ)).2 hq
  exact (hK.lt _ _).2 (by linarith [h.low])

theorem near_high (hK : Accurate K val M η) (h : Between val τ lo hi m) (hx : Rep val x q e s) (hq : hi ≤ q)
    (he : e < m) : lt x τ = false := by
  have h1 := abs_le.1 hx.err
  have h2 := (Rat.cast_le (K := ℝ)).2 hq
  rw [← Bool.not_eq_true, hK.lt]
  linarith [h.high]

/-- The numbers are small enough for the error bounds of `condition_check`. -/
structure Finer (K : Type) [Arith K] (val : K → ℝ) (M η : ℝ) (τ : K) (lo hi m : ℚ) (r s : ℝ) : Prop extends
    Fine K val M η τ lo hi m r s where
  err' : 8 * r + 8 * η < m
  size' : 7 * (s + r) + val τ + 8 * η ≤ M

theorem le_test (hK : Accurate K val M η) (h : Between val τ lo hi m) (ht : 0 ≤ val τ) (hx : Rep val x x0 e s)
    (hy : Rep val y y0 e' s') (hd : y0 - x0 = d) (he : e + e' + η < m) (he0 : 0 ≤ e) (hs : s + s' + e + e' + val τ ≤ M)
    (hs0 : 0 ≤ s) (hm : leMust lo hi d = true) : (lt x (sub y τ) || lt (abs (sub x y)) τ) = true := by
  have hη := hK.nonneg
  have hτ : Rep val τ (val τ) 0 (val τ) := ⟨by simp, by rw [abs_of_nonneg ht]⟩
  unfold leMust at hm
  rw [Bool.or_eq_true, decide_eq_true_eq, decide_eq_true_eq] at hm
  rw [Bool.or_eq_true]
  rcases hm with hm | hm
  · exact .inl (lt_high hK h hx (hy.sub hK hτ (by linarith)) hm (by rw [← hd]; ring) (by linarith))
  · refine .inr (near_low (q := |d|) (s := s + s') hK h ?_ hm he)
    have := (hx.sub hK hy (by linarith)).abs hK
    rw [abs_sub_comm, hd] at this
    push_cast
    exact this

theorem not_near (hK : Accurate K val M η) (h : Between val τ lo hi m) (ht : 0 ≤ val τ) (hx : Rep val x x0 e s)
    (hy : Rep val y y0 e' s') (hd : x0 - y0 = d) (he : e + e' + η < m) (hs : s + s' + e + e' + val τ ≤ M)
    (hm : hi ≤ |d|) : lt (abs (sub x y)) τ = false := by
  refine near_high (q := |d|) (s := s + s') hK h ?_ hm he
  have := (hx.sub hK hy (by linarith)).abs hK
  rw [hd] at this
  push_cast
  exact this

omit [Arith K] in
theorem guard_ok {N L : Bool} (h : N = false ∨ L = true) : (!(N && !L)) = true := by
  cases N <;> cases L <;> simp_all

variable {r : ℝ} {p : Params K} {p0 : Params ℚ}

/-- `condition_check` succeeds. -/
theorem check_must (h : Finer K val M η τ lo hi m r s) (hp : RepPar val τ r s p p0) (hm : mustCheck lo hi p0 = true) :
    fCheck p τ = true := by
  have hK := h.acc
  have hη := hK.nonneg
  have h1 := h.err'
  have h0 := h.nonneg
  have hs : 0 ≤ s := (abs_nonneg _).trans hp.a.size
  have hM := h.size'
  have ht := h.tol
  have h2 := h.two
  have hb := h.btw
  have hτ : Rep val τ (val τ) 0 (val τ) := ⟨by simp, by rw [abs_of_nonneg h.tol]⟩
  have hz : val (ofInt 0 : K) = 0 := by
    have := hK.ofInt 0 (by simpa using (show (0 : ℝ) ≤ M by linarith))
    simpa using this
  have hz' : Rep val (ofInt 0 : K) 0 0 0 := ⟨by rw [hz]; simp, by simp⟩
  have pos {x : K} {x0 : ℚ} (hx : Rep val x x0 r s) (hq : hi ≤ x0) : lt (ofInt 0) (sub x τ) = true :=
    lt_high hK hb hz' (hx.sub hK hτ (by linarith)) hq (by ring) (by linarith)
  have nonpos {x : K} {x0 : ℚ} (hx : Rep val x x0 r s) (hq : x0 ≤ lo) : (lt x (ofInt 0) || lt (abs x) τ) = true := by
    rw [Bool.or_eq_true]
    by_cases hv : val x < 0
    · exact .inl ((hK.lt _ _).2 (by rw [hz]; exact hv))
    · refine .inr ((hK.lt _ _).2 ?_)
      rw [hK.abs, abs_of_nonneg (not_lt.1 hv)]
      have e1 := abs_le.1 hx.err
      have e2 := (Rat.cast_le (K := ℝ)).2 hq
      linarith [hb.low]
  have hsum : Rep val (fSumC p) (p0.A + p0.B + p0.C + p0.xi + p0.eta + p0.zeta) (6 * r + 5 * η) (6 * s) :=
    (((((hp.a.add hK hp.b (by linarith)).add hK hp.c (by linarith)).add hK hp.d (by linarith)).add hK hp.e
      (by linarith)).add hK hp.f (by linarith)).mono (by linarith) (by linarith)
  have hlast : Rep val (add (add (mul (ofInt 2) p.A) (mul (ofInt 2) p.eta)) p.zeta)
      (2 * p0.A + 2 * p0.eta + p0.zeta) (5 * r + 4 * η) (5 * s) :=
    (((hp.a.twice hK h2 (by linarith)).add hK (hp.e.twice hK h2 (by linarith)) (by linarith)).add hK hp.f
      (by linarith)).mono (by linarith) (by linarith)
  have small {x : K} {x0 : ℚ} (hx : Rep val x x0 r s) (hq : |x0| ≤ lo) : lt (abs x) τ = true := by
    have := hx.abs hK
    rw [← Rat.cast_abs] at this
    exact near_low hK hb this hq (by linarith)
  have plus {x y : K} {x0 y0 : ℚ} (hx : Rep val x x0 r s) (hy : Rep val y y0 r s) (hq : hi ≤ |x0 + y0|) :
      lt (abs (add x y)) τ = false := by
    have := (hx.add hK hy (by linarith)).abs hK
    rw [← Rat.cast_add, ← Rat.cast_abs] at this
    exact near_high hK hb this hq (by linarith)
  have ge {x y : K} {x0 y0 : ℝ} {e e' s' s'' : ℝ} {d : ℚ} (hx : Rep val x x0 e s') (hy : Rep val y y0 e' s'')
      (hm : leMust lo hi d = true) (hd : y0 - x0 = d) (he : e + e' + η < m) (he0 : 0 ≤ e)
      (hs : s' + s'' + e + e' + val τ ≤ M) (hs0 : 0 ≤ s') :=
    le_test hK hb ht hx hy hd he he0 hs hs0 hm
  have far {x y : K} {x0 y0 : ℝ} {e e' s' s'' : ℝ} {d : ℚ} (hx : Rep val x x0 e s') (hy : Rep val y y0 e' s'')
      (hm : hi ≤ |d|) (hd : x0 - y0 = d) (he : e + e' + η < m) (hs : s' + s'' + e + e' + val τ ≤ M) :=
    not_near hK hb ht hx hy hd he hs hm
  have tw {x : K} {x0 : ℚ} (hx : Rep val x x0 r s) := hx.twice hK h2 (by linarith)
  unfold mustCheck at hm
  simp only [Bool.and_eq_true, Bool.or_eq_true (decide _), decide_eq_true_eq] at hm
  obtain ⟨⟨⟨⟨⟨⟨⟨⟨⟨⟨⟨⟨⟨⟨⟨cA, cAB⟩, cBC⟩, c2⟩, c3⟩, c4⟩, c5⟩, c6, c6'⟩, c7⟩, c8⟩, c9⟩, c10⟩, c11⟩, c12⟩, c13⟩, c14⟩ := hm
  unfold fCheck
  dsimp only
  simp only [Bool.not_not]
  rw [Bool.and_eq_true, Bool.and_eq_true, Bool.and_eq_true, Bool.and_eq_true, Bool.and_eq_true, Bool.and_eq_true,
    Bool.and_eq_true, Bool.and_eq_true, Bool.and_eq_true, Bool.and_eq_true, Bool.and_eq_true, Bool.and_eq_true,
    Bool.and_eq_true]
  refine ⟨⟨⟨⟨⟨⟨⟨⟨⟨⟨⟨⟨⟨?_, ?_⟩, ?_⟩, ?_⟩, ?_⟩, ?_⟩, ?_⟩, ?_⟩, ?_⟩, ?_⟩, ?_⟩, ?_⟩, ?_⟩, ?_⟩
  · rw [Bool.and_eq_true, Bool.and_eq_true]
    refine ⟨⟨pos hp.a cA, ge hp.a hp.b cAB ?_ ?_ ?_ ?_ ?_⟩, ge hp.b hp.c cBC ?_ ?_ ?_ ?_ ?_⟩ <;>
    first | linarith | (push_cast; ring)
  · apply guard_ok
    refine c2.imp (fun c => far hp.a hp.b c ?_ ?_ ?_) (fun c => ge (hp.d.abs hK) (hp.e.abs hK) c ?_ ?_ ?_ ?_ ?_) <;>
    first | linarith | (push_cast; ring)
  · apply guard_ok
    refine c3.imp (fun c => far hp.b hp.c c ?_ ?_ ?_) (fun c => ge (hp.e.abs hK) (hp.f.abs hK) c ?_ ?_ ?_ ?_ ?_) <;>
    first | linarith | (push_cast; ring)
  · rw [Bool.or_eq_true] at c4 ⊢
    simp only [Bool.and_eq_true, decide_eq_true_eq] at c4
    refine c4.imp (fun c => ?_) (fun c => ?_)
    · rw [pos hp.d c.1.1, pos hp.e c.1.2, pos hp.f c.2]; rfl
    · rw [nonpos hp.d c.1.1, nonpos hp.e c.1.2, nonpos hp.f c.2]; rfl
  · refine ge (hp.d.abs hK) hp.b c5 ?_ ?_ ?_ ?_ ?_ <;>
    first | linarith | (push_cast; ring)
  · rw [Bool.and_eq_true]
    refine ⟨ge (hp.e.abs hK) hp.a c6 ?_ ?_ ?_ ?_ ?_, ge (hp.f.abs hK) hp.a c6' ?_ ?_ ?_ ?_ ?_⟩ <;>
    first | linarith | (push_cast; ring)
  · refine ge hp.c hsum c7 ?_ ?_ ?_ ?_ ?_ <;>
    first | linarith | (push_cast; ring)
  · apply guard_ok
    refine c8.imp (fun c => far hp.d hp.b c ?_ ?_ ?_) (fun c => ge hp.f (tw hp.e) c ?_ ?_ ?_ ?_ ?_) <;>
    first | linarith | (push_cast; ring)
  · apply guard_ok
    refine c9.imp (fun c => far hp.e hp.a c ?_ ?_ ?_) (fun c => ge hp.f (tw hp.d) c ?_ ?_ ?_ ?_ ?_) <;>
    first | linarith | (push_cast; ring)
  · apply guard_ok
    refine c10.imp (fun c => far hp.f hp.a c ?_ ?_ ?_) (fun c => ge hp.e (tw hp.d) c ?_ ?_ ?_ ?_ ?_) <;>
    first | linarith | (push_cast; ring)
  · exact guard_ok (c11.imp (fun c => plus hp.d hp.b c) (fun c => small hp.f c))
  · exact guard_ok (c12.imp (fun c => plus hp.e hp.a c) (fun c => small hp.f c))
  · exact guard_ok (c13.imp (fun c => plus hp.f hp.a c) (fun c => small hp.e c))
  · apply guard_ok
    refine c14.imp (fun c => ?_) (fun c => ?_)
    · rw [← abs_neg] at c
      refine far hp.c hsum c ?_ ?_ ?_ <;> first | linarith | (push_cast; ring)
    · unfold leMust at c
      rw [Bool.or_eq_true, decide_eq_true_eq, decide_eq_true_eq] at c
      rw [Bool.or_eq_true]
      refine c.imp (fun c => ?_) (fun c => ?_)
      · refine lt_high hK hb hlast (hτ.neg hK) c ?_ ?_ <;> first | linarith | (push_cast; ring)
      · have := hlast.abs hK
        refine near_low (q := |-(2 * p0.A + 2 * p0.eta + p0.zeta)|) (e := 5 * r + 4 * η) (s := 5 * s) hK hb ?_ c
          (by linarith)
        rw [abs_neg]
        push_cast
        exact this

/-! ## The loop ends -/

/-- All ways the loop can go from `T` end within `n` passes, with a cell that passes `condition_check`. -/
def runs (O : RMat ℚ) (lo hi m : ℚ) : ℕ → IMat → Bool
  | 0, _ => false
  | n + 1, T =>
    mayPass O lo hi m (fun T' b => if b then fits O T' && mustCheck lo hi (atQ O T') else runs O lo hi m n T') T

variable {O : RMat ℚ} {IN : RMat K}

theorem loop_runs (h : Finer K val M η τ lo hi m r s) (hf : Follows val O IN τ r s) (n : ℕ) :
    ∀ (fuel count : ℕ) (st : FState K), n ≤ fuel → Reach IN τ st → runs O lo hi m n st.trans = true →
      fCheck (fLoop IN τ fuel count st).1.p τ = true ∧ (fLoop IN τ fuel count st).2 ≤ count + n := by
  induction n with
  | zero => intro _ _ _ _ _ hn; exact absurd hn (by simp [runs])
  | succ n ih =>
    intro fuel count st hle hr hn
    obtain ⟨fuel, rfl⟩ : ∃ f, fuel = f + 1 := ⟨fuel - 1, by omega⟩
    rw [runs] at hn
    have hp := pass_may h.toFine hf hr hn
    have hr' := hr.pass
    rw [fLoop]
    revert hp hr'
    generalize fPass IN τ st = q
    rcases q with ⟨st', b⟩
    intro hp hr'
    cases b
    · have := ih fuel (count + 1) st' (by omega) hr' (by simpa using hp)
      exact ⟨this.1, this.2.trans (by omega)⟩
    · simp only [if_true, Bool.and_eq_true] at hp
      exact ⟨check_must h (hf st' hr' hp.1) hp.2, by simp⟩

/-- `reduce_cell` returns a result. -/
theorem reduceCell_runs {equal : K → K → K → Bool} {eps : K} {n : ℕ} (hτ : τ = cellTol IN eps)
    (h : Finer K val M η τ lo hi m r s) (hf : Follows val O IN τ r s) (hn : n < 1000)
    (hS : runs O lo hi m n IMat.one = true) (h0 : equal (rdet IN) (ofInt 0) (ofRat (1 / 1000000)) = false) :
    ∃ T, reduceCell equal IN (some eps) = .ok T := by
  have hl := loop_runs h hf n 1001 0 ⟨IMat.one, fGetParams IN τ⟩ (by omega) reach_start hS
  subst hτ
  obtain ⟨st, count, hq⟩ : ∃ s count, fLoop IN (mul eps (cbrt (abs (rdet IN)))) 1001 0
      ⟨⟨1, 0, 0, 0, 1, 0, 0, 0, 1⟩, fGetParams IN (mul eps (cbrt (abs (rdet IN))))⟩ = (s, count) := ⟨_, _, rfl⟩
  have hq' : fLoop IN (cellTol IN eps) 1001 0 ⟨IMat.one, fGetParams IN (cellTol IN eps)⟩ = (st, count) := hq
  rw [hq'] at hl
  obtain ⟨l1, l2⟩ := hl
  dsimp only at l1 l2
  refine ⟨st.trans, ?_⟩
  unfold reduceCell
  simp only [hq]
  have hc : fCheck st.p (mul eps (cbrt (abs (rdet IN)))) = true := l1
  rw [if_neg (by rw [h0]; simp), if_neg (by omega), hc]
  rfl

end

end AutoGR
