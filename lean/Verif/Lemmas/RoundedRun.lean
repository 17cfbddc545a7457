import Verif.Lemmas.RoundedCell
import Verif.Lemmas.FortranNiggli
import Verif.Spec.ErrorBounds
import Verif.Spec.PointSym

/-! # `niggli.f90` in accurate arithmetic: `reduce_cell` on a cell that is close to an ideal one -/

namespace AutoGR

open Spec Arith Matrix

/-! ## What the loop keeps, in any arithmetic -/

section
variable {K : Type} [Arith K]

/-- The variables belong together. -/
structure Reach (IN : RMat K) (τ : K) (s : FState K) : Prop where
  unit : IsUnit s.trans.toMat.det
  params : s.p = fGetParams (matmulI IN s.trans) τ ∨ (s.trans = IMat.one ∧ s.p = fGetParams IN τ)

variable {IN : RMat K} {τ : K} {s : FState K} {M : IMat}

theorem Reach.apply (h : Reach IN τ s) (hM : IsUnit M.toMat.det) : Reach IN τ (fApply IN τ s M) := by
  refine ⟨?_, .inl rfl⟩
  show IsUnit (mulC s.trans M).toMat.det
  rw [toMat_mulC, det_mul]
  exact h.unit.mul hM

theorem unit_diag {i j k : ℤ} (hi : i = 1 ∨ i = -1) (hj : j = 1 ∨ j = -1) (hk : k = 1 ∨ k = -1) :
    IsUnit (IMat.toMat ⟨i, 0, 0, 0, j, 0, 0, 0, k⟩).det := by
  rw [Int.isUnit_iff]
  rcases hi with rfl | rfl <;> rcases hj with rfl | rfl <;> rcases hk with rfl | rfl <;> decide

theorem unit_upper (x y z : ℤ) : IsUnit (IMat.toMat ⟨1, x, y, 0, 1, z, 0, 0, 1⟩).det := by
  rw [IMat.toMat, det_fin_three]
  simp

theorem unit_fFindC3 (l m n : ℤ) : IsUnit (fFindC3 l m n).toMat.det := by
  unfold fFindC3
  dsimp only
  refine unit_diag ?_ ?_ ?_ <;> split_ifs <;> simp

theorem ite_pm {P : Prop} [Decidable P] {a : ℤ} (ha : a = 1 ∨ a = -1) :
    (if P then -1 else a) = 1 ∨ (if P then -1 else a) = -1 := by
  by_cases h : P
  · rw [if_pos h]; exact .inr rfl
  · rw [if_neg h]; exact ha

theorem unit_fFindC4 (l m n : ℤ) : IsUnit (fFindC4 l m n).toMat.det := by
  unfold fFindC4
  by_cases h0 : l = -1 ∧ m = -1 ∧ n = -1
  · rw [if_pos h0]
    exact unit_diag (.inl rfl) (.inl rfl) (.inl rfl)
  · rw [if_neg h0]
    dsimp only
    exact unit_diag (ite_pm (ite_pm (.inl rfl))) (ite_pm (ite_pm (.inl rfl))) (ite_pm (ite_pm (.inl rfl)))

theorem Reach.pass (h : Reach IN τ s) : Reach IN τ (fPass IN τ s).1 := by
  have u1 : IsUnit (IMat.toMat ⟨0, -1, 0, -1, 0, 0, 0, 0, -1⟩).det := by rw [Int.isUnit_iff]; decide
  have u2 : IsUnit (IMat.toMat ⟨-1, 0, 0, 0, 0, -1, 0, -1, 0⟩).det := by rw [Int.isUnit_iff]; decide
  have ite {b : Prop} [Decidable b] {s : FState K} {M : IMat} (h : Reach IN τ s) (hM : IsUnit M.toMat.det) :
      Reach IN τ (if b then fApply IN τ s M else s) := by
    by_cases hb : b
    · rw [if_pos hb]; exact h.apply hM
    · rw [if_neg hb]; exact h
  unfold fPass
  dsimp only
  have h1 := ite (b := fCond1 τ s.p = true) h u1
  revert h1
  generalize (if fCond1 τ s.p = true then fApply IN τ s ⟨0, -1, 0, -1, 0, 0, 0, 0, -1⟩ else s) = s1
  intro h1
  by_cases c2 : fCond2 τ s1.p = true
  · rw [if_pos c2]; exact h1.apply u2
  rw [if_neg c2]
  have h3 := ite (b := s1.p.l * s1.p.m * s1.p.n = 1) h1 (unit_fFindC3 s1.p.l s1.p.m s1.p.n)
  revert h3
  generalize (if s1.p.l * s1.p.m * s1.p.n = 1 then fApply IN τ s1 (fFindC3 s1.p.l s1.p.m s1.p.n) else s1) = s3
  intro h3
  have h4 := ite (b := s3.p.l * s3.p.m * s3.p.n = 0 ∨ s3.p.l * s3.p.m * s3.p.n = -1) h3
    (unit_fFindC4 s3.p.l s3.p.m s3.p.n)
  revert h4
  generalize (if s3.p.l * s3.p.m * s3.p.n = 0 ∨ s3.p.l * s3.p.m * s3.p.n = -1 then
    fApply IN τ s3 (fFindC4 s3.p.l s3.p.m s3.p.n) else s3) = s4
  intro h4
  by_cases c5 : fCond5 τ s4.p = true
  · rw [if_pos c5]; exact h4.apply (unit_upper _ _ _)
  rw [if_neg c5]
  by_cases c6 : fCond6 τ s4.p = true
  · rw [if_pos c6]; exact h4.apply (unit_upper _ _ _)
  rw [if_neg c6]
  by_cases c7 : fCond7 τ s4.p = true
  · rw [if_pos c7]; exact h4.apply (unit_upper _ _ _)
  rw [if_neg c7]
  by_cases c8 : fCond8 τ s4.p = true
  · rw [if_pos c8]; exact h4.apply (unit_upper _ _ _)
  rw [if_neg c8]
  exact h4

theorem Reach.loop : ∀ (fuel count : ℕ) {s : FState K}, Reach IN τ s → Reach IN τ (fLoop IN τ fuel count s).1
  | 0, _, _, h => h
  | fuel + 1, count, s, h => by
    have hp := h.pass
    unfold fLoop
    revert hp
    generalize fPass IN τ s = q
    rcases q with ⟨s', b⟩
    intro hp
    cases b
    · exact Reach.loop fuel (count + 1) hp
    · exact hp

theorem reach_start : Reach IN τ ⟨IMat.one, fGetParams IN τ⟩ :=
  ⟨by show IsUnit IMat.one.toMat.det; rw [Int.isUnit_iff]; decide, .inr ⟨rfl, rfl⟩⟩

/-- The tolerance of `reduce_cell`. -/
def cellTol (IN : RMat K) (eps : K) : K := mul eps (cbrt (abs (rdet IN)))

theorem reduceCell_reach {equal : K → K → K → Bool} {eps : K} {T : IMat}
    (h : reduceCell equal IN (some eps) = .ok T) :
    IsUnit T.toMat.det ∧ ∃ p, fCheck p (cellTol IN eps) = true ∧
      (p = fGetParams (matmulI IN T) (cellTol IN eps) ∨ (T = IMat.one ∧ p = fGetParams IN (cellTol IN eps))) := by
  have hl := fun n => Reach.loop n 0 (reach_start (IN := IN) (τ := cellTol IN eps))
  replace hl := hl 1001
  obtain ⟨s, count, hq⟩ : ∃ s count, fLoop IN (mul eps (cbrt (abs (rdet IN)))) 1001 0
      ⟨⟨1, 0, 0, 0, 1, 0, 0, 0, 1⟩, fGetParams IN (mul eps (cbrt (abs (rdet IN))))⟩ = (s, count) := ⟨_, _, rfl⟩
  have hq' : fLoop IN (cellTol IN eps) 1001 0 ⟨IMat.one, fGetParams IN (cellTol IN eps)⟩ = (s, count) := hq
  rw [hq'] at hl
  unfold reduceCell at h
  simp only [hq] at h
  rw [show mul eps (cbrt (abs (rdet IN))) = cellTol IN eps from rfl] at h
  dsimp only at hl
  by_cases h0 : equal (rdet IN) (ofInt 0) (ofRat (1 / 1000000)) = true
  · rw [if_pos h0] at h; cases h
  rw [if_neg h0] at h
  by_cases h1 : 1000 ≤ count
  · rw [if_pos h1] at h; cases h
  rw [if_neg h1] at h
  by_cases h2 : fCheck s.p (cellTol IN eps) = true
  · rw [h2] at h
    simp only [Bool.not_true, Bool.false_eq_true, if_false, Except.ok.injEq] at h
    subst h
    exact ⟨hl.unit, s.p, h2, hl.params⟩
  · rw [Bool.not_eq_true] at h2
    rw [h2] at h
    simp at h

theorem reduceCell_one {equal : K → K → K → Bool} {eps : K} {p : Params K}
    (h0 : equal (rdet IN) (ofInt 0) (ofRat (1 / 1000000)) = false)
    (hp : fPass IN (cellTol IN eps) ⟨IMat.one, fGetParams IN (cellTol IN eps)⟩ = (⟨IMat.one, p⟩, true))
    (hc : fCheck p (cellTol IN eps) = true) : reduceCell equal IN (some eps) = .ok IMat.one := by
  have hq : fLoop IN (mul eps (cbrt (abs (rdet IN)))) 1001 0
      ⟨⟨1, 0, 0, 0, 1, 0, 0, 0, 1⟩, fGetParams IN (mul eps (cbrt (abs (rdet IN))))⟩ = (⟨IMat.one, p⟩, 1) := by
    unfold fLoop
    have hp' : fPass IN (mul eps (cbrt (abs (rdet IN))))
      ⟨⟨1, 0, 0, 0, 1, 0, 0, 0, 1⟩, fGetParams IN (mul eps (cbrt (abs (rdet IN))))⟩ = (⟨IMat.one, p⟩, true) := hp
    rw [hp']
  have hc' : fCheck p (mul eps (cbrt (abs (rdet IN)))) = true := hc
  unfold reduceCell
  simp only [hq, hc', h0]
  simp

end

/-! ## Products of a cell that is close to an ideal one -/

section
variable {K : Type} [Arith K] {val : K → ℝ} {M η δ c L ℓ : ℝ} {U : RMat K} {U0 : Matrix (Fin 3) (Fin 3) ℝ}

omit [Arith K] in
theorem Spec.CloseTo.rep (h : CloseTo val U.toMatrix U0 δ L) (i j : Fin 3) : Rep val (U.toMatrix i j) (U0 i j) δ L :=
  ⟨h.err i j, h.size i j⟩

theorem rep_three {a b d : K} {a0 b0 d0 : ℝ} {x y z : ℤ} (hK : Accurate K val M η) (ha : Rep val a a0 δ L)
    (hb : Rep val b b0 δ L) (hd : Rep val d d0 δ L) (hx : |(x : ℝ)| ≤ c) (hy : |(y : ℝ)| ≤ c) (hz : |(z : ℝ)| ≤ c)
    (h1 : 1 ≤ L ∨ c ≤ M) (hM : 3 * (c * (L + δ)) + 5 * η ≤ M) :
    |val (add (add (mul a (ofInt x)) (mul b (ofInt y))) (mul d (ofInt z))) - (a0 * x + b0 * y + d0 * z)| ≤
      cellErr η δ c := by
  have c0 : 0 ≤ c := (abs_nonneg _).trans hx
  have d0' : 0 ≤ δ := (abs_nonneg _).trans ha.err
  have L0 : 0 ≤ L := (abs_nonneg _).trans ha.size
  have hη := hK.nonneg
  have p1 : 0 ≤ c * L := mul_nonneg c0 L0
  have p2 : 0 ≤ c * δ := mul_nonneg c0 d0'
  have hcM : c ≤ M := by
    rcases h1 with h1 | h1
    · nlinarith [mul_le_mul_of_nonneg_left h1 c0]
    · exact h1
  have one {a : K} {a0 : ℝ} {x : ℤ} (ha : Rep val a a0 δ L) (hx : |(x : ℝ)| ≤ c) :
      Rep val (mul a (ofInt x)) (a0 * x) (c * δ + η) (c * L) := by
    have q1 := mul_le_mul_of_nonneg_left hx d0'
    have q2 := mul_le_mul_of_nonneg_left hx L0
    have h := Rep.mul hK ha (rep_int hK x (hx.trans hcM)) (by nlinarith)
    refine h.mono ?_ ?_ <;> nlinarith
  have h := ((one ha hx).add hK (one hb hy) (by nlinarith)).add hK (one hd hz) (by nlinarith)
  refine h.err.trans ?_
  unfold cellErr
  linarith

theorem rep_dot {a b : Vec K} {a0 b0 : Fin 3 → ℝ} {d : ℝ} (hK : Accurate K val M η)
    (h1 : Rep val a.x (a0 0) d ℓ) (h2 : Rep val a.y (a0 1) d ℓ) (h3 : Rep val a.z (a0 2) d ℓ)
    (k1 : Rep val b.x (b0 0) d ℓ) (k2 : Rep val b.y (b0 1) d ℓ) (k3 : Rep val b.z (b0 2) d ℓ)
    (hM : 3 * ℓ ^ 2 + dotErr η d ℓ ≤ M) :
    |val (dot a b) - (a0 0 * b0 0 + a0 1 * b0 1 + a0 2 * b0 2)| ≤ dotErr η d ℓ := by
  have hη := hK.nonneg
  have d0 : 0 ≤ d := (abs_nonneg _).trans h1.err
  have l0 : 0 ≤ ℓ := (abs_nonneg _).trans h1.size
  have p1 : 0 ≤ ℓ * d := mul_nonneg l0 d0
  have p2 : 0 ≤ d ^ 2 := sq_nonneg d
  have p3 : 0 ≤ ℓ ^ 2 := sq_nonneg ℓ
  unfold dotErr at *
  have one {x y : K} {x0 y0 : ℝ} (hx : Rep val x x0 d ℓ) (hy : Rep val y y0 d ℓ) :
      Rep val (mul x y) (x0 * y0) (2 * (ℓ * d) + d ^ 2 + η) (ℓ ^ 2) := by
    have h := Rep.mul hK hx hy (by nlinarith)
    refine h.mono ?_ ?_ <;> nlinarith
  have h := ((one h1 k1).add hK (one h2 k2) (by nlinarith)).add hK (one h3 k3) (by nlinarith)
  unfold dot
  refine h.err.trans ?_
  linarith

theorem rep_det (hK : Accurate K val M η) (h : CloseTo val U.toMatrix U0 δ L)
    (h2 : 2 * L ^ 2 + 2 * prodErr η δ L + η ≤ M) (h3 : 6 * L ^ 3 + detErr η δ L ≤ M) :
    |val (rdet U) - U0.det| ≤ detErr η δ L := by
  have hη := hK.nonneg
  have d0 : 0 ≤ δ := (abs_nonneg _).trans (h.err 0 0)
  have l0 : 0 ≤ L := (abs_nonneg _).trans (h.size 0 0)
  have p1 : 0 ≤ L * δ := mul_nonneg l0 d0
  have p2 : 0 ≤ δ ^ 2 := sq_nonneg δ
  have p3 : 0 ≤ L ^ 2 := sq_nonneg L
  have one {x y : K} {x0 y0 : ℝ} (hx : Rep val x x0 δ L) (hy : Rep val y y0 δ L) :
      Rep val (mul x y) (x0 * y0) (prodErr η δ L) (L ^ 2) := by
    unfold prodErr at *
    have h := Rep.mul hK hx hy (by nlinarith)
    refine h.mono ?_ ?_ <;> nlinarith
  have pe : 0 ≤ prodErr η δ L := by unfold prodErr; linarith
  have two {x y z w : K} {x0 y0 z0 w0 : ℝ} (hx : Rep val x x0 δ L) (hy : Rep val y y0 δ L)
      (hz : Rep val z z0 δ L) (hw : Rep val w w0 δ L) :
      Rep val (sub (mul x y) (mul z w)) (x0 * y0 - z0 * w0) (2 * prodErr η δ L + η) (2 * L ^ 2) := by
    have h := (one hx hy).sub hK (one hz hw) (by linarith)
    exact h.mono (by linarith) (by linarith)
  have te : 0 ≤ tripleErr η δ L := by unfold tripleErr; positivity
  have l3 : 0 ≤ L ^ 3 := by positivity
  have three {u x y z w : K} {u0 x0 y0 z0 w0 : ℝ} (hu : Rep val u u0 δ L) (hx : Rep val x x0 δ L)
      (hy : Rep val y y0 δ L) (hz : Rep val z z0 δ L) (hw : Rep val w w0 δ L) :
      Rep val (mul u (sub (mul x y) (mul z w))) (u0 * (x0 * y0 - z0 * w0)) (tripleErr η δ L) (2 * L ^ 3) := by
    have h := hu.mul hK (two hx hy hz hw) (by
      unfold detErr tripleErr at h3
      unfold tripleErr at te
      have : (L + δ) * (2 * L ^ 2 + (2 * prodErr η δ L + η)) = 2 * L ^ 3 + (L * (2 * prodErr η δ L + η) +
        δ * (2 * L ^ 2) + δ * (2 * prodErr η δ L + η)) := by ring
      rw [this]
      linarith)
    refine h.mono ?_ ?_
    · unfold tripleErr
      linarith
    · exact le_of_eq (by ring)
  have r := h.rep
  have e := ((three (r 0 0) (r 1 1) (r 2 2) (r 1 2) (r 2 1)).sub hK
    (three (r 0 1) (r 1 0) (r 2 2) (r 1 2) (r 2 0)) (by unfold detErr at h3; linarith)).add hK
    (three (r 0 2) (r 1 0) (r 2 1) (r 1 1) (r 2 0)) (by unfold detErr at h3; linarith)
  have hd : U0.det = U0 0 0 * (U0 1 1 * U0 2 2 - U0 1 2 * U0 2 1) - U0 0 1 * (U0 1 0 * U0 2 2 - U0 1 2 * U0 2 0) +
      U0 0 2 * (U0 1 0 * U0 2 1 - U0 1 1 * U0 2 0) := by
    rw [det_fin_three]
    ring
  rw [hd]
  refine le_trans e.err ?_
  unfold detErr
  linarith

end

end AutoGR
