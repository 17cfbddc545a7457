import Verif.Lemmas.DelintClass
import Verif.Spec.Delint

/-!
# `delint`: its result, and the classes whose formula is wrong
-/

namespace AutoGR.Fortran

open Matrix Spec

variable {equal : ℝ → ℝ → Bool} {close : Matrix (Fin 3) (Fin 3) ℝ → Matrix (Fin 3) (Fin 3) ℝ → Bool}
  {V W : Matrix (Fin 3) (Fin 3) ℝ} {k : ℕ}

theorem delint_some (hclose : close 1 1 = true) (hV : V.det ≠ 0) (h : delint equal close V k = some W) :
    ∃ q, symmetrize equal (basis2cell V) k = some q ∧
      Wᵀ * W = gramOf q.a q.b q.c (Real.cos q.alpha) (Real.cos q.beta) (Real.cos q.gamma) := by
  obtain ⟨W0, R, -, -, hR, hd⟩ := delint_core (equal := equal) hclose hV
  rw [hd k] at h
  cases hq : symmetrize equal (basis2cell V) k with
  | none => rw [hq] at h; cases h
  | some q =>
    rw [hq] at h
    cases hW : cell2basis q with
    | none => rw [Option.bind_some, hW] at h; cases h
    | some W' =>
      rw [Option.bind_some, hW] at h
      cases h
      refine ⟨q, rfl, ?_⟩
      rw [← cell2basis_gram hW, Matrix.transpose_mul, Matrix.mul_assoc, ← Matrix.mul_assoc Rᵀ, hR, Matrix.one_mul]

theorem cos_acos {n d θ : ℝ} (h : acos n d = some θ) (hd : 0 < d) (hn : 0 < n) : 0 < Real.cos θ := by
  obtain ⟨-, e⟩ := acos_some h
  by_contra hc
  nlinarith [mul_nonneg (neg_nonneg.2 (not_lt.1 hc)) hd.le]

theorem cos_acos_neg {n d θ : ℝ} (h : acos n d = some θ) (hd : 0 < d) (hn : n < 0) : Real.cos θ < 0 := by
  obtain ⟨-, e⟩ := acos_some h
  by_contra hc
  nlinarith [mul_nonneg (not_lt.1 hc) hd.le]

section
variable {a b c x y z : ℝ} {q : Params}

/-- The result for classes of type II with a wrong formula for `alpha`. -/
def AcuteAlpha (q : Params) : Prop := 0 < q.b ∧ 0 < q.c ∧ 0 < Real.cos q.alpha

theorem wrong_6 (hp : Proper a b c x y z) (hz : z ≤ 0)
    (h : symmetrize equal (cosParams a b c x y z) 6 = some q) : AcuteAlpha q := by
  obtain ⟨ha, hb, hc, hx, hy', hz', -⟩ := hp
  have hs : 0 < (a + b + c) / 3 := by positivity
  obtain ⟨-, h2, h3, h4, -, -⟩ := params_some h
  simp only [cosParams, Real.cos_arccos hz'.1.le hz'.2.le] at h2 h3 h4
  refine ⟨h2 ▸ hs, h3 ▸ hs, cos_acos h4 (by positivity) ?_⟩
  nlinarith [mul_nonneg (neg_nonneg.2 hz) (mul_pos hs hs).le, mul_pos hs hs]

theorem wrong_7 (hp : Proper a b c x y z) (hz : z ≤ 0)
    (h : symmetrize equal (cosParams a b c x y z) 7 = some q) : AcuteAlpha q := by
  obtain ⟨ha, hb, hc, hx, hy', hz', -⟩ := hp
  have hs : 0 < (a + b + c) / 3 := by positivity
  obtain ⟨-, h2, h3, h4, -, -⟩ := params_some h
  simp only [cosParams, Real.cos_arccos hz'.1.le hz'.2.le] at h2 h3 h4
  refine ⟨h2 ▸ hs, h3 ▸ hs, cos_acos h4 (by positivity) ?_⟩
  nlinarith [mul_nonneg (neg_nonneg.2 hz) (mul_pos hs hs).le, mul_pos hs hs]

theorem wrong_8 (hp : Proper a b c x y z) (hy : y ≤ 0) (hz : z ≤ 0)
    (h : symmetrize equal (cosParams a b c x y z) 8 = some q) : AcuteAlpha q := by
  obtain ⟨ha, hb, hc, hx, hy', hz', -⟩ := hp
  have hs : 0 < (a + b + c) / 3 := by positivity
  obtain ⟨-, h2, h3, h4, -, -⟩ := params_some h
  simp only [cosParams, Real.cos_arccos hy'.1.le hy'.2.le, Real.cos_arccos hz'.1.le hz'.2.le] at h2 h3 h4
  refine ⟨h2 ▸ hs, h3 ▸ hs, cos_acos h4 (by positivity) ?_⟩
  nlinarith [mul_nonneg (neg_nonneg.2 hz) (mul_pos hs hs).le, mul_nonneg (neg_nonneg.2 hy) (mul_pos hs hs).le,
    mul_pos hs hs]

theorem wrong_16 (hp : Proper a b c x y z)
    (h : symmetrize equal (cosParams a b c x y z) 16 = some q) : AcuteAlpha q := by
  obtain ⟨ha, hb, hc, -⟩ := hp
  have hs : 0 < (a + b) / 2 := by positivity
  change params _ _ _ _ _ _ = _ at h
  obtain ⟨-, h2, h3, h4, -, -⟩ := params_some h
  simp only [cosParams, Real.cos_pi_div_two] at h2 h3 h4
  refine ⟨h2 ▸ hs, h3 ▸ hc, cos_acos h4 (by positivity) ?_⟩
  nlinarith [mul_pos hs hs]

theorem wrong_17 (hp : Proper a b c x y z) (hy : y ≤ 0) (hz : z ≤ 0)
    (h : symmetrize equal (cosParams a b c x y z) 17 = some q) : AcuteAlpha q := by
  obtain ⟨ha, hb, hc, hx, hy', hz', -⟩ := hp
  have hs : 0 < (a + b) / 2 := by positivity
  obtain ⟨-, h2, h3, h4, -, -⟩ := params_some h
  simp only [cosParams, Real.cos_arccos hy'.1.le hy'.2.le, Real.cos_arccos hz'.1.le hz'.2.le] at h2 h3 h4
  refine ⟨h2 ▸ hs, h3 ▸ hc, cos_acos h4 (by positivity) ?_⟩
  nlinarith [mul_nonneg (neg_nonneg.2 hz) (mul_pos hs hc).le, mul_nonneg (neg_nonneg.2 hy) (mul_pos hs hs).le,
    mul_pos hs hs]

theorem wrong_24 (hp : Proper a b c x y z)
    (h : symmetrize equal (cosParams a b c x y z) 24 = some q) : AcuteAlpha q := by
  obtain ⟨ha, hb, hc, -⟩ := hp
  have hs : 0 < (c + b) / 2 := by positivity
  change Option.bind (acos (-(a * a)) (3 * a * ((c + b) / 2))) _ = _ at h
  cases hg : acos (-(a * a)) (3 * a * ((c + b) / 2)) with
  | none => rw [hg] at h; cases h
  | some γ =>
    have hcg := cos_acos_neg hg (by positivity) (by nlinarith)
    rw [hg] at h
    change Option.bind (acos (-(a * a)) (3 * a * ((c + b) / 2))) _ = _ at h
    rw [hg, Option.bind_some] at h
    change Option.bind (acos ((a * a + (c + b) / 2 * ((c + b) / 2)) * 2 - Real.cos γ * a * ((c + b) / 2) -
      Real.cos γ * a * ((c + b) / 2)) ((c + b) / 2 * ((c + b) / 2))) _ = _ at h
    cases hα : acos ((a * a + (c + b) / 2 * ((c + b) / 2)) * 2 - Real.cos γ * a * ((c + b) / 2) -
      Real.cos γ * a * ((c + b) / 2)) ((c + b) / 2 * ((c + b) / 2)) with
    | none => rw [hα] at h; cases h
    | some α =>
      rw [hα] at h
      cases h
      refine ⟨hs, hs, cos_acos hα (by positivity) ?_⟩
      nlinarith [mul_pos (neg_pos.2 hcg) (mul_pos ha hs), mul_pos hs hs, mul_pos ha ha]

theorem sym_12 (p : Params) : symmetrize equal p 12 =
    params ((p.a + p.b) / 2) ((p.a + p.b) / 2) p.c (some (Real.pi / 2)) (some (Real.pi / 2)) (some (Real.pi / 3)) := rfl

theorem wrong_12 (hp : Proper a b c x y z)
    (h : symmetrize equal (cosParams a b c x y z) 12 = some q) : 0 < q.a * q.b * Real.cos q.gamma := by
  obtain ⟨ha, hb, hc, -⟩ := hp
  rw [sym_12] at h
  obtain ⟨h1, h2, -, -, -, h6⟩ := params_some h
  rw [← Option.some.inj h6, Real.cos_pi_div_three, h1, h2]
  simp only [cosParams]
  positivity

/-- The result for classes of type I with a wrong formula for `beta`. -/
def ObtuseBeta (q : Params) : Prop := 0 < q.a ∧ 0 < q.c ∧ Real.cos q.beta < 0

theorem wrong_26 (hp : Proper a b c x y z)
    (h : symmetrize equal (cosParams a b c x y z) 26 = some q) : ObtuseBeta q := by
  obtain ⟨ha, hb, hc, -⟩ := hp
  obtain ⟨h1, -, h3, -, h5, -⟩ := params_some h
  simp only [cosParams] at h1 h3 h5
  exact ⟨h1 ▸ ha, h3 ▸ hc, cos_acos_neg h5 (by positivity) (by nlinarith)⟩

theorem sym_27 (p : Params) : symmetrize equal p 27 =
    params p.a p.b p.c (some p.alpha) (acos (-(p.a * p.a)) (2 * p.a * p.c)) (acos (-(p.a * p.a)) (2 * p.a * p.b)) := rfl

theorem wrong_27 (hp : Proper a b c x y z)
    (h : symmetrize equal (cosParams a b c x y z) 27 = some q) : ObtuseBeta q := by
  obtain ⟨ha, hb, hc, -⟩ := hp
  rw [sym_27] at h
  obtain ⟨h1, -, h3, -, h5, -⟩ := params_some h
  simp only [cosParams] at h1 h3 h5
  exact ⟨h1 ▸ ha, h3 ▸ hc, cos_acos_neg h5 (by positivity) (by nlinarith)⟩

theorem sym_28 (p : Params) : symmetrize equal p 28 =
    params p.a p.b p.c (some p.alpha) (acos (-(p.a * p.a)) (2 * p.a * p.c))
      (acos (2 * Real.cos p.alpha * p.b * p.c) (p.a * p.b)) := rfl

theorem wrong_28 (hp : Proper a b c x y z)
    (h : symmetrize equal (cosParams a b c x y z) 28 = some q) : ObtuseBeta q := by
  obtain ⟨ha, hb, hc, -⟩ := hp
  rw [sym_28] at h
  obtain ⟨h1, -, h3, -, h5, -⟩ := params_some h
  simp only [cosParams] at h1 h3 h5
  exact ⟨h1 ▸ ha, h3 ▸ hc, cos_acos_neg h5 (by positivity) (by nlinarith)⟩

theorem wrong_43 (hp : Proper a b c x y z) (hy : y ≤ 0) (hz : z ≤ 0)
    (hD : b * c * x = -(a ^ 2 + b ^ 2) / 2 - a * c * y - a * b * z) (hbc : b ≠ c) (hyz : y ≠ z)
    (h : symmetrize equal (cosParams a b c x y z) 43 = some q) :
    q.a = a ∧ q.b = b ∧ q.c = c ∧ Real.cos q.beta = y ∧ Real.cos q.gamma = z ∧
      (0 < b * c * Real.cos q.alpha ∨ b * c * Real.cos q.alpha ≠ b * c * x) := by
  obtain ⟨ha, hb, hc, hx, hy', hz', -⟩ := hp
  change (if _ then _ else _) = _ at h
  simp only [cosParams, Real.cos_arccos hy'.1.le hy'.2.le, Real.cos_arccos hz'.1.le hz'.2.le] at h
  split_ifs at h with hc0
  · obtain ⟨h1, h2, h3, h4, h5, h6⟩ := params_some h
    refine ⟨h1, h2, h3, ?_, ?_, Or.inl ?_⟩
    · rw [← Option.some.inj h5, Real.cos_arccos hy'.1.le hy'.2.le]
    · rw [← Option.some.inj h6, Real.cos_arccos hz'.1.le hz'.2.le]
    · refine mul_pos (mul_pos hb hc) (cos_acos h4 (by positivity) ?_)
      nlinarith [mul_nonneg (neg_nonneg.2 hz) (mul_pos ha hc).le, mul_nonneg (neg_nonneg.2 hy) (mul_pos ha hb).le,
        mul_pos ha ha, mul_pos hb hb]
  · obtain ⟨h1, h2, h3, h4, h5, h6⟩ := params_some h
    refine ⟨h1, h2, h3, ?_, ?_, Or.inr ?_⟩
    · rw [← Option.some.inj h5, Real.cos_arccos hy'.1.le hy'.2.le]
    · rw [← Option.some.inj h6, Real.cos_arccos hz'.1.le hz'.2.le]
    · obtain ⟨-, e⟩ := acos_some h4
      intro hcon
      have : a * ((z - y) * (c - b)) = 0 := by linear_combination e - hcon - hD
      rcases mul_eq_zero.1 this with h0 | h0
      · exact ha.ne' h0
      rcases mul_eq_zero.1 h0 with h0 | h0
      · exact hyz (by linarith)
      · exact hbc (by linarith)
end

end AutoGR.Fortran
