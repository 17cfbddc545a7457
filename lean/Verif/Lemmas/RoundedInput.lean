import Verif.Model.RoundedInput
import Verif.Spec.PointsErr
import Verif.Lemmas.RoundedTransform

/-!
# Errors of products, quotients and determinants in arithmetic with a relative error
-/

namespace AutoGR.Fortran

open Arith Matrix
open AutoGR.Spec

variable {K : Type} [Arith K] {val : K → ℝ} {u : ℝ}

/-- `x` stands for the positive number `x0`, and is wrong by a factor of at most `r`. -/
structure Within (val : K → ℝ) (x : K) (x0 r : ℝ) : Prop where
  pos : 0 < x0
  one : 1 ≤ r
  low : x0 / r ≤ val x
  high : val x ≤ x0 * r

omit [Arith K] in
theorem one_le_w (h0 : 0 ≤ u) (h1 : u < 1) : 1 ≤ 1 / (1 - u) := by
  rw [le_div_iff₀ (by linarith)]
  linarith

omit [Arith K] in
theorem add_le_w (h0 : 0 ≤ u) (h1 : u < 1) : 1 + u ≤ 1 / (1 - u) := by
  rw [le_div_iff₀ (by linarith)]
  nlinarith

namespace Within
variable {x y : K} {x0 y0 r s : ℝ}

omit [Arith K] in
/-- `z` is wrong by a relative error `u` of something that is wrong by a factor `r`. -/
theorem of_rel (h0 : 0 ≤ u) (h1 : u < 1) {z : K} {p : ℝ} (hx0 : 0 < x0) (hr : 1 ≤ r) (hl : x0 / r ≤ p) (hh : p ≤ x0 * r)
    (hz : |val z - p| ≤ u * |p|) : Within val z x0 (r * (1 / (1 - u))) := by
  have hw := one_le_w h0 h1
  have hp : 0 < p := lt_of_lt_of_le (by positivity) hl
  rw [abs_of_pos hp] at hz
  obtain ⟨z1, z2⟩ := abs_le.1 hz
  refine ⟨hx0, by nlinarith, ?_, ?_⟩
  · have e : x0 / (r * (1 / (1 - u))) = x0 / r * (1 - u) := by
      have : (1 - u) ≠ 0 := by linarith
      field_simp
    rw [e]
    nlinarith
  · have := add_le_w h0 h1
    have : p * (1 + u) ≤ x0 * r * (1 / (1 - u)) := mul_le_mul hh this (by linarith) (by positivity)
    nlinarith

omit [Arith K] in
theorem of_read (h0 : 0 ≤ u) (h1 : u < 1) (hx0 : 0 < x0) (h : ReadAs val u x x0) :
    Within val x x0 (1 / (1 - u)) := by
  have := of_rel (r := 1) h0 h1 hx0 le_rfl (by simp) (by simp) h
  rwa [one_mul] at this

theorem mul (hu : RelativeOps K val u) (hx : Within val x x0 r) (hy : Within val y y0 s) :
    Within val (Arith.mul x y) (x0 * y0) (r * s * (1 / (1 - u))) := by
  have a := hx.pos
  have b := hy.pos
  have c := hx.one
  have d := hy.one
  refine of_rel hu.nonneg hu.lt_one (by positivity) (by nlinarith) ?_ ?_ (hu.mul x y)
  · have e : x0 * y0 / (r * s) = x0 / r * (y0 / s) := by
      field_simp
    rw [e]
    exact mul_le_mul hx.low hy.low (by positivity) ((by positivity : (0 : ℝ) ≤ x0 / r).trans hx.low)
  · have e : x0 * y0 * (r * s) = x0 * r * (y0 * s) := by ring
    rw [e]
    exact mul_le_mul hx.high hy.high ((by positivity : (0 : ℝ) ≤ y0 / s).trans hy.low) (by positivity)

theorem div (hu : RelativeOps K val u) (hx : Within val x x0 r) (hy : Within val y y0 s) :
    Within val (Arith.div x y) (x0 / y0) (r * s * (1 / (1 - u))) := by
  have a := hx.pos
  have b := hy.pos
  have c := hx.one
  have d := hy.one
  have hy0 : 0 < val y := lt_of_lt_of_le (by positivity) hy.low
  have hx0 : 0 < val x := lt_of_lt_of_le (by positivity) hx.low
  refine of_rel hu.nonneg hu.lt_one (by positivity) (by nlinarith) ?_ ?_ (hu.div x y)
  · have e : x0 / y0 / (r * s) = x0 / r / (y0 * s) := by
      field_simp
    rw [e]
    exact div_le_div₀ hx0.le hx.low hy0 hy.high
  · have e : x0 / y0 * (r * s) = x0 * r / (y0 / s) := by
      field_simp
    rw [e]
    exact div_le_div₀ (by positivity) hx.high (by positivity) hy.low

theorem cube (hu : RelativeOps K val u) (hx : Within val x x0 r) :
    Within val (cubeK x) (x0 ^ 3) (r ^ 3 * (1 / (1 - u)) ^ 2) := by
  have h := (hx.mul hu hx).mul hu hx
  have e1 : x0 * x0 * x0 = x0 ^ 3 := by ring
  have e2 : r * r * (1 / (1 - u)) * r * (1 / (1 - u)) = r ^ 3 * (1 / (1 - u)) ^ 2 := by ring
  rw [e1, e2] at h
  exact h

omit [Arith K] in
theorem mono (hx : Within val x x0 r) (h : r ≤ s) : Within val x x0 s := by
  have a := hx.pos
  have b := hx.one
  refine ⟨a, b.trans h, le_trans ?_ hx.low, hx.high.trans (by nlinarith)⟩
  exact div_le_div_of_nonneg_left a.le (by linarith) h

omit [Arith K] in
/-- The error itself. -/
theorem err (hx : Within val x x0 r) : |val x - x0| ≤ x0 * (r - 1) := by
  have a := hx.pos
  have b := hx.one
  rw [abs_le]
  refine ⟨?_, by linarith [hx.high]⟩
  have : x0 * (2 - r) ≤ x0 / r := by
    rw [le_div_iff₀ (by linarith)]
    nlinarith [mul_nonneg a.le (sq_nonneg (r - 1))]
  linarith [hx.low]

omit [Arith K] in
theorem of_err {e : ℝ} (hx0 : 0 < x0) (hr : 1 ≤ r) (h : |val x - x0| ≤ e) (he : e ≤ x0 * (1 - 1 / r)) :
    Within val x x0 r := by
  obtain ⟨h1, h2⟩ := abs_le.1 h
  refine ⟨hx0, hr, ?_, ?_⟩
  · have : x0 * (1 - 1 / r) = x0 - x0 / r := by ring
    linarith
  · have : 1 - 1 / r ≤ r - 1 := by
      have : 1 / r + r ≥ 2 := by
        have hr0 : 0 < r := by linarith
        rw [ge_iff_le, div_add' _ _ _ hr0.ne', le_div_iff₀ hr0]
        nlinarith [sq_nonneg (r - 1)]
      linarith
    nlinarith

end Within

theorem Near.sub (hu : RelativeOps K val u) {x y : K} {x0 y0 s t X Y : ℝ} (hx : Near val x x0 s X)
    (hy : Near val y y0 t Y) : Near val (Arith.sub x y) (x0 - y0) (s + t) ((X + Y) * (1 + u)) := by
  refine ⟨(abs_sub _ _).trans (add_le_add hx.size hy.size), ?_⟩
  have h1 := hu.sub x y
  have h2 : |val x - val y - (x0 - y0)| ≤ X - s + (Y - t) := by
    have e : val x - val y - (x0 - y0) = (val x - x0) - (val y - y0) := by ring
    rw [e]
    exact (abs_sub _ _).trans (add_le_add hx.err hy.err)
  have h3 : |val x - val y| ≤ X + Y := (abs_sub _ _).trans (add_le_add hx.bound hy.bound)
  have h4 := mul_le_mul_of_nonneg_left h3 hu.nonneg
  have h5 := abs_add_le (val (Arith.sub x y) - (val x - val y)) (val x - val y - (x0 - y0))
  rw [sub_add_sub_cancel] at h5
  nlinarith

theorem determinantK_near (hu : RelativeOps K val u) {A : Matrix (Fin 3) (Fin 3) K} {A0 : Matrix (Fin 3) (Fin 3) ℝ}
    {s X : ℝ} (h : NearMat val A A0 s X) :
    |val (Arith.abs (determinantK A)) - (|A0.det|)| ≤ 6 * (X ^ 3 * (1 + u) ^ 5 - s ^ 3) := by
  have m (a b c d : Fin 3) (e f g k : Fin 3) :=
    ((h a b).mul hu.toRelative (h c d)).sub hu ((h e f).mul hu.toRelative (h g k))
  have n (i j : Fin 3) (a b c d : Fin 3) (e f g k : Fin 3) := (h i j).mul hu.toRelative (m a b c d e f g k)
  have q := ((n 0 0 1 1 2 2 1 2 2 1).sub hu (n 0 1 1 0 2 2 1 2 2 0)).add hu.toRelative (n 0 2 1 0 2 1 1 1 2 0)
  have hX : 0 ≤ X := (h 0 0).nonneg.trans (h 0 0).le
  have hu0 := hu.nonneg
  rw [hu.abs]
  refine (abs_abs_sub_abs_le _ _).trans ?_
  have e : A0.det = A0 0 0 * (A0 1 1 * A0 2 2 - A0 1 2 * A0 2 1) - A0 0 1 * (A0 1 0 * A0 2 2 - A0 1 2 * A0 2 0) +
      A0 0 2 * (A0 1 0 * A0 2 1 - A0 1 1 * A0 2 0) := by
    rw [Matrix.det_fin_three]
    ring
  rw [e]
  refine q.err.trans ?_
  have h1 : 0 ≤ X ^ 3 := by positivity
  have h2 : (1 + u) ^ 4 ≤ (1 + u) ^ 5 := pow_le_pow_right₀ (by linarith) (by norm_num)
  have h3 := mul_le_mul_of_nonneg_left h2 h1
  nlinarith

/-- The literal for `π`. -/
theorem piLit_err : |(piLit : ℝ) - Real.pi| ≤ 1 / 2 ^ 62 * Real.pi := by
  have h1 := Real.pi_gt_d20
  have h2 := Real.pi_lt_d20
  have e : (piLit : ℝ) = 3.1415926535897932385 := by
    norm_num [piLit]
  rw [e, abs_le]
  constructor <;> norm_num at * <;> linarith

theorem twoPiK_within (hu : RelativeOps K val u) (hmin : 1 / 2 ^ 60 ≤ u) :
    Within val (twoPiK : K) (2 * Real.pi) ((1 / (1 - u)) ^ 3) := by
  have hw := one_le_w hu.nonneg hu.lt_one
  have hp := Real.pi_pos
  have h2 : Within val (ofInt 2 : K) 2 1 := by
    have := hu.ofInt 2 (by norm_num)
    exact ⟨by norm_num, le_rfl, by rw [this]; norm_num, by rw [this]; norm_num⟩
  have hpi : Within val (ofRat piLit : K) Real.pi (1 / (1 - u) * (1 / (1 - u))) := by
    obtain ⟨a, b⟩ := abs_le.1 piLit_err
    refine Within.of_rel hu.nonneg hu.lt_one hp hw ?_ ?_ (hu.ofRat piLit)
    · rw [div_div_eq_mul_div, div_one]
      have : 1 / 2 ^ 62 ≤ u := le_trans (by norm_num) hmin
      nlinarith
    · have h3 := add_le_w hu.nonneg hu.lt_one
      have : 1 / 2 ^ 62 ≤ u := le_trans (by norm_num) hmin
      nlinarith
  have := h2.mul hu hpi
  have e : 1 * (1 / (1 - u) * (1 / (1 - u))) * (1 / (1 - u)) = (1 / (1 - u)) ^ 3 := by ring
  rwa [e] at this

/-- The volume. -/
theorem volK_within (hu : RelativeOps K val u) {lat_param : K} {lattice : Matrix (Fin 3) (Fin 3) K} {s0 : ℝ}
    {A0 : Matrix (Fin 3) (Fin 3) ℝ} {L ρ : ℝ} (hs : ReadAs val u lat_param s0) (hA : ∀ i j, ReadAs val u (lattice i j) (A0 i j))
    (hL : ∀ i j, |(s0 • A0) i j| ≤ L) (hV : (s0 • A0).det ≠ 0) (hρ : 1 ≤ ρ) (h : VolumeRight u L |(s0 • A0).det| ρ) :
    Within val (volK lat_param lattice) |(s0 • A0).det| ρ := by
  have hu0 := hu.nonneg
  have near : NearMat val (scaledK lat_param lattice) (s0 • A0) L (L * (1 + u) ^ 3) := fun i j => by
    have a : Near val lat_param s0 |s0| (|s0| * (1 + u)) := ⟨le_rfl, by have := hs; unfold ReadAs at this; linarith⟩
    have b : Near val (lattice i j) (A0 i j) |A0 i j| (|A0 i j| * (1 + u)) :=
      ⟨le_rfl, by have := hA i j; unfold ReadAs at this; linarith⟩
    have c := a.mul hu.toRelative b
    have hsz := hL i j
    rw [Matrix.smul_apply, smul_eq_mul] at hsz ⊢
    refine ⟨hsz, c.err.trans ?_⟩
    rw [abs_mul] at hsz
    have : 1 ≤ (1 + u) ^ 3 := one_le_pow₀ (by linarith)
    nlinarith
  have d := determinantK_near hu near
  refine Within.of_err (abs_pos.2 hV) hρ d (le_trans (le_of_eq ?_) h)
  ring

/-- The volume of the reciprocal cell. -/
theorem rVolK_within (hu : RelativeOps K val u) (hmin : 1 / 2 ^ 60 ≤ u)
    {inverse : Matrix (Fin 3) (Fin 3) K → Matrix (Fin 3) (Fin 3) K}
    {lat_param : K} {lattice : Matrix (Fin 3) (Fin 3) K} {U0 : Matrix (Fin 3) (Fin 3) ℝ} {l ι ρ : ℝ}
    (hinv : CloseTo val (inverse fun i j => scaledK lat_param lattice j i) (U0ᵀ)⁻¹ ι l) (hV : U0.det ≠ 0) (hρ : 1 ≤ ρ)
    (h : ReciprocalRight u ι l |U0.det| ρ) :
    Within val (rVolK inverse lat_param lattice) ((2 * Real.pi) ^ 3 / |U0.det|) ρ := by
  have hu0 := hu.nonneg
  have hw := one_le_w hu.nonneg hu.lt_one
  have hp := Real.pi_pos
  have hV' := abs_pos.2 hV
  have tp := twoPiK_within hu hmin
  have tp' : Near val (twoPiK : K) (2 * Real.pi) (2 * Real.pi) (2 * Real.pi * (1 / (1 - u)) ^ 3) :=
    ⟨by rw [abs_of_pos (by positivity)], by have := tp.err; linarith⟩
  have near : NearMat val (fun i j => mul twoPiK (inverse (fun i j => scaledK lat_param lattice j i) i j))
      ((2 * Real.pi) • (U0ᵀ)⁻¹) (2 * Real.pi * l) (2 * Real.pi * (1 / (1 - u)) ^ 3 * (l + ι) * (1 + u)) := fun i j => by
    rw [Matrix.smul_apply, smul_eq_mul]
    exact tp'.mul hu.toRelative (nearMat_of_close hinv i j)
  have d := determinantK_near hu near
  have e : |((2 * Real.pi) • (U0ᵀ)⁻¹).det| = (2 * Real.pi) ^ 3 / |U0.det| := by
    rw [det_smul, Fintype.card_fin, det_nonsing_inv, det_transpose, Ring.inverse_eq_inv', abs_mul, abs_inv,
      abs_of_pos (by positivity)]
    rfl
  rw [e] at d
  refine Within.of_err (by positivity) hρ d ?_
  have hl : 0 ≤ l := (abs_nonneg _).trans (hinv.size 0 0)
  have hι : 0 ≤ ι := (abs_nonneg _).trans (hinv.err 0 0)
  have h1 := add_le_w hu.nonneg hu.lt_one
  have h2 : (2 * Real.pi * (1 / (1 - u)) ^ 3 * (l + ι) * (1 + u)) ^ 3 * (1 + u) ^ 5 ≤
      (2 * Real.pi) ^ 3 * ((l + ι) ^ 3 / (1 - u) ^ 17) := by
    have h3 : (1 + u) ^ 8 ≤ (1 / (1 - u)) ^ 8 := pow_le_pow_left₀ (by linarith) h1 8
    have e2 : (2 * Real.pi * (1 / (1 - u)) ^ 3 * (l + ι) * (1 + u)) ^ 3 * (1 + u) ^ 5 =
        (2 * Real.pi) ^ 3 * (l + ι) ^ 3 * (1 / (1 - u)) ^ 9 * (1 + u) ^ 8 := by ring
    have e3 : (2 * Real.pi) ^ 3 * ((l + ι) ^ 3 / (1 - u) ^ 17) =
        (2 * Real.pi) ^ 3 * (l + ι) ^ 3 * (1 / (1 - u)) ^ 9 * (1 / (1 - u)) ^ 8 := by
      rw [one_div, inv_pow, inv_pow]
      have : (1 - u) ≠ 0 := by linarith [hu.lt_one]
      field_simp
    rw [e2, e3]
    exact mul_le_mul_of_nonneg_left h3 (by positivity)
  have h4 : (2 * Real.pi) ^ 3 / |U0.det| * (6 * |U0.det| * ((l + ι) ^ 3 / (1 - u) ^ 17 - l ^ 3)) ≤
      (2 * Real.pi) ^ 3 / |U0.det| * (1 - 1 / ρ) := mul_le_mul_of_nonneg_left h (by positivity)
  refine le_trans ?_ h4
  have e4 : (2 * Real.pi) ^ 3 / |U0.det| * (6 * |U0.det| * ((l + ι) ^ 3 / (1 - u) ^ 17 - l ^ 3)) =
      6 * ((2 * Real.pi) ^ 3 * ((l + ι) ^ 3 / (1 - u) ^ 17) - (2 * Real.pi * l) ^ 3) := by
    field_simp
  rw [e4]
  linarith

end AutoGR.Fortran
