import Verif.Model.RoundedTransform
import Verif.Model.Rounded
import Verif.Spec.Relative
import Verif.Spec.ErrorBounds
import Verif.Spec.Float
import Verif.Lemmas.Grid
import Mathlib.Tactic

/-!
# Errors of matrix products in arithmetic with a relative error
-/

namespace AutoGR.Fortran

open Arith Matrix
open AutoGR.Spec

section
variable {K : Type} {val : K → ℝ} {u : ℝ}

/-- `x` stands for `x0`, of size at most `s`, with an error at most `X - s`; so `x` is at most `X`. -/
structure Near (val : K → ℝ) (x : K) (x0 s X : ℝ) : Prop where
  size : |x0| ≤ s
  err : |val x - x0| ≤ X - s

namespace Near
variable {x y : K} {x0 y0 s t X Y : ℝ}

theorem le (h : Near val x x0 s X) : s ≤ X := by linarith [abs_nonneg (val x - x0), h.err]
theorem nonneg (h : Near val x x0 s X) : 0 ≤ s := (abs_nonneg _).trans h.size
theorem bound (h : Near val x x0 s X) : |val x| ≤ X := by
  have := abs_add_le (val x - x0) x0
  rw [sub_add_cancel] at this
  linarith [h.size, h.err]

theorem mul [Arith K] (hu : Relative K val u) (hx : Near val x x0 s X) (hy : Near val y y0 t Y) :
    Near val (Arith.mul x y) (x0 * y0) (s * t) (X * Y * (1 + u)) := by
  have hs := hx.nonneg
  have ht := hy.nonneg
  have hX := hx.le
  have hY := hy.le
  refine ⟨by rw [abs_mul]; exact mul_le_mul hx.size hy.size (abs_nonneg _) hs, ?_⟩
  have h1 := hu.mul x y
  have h2 : |val x * val y - x0 * y0| ≤ X * Y - s * t := by
    have e : val x * val y - x0 * y0 = (val x - x0) * val y + x0 * (val y - y0) := by ring
    rw [e]
    refine (abs_add_le _ _).trans ?_
    rw [abs_mul, abs_mul]
    have a := mul_le_mul hx.err hy.bound (abs_nonneg _) (by linarith)
    have b := mul_le_mul hx.size hy.err (abs_nonneg _) hs
    nlinarith
  have h3 : |val x * val y| ≤ X * Y := by
    rw [abs_mul]
    exact mul_le_mul hx.bound hy.bound (abs_nonneg _) (by linarith)
  have h4 := mul_le_mul_of_nonneg_left h3 hu.nonneg
  have h5 := abs_add_le (val (Arith.mul x y) - val x * val y) (val x * val y - x0 * y0)
  rw [sub_add_sub_cancel] at h5
  nlinarith

theorem add [Arith K] (hu : Relative K val u) (hx : Near val x x0 s X) (hy : Near val y y0 t Y) :
    Near val (Arith.add x y) (x0 + y0) (s + t) ((X + Y) * (1 + u)) := by
  refine ⟨(abs_add_le _ _).trans (add_le_add hx.size hy.size), ?_⟩
  have h1 := hu.add x y
  have h2 : |val x + val y - (x0 + y0)| ≤ X - s + (Y - t) := by
    have e : val x + val y - (x0 + y0) = (val x - x0) + (val y - y0) := by ring
    rw [e]
    exact (abs_add_le _ _).trans (add_le_add hx.err hy.err)
  have h3 : |val x + val y| ≤ X + Y := (abs_add_le _ _).trans (add_le_add hx.bound hy.bound)
  have h4 := mul_le_mul_of_nonneg_left h3 hu.nonneg
  have h5 := abs_add_le (val (Arith.add x y) - (val x + val y)) (val x + val y - (x0 + y0))
  rw [sub_add_sub_cancel] at h5
  nlinarith

theorem mono (hx : Near val x x0 s X) (h : X ≤ Y) : Near val x x0 s Y :=
  ⟨hx.size, by linarith [hx.err]⟩

/-- The size is known to be smaller. -/
theorem shrink (hx : Near val x x0 s X) (h : |x0| ≤ t) : Near val x x0 t (t + (X - s)) :=
  ⟨h, by linarith [hx.err]⟩

end Near

/-- Each entry of `A` stands for that of `A0`. -/
def NearMat (val : K → ℝ) (A : Matrix (Fin 3) (Fin 3) K) (A0 : Matrix (Fin 3) (Fin 3) ℝ) (s X : ℝ) : Prop :=
  ∀ i j, Near val (A i j) (A0 i j) s X

theorem nearMat_of_close {A : Matrix (Fin 3) (Fin 3) K} {A0 : Matrix (Fin 3) (Fin 3) ℝ} {δ L : ℝ}
    (h : CloseTo val A A0 δ L) : NearMat val A A0 L (L + δ) := fun i j =>
  ⟨h.size i j, by linarith [h.err i j]⟩

theorem nearMat_int [Arith K] (hu : Relative K val u) {M : Mat3} {N : ℝ} (hN : N ≤ 2 ^ 53)
    (h : ∀ i j, |(M i j : ℝ)| ≤ N) : NearMat val (intMat M) (castMat M) N N := fun i j => by
  refine ⟨by simpa [castMat] using h i j, ?_⟩
  have hz : |M i j| ≤ 2 ^ 53 := by exact_mod_cast (h i j).trans hN
  have : val (intMat M i j) = ((M i j : ℤ) : ℝ) := hu.ofInt _ hz
  rw [this]
  simp [castMat]

theorem size_mul {A B : Matrix (Fin 3) (Fin 3) ℝ} {s t : ℝ} (hs : 0 ≤ s) (hA : ∀ i j, |A i j| ≤ s)
    (hB : ∀ i j, |B i j| ≤ t) (i j : Fin 3) : |(A * B) i j| ≤ 3 * s * t := by
  have p (k : Fin 3) : |A i k * B k j| ≤ s * t := by
    rw [abs_mul]
    exact mul_le_mul (hA i k) (hB k j) (abs_nonneg _) hs
  simp only [Matrix.mul_apply, Fin.sum_univ_three]
  have a := abs_add_le (A i 0 * B 0 j + A i 1 * B 1 j) (A i 2 * B 2 j)
  have b := abs_add_le (A i 0 * B 0 j) (A i 1 * B 1 j)
  linarith [p 0, p 1, p 2]

theorem nearMat_mul [Arith K] (hu : Relative K val u) {A B : Matrix (Fin 3) (Fin 3) K}
    {A0 B0 : Matrix (Fin 3) (Fin 3) ℝ} {s X t Y : ℝ} (hA : NearMat val A A0 s X) (hB : NearMat val B B0 t Y) :
    NearMat val (matmulK A B) (A0 * B0) (3 * s * t) (3 * X * Y * (1 + u) ^ 3) := fun i j => by
  have p (k : Fin 3) := (hA i k).mul hu (hB k j)
  have q := ((p 0).add hu (p 1)).add hu (p 2)
  have e : (A0 * B0) i j = A0 i 0 * B0 0 j + A0 i 1 * B0 1 j + A0 i 2 * B0 2 j := by
    simp only [Matrix.mul_apply, Fin.sum_univ_three]
  rw [e]
  have hX : 0 ≤ X := (hA 0 0).nonneg.trans (hA 0 0).le
  have hY : 0 ≤ Y := (hB 0 0).nonneg.trans (hB 0 0).le
  have hu0 := hu.nonneg
  have es : s * t + s * t + s * t = 3 * s * t := by ring
  rw [es] at q
  refine q.mono ?_
  have h1 : 0 ≤ X * Y := by positivity
  have e2 : ((X * Y * (1 + u) + X * Y * (1 + u)) * (1 + u) + X * Y * (1 + u)) * (1 + u) =
      X * Y * (2 * (1 + u) ^ 3 + (1 + u) ^ 2) := by ring
  rw [e2]
  have h2 : (1 + u) ^ 2 ≤ (1 + u) ^ 3 := pow_le_pow_right₀ (by linarith) (by norm_num)
  nlinarith

end

theorem relative_rat : Relative ℚ (fun q : ℚ => (q : ℝ)) 0 where
  nonneg := le_refl _
  add x y := by
    show |((x + y : ℚ) : ℝ) - (x + y)| ≤ _
    push_cast
    simp
  mul x y := by
    show |((x * y : ℚ) : ℝ) - (x * y)| ≤ _
    push_cast
    simp
  ofInt z _ := by
    show (((z : ℤ) : ℚ) : ℝ) = z
    norm_cast

theorem relative_rounded {fl : ℚ → ℚ} (h : Binary64 fl) :
    Relative (Rounded fl) (fun x => (x.q : ℝ)) (1 / 2 ^ 53) := by
  have close (q : ℚ) : |(fl q : ℝ) - q| ≤ 1 / 2 ^ 53 * |(q : ℝ)| := by
    have := (Rat.cast_le (K := ℝ)).2 (h.close q)
    push_cast at this
    linarith
  refine ⟨by positivity, fun x y => ?_, fun x y => ?_, fun z hz => ?_⟩
  · have := close (x.q + y.q)
    push_cast at this
    exact this
  · have := close (x.q * y.q)
    push_cast at this
    exact this
  · show ((fl z : ℚ) : ℝ) = z
    rw [h.exact z hz]
    norm_cast

end AutoGR.Fortran
