import Verif.Model.RoundedPack
import Verif.Spec.PackErr
import Verif.Lemmas.RoundedInput
import Mathlib.Analysis.InnerProductSpace.PiL2

/-!
# Errors of lengths and of the packing fraction
-/

namespace AutoGR.Fortran

open Arith Matrix
open AutoGR.Spec

variable {K : Type} [Arith K] {val : K → ℝ} {u : ℝ}

/-- The determinant with its sign. -/
theorem determinantK_signed (hu : RelativeOps K val u) {A : Matrix (Fin 3) (Fin 3) K} {A0 : Matrix (Fin 3) (Fin 3) ℝ}
    {s X : ℝ} (h : NearMat val A A0 s X) :
    |val (determinantK A) - A0.det| ≤ 6 * (X ^ 3 * (1 + u) ^ 5 - s ^ 3) := by
  have m (a b c d : Fin 3) (e f g k : Fin 3) :=
    ((h a b).mul hu.toRelative (h c d)).sub hu ((h e f).mul hu.toRelative (h g k))
  have n (i j : Fin 3) (a b c d : Fin 3) (e f g k : Fin 3) := (h i j).mul hu.toRelative (m a b c d e f g k)
  have q := ((n 0 0 1 1 2 2 1 2 2 1).sub hu (n 0 1 1 0 2 2 1 2 2 0)).add hu.toRelative (n 0 2 1 0 2 1 1 1 2 0)
  have hX : 0 ≤ X := (h 0 0).nonneg.trans (h 0 0).le
  have hu0 := hu.nonneg
  have e : A0.det = A0 0 0 * (A0 1 1 * A0 2 2 - A0 1 2 * A0 2 1) - A0 0 1 * (A0 1 0 * A0 2 2 - A0 1 2 * A0 2 0) +
      A0 0 2 * (A0 1 0 * A0 2 1 - A0 1 1 * A0 2 0) := by
    rw [Matrix.det_fin_three]
    ring
  rw [e]
  refine q.err.trans ?_
  have h1 : 0 ≤ X ^ 3 := by positivity
  have h2 : (1 + u) ^ 4 ≤ (1 + u) ^ 5 := pow_le_pow_right₀ (by linarith) (by norm_num)
  have h3 := mul_le_mul_of_nonneg_left h2 h1
  nlinarith

/-- The length of the `j`-th vector of a basis. -/
theorem gridLength_col (M : Matrix (Fin 3) (Fin 3) ℝ) (j : Fin 3) :
    gridLength M (Pi.single j 1) = √(M 0 j ^ 2 + M 1 j ^ 2 + M 2 j ^ 2) := by
  unfold gridLength
  congr 1
  have : (fun l => (((Pi.single j 1 : Fin 3 → ℤ) l : ℤ) : ℝ)) = Pi.single j 1 := by
    funext l
    by_cases h : l = j
    · subst h; simp
    · simp [h]
  rw [this, Fin.sum_univ_three]
  simp only [mulVec_single_one]
  rfl

/-- Errors of coordinates and errors of lengths. -/
theorem gridLength_err {M M0 : Matrix (Fin 3) (Fin 3) ℝ} {γ : ℝ} (h : ∀ i j, |M i j - M0 i j| ≤ γ) (j : Fin 3) :
    |gridLength M (Pi.single j 1) - gridLength M0 (Pi.single j 1)| ≤ 2 * γ := by
  have hγ : 0 ≤ γ := (abs_nonneg _).trans (h 0 0)
  let x : EuclideanSpace ℝ (Fin 3) := WithLp.toLp 2 fun i => M i j
  let y : EuclideanSpace ℝ (Fin 3) := WithLp.toLp 2 fun i => M0 i j
  have e (M : Matrix (Fin 3) (Fin 3) ℝ) : gridLength M (Pi.single j 1) =
      ‖(WithLp.toLp 2 fun i => M i j : EuclideanSpace ℝ (Fin 3))‖ := by
    rw [gridLength_col, EuclideanSpace.norm_eq, Fin.sum_univ_three]
    simp [sq_abs]
  rw [e, e]
  refine (abs_norm_sub_norm_le x y).trans ?_
  rw [EuclideanSpace.norm_eq, Fin.sum_univ_three]
  have b (i : Fin 3) : ‖(x - y) i‖ ^ 2 ≤ γ ^ 2 := by
    have : (x - y) i = M i j - M0 i j := rfl
    rw [this, Real.norm_eq_abs]
    exact pow_le_pow_left₀ (abs_nonneg _) (h i j) 2
  rw [Real.sqrt_le_iff]
  exact ⟨by linarith, by nlinarith [b 0, b 1, b 2]⟩

/-- The numbers that a computed matrix stands for. -/
def valMat (val : K → ℝ) (G : Matrix (Fin 3) (Fin 3) K) : Matrix (Fin 3) (Fin 3) ℝ := fun i j => val (G i j)

/-- The computed length of a basis vector, for the coordinates as they are. -/
theorem normsK_within (hu : RelativeOps K val u) {sqrt : K → K} (hr : RootRight val u sqrt)
    {G : Matrix (Fin 3) (Fin 3) K} {j : Fin 3} (hp : 0 < gridLength (valMat val G) (Pi.single j 1)) :
    Within val (normsK sqrt G j) (gridLength (valMat val G) (Pi.single j 1)) ((1 / (1 - u)) ^ 3) := by
  have hu0 := hu.nonneg
  have hu1 := hu.lt_one
  rw [gridLength_col] at hp ⊢
  simp only [valMat] at hp ⊢
  set q := val (G 0 j) ^ 2 + val (G 1 j) ^ 2 + val (G 2 j) ^ 2 with hq
  have hq0 : 0 < q := Real.sqrt_pos.1 hp
  have sqs (i : Fin 3) : val (G i j) ^ 2 * (1 - u) ≤ val (mul (G i j) (G i j)) ∧
      val (mul (G i j) (G i j)) ≤ val (G i j) ^ 2 * (1 + u) := by
    have := hu.mul (G i j) (G i j)
    rw [abs_of_nonneg (mul_self_nonneg (val (G i j)))] at this
    obtain ⟨a, b⟩ := abs_le.1 this
    constructor <;> nlinarith
  have sums {x y : K} {a b p r : ℝ} (ha : 0 ≤ a) (hb : 0 ≤ b) (hp : 0 ≤ p) (hx1 : a * p ≤ val x) (hy1 : b * p ≤ val y)
      (hx2 : val x ≤ a * r) (hy2 : val y ≤ b * r) :
      (a + b) * (p * (1 - u)) ≤ val (add x y) ∧ val (add x y) ≤ (a + b) * (r * (1 + u)) := by
    have h0 : 0 ≤ val x + val y := by
      have := mul_nonneg ha hp
      have := mul_nonneg hb hp
      linarith
    have := hu.add x y
    rw [abs_of_nonneg h0] at this
    obtain ⟨c, d⟩ := abs_le.1 this
    constructor <;> nlinarith
  have s1 := sums (sq_nonneg _) (sq_nonneg _) (by linarith) (sqs 0).1 (sqs 1).1 (sqs 0).2 (sqs 1).2
  have third : val (G 2 j) ^ 2 * ((1 - u) * (1 - u)) ≤ val (mul (G 2 j) (G 2 j)) ∧
      val (mul (G 2 j) (G 2 j)) ≤ val (G 2 j) ^ 2 * ((1 + u) * (1 + u)) := by
    obtain ⟨a, b⟩ := sqs 2
    have n := sq_nonneg (val (G 2 j))
    constructor
    · exact le_trans (mul_le_mul_of_nonneg_left (by nlinarith) n) a
    · exact le_trans b (mul_le_mul_of_nonneg_left (by nlinarith) n)
  have s2 := sums (add_nonneg (sq_nonneg _) (sq_nonneg _)) (sq_nonneg (val (G 2 j)))
    (mul_nonneg (by linarith) (by linarith)) s1.1 third.1 s1.2 third.2
  have d1 : q * (1 - u) ^ 3 ≤ val (dotK G j) := by
    have := s2.1
    rw [← hq] at this
    calc q * (1 - u) ^ 3 = q * ((1 - u) * (1 - u) * (1 - u)) := by ring
      _ ≤ _ := this
  have d2 : val (dotK G j) ≤ q * (1 + u) ^ 3 := by
    have := s2.2
    rw [← hq] at this
    calc _ ≤ q * ((1 + u) * (1 + u) * (1 + u)) := this
      _ = q * (1 + u) ^ 3 := by ring
  have hd : 0 ≤ val (dotK G j) := le_trans (by have : 0 ≤ 1 - u := by linarith
                                               positivity) d1
  have r1 : √q * (1 - u) ^ 2 ≤ √(val (dotK G j)) := by
    rw [Real.le_sqrt' (by have : 0 < 1 - u := by linarith
                          positivity), mul_pow, Real.sq_sqrt hq0.le]
    refine le_trans (mul_le_mul_of_nonneg_left ?_ hq0.le) d1
    rw [← pow_mul]
    exact pow_le_pow_of_le_one (by linarith) (by linarith) (by norm_num)
  have r2 : √(val (dotK G j)) ≤ √q * (1 + u) ^ 2 := by
    rw [Real.sqrt_le_left (by positivity), mul_pow, Real.sq_sqrt hq0.le]
    refine d2.trans (mul_le_mul_of_nonneg_left ?_ hq0.le)
    rw [← pow_mul]
    exact pow_le_pow_right₀ (by linarith) (by norm_num)
  have w2 : Within (fun x : ℝ => x) (√(val (dotK G j))) (√q) ((1 / (1 - u)) ^ 2) := by
    refine ⟨hp, one_le_pow₀ (one_le_w hu0 hu1), ?_, r2.trans ?_⟩
    · refine le_trans (le_of_eq ?_) r1
      have : 1 - u ≠ 0 := by linarith
      field_simp
    · exact mul_le_mul_of_nonneg_left (pow_le_pow_left₀ (by linarith) (add_le_w hu0 hu1) 2) hp.le
  have hroot := hr (dotK G j) hd
  have := Within.of_rel hu0 hu1 w2.pos w2.one w2.low w2.high (z := normsK sqrt G j) (val := val) (by
    rw [abs_of_nonneg (Real.sqrt_nonneg _)]
    exact hroot)
  have e : (1 / (1 - u)) ^ 2 * (1 / (1 - u)) = (1 / (1 - u)) ^ 3 := by ring
  rwa [e] at this

omit [Arith K] in
/-- Two factors. -/
theorem Within.trans {x : K} {x0 x1 r s : ℝ} (h : Within val x x1 r) (h' : Within (fun y : ℝ => y) x1 x0 s) :
    Within val x x0 (r * s) := by
  have a := h'.pos
  have b := h.one
  have c := h'.one
  refine ⟨a, by nlinarith, le_trans ?_ h.low, h.high.trans ?_⟩
  · rw [mul_comm, ← div_div]
    exact div_le_div_of_nonneg_right h'.low (by linarith)
  · calc x1 * r ≤ x0 * s * r := mul_le_mul_of_nonneg_right h'.high (by linarith)
      _ = x0 * (r * s) := by ring

/-- The computed smallest length. -/
theorem tempRminK_within (hu : RelativeOps K val u) (hc : Compares K val) {sqrt : K → K} (hr : RootRight val u sqrt)
    {G : Matrix (Fin 3) (Fin 3) K} {G0 : Matrix (Fin 3) (Fin 3) ℝ} {γ s ℓ σ : ℝ} (hG : CloseTo val G G0 γ s)
    (hℓ : 0 < ℓ) (hσ : 1 ≤ σ) (hlen : LengthRight γ ℓ σ) {j : Fin 3} (hj : gridLength G0 (Pi.single j 1) = ℓ)
    (hmin : ∀ i, ℓ ≤ gridLength G0 (Pi.single i 1)) :
    Within val (tempRminK sqrt G) ℓ ((1 / (1 - u)) ^ 3 * σ) := by
  have hall (i : Fin 3) : Within val (normsK sqrt G i) (gridLength G0 (Pi.single i 1)) ((1 / (1 - u)) ^ 3 * σ) := by
    have e := gridLength_err (M := valMat val G) (M0 := G0) hG.err i
    have hpos : 0 < gridLength G0 (Pi.single i 1) := lt_of_lt_of_le hℓ (hmin i)
    have w : Within (fun y : ℝ => y) (gridLength (valMat val G) (Pi.single i 1))
        (gridLength G0 (Pi.single i 1)) σ := by
      refine Within.of_err hpos hσ e (hlen.trans (mul_le_mul_of_nonneg_right (hmin i) ?_))
      rw [sub_nonneg, div_le_one (by linarith)]
      exact hσ
    refine (normsK_within hu hr ?_).trans w
    exact lt_of_lt_of_le (div_pos hpos (by linarith)) w.low
  have hone := (hall j).one
  have key (x : K) (hx : ∃ i, x = normsK sqrt G i) (hle : ∀ i, val x ≤ val (normsK sqrt G i)) :
      Within val x ℓ ((1 / (1 - u)) ^ 3 * σ) := by
    obtain ⟨i, rfl⟩ := hx
    refine ⟨hℓ, hone, le_trans ?_ (hall i).low, (hle j).trans ?_⟩
    · exact div_le_div_of_nonneg_right (hmin i) (by linarith)
    · rw [← hj]
      exact (hall j).high
  have hmk (x y : K) : (minK x y = x ∨ minK x y = y) ∧ val (minK x y) ≤ val x ∧ val (minK x y) ≤ val y := by
    unfold minK
    split_ifs with h
    · exact ⟨.inl rfl, le_rfl, (hc x y).1 h⟩
    · refine ⟨.inr rfl, ?_, le_rfl⟩
      by_contra hn
      exact h ((hc x y).2 (by linarith))
  obtain ⟨a1, a2, a3⟩ := hmk (normsK sqrt G 0) (normsK sqrt G 1)
  obtain ⟨b1, b2, b3⟩ := hmk (minK (normsK sqrt G 0) (normsK sqrt G 1)) (normsK sqrt G 2)
  refine key _ ?_ ?_
  · unfold tempRminK
    rcases b1 with b | b <;> rw [b]
    · rcases a1 with a | a <;> rw [a]
      exacts [⟨0, rfl⟩, ⟨1, rfl⟩]
    · exact ⟨2, rfl⟩
  · intro i
    unfold tempRminK
    fin_cases i
    · exact b2.trans a2
    · exact b2.trans a3
    · exact b3

/-- The literal for `π`, as it is stored. -/
theorem piK_within (hu : RelativeOps K val u) (hmin : 1 / 2 ^ 60 ≤ u) :
    Within val (ofRat piLit : K) Real.pi ((1 / (1 - u)) ^ 2) := by
  have hw := one_le_w hu.nonneg hu.lt_one
  have hp := Real.pi_pos
  obtain ⟨a, b⟩ := abs_le.1 piLit_err
  have : 1 / 2 ^ 62 ≤ u := le_trans (by norm_num) hmin
  have := Within.of_rel (r := 1 / (1 - u)) hu.nonneg hu.lt_one hp hw (by
    rw [div_div_eq_mul_div, div_one]
    nlinarith) (by
    have h3 := add_le_w hu.nonneg hu.lt_one
    nlinarith) (hu.ofRat piLit)
  have e : 1 / (1 - u) * (1 / (1 - u)) = (1 / (1 - u)) ^ 2 := by ring
  rwa [e] at this

theorem ofInt_within (hu : RelativeOps K val u) {z : ℤ} (h0 : 0 < z) (h1 : z ≤ 2 ^ 53) :
    Within val (ofInt z : K) z 1 := by
  have := hu.ofInt z (by rw [abs_of_pos h0]; exact h1)
  exact ⟨by exact_mod_cast h0, le_rfl, by rw [this, div_one], by rw [this, mul_one]⟩

/-- The numerator of the packing fraction: the volume of a ball. -/
theorem ball_within (hu : RelativeOps K val u) (hmin : 1 / 2 ^ 60 ≤ u) {x : K} {ℓ r : ℝ} (h : Within val x ℓ r) :
    Within val (div (mul (mul (ofInt 4) (ofRat piLit)) (cubeK (div x (ofInt 2)))) (ofInt 3)) (Real.pi / 6 * ℓ ^ 3)
      (r ^ 3 * (1 / (1 - u)) ^ 10) := by
  have h4 := ofInt_within (val := val) hu (z := 4) (by norm_num) (by norm_num)
  have h2 := ofInt_within (val := val) hu (z := 2) (by norm_num) (by norm_num)
  have h3 := ofInt_within (val := val) hu (z := 3) (by norm_num) (by norm_num)
  have := ((((h4.mul hu (piK_within hu hmin)).mul hu ((h.div hu h2).cube hu))).div hu h3)
  have e1 : ((4 : ℤ) : ℝ) * Real.pi * (ℓ / (2 : ℤ)) ^ 3 / (3 : ℤ) = Real.pi / 6 * ℓ ^ 3 := by
    push_cast
    ring
  rw [e1] at this
  refine this.mono (le_of_eq ?_)
  ring

end AutoGR.Fortran
