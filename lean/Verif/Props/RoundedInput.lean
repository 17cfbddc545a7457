import Verif.Lemmas.RoundedInput
import Verif.Lemmas.Float

/-!
# C124: the density keywords in floating point

`get_inputs` turns `KPDENSITY`, `KSPACING` and `RMIN` into a number of points.  All of this is done in floating point, from
a cell that was rounded when it was read.  The number is at most one off.
-/

namespace AutoGR.Fortran

open Arith Matrix
open AutoGR.Spec

/-- Exact arithmetic is arithmetic with any relative error. -/
theorem relativeOps_rat {u : ℝ} (h0 : 0 ≤ u) (h1 : u < 1) : RelativeOps ℚ (fun q : ℚ => (q : ℝ)) u where
  nonneg := h0
  lt_one := h1
  add x y := by
    show |((x + y : ℚ) : ℝ) - (x + y)| ≤ _
    push_cast
    simpa using mul_nonneg h0 (abs_nonneg _)
  mul x y := by
    show |((x * y : ℚ) : ℝ) - (x * y)| ≤ _
    push_cast
    simpa using mul_nonneg h0 (mul_nonneg (abs_nonneg _) (abs_nonneg _))
  ofInt z _ := by
    show (((z : ℤ) : ℚ) : ℝ) = z
    norm_cast
  sub x y := by
    show |((x - y : ℚ) : ℝ) - (x - y)| ≤ _
    push_cast
    simpa using mul_nonneg h0 (abs_nonneg _)
  div x y := by
    show |((x / y : ℚ) : ℝ) - (x / y)| ≤ _
    push_cast
    rw [sub_self, abs_zero]
    exact mul_nonneg h0 (abs_nonneg _)
  abs x := by
    show ((|x| : ℚ) : ℝ) = |(x : ℝ)|
    push_cast
    rfl
  ofRat q := by
    show |(q : ℝ) - q| ≤ _
    rw [sub_self, abs_zero]
    exact mul_nonneg h0 (abs_nonneg _)

/-- Binary64 has the relative error `2^-53`. -/
theorem relativeOps_rounded {fl : ℚ → ℚ} (h : Binary64 fl) :
    RelativeOps (Rounded fl) (fun x => (x.q : ℝ)) (1 / 2 ^ 53) := by
  have close (q : ℚ) : |(fl q : ℝ) - q| ≤ 1 / 2 ^ 53 * |(q : ℝ)| := by
    have := (Rat.cast_le (K := ℝ)).2 (h.close q)
    push_cast at this
    linarith
  refine ⟨relative_rounded h, by norm_num, fun x y => ?_, fun x y => ?_, fun x => ?_, close⟩
  · have := close (x.q - y.q)
    push_cast at this
    exact this
  · have := close (x.q / y.q)
    push_cast at this
    exact this
  · show ((|x.q| : ℚ) : ℝ) = |(x.q : ℝ)|
    push_cast
    rfl

/-- Integers are read exactly. -/
theorem readAs_int {K : Type} [Arith K] {val : K → ℝ} {u : ℝ} (hu : RelativeOps K val u) {z : ℤ} (hz : |z| ≤ 2 ^ 53) {x : ℝ}
    (hx : (z : ℝ) = x) : ReadAs val u (ofInt z) x := by
  unfold ReadAs
  rw [hu.ofInt z hz, hx, sub_self, abs_zero]
  exact mul_nonneg hu.nonneg (abs_nonneg _)

section
variable {K : Type} [Arith K] {val : K → ℝ} {u : ℝ} {nint : K → ℤ}
  {inverse : Matrix (Fin 3) (Fin 3) K → Matrix (Fin 3) (Fin 3) K} {lat_param : K} {lattice : Matrix (Fin 3) (Fin 3) K}
  {U : Matrix (Fin 3) (Fin 3) ℝ} {l ι ρ : ℝ}

omit [Arith K] in
theorem nint_within (hn : ∀ x, |(nint x : ℝ) - val x| ≤ 1 / 2) {x : K} {x0 r : ℝ} (h : Within val x x0 r) :
    |(nint x : ℝ) - x0| ≤ 1 / 2 + x0 * (r - 1) := by
  have := abs_add_le ((nint x : ℝ) - val x) (val x - x0)
  rw [sub_add_sub_cancel] at this
  linarith [hn x, h.err]

/-- **C124, `KPDENSITY`.**  The crystal `U` is read and its reciprocal cell is computed with the errors that
`ReciprocalRight` allows for.  Then the program asks for the number of points that the density `d` means, rounded to an
integer, up to the tiny share `ρ / (1 - u)² - 1` of the number. -/
theorem kpdensity_rounded (hu : RelativeOps K val u) (hmin : 1 / 2 ^ 60 ≤ u) (hn : ∀ x, |(nint x : ℝ) - val x| ≤ 1 / 2)
    (hinv : CloseTo val (inverse fun i j => scaledK lat_param lattice j i) (Uᵀ)⁻¹ ι l) (hU : U.det ≠ 0) (hρ : 1 ≤ ρ)
    (hr : ReciprocalRight u ι l |U.det| ρ) {kpd : K} {d : ℝ} (hd : 0 < d) (hkpd : ReadAs val u kpd d) :
    |(kpdensityK nint kpd (rVolK inverse lat_param lattice) : ℝ) - (densityPoints d |U.det|)| ≤
      1 / 2 + densityPoints d |U.det| * (ρ / (1 - u) ^ 2 - 1) := by
  have h := (Within.of_read hu.nonneg hu.lt_one hd hkpd).mul hu (rVolK_within hu hmin hinv hU hρ hr)
  have e : 1 / (1 - u) * ρ * (1 / (1 - u)) = ρ / (1 - u) ^ 2 := by
    have : 1 - u ≠ 0 := by linarith [hu.lt_one]
    field_simp
  rw [e] at h
  exact nint_within hn h

/-- **C124, `KSPACING`.** -/
theorem kspacing_rounded (hu : RelativeOps K val u) (hmin : 1 / 2 ^ 60 ≤ u) (hn : ∀ x, |(nint x : ℝ) - val x| ≤ 1 / 2)
    (hinv : CloseTo val (inverse fun i j => scaledK lat_param lattice j i) (Uᵀ)⁻¹ ι l) (hU : U.det ≠ 0) (hρ : 1 ≤ ρ)
    (hr : ReciprocalRight u ι l |U.det| ρ) {lkpd : K} {s : ℝ} (hs : 0 < s) (hlkpd : ReadAs val u lkpd s) :
    |(kspacingK nint lkpd (rVolK inverse lat_param lattice) : ℝ) - (spacingPoints s |U.det|)| ≤
      1 / 2 + spacingPoints s |U.det| * (ρ / (1 - u) ^ 21 - 1) := by
  have hV := abs_pos.2 hU
  have hp := Real.pi_pos
  have h1 : Within val (ofInt 1 : K) 1 1 := by
    have := hu.ofInt 1 (by norm_num)
    exact ⟨by norm_num, le_rfl, by rw [this]; norm_num, by rw [this]; norm_num⟩
  have h := ((h1.div hu ((twoPiK_within hu hmin).mul hu (Within.of_read hu.nonneg hu.lt_one hs hlkpd))).cube hu).mul hu
    (rVolK_within hu hmin hinv hU hρ hr)
  have e1 : (1 * ((1 / (1 - u)) ^ 3 * (1 / (1 - u)) * (1 / (1 - u))) * (1 / (1 - u))) ^ 3 * (1 / (1 - u)) ^ 2 * ρ *
      (1 / (1 - u)) = ρ / (1 - u) ^ 21 := by
    have : 1 - u ≠ 0 := by linarith [hu.lt_one]
    field_simp
  have e2 : (1 / (2 * Real.pi * s)) ^ 3 * ((2 * Real.pi) ^ 3 / |U.det|) = spacingPoints s |U.det| := by
    unfold spacingPoints
    field_simp
  rw [e1, e2] at h
  exact nint_within hn h

/-- **C124, `RMIN`.** -/
theorem rmin_rounded (hu : RelativeOps K val u) (hn : ∀ x, |(nint x : ℝ) - val x| ≤ 1 / 2) {s0 : ℝ}
    {A0 : Matrix (Fin 3) (Fin 3) ℝ} {L : ℝ} (hs : ReadAs val u lat_param s0)
    (hA : ∀ i j, ReadAs val u (lattice i j) (A0 i j)) (hL : ∀ i j, |(s0 • A0) i j| ≤ L) (hU : (s0 • A0).det ≠ 0)
    (hρ : 1 ≤ ρ) (hv : VolumeRight u L |(s0 • A0).det| ρ) {rt2 : K} (hrt : ReadAs val u rt2 √2) {rmin : K} {r : ℝ}
    (hr : 0 < r) (hrmin : ReadAs val u rmin r) :
    |(rminK nint rt2 rmin (volK lat_param lattice) : ℝ) - (distancePoints r |(s0 • A0).det|)| ≤
      1 / 2 + distancePoints r |(s0 • A0).det| * (ρ / (1 - u) ^ 8 - 1) := by
  have hw := one_le_w hu.nonneg hu.lt_one
  have h := ((Within.of_read hu.nonneg hu.lt_one hr hrmin).cube hu).div hu
    ((volK_within hu hs hA hL hU hρ hv).mul hu (Within.of_read hu.nonneg hu.lt_one (by positivity) hrt))
  have e1 : (1 / (1 - u)) ^ 3 * (1 / (1 - u)) ^ 2 * (ρ * (1 / (1 - u)) * (1 / (1 - u))) * (1 / (1 - u)) =
      ρ / (1 - u) ^ 8 := by
    have : 1 - u ≠ 0 := by linarith [hu.lt_one]
    field_simp
  rw [e1] at h
  exact nint_within hn h

end

/-- **C124: at most one off.**  A number of points that is wrong by less than a half more than by rounding it to an integer
differs by at most one from the nearest integer. -/
theorem points_one_off {n n0 : ℤ} {x e : ℝ} (h : |(n : ℝ) - x| ≤ 1 / 2 + e) (h0 : |(n0 : ℝ) - x| ≤ 1 / 2) (he : e < 1) :
    |n - n0| ≤ 1 := by
  have h1 : |(n : ℝ) - n0| < 2 := by
    have := abs_sub_le (n : ℝ) x n0
    rw [abs_sub_comm x] at this
    linarith
  have h2 : |n - n0| < 2 := by exact_mod_cast h1
  omega

/-- **C124: the number is right** unless the exact one is close to the middle between two integers. -/
theorem points_right {n n0 : ℤ} {x e : ℝ} (h : |(n : ℝ) - x| ≤ 1 / 2 + e) (h0 : |(n0 : ℝ) - x| < 1 / 2 - e) : n = n0 := by
  have h1 : |(n : ℝ) - n0| < 1 := by
    have := abs_sub_le (n : ℝ) x n0
    rw [abs_sub_comm x] at this
    linarith
  have h2 : |n - n0| < 1 := by exact_mod_cast h1
  have h3 : n - n0 = 0 := by
    rw [← abs_eq_zero]
    have := abs_nonneg (n - n0)
    omega
  omega

/-- **C124: the wish is met.**  With at least one point, there are at least two thirds of the points that are meant, but
for the error. -/
theorem points_share {n : ℤ} {x e : ℝ} (hn : 1 ≤ n) (he : 0 ≤ e) (h : |(n : ℝ) - x| ≤ 1 / 2 + e) :
    x ≤ (3 / 2 + e) * n := by
  have h1 : (1 : ℝ) ≤ n := by exact_mod_cast hn
  have := (abs_le.1 h).1
  nlinarith

/-! ### A cube of side 4 in binary64 -/

/-- Cofactors over the determinant: a way to invert a matrix. -/
def cofactorInverse {K : Type} [Arith K] (A : Matrix (Fin 3) (Fin 3) K) : Matrix (Fin 3) (Fin 3) K := fun i j =>
  div (sub (mul (A (j + 1) (i + 1)) (A (j + 2) (i + 2))) (mul (A (j + 1) (i + 2)) (A (j + 2) (i + 1)))) (determinantK A)

/-- A cube of side 4. -/
def fourCell {K : Type} [Arith K] : Matrix (Fin 3) (Fin 3) K := fun i j => ofInt (if i = j then 4 else 0)

theorem four_det : ((4 : ℝ) • (1 : Matrix (Fin 3) (Fin 3) ℝ)).det = 64 := by
  rw [det_smul, Matrix.det_one, Fintype.card_fin]
  norm_num

theorem four_inverse : CloseTo (fun x : Rounded roundNearest => (x.q : ℝ))
    (cofactorInverse fun i j => scaledK (ofInt 1) fourCell j i) (((4 : ℝ) • (1 : Matrix (Fin 3) (Fin 3) ℝ))ᵀ)⁻¹ 0 (1 / 4) := by
  have h : ∀ i j, (cofactorInverse (fun i j => scaledK (ofInt 1 : Rounded roundNearest) fourCell j i) i j).q =
      if i = j then 1 / 4 else 0 := by
    decide +kernel
  have e : (((4 : ℝ) • (1 : Matrix (Fin 3) (Fin 3) ℝ))ᵀ)⁻¹ = (1 / 4 : ℝ) • (1 : Matrix (Fin 3) (Fin 3) ℝ) := by
    rw [transpose_smul, transpose_one]
    refine inv_eq_right_inv ?_
    rw [smul_mul_smul_comm, Matrix.one_mul]
    norm_num
  rw [e]
  refine ⟨fun i j => ?_, fun i j => ?_⟩
  · simp only [h, Matrix.smul_apply, Matrix.one_apply, smul_eq_mul]
    split_ifs <;> norm_num
  · simp only [Matrix.smul_apply, Matrix.one_apply, smul_eq_mul]
    split_ifs <;> norm_num

theorem nint_rounded (x : Rounded roundNearest) : |((nint x.q : ℤ) : ℝ) - (x.q : ℝ)| ≤ 1 / 2 := by
  have h : |((nint x.q : ℤ) : ℚ) - x.q| ≤ 1 / 2 := by
    unfold nint
    split_ifs
    · have a := Int.floor_le (x.q + 1 / 2)
      have b := Int.lt_floor_add_one (x.q + 1 / 2)
      rw [abs_le]
      constructor <;> linarith
    · have a := Int.le_ceil (x.q - 1 / 2)
      have b := Int.ceil_lt_add_one (x.q - 1 / 2)
      rw [abs_le]
      constructor <;> linarith
  have := (Rat.cast_le (K := ℝ)).2 h
  push_cast at this
  linarith

/-- `KPDENSITY=5000`, as in `README.md`, for a cube of side 4: the program asks for the right number of points, or for one
more or less. -/
example (n0 : ℤ) (h0 : |(n0 : ℝ) - densityPoints 5000 64| ≤ 1 / 2) :
    |kpdensityK (K := Rounded roundNearest) (fun x => nint x.q) (ofRat 5000) (rVolK cofactorInverse (ofInt 1) fourCell) - n0| ≤
      1 := by
  have hu := relativeOps_rounded roundNearest_binary64
  have h := kpdensity_rounded (ρ := 1 + 1 / 10 ^ 12) hu (by norm_num) nint_rounded four_inverse
    (by rw [four_det]; norm_num) (by norm_num)
    (by rw [four_det]; unfold ReciprocalRight; norm_num) (d := 5000) (by norm_num) (kpd := ofRat 5000)
    (by have := hu.ofRat 5000; simpa [ReadAs] using this)
  rw [four_det, abs_of_pos (by norm_num : (0 : ℝ) < 64)] at h
  refine points_one_off h h0 ?_
  have hp := Real.pi_lt_d2
  have hp0 := Real.pi_pos
  have : densityPoints 5000 64 ≤ 5000 * ((2 * 3.15) ^ 3 / 64) := by
    unfold densityPoints
    gcongr
  have h2 : (1 + 1 / 10 ^ 12 : ℝ) / (1 - 1 / 2 ^ 53) ^ 2 - 1 ≤ 1 / 10 ^ 11 := by norm_num
  have h3 : (0 : ℝ) ≤ (1 + 1 / 10 ^ 12 : ℝ) / (1 - 1 / 2 ^ 53) ^ 2 - 1 := by norm_num
  have h4 : (0 : ℝ) ≤ densityPoints 5000 64 := by unfold densityPoints; positivity
  nlinarith [mul_le_mul this h2 h3 (by positivity)]

/-- `KSPACING=0.05` for a cube of side 4: the exact number is 125, and so is that of the program. -/
example : kspacingK (K := Rounded roundNearest) (fun x => nint x.q) (ofRat (1 / 20))
    (rVolK cofactorInverse (ofInt 1) fourCell) = 125 := by
  have hu := relativeOps_rounded roundNearest_binary64
  have h := kspacing_rounded (ρ := 1 + 1 / 10 ^ 12) hu (by norm_num) nint_rounded four_inverse
    (by rw [four_det]; norm_num) (by norm_num)
    (by rw [four_det]; unfold ReciprocalRight; norm_num) (s := 1 / 20) (by norm_num) (lkpd := ofRat (1 / 20))
    (by have := hu.ofRat (1 / 20); simpa [ReadAs] using this)
  rw [four_det, abs_of_pos (by norm_num : (0 : ℝ) < 64)] at h
  refine points_right h ?_
  norm_num [spacingPoints]

/-- `RMIN=20` for a cube of side 4: the exact number is about 88.39, and that of the program is 88. -/
example {rt2 : Rounded roundNearest} (hrt : ReadAs (fun x : Rounded roundNearest => (x.q : ℝ)) (1 / 2 ^ 53) rt2 √2) :
    rminK (fun x => nint x.q) rt2 (ofInt 20) (volK (ofInt 1) fourCell) = 88 := by
  have hu := relativeOps_rounded roundNearest_binary64
  have hA : ∀ i j, ReadAs (fun x : Rounded roundNearest => (x.q : ℝ)) (1 / 2 ^ 53) (fourCell i j)
      (((4 : ℝ) • (1 : Matrix (Fin 3) (Fin 3) ℝ)) i j) := fun i j => by
    refine readAs_int hu (by split_ifs <;> norm_num) ?_
    rw [Matrix.smul_apply, Matrix.one_apply, smul_eq_mul]
    split_ifs <;> norm_num
  have h := rmin_rounded (ρ := 1 + 1 / 10 ^ 12) (L := 4) (s0 := 1) (A0 := (4 : ℝ) • 1) (lat_param := ofInt 1)
    (lattice := fourCell) hu nint_rounded
    (readAs_int hu (by norm_num) (by norm_num)) hA
    (fun i j => by
      rw [one_smul, Matrix.smul_apply, Matrix.one_apply, smul_eq_mul]
      split_ifs <;> norm_num)
    (by rw [one_smul, four_det]; norm_num) (by norm_num)
    (by rw [one_smul, four_det]; unfold VolumeRight; norm_num) hrt (r := 20) (by norm_num) (rmin := ofInt 20)
    (readAs_int hu (by norm_num) (by norm_num))
  rw [one_smul, four_det, abs_of_pos (by norm_num : (0 : ℝ) < 64)] at h
  refine points_right h ?_
  have h1 : (1.414 : ℝ) ≤ √2 := Real.le_sqrt_of_sq_le (by norm_num)
  have h2 : √2 ≤ 1.415 := (Real.sqrt_le_left (by norm_num)).2 (by norm_num)
  have h3 : distancePoints 20 64 ≤ 88.45 := by
    unfold distancePoints
    rw [div_le_iff₀ (by positivity)]
    norm_num
    linarith
  have h4 : 88.3 ≤ distancePoints 20 64 := by
    unfold distancePoints
    rw [le_div_iff₀ (by positivity)]
    norm_num
    linarith
  have h5 : (1 + 1 / 10 ^ 12 : ℝ) / (1 - 1 / 2 ^ 53) ^ 8 - 1 ≤ 1 / 10 ^ 11 := by norm_num
  have h6 : distancePoints 20 64 * ((1 + 1 / 10 ^ 12 : ℝ) / (1 - 1 / 2 ^ 53) ^ 8 - 1) ≤ 88.45 * (1 / 10 ^ 11) :=
    mul_le_mul h3 h5 (by norm_num) (by norm_num)
  have h7 : |(((88 : ℤ) : ℝ)) - distancePoints 20 64| < 0.46 := by
    rw [abs_lt]
    push_cast
    constructor <;> linarith
  refine h7.trans ?_
  have : (88.45 : ℝ) * (1 / 10 ^ 11) < 0.01 := by norm_num
  have h8 : (0.46 : ℝ) < 1 / 2 - 0.01 := by norm_num
  linarith

/-! ### The exact program -/

theorem determinantK_rat (A : Matrix (Fin 3) (Fin 3) ℚ) : determinantK A = A.det := by
  rw [Matrix.det_fin_three]
  show A 0 0 * (A 1 1 * A 2 2 - A 1 2 * A 2 1) - A 0 1 * (A 1 0 * A 2 2 - A 1 2 * A 2 0) +
    A 0 2 * (A 1 0 * A 2 1 - A 1 1 * A 2 0) = _
  ring

/-- In exact arithmetic the volumes are those of the model of `get_inputs`. -/
theorem volumes_exact (natoms : ℤ) (s : ℚ) (A : Matrix (Fin 3) (Fin 3) ℚ) :
    volK s A = (crystalOf natoms s A).vol ∧ rVolK (fun B => B⁻¹) s A = (crystalOf natoms s A).r_vol := by
  have h1 : scaledK s A = s • A := by
    ext i j
    rfl
  constructor
  · unfold volK crystalOf
    rw [determinantK_rat, h1]
    rfl
  · have h2 : (fun i j => scaledK s A j i) = (s • A)ᵀ := by
      rw [h1]
      rfl
    have h3 : determinantK (fun i j => mul twoPiK ((fun B : Matrix (Fin 3) (Fin 3) ℚ => B⁻¹) (fun i j => scaledK s A j i) i j)) =
        ((2 * piLit) • ((s • A)ᵀ)⁻¹).det := by
      rw [h2]
      exact determinantK_rat ((2 * piLit) • ((s • A)ᵀ)⁻¹)
    exact congrArg (fun q : ℚ => |q|) h3

/-- In exact arithmetic the numbers of points are those of the model of `get_inputs`. -/
theorem points_exact (natoms : ℤ) (s : ℚ) (A : Matrix (Fin 3) (Fin 3) ℚ) (rt2 x : ℚ) (hx : x ≠ 0) (hrt : rt2 ≠ 0)
    (hA : (s • A).det ≠ 0) (rd : Reader) {buffer : List Char} (hb : rd.real buffer = some x) (i : Inputs) (val : String → Bool) :
    (inputCase rd rt2 (crystalOf natoms s A) i (· == "KPDENSITY") val buffer).1.nkpts =
      int32 (kpdensityK nint x (rVolK (fun B => B⁻¹) s A)) ∧
    (inputCase rd rt2 (crystalOf natoms s A) i (· == "KSPACING") val buffer).1.nkpts =
      int32 (kspacingK nint x (rVolK (fun B => B⁻¹) s A)) ∧
    (inputCase rd rt2 (crystalOf natoms s A) i (· == "RMIN") val buffer).1.nkpts =
      int32 (rminK nint rt2 x (volK s A)) := by
  obtain ⟨h1, h2⟩ := volumes_exact natoms s A
  have hp : (piLit : ℚ) ≠ 0 := by norm_num [piLit]
  have hv : (crystalOf natoms s A).vol ≠ 0 := abs_ne_zero.2 hA
  rw [h1, h2]
  refine ⟨?_, ?_, ?_⟩
  · simp [inputCase, hb, kpdensityK]
    rfl
  · have e : (((2 : ℤ) : ℚ) * piLit * x) ≠ 0 := by
      simp [hp, hx]
    have e2 : 2 * piLit * x ≠ 0 := by simp [hp, hx]
    simp only [inputCase, hb, kspacingK, divide, cubeK, twoPiK]
    simp only [if_neg e2, Option.bind_some]
    show (if _ then _ else _ : Inputs × Bool).1.nkpts = _
    simp
    congr 2
    show _ = ((((1 : ℤ) : ℚ) / (((2 : ℤ) : ℚ) * piLit * x)) * (((1 : ℤ) : ℚ) / (((2 : ℤ) : ℚ) * piLit * x)) *
      (((1 : ℤ) : ℚ) / (((2 : ℤ) : ℚ) * piLit * x))) * _
    push_cast
    ring
  · have e2 : (crystalOf natoms s A).vol * rt2 ≠ 0 := mul_ne_zero hv hrt
    simp [inputCase, hb, rminK, divide, hv, hrt, cubeK]
    congr 2
    show _ = x * x * x / _
    rw [show x ^ 3 = x * x * x by ring]
    rfl

/-! ### Rounding can change the number -/

/-- A cell of 1 × 1 × 16. -/
def longCell {K : Type} [Arith K] : Matrix (Fin 3) (Fin 3) K := fun i j =>
  ofInt ((![![1, 0, 0], ![0, 1, 0], ![0, 0, 16]] : Fin 3 → Fin 3 → ℤ) i j)

/-- For `KSPACING=0.02` and this cell the number of points is 7812.5, which is rounded up; in binary64 the number is less,
and rounded down. -/
theorem kspacing_other :
    kspacingK (K := ℚ) nint (2 / 100) (rVolK cofactorInverse 1 longCell) = 7813 ∧
    kspacingK (K := Rounded roundNearest) (fun x => nint x.q) (ofRat (2 / 100)) (rVolK cofactorInverse (ofInt 1) longCell) =
      7812 := by
  decide +kernel

end AutoGR.Fortran
