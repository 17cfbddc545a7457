import Verif.Lemmas.RoundedTransform
import Verif.Lemmas.FortranInput
import Verif.Props.FortranKgrid

/-!
# C115: rounding in the change of basis

`transform_supercell` computes `F = nint(No⁻¹ O H O⁻¹ O Co)` in floating point.  `F` must be the integer matrix
`Co⁻¹ H Co`: any other matrix is another supercell, with another number of k-points or other symmetries.  Here the
products are computed in an arithmetic with a relative error, from inverses that are wrong by a known amount.
-/

namespace AutoGR.Fortran

open Arith Matrix
open AutoGR.Spec

section
variable {K : Type} [Arith K] {val : K → ℝ} {u : ℝ}
  {inverse : Matrix (Fin 3) (Fin 3) K → Matrix (Fin 3) (Fin 3) K} {nint : K → ℤ}

/-- C115: if the bound `changeErr` on the error is below one half, the rounded matrix is exactly
`Co⁻¹ H Co`. -/
theorem supercell_exact (hu : Relative K val u) (hn : ∀ x, |val x - nint x| ≤ 1 / 2)
    {H Co Do : IntMat} (hCo : Co * Do = 1) {O No : Matrix (Fin 3) (Fin 3) K}
    {O0 : Matrix (Fin 3) (Fin 3) ℝ} (hdet : O0.det ≠ 0) {δ ι κ o l m c N : ℝ}
    (hO : CloseTo val O O0 δ o) (hOi : CloseTo val (inverse O) O0⁻¹ ι l)
    (hNi : CloseTo val (inverse No) (O0 * toReal Co)⁻¹ κ m)
    (hN : N ≤ 2 ^ 53) (hH : ∀ i j, |(H i j : ℝ)| ≤ N) (hc : c ≤ 2 ^ 53) (hC : ∀ i j, |(Co i j : ℝ)| ≤ c)
    (herr : changeErr u δ ι κ o l m c N < 1 / 2) :
    supercellF inverse nint H No Co O = Do * H * Co := by
  have hun := isUnit_iff_ne_zero.2 hdet
  have cr (M : IntMat) : (castMat M : Matrix (Fin 3) (Fin 3) ℝ) = toReal M := by
    ext i j
    simp [castMat, toReal]
  have nO := nearMat_of_close hO
  have nOi := nearMat_of_close hOi
  have nNi := nearMat_of_close hNi
  have nH := nearMat_int hu hN hH
  have nC := nearMat_int hu hc hC
  rw [cr] at nH nC
  have o0 : 0 ≤ o := (nO 0 0).nonneg
  have p1 := nearMat_mul hu nO nH
  have p2 := nearMat_mul hu p1 nOi
  have p3 := nearMat_mul hu p2 nO
  have e3 : O0 * toReal H * O0⁻¹ * O0 = O0 * toReal H := by
    rw [Matrix.mul_assoc, nonsing_inv_mul _ hun, Matrix.mul_one]
  rw [e3] at p3
  have hs := size_mul o0 hO.size (show ∀ i j, |toReal H i j| ≤ N from fun i j => by
    simpa [toReal] using hH i j)
  have p3' : NearMat val _ (O0 * toReal H) (3 * o * N) _ := fun i j => (p3 i j).shrink (hs i j)
  have p4 := nearMat_mul hu p3' nC
  have p5 := nearMat_mul hu nNi p4
  have e5 : (O0 * toReal Co)⁻¹ * (O0 * toReal H * toReal Co) = toReal (Do * H * Co) := by
    have e2 : (O0 * toReal Co)⁻¹ = toReal Do * O0⁻¹ := by
      apply inv_eq_right_inv
      calc O0 * toReal Co * (toReal Do * O0⁻¹) = O0 * (toReal Co * toReal Do) * O0⁻¹ := by
            simp only [Matrix.mul_assoc]
        _ = 1 := by rw [← toReal_mul, hCo, toReal_one, Matrix.mul_one, mul_nonsing_inv _ hun]
    calc (O0 * toReal Co)⁻¹ * (O0 * toReal H * toReal Co)
        = toReal Do * (O0⁻¹ * O0) * toReal H * toReal Co := by rw [e2]; simp only [Matrix.mul_assoc]
      _ = toReal (Do * H * Co) := by
        rw [nonsing_inv_mul _ hun, Matrix.mul_one, toReal_mul, toReal_mul]
  rw [e5] at p5
  ext i j
  have a := (p5 i j).err
  have b := hn (matmulK (inverse No) (matmulK (matmulK (matmulK (matmulK O (intMat H)) (inverse O)) O)
    (intMat Co)) i j)
  have d : 3 * (m + κ) * (3 * (3 * o * N + (3 * (3 * (3 * (o + δ) * N * (1 + u) ^ 3) * (l + ι) * (1 + u) ^ 3) *
      (o + δ) * (1 + u) ^ 3 - 3 * (3 * (3 * o * N) * l) * o)) * c * (1 + u) ^ 3) * (1 + u) ^ 3 -
      3 * m * (3 * (3 * o * N) * c) = changeErr u δ ι κ o l m c N := by
    unfold changeErr
    ring
  rw [d] at a
  have f : |((nint (matmulK (inverse No) (matmulK (matmulK (matmulK (matmulK O (intMat H)) (inverse O)) O)
      (intMat Co)) i j) : ℤ) : ℝ) - ((Do * H * Co) i j : ℤ)| < 1 := by
    have e : toReal (Do * H * Co) i j = (((Do * H * Co) i j : ℤ) : ℝ) := rfl
    rw [e] at a
    rw [abs_le] at a b
    rw [abs_lt]
    constructor <;> linarith [a.1, a.2, b.1, b.2]
  have g : |nint (matmulK (inverse No) (matmulK (matmulK (matmulK (matmulK O (intMat H)) (inverse O)) O)
      (intMat Co)) i j) - (Do * H * Co) i j| < 1 := by exact_mod_cast f
  have := Int.abs_lt_one_iff.1 g
  show nint (matmulK (inverse No) (matmulK (matmulK (matmulK (matmulK O (intMat H)) (inverse O)) O)
      (intMat Co)) i j) = _
  omega

/-- C115: the supercell that `transform_supercell` returns is then, up to `backErr`, made of the user's cell
vectors and an integer matrix whose determinant is that of `H`. -/
theorem transform_of_exact (hu : Relative K val u)
    {H Co Do Cu Du : IntMat} (hCo : Co * Do = 1) (hCu : Cu * Du = 1) {O No Nu : Matrix (Fin 3) (Fin 3) K}
    {U0 : Matrix (Fin 3) (Fin 3) ℝ} {α ω a f w : ℝ} (hE : supercellF inverse nint H No Co O = Do * H * Co)
    (hNu : CloseTo val Nu (U0 * toReal Cu) α a) (hCi : CloseTo val (inverse (intMat Cu)) (toReal Cu)⁻¹ ω w)
    (hf : f ≤ 2 ^ 53) (hF : ∀ i j, |((Do * H * Co) i j : ℝ)| ≤ f) :
    ∃ M : IntMat, M = Cu * (Do * H * Co) * Du ∧ M.det = H.det ∧
      ∀ i j, |val (transformK inverse nint H No Nu Co Cu O i j) - (U0 * toReal M) i j| ≤ backErr u α ω a f w := by
  refine ⟨Cu * (Do * H * Co) * Du, rfl, ?_, fun i j => ?_⟩
  · have h1 := congrArg det hCo
    have h2 := congrArg det hCu
    rw [det_mul, Matrix.det_one] at h1 h2
    rw [det_mul, det_mul, det_mul, det_mul]
    linear_combination H.det * Cu.det * Du.det * h1 + H.det * h2
  · have cr (M : IntMat) : (castMat M : Matrix (Fin 3) (Fin 3) ℝ) = toReal M := by
      ext i j
      simp [castMat, toReal]
    have nF := nearMat_int hu hf hF
    rw [cr] at nF
    have p1 := nearMat_mul hu (nearMat_of_close hNu) nF
    have p2 := (nearMat_mul hu p1 (nearMat_of_close hCi) i j).err
    have ei : (toReal Cu)⁻¹ = toReal Du := by
      apply inv_eq_right_inv
      rw [← toReal_mul, hCu, toReal_one]
    have e : U0 * toReal Cu * toReal (Do * H * Co) * (toReal Cu)⁻¹ = U0 * toReal (Cu * (Do * H * Co) * Du) := by
      rw [ei]
      simp only [toReal_mul, Matrix.mul_assoc]
    rw [e] at p2
    have d : 3 * (3 * (a + α) * f * (1 + u) ^ 3) * (w + ω) * (1 + u) ^ 3 - 3 * (3 * a * f) * w =
        backErr u α ω a f w := by
      unfold backErr
      ring
    rw [d] at p2
    show |val (matmulK (matmulK Nu (intMat (supercellF inverse nint H No Co O))) (inverse (intMat Cu)) i j) - _| ≤ _
    rw [hE]
    exact p2

/-- C115: both together. -/
theorem transform_close (hu : Relative K val u) (hn : ∀ x, |val x - nint x| ≤ 1 / 2)
    {H Co Do Cu Du : IntMat} (hCo : Co * Do = 1) (hCu : Cu * Du = 1) {O No Nu : Matrix (Fin 3) (Fin 3) K}
    {O0 U0 : Matrix (Fin 3) (Fin 3) ℝ} (hdet : O0.det ≠ 0) {δ ι κ o l m c N α ω a f w : ℝ}
    (hO : CloseTo val O O0 δ o) (hOi : CloseTo val (inverse O) O0⁻¹ ι l)
    (hNi : CloseTo val (inverse No) (O0 * toReal Co)⁻¹ κ m)
    (hN : N ≤ 2 ^ 53) (hH : ∀ i j, |(H i j : ℝ)| ≤ N) (hc : c ≤ 2 ^ 53) (hC : ∀ i j, |(Co i j : ℝ)| ≤ c)
    (herr : changeErr u δ ι κ o l m c N < 1 / 2)
    (hNu : CloseTo val Nu (U0 * toReal Cu) α a) (hCi : CloseTo val (inverse (intMat Cu)) (toReal Cu)⁻¹ ω w)
    (hf : f ≤ 2 ^ 53) (hF : ∀ i j, |((Do * H * Co) i j : ℝ)| ≤ f) :
    ∃ M : IntMat, M = Cu * (Do * H * Co) * Du ∧ M.det = H.det ∧
      ∀ i j, |val (transformK inverse nint H No Nu Co Cu O i j) - (U0 * toReal M) i j| ≤ backErr u α ω a f w :=
  transform_of_exact hu hCo hCu (supercell_exact hu hn hCo hdet hO hOi hNi hN hH hc hC herr) hNu hCi hf hF

end

/-- C115: in exact arithmetic this is `transform_supercell` as used in the other theorems. -/
theorem transformK_exact (H : IntMat) (No Nu : Matrix (Fin 3) (Fin 3) ℚ) (Co Cu : IntMat)
    (O : Matrix (Fin 3) (Fin 3) ℚ) :
    transformK (fun A => A⁻¹) nint H No Nu Co Cu O = transform_supercell H No Nu Co Cu O := by
  have e1 (A B : Matrix (Fin 3) (Fin 3) ℚ) : matmulK A B = A * B := by
    ext i j
    simp only [Matrix.mul_apply, Fin.sum_univ_three]
    rfl
  have e2 (M : IntMat) : (intMat M : Matrix (Fin 3) (Fin 3) ℚ) = castMat M := rfl
  have e3 : supercellF (fun A => A⁻¹) nint H No Co O =
      nintMat (No⁻¹ * (O * castMat H * O⁻¹ * O * castMat Co)) := by
    unfold supercellF
    simp only [e1, e2]
    rfl
  unfold transformK transform_supercell
  simp only [e1, e2, e3]

/-- Non-vacuity of `transform_close`: exact arithmetic, a simple cubic cell, `H` of index 2. -/
example : ∃ M : IntMat, M.det = 2 ∧ ∀ i j,
    |((transformK (fun A : Matrix (Fin 3) (Fin 3) ℚ => A⁻¹) nint !![1, 0, 0; 0, 1, 0; 0, 1, 2] 1 1 1 1 1 i j : ℚ) : ℝ) -
      ((1 : Matrix (Fin 3) (Fin 3) ℝ) * toReal M) i j| ≤ 0 := by
  have one : ∀ i j, |(1 : Matrix (Fin 3) (Fin 3) ℝ) i j| ≤ 1 := fun i j => by
    by_cases h : i = j <;> simp [Matrix.one_apply, h]
  have c : CloseTo (fun q : ℚ => (q : ℝ)) (1 : Matrix (Fin 3) (Fin 3) ℚ) (1 : Matrix (Fin 3) (Fin 3) ℝ) 0 1 :=
    ⟨fun i j => by by_cases h : i = j <;> simp [Matrix.one_apply, h], one⟩
  have i1 : (1 : Matrix (Fin 3) (Fin 3) ℚ)⁻¹ = 1 := inv_one
  have i2 : (1 : Matrix (Fin 3) (Fin 3) ℝ)⁻¹ = 1 := inv_one
  have i3 : (intMat 1 : Matrix (Fin 3) (Fin 3) ℚ) = 1 := castMat_one
  obtain ⟨M, -, h2, h3⟩ := transform_close (K := ℚ) (val := fun q : ℚ => (q : ℝ)) (u := 0)
    (inverse := fun A => A⁻¹) (nint := nint) relative_rat
    (fun x => by
      have := (Rat.cast_le (K := ℝ)).2 (nint_spec x)
      push_cast at this
      exact this)
    (H := !![1, 0, 0; 0, 1, 0; 0, 1, 2]) (Co := 1) (Do := 1) (Cu := 1) (Du := 1) (by decide) (by decide)
    (O := 1) (No := 1) (Nu := 1) (O0 := 1) (U0 := 1) (by rw [Matrix.det_one]; norm_num)
    (δ := 0) (ι := 0) (κ := 0) (o := 1) (l := 1) (m := 1) (c := 1) (N := 2) (α := 0) (ω := 0) (a := 1) (f := 2)
    (w := 1) c (by simpa only [i1, i2] using c) (by simpa only [i1, i2, toReal_one, Matrix.mul_one] using c)
    (by norm_num) (fun i j => by fin_cases i <;> fin_cases j <;> simp) (by norm_num)
    (fun i j => by by_cases h : i = j <;> simp [Matrix.one_apply, h]) (by norm_num [changeErr])
    (by simpa only [toReal_one, Matrix.mul_one] using c)
    (by simpa only [i3, i1, i2, toReal_one] using c) (by norm_num)
    (fun i j => by fin_cases i <;> fin_cases j <;> simp)
  refine ⟨M, by rw [h2]; decide, fun i j => (h3 i j).trans ?_⟩
  norm_num [backErr]

/-! ### The stored bases in binary64 -/

/-- The entries of a stored basis are at most 4 and those of its inverse at most 2 (by cofactors). -/
def basisSmall (O : RMat ℚ) : Bool :=
  [O.m00, O.m01, O.m02, O.m10, O.m11, O.m12, O.m20, O.m21, O.m22].all (fun x => decide (|x| ≤ 4)) &&
  [O.m11 * O.m22 - O.m12 * O.m21, O.m02 * O.m21 - O.m01 * O.m22, O.m01 * O.m12 - O.m02 * O.m11,
   O.m12 * O.m20 - O.m10 * O.m22, O.m00 * O.m22 - O.m02 * O.m20, O.m02 * O.m10 - O.m00 * O.m12,
   O.m10 * O.m21 - O.m11 * O.m20, O.m01 * O.m20 - O.m00 * O.m21, O.m00 * O.m11 - O.m01 * O.m10].all
    (fun x => decide (|x| ≤ 2 * |rdet O|))

theorem fBasis_small {k : ℕ} {O : RMat ℚ} (h : fBasis k = some O) : basisSmall O = true := by
  unfold fBasis at h
  split at h <;> cases h <;> decide +kernel

/-- The entries of the stored basis are the literals of the file, as the arithmetic stores them. -/
theorem fBasis_literals {K : Type} [Arith K] {k : ℕ} {O : RMat ℚ} {O' : RMat K} (h : fBasis k = some O)
    (h' : fBasis k = some O') : O' = ⟨ofRat O.m00, ofRat O.m01, ofRat O.m02, ofRat O.m10, ofRat O.m11,
      ofRat O.m12, ofRat O.m20, ofRat O.m21, ofRat O.m22⟩ := by
  unfold fBasis at h h'
  split at h <;> cases h <;> cases h' <;> rfl

theorem basisSmall_parts {O : RMat ℚ} (h : basisSmall O = true) :
    (∀ x ∈ [O.m00, O.m01, O.m02, O.m10, O.m11, O.m12, O.m20, O.m21, O.m22], |x| ≤ 4) ∧
    ∀ x ∈ [O.m11 * O.m22 - O.m12 * O.m21, O.m02 * O.m21 - O.m01 * O.m22, O.m01 * O.m12 - O.m02 * O.m11,
      O.m12 * O.m20 - O.m10 * O.m22, O.m00 * O.m22 - O.m02 * O.m20, O.m02 * O.m10 - O.m00 * O.m12,
      O.m10 * O.m21 - O.m11 * O.m20, O.m01 * O.m20 - O.m00 * O.m21, O.m00 * O.m11 - O.m01 * O.m10],
      |x| ≤ 2 * |rdet O| := by
  unfold basisSmall at h
  obtain ⟨h1, h2⟩ := Bool.and_eq_true_iff.1 h
  exact ⟨fun x hx => of_decide_eq_true (List.all_eq_true.1 h1 x hx),
    fun x hx => of_decide_eq_true (List.all_eq_true.1 h2 x hx)⟩

theorem basis_size {k : ℕ} {O : RMat ℚ} (h : fBasis k = some O) (i j : Fin 3) : |O.toMatrix i j| ≤ 4 := by
  apply (basisSmall_parts (fBasis_small h)).1
  clear h
  fin_cases i <;> fin_cases j <;> simp [RMat.toMatrix]

theorem basis_inv_size {k : ℕ} {O : RMat ℚ} (h : fBasis k = some O) (i j : Fin 3) : |O.toMatrix⁻¹ i j| ≤ 2 := by
  have hd := fBasis_det h
  have e : O.toMatrix.det = rdet O := (rdet_eq O).symm
  have hp : 0 < |rdet O| := abs_pos.2 hd
  have key : |O.toMatrix.adjugate i j| ≤ 2 * |rdet O| := by
    apply (basisSmall_parts (fBasis_small h)).2
    clear h e hp hd
    rw [Matrix.adjugate_fin_three]
    fin_cases i <;> fin_cases j <;> simp [RMat.toMatrix, neg_add_eq_sub]
  rw [Matrix.inv_def, e, Ring.inverse_eq_inv', Matrix.smul_apply, smul_eq_mul, abs_mul, abs_inv,
    inv_mul_le_iff₀ hp, mul_comm]
  exact key
/-- C115: in binary64, for every class with a stored basis, if `matrix_inverse` is accurate to `10^-12`, the
integers in `Co` and its inverse are at most 4 and those in `H` at most a million, the rounded matrix is exactly
`Co⁻¹ H Co`. -/
theorem supercell_stored {fl : ℚ → ℚ} (hfl : Binary64 fl)
    {inverse : Matrix (Fin 3) (Fin 3) (Rounded fl) → Matrix (Fin 3) (Fin 3) (Rounded fl)}
    {k : ℕ} {O : RMat ℚ} {O' : RMat (Rounded fl)} (hO : fBasis k = some O) (hO' : fBasis k = some O')
    {H Co Do : IntMat} (hCo : Co * Do = 1) {No : Matrix (Fin 3) (Fin 3) (Rounded fl)}
    (hi : ∀ i j, |((inverse O'.toMatrix i j).q : ℝ) - (realMat O.toMatrix)⁻¹ i j| ≤ 1 / 10 ^ 12)
    (hNo : ∀ i j, |((inverse No i j).q : ℝ) - (realMat O.toMatrix * toReal Co)⁻¹ i j| ≤ 1 / 10 ^ 12)
    (hc : ∀ i j, |Co i j| ≤ 4) (hd : ∀ i j, |Do i j| ≤ 4) (hH : ∀ i j, |H i j| ≤ 10 ^ 6) :
    supercellF inverse (fun x => nint x.q) H No Co O'.toMatrix = Do * H * Co := by
  have hdet : O.toMatrix.det ≠ 0 := by rw [← rdet_eq]; exact fBasis_det hO
  have hdet' : (realMat O.toMatrix).det ≠ 0 := by
    have e := RingHom.map_det (Rat.castHom ℝ) O.toMatrix
    have e' : (realMat O.toMatrix).det = ((O.toMatrix.det : ℚ) : ℝ) := by
      simpa [realMat, RingHom.mapMatrix_apply] using e.symm
    rw [e']
    exact_mod_cast hdet
  have hs (i j : Fin 3) : |(realMat O.toMatrix)⁻¹ i j| ≤ 2 := by
    rw [← realMat_inv hdet]
    have := (Rat.cast_le (K := ℝ)).2 (basis_inv_size hO i j)
    push_cast at this
    exact this
  have hs0 (i j : Fin 3) : |(realMat O.toMatrix) i j| ≤ 4 := by
    have := (Rat.cast_le (K := ℝ)).2 (basis_size hO i j)
    push_cast at this
    exact this
  have c1 : CloseTo (fun x : Rounded fl => (x.q : ℝ)) O'.toMatrix (realMat O.toMatrix) (4 / 2 ^ 53) 4 := by
    refine ⟨fun i j => ?_, hs0⟩
    have e : (O'.toMatrix i j).q = fl (O.toMatrix i j) := by
      rw [fBasis_literals hO hO']
      fin_cases i <;> fin_cases j <;> rfl
    have a := (Rat.cast_le (K := ℝ)).2 (hfl.close (O.toMatrix i j))
    have b := hs0 i j
    push_cast at a
    show |((O'.toMatrix i j).q : ℝ) - (O.toMatrix i j : ℝ)| ≤ _
    rw [e]
    refine a.trans ?_
    exact div_le_div_of_nonneg_right b (by positivity)
  have c2 : CloseTo (fun x : Rounded fl => (x.q : ℝ)) (inverse O'.toMatrix) (realMat O.toMatrix)⁻¹
      (1 / 10 ^ 12) 2 := ⟨hi, hs⟩
  have c3 : CloseTo (fun x : Rounded fl => (x.q : ℝ)) (inverse No) (realMat O.toMatrix * toReal Co)⁻¹
      (1 / 10 ^ 12) 24 := by
    refine ⟨hNo, fun i j => ?_⟩
    have hCo' : Do * Co = 1 := mul_eq_one_comm.1 hCo
    have e : (realMat O.toMatrix * toReal Co)⁻¹ = toReal Do * (realMat O.toMatrix)⁻¹ := by
      rw [Matrix.mul_inv_rev]
      congr 1
      apply inv_eq_right_inv
      rw [← toReal_mul, hCo, toReal_one]
    rw [e]
    have := size_mul (A := toReal Do) (s := 4) (by norm_num)
      (fun i j => by simp only [toReal, Matrix.map_apply]; exact_mod_cast hd i j) hs i j
    linarith
  refine supercell_exact (relative_rounded hfl) (fun x => ?_) hCo hdet' c1 c2 c3 (N := 10 ^ 6) (by norm_num)
    (fun i j => by exact_mod_cast hH i j) (c := 4) (by norm_num) (fun i j => by exact_mod_cast hc i j) ?_
  · have := (Rat.cast_le (K := ℝ)).2 (nint_spec x.q)
    push_cast at this
    exact this
  · norm_num [changeErr]

/-- Non-vacuity: the basis of the face centred cubic class, with an inverse that is the exact one, rounded; any
`H` with entries up to a million and `Co` as below. -/
example {fl : ℚ → ℚ} (hfl : Binary64 fl) (H : IntMat) (hH : ∀ i j, |H i j| ≤ 10 ^ 6) :
    let inverse := fun A : Matrix (Fin 3) (Fin 3) (Rounded fl) => ((A.map Rounded.q)⁻¹).map fun q => (⟨fl q⟩ : Rounded fl)
    let Co : IntMat := !![1, 0, 0; 1, 1, 0; 0, 0, 1]
    let Do : IntMat := !![1, 0, 0; -1, 1, 0; 0, 0, 1]
    ∃ O' : RMat (Rounded fl), fBasis 1 = some O' ∧
      supercellF inverse (fun x => nint x.q) H (matmulK O'.toMatrix (intMat Co)) Co O'.toMatrix = Do * H * Co := by
  intro inverse Co Do
  have hf (z : ℤ) (hz : |z| ≤ 2 ^ 53) : fl z = z := hfl.exact z hz
  have f0 : fl 0 = 0 := by simpa using hf 0 (by norm_num)
  have f1 : fl 1 = 1 := by simpa using hf 1 (by norm_num)
  have f2 : fl (1 + 1) = 1 + 1 := by simpa [one_add_one_eq_two] using hf 2 (by norm_num)
  let O : RMat ℚ := ⟨0, 1, 1, 1, 0, 1, 1, 1, 0⟩
  have hO : fBasis 1 = some O := rfl
  let O' : RMat (Rounded fl) := ⟨⟨fl 0⟩, ⟨fl 1⟩, ⟨fl 1⟩, ⟨fl 1⟩, ⟨fl 0⟩, ⟨fl 1⟩, ⟨fl 1⟩, ⟨fl 1⟩, ⟨fl 0⟩⟩
  have hO' : fBasis 1 = some O' := rfl
  refine ⟨O', hO', ?_⟩
  have e1 : O'.toMatrix.map Rounded.q = O.toMatrix := by
    ext i j
    fin_cases i <;> fin_cases j <;> simp [O', O, RMat.toMatrix, f0, f1]
  have e2 : (matmulK O'.toMatrix (intMat Co)).map Rounded.q = O.toMatrix * castMat Co := by
    ext i j
    fin_cases i <;> fin_cases j <;>
      simp [O', O, Co, RMat.toMatrix, matmulK, intMat, castMat, Arith.add, Arith.mul, Arith.ofInt, f0, f1, f2,
        Matrix.mul_apply, Fin.sum_univ_three, Matrix.map_apply]
  have hdet : O.toMatrix.det = 2 := by rw [← rdet_eq]; decide +kernel
  have small {A : Matrix (Fin 3) (Fin 3) ℚ} (hA : ∀ i j, |A i j| ≤ 24) (i j : Fin 3) :
      |((fl (A i j) : ℚ) : ℝ) - (realMat A) i j| ≤ 1 / 10 ^ 12 := by
    have a := (Rat.cast_le (K := ℝ)).2 (hfl.close (A i j))
    have b := (Rat.cast_le (K := ℝ)).2 (hA i j)
    push_cast at a b
    refine a.trans ((div_le_div_of_nonneg_right b (by positivity)).trans ?_)
    norm_num
  have hcr : realMat (castMat Co) = toReal Co := realMat_castMat Co
  have hCd : Co * Do = 1 := by decide
  have hCdet : (castMat Co : Matrix (Fin 3) (Fin 3) ℚ).det = 1 := by
    simp [castMat, Co, Matrix.det_fin_three, Matrix.map_apply]
  refine supercell_stored hfl hO hO' hCd ?_ ?_ (by decide) (by decide) hH
  · intro i j
    rw [← realMat_inv (by rw [hdet]; norm_num)]
    show |((fl ((O'.toMatrix.map Rounded.q)⁻¹ i j) : ℚ) : ℝ) - _| ≤ _
    rw [e1]
    exact small (fun i j => (basis_inv_size hO i j).trans (by norm_num)) i j
  · intro i j
    have hd2 : (O.toMatrix * castMat Co).det ≠ 0 := by rw [det_mul, hdet, hCdet]; norm_num
    rw [← hcr, ← realMat_mul, ← realMat_inv hd2]
    show |((fl (((matmulK O'.toMatrix (intMat Co)).map Rounded.q)⁻¹ i j) : ℚ) : ℝ) - _| ≤ _
    rw [e2]
    refine small (fun i j => ?_) i j
    have e : (O.toMatrix * castMat Co)⁻¹ = castMat Do * O.toMatrix⁻¹ := by
      rw [Matrix.mul_inv_rev]
      congr 1
      apply inv_eq_right_inv
      rw [← castMat_mul, hCd, castMat_one]
    rw [e, Matrix.mul_apply, Fin.sum_univ_three]
    have b := fun i j => abs_le.1 (basis_inv_size hO i j)
    fin_cases i <;> simp [Do, castMat, Matrix.map_apply, abs_le] <;> constructor <;>
      linarith [(b 0 j).1, (b 0 j).2, (b 1 j).1, (b 1 j).2, (b 2 j).1, (b 2 j).2]

end AutoGR.Fortran
