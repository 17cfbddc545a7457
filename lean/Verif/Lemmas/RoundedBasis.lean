import Verif.Lemmas.MayTable
import Verif.Lemmas.MayCheck
import Verif.Props.RoundedTransform
import Verif.Props.LatticeSym

/-! # The stored bases, reduced in rounded arithmetic -/

namespace AutoGR

open Spec Arith Matrix Fortran

section
variable {K : Type} [Arith K] {val : K → ℝ} {η : ℝ} {k : ℕ} {O : RMat ℚ} {O' : RMat K} {eps τ : K} {S good : List IMat}
  {a b : ℚ}

theorem fits_parts {T : IMat} (h : fits O T = true) :
    (∀ i j, |(T.toMat i j : ℝ)| ≤ 4) ∧ (atQ O T).A ≤ 64 ∧ (atQ O T).B ≤ 64 ∧ (atQ O T).C ≤ 64 := by
  unfold fits at h
  simp only [Bool.and_eq_true, decide_eq_true_eq, List.all_eq_true] at h
  obtain ⟨⟨⟨h1, h2⟩, h3⟩, h4⟩ := h
  refine ⟨fun i j => ?_, h2, h3, h4⟩
  have : |T.toMat i j| ≤ 4 := by
    apply h1
    fin_cases i <;> fin_cases j <;> simp [IMat.toMat]
  exact_mod_cast this

/-- The exact metric of the cell `O T`. -/
theorem atQ_metric (O : RMat ℚ) (T : IMat) :
    (realMat O.toMatrix * toReal T.toMat)ᵀ * (realMat O.toMatrix * toReal T.toMat) =
      metric ((atQ O T).A : ℚ) ((atQ O T).B : ℚ) ((atQ O T).C : ℚ) ((atQ O T).xi / 2 : ℚ) ((atQ O T).eta / 2 : ℚ)
        ((atQ O T).zeta / 2 : ℚ) := by
  have e : realMat O.toMatrix * toReal T.toMat = realMat (matmulI O T).toMatrix := by
    ext i j
    rw [mul_apply, Fin.sum_univ_three]
    fin_cases i <;> fin_cases j <;>
      simp [realMat, toReal, RMat.toMatrix, IMat.toMat, matmulI, Arith.add, Arith.mul, Arith.ofInt]
  rw [e]
  unfold atQ
  generalize matmulI O T = N
  ext i j
  rw [mul_apply, Fin.sum_univ_three]
  fin_cases i <;> fin_cases j <;>
    simp [realMat, RMat.toMatrix, metric, fGetParams, fCol, dot, Arith.add, Arith.mul, Arith.ofInt, transpose_apply] <;> ring

/-- The literals of the program are close to the decimals. -/
theorem stored_close (hK : Accurate K val 1000 η) (hO : fBasis k = some O) (hO' : fBasis k = some O') :
    CloseTo val O'.toMatrix (realMat O.toMatrix) η 4 := by
  have hs (i j : Fin 3) : |(realMat O.toMatrix) i j| ≤ 4 := by
    have := (Rat.cast_le (K := ℝ)).2 (Fortran.basis_size hO i j)
    push_cast at this
    exact this
  refine ⟨fun i j => ?_, hs⟩
  have e : O'.toMatrix i j = ofRat (O.toMatrix i j) := by
    rw [Fortran.fBasis_literals hO hO']
    fin_cases i <;> fin_cases j <;> rfl
  rw [e]
  exact hK.ofRat _ ((hs i j).trans (by norm_num))

theorem stored_follows (hK : Accurate K val 1000 η) (hη : η ≤ 2 / 10 ^ 13)
    (hc : CloseTo val O'.toMatrix (realMat O.toMatrix) η 4) :
    Follows val O O' τ (1 / 10 ^ 9) 128 := by
  intro st hr hfit
  have h0 := hK.nonneg
  obtain ⟨hT, hA, hB, hC⟩ := fits_parts hfit
  have hN : ∃ N : RMat K, st.p = fGetParams N τ ∧
      ∀ i j, |val (N.toMatrix i j) - (realMat O.toMatrix * toReal st.trans.toMat) i j| ≤ 17 * η := by
    rcases hr.params with hp | ⟨hp, hp'⟩
    · refine ⟨_, hp, fun i j => ?_⟩
      have := cell_close (c := 4) hK hc hT (by norm_num) (by linarith) i j
      refine this.trans ?_
      unfold cellErr
      linarith
    · refine ⟨_, hp', fun i j => ?_⟩
      rw [hp, show IMat.one.toMat = 1 by decide, toReal_one, Matrix.mul_one]
      have := hc.err i j
      linarith
  obtain ⟨N, hp, hN⟩ := hN
  have cast64 {q : ℚ} (h : q ≤ 64) : (q : ℝ) ≤ 8 ^ 2 := by
    have : ((q : ℚ) : ℝ) ≤ ((64 : ℚ) : ℝ) := by exact_mod_cast h
    norm_num at this ⊢
    exact this
  have hd : dotErr η (17 * η) 8 ≤ 4 / 10 ^ 10 := by
    unfold dotErr
    have : η ^ 2 ≤ 1 * η := by
      rw [sq]
      exact mul_le_mul_of_nonneg_right (by linarith [show (2 : ℝ) / 10 ^ 13 ≤ 1 by norm_num]) h0
    nlinarith
  have h6 := six_cell (τ := τ) (ℓ := 8) hK hN (atQ_metric O st.trans) (by norm_num) (cast64 hA) (cast64 hB) (cast64 hC)
    (by norm_num) (by linarith)
  rw [← hp] at h6
  have e (q : ℚ) : 2 * ((q / 2 : ℚ) : ℝ) = q := by push_cast; ring
  have m1 : 2 * dotErr η (17 * η) 8 + η ≤ 1 / 10 ^ 9 := by linarith
  have m2 : (2 : ℝ) * 8 ^ 2 ≤ 128 := by norm_num
  exact ⟨h6.a.mono m1 m2, h6.b.mono m1 m2, h6.c.mono m1 m2, by have := h6.d.mono m1 m2; rwa [e] at this,
    by have := h6.e.mono m1 m2; rwa [e] at this, by have := h6.f.mono m1 m2; rwa [e] at this, h6.l, h6.m, h6.n⟩

/-- The tolerance of `reduce_cell` is between the bounds, and the errors are small. -/
theorem stored_fine (hK : Accurate K val 1000 η) (hη : η ≤ 2 / 10 ^ 13)
    (hcl : CloseTo val O'.toMatrix (realMat O.toMatrix) η 4) {s : ℚ} (s1 : 1 / 2 ≤ s) (s2 : s ≤ 4)
    (d1 : (s - 1 / 10 ^ 8) ^ 3 + 1 / 10 ^ 10 ≤ |rdet O|) (d2 : |rdet O| + 1 / 10 ^ 10 ≤ (s + 1 / 10 ^ 8) ^ 3)
    (ha : 1 / 10 ^ 6 ≤ a) (hb : b ≤ 1) (h1 : (a : ℝ) ≤ val eps) (h2 : val eps ≤ b) :
    Finer K val 1000 η (cellTol O' eps) (a * s - 3 / 10 ^ 8) (b * s + 3 / 10 ^ 8) (1 / 10 ^ 8) (1 / 10 ^ 9) 128 := by
  have h0 := hK.nonneg
  have b1' : (a : ℝ) ≤ val eps := h1
  have ha1 : (1 / 10 ^ 6 : ℝ) ≤ a := by
    have := (Rat.cast_le (K := ℝ)).2 ha
    push_cast at this
    exact this
  have ha' : (0 : ℝ) ≤ a := le_trans (by norm_num) ha1
  have hb' : (b : ℝ) ≤ 1 := by exact_mod_cast hb
  have s1' : (1 / 2 : ℝ) ≤ s := by
    have := (Rat.cast_le (K := ℝ)).2 s1
    push_cast at this
    exact this
  have s2' : (s : ℝ) ≤ 4 := by exact_mod_cast s2
  have d1' : ((s : ℝ) - 1 / 10 ^ 8) ^ 3 + 1 / 10 ^ 10 ≤ |((rdet O : ℚ) : ℝ)| := by
    have := (Rat.cast_le (K := ℝ)).2 d1
    push_cast at this
    exact this
  have d2' : |((rdet O : ℚ) : ℝ)| + 1 / 10 ^ 10 ≤ ((s : ℝ) + 1 / 10 ^ 8) ^ 3 := by
    have := (Rat.cast_le (K := ℝ)).2 d2
    push_cast at this
    exact this
  have hsq : η ^ 2 ≤ 1 / 10 ^ 3 * η := by
    rw [sq]
    exact mul_le_mul_of_nonneg_right (by linarith [show (2 : ℝ) / 10 ^ 13 ≤ 1 / 10 ^ 3 by norm_num]) h0
  have hcu : η ^ 3 ≤ 1 / 10 ^ 3 * η := by
    have : η ^ 3 = η * η ^ 2 := by ring
    rw [this]
    nlinarith
  have hp : prodErr η η 4 ≤ 10 * η := by unfold prodErr; linarith
  have hp0 : 0 ≤ prodErr η η 4 := by unfold prodErr; positivity
  have hde : detErr η η 4 ≤ 450 * η := by
    unfold detErr tripleErr
    have : η * (2 * prodErr η η 4 + η) ≤ η * (21 * η) := mul_le_mul_of_nonneg_left (by linarith) h0
    nlinarith
  have hdet := rep_det hK hcl (by linarith) (by linarith)
  have hdr : (realMat O.toMatrix).det = ((rdet O : ℚ) : ℝ) := by
    have e := RingHom.map_det (Rat.castHom ℝ) O.toMatrix
    rw [rdet_eq]
    simpa [realMat, RingHom.mapMatrix_apply] using e.symm
  rw [hdr] at hdet
  have hv : |((rdet O : ℚ) : ℝ)| ≤ 500 := by
    have : ((s : ℝ) + 1 / 10 ^ 8) ^ 3 ≤ 5 ^ 3 := by gcongr; linarith
    linarith
  have b1 := abs_sub_abs_le_abs_sub (val (rdet O')) ((rdet O : ℚ) : ℝ)
  have b2 := abs_sub_abs_le_abs_sub ((rdet O : ℚ) : ℝ) (val (rdet O'))
  rw [abs_sub_comm ((rdet O : ℚ) : ℝ)] at b2
  obtain ⟨c0, c1, c2⟩ := hK.cbrt (abs (rdet O')) (by rw [hK.abs]; exact abs_nonneg _)
    (by rw [hK.abs]; linarith)
  rw [hK.abs] at c1 c2
  set x := val (cbrt (abs (rdet O'))) with hx
  have x1 : (s : ℝ) - 1 / 10 ^ 8 ≤ x + η :=
    le_of_pow_le_pow_left₀ (n := 3) (by norm_num) (by linarith) (by linarith)
  have x2 : x - η ≤ (s : ℝ) + 1 / 10 ^ 8 := by
    by_contra hn
    rw [not_le] at hn
    have := pow_lt_pow_left₀ hn (by linarith) (n := 3) (by norm_num)
    linarith
  have he : 0 ≤ val eps := ha'.trans h1
  have hm := hK.mul eps (cbrt (abs (rdet O'))) (by
    rw [← hx, abs_of_nonneg (mul_nonneg he c0)]
    nlinarith)
  rw [← hx] at hm
  have hm' := abs_le.1 hm
  have y1 : (a : ℝ) * s - (1 / 10 ^ 8 + η) ≤ val eps * x := by
    have e1 : (a : ℝ) * (s - 1 / 10 ^ 8 - η) ≤ val eps * x :=
      mul_le_mul h1 (by linarith) (by linarith) he
    have e2 : (a : ℝ) * (1 / 10 ^ 8 + η) ≤ 1 * (1 / 10 ^ 8 + η) :=
      mul_le_mul_of_nonneg_right (by linarith) (by linarith)
    linarith
  have y2 : val eps * x ≤ (b : ℝ) * s + (1 / 10 ^ 8 + η) := by
    have e1 : val eps * x ≤ (b : ℝ) * (s + 1 / 10 ^ 8 + η) :=
      mul_le_mul h2 (by linarith) c0 (by linarith)
    have e2 : (b : ℝ) * (1 / 10 ^ 8 + η) ≤ 1 * (1 / 10 ^ 8 + η) :=
      mul_le_mul_of_nonneg_right hb' (by linarith)
    linarith
  have hτ0 : (cellTol O' eps) = mul eps (cbrt (abs (rdet O'))) := rfl
  have hbs : (b : ℝ) * s ≤ 4 := by
    have : (b : ℝ) * s ≤ 1 * s := mul_le_mul_of_nonneg_right hb' (by linarith)
    linarith
  have has : 1 / 10 ^ 6 * (1 / 2) ≤ (a : ℝ) * s := mul_le_mul ha1 s1' (by norm_num) ha'
  have ht : 0 ≤ val (cellTol O' eps) := by rw [hτ0]; linarith
  refine ⟨⟨hK, ⟨?_, ?_⟩, by norm_num, ?_, by norm_num, ?_, ht⟩, ?_, ?_⟩
  · rw [hτ0]; push_cast; linarith
  · rw [hτ0]; push_cast; linarith
  · push_cast; linarith
  · rw [hτ0]; linarith
  · push_cast; linarith
  · rw [hτ0]; linarith

/-- The transformation that `reduce_cell` finds in rounded arithmetic is one of the list. -/
theorem stored_mem {equal : K → K → K → Bool} (hK : Accurate K val 1000 η) (hη : η ≤ 2 / 10 ^ 13)
    (h : storedOk k a b S good = true) (hO' : fBasis k = some O') (ha : 1 / 10 ^ 6 ≤ a) (hb : b ≤ 1)
    (h1 : (a : ℝ) ≤ val eps) (h2 : val eps ≤ b) {Co : IMat} (hr : reduceCell equal O' (some eps) = .ok Co) :
    Co ∈ good := by
  unfold storedOk at h
  cases hO : (fBasis k : Option (RMat ℚ)) with
  | none => rw [hO] at h; cases h
  | some O =>
    rw [hO] at h
    simp only [Bool.and_eq_true, decide_eq_true_eq] at h
    obtain ⟨⟨⟨⟨s1, s2⟩, d1⟩, d2⟩, hc⟩ := h
    generalize Arith.cbrt |rdet O| = s at s1 s2 d1 d2 hc
    exact reduceCell_may rfl (stored_fine hK hη (stored_close hK hO hO') s1 s2 d1 d2 ha hb h1 h2).toFine (stored_follows hK hη (stored_close hK hO hO')) hc hr

/-- The volume of the basis is not small. -/
theorem stored_volume (hK : Accurate K val 1000 η) (hη : η ≤ 2 / 10 ^ 13)
    (hcl : CloseTo val O'.toMatrix (realMat O.toMatrix) η 4) {s : ℚ} (s1 : 1 / 2 ≤ s)
    (d1 : (s - 1 / 10 ^ 8) ^ 3 + 1 / 10 ^ 10 ≤ |rdet O|) : 1 / 10 ≤ |val (rdet O')| := by
  have h0 := hK.nonneg
  have hsq : η ^ 2 ≤ 1 / 10 ^ 3 * η := by
    rw [sq]
    exact mul_le_mul_of_nonneg_right (by linarith [show (2 : ℝ) / 10 ^ 13 ≤ 1 / 10 ^ 3 by norm_num]) h0
  have hcu : η ^ 3 ≤ 1 / 10 ^ 3 * η := by
    have : η ^ 3 = η * η ^ 2 := by ring
    rw [this]
    nlinarith
  have hp : prodErr η η 4 ≤ 10 * η := by unfold prodErr; linarith
  have hp0 : 0 ≤ prodErr η η 4 := by unfold prodErr; positivity
  have hde : detErr η η 4 ≤ 450 * η := by
    unfold detErr tripleErr
    have : η * (2 * prodErr η η 4 + η) ≤ η * (21 * η) := mul_le_mul_of_nonneg_left (by linarith) h0
    nlinarith
  have hdet := rep_det hK hcl (by linarith) (by linarith)
  have hdr : (realMat O.toMatrix).det = ((rdet O : ℚ) : ℝ) := by
    have e := RingHom.map_det (Rat.castHom ℝ) O.toMatrix
    rw [rdet_eq]
    simpa [realMat, RingHom.mapMatrix_apply] using e.symm
  rw [hdr] at hdet
  have b2 := abs_sub_abs_le_abs_sub ((rdet O : ℚ) : ℝ) (val (rdet O'))
  rw [abs_sub_comm ((rdet O : ℚ) : ℝ)] at b2
  have q : (12 / 100 : ℚ) ≤ |rdet O| := by
    have : (1 / 2 - 1 / 10 ^ 8 : ℚ) ^ 3 ≤ (s - 1 / 10 ^ 8) ^ 3 :=
      pow_le_pow_left₀ (by norm_num) (by linarith) 3
    norm_num at this
    linarith
  have q' := (Rat.cast_le (K := ℝ)).2 q
  push_cast at q'
  linarith

/-- Within 30 passes the reduction of the basis of class `k` ends, for all tolerances from `a` to `b`. -/
def storedRuns (k : ℕ) (a b : ℚ) : Bool :=
  match (fBasis k : Option (RMat ℚ)) with
  | none => false
  | some O =>
    let s := Arith.cbrt |rdet O|
    decide (1 / 2 ≤ s) && decide (s ≤ 4) && decide ((s - 1 / 10 ^ 8) ^ 3 + 1 / 10 ^ 10 ≤ |rdet O|) &&
      decide (|rdet O| + 1 / 10 ^ 10 ≤ (s + 1 / 10 ^ 8) ^ 3) &&
      runs O (a * s - 3 / 10 ^ 8) (b * s + 3 / 10 ^ 8) (1 / 10 ^ 8) 30 IMat.one

/-- `reduce_cell` returns a result. -/
theorem stored_runs {equal : K → K → K → Bool} (hK : Accurate K val 1000 η) (hη : η ≤ 2 / 10 ^ 13)
    (h : storedRuns k a b = true) (hO' : fBasis k = some O') (ha : 1 / 10 ^ 6 ≤ a) (hb : b ≤ 1)
    (h1 : (a : ℝ) ≤ val eps) (h2 : val eps ≤ b) 
    (h0 : ∀ x : K, 1 / 10 ≤ |val x| → equal x (ofInt 0) (ofRat (1 / 1000000)) = false) :
    ∃ Co, reduceCell equal O' (some eps) = .ok Co := by
  unfold storedRuns at h
  cases hO : (fBasis k : Option (RMat ℚ)) with
  | none => rw [hO] at h; cases h
  | some O =>
    rw [hO] at h
    simp only [Bool.and_eq_true, decide_eq_true_eq] at h
    obtain ⟨⟨⟨⟨s1, s2⟩, d1⟩, d2⟩, hc⟩ := h
    generalize Arith.cbrt |rdet O| = s at s1 s2 d1 d2 hc
    exact reduceCell_runs rfl (stored_fine hK hη (stored_close hK hO hO') s1 s2 d1 d2 ha hb h1 h2) (stored_follows hK hη (stored_close hK hO hO'))
      (by norm_num) hc (h0 _ (stored_volume hK hη (stored_close hK hO hO') s1 d1))

end

end AutoGR
