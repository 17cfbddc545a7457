import Verif.Lemmas.RoundedRun

/-! # `niggli.f90` in accurate arithmetic: the ideal cell is found -/

namespace AutoGR

open Spec Arith Classical Matrix

section
variable {K : Type} [Arith K] {val : K → ℝ} {M η δ c L ℓ d : ℝ} {U N : RMat K}
  {U0 N0 : Matrix (Fin 3) (Fin 3) ℝ} {A B C D E F : ℝ}

theorem metric_entries (h : N0ᵀ * N0 = metric A B C D E F) (i j : Fin 3) :
    N0 0 i * N0 0 j + N0 1 i * N0 1 j + N0 2 i * N0 2 j = metric A B C D E F i j := by
  rw [← h, mul_apply, Fin.sum_univ_three]
  rfl

theorem entry_le (h : N0ᵀ * N0 = metric A B C D E F) (l0 : 0 ≤ ℓ) (hA : A ≤ ℓ ^ 2) (hB : B ≤ ℓ ^ 2)
    (hC : C ≤ ℓ ^ 2) (i j : Fin 3) : |N0 i j| ≤ ℓ := by
  have hj := metric_entries h j j
  have : metric A B C D E F j j ≤ ℓ ^ 2 := by
    fin_cases j
    · exact hA
    · exact hB
    · exact hC
  refine abs_le_of_sq_le_sq ?_ l0
  have s0 := sq_nonneg (N0 0 j)
  have s1 := sq_nonneg (N0 1 j)
  have s2 := sq_nonneg (N0 2 j)
  fin_cases i <;> simp only [Fin.zero_eta, Fin.mk_one, Fin.reduceFinMk] <;> nlinarith

theorem cross_le (h : N0ᵀ * N0 = metric A B C D E F) (hA : A ≤ ℓ ^ 2) (hB : B ≤ ℓ ^ 2)
    (hC : C ≤ ℓ ^ 2) (i j : Fin 3) : |metric A B C D E F i j| ≤ ℓ ^ 2 := by
  have hd (j : Fin 3) : metric A B C D E F j j ≤ ℓ ^ 2 := by
    fin_cases j
    · exact hA
    · exact hB
    · exact hC
  have hi := hd i
  have hj := hd j
  rw [← metric_entries h] at hi hj ⊢
  rw [abs_le]
  constructor <;> nlinarith [sq_nonneg (N0 0 i + N0 0 j), sq_nonneg (N0 1 i + N0 1 j), sq_nonneg (N0 2 i + N0 2 j),
    sq_nonneg (N0 0 i - N0 0 j), sq_nonneg (N0 1 i - N0 1 j), sq_nonneg (N0 2 i - N0 2 j)]

theorem products_cell (hK : Accurate K val M η) (hN : ∀ i j, |val (N.toMatrix i j) - N0 i j| ≤ d)
    (h : N0ᵀ * N0 = metric A B C D E F) (l0 : 0 ≤ ℓ) (hA : A ≤ ℓ ^ 2) (hB : B ≤ ℓ ^ 2) (hC : C ≤ ℓ ^ 2)
    (hM : 3 * ℓ ^ 2 + dotErr η d ℓ ≤ M) :
    Products val (dotErr η d ℓ) (ℓ ^ 2) (dot (fCol N 1) (fCol N 1)) (dot (fCol N 2) (fCol N 2))
      (dot (fCol N 3) (fCol N 3)) (dot (fCol N 2) (fCol N 3)) (dot (fCol N 1) (fCol N 3))
      (dot (fCol N 1) (fCol N 2)) A B C D E F ∧
    Rep val (dot (fCol N 3) (fCol N 1)) E (dotErr η d ℓ) (ℓ ^ 2) := by
  have r (i j : Fin 3) : Rep val (N.toMatrix i j) (N0 i j) d ℓ := ⟨hN i j, entry_le h l0 hA hB hC i j⟩
  have key (i j : Fin 3) (a b : Vec K) (ha : a = ⟨N.toMatrix 0 i, N.toMatrix 1 i, N.toMatrix 2 i⟩)
      (hb : b = ⟨N.toMatrix 0 j, N.toMatrix 1 j, N.toMatrix 2 j⟩) :
      Rep val (dot a b) (metric A B C D E F i j) (dotErr η d ℓ) (ℓ ^ 2) := by
    refine ⟨?_, cross_le h hA hB hC i j⟩
    subst ha hb
    rw [← metric_entries h]
    exact rep_dot (a0 := fun k => N0 k i) (b0 := fun k => N0 k j) hK (r 0 i) (r 1 i) (r 2 i) (r 0 j) (r 1 j) (r 2 j) hM
  exact ⟨⟨key 0 0 _ _ rfl rfl, key 1 1 _ _ rfl rfl, key 2 2 _ _ rfl rfl, key 1 2 _ _ rfl rfl,
    key 0 2 _ _ rfl rfl, key 0 1 _ _ rfl rfl⟩, key 2 0 _ _ rfl rfl⟩

theorem six_cell {τ : K} (hK : Accurate K val M η) (hN : ∀ i j, |val (N.toMatrix i j) - N0 i j| ≤ d)
    (h : N0ᵀ * N0 = metric A B C D E F) (l0 : 0 ≤ ℓ) (hA : A ≤ ℓ ^ 2) (hB : B ≤ ℓ ^ 2) (hC : C ≤ ℓ ^ 2)
    (h2 : 2 ≤ M) (hM : 3 * ℓ ^ 2 + 2 * dotErr η d ℓ ≤ M) :
    SixParams val τ (2 * dotErr η d ℓ + η) (2 * ℓ ^ 2) (fGetParams N τ) A B C D E F := by
  have hη := hK.nonneg
  have d0 : 0 ≤ d := (abs_nonneg _).trans (hN 0 0)
  have e0 : 0 ≤ dotErr η d ℓ := by unfold dotErr; positivity
  have s0 := sq_nonneg ℓ
  obtain ⟨p, e⟩ := products_cell hK hN h l0 hA hB hC (by linarith)
  exact ⟨p.a.mono (by linarith) (by linarith), p.b.mono (by linarith) (by linarith), p.c.mono (by linarith) (by linarith),
    p.d.twice hK h2 (by linarith), e.twice hK h2 (by linarith), p.f.twice hK h2 (by linarith), rfl, rfl, rfl⟩

/-- The matrix `matmul(U,T)` is close to `U0 T`. -/
theorem cell_close {T : IMat} (hK : Accurate K val M η) (h : CloseTo val U.toMatrix U0 δ L)
    (hT : ∀ i j, |(T.toMat i j : ℝ)| ≤ c) (h1 : c ≤ M) (hM : 3 * (c * (L + δ)) + 5 * η ≤ M) (i j : Fin 3) :
    |val ((matmulI U T).toMatrix i j) - (U0 * toReal T.toMat) i j| ≤ cellErr η δ c := by
  have r := h.rep
  rw [mul_apply, Fin.sum_univ_three]
  have key := fun i j => rep_three hK (r i 0) (r i 1) (r i 2) (hT 0 j) (hT 1 j) (hT 2 j) (.inr h1) hM
  fin_cases i <;> fin_cases j
  exacts [key 0 0, key 0 1, key 0 2, key 1 0, key 1 1, key 1 2, key 2 0, key 2 1, key 2 2]

end

section
variable {K : Type} [Arith K] {val : K → ℝ} {M η δ c L ℓ g a : ℝ} {U : RMat K} {eps : K} {T : IMat}
  {U0 : Matrix (Fin 3) (Fin 3) ℝ} {A B C D E F : ℝ}

theorem tol_bounds (hK : Accurate K val M η) (h : CloseTo val U.toMatrix U0 δ L)
    (ht : Tolerated M η δ c L ℓ |U0.det| (val eps) g a) (h0 : 0 ≤ sumErr η δ c ℓ) :
    3 * sumErr η δ c ℓ < val (cellTol U eps) ∧ val (cellTol U eps) + 3 * sumErr η δ c ℓ ≤ g := by
  have hη := hK.nonneg
  have hd := rep_det hK h ht.range_square ht.range_det
  have he : 0 ≤ val eps := by linarith [ht.class_low]
  have hsq := sq_nonneg ℓ
  have hv : |U0.det| ≤ 6 * L ^ 3 := by
    have s := h.size
    have l0 : 0 ≤ L := (abs_nonneg _).trans (s 0 0)
    have three (x y z : ℝ) (hx : |x| ≤ L) (hy : |y| ≤ L) (hz : |z| ≤ L) : |x * y * z| ≤ L ^ 3 := by
      rw [abs_mul, abs_mul]
      calc |x| * |y| * |z| ≤ L * L * L := mul_le_mul (mul_le_mul hx hy (abs_nonneg _) l0) hz (abs_nonneg _) (by positivity)
        _ = L ^ 3 := by ring
    have t1 := abs_le.1 (three _ _ _ (s 0 0) (s 1 1) (s 2 2))
    have t2 := abs_le.1 (three _ _ _ (s 0 0) (s 1 2) (s 2 1))
    have t3 := abs_le.1 (three _ _ _ (s 0 1) (s 1 0) (s 2 2))
    have t4 := abs_le.1 (three _ _ _ (s 0 1) (s 1 2) (s 2 0))
    have t5 := abs_le.1 (three _ _ _ (s 0 2) (s 1 0) (s 2 1))
    have t6 := abs_le.1 (three _ _ _ (s 0 2) (s 1 1) (s 2 0))
    rw [det_fin_three, abs_le]
    constructor <;> linarith
  have b1 := abs_sub_abs_le_abs_sub (val (rdet U)) U0.det
  have b2 := abs_sub_abs_le_abs_sub U0.det (val (rdet U))
  rw [abs_sub_comm U0.det] at b2
  obtain ⟨c0, c1, c2⟩ := hK.cbrt (abs (rdet U)) (by rw [hK.abs]; exact abs_nonneg _)
    (by rw [hK.abs]; linarith [ht.range_det])
  rw [hK.abs] at c1 c2
  obtain ⟨lo, l0, l1, l2⟩ := ht.cell_low
  obtain ⟨hi, h1, h2, h3⟩ := ht.cell_high
  set x := val (cbrt (abs (rdet U))) with hx
  have x1 : lo ≤ x + η := le_of_pow_le_pow_left₀ (n := 3) (by norm_num) (by linarith) (by linarith)
  have x2 : x - η ≤ hi := by
    by_contra hc
    rw [not_le] at hc
    have := pow_lt_pow_left₀ hc h1 (n := 3) (by norm_num)
    linarith
  have y1 := mul_le_mul_of_nonneg_left (show lo - η ≤ x by linarith) he
  have y2 := mul_le_mul_of_nonneg_left (show x ≤ hi + η by linarith) he
  have hm := hK.mul eps (cbrt (abs (rdet U))) (by
    rw [← hx, abs_of_nonneg (mul_nonneg he c0)]
    linarith [ht.range_sum])
  rw [← hx] at hm
  have hm' := abs_le.1 hm
  unfold cellTol
  constructor <;> linarith

theorem sumErr_nonneg (hK : Accurate K val M η) (h : CloseTo val U.toMatrix U0 δ L)
    (ht : Tolerated M η δ c L ℓ |U0.det| (val eps) g a) :
    0 ≤ dotErr η (cellErr η δ c) ℓ ∧ 0 ≤ cellErr η δ c ∧ 0 ≤ sumErr η δ c ℓ ∧ c ≤ M ∧ 4 ≤ M := by
  have hη := hK.nonneg
  have hd := ht.data
  have hc := ht.factor
  have hl := ht.long
  have h1 : 0 ≤ cellErr η δ c := by unfold cellErr; positivity
  have h2 : 0 ≤ dotErr η (cellErr η δ c) ℓ := by unfold dotErr; positivity
  have h3 : 0 ≤ sumErr η δ c ℓ := by unfold sumErr; positivity
  have he : 0 ≤ val eps := by linarith [ht.class_low]
  have h4 : 4 ≤ M := by
    have := ht.range_class
    have : 0 ≤ (3 + val eps) * (6 * ℓ ^ 2 + sumErr η δ c ℓ) := by positivity
    linarith
  refine ⟨h2, h1, h3, ?_, h4⟩
  have l0 : 0 ≤ L := (abs_nonneg _).trans (h.size 0 0)
  have : 0 ≤ c * (L + δ) := by positivity
  linarith [ht.range_cell]

theorem slack_cell (hK : Accurate K val M η) (h : CloseTo val U.toMatrix U0 δ L)
    (ht : Tolerated M η δ c L ℓ |U0.det| (val eps) g a) :
    Slack val M η (cellTol U eps) (sumErr η δ c ℓ) g (6 * (2 * ℓ ^ 2)) := by
  obtain ⟨e1, e2, e3, e4, e5⟩ := sumErr_nonneg hK h ht
  obtain ⟨t1, t2⟩ := tol_bounds hK h ht e3
  have hη := hK.nonneg
  refine ⟨hK, ?_, t1, t2, by linarith [ht.range_sum]⟩
  unfold sumErr at *
  linarith

theorem classSlack_cell (hK : Accurate K val M η) (h : CloseTo val U.toMatrix U0 δ L)
    (ht : Tolerated M η δ c L ℓ |U0.det| (val eps) g a) (ha : a ≤ A) :
    ClassSlack val M η eps (sumErr η δ c ℓ) g (6 * ℓ ^ 2) A := by
  obtain ⟨e1, e2, e3, e4, e5⟩ := sumErr_nonneg hK h ht
  have hη := hK.nonneg
  have he : 0 ≤ val eps := by linarith [ht.class_low]
  refine ⟨hK, ?_, ht.literal, ht.class_low, ?_, ht.class_high, ht.range_class⟩
  · unfold sumErr at *
    linarith
  · have := mul_le_mul_of_nonneg_left (show a / 4 - sumErr η δ c ℓ ≤ A / 4 - sumErr η δ c ℓ by linarith) he
    linarith [ht.class_rel]

/-- The parameters that the program has for the cell it returns. -/
theorem six_params {T : IMat} (hK : Accurate K val M η) (h : CloseTo val U.toMatrix U0 δ L)
    (ht : Tolerated M η δ c L ℓ |U0.det| (val eps) g a) (hT : ∀ i j, |(T.toMat i j : ℝ)| ≤ c)
    (hm : (U0 * toReal T.toMat)ᵀ * (U0 * toReal T.toMat) = metric A B C D E F)
    (hA : A ≤ ℓ ^ 2) (hB : B ≤ ℓ ^ 2) (hC : C ≤ ℓ ^ 2) (τ : K) :
    SixParams val τ (2 * dotErr η (cellErr η δ c) ℓ + η) (2 * ℓ ^ 2) (fGetParams (matmulI U T) τ) A B C D E F ∧
    (T = IMat.one →
      SixParams val τ (2 * dotErr η (cellErr η δ c) ℓ + η) (2 * ℓ ^ 2) (fGetParams U τ) A B C D E F) := by
  obtain ⟨e1, e2, e3, e4, e5⟩ := sumErr_nonneg hK h ht
  have hη := hK.nonneg
  have s0 := sq_nonneg ℓ
  have hg : 0 ≤ g := by
    have := (slack_cell hK h ht).high
    have := (slack_cell hK h ht).low
    linarith
  have l0 : 0 ≤ L := (abs_nonneg _).trans (h.size 0 0)
  have hM : 3 * ℓ ^ 2 + 2 * dotErr η (cellErr η δ c) ℓ ≤ M := by
    have := ht.range_sum
    unfold sumErr at *
    linarith
  have hr := ht.range_cell
  have hf := ht.factor
  refine ⟨six_cell hK (cell_close hK h hT e4 (by linarith)) hm ht.long hA hB hC (by linarith) hM, ?_⟩
  rintro rfl
  have h1 : U0 * toReal IMat.one.toMat = U0 := by
    have : toReal IMat.one.toMat = 1 := by
      rw [show IMat.one.toMat = 1 by decide]
      ext i j
      fin_cases i <;> fin_cases j <;> simp [toReal]
    rw [this, mul_one]
  rw [h1] at hm
  refine six_cell hK (fun i j => (h.err i j).trans ?_) hm ht.long hA hB hC (by linarith) hM
  unfold cellErr
  nlinarith [ht.data]

/-- If `reduce_cell` returns, the integer matrix it returns takes the ideal cell to its Niggli cell. -/
theorem reduceCell_ideal {equal : K → K → K → Bool} (hK : Accurate K val M η) (h : CloseTo val U.toMatrix U0 δ L)
    (ht : Tolerated M η δ c L ℓ |U0.det| (val eps) g a) (hr : reduceCell equal U (some eps) = .ok T)
    (hT : ∀ i j, |(T.toMat i j : ℝ)| ≤ c)
    (hm : (U0 * toReal T.toMat)ᵀ * (U0 * toReal T.toMat) = metric A B C D E F)
    (hA : A ≤ ℓ ^ 2) (hB : B ≤ ℓ ^ 2) (hC : C ≤ ℓ ^ 2) (hg : CellGap g A B C D E F) :
    NiggliCellOf U0 T.toMat A B C D E F := by
  obtain ⟨e1, e2, e3, e4, e5⟩ := sumErr_nonneg hK h ht
  obtain ⟨hu, p, hp, hpp⟩ := reduceCell_reach hr
  obtain ⟨s1, s2⟩ := six_params hK h ht hT hm hA hB hC (cellTol U eps)
  have h6 : SixParams val (cellTol U eps) (2 * dotErr η (cellErr η δ c) ℓ + η) (2 * ℓ ^ 2) p A B C D E F := by
    rcases hpp with hpp | ⟨h1, hpp⟩
    · rw [hpp]; exact s1
    · rw [hpp]; exact s2 h1
  have hc := fCheck_ideal (slack_cell hK h ht) h6 (by unfold sumErr; linarith) (by linarith) hg
  rw [hp] at hc
  exact ⟨hu, hm, by simpa using hc.symm⟩

/-- A cell that is close to a Niggli cell is returned as it is. -/
theorem reduceCell_keeps {equal : K → K → K → Bool} (hK : Accurate K val M η) (h : CloseTo val U.toMatrix U0 δ L)
    (ht : Tolerated M η δ c L ℓ |U0.det| (val eps) g a)
    (h0 : equal (rdet U) (ofInt 0) (ofRat (1 / 1000000)) = false)
    (hm : U0ᵀ * U0 = metric A B C D E F)
    (hA : A ≤ ℓ ^ 2) (hB : B ≤ ℓ ^ 2) (hC : C ≤ ℓ ^ 2) (hg : CellGap g A B C D E F)
    (hn : NiggliReduced A B C D E F) : reduceCell equal U (some eps) = .ok IMat.one := by
  obtain ⟨e1, e2, e3, e4, e5⟩ := sumErr_nonneg hK h ht
  have hf := ht.factor
  have h1 : toReal IMat.one.toMat = 1 := by
    rw [show IMat.one.toMat = 1 by decide]
    ext i j
    fin_cases i <;> fin_cases j <;> simp [toReal]
  obtain ⟨s1, s2⟩ := six_params (T := IMat.one) hK h ht (by
    intro i j
    refine le_trans ?_ hf
    rw [show IMat.one.toMat = 1 by decide]
    fin_cases i <;> fin_cases j <;> simp) (by rw [h1, mul_one]; exact hm) hA hB hC (cellTol U eps)
  have sl := slack_cell hK h ht
  have hs : 6 * (2 * dotErr η (cellErr η δ c) ℓ + η) + 5 * η ≤ sumErr η δ c ℓ := by unfold sumErr; linarith
  refine reduceCell_one h0 (fPass_ideal sl (s2 rfl) s1 hs (by linarith) hg hn) ?_
  rw [fCheck_ideal sl s1 hs (by linarith) hg]
  simpa using hn

/-- The class found from the products of the reduced cell is the class of the ideal cell. -/
theorem idNum_ideal (hK : Accurate K val M η) (h : CloseTo val U.toMatrix U0 δ L)
    (ht : Tolerated M η δ c L ℓ |U0.det| (val eps) g a) (hT : ∀ i j, |(T.toMat i j : ℝ)| ≤ c)
    (hn : NiggliCellOf U0 T.toMat A B C D E F) (ha : a ≤ A)
    (hA : A ≤ ℓ ^ 2) (hB : B ≤ ℓ ^ 2) (hC : C ≤ ℓ ^ 2) (hg : CellGap g A B C D E F) :
    let N := matmulI U T
    IsClass (idNum eps (dot (fCol N 1) (fCol N 1)) (dot (fCol N 2) (fCol N 2)) (dot (fCol N 3) (fCol N 3))
      (dot (fCol N 2) (fCol N 3)) (dot (fCol N 1) (fCol N 3)) (dot (fCol N 1) (fCol N 2))) A B C D E F := by
  obtain ⟨e1, e2, e3, e4, e5⟩ := sumErr_nonneg hK h ht
  have hη := hK.nonneg
  have hr := ht.range_cell
  have hf := ht.factor
  have s0 := sq_nonneg ℓ
  have hg0 : 0 ≤ g := by
    have := (slack_cell hK h ht).high
    have := (slack_cell hK h ht).low
    linarith
  obtain ⟨p, -⟩ := products_cell hK (cell_close hK h hT e4 (by linarith)) hn.cell ht.long hA hB hC (by
    have := ht.range_sum
    unfold sumErr at *
    linarith)
  exact idNum_isClass (atoms_ideal (classSlack_cell hK h ht ha) p (by unfold sumErr; linarith) hg) hn.red.type

end

end AutoGR
