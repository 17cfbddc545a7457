import Verif.Lemmas.RoundedPyId
import Verif.Props.AccurateId

/-!
# C122: the Python code recognises the cell in rounded arithmetic, from rounded coordinates

As in `Verif/Props/AccurateId.lean`: the arithmetic is accurate (`Spec.Accurate`), the entries of the cell `U` are
those of an ideal real cell `U0` up to `δ`, and the tolerance lies between the errors and the gap of the ideal
metric (`Spec.Tolerated`, and `Spec.RelTolerated` for the relative part of `np.allclose`).
-/

namespace AutoGR

open Spec Arith Matrix

section
variable {K : Type} [Arith K] {val : K → ℝ} {M η δ c L ℓ g a : ℝ} {U : RMat K} {eps : K} {T : IMat}
  {U0 : Matrix (Fin 3) (Fin 3) ℝ} {A B C D E F : ℝ}

/-- C122: if `reduced_cell` returns, its matrix `C` takes the ideal cell to the Niggli cell of the ideal lattice;
then `niggli_id` returns the class of the ideal lattice, whose symmetries are exactly the point symmetries of the
ideal lattice, except that it raises for class 31 with `E = F`. -/
theorem niggliId_ideal (hK : Accurate K val M η)
    (hU : CloseTo val U.toMatrix U0 δ L) (ht : Tolerated M η δ c L ℓ |U0.det| (val eps) g a)
    (h : reducedCell U (some eps) = .ok T) (hT : ∀ i j, |(T.toMat i j : ℝ)| ≤ c)
    (hm : (U0 * toReal T.toMat)ᵀ * (U0 * toReal T.toMat) = metric A B C D E F)
    (ha : a ≤ A) (hA : A ≤ ℓ ^ 2) (hB : B ≤ ℓ ^ 2) (hC : C ≤ ℓ ^ 2) (hg : CellGap g A B C D E F) :
    NiggliCellOf U0 T.toMat A B C D E F ∧
      ((∃ k, niggliId U (some eps) = .ok k ∧ IsClass k A B C D E F ∧ PointSym U0 = ClassSym k T.toMat) ∨
        (niggliId U (some eps) = .error .unboundLocal ∧ IsClass 31 A B C D E F ∧ E = F)) := by
  have hn := reducedCell_ideal hK hU ht h hT hm hA hB hC hg
  refine ⟨hn, ?_⟩
  rcases niggliNum_ideal hK hU ht hT hn ha hA hB hC hg h with ⟨k, h1, h2, -⟩ | h1
  · exact .inl ⟨k, h1, h2, pointSym_eq_classSym hn h2⟩
  · exact .inr h1

/-- C122: what `niggli_id` returns is the class of the ideal lattice. -/
theorem niggliId_ideal_class {k : ℕ} (hK : Accurate K val M η)
    (hU : CloseTo val U.toMatrix U0 δ L) (ht : Tolerated M η δ c L ℓ |U0.det| (val eps) g a)
    (h : niggliId U (some eps) = .ok k)
    (hT : ∀ T, reducedCell U (some eps) = .ok T → (∀ i j, |(T.toMat i j : ℝ)| ≤ c) ∧
      (U0 * toReal T.toMat)ᵀ * (U0 * toReal T.toMat) = metric A B C D E F)
    (ha : a ≤ A) (hA : A ≤ ℓ ^ 2) (hB : B ≤ ℓ ^ 2) (hC : C ≤ ℓ ^ 2) (hg : CellGap g A B C D E F) :
    NiggliReduced A B C D E F ∧ IsClass k A B C D E F := by
  cases hr : reducedCell U (some eps) with
  | error e =>
    unfold niggliId at h
    rw [hr] at h
    cases h
  | ok T =>
    obtain ⟨t1, t2⟩ := hT T hr
    obtain ⟨hn, ⟨k', h1, h2, -⟩ | ⟨h1, -⟩⟩ := niggliId_ideal hK hU ht hr t1 t2 ha hA hB hC hg
    · rw [h] at h1
      cases h1
      exact ⟨hn.red, h2⟩
    · rw [h] at h1
      cases h1

/-- C122: a cell that is the Niggli cell of the ideal lattice, up to `δ`, is recognised: `reduced_cell` returns it
unchanged, and `niggli_id` gives the class of the ideal lattice, except that it raises for class 31 with
`E = F`. -/
theorem niggliId_finds (hK : Accurate K val M η)
    (hU : CloseTo val U.toMatrix U0 δ L) (ht : Tolerated M η δ c L ℓ |U0.det| (val eps) g a)
    (hr : RelTolerated η δ c L ℓ |U0.det| (val eps) g)
    (hm : U0ᵀ * U0 = metric A B C D E F) (hn : NiggliReduced A B C D E F)
    (ha : a ≤ A) (hC : C ≤ ℓ ^ 2) (hg : CellGap g A B C D E F) :
    reducedCell U (some eps) = .ok IMat.one ∧
    ∀ k, IsClass k A B C D E F → (niggliId U (some eps) = .ok k ∧ ¬ (k = 31 ∧ E = F)) ∨
      (niggliId U (some eps) = .error .unboundLocal ∧ k = 31 ∧ E = F) := by
  have hB : B ≤ ℓ ^ 2 := hn.bc.trans hC
  have hA : A ≤ ℓ ^ 2 := hn.ab.trans hB
  have h1 : toReal IMat.one.toMat = 1 := by
    rw [show IMat.one.toMat = 1 by decide]
    ext i j
    fin_cases i <;> fin_cases j <;> simp [toReal]
  have hk := reducedCell_keeps hK hU ht hr hm hA hB hC hg hn
  refine ⟨hk, fun k hc => ?_⟩
  rcases niggliNum_ideal (T := IMat.one) hK hU ht (by
    intro i j
    refine le_trans ?_ ht.factor
    rw [show IMat.one.toMat = 1 by decide]
    fin_cases i <;> fin_cases j <;> simp)
    ⟨by rw [Int.isUnit_iff]; decide, by rw [h1, mul_one]; exact hm, hn⟩ ha hA hB hC hg hk with
    ⟨k', h1, h2, h3⟩ | ⟨h1, h2, h3⟩
  · rw [isClass_unique hc h2]
    exact .inl ⟨h1, h3⟩
  · exact .inr ⟨h1, isClass_unique hc h2, h3⟩

end

/-! ## The hexagonal crystal of `AccurateId.lean`, typed in with seven decimals -/

theorem hexTyped_rel {η ε : ℝ} (h0 : 0 ≤ η) (hη : η ≤ 1 / 10 ^ 10) (h1 : |ε - 1 / 1000| ≤ 1 / 10 ^ 10) :
    RelTolerated η (5 / 10 ^ 8) 2 3 (8 / 5) |hexIdeal.det| ε (6 / 25) := by
  have hd : hexIdeal.det = 4 / 5 * √3 := by
    rw [det_fin_three]
    simp [hexIdeal]
    ring
  have s1 : (1.732 : ℝ) ≤ √3 := Real.le_sqrt_of_sq_le (by norm_num)
  have s2 : √3 ≤ 1.7321 := Real.sqrt_le_iff.2 ⟨by norm_num, by norm_num⟩
  rw [hd, abs_of_nonneg (by linarith)]
  have c0 : 0 ≤ cellErr η (5 / 10 ^ 8) 2 := by unfold cellErr; positivity
  have c1 : cellErr η (5 / 10 ^ 8) 2 ≤ 31 / 10 ^ 8 := by unfold cellErr; linarith
  have d0 : 0 ≤ dotErr η (cellErr η (5 / 10 ^ 8) 2) (8 / 5) := by unfold dotErr; positivity
  have d1 : dotErr η (cellErr η (5 / 10 ^ 8) 2) (8 / 5) ≤ 3 / 10 ^ 6 := by
    unfold dotErr
    nlinarith
  have e0 : 0 ≤ sumErr η (5 / 10 ^ 8) 2 (8 / 5) := by unfold sumErr; positivity
  have e1 : sumErr η (5 / 10 ^ 8) 2 (8 / 5) ≤ 4 / 10 ^ 5 := by unfold sumErr; linarith
  have p1 : prodErr η (5 / 10 ^ 8) 3 ≤ 1 / 10 ^ 6 := by unfold prodErr; linarith
  have v1 : detErr η (5 / 10 ^ 8) 3 ≤ 1 / 10 ^ 4 := by unfold detErr tripleErr; linarith
  have a1 := abs_le.1 h1
  clear c0 c1 d0 d1 hd h1
  constructor
  · exact ⟨1.2, by norm_num, by linarith, by nlinarith⟩
  · linarith

/-- In every arithmetic that is accurate to `1e-10`, the typed cell is left as it is and gets class 12
(hexagonal). -/
theorem hexTyped_niggliId {K : Type} [Arith K] {val : K → ℝ} {η : ℝ} (hK : Accurate K val 10000 η)
    (hη : η ≤ 1 / 10 ^ 10) :
    reducedCell (hexTyped : RMat K) (some (ofRat (1 / 1000))) = .ok IMat.one ∧
    niggliId (hexTyped : RMat K) (some (ofRat (1 / 1000))) = .ok 12 := by
  have he : |val (ofRat (1 / 1000) : K) - 1 / 1000| ≤ η := by
    have := hK.ofRat (1 / 1000) (by norm_num)
    push_cast at this
    exact this
  obtain ⟨h1, h2⟩ := niggliId_finds hK (hexTyped_close hK hη) (hexTyped_tolerated hK.nonneg hη (he.trans hη))
    (hexTyped_rel hK.nonneg hη (he.trans hη)) hexIdeal_metric hexIdeal_reduced le_rfl (by norm_num) hexIdeal_gap
  have hk12 : IsClass 12 1 1 (64 / 25) 0 0 (-1 / 2) := by
    refine ⟨by decide, by norm_num [NiggliClass, TypeII], ?_⟩
    norm_num [classTable, NiggliClass, TypeI, TypeII, List.takeWhile]
  rcases h2 12 hk12 with h | h
  · exact ⟨h1, h.1⟩
  · exact absurd h.2.1 (by norm_num)

/-- Binary64: the arithmetic with rounding to nearest, 53 bits. -/
example : niggliId (hexTyped : RMat (Rounded roundNearest)) (some (ofRat (1 / 1000))) = .ok 12 :=
  (hexTyped_niggliId (accurate_rounded roundNearest_binary64 (by norm_num) (by norm_num)) (by norm_num)).2

/-- The hypotheses of `niggliId_ideal` and `niggliId_ideal_class` are met by another cell of the crystal, which has
to be reduced; it gets the class of the ideal crystal. -/
example : ∃ T, reducedCell hexOther (some (1 / 1000)) = .ok T ∧ T ≠ IMat.one ∧
    niggliId hexOther (some (1 / 1000)) = .ok 12 ∧ PointSym hexOtherIdeal = ClassSym 12 T.toMat := by
  let T : IMat := ⟨0, 0, -1, 1, 2, 0, 0, -1, 0⟩
  have hr : reducedCell hexOther (some (1 / 1000)) = .ok T := by decide +kernel
  have hk : niggliId hexOther (some (1 / 1000)) = .ok 12 := by decide +kernel
  have h3 := sqrt3_close
  have h2 : √3 ≤ 2 := Real.sqrt_le_iff.2 ⟨by norm_num, by norm_num⟩
  have h0 : 0 ≤ √3 := Real.sqrt_nonneg 3
  have hs : √3 * √3 = 3 := Real.mul_self_sqrt (by norm_num)
  have hU : CloseTo (fun q : ℚ => (q : ℝ)) hexOther.toMatrix hexOtherIdeal (5 / 10 ^ 8) 3 := by
    constructor
    · intro i j
      fin_cases i <;> fin_cases j <;> norm_num [hexOther, hexOtherIdeal, RMat.toMatrix]
      norm_num at h3
      linarith
    · intro i j
      fin_cases i <;> fin_cases j <;> norm_num [hexOtherIdeal, abs_of_pos, abs_of_nonneg h0]
      linarith
  have hd : |hexOtherIdeal.det| = |hexIdeal.det| := by
    rw [det_fin_three, det_fin_three]
    simp [hexOtherIdeal, hexIdeal, abs_mul]
  have ht : Tolerated 10000 (1 / 10 ^ 15) (5 / 10 ^ 8) 2 3 (8 / 5) |hexOtherIdeal.det| ((1 / 1000 : ℚ) : ℝ) (6 / 25) 1 := by
    rw [hd]
    exact hexTyped_tolerated (by norm_num) (by norm_num) (by norm_num)
  have hN : hexOtherIdeal * toReal T.toMat = !![1, -1 / 2, 0; 0, -(√3 / 2), 0; 0, 0, -(8 / 5)] := by
    have hc : toReal T.toMat = !![0, 0, -1; 1, 2, 0; 0, -1, 0] := by
      ext i j
      fin_cases i <;> fin_cases j <;> simp [T, IMat.toMat, toReal]
    rw [hc]
    ext i j
    fin_cases i <;> fin_cases j <;> simp [hexOtherIdeal, mul_apply, Fin.sum_univ_three]
    norm_num
  obtain ⟨-, ⟨k, h4, -, h5⟩ | ⟨h4, -⟩⟩ := niggliId_ideal (accurate_rat (by norm_num)) hU ht hr
    (by intro i j; fin_cases i <;> fin_cases j <;> norm_num [T, IMat.toMat])
    (by
      rw [hN]
      ext i j
      fin_cases i <;> fin_cases j <;> simp [metric, mul_apply, Fin.sum_univ_three] <;> nlinarith)
    le_rfl (by norm_num) (by norm_num) (by norm_num) hexIdeal_gap
  · rw [hk] at h4
    cases h4
    exact ⟨T, hr, by decide, hk, h5⟩
  · rw [hk] at h4
    cases h4

end AutoGR
