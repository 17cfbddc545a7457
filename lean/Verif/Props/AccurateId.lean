import Verif.Lemmas.RoundedId
import Verif.Lemmas.RoundedArith
import Verif.Lemmas.Float
import Verif.Props.LatticeSym
import Verif.Props.NiggliUnique
import Mathlib.Analysis.Real.Sqrt

/-!
# C113: the cell is recognised in rounded arithmetic, from rounded coordinates

A crystal whose coordinates are irrational (hexagonal and rhombohedral ones, for instance) is typed in with a few
decimals, and the program computes with rounded numbers.  The theorems are about any arithmetic that is accurate
(`Spec.Accurate`), a cell `U` whose entries are those of an ideal real cell `U0` up to `δ` (`CloseTo`), and a
tolerance between the errors and the gap of the ideal metric (`Spec.Tolerated`, `Spec.CellGap`).
-/

namespace AutoGR

open Spec Arith Matrix

section
variable {K : Type} [Arith K] {val : K → ℝ} {M η δ c L ℓ g a : ℝ} {U : RMat K} {eps : K}
  {U0 : Matrix (Fin 3) (Fin 3) ℝ} {A B C D E F : ℝ}

/-- C113: if `id_cell` returns, its integer matrix takes the ideal cell to the Niggli cell of the ideal lattice,
the class is the class of the ideal lattice, and the symmetries of the class are exactly the point symmetries of
the ideal lattice. -/
theorem idCell_ideal {equal : K → K → K → Bool} {r : IdCell} (hK : Accurate K val M η)
    (hU : CloseTo val U.toMatrix U0 δ L) (ht : Tolerated M η δ c L ℓ |U0.det| (val eps) g a)
    (h : idCell equal U (some eps) = .ok r) (hT : ∀ i j, |(r.Cu.toMat i j : ℝ)| ≤ c)
    (hm : (U0 * toReal r.Cu.toMat)ᵀ * (U0 * toReal r.Cu.toMat) = metric A B C D E F)
    (ha : a ≤ A) (hA : A ≤ ℓ ^ 2) (hB : B ≤ ℓ ^ 2) (hC : C ≤ ℓ ^ 2) (hg : CellGap g A B C D E F) :
    NiggliCellOf U0 r.Cu.toMat A B C D E F ∧ IsClass r.id A B C D E F ∧
      PointSym U0 = ClassSym r.id r.Cu.toMat ∧ r.s_range = sRange r.id := by
  unfold idCell at h
  dsimp only at h
  split at h
  · cases h
  · rename_i Cu hCu
    split at h
    · cases h
    · cases h
      have hn := reduceCell_ideal hK hU ht hCu hT hm hA hB hC hg
      have hk := idNum_ideal hK hU ht hT hn ha hA hB hC hg
      exact ⟨hn, hk, pointSym_eq_classSym hn hk, rfl⟩

/-- C113: a cell that is the Niggli cell of the ideal lattice, up to `δ`, is recognised: `reduce_cell` returns it
unchanged, and `id_cell` gives the class of the ideal lattice, provided the stored basis of that class can be
reduced. -/
theorem idCell_finds {equal : K → K → K → Bool} (hK : Accurate K val M η)
    (hU : CloseTo val U.toMatrix U0 δ L) (ht : Tolerated M η δ c L ℓ |U0.det| (val eps) g a)
    (h0 : equal (rdet U) (ofInt 0) (ofRat (1 / 1000000)) = false)
    (hm : U0ᵀ * U0 = metric A B C D E F) (hn : NiggliReduced A B C D E F)
    (ha : a ≤ A) (hC : C ≤ ℓ ^ 2) (hg : CellGap g A B C D E F) :
    reduceCell equal U (some eps) = .ok IMat.one ∧
    ∃ k, IsClass k A B C D E F ∧
      ∀ Co, reduceCell equal ((fBasis k).getD U) (some eps) = .ok Co →
        idCell equal U (some eps) = .ok ⟨IMat.one, Co, k, sRange k⟩ := by
  have hB : B ≤ ℓ ^ 2 := hn.bc.trans hC
  have hA : A ≤ ℓ ^ 2 := hn.ab.trans hB
  have h1 : toReal IMat.one.toMat = 1 := by
    rw [show IMat.one.toMat = 1 by decide]
    ext i j
    fin_cases i <;> fin_cases j <;> simp [toReal]
  have hr := reduceCell_keeps hK hU ht h0 hm hA hB hC hg hn
  have hk := idNum_ideal (T := IMat.one) hK hU ht (by
    intro i j
    refine le_trans ?_ ht.factor
    rw [show IMat.one.toMat = 1 by decide]
    fin_cases i <;> fin_cases j <;> simp)
    ⟨by rw [Int.isUnit_iff]; decide, by rw [h1, mul_one]; exact hm, hn⟩ ha hA hB hC hg
  refine ⟨hr, _, hk, ?_⟩
  intro Co hCo
  unfold idCell
  dsimp only
  rw [hr]
  dsimp only
  rw [hCo]

end

/-! ## A hexagonal crystal, typed in with seven decimals -/

/-- The ideal cell: `(1,0,0)`, `(-1/2,√3/2,0)`, `(0,0,8/5)` (columns). -/
noncomputable def hexIdeal : Matrix (Fin 3) (Fin 3) ℝ := !![1, -1 / 2, 0; 0, √3 / 2, 0; 0, 0, 8 / 5]

/-- The cell as it is typed. -/
def hexTyped {K : Type} [Arith K] : RMat K where
  m00 := ofRat 1
  m01 := ofRat (-0.5)
  m02 := ofRat 0
  m10 := ofRat 0
  m11 := ofRat 0.8660254
  m12 := ofRat 0
  m20 := ofRat 0
  m21 := ofRat 0
  m22 := ofRat 1.6

theorem sqrt3_close : |(0.8660254 : ℝ) - √3 / 2| ≤ 4 / 10 ^ 8 := by
  have h1 : (1.7320508 : ℝ) ≤ √3 := Real.le_sqrt_of_sq_le (by norm_num)
  have h2 : √3 ≤ 1.73205081 := Real.sqrt_le_iff.2 ⟨by norm_num, by norm_num⟩
  rw [abs_le]
  constructor <;> linarith

theorem hexIdeal_metric : hexIdealᵀ * hexIdeal = metric 1 1 (64 / 25) 0 0 (-1 / 2) := by
  have h3 : √3 * √3 = 3 := Real.mul_self_sqrt (by norm_num)
  ext i j
  fin_cases i <;> fin_cases j <;>
    simp [hexIdeal, metric, mul_apply, Fin.sum_univ_three] <;> nlinarith

theorem hexIdeal_reduced : NiggliReduced 1 1 (64 / 25) 0 0 (-1 / 2) := by
  constructor <;> norm_num [TypeI, TypeII]

theorem hexIdeal_gap : CellGap (6 / 25) 1 1 (64 / 25) 0 0 (-1 / 2) := by
  constructor <;> norm_num [Gap, abs_of_pos, abs_of_neg]

theorem hexTyped_close {K : Type} [Arith K] {val : K → ℝ} {η : ℝ} (hK : Accurate K val 10000 η)
    (hη : η ≤ 1 / 10 ^ 10) : CloseTo val (hexTyped : RMat K).toMatrix hexIdeal (5 / 10 ^ 8) 3 := by
  have key (q : ℚ) (x : ℝ) (hq : |(q : ℝ)| ≤ 10000) (hx : |(q : ℝ) - x| ≤ 4 / 10 ^ 8) :
      |val (ofRat q) - x| ≤ 5 / 10 ^ 8 := by
    have h1 := hK.ofRat q hq
    have h2 := abs_sub_le (val (ofRat q)) q x
    linarith
  have h3 := sqrt3_close
  have h2 : √3 ≤ 2 := Real.sqrt_le_iff.2 ⟨by norm_num, by norm_num⟩
  have h0 : 0 ≤ √3 := Real.sqrt_nonneg 3
  constructor
  · intro i j
    fin_cases i <;> fin_cases j <;> refine key _ _ ?_ ?_ <;> norm_num [hexIdeal, abs_of_pos, abs_of_neg]
    convert h3 using 1 <;> norm_num
  · intro i j
    fin_cases i <;> fin_cases j <;> norm_num [hexIdeal, abs_of_pos, abs_of_neg, abs_of_nonneg h0]
    linarith

theorem hexTyped_tolerated {η ε : ℝ} (h0 : 0 ≤ η) (hη : η ≤ 1 / 10 ^ 10) (h1 : |ε - 1 / 1000| ≤ 1 / 10 ^ 10) :
    Tolerated 10000 η (5 / 10 ^ 8) 2 3 (8 / 5) |hexIdeal.det| ε (6 / 25) 1 := by
  have hd : hexIdeal.det = 4 / 5 * √3 := by
    rw [det_fin_three]
    simp [hexIdeal]
    ring
  have s1 : (1.732 : ℝ) ≤ √3 := Real.le_sqrt_of_sq_le (by norm_num)
  have s2 : √3 ≤ 1.7321 := Real.sqrt_le_iff.2 ⟨by norm_num, by norm_num⟩
  rw [hd, abs_of_nonneg (by linarith)]
  have c0 : 0 ≤ cellErr η (5 / 10 ^ 8) 2 := by unfold cellErr; positivity
  have c1 : cellErr η (5 / 10 ^ 8) 2 ≤ 31 / 10 ^ 8 := by unfold cellErr; linarith
  have d0 : 0 ≤ dotErr η (cellErr η (5 / 10 ^ 8) 2) (8 / 5) := by unfold dotErr; positivity
  have d1 : dotErr η (cellErr η (5 / 10 ^ 8) 2) (8 / 5) ≤ 3 / 10 ^ 6 := by
    unfold dotErr
    nlinarith
  have e0 : 0 ≤ sumErr η (5 / 10 ^ 8) 2 (8 / 5) := by unfold sumErr; positivity
  have e1 : sumErr η (5 / 10 ^ 8) 2 (8 / 5) ≤ 4 / 10 ^ 5 := by unfold sumErr; linarith
  have p1 : prodErr η (5 / 10 ^ 8) 3 ≤ 1 / 10 ^ 6 := by unfold prodErr; linarith
  have v1 : detErr η (5 / 10 ^ 8) 3 ≤ 1 / 10 ^ 4 := by unfold detErr tripleErr; linarith
  have a1 := abs_le.1 h1
  clear c0 c1 d0 d1 hd h1
  constructor
  · norm_num
  · norm_num
  · norm_num
  · linarith
  · linarith
  · nlinarith
  · exact ⟨1.1, by linarith, by linarith, by nlinarith⟩
  · nlinarith
  · exact ⟨1.2, by norm_num, by linarith, by nlinarith⟩
  · linarith
  · linarith
  · linarith
  · linarith
  · nlinarith

/-- In every arithmetic that is accurate to `1e-10`, the typed cell is left as it is and gets class 12
(hexagonal). -/
theorem hexTyped_found {K : Type} [Arith K] {val : K → ℝ} {η : ℝ} (hK : Accurate K val 10000 η)
    (hη : η ≤ 1 / 10 ^ 10) (equal : K → K → K → Bool)
    (h0 : equal (rdet hexTyped) (ofInt 0) (ofRat (1 / 1000000)) = false) :
    reduceCell equal (hexTyped : RMat K) (some (ofRat (1 / 1000))) = .ok IMat.one ∧
    ∀ Co, reduceCell equal ((fBasis 12).getD hexTyped) (some (ofRat (1 / 1000) : K)) = .ok Co →
      idCell equal hexTyped (some (ofRat (1 / 1000) : K)) = .ok ⟨IMat.one, Co, 12, some 25⟩ := by
  have he : |val (ofRat (1 / 1000) : K) - 1 / 1000| ≤ η := by
    have := hK.ofRat (1 / 1000) (by norm_num)
    push_cast at this
    exact this
  obtain ⟨h1, k, hk, h2⟩ := idCell_finds hK (hexTyped_close hK hη) (hexTyped_tolerated hK.nonneg hη (he.trans hη)) h0
    hexIdeal_metric hexIdeal_reduced le_rfl (by norm_num) hexIdeal_gap
  have hk12 : k = 12 := by
    refine isClass_unique hk ⟨by decide, by norm_num [NiggliClass, TypeII], ?_⟩
    norm_num [classTable, NiggliClass, TypeI, TypeII, List.takeWhile]
  subst hk12
  exact ⟨h1, h2⟩

/-- The arithmetic with rounding to nearest, 53 bits. -/
example (equal : Rounded roundNearest → Rounded roundNearest → Rounded roundNearest → Bool)
    (h0 : equal (rdet hexTyped) (ofInt 0) (ofRat (1 / 1000000)) = false) :
    reduceCell equal hexTyped (some (ofRat (1 / 1000))) = .ok IMat.one :=
  (hexTyped_found (accurate_rounded roundNearest_binary64 (by norm_num) (by norm_num)) (by norm_num) equal h0).1

/-- Exact arithmetic; here the stored basis of class 12 is reduced too. -/
example : idCell cmpEqual hexTyped (some (ofRat (1 / 1000) : ℚ)) = .ok ⟨IMat.one, (canonC 12), 12, some 25⟩ :=
  (hexTyped_found (K := ℚ) (accurate_rat (by norm_num)) (by norm_num) cmpEqual (by decide +kernel)).2 _
    (by decide +kernel)

/-- Another cell of the same crystal, typed with seven decimals: `(0,0,8/5)`, `(1,0,0)`, `(5/2,√3/2,0)`. -/
def hexOther : RMat ℚ := ⟨0, 1, 2.5, 0, 0, 0.8660254, 1.6, 0, 0⟩

/-- The ideal cell for it. -/
noncomputable def hexOtherIdeal : Matrix (Fin 3) (Fin 3) ℝ := !![0, 1, 5 / 2; 0, 0, √3 / 2; 8 / 5, 0, 0]

/-- The hypotheses of `idCell_ideal` are met by it, and it gets the class of the ideal crystal although its own
metric is not quite hexagonal. -/
example : ∃ r, idCell cmpEqual hexOther (some (1 / 1000)) = .ok r ∧ IsClass r.id 1 1 (64 / 25) 0 0 (-1 / 2) ∧
    PointSym hexOtherIdeal = ClassSym r.id r.Cu.toMat := by
  let r : IdCell := ⟨⟨0, 0, -1, 1, 2, 0, 0, -1, 0⟩, ⟨1, 0, 0, 0, -1, 0, 0, 0, -1⟩, 12, some 25⟩
  have hr : idCell cmpEqual hexOther (some (1 / 1000)) = .ok r := by decide +kernel
  have h3 := sqrt3_close
  have h2 : √3 ≤ 2 := Real.sqrt_le_iff.2 ⟨by norm_num, by norm_num⟩
  have h0 : 0 ≤ √3 := Real.sqrt_nonneg 3
  have hs : √3 * √3 = 3 := Real.mul_self_sqrt (by norm_num)
  have hU : CloseTo (fun q : ℚ => (q : ℝ)) hexOther.toMatrix hexOtherIdeal (5 / 10 ^ 8) 3 := by
    constructor
    · intro i j
      fin_cases i <;> fin_cases j <;> norm_num [hexOther, hexOtherIdeal, RMat.toMatrix]
      norm_num at h3
      linarith
    · intro i j
      fin_cases i <;> fin_cases j <;> norm_num [hexOtherIdeal, abs_of_pos, abs_of_nonneg h0]
      linarith
  have hd : |hexOtherIdeal.det| = |hexIdeal.det| := by
    rw [det_fin_three, det_fin_three]
    simp [hexOtherIdeal, hexIdeal, abs_mul]
  have ht : Tolerated 10000 (1 / 10 ^ 15) (5 / 10 ^ 8) 2 3 (8 / 5) |hexOtherIdeal.det| ((1 / 1000 : ℚ) : ℝ) (6 / 25) 1 := by
    rw [hd]
    exact hexTyped_tolerated (by norm_num) (by norm_num) (by norm_num)
  have hN : hexOtherIdeal * toReal r.Cu.toMat = !![1, -1 / 2, 0; 0, -(√3 / 2), 0; 0, 0, -(8 / 5)] := by
    have hc : toReal r.Cu.toMat = !![0, 0, -1; 1, 2, 0; 0, -1, 0] := by
      ext i j
      fin_cases i <;> fin_cases j <;> simp [r, IMat.toMat, toReal]
    rw [hc]
    ext i j
    fin_cases i <;> fin_cases j <;> simp [hexOtherIdeal, mul_apply, Fin.sum_univ_three]
    norm_num
  obtain ⟨-, a, b, -⟩ := idCell_ideal (accurate_rat (by norm_num)) hU ht hr
    (by intro i j; fin_cases i <;> fin_cases j <;> norm_num [r, IMat.toMat])
    (by
      rw [hN]
      ext i j
      fin_cases i <;> fin_cases j <;> simp [metric, mul_apply, Fin.sum_univ_three] <;> nlinarith)
    le_rfl (by norm_num) (by norm_num) (by norm_num) hexIdeal_gap
  exact ⟨r, hr, a, b⟩

end AutoGR
