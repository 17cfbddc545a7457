import Verif.Lemmas.ClassNear
import Verif.Lemmas.FortranNiggli
import Verif.Props.Classify
import Verif.Spec.Apart

/-! # The search for the Niggli class in `niggli.f90` -/

namespace AutoGR

open Spec

theorem Spec.Apart.symm {tau rho x y : ℚ} (h : Apart tau rho x y) : Apart tau rho y x := by
  rcases h with h | h
  · exact .inl h.symm
  · exact .inr (by rwa [max_comm, abs_sub_comm])

theorem Spec.Apart.sep {tau rho r x y : ℚ} (h : Apart tau rho x y) (h0 : 0 ≤ r) (hr : r ≤ rho) :
    SepTol tau r x y := by
  rcases h with h | h
  · exact .inl h
  · right
    refine lt_of_le_of_lt ?_ h
    have := mul_le_mul hr (le_max_right |x| |y|) (abs_nonneg y) (h0.trans hr)
    linarith

/-- The tests of the two programs on a pair of quantities that are equal or clearly different. -/
structure Decides (eps x y : ℚ) : Prop where
  c1 : allclose eps x y = decide (x = y)
  c2 : allclose eps y x = decide (x = y)
  r2 : Arith.le |Arith.sub y x| |eps * x| = decide (x = y)

theorem Spec.Apart.decides {eps rho x y : ℚ} (h : Apart eps rho x y) (he : 0 ≤ eps) (hr : 1 / 100000 ≤ rho)
    (her : eps ≤ rho) : Decides eps x y := by
  have h1 := (h.sep (by norm_num) hr).close_iff he
  have h2 := (h.symm.sep (by norm_num) hr).close_iff he
  refine ⟨?_, ?_, ?_⟩
  · rw [Bool.eq_iff_iff, h1, decide_eq_true_eq]
  · rw [Bool.eq_iff_iff, h2, decide_eq_true_eq, eq_comm]
  · rw [Bool.eq_iff_iff, decide_eq_true_eq]
    simp only [Arith.le, Arith.sub, decide_eq_true_eq]
    constructor
    · intro hc
      rcases h.symm.sep he her with h | h
      · exact h.symm
      · rw [abs_mul, abs_of_nonneg he] at hc
        linarith
    · rintro rfl
      rw [sub_self, abs_zero]
      exact abs_nonneg _

/-- The number found, and `31` when none is found. -/
def or31 : Option ℕ → ℕ
  | some k => k
  | none => 31

theorem or31_some (k : ℕ) : or31 (some k) = k := rfl

theorem or31_none : or31 none = 31 := rfl

theorem fStages {eps rho A B C D E F : ℚ} (he : 0 ≤ eps) (hr : 1 / 100000 ≤ rho) (her : eps ≤ rho)
    (ap : ClassApart eps rho A B C D E F) (pos : Bool) :
    fStage1 eps pos A B C D E F = idStage1 eps pos A B C D E F ∧
    fStage2 eps pos A B C D E F = idStage2 eps pos A B C D E F ∧
    fStage3 eps pos A B C D E F = idStage3 eps pos A B C D E F ∧
    fStage4 eps pos A B C D E F = or31 (idStage4 eps pos A B C D E F) := by
  have two : (Arith.ofInt 2 : ℚ) = 2 := by simp [Arith.ofInt]
  have zero : (Arith.ofInt 0 : ℚ) = 0 := by simp [Arith.ofInt]
  have three : (Arith.ofInt 3 : ℚ) = 3 := by simp [Arith.ofInt]
  have four : (Arith.ofInt 4 : ℚ) = 4 := by simp [Arith.ofInt]
  have hadd (x y : ℚ) : Arith.add x y = x + y := rfl
  have hmul (x y : ℚ) : Arith.mul x y = x * y := rfl
  have hdiv (x y : ℚ) : Arith.div x y = x / y := rfl
  have hneg (x : ℚ) : Arith.neg x = -x := rfl
  have habs (x : ℚ) : Arith.abs x = |x| := rfl
  have hcl : (fClose eps : ℚ → ℚ → Bool) = allclose eps := rfl
  have d {x y : ℚ} (h : Apart eps rho x y) : Decides eps x y := h.decides he hr her
  obtain ⟨a_b, b_c, d_e, d_f, e_f, d_zero, e_zero, f_zero, d_ha, e_ha, f_ha, d_nha, e_nha, f_nha, d_hb, d_nhb,
    d_ta, e_ta, d_qa, f_2d, e_2d, f_2e, sum, last⟩ := ap
  refine ⟨?_, ?_, ?_, ?_⟩
  · unfold fStage1 idStage1
    simp only [hcl, two, zero, three, four, hadd, hmul, hdiv, hneg, habs]
    simp only [(d a_b).c1, (d b_c).c1, (d d_e).c1, (d d_f).c1, (d e_f).c1, (d d_ha).c2, (d e_ha).c2, (d f_ha).c2,
      (d d_zero).c2, (d d_ta).c2, (d sum).c1, Bool.and_eq_true, decide_eq_true_eq]
    grind
  · unfold fStage2 idStage2
    simp only [hcl, two, zero, three, four, hadd, hmul, hdiv, hneg, habs]
    simp only [(d a_b).c1, (d d_e).c1, (d d_f).c1, (d d_ha).c2, (d d_zero).c1, (d d_zero).c2, (d f_nha).c2,
      (d d_nha).c1, (d d_nha).c2, (d f_zero).c1, (d f_zero).c2]
  · unfold fStage3 idStage3
    simp only [hcl, two, zero, three, four, hadd, hmul, hdiv, hneg, habs]
    simp only [(d b_c).c1, (d e_f).c1, (d d_qa).c2, (d e_ha).c2, (d d_zero).c1, (d d_zero).c2, (d e_zero).c1,
      (d e_zero).c2, (d d_nhb).c1, (d d_nhb).c2, (d e_ta).c1, (d e_ta).c2]
  · unfold fStage4 idStage4
    simp only [hcl, two, zero, three, four, hadd, hmul, hdiv, hneg, habs]
    simp only [(d e_f).c1, (d d_qa).c1, (d d_qa).r2, (d e_ha).c1, (d e_ha).c2, (d e_ha).r2, (d f_2d).c1, (d f_2d).c2,
      (d f_ha).c1, (d f_ha).c2, (d e_2d).c1, (d e_2d).c2, (d d_hb).c1, (d d_hb).c2, (d f_2e).c1, (d f_2e).c2,
      (d e_zero).c1, (d e_zero).c2, (d d_zero).c1, (d d_zero).c2, (d f_zero).c1, (d f_zero).c2, (d d_f).c1,
      (d d_e).c1, (d e_nha).c1, (d e_nha).c2, (d f_nha).c1, (d f_nha).c2, (d f_nha).r2, (d d_nhb).c1, (d d_nhb).c2]
    simp only [apply_ite or31, or31_some, or31_none]

theorem idNum_eq {eps rho A B C D E F : ℚ} (he : 0 ≤ eps) (hr : 1 / 100000 ≤ rho) (her : eps ≤ rho)
    (ap : ClassApart eps rho A B C D E F) :
    idNum eps A B C D E F = (match niggliNum eps A B C D E F with | .ok k => k | .error _ => 31) := by
  obtain ⟨h1, h2, h3, h4⟩ := fStages he hr her ap (idPositive eps D E F)
  have hp : (Arith.lt (Arith.ofInt 0) (Arith.sub D eps) && Arith.lt (Arith.ofInt 0) (Arith.sub E eps) &&
    Arith.lt (Arith.ofInt 0) (Arith.sub F eps)) = idPositive eps D E F := rfl
  unfold idNum niggliNum
  dsimp only
  rw [hp, h1, h2, h3, h4]
  cases idStage1 eps (idPositive eps D E F) A B C D E F with
  | some k => rfl
  | none =>
    cases idStage2 eps (idPositive eps D E F) A B C D E F with
    | some k => rfl
    | none =>
      cases idStage3 eps (idPositive eps D E F) A B C D E F with
      | some k => rfl
      | none =>
        cases idStage4 eps (idPositive eps D E F) A B C D E F with
        | some k => rfl
        | none => rfl

end AutoGR
