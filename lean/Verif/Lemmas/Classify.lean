import Mathlib.Tactic.Linarith
import Mathlib.Tactic.NormNum
import Mathlib.Data.List.TakeWhile
import Verif.Lemmas.LoopExit
import Verif.Spec.Classify

/-! # The search for the Niggli class, when nothing is nearly equal -/

namespace AutoGR

open Spec

/-- `NiggliClass` for rational metrics. -/
def QClass (k : ℕ) (A B C D E F : ℚ) : Prop :=
  let I := 0 < D ∧ 0 < E ∧ 0 < F
  let II := D ≤ 0 ∧ E ≤ 0 ∧ F ≤ 0
  match k with
  | 1 => I ∧ A = B ∧ B = C ∧ D = A / 2 ∧ E = A / 2 ∧ F = A / 2
  | 2 => I ∧ A = B ∧ B = C ∧ E = D ∧ F = D
  | 3 => II ∧ A = B ∧ B = C ∧ D = 0 ∧ E = 0 ∧ F = 0
  | 4 => II ∧ A = B ∧ B = C ∧ E = D ∧ F = D
  | 5 => II ∧ A = B ∧ B = C ∧ D = -A / 3 ∧ E = -A / 3 ∧ F = -A / 3
  | 6 => II ∧ A = B ∧ B = C ∧ 2 * |D + E + F| = A + B ∧ E = D
  | 7 => II ∧ A = B ∧ B = C ∧ 2 * |D + E + F| = A + B ∧ F = E
  | 8 => II ∧ A = B ∧ B = C ∧ 2 * |D + E + F| = A + B
  | 9 => I ∧ A = B ∧ D = A / 2 ∧ E = A / 2 ∧ F = A / 2
  | 10 => I ∧ A = B ∧ E = D
  | 11 => II ∧ A = B ∧ D = 0 ∧ E = 0 ∧ F = 0
  | 12 => II ∧ A = B ∧ D = 0 ∧ E = 0 ∧ F = -A / 2
  | 13 => II ∧ A = B ∧ D = 0 ∧ E = 0
  | 14 => II ∧ A = B ∧ E = D
  | 15 => II ∧ A = B ∧ D = -A / 2 ∧ E = -A / 2 ∧ F = 0
  | 16 => II ∧ A = B ∧ 2 * |D + E + F| = A + B ∧ E = D
  | 17 => II ∧ A = B ∧ 2 * |D + E + F| = A + B
  | 18 => I ∧ B = C ∧ D = A / 4 ∧ E = A / 2 ∧ F = A / 2
  | 19 => I ∧ B = C ∧ E = A / 2 ∧ F = A / 2
  | 20 => I ∧ B = C ∧ F = E
  | 21 => II ∧ B = C ∧ D = 0 ∧ E = 0 ∧ F = 0
  | 22 => II ∧ B = C ∧ D = -B / 2 ∧ E = 0 ∧ F = 0
  | 23 => II ∧ B = C ∧ E = 0 ∧ F = 0
  | 24 => II ∧ B = C ∧ 2 * |D + E + F| = A + B ∧ E = -A / 3 ∧ F = -A / 3
  | 25 => II ∧ B = C ∧ F = E
  | 26 => I ∧ D = A / 4 ∧ E = A / 2 ∧ F = A / 2
  | 27 => I ∧ E = A / 2 ∧ F = A / 2
  | 28 => I ∧ E = A / 2 ∧ F = 2 * D
  | 29 => I ∧ E = 2 * D ∧ F = A / 2
  | 30 => I ∧ D = B / 2 ∧ F = 2 * E
  | 31 => I
  | 32 => II ∧ D = 0 ∧ E = 0 ∧ F = 0
  | 33 => II ∧ D = 0 ∧ F = 0
  | 34 => II ∧ D = 0 ∧ E = 0
  | 35 => II ∧ E = 0 ∧ F = 0
  | 36 => II ∧ D = 0 ∧ E = -A / 2 ∧ F = 0
  | 37 => II ∧ E = -A / 2 ∧ F = 0
  | 38 => II ∧ D = 0 ∧ E = 0 ∧ F = -A / 2
  | 39 => II ∧ E = 0 ∧ F = -A / 2
  | 40 => II ∧ D = -B / 2 ∧ E = 0 ∧ F = 0
  | 41 => II ∧ D = -B / 2 ∧ F = 0
  | 42 => II ∧ D = -B / 2 ∧ E = -A / 2 ∧ F = 0
  | 43 => II ∧ 2 * |D + E + F| = A + B ∧ |2 * D + F| = B
  | 44 => II
  | _ => False

section
variable {A B C D E F : ℚ}

theorem q1 : QClass 1 A B C D E F ↔ (0 < D ∧ 0 < E ∧ 0 < F) ∧ A = B ∧ B = C ∧ D = A / 2 ∧ E = A / 2 ∧ F = A / 2 := Iff.rfl
theorem q2 : QClass 2 A B C D E F ↔ (0 < D ∧ 0 < E ∧ 0 < F) ∧ A = B ∧ B = C ∧ E = D ∧ F = D := Iff.rfl
theorem q3 : QClass 3 A B C D E F ↔ (D ≤ 0 ∧ E ≤ 0 ∧ F ≤ 0) ∧ A = B ∧ B = C ∧ D = 0 ∧ E = 0 ∧ F = 0 := Iff.rfl
theorem q4 : QClass 4 A B C D E F ↔ (D ≤ 0 ∧ E ≤ 0 ∧ F ≤ 0) ∧ A = B ∧ B = C ∧ E = D ∧ F = D := Iff.rfl
theorem q5 : QClass 5 A B C D E F ↔ (D ≤ 0 ∧ E ≤ 0 ∧ F ≤ 0) ∧ A = B ∧ B = C ∧ D = -A / 3 ∧ E = -A / 3 ∧ F = -A / 3 := Iff.rfl
theorem q6 : QClass 6 A B C D E F ↔ (D ≤ 0 ∧ E ≤ 0 ∧ F ≤ 0) ∧ A = B ∧ B = C ∧ 2 * |D + E + F| = A + B ∧ E = D := Iff.rfl
theorem q7 : QClass 7 A B C D E F ↔ (D ≤ 0 ∧ E ≤ 0 ∧ F ≤ 0) ∧ A = B ∧ B = C ∧ 2 * |D + E + F| = A + B ∧ F = E := Iff.rfl
theorem q8 : QClass 8 A B C D E F ↔ (D ≤ 0 ∧ E ≤ 0 ∧ F ≤ 0) ∧ A = B ∧ B = C ∧ 2 * |D + E + F| = A + B := Iff.rfl
theorem q9 : QClass 9 A B C D E F ↔ (0 < D ∧ 0 < E ∧ 0 < F) ∧ A = B ∧ D = A / 2 ∧ E = A / 2 ∧ F = A / 2 := Iff.rfl
theorem q10 : QClass 10 A B C D E F ↔ (0 < D ∧ 0 < E ∧ 0 < F) ∧ A = B ∧ E = D := Iff.rfl
theorem q11 : QClass 11 A B C D E F ↔ (D ≤ 0 ∧ E ≤ 0 ∧ F ≤ 0) ∧ A = B ∧ D = 0 ∧ E = 0 ∧ F = 0 := Iff.rfl
theorem q12 : QClass 12 A B C D E F ↔ (D ≤ 0 ∧ E ≤ 0 ∧ F ≤ 0) ∧ A = B ∧ D = 0 ∧ E = 0 ∧ F = -A / 2 := Iff.rfl
theorem q13 : QClass 13 A B C D E F ↔ (D ≤ 0 ∧ E ≤ 0 ∧ F ≤ 0) ∧ A = B ∧ D = 0 ∧ E = 0 := Iff.rfl
theorem q14 : QClass 14 A B C D E F ↔ (D ≤ 0 ∧ E ≤ 0 ∧ F ≤ 0) ∧ A = B ∧ E = D := Iff.rfl
theorem q15 : QClass 15 A B C D E F ↔ (D ≤ 0 ∧ E ≤ 0 ∧ F ≤ 0) ∧ A = B ∧ D = -A / 2 ∧ E = -A / 2 ∧ F = 0 := Iff.rfl
theorem q16 : QClass 16 A B C D E F ↔ (D ≤ 0 ∧ E ≤ 0 ∧ F ≤ 0) ∧ A = B ∧ 2 * |D + E + F| = A + B ∧ E = D := Iff.rfl
theorem q17 : QClass 17 A B C D E F ↔ (D ≤ 0 ∧ E ≤ 0 ∧ F ≤ 0) ∧ A = B ∧ 2 * |D + E + F| = A + B := Iff.rfl
theorem q18 : QClass 18 A B C D E F ↔ (0 < D ∧ 0 < E ∧ 0 < F) ∧ B = C ∧ D = A / 4 ∧ E = A / 2 ∧ F = A / 2 := Iff.rfl
theorem q19 : QClass 19 A B C D E F ↔ (0 < D ∧ 0 < E ∧ 0 < F) ∧ B = C ∧ E = A / 2 ∧ F = A / 2 := Iff.rfl
theorem q20 : QClass 20 A B C D E F ↔ (0 < D ∧ 0 < E ∧ 0 < F) ∧ B = C ∧ F = E := Iff.rfl
theorem q21 : QClass 21 A B C D E F ↔ (D ≤ 0 ∧ E ≤ 0 ∧ F ≤ 0) ∧ B = C ∧ D = 0 ∧ E = 0 ∧ F = 0 := Iff.rfl
theorem q22 : QClass 22 A B C D E F ↔ (D ≤ 0 ∧ E ≤ 0 ∧ F ≤ 0) ∧ B = C ∧ D = -B / 2 ∧ E = 0 ∧ F = 0 := Iff.rfl
theorem q23 : QClass 23 A B C D E F ↔ (D ≤ 0 ∧ E ≤ 0 ∧ F ≤ 0) ∧ B = C ∧ E = 0 ∧ F = 0 := Iff.rfl
theorem q24 : QClass 24 A B C D E F ↔ (D ≤ 0 ∧ E ≤ 0 ∧ F ≤ 0) ∧ B = C ∧ 2 * |D + E + F| = A + B ∧ E = -A / 3 ∧ F = -A / 3 := Iff.rfl
theorem q25 : QClass 25 A B C D E F ↔ (D ≤ 0 ∧ E ≤ 0 ∧ F ≤ 0) ∧ B = C ∧ F = E := Iff.rfl
theorem q26 : QClass 26 A B C D E F ↔ (0 < D ∧ 0 < E ∧ 0 < F) ∧ D = A / 4 ∧ E = A / 2 ∧ F = A / 2 := Iff.rfl
theorem q27 : QClass 27 A B C D E F ↔ (0 < D ∧ 0 < E ∧ 0 < F) ∧ E = A / 2 ∧ F = A / 2 := Iff.rfl
theorem q28 : QClass 28 A B C D E F ↔ (0 < D ∧ 0 < E ∧ 0 < F) ∧ E = A / 2 ∧ F = 2 * D := Iff.rfl
theorem q29 : QClass 29 A B C D E F ↔ (0 < D ∧ 0 < E ∧ 0 < F) ∧ E = 2 * D ∧ F = A / 2 := Iff.rfl
theorem q30 : QClass 30 A B C D E F ↔ (0 < D ∧ 0 < E ∧ 0 < F) ∧ D = B / 2 ∧ F = 2 * E := Iff.rfl
theorem q31 : QClass 31 A B C D E F ↔ (0 < D ∧ 0 < E ∧ 0 < F) := Iff.rfl
theorem q32 : QClass 32 A B C D E F ↔ (D ≤ 0 ∧ E ≤ 0 ∧ F ≤ 0) ∧ D = 0 ∧ E = 0 ∧ F = 0 := Iff.rfl
theorem q33 : QClass 33 A B C D E F ↔ (D ≤ 0 ∧ E ≤ 0 ∧ F ≤ 0) ∧ D = 0 ∧ F = 0 := Iff.rfl
theorem q34 : QClass 34 A B C D E F ↔ (D ≤ 0 ∧ E ≤ 0 ∧ F ≤ 0) ∧ D = 0 ∧ E = 0 := Iff.rfl
theorem q35 : QClass 35 A B C D E F ↔ (D ≤ 0 ∧ E ≤ 0 ∧ F ≤ 0) ∧ E = 0 ∧ F = 0 := Iff.rfl
theorem q36 : QClass 36 A B C D E F ↔ (D ≤ 0 ∧ E ≤ 0 ∧ F ≤ 0) ∧ D = 0 ∧ E = -A / 2 ∧ F = 0 := Iff.rfl
theorem q37 : QClass 37 A B C D E F ↔ (D ≤ 0 ∧ E ≤ 0 ∧ F ≤ 0) ∧ E = -A / 2 ∧ F = 0 := Iff.rfl
theorem q38 : QClass 38 A B C D E F ↔ (D ≤ 0 ∧ E ≤ 0 ∧ F ≤ 0) ∧ D = 0 ∧ E = 0 ∧ F = -A / 2 := Iff.rfl
theorem q39 : QClass 39 A B C D E F ↔ (D ≤ 0 ∧ E ≤ 0 ∧ F ≤ 0) ∧ E = 0 ∧ F = -A / 2 := Iff.rfl
theorem q40 : QClass 40 A B C D E F ↔ (D ≤ 0 ∧ E ≤ 0 ∧ F ≤ 0) ∧ D = -B / 2 ∧ E = 0 ∧ F = 0 := Iff.rfl
theorem q41 : QClass 41 A B C D E F ↔ (D ≤ 0 ∧ E ≤ 0 ∧ F ≤ 0) ∧ D = -B / 2 ∧ F = 0 := Iff.rfl
theorem q42 : QClass 42 A B C D E F ↔ (D ≤ 0 ∧ E ≤ 0 ∧ F ≤ 0) ∧ D = -B / 2 ∧ E = -A / 2 ∧ F = 0 := Iff.rfl
theorem q43 : QClass 43 A B C D E F ↔ (D ≤ 0 ∧ E ≤ 0 ∧ F ≤ 0) ∧ 2 * |D + E + F| = A + B ∧ |2 * D + F| = B := Iff.rfl
theorem q44 : QClass 44 A B C D E F ↔ (D ≤ 0 ∧ E ≤ 0 ∧ F ≤ 0) := Iff.rfl

end

theorem niggliClass_cast (k : ℕ) (A B C D E F : ℚ) :
    NiggliClass k (A : ℝ) B C D E F ↔ QClass k A B C D E F := by
  by_cases hk : k ≤ 44
  · interval_cases k <;> simp only [NiggliClass, QClass, TypeI, TypeII] <;> norm_cast
  · have h1 : ¬ NiggliClass k (A : ℝ) B C D E F := by
      unfold NiggliClass
      split <;> first | omega | exact id
    have h2 : ¬ QClass k A B C D E F := by
      unfold QClass
      dsimp only
      split <;> first | omega | exact id
    exact ⟨fun h => absurd h h1, fun h => absurd h h2⟩

/-- First in a part of the table. -/
def First (l : List ℕ) (k : ℕ) (A B C D E F : ℚ) : Prop :=
  k ∈ l ∧ QClass k A B C D E F ∧ ∀ k' ∈ l.takeWhile (· ≠ k), ¬ QClass k' A B C D E F

theorem Spec.SepTol.close_iff {eps x y : ℚ} (h : SepTol eps (1 / 100000) x y) (he : 0 ≤ eps) :
    allclose eps x y = true ↔ x = y :=
  ⟨h.close he, close_refl he⟩

theorem stage1_spec {eps A B C D E F : ℚ} {pos : Bool} (he : 0 ≤ eps)
    (sep : ClassSeparated eps (1 / 100000) A B C D E F)
    (hI : pos = true → 0 < D ∧ 0 < E ∧ 0 < F) (hII : pos = false → D ≤ 0 ∧ E ≤ 0 ∧ F ≤ 0) :
    match idStage1 eps pos A B C D E F with
    | some k => First [1, 2, 3, 5, 4, 6, 7, 8] k A B C D E F
    | none => ∀ k ∈ [1, 2, 3, 5, 4, 6, 7, 8], ¬ QClass k A B C D E F := by
  have two : (Arith.ofInt 2 : ℚ) = 2 := by simp [Arith.ofInt]
  have zero : (Arith.ofInt 0 : ℚ) = 0 := by simp [Arith.ofInt]
  have three : (Arith.ofInt 3 : ℚ) = 3 := by simp [Arith.ofInt]
  have four : (Arith.ofInt 4 : ℚ) = 4 := by simp [Arith.ofInt]
  have hadd (x y : ℚ) : Arith.add x y = x + y := rfl
  have hmul (x y : ℚ) : Arith.mul x y = x * y := rfl
  have hdiv (x y : ℚ) : Arith.div x y = x / y := rfl
  have hneg (x : ℚ) : Arith.neg x = -x := rfl
  have habs (x : ℚ) : Arith.abs x = |x| := rfl
  unfold idStage1
  simp only [two, zero, three, four, hadd, hmul, hdiv, hneg, habs, Bool.and_eq_true,
    sep.a_b.close_iff he, sep.b_c.close_iff he, sep.d_e.close_iff he, sep.d_f.close_iff he, sep.e_f.close_iff he, sep.zero_d.close_iff he, sep.d_zero.close_iff he, sep.e_zero.close_iff he, sep.f_zero.close_iff he, sep.ha_d.close_iff he, sep.ha_e.close_iff he, sep.e_ha.close_iff he, sep.ha_f.close_iff he, sep.f_ha.close_iff he, sep.nha_f.close_iff he, sep.f_nha.close_iff he, sep.d_nha.close_iff he, sep.nha_e.close_iff he, sep.e_nha.close_iff he, sep.d_hb.close_iff he, sep.d_nhb.close_iff he, sep.nhb_d.close_iff he, sep.ta_d.close_iff he, sep.e_ta.close_iff he, sep.qa_d.close_iff he, sep.d_qa.close_iff he, sep.f_2d.close_iff he, sep.e_2d.close_iff he, sep.f_2e.close_iff he, sep.sum.close_iff he, sep.last.close_iff he]
  clear sep
  cases pos with
  | true =>
    replace hI := hI rfl
    clear hII
    simp only [if_true]
    split_ifs
    all_goals simp only [First, List.takeWhile_cons, List.takeWhile_nil, List.mem_cons, List.not_mem_nil, ne_eq,
      reduceCtorEq, Nat.reduceEqDiff, not_false_eq_true, decide_true, if_true, not_true_eq_false, decide_false,
      Bool.false_eq_true, if_false, forall_eq_or_imp, forall_eq, or_false, false_or, or_true, true_or, true_and,
      false_and, false_imp_iff, implies_true, and_true, IsEmpty.forall_iff, q1, q2, q3, q5, q4, q6, q7, q8]
    all_goals grind (splits := 40)
  | false =>
    replace hII := hII rfl
    clear hI
    simp only [Bool.false_eq_true, if_false]
    split_ifs
    all_goals simp only [First, List.takeWhile_cons, List.takeWhile_nil, List.mem_cons, List.not_mem_nil, ne_eq,
      reduceCtorEq, Nat.reduceEqDiff, not_false_eq_true, decide_true, if_true, not_true_eq_false, decide_false,
      Bool.false_eq_true, if_false, forall_eq_or_imp, forall_eq, or_false, false_or, or_true, true_or, true_and,
      false_and, false_imp_iff, implies_true, and_true, IsEmpty.forall_iff, q1, q2, q3, q5, q4, q6, q7, q8]
    all_goals grind (splits := 40)

theorem stage2_spec {eps A B C D E F : ℚ} {pos : Bool} (he : 0 ≤ eps)
    (sep : ClassSeparated eps (1 / 100000) A B C D E F)
    (hI : pos = true → 0 < D ∧ 0 < E ∧ 0 < F) (hII : pos = false → D ≤ 0 ∧ E ≤ 0 ∧ F ≤ 0) :
    match idStage2 eps pos A B C D E F with
    | some k => First [9, 10, 11, 12, 13, 15, 16, 14, 17] k A B C D E F
    | none => ∀ k ∈ [9, 10, 11, 12, 13, 15, 16, 14, 17], ¬ QClass k A B C D E F := by
  have two : (Arith.ofInt 2 : ℚ) = 2 := by simp [Arith.ofInt]
  have zero : (Arith.ofInt 0 : ℚ) = 0 := by simp [Arith.ofInt]
  have three : (Arith.ofInt 3 : ℚ) = 3 := by simp [Arith.ofInt]
  have four : (Arith.ofInt 4 : ℚ) = 4 := by simp [Arith.ofInt]
  have hadd (x y : ℚ) : Arith.add x y = x + y := rfl
  have hmul (x y : ℚ) : Arith.mul x y = x * y := rfl
  have hdiv (x y : ℚ) : Arith.div x y = x / y := rfl
  have hneg (x : ℚ) : Arith.neg x = -x := rfl
  have habs (x : ℚ) : Arith.abs x = |x| := rfl
  unfold idStage2
  simp only [two, zero, three, four, hadd, hmul, hdiv, hneg, habs, Bool.and_eq_true,
    sep.a_b.close_iff he, sep.b_c.close_iff he, sep.d_e.close_iff he, sep.d_f.close_iff he, sep.e_f.close_iff he, sep.zero_d.close_iff he, sep.d_zero.close_iff he, sep.e_zero.close_iff he, sep.f_zero.close_iff he, sep.ha_d.close_iff he, sep.ha_e.close_iff he, sep.e_ha.close_iff he, sep.ha_f.close_iff he, sep.f_ha.close_iff he, sep.nha_f.close_iff he, sep.f_nha.close_iff he, sep.d_nha.close_iff he, sep.nha_e.close_iff he, sep.e_nha.close_iff he, sep.d_hb.close_iff he, sep.d_nhb.close_iff he, sep.nhb_d.close_iff he, sep.ta_d.close_iff he, sep.e_ta.close_iff he, sep.qa_d.close_iff he, sep.d_qa.close_iff he, sep.f_2d.close_iff he, sep.e_2d.close_iff he, sep.f_2e.close_iff he, sep.sum.close_iff he, sep.last.close_iff he]
  clear sep
  cases pos with
  | true =>
    replace hI := hI rfl
    clear hII
    simp only [if_true]
    split_ifs
    all_goals simp only [First, List.takeWhile_cons, List.takeWhile_nil, List.mem_cons, List.not_mem_nil, ne_eq,
      reduceCtorEq, Nat.reduceEqDiff, not_false_eq_true, decide_true, if_true, not_true_eq_false, decide_false,
      Bool.false_eq_true, if_false, forall_eq_or_imp, forall_eq, or_false, false_or, or_true, true_or, true_and,
      false_and, false_imp_iff, implies_true, and_true, IsEmpty.forall_iff, q9, q10, q11, q12, q13, q15, q16, q14, q17]
    all_goals grind (splits := 40)
  | false =>
    replace hII := hII rfl
    clear hI
    simp only [Bool.false_eq_true, if_false]
    split_ifs
    all_goals simp only [First, List.takeWhile_cons, List.takeWhile_nil, List.mem_cons, List.not_mem_nil, ne_eq,
      reduceCtorEq, Nat.reduceEqDiff, not_false_eq_true, decide_true, if_true, not_true_eq_false, decide_false,
      Bool.false_eq_true, if_false, forall_eq_or_imp, forall_eq, or_false, false_or, or_true, true_or, true_and,
      false_and, false_imp_iff, implies_true, and_true, IsEmpty.forall_iff, q9, q10, q11, q12, q13, q15, q16, q14, q17]
    all_goals grind (splits := 40)

theorem stage3_spec {eps A B C D E F : ℚ} {pos : Bool} (he : 0 ≤ eps)
    (sep : ClassSeparated eps (1 / 100000) A B C D E F)
    (hI : pos = true → 0 < D ∧ 0 < E ∧ 0 < F) (hII : pos = false → D ≤ 0 ∧ E ≤ 0 ∧ F ≤ 0) :
    match idStage3 eps pos A B C D E F with
    | some k => First [18, 19, 20, 21, 22, 23, 24, 25] k A B C D E F
    | none => ∀ k ∈ [18, 19, 20, 21, 22, 23, 24, 25], ¬ QClass k A B C D E F := by
  have two : (Arith.ofInt 2 : ℚ) = 2 := by simp [Arith.ofInt]
  have zero : (Arith.ofInt 0 : ℚ) = 0 := by simp [Arith.ofInt]
  have three : (Arith.ofInt 3 : ℚ) = 3 := by simp [Arith.ofInt]
  have four : (Arith.ofInt 4 : ℚ) = 4 := by simp [Arith.ofInt]
  have hadd (x y : ℚ) : Arith.add x y = x + y := rfl
  have hmul (x y : ℚ) : Arith.mul x y = x * y := rfl
  have hdiv (x y : ℚ) : Arith.div x y = x / y := rfl
  have hneg (x : ℚ) : Arith.neg x = -x := rfl
  have habs (x : ℚ) : Arith.abs x = |x| := rfl
  unfold idStage3
  simp only [two, zero, three, four, hadd, hmul, hdiv, hneg, habs, Bool.and_eq_true,
    sep.a_b.close_iff he, sep.b_c.close_iff he, sep.d_e.close_iff he, sep.d_f.close_iff he, sep.e_f.close_iff he, sep.zero_d.close_iff he, sep.d_zero.close_iff he, sep.e_zero.close_iff he, sep.f_zero.close_iff he, sep.ha_d.close_iff he, sep.ha_e.close_iff he, sep.e_ha.close_iff he, sep.ha_f.close_iff he, sep.f_ha.close_iff he, sep.nha_f.close_iff he, sep.f_nha.close_iff he, sep.d_nha.close_iff he, sep.nha_e.close_iff he, sep.e_nha.close_iff he, sep.d_hb.close_iff he, sep.d_nhb.close_iff he, sep.nhb_d.close_iff he, sep.ta_d.close_iff he, sep.e_ta.close_iff he, sep.qa_d.close_iff he, sep.d_qa.close_iff he, sep.f_2d.close_iff he, sep.e_2d.close_iff he, sep.f_2e.close_iff he, sep.sum.close_iff he, sep.last.close_iff he]
  clear sep
  cases pos with
  | true =>
    replace hI := hI rfl
    clear hII
    simp only [if_true]
    split_ifs
    all_goals simp only [First, List.takeWhile_cons, List.takeWhile_nil, List.mem_cons, List.not_mem_nil, ne_eq,
      reduceCtorEq, Nat.reduceEqDiff, not_false_eq_true, decide_true, if_true, not_true_eq_false, decide_false,
      Bool.false_eq_true, if_false, forall_eq_or_imp, forall_eq, or_false, false_or, or_true, true_or, true_and,
      false_and, false_imp_iff, implies_true, and_true, IsEmpty.forall_iff, q18, q19, q20, q21, q22, q23, q24, q25]
    all_goals grind (splits := 40)
  | false =>
    replace hII := hII rfl
    clear hI
    simp only [Bool.false_eq_true, if_false]
    split_ifs
    all_goals simp only [First, List.takeWhile_cons, List.takeWhile_nil, List.mem_cons, List.not_mem_nil, ne_eq,
      reduceCtorEq, Nat.reduceEqDiff, not_false_eq_true, decide_true, if_true, not_true_eq_false, decide_false,
      Bool.false_eq_true, if_false, forall_eq_or_imp, forall_eq, or_false, false_or, or_true, true_or, true_and,
      false_and, false_imp_iff, implies_true, and_true, IsEmpty.forall_iff, q18, q19, q20, q21, q22, q23, q24, q25]
    all_goals grind (splits := 40)

theorem stage4_spec {eps A B C D E F : ℚ} {pos : Bool} (he : 0 ≤ eps)
    (sep : ClassSeparated eps (1 / 100000) A B C D E F)
    (hI : pos = true → 0 < D ∧ 0 < E ∧ 0 < F) (hII : pos = false → D ≤ 0 ∧ E ≤ 0 ∧ F ≤ 0) :
    match idStage4 eps pos A B C D E F with
    | some k => First [26, 27, 28, 29, 30, 31, 32, 40, 35, 36, 33, 38, 34, 42, 41, 37, 39, 43, 44] k A B C D E F ∧ ¬ (k = 31 ∧ E = F)
    | none => First [26, 27, 28, 29, 30, 31, 32, 40, 35, 36, 33, 38, 34, 42, 41, 37, 39, 43, 44] 31 A B C D E F ∧ E = F := by
  have two : (Arith.ofInt 2 : ℚ) = 2 := by simp [Arith.ofInt]
  have zero : (Arith.ofInt 0 : ℚ) = 0 := by simp [Arith.ofInt]
  have three : (Arith.ofInt 3 : ℚ) = 3 := by simp [Arith.ofInt]
  have four : (Arith.ofInt 4 : ℚ) = 4 := by simp [Arith.ofInt]
  have hadd (x y : ℚ) : Arith.add x y = x + y := rfl
  have hmul (x y : ℚ) : Arith.mul x y = x * y := rfl
  have hdiv (x y : ℚ) : Arith.div x y = x / y := rfl
  have hneg (x : ℚ) : Arith.neg x = -x := rfl
  have habs (x : ℚ) : Arith.abs x = |x| := rfl
  unfold idStage4
  simp only [two, zero, three, four, hadd, hmul, hdiv, hneg, habs, Bool.and_eq_true,
    sep.a_b.close_iff he, sep.b_c.close_iff he, sep.d_e.close_iff he, sep.d_f.close_iff he, sep.e_f.close_iff he, sep.zero_d.close_iff he, sep.d_zero.close_iff he, sep.e_zero.close_iff he, sep.f_zero.close_iff he, sep.ha_d.close_iff he, sep.ha_e.close_iff he, sep.e_ha.close_iff he, sep.ha_f.close_iff he, sep.f_ha.close_iff he, sep.nha_f.close_iff he, sep.f_nha.close_iff he, sep.d_nha.close_iff he, sep.nha_e.close_iff he, sep.e_nha.close_iff he, sep.d_hb.close_iff he, sep.d_nhb.close_iff he, sep.nhb_d.close_iff he, sep.ta_d.close_iff he, sep.e_ta.close_iff he, sep.qa_d.close_iff he, sep.d_qa.close_iff he, sep.f_2d.close_iff he, sep.e_2d.close_iff he, sep.f_2e.close_iff he, sep.sum.close_iff he, sep.last.close_iff he]
  clear sep
  cases pos with
  | true =>
    replace hI := hI rfl
    clear hII
    simp only [if_true]
    split_ifs
    all_goals simp only [First, List.takeWhile_cons, List.takeWhile_nil, List.mem_cons, List.not_mem_nil, ne_eq,
      reduceCtorEq, Nat.reduceEqDiff, not_false_eq_true, decide_true, if_true, not_true_eq_false, decide_false,
      Bool.false_eq_true, if_false, forall_eq_or_imp, forall_eq, or_false, false_or, or_true, true_or, true_and,
      false_and, false_imp_iff, implies_true, and_true, IsEmpty.forall_iff, q26, q27, q28, q29, q30, q31, q32, q40, q35, q36, q33, q38, q34, q42, q41, q37, q39, q43, q44]
    all_goals grind (splits := 40)
  | false =>
    replace hII := hII rfl
    clear hI
    simp only [Bool.false_eq_true, if_false]
    split_ifs
    all_goals simp only [First, List.takeWhile_cons, List.takeWhile_nil, List.mem_cons, List.not_mem_nil, ne_eq,
      reduceCtorEq, Nat.reduceEqDiff, not_false_eq_true, decide_true, if_true, not_true_eq_false, decide_false,
      Bool.false_eq_true, if_false, forall_eq_or_imp, forall_eq, or_false, false_or, or_true, true_or, true_and,
      false_and, false_imp_iff, implies_true, and_true, IsEmpty.forall_iff, q26, q27, q28, q29, q30, q31, q32, q40, q35, q36, q33, q38, q34, q42, q41, q37, q39, q43, q44]
    all_goals grind (splits := 40)

theorem idPositive_iff {eps D E F : ℚ} :
    idPositive eps D E F = true ↔ eps < D ∧ eps < E ∧ eps < F := by
  simp [idPositive, Arith.lt, Arith.sub, Arith.ofInt, and_assoc]

/-- First in two parts of the table, one after the other. -/
theorem First.left {l l' : List ℕ} {k : ℕ} {A B C D E F : ℚ} (h : First l k A B C D E F) :
    First (l ++ l') k A B C D E F := by
  obtain ⟨h1, h2, h3⟩ := h
  refine ⟨List.mem_append_left _ h1, h2, ?_⟩
  have : (l ++ l').takeWhile (· ≠ k) = l.takeWhile (· ≠ k) := by
    rw [List.takeWhile_append, if_neg]
    intro hlen
    have heq := (List.takeWhile_prefix (p := (· ≠ k)) (l := l)).eq_of_length hlen
    rw [← heq] at h1
    have := List.mem_takeWhile_imp h1
    simp at this
  rwa [this]

theorem First.right {l l' : List ℕ} {k : ℕ} {A B C D E F : ℚ} (hl : ∀ k ∈ l, ¬ QClass k A B C D E F)
    (h : First l' k A B C D E F) : First (l ++ l') k A B C D E F := by
  obtain ⟨h1, h2, h3⟩ := h
  refine ⟨List.mem_append_right _ h1, h2, fun k' hk' => ?_⟩
  rw [List.takeWhile_append] at hk'
  split_ifs at hk' with hlen
  · rcases List.mem_append.1 hk' with h | h
    · exact hl k' h
    · exact h3 k' h
  · exact hl k' ((List.takeWhile_sublist _).subset hk')

theorem First.unique {l : List ℕ} {k k' : ℕ} {A B C D E F : ℚ} (h : First l k A B C D E F)
    (h' : First l k' A B C D E F) : k = k' := by
  obtain ⟨h1, h2, h3⟩ := h
  obtain ⟨h1', h2', h3'⟩ := h'
  by_contra hne
  induction l with
  | nil => simp at h1
  | cons a t ih =>
    by_cases ha : a = k
    · subst ha
      apply h3' a _ h2
      rw [List.takeWhile_cons_of_pos (by simpa using hne)]
      exact List.mem_cons_self
    · by_cases ha' : a = k'
      · subst ha'
        apply h3 a _ h2'
        rw [List.takeWhile_cons_of_pos (by simpa using ha)]
        exact List.mem_cons_self
      · rw [List.takeWhile_cons_of_pos (by simpa using ha)] at h3
        rw [List.takeWhile_cons_of_pos (by simpa using ha')] at h3'
        refine ih ?_ (fun x hx => h3 x (List.mem_cons_of_mem _ hx)) ?_
          (fun x hx => h3' x (List.mem_cons_of_mem _ hx))
        · exact (List.mem_cons.1 h1).resolve_left (fun h => ha h.symm)
        · exact (List.mem_cons.1 h1').resolve_left (fun h => ha' h.symm)

theorem isClass_cast (k : ℕ) (A B C D E F : ℚ) :
    IsClass k (A : ℝ) B C D E F ↔ First classTable k A B C D E F := by
  unfold IsClass First
  simp only [niggliClass_cast]

/-- The whole search. -/
theorem niggliNum_spec {eps A B C D E F : ℚ} (he : 0 ≤ eps)
    (sep : ClassSeparated eps (1 / 100000) A B C D E F)
    (htype : (eps < D ∧ eps < E ∧ eps < F) ∨ (D ≤ 0 ∧ E ≤ 0 ∧ F ≤ 0)) :
    (∃ k, niggliNum eps A B C D E F = .ok k ∧ First classTable k A B C D E F ∧ ¬ (k = 31 ∧ E = F)) ∨
      (niggliNum eps A B C D E F = .error .unboundLocal ∧ First classTable 31 A B C D E F ∧ E = F) := by
  have hI : idPositive eps D E F = true → 0 < D ∧ 0 < E ∧ 0 < F := by
    rw [idPositive_iff]
    intro h
    exact ⟨he.trans_lt h.1, he.trans_lt h.2.1, he.trans_lt h.2.2⟩
  have hII : idPositive eps D E F = false → D ≤ 0 ∧ E ≤ 0 ∧ F ≤ 0 := by
    intro h
    refine htype.resolve_left fun h' => ?_
    rw [← idPositive_iff, h] at h'
    simp at h'
  have s1 := stage1_spec he sep hI hII
  have s2 := stage2_spec he sep hI hII
  have s3 := stage3_spec he sep hI hII
  have s4 := stage4_spec he sep hI hII
  have ne (k : ℕ) (l : List ℕ) (h : k ∈ l) (hl : ∀ x ∈ l, x ≠ 31) : ¬ (k = 31 ∧ E = F) :=
    fun h' => hl k h h'.1
  unfold niggliNum classTable
  dsimp only
  cases e1 : idStage1 eps (idPositive eps D E F) A B C D E F with
  | some k =>
    rw [e1] at s1
    exact .inl ⟨k, rfl, s1.left.left.left, ne _ _ s1.1 (by decide)⟩
  | none =>
    rw [e1] at s1
    cases e2 : idStage2 eps (idPositive eps D E F) A B C D E F with
    | some k =>
      rw [e2] at s2
      exact .inl ⟨k, rfl, (s2.right s1).left.left, ne _ _ s2.1 (by decide)⟩
    | none =>
      rw [e2] at s2
      have s12 : ∀ k ∈ [1, 2, 3, 5, 4, 6, 7, 8] ++ [9, 10, 11, 12, 13, 15, 16, 14, 17],
          ¬ QClass k A B C D E F := fun k hk => (List.mem_append.1 hk).elim (s1 k) (s2 k)
      cases e3 : idStage3 eps (idPositive eps D E F) A B C D E F with
      | some k =>
        rw [e3] at s3
        exact .inl ⟨k, rfl, (s3.right s12).left, ne _ _ s3.1 (by decide)⟩
      | none =>
        rw [e3] at s3
        have s123 : ∀ k ∈ [1, 2, 3, 5, 4, 6, 7, 8] ++ [9, 10, 11, 12, 13, 15, 16, 14, 17] ++
            [18, 19, 20, 21, 22, 23, 24, 25], ¬ QClass k A B C D E F :=
          fun k hk => (List.mem_append.1 hk).elim (s12 k) (s3 k)
        cases e4 : idStage4 eps (idPositive eps D E F) A B C D E F with
        | some k =>
          rw [e4] at s4
          exact .inl ⟨k, rfl, s4.1.right s123, s4.2⟩
        | none =>
          rw [e4] at s4
          exact .inr ⟨rfl, s4.1.right s123, s4.2⟩

end AutoGR
