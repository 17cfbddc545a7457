import Verif.Model.LatId
import Verif.Lemmas.RealClass

/-!
# `niggli_id`: the search for the Niggli class, when every comparison comes out as it does for an ideal metric

The arithmetic is arbitrary.
-/

set_option linter.unusedSimpArgs false

namespace AutoGR

open Spec Classical

section
variable {A B C D E F : ℝ}

private theorem n1 : NiggliClass 1 A B C D E F ↔ (0 < D ∧ 0 < E ∧ 0 < F) ∧ A = B ∧ B = C ∧ D = A / 2 ∧ E = A / 2 ∧ F = A / 2 := Iff.rfl
private theorem n2 : NiggliClass 2 A B C D E F ↔ (0 < D ∧ 0 < E ∧ 0 < F) ∧ A = B ∧ B = C ∧ E = D ∧ F = D := Iff.rfl
private theorem n3 : NiggliClass 3 A B C D E F ↔ (D ≤ 0 ∧ E ≤ 0 ∧ F ≤ 0) ∧ A = B ∧ B = C ∧ D = 0 ∧ E = 0 ∧ F = 0 := Iff.rfl
private theorem n4 : NiggliClass 4 A B C D E F ↔ (D ≤ 0 ∧ E ≤ 0 ∧ F ≤ 0) ∧ A = B ∧ B = C ∧ E = D ∧ F = D := Iff.rfl
private theorem n5 : NiggliClass 5 A B C D E F ↔ (D ≤ 0 ∧ E ≤ 0 ∧ F ≤ 0) ∧ A = B ∧ B = C ∧ D = -A / 3 ∧ E = -A / 3 ∧ F = -A / 3 := Iff.rfl
private theorem n6 : NiggliClass 6 A B C D E F ↔ (D ≤ 0 ∧ E ≤ 0 ∧ F ≤ 0) ∧ A = B ∧ B = C ∧ 2 * |D + E + F| = A + B ∧ E = D := Iff.rfl
private theorem n7 : NiggliClass 7 A B C D E F ↔ (D ≤ 0 ∧ E ≤ 0 ∧ F ≤ 0) ∧ A = B ∧ B = C ∧ 2 * |D + E + F| = A + B ∧ F = E := Iff.rfl
private theorem n8 : NiggliClass 8 A B C D E F ↔ (D ≤ 0 ∧ E ≤ 0 ∧ F ≤ 0) ∧ A = B ∧ B = C ∧ 2 * |D + E + F| = A + B := Iff.rfl
private theorem n9 : NiggliClass 9 A B C D E F ↔ (0 < D ∧ 0 < E ∧ 0 < F) ∧ A = B ∧ D = A / 2 ∧ E = A / 2 ∧ F = A / 2 := Iff.rfl
private theorem n10 : NiggliClass 10 A B C D E F ↔ (0 < D ∧ 0 < E ∧ 0 < F) ∧ A = B ∧ E = D := Iff.rfl
private theorem n11 : NiggliClass 11 A B C D E F ↔ (D ≤ 0 ∧ E ≤ 0 ∧ F ≤ 0) ∧ A = B ∧ D = 0 ∧ E = 0 ∧ F = 0 := Iff.rfl
private theorem n12 : NiggliClass 12 A B C D E F ↔ (D ≤ 0 ∧ E ≤ 0 ∧ F ≤ 0) ∧ A = B ∧ D = 0 ∧ E = 0 ∧ F = -A / 2 := Iff.rfl
private theorem n13 : NiggliClass 13 A B C D E F ↔ (D ≤ 0 ∧ E ≤ 0 ∧ F ≤ 0) ∧ A = B ∧ D = 0 ∧ E = 0 := Iff.rfl
private theorem n14 : NiggliClass 14 A B C D E F ↔ (D ≤ 0 ∧ E ≤ 0 ∧ F ≤ 0) ∧ A = B ∧ E = D := Iff.rfl
private theorem n15 : NiggliClass 15 A B C D E F ↔ (D ≤ 0 ∧ E ≤ 0 ∧ F ≤ 0) ∧ A = B ∧ D = -A / 2 ∧ E = -A / 2 ∧ F = 0 := Iff.rfl
private theorem n16 : NiggliClass 16 A B C D E F ↔ (D ≤ 0 ∧ E ≤ 0 ∧ F ≤ 0) ∧ A = B ∧ 2 * |D + E + F| = A + B ∧ E = D := Iff.rfl
private theorem n17 : NiggliClass 17 A B C D E F ↔ (D ≤ 0 ∧ E ≤ 0 ∧ F ≤ 0) ∧ A = B ∧ 2 * |D + E + F| = A + B := Iff.rfl
private theorem n18 : NiggliClass 18 A B C D E F ↔ (0 < D ∧ 0 < E ∧ 0 < F) ∧ B = C ∧ D = A / 4 ∧ E = A / 2 ∧ F = A / 2 := Iff.rfl
private theorem n19 : NiggliClass 19 A B C D E F ↔ (0 < D ∧ 0 < E ∧ 0 < F) ∧ B = C ∧ E = A / 2 ∧ F = A / 2 := Iff.rfl
private theorem n20 : NiggliClass 20 A B C D E F ↔ (0 < D ∧ 0 < E ∧ 0 < F) ∧ B = C ∧ F = E := Iff.rfl
private theorem n21 : NiggliClass 21 A B C D E F ↔ (D ≤ 0 ∧ E ≤ 0 ∧ F ≤ 0) ∧ B = C ∧ D = 0 ∧ E = 0 ∧ F = 0 := Iff.rfl
private theorem n22 : NiggliClass 22 A B C D E F ↔ (D ≤ 0 ∧ E ≤ 0 ∧ F ≤ 0) ∧ B = C ∧ D = -B / 2 ∧ E = 0 ∧ F = 0 := Iff.rfl
private theorem n23 : NiggliClass 23 A B C D E F ↔ (D ≤ 0 ∧ E ≤ 0 ∧ F ≤ 0) ∧ B = C ∧ E = 0 ∧ F = 0 := Iff.rfl
private theorem n24 : NiggliClass 24 A B C D E F ↔ (D ≤ 0 ∧ E ≤ 0 ∧ F ≤ 0) ∧ B = C ∧ 2 * |D + E + F| = A + B ∧ E = -A / 3 ∧ F = -A / 3 := Iff.rfl
private theorem n25 : NiggliClass 25 A B C D E F ↔ (D ≤ 0 ∧ E ≤ 0 ∧ F ≤ 0) ∧ B = C ∧ F = E := Iff.rfl
private theorem n26 : NiggliClass 26 A B C D E F ↔ (0 < D ∧ 0 < E ∧ 0 < F) ∧ D = A / 4 ∧ E = A / 2 ∧ F = A / 2 := Iff.rfl
private theorem n27 : NiggliClass 27 A B C D E F ↔ (0 < D ∧ 0 < E ∧ 0 < F) ∧ E = A / 2 ∧ F = A / 2 := Iff.rfl
private theorem n28 : NiggliClass 28 A B C D E F ↔ (0 < D ∧ 0 < E ∧ 0 < F) ∧ E = A / 2 ∧ F = 2 * D := Iff.rfl
private theorem n29 : NiggliClass 29 A B C D E F ↔ (0 < D ∧ 0 < E ∧ 0 < F) ∧ E = 2 * D ∧ F = A / 2 := Iff.rfl
private theorem n30 : NiggliClass 30 A B C D E F ↔ (0 < D ∧ 0 < E ∧ 0 < F) ∧ D = B / 2 ∧ F = 2 * E := Iff.rfl
private theorem n31 : NiggliClass 31 A B C D E F ↔ (0 < D ∧ 0 < E ∧ 0 < F) := Iff.rfl
private theorem n32 : NiggliClass 32 A B C D E F ↔ (D ≤ 0 ∧ E ≤ 0 ∧ F ≤ 0) ∧ D = 0 ∧ E = 0 ∧ F = 0 := Iff.rfl
private theorem n33 : NiggliClass 33 A B C D E F ↔ (D ≤ 0 ∧ E ≤ 0 ∧ F ≤ 0) ∧ D = 0 ∧ F = 0 := Iff.rfl
private theorem n34 : NiggliClass 34 A B C D E F ↔ (D ≤ 0 ∧ E ≤ 0 ∧ F ≤ 0) ∧ D = 0 ∧ E = 0 := Iff.rfl
private theorem n35 : NiggliClass 35 A B C D E F ↔ (D ≤ 0 ∧ E ≤ 0 ∧ F ≤ 0) ∧ E = 0 ∧ F = 0 := Iff.rfl
private theorem n36 : NiggliClass 36 A B C D E F ↔ (D ≤ 0 ∧ E ≤ 0 ∧ F ≤ 0) ∧ D = 0 ∧ E = -A / 2 ∧ F = 0 := Iff.rfl
private theorem n37 : NiggliClass 37 A B C D E F ↔ (D ≤ 0 ∧ E ≤ 0 ∧ F ≤ 0) ∧ E = -A / 2 ∧ F = 0 := Iff.rfl
private theorem n38 : NiggliClass 38 A B C D E F ↔ (D ≤ 0 ∧ E ≤ 0 ∧ F ≤ 0) ∧ D = 0 ∧ E = 0 ∧ F = -A / 2 := Iff.rfl
private theorem n39 : NiggliClass 39 A B C D E F ↔ (D ≤ 0 ∧ E ≤ 0 ∧ F ≤ 0) ∧ E = 0 ∧ F = -A / 2 := Iff.rfl
private theorem n40 : NiggliClass 40 A B C D E F ↔ (D ≤ 0 ∧ E ≤ 0 ∧ F ≤ 0) ∧ D = -B / 2 ∧ E = 0 ∧ F = 0 := Iff.rfl
private theorem n41 : NiggliClass 41 A B C D E F ↔ (D ≤ 0 ∧ E ≤ 0 ∧ F ≤ 0) ∧ D = -B / 2 ∧ F = 0 := Iff.rfl
private theorem n42 : NiggliClass 42 A B C D E F ↔ (D ≤ 0 ∧ E ≤ 0 ∧ F ≤ 0) ∧ D = -B / 2 ∧ E = -A / 2 ∧ F = 0 := Iff.rfl
private theorem n43 : NiggliClass 43 A B C D E F ↔ (D ≤ 0 ∧ E ≤ 0 ∧ F ≤ 0) ∧ 2 * |D + E + F| = A + B ∧ |2 * D + F| = B := Iff.rfl
private theorem n44 : NiggliClass 44 A B C D E F ↔ (D ≤ 0 ∧ E ≤ 0 ∧ F ≤ 0) := Iff.rfl

end

variable {K : Type} [Arith K]

open Arith

/-- The comparisons of `niggli_id` on the computed products `A … F` come out as for the ideal ones. -/
structure PyAtoms (eps A B C D E F : K) (a b c d e f : ℝ) : Prop where
  a_b : allclose eps A B = decide (a = b)
  b_c : allclose eps B C = decide (b = c)
  d_e : allclose eps D E = decide (d = e)
  d_f : allclose eps D F = decide (d = f)
  e_f : allclose eps E F = decide (e = f)
  zero_d : allclose eps (ofInt 0) D = decide (d = 0)
  d_zero : allclose eps D (ofInt 0) = decide (d = 0)
  e_zero : allclose eps E (ofInt 0) = decide (e = 0)
  f_zero : allclose eps F (ofInt 0) = decide (f = 0)
  ha_d : allclose eps (div A (ofInt 2)) D = decide (d = a / 2)
  ha_e : allclose eps (div A (ofInt 2)) E = decide (e = a / 2)
  ha_f : allclose eps (div A (ofInt 2)) F = decide (f = a / 2)
  e_ha : allclose eps E (div A (ofInt 2)) = decide (e = a / 2)
  f_ha : allclose eps F (div A (ofInt 2)) = decide (f = a / 2)
  nha_e : allclose eps (div (neg A) (ofInt 2)) E = decide (e = -a / 2)
  nha_f : allclose eps (div (neg A) (ofInt 2)) F = decide (f = -a / 2)
  d_nha : allclose eps D (div (neg A) (ofInt 2)) = decide (d = -a / 2)
  e_nha : allclose eps E (div (neg A) (ofInt 2)) = decide (e = -a / 2)
  f_nha : allclose eps F (div (neg A) (ofInt 2)) = decide (f = -a / 2)
  d_hb : allclose eps D (div B (ofInt 2)) = decide (d = b / 2)
  nhb_d : allclose eps (div (neg B) (ofInt 2)) D = decide (d = -b / 2)
  d_nhb : allclose eps D (div (neg B) (ofInt 2)) = decide (d = -b / 2)
  ta_d : allclose eps (div (neg A) (ofInt 3)) D = decide (d = -a / 3)
  e_ta : allclose eps E (div (neg A) (ofInt 3)) = decide (e = -a / 3)
  qa_d : allclose eps (div A (ofInt 4)) D = decide (d = a / 4)
  d_qa : allclose eps D (div A (ofInt 4)) = decide (d = a / 4)
  f_2d : allclose eps F (mul (ofInt 2) D) = decide (f = 2 * d)
  e_2d : allclose eps E (mul (ofInt 2) D) = decide (e = 2 * d)
  f_2e : allclose eps F (mul (ofInt 2) E) = decide (f = 2 * e)
  sum : allclose eps (mul (ofInt 2) (abs (add (add D E) F))) (add A B) = decide (2 * |d + e + f| = a + b)
  last : allclose eps (abs (add (mul (ofInt 2) D) F)) B = decide (|2 * d + f| = b)
  pos : idPositive eps D E F = decide (0 < d ∧ 0 < e ∧ 0 < f)

variable {eps A B C D E F : K} {a b c d e f : ℝ}

private theorem pstage1 {pos : Bool} (h : PyAtoms eps A B C D E F a b c d e f)
    (hI : pos = true → 0 < d ∧ 0 < e ∧ 0 < f) (hII : pos = false → d ≤ 0 ∧ e ≤ 0 ∧ f ≤ 0) :
    match idStage1 eps pos A B C D E F with
    | some k => RFirst [1, 2, 3, 5, 4, 6, 7, 8] k a b c d e f
    | none => ∀ k ∈ [1, 2, 3, 5, 4, 6, 7, 8], ¬ NiggliClass k a b c d e f := by
  unfold idStage1
  simp only [Bool.and_eq_true, h.a_b, h.b_c, h.d_e, h.d_f, h.e_f, h.zero_d, h.d_zero, h.e_zero, h.f_zero, h.ha_d, h.ha_e, h.ha_f, h.e_ha, h.f_ha, h.nha_e, h.nha_f, h.d_nha, h.e_nha, h.f_nha, h.d_hb, h.nhb_d, h.d_nhb, h.ta_d, h.e_ta, h.qa_d, h.d_qa, h.f_2d, h.e_2d, h.f_2e, h.sum, h.last, decide_eq_true_eq]
  clear h
  cases pos with
  | true =>
    replace hI := hI rfl
    clear hII
    simp only [if_true]
    split_ifs
    all_goals simp only [RFirst, List.takeWhile_cons, List.takeWhile_nil, List.mem_cons, List.not_mem_nil, ne_eq,
      reduceCtorEq, Nat.reduceEqDiff, not_false_eq_true, decide_true, if_true, not_true_eq_false, decide_false,
      Bool.false_eq_true, if_false, forall_eq_or_imp, forall_eq, or_false, false_or, or_true, true_or, true_and,
      false_and, false_imp_iff, implies_true, and_true, IsEmpty.forall_iff, n1, n2, n3, n5, n4, n6, n7, n8]
    all_goals grind (splits := 40)
  | false =>
    replace hII := hII rfl
    clear hI
    simp only [Bool.false_eq_true, if_false]
    split_ifs
    all_goals simp only [RFirst, List.takeWhile_cons, List.takeWhile_nil, List.mem_cons, List.not_mem_nil, ne_eq,
      reduceCtorEq, Nat.reduceEqDiff, not_false_eq_true, decide_true, if_true, not_true_eq_false, decide_false,
      Bool.false_eq_true, if_false, forall_eq_or_imp, forall_eq, or_false, false_or, or_true, true_or, true_and,
      false_and, false_imp_iff, implies_true, and_true, IsEmpty.forall_iff, n1, n2, n3, n5, n4, n6, n7, n8]
    all_goals grind (splits := 40)

private theorem pstage2 {pos : Bool} (h : PyAtoms eps A B C D E F a b c d e f)
    (hI : pos = true → 0 < d ∧ 0 < e ∧ 0 < f) (hII : pos = false → d ≤ 0 ∧ e ≤ 0 ∧ f ≤ 0) :
    match idStage2 eps pos A B C D E F with
    | some k => RFirst [9, 10, 11, 12, 13, 15, 16, 14, 17] k a b c d e f
    | none => ∀ k ∈ [9, 10, 11, 12, 13, 15, 16, 14, 17], ¬ NiggliClass k a b c d e f := by
  unfold idStage2
  simp only [Bool.and_eq_true, h.a_b, h.b_c, h.d_e, h.d_f, h.e_f, h.zero_d, h.d_zero, h.e_zero, h.f_zero, h.ha_d, h.ha_e, h.ha_f, h.e_ha, h.f_ha, h.nha_e, h.nha_f, h.d_nha, h.e_nha, h.f_nha, h.d_hb, h.nhb_d, h.d_nhb, h.ta_d, h.e_ta, h.qa_d, h.d_qa, h.f_2d, h.e_2d, h.f_2e, h.sum, h.last, decide_eq_true_eq]
  clear h
  cases pos with
  | true =>
    replace hI := hI rfl
    clear hII
    simp only [if_true]
    split_ifs
    all_goals simp only [RFirst, List.takeWhile_cons, List.takeWhile_nil, List.mem_cons, List.not_mem_nil, ne_eq,
      reduceCtorEq, Nat.reduceEqDiff, not_false_eq_true, decide_true, if_true, not_true_eq_false, decide_false,
      Bool.false_eq_true, if_false, forall_eq_or_imp, forall_eq, or_false, false_or, or_true, true_or, true_and,
      false_and, false_imp_iff, implies_true, and_true, IsEmpty.forall_iff, n9, n10, n11, n12, n13, n15, n16, n14, n17]
    all_goals grind (splits := 40)
  | false =>
    replace hII := hII rfl
    clear hI
    simp only [Bool.false_eq_true, if_false]
    split_ifs
    all_goals simp only [RFirst, List.takeWhile_cons, List.takeWhile_nil, List.mem_cons, List.not_mem_nil, ne_eq,
      reduceCtorEq, Nat.reduceEqDiff, not_false_eq_true, decide_true, if_true, not_true_eq_false, decide_false,
      Bool.false_eq_true, if_false, forall_eq_or_imp, forall_eq, or_false, false_or, or_true, true_or, true_and,
      false_and, false_imp_iff, implies_true, and_true, IsEmpty.forall_iff, n9, n10, n11, n12, n13, n15, n16, n14, n17]
    all_goals grind (splits := 40)

private theorem pstage3 {pos : Bool} (h : PyAtoms eps A B C D E F a b c d e f)
    (hI : pos = true → 0 < d ∧ 0 < e ∧ 0 < f) (hII : pos = false → d ≤ 0 ∧ e ≤ 0 ∧ f ≤ 0) :
    match idStage3 eps pos A B C D E F with
    | some k => RFirst [18, 19, 20, 21, 22, 23, 24, 25] k a b c d e f
    | none => ∀ k ∈ [18, 19, 20, 21, 22, 23, 24, 25], ¬ NiggliClass k a b c d e f := by
  unfold idStage3
  simp only [Bool.and_eq_true, h.a_b, h.b_c, h.d_e, h.d_f, h.e_f, h.zero_d, h.d_zero, h.e_zero, h.f_zero, h.ha_d, h.ha_e, h.ha_f, h.e_ha, h.f_ha, h.nha_e, h.nha_f, h.d_nha, h.e_nha, h.f_nha, h.d_hb, h.nhb_d, h.d_nhb, h.ta_d, h.e_ta, h.qa_d, h.d_qa, h.f_2d, h.e_2d, h.f_2e, h.sum, h.last, decide_eq_true_eq]
  clear h
  cases pos with
  | true =>
    replace hI := hI rfl
    clear hII
    simp only [if_true]
    split_ifs
    all_goals simp only [RFirst, List.takeWhile_cons, List.takeWhile_nil, List.mem_cons, List.not_mem_nil, ne_eq,
      reduceCtorEq, Nat.reduceEqDiff, not_false_eq_true, decide_true, if_true, not_true_eq_false, decide_false,
      Bool.false_eq_true, if_false, forall_eq_or_imp, forall_eq, or_false, false_or, or_true, true_or, true_and,
      false_and, false_imp_iff, implies_true, and_true, IsEmpty.forall_iff, n18, n19, n20, n21, n22, n23, n24, n25]
    all_goals grind (splits := 40)
  | false =>
    replace hII := hII rfl
    clear hI
    simp only [Bool.false_eq_true, if_false]
    split_ifs
    all_goals simp only [RFirst, List.takeWhile_cons, List.takeWhile_nil, List.mem_cons, List.not_mem_nil, ne_eq,
      reduceCtorEq, Nat.reduceEqDiff, not_false_eq_true, decide_true, if_true, not_true_eq_false, decide_false,
      Bool.false_eq_true, if_false, forall_eq_or_imp, forall_eq, or_false, false_or, or_true, true_or, true_and,
      false_and, false_imp_iff, implies_true, and_true, IsEmpty.forall_iff, n18, n19, n20, n21, n22, n23, n24, n25]
    all_goals grind (splits := 40)

private theorem pstage4 {pos : Bool} (h : PyAtoms eps A B C D E F a b c d e f)
    (hI : pos = true → 0 < d ∧ 0 < e ∧ 0 < f) (hII : pos = false → d ≤ 0 ∧ e ≤ 0 ∧ f ≤ 0) :
    match idStage4 eps pos A B C D E F with
    | some k => RFirst [26, 27, 28, 29, 30, 31, 32, 40, 35, 36, 33, 38, 34, 42, 41, 37, 39, 43, 44] k a b c d e f ∧ ¬ (k = 31 ∧ e = f)
    | none => RFirst [26, 27, 28, 29, 30, 31, 32, 40, 35, 36, 33, 38, 34, 42, 41, 37, 39, 43, 44] 31 a b c d e f ∧ e = f := by
  unfold idStage4
  simp only [Bool.and_eq_true, h.a_b, h.b_c, h.d_e, h.d_f, h.e_f, h.zero_d, h.d_zero, h.e_zero, h.f_zero, h.ha_d, h.ha_e, h.ha_f, h.e_ha, h.f_ha, h.nha_e, h.nha_f, h.d_nha, h.e_nha, h.f_nha, h.d_hb, h.nhb_d, h.d_nhb, h.ta_d, h.e_ta, h.qa_d, h.d_qa, h.f_2d, h.e_2d, h.f_2e, h.sum, h.last, decide_eq_true_eq]
  clear h
  cases pos with
  | true =>
    replace hI := hI rfl
    clear hII
    simp only [if_true]
    split_ifs
    all_goals simp only [RFirst, List.takeWhile_cons, List.takeWhile_nil, List.mem_cons, List.not_mem_nil, ne_eq,
      reduceCtorEq, Nat.reduceEqDiff, not_false_eq_true, decide_true, if_true, not_true_eq_false, decide_false,
      Bool.false_eq_true, if_false, forall_eq_or_imp, forall_eq, or_false, false_or, or_true, true_or, true_and,
      false_and, false_imp_iff, implies_true, and_true, IsEmpty.forall_iff, n26, n27, n28, n29, n30, n31, n32, n40, n35, n36, n33, n38, n34, n42, n41, n37, n39, n43, n44]
    all_goals grind (splits := 40)
  | false =>
    replace hII := hII rfl
    clear hI
    simp only [Bool.false_eq_true, if_false]
    split_ifs
    all_goals simp only [RFirst, List.takeWhile_cons, List.takeWhile_nil, List.mem_cons, List.not_mem_nil, ne_eq,
      reduceCtorEq, Nat.reduceEqDiff, not_false_eq_true, decide_true, if_true, not_true_eq_false, decide_false,
      Bool.false_eq_true, if_false, forall_eq_or_imp, forall_eq, or_false, false_or, or_true, true_or, true_and,
      false_and, false_imp_iff, implies_true, and_true, IsEmpty.forall_iff, n26, n27, n28, n29, n30, n31, n32, n40, n35, n36, n33, n38, n34, n42, n41, n37, n39, n43, n44]
    all_goals grind (splits := 40)

/-- The whole search: the class is found, except that class 31 with equal `e` and `f` raises. -/
theorem niggliNum_isClass (h : PyAtoms eps A B C D E F a b c d e f)
    (htype : (0 < d ∧ 0 < e ∧ 0 < f) ∨ (d ≤ 0 ∧ e ≤ 0 ∧ f ≤ 0)) :
    (∃ k, niggliNum eps A B C D E F = .ok k ∧ IsClass k a b c d e f ∧ ¬ (k = 31 ∧ e = f)) ∨
      (niggliNum eps A B C D E F = .error .unboundLocal ∧ IsClass 31 a b c d e f ∧ e = f) := by
  have s1 := pstage1 (pos := decide (0 < d ∧ 0 < e ∧ 0 < f)) h (by simp) (by simpa using htype.resolve_left)
  have s2 := pstage2 (pos := decide (0 < d ∧ 0 < e ∧ 0 < f)) h (by simp) (by simpa using htype.resolve_left)
  have s3 := pstage3 (pos := decide (0 < d ∧ 0 < e ∧ 0 < f)) h (by simp) (by simpa using htype.resolve_left)
  have s4 := pstage4 (pos := decide (0 < d ∧ 0 < e ∧ 0 < f)) h (by simp) (by simpa using htype.resolve_left)
  have ne (k : ℕ) (l : List ℕ) (h : k ∈ l) (hl : ∀ x ∈ l, x ≠ 31) : ¬ (k = 31 ∧ e = f) := fun h' => hl k h h'.1
  change (∃ k, _ ∧ RFirst classTable k a b c d e f ∧ _) ∨ (_ ∧ RFirst classTable 31 a b c d e f ∧ _)
  unfold niggliNum classTable
  dsimp only
  rw [h.pos]
  cases e1 : idStage1 eps (decide (0 < d ∧ 0 < e ∧ 0 < f)) A B C D E F with
  | some k =>
    rw [e1] at s1
    exact .inl ⟨k, rfl, s1.left.left.left, ne _ _ s1.1 (by decide)⟩
  | none =>
    rw [e1] at s1
    cases e2 : idStage2 eps (decide (0 < d ∧ 0 < e ∧ 0 < f)) A B C D E F with
    | some k =>
      rw [e2] at s2
      exact .inl ⟨k, rfl, (s2.right s1).left.left, ne _ _ s2.1 (by decide)⟩
    | none =>
      rw [e2] at s2
      have s12 : ∀ k ∈ [1, 2, 3, 5, 4, 6, 7, 8] ++ [9, 10, 11, 12, 13, 15, 16, 14, 17],
          ¬ NiggliClass k a b c d e f := fun k hk => (List.mem_append.1 hk).elim (s1 k) (s2 k)
      cases e3 : idStage3 eps (decide (0 < d ∧ 0 < e ∧ 0 < f)) A B C D E F with
      | some k =>
        rw [e3] at s3
        exact .inl ⟨k, rfl, (s3.right s12).left, ne _ _ s3.1 (by decide)⟩
      | none =>
        rw [e3] at s3
        have s123 : ∀ k ∈ [1, 2, 3, 5, 4, 6, 7, 8] ++ [9, 10, 11, 12, 13, 15, 16, 14, 17] ++
            [18, 19, 20, 21, 22, 23, 24, 25], ¬ NiggliClass k a b c d e f :=
          fun k hk => (List.mem_append.1 hk).elim (s12 k) (s3 k)
        cases e4 : idStage4 eps (decide (0 < d ∧ 0 < e ∧ 0 < f)) A B C D E F with
        | some k =>
          rw [e4] at s4
          exact .inl ⟨k, rfl, s4.1.right s123, s4.2⟩
        | none =>
          rw [e4] at s4
          exact .inr ⟨rfl, s4.1.right s123, s4.2⟩

end AutoGR
