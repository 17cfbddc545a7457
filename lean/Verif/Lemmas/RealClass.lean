import Verif.Model.FortranNiggli
import Verif.Spec.Classify
import Mathlib.Data.List.TakeWhile

/-!
# The search for the Niggli class, when every comparison comes out as it does for an ideal metric

The arithmetic is arbitrary.
-/

set_option linter.unusedSimpArgs false

namespace AutoGR

open Spec Classical

section
variable {A B C D E F : ℝ}

private theorem n1 : NiggliClass 1 A B C D E F ↔ (0 < D ∧ 0 < E ∧ 0 < F) ∧ A = B ∧ B = C ∧ D = A / 2 ∧ E = A / 2 ∧ F = A / 2 := Iff.rfl
private theorem n2 : NiggliClass 2 A B C D E F ↔ (0 < D ∧ 0 < E ∧ 0 < F) ∧ A = B ∧ B = C ∧ E = D ∧ F = D := Iff.rfl
private theorem n3 : NiggliClass 3 A B C D E F ↔ (D ≤ 0 ∧ E ≤ 0 ∧ F ≤ 0) ∧ A = B ∧ B = C ∧ D = 0 ∧ E = 0 ∧ F = 0 := Iff.rfl
private theorem n4 : NiggliClass 4 A B C D E F ↔ (D ≤ 0 ∧ E ≤ 0 ∧ F ≤ 0) ∧ A = B ∧ B = C ∧ E = D ∧ F = D := Iff.rfl
private theorem n5 : NiggliClass 5 A B C D E F ↔ (D ≤ 0 ∧ E ≤ 0 ∧ F ≤ 0) ∧ A = B ∧ B = C ∧ D = -A / 3 ∧ E = -A / 3 ∧ F = -A / 3 := Iff.rfl
private theorem n6 : NiggliClass 6 A B C D E F ↔ (D ≤ 0 ∧ E ≤ 0 ∧ F ≤ 0) ∧ A = B ∧ B = C ∧ 2 * |D + E + F| = A + B ∧ E = D := Iff.rfl
private theorem n7 : NiggliClass 7 A B C D E F ↔ (D ≤ 0 ∧ E ≤ 0 ∧ F ≤ 0) ∧ A = B ∧ B = C ∧ 2 * |D + E + F| = A + B ∧ F = E := Iff.rfl
private theorem n8 : NiggliClass 8 A B C D E F ↔ (D ≤ 0 ∧ E ≤ 0 ∧ F ≤ 0) ∧ A = B ∧ B = C ∧ 2 * |D + E + F| = A + B := Iff.rfl
private theorem n9 : NiggliClass 9 A B C D E F ↔ (0 < D ∧ 0 < E ∧ 0 < F) ∧ A = B ∧ D = A / 2 ∧ E = A / 2 ∧ F = A / 2 := Iff.rfl
private theorem n10 : NiggliClass 10 A B C D E F ↔ (0 < D ∧ 0 < E ∧ 0 < F) ∧ A = B ∧ E = D := Iff.rfl
private theorem n11 : NiggliClass 11 A B C D E F ↔ (D ≤ 0 ∧ E ≤ 0 ∧ F ≤ 0) ∧ A = B ∧ D = 0 ∧ E = 0 ∧ F = 0 := Iff.rfl
private theorem n12 : NiggliClass 12 A B C D E F ↔ (D ≤ 0 ∧ E ≤ 0 ∧ F ≤ 0) ∧ A = B ∧ D = 0 ∧ E = 0 ∧ F = -A / 2 := Iff.rfl
private theorem n13 : NiggliClass 13 A B C D E F ↔ (D ≤ 0 ∧ E ≤ 0 ∧ F ≤ 0) ∧ A = B ∧ D = 0 ∧ E = 0 := Iff.rfl
private theorem n14 : NiggliClass 14 A B C D E F ↔ (D ≤ 0 ∧ E ≤ 0 ∧ F ≤ 0) ∧ A = B ∧ E = D := Iff.rfl
private theorem n15 : NiggliClass 15 A B C D E F ↔ (D ≤ 0 ∧ E ≤ 0 ∧ F ≤ 0) ∧ A = B ∧ D = -A / 2 ∧ E = -A / 2 ∧ F = 0 := Iff.rfl
private theorem n16 : NiggliClass 16 A B C D E F ↔ (D ≤ 0 ∧ E ≤ 0 ∧ F ≤ 0) ∧ A = B ∧ 2 * |D + E + F| = A + B ∧ E = D := Iff.rfl
private theorem n17 : NiggliClass 17 A B C D E F ↔ (D ≤ 0 ∧ E ≤ 0 ∧ F ≤ 0) ∧ A = B ∧ 2 * |D + E + F| = A + B := Iff.rfl
private theorem n18 : NiggliClass 18 A B C D E F ↔ (0 < D ∧ 0 < E ∧ 0 < F) ∧ B = C ∧ D = A / 4 ∧ E = A / 2 ∧ F = A / 2 := Iff.rfl
private theorem n19 : NiggliClass 19 A B C D E F ↔ (0 < D ∧ 0 < E ∧ 0 < F) ∧ B = C ∧ E = A / 2 ∧ F = A / 2 := Iff.rfl
private theorem n20 : NiggliClass 20 A B C D E F ↔ (0 < D ∧ 0 < E ∧ 0 < F) ∧ B = C ∧ F = E := Iff.rfl
private theorem n21 : NiggliClass 21 A B C D E F ↔ (D ≤ 0 ∧ E ≤ 0 ∧ F ≤ 0) ∧ B = C ∧ D = 0 ∧ E = 0 ∧ F = 0 := Iff.rfl
private theorem n22 : NiggliClass 22 A B C D E F ↔ (D ≤ 0 ∧ E ≤ 0 ∧ F ≤ 0) ∧ B = C ∧ D = -B / 2 ∧ E = 0 ∧ F = 0 := Iff.rfl
private theorem n23 : NiggliClass 23 A B C D E F ↔ (D ≤ 0 ∧ E ≤ 0 ∧ F ≤ 0) ∧ B = C ∧ E = 0 ∧ F = 0 := Iff.rfl
private theorem n24 : NiggliClass 24 A B C D E F ↔ (D ≤ 0 ∧ E ≤ 0 ∧ F ≤ 0) ∧ B = C ∧ 2 * |D + E + F| = A + B ∧ E = -A / 3 ∧ F = -A / 3 := Iff.rfl
private theorem n25 : NiggliClass 25 A B C D E F ↔ (D ≤ 0 ∧ E ≤ 0 ∧ F ≤ 0) ∧ B = C ∧ F = E := Iff.rfl
private theorem n26 : NiggliClass 26 A B C D E F ↔ (0 < D ∧ 0 < E ∧ 0 < F) ∧ D = A / 4 ∧ E = A / 2 ∧ F = A / 2 := Iff.rfl
private theorem n27 : NiggliClass 27 A B C D E F ↔ (0 < D ∧ 0 < E ∧ 0 < F) ∧ E = A / 2 ∧ F = A / 2 := Iff.rfl
private theorem n28 : NiggliClass 28 A B C D E F ↔ (0 < D ∧ 0 < E ∧ 0 < F) ∧ E = A / 2 ∧ F = 2 * D := Iff.rfl
private theorem n29 : NiggliClass 29 A B C D E F ↔ (0 < D ∧ 0 < E ∧ 0 < F) ∧ E = 2 * D ∧ F = A / 2 := Iff.rfl
private theorem n30 : NiggliClass 30 A B C D E F ↔ (0 < D ∧ 0 < E ∧ 0 < F) ∧ D = B / 2 ∧ F = 2 * E := Iff.rfl
private theorem n31 : NiggliClass 31 A B C D E F ↔ (0 < D ∧ 0 < E ∧ 0 < F) := Iff.rfl
private theorem n32 : NiggliClass 32 A B C D E F ↔ (D ≤ 0 ∧ E ≤ 0 ∧ F ≤ 0) ∧ D = 0 ∧ E = 0 ∧ F = 0 := Iff.rfl
private theorem n33 : NiggliClass 33 A B C D E F ↔ (D ≤ 0 ∧ E ≤ 0 ∧ F ≤ 0) ∧ D = 0 ∧ F = 0 := Iff.rfl
private theorem n34 : NiggliClass 34 A B C D E F ↔ (D ≤ 0 ∧ E ≤ 0 ∧ F ≤ 0) ∧ D = 0 ∧ E = 0 := Iff.rfl
private theorem n35 : NiggliClass 35 A B C D E F ↔ (D ≤ 0 ∧ E ≤ 0 ∧ F ≤ 0) ∧ E = 0 ∧ F = 0 := Iff.rfl
private theorem n36 : NiggliClass 36 A B C D E F ↔ (D ≤ 0 ∧ E ≤ 0 ∧ F ≤ 0) ∧ D = 0 ∧ E = -A / 2 ∧ F = 0 := Iff.rfl
private theorem n37 : NiggliClass 37 A B C D E F ↔ (D ≤ 0 ∧ E ≤ 0 ∧ F ≤ 0) ∧ E = -A / 2 ∧ F = 0 := Iff.rfl
private theorem n38 : NiggliClass 38 A B C D E F ↔ (D ≤ 0 ∧ E ≤ 0 ∧ F ≤ 0) ∧ D = 0 ∧ E = 0 ∧ F = -A / 2 := Iff.rfl
private theorem n39 : NiggliClass 39 A B C D E F ↔ (D ≤ 0 ∧ E ≤ 0 ∧ F ≤ 0) ∧ E = 0 ∧ F = -A / 2 := Iff.rfl
private theorem n40 : NiggliClass 40 A B C D E F ↔ (D ≤ 0 ∧ E ≤ 0 ∧ F ≤ 0) ∧ D = -B / 2 ∧ E = 0 ∧ F = 0 := Iff.rfl
private theorem n41 : NiggliClass 41 A B C D E F ↔ (D ≤ 0 ∧ E ≤ 0 ∧ F ≤ 0) ∧ D = -B / 2 ∧ F = 0 := Iff.rfl
private theorem n42 : NiggliClass 42 A B C D E F ↔ (D ≤ 0 ∧ E ≤ 0 ∧ F ≤ 0) ∧ D = -B / 2 ∧ E = -A / 2 ∧ F = 0 := Iff.rfl
private theorem n43 : NiggliClass 43 A B C D E F ↔ (D ≤ 0 ∧ E ≤ 0 ∧ F ≤ 0) ∧ 2 * |D + E + F| = A + B ∧ |2 * D + F| = B := Iff.rfl
private theorem n44 : NiggliClass 44 A B C D E F ↔ (D ≤ 0 ∧ E ≤ 0 ∧ F ≤ 0) := Iff.rfl

end

/-- First in a part of the table. -/
def RFirst (l : List ℕ) (k : ℕ) (A B C D E F : ℝ) : Prop :=
  k ∈ l ∧ NiggliClass k A B C D E F ∧ ∀ k' ∈ l.takeWhile (· ≠ k), ¬ NiggliClass k' A B C D E F

theorem RFirst.left {l l' : List ℕ} {k : ℕ} {A B C D E F : ℝ} (h : RFirst l k A B C D E F) :
    RFirst (l ++ l') k A B C D E F := by
  obtain ⟨h1, h2, h3⟩ := h
  refine ⟨List.mem_append_left _ h1, h2, ?_⟩
  have : (l ++ l').takeWhile (· ≠ k) = l.takeWhile (· ≠ k) := by
    rw [List.takeWhile_append, if_neg]
    intro hlen
    have heq := (List.takeWhile_prefix (p := (· ≠ k)) (l := l)).eq_of_length hlen
    rw [← heq] at h1
    have := List.mem_takeWhile_imp h1
    simp at this
  rwa [this]

theorem RFirst.right {l l' : List ℕ} {k : ℕ} {A B C D E F : ℝ} (hl : ∀ k ∈ l, ¬ NiggliClass k A B C D E F)
    (h : RFirst l' k A B C D E F) : RFirst (l ++ l') k A B C D E F := by
  obtain ⟨h1, h2, h3⟩ := h
  refine ⟨List.mem_append_right _ h1, h2, fun k' hk' => ?_⟩
  rw [List.takeWhile_append] at hk'
  split_ifs at hk' with hlen
  · rcases List.mem_append.1 hk' with h | h
    · exact hl k' h
    · exact h3 k' h
  · exact hl k' ((List.takeWhile_sublist _).subset hk')

variable {K : Type} [Arith K]

open Arith

/-- The comparisons of `id_cell` on the computed products `A … F` come out as for the ideal ones. -/
structure Atoms (eps A B C D E F : K) (a b c d e f : ℝ) : Prop where
  a_b : fClose eps A B = decide (a = b)
  b_c : fClose eps B C = decide (b = c)
  d_e : fClose eps D E = decide (d = e)
  d_f : fClose eps D F = decide (d = f)
  e_f : fClose eps E F = decide (e = f)
  zero_d : fClose eps (ofInt 0) D = decide (d = 0)
  zero_e : fClose eps (ofInt 0) E = decide (e = 0)
  zero_f : fClose eps (ofInt 0) F = decide (f = 0)
  ha_d : fClose eps (div A (ofInt 2)) D = decide (d = a / 2)
  ha_e : fClose eps (div A (ofInt 2)) E = decide (e = a / 2)
  ha_f : fClose eps (div A (ofInt 2)) F = decide (f = a / 2)
  nha_d : fClose eps (div (neg A) (ofInt 2)) D = decide (d = -a / 2)
  nha_e : fClose eps (div (neg A) (ofInt 2)) E = decide (e = -a / 2)
  nha_f : fClose eps (div (neg A) (ofInt 2)) F = decide (f = -a / 2)
  hb_d : fClose eps (div B (ofInt 2)) D = decide (d = b / 2)
  nhb_d : fClose eps (div (neg B) (ofInt 2)) D = decide (d = -b / 2)
  d_nhb : fClose eps D (div (neg B) (ofInt 2)) = decide (d = -b / 2)
  ta_d : fClose eps (div (neg A) (ofInt 3)) D = decide (d = -a / 3)
  ta_e : fClose eps (div (neg A) (ofInt 3)) E = decide (e = -a / 3)
  qa_d : fClose eps (div A (ofInt 4)) D = decide (d = a / 4)
  d2_f : fClose eps (mul (ofInt 2) D) F = decide (f = 2 * d)
  d2_e : fClose eps (mul (ofInt 2) D) E = decide (e = 2 * d)
  e2_f : fClose eps (mul (ofInt 2) E) F = decide (f = 2 * e)
  sum : fClose eps (mul (ofInt 2) (abs (add (add D E) F))) (add A B) = decide (2 * |d + e + f| = a + b)
  last : fClose eps (abs (add (mul (ofInt 2) D) F)) B = decide (|2 * d + f| = b)
  rqa_d : le (abs (sub (div A (ofInt 4)) D)) (abs (mul eps D)) = decide (d = a / 4)
  rha_e : le (abs (sub (div A (ofInt 2)) E)) (abs (mul eps E)) = decide (e = a / 2)
  rnha_f : le (abs (sub (div (neg A) (ofInt 2)) F)) (abs (mul eps F)) = decide (f = -a / 2)
  pos : (lt (ofInt 0) (sub D eps) && lt (ofInt 0) (sub E eps) && lt (ofInt 0) (sub F eps)) =
    decide (0 < d ∧ 0 < e ∧ 0 < f)

variable {eps A B C D E F : K} {a b c d e f : ℝ}

private theorem rstage1 {pos : Bool} (h : Atoms eps A B C D E F a b c d e f)
    (hI : pos = true → 0 < d ∧ 0 < e ∧ 0 < f) (hII : pos = false → d ≤ 0 ∧ e ≤ 0 ∧ f ≤ 0) :
    match fStage1 eps pos A B C D E F with
    | some k => RFirst [1, 2, 3, 5, 4, 6, 7, 8] k a b c d e f
    | none => ∀ k ∈ [1, 2, 3, 5, 4, 6, 7, 8], ¬ NiggliClass k a b c d e f := by
  unfold fStage1
  simp only [Bool.and_eq_true, h.a_b, h.b_c, h.d_e, h.d_f, h.e_f, h.zero_d, h.zero_e, h.zero_f, h.ha_d, h.ha_e, h.ha_f, h.nha_d, h.nha_e, h.nha_f, h.hb_d, h.nhb_d, h.d_nhb, h.ta_d, h.ta_e, h.qa_d, h.d2_f, h.d2_e, h.e2_f, h.sum, h.last, h.rqa_d, h.rha_e, h.rnha_f, decide_eq_true_eq]
  clear h
  cases pos with
  | true =>
    replace hI := hI rfl
    clear hII
    simp only [if_true]
    split_ifs
    all_goals simp only [RFirst, List.takeWhile_cons, List.takeWhile_nil, List.mem_cons, List.not_mem_nil, ne_eq,
      reduceCtorEq, Nat.reduceEqDiff, not_false_eq_true, decide_true, if_true, not_true_eq_false, decide_false,
      Bool.false_eq_true, if_false, forall_eq_or_imp, forall_eq, or_false, false_or, or_true, true_or, true_and,
      false_and, false_imp_iff, implies_true, and_true, IsEmpty.forall_iff, n1, n2, n3, n5, n4, n6, n7, n8]
    all_goals grind (splits := 40)
  | false =>
    replace hII := hII rfl
    clear hI
    simp only [Bool.false_eq_true, if_false]
    split_ifs
    all_goals simp only [RFirst, List.takeWhile_cons, List.takeWhile_nil, List.mem_cons, List.not_mem_nil, ne_eq,
      reduceCtorEq, Nat.reduceEqDiff, not_false_eq_true, decide_true, if_true, not_true_eq_false, decide_false,
      Bool.false_eq_true, if_false, forall_eq_or_imp, forall_eq, or_false, false_or, or_true, true_or, true_and,
      false_and, false_imp_iff, implies_true, and_true, IsEmpty.forall_iff, n1, n2, n3, n5, n4, n6, n7, n8]
    all_goals grind (splits := 40)

private theorem rstage2 {pos : Bool} (h : Atoms eps A B C D E F a b c d e f)
    (hI : pos = true → 0 < d ∧ 0 < e ∧ 0 < f) (hII : pos = false → d ≤ 0 ∧ e ≤ 0 ∧ f ≤ 0) :
    match fStage2 eps pos A B C D E F with
    | some k => RFirst [9, 10, 11, 12, 13, 15, 16, 14, 17] k a b c d e f
    | none => ∀ k ∈ [9, 10, 11, 12, 13, 15, 16, 14, 17], ¬ NiggliClass k a b c d e f := by
  unfold fStage2
  simp only [Bool.and_eq_true, h.a_b, h.b_c, h.d_e, h.d_f, h.e_f, h.zero_d, h.zero_e, h.zero_f, h.ha_d, h.ha_e, h.ha_f, h.nha_d, h.nha_e, h.nha_f, h.hb_d, h.nhb_d, h.d_nhb, h.ta_d, h.ta_e, h.qa_d, h.d2_f, h.d2_e, h.e2_f, h.sum, h.last, h.rqa_d, h.rha_e, h.rnha_f, decide_eq_true_eq]
  clear h
  cases pos with
  | true =>
    replace hI := hI rfl
    clear hII
    simp only [if_true]
    split_ifs
    all_goals simp only [RFirst, List.takeWhile_cons, List.takeWhile_nil, List.mem_cons, List.not_mem_nil, ne_eq,
      reduceCtorEq, Nat.reduceEqDiff, not_false_eq_true, decide_true, if_true, not_true_eq_false, decide_false,
      Bool.false_eq_true, if_false, forall_eq_or_imp, forall_eq, or_false, false_or, or_true, true_or, true_and,
      false_and, false_imp_iff, implies_true, and_true, IsEmpty.forall_iff, n9, n10, n11, n12, n13, n15, n16, n14, n17]
    all_goals grind (splits := 40)
  | false =>
    replace hII := hII rfl
    clear hI
    simp only [Bool.false_eq_true, if_false]
    split_ifs
    all_goals simp only [RFirst, List.takeWhile_cons, List.takeWhile_nil, List.mem_cons, List.not_mem_nil, ne_eq,
      reduceCtorEq, Nat.reduceEqDiff, not_false_eq_true, decide_true, if_true, not_true_eq_false, decide_false,
      Bool.false_eq_true, if_false, forall_eq_or_imp, forall_eq, or_false, false_or, or_true, true_or, true_and,
      false_and, false_imp_iff, implies_true, and_true, IsEmpty.forall_iff, n9, n10, n11, n12, n13, n15, n16, n14, n17]
    all_goals grind (splits := 40)

private theorem rstage3 {pos : Bool} (h : Atoms eps A B C D E F a b c d e f)
    (hI : pos = true → 0 < d ∧ 0 < e ∧ 0 < f) (hII : pos = false → d ≤ 0 ∧ e ≤ 0 ∧ f ≤ 0) :
    match fStage3 eps pos A B C D E F with
    | some k => RFirst [18, 19, 20, 21, 22, 23, 24, 25] k a b c d e f
    | none => ∀ k ∈ [18, 19, 20, 21, 22, 23, 24, 25], ¬ NiggliClass k a b c d e f := by
  unfold fStage3
  simp only [Bool.and_eq_true, h.a_b, h.b_c, h.d_e, h.d_f, h.e_f, h.zero_d, h.zero_e, h.zero_f, h.ha_d, h.ha_e, h.ha_f, h.nha_d, h.nha_e, h.nha_f, h.hb_d, h.nhb_d, h.d_nhb, h.ta_d, h.ta_e, h.qa_d, h.d2_f, h.d2_e, h.e2_f, h.sum, h.last, h.rqa_d, h.rha_e, h.rnha_f, decide_eq_true_eq]
  clear h
  cases pos with
  | true =>
    replace hI := hI rfl
    clear hII
    simp only [if_true]
    split_ifs
    all_goals simp only [RFirst, List.takeWhile_cons, List.takeWhile_nil, List.mem_cons, List.not_mem_nil, ne_eq,
      reduceCtorEq, Nat.reduceEqDiff, not_false_eq_true, decide_true, if_true, not_true_eq_false, decide_false,
      Bool.false_eq_true, if_false, forall_eq_or_imp, forall_eq, or_false, false_or, or_true, true_or, true_and,
      false_and, false_imp_iff, implies_true, and_true, IsEmpty.forall_iff, n18, n19, n20, n21, n22, n23, n24, n25]
    all_goals grind (splits := 40)
  | false =>
    replace hII := hII rfl
    clear hI
    simp only [Bool.false_eq_true, if_false]
    split_ifs
    all_goals simp only [RFirst, List.takeWhile_cons, List.takeWhile_nil, List.mem_cons, List.not_mem_nil, ne_eq,
      reduceCtorEq, Nat.reduceEqDiff, not_false_eq_true, decide_true, if_true, not_true_eq_false, decide_false,
      Bool.false_eq_true, if_false, forall_eq_or_imp, forall_eq, or_false, false_or, or_true, true_or, true_and,
      false_and, false_imp_iff, implies_true, and_true, IsEmpty.forall_iff, n18, n19, n20, n21, n22, n23, n24, n25]
    all_goals grind (splits := 40)

private theorem rstage4 {pos : Bool} (h : Atoms eps A B C D E F a b c d e f)
    (hI : pos = true → 0 < d ∧ 0 < e ∧ 0 < f) (hII : pos = false → d ≤ 0 ∧ e ≤ 0 ∧ f ≤ 0) :
    RFirst [26, 27, 28, 29, 30, 31, 32, 40, 35, 36, 33, 38, 34, 42, 41, 37, 39, 43, 44] (fStage4 eps pos A B C D E F) a b c d e f := by
  unfold fStage4
  simp only [Bool.and_eq_true, h.a_b, h.b_c, h.d_e, h.d_f, h.e_f, h.zero_d, h.zero_e, h.zero_f, h.ha_d, h.ha_e, h.ha_f, h.nha_d, h.nha_e, h.nha_f, h.hb_d, h.nhb_d, h.d_nhb, h.ta_d, h.ta_e, h.qa_d, h.d2_f, h.d2_e, h.e2_f, h.sum, h.last, h.rqa_d, h.rha_e, h.rnha_f, decide_eq_true_eq]
  clear h
  cases pos with
  | true =>
    replace hI := hI rfl
    clear hII
    simp only [if_true]
    split_ifs
    all_goals simp only [RFirst, List.takeWhile_cons, List.takeWhile_nil, List.mem_cons, List.not_mem_nil, ne_eq,
      reduceCtorEq, Nat.reduceEqDiff, not_false_eq_true, decide_true, if_true, not_true_eq_false, decide_false,
      Bool.false_eq_true, if_false, forall_eq_or_imp, forall_eq, or_false, false_or, or_true, true_or, true_and,
      false_and, false_imp_iff, implies_true, and_true, IsEmpty.forall_iff, n26, n27, n28, n29, n30, n31, n32, n40, n35, n36, n33, n38, n34, n42, n41, n37, n39, n43, n44]
    all_goals grind (splits := 40)
  | false =>
    replace hII := hII rfl
    clear hI
    simp only [Bool.false_eq_true, if_false]
    split_ifs
    all_goals simp only [RFirst, List.takeWhile_cons, List.takeWhile_nil, List.mem_cons, List.not_mem_nil, ne_eq,
      reduceCtorEq, Nat.reduceEqDiff, not_false_eq_true, decide_true, if_true, not_true_eq_false, decide_false,
      Bool.false_eq_true, if_false, forall_eq_or_imp, forall_eq, or_false, false_or, or_true, true_or, true_and,
      false_and, false_imp_iff, implies_true, and_true, IsEmpty.forall_iff, n26, n27, n28, n29, n30, n31, n32, n40, n35, n36, n33, n38, n34, n42, n41, n37, n39, n43, n44]
    all_goals grind (splits := 40)

/-- The whole search. -/
theorem idNum_isClass (h : Atoms eps A B C D E F a b c d e f)
    (htype : (0 < d ∧ 0 < e ∧ 0 < f) ∨ (d ≤ 0 ∧ e ≤ 0 ∧ f ≤ 0)) :
    IsClass (idNum eps A B C D E F) a b c d e f := by
  have s1 := rstage1 (pos := decide (0 < d ∧ 0 < e ∧ 0 < f)) h (by simp) (by simpa using htype.resolve_left)
  have s2 := rstage2 (pos := decide (0 < d ∧ 0 < e ∧ 0 < f)) h (by simp) (by simpa using htype.resolve_left)
  have s3 := rstage3 (pos := decide (0 < d ∧ 0 < e ∧ 0 < f)) h (by simp) (by simpa using htype.resolve_left)
  have s4 := rstage4 (pos := decide (0 < d ∧ 0 < e ∧ 0 < f)) h (by simp) (by simpa using htype.resolve_left)
  change RFirst classTable _ a b c d e f
  unfold idNum classTable
  dsimp only
  rw [h.pos]
  cases e1 : fStage1 eps (decide (0 < d ∧ 0 < e ∧ 0 < f)) A B C D E F with
  | some k =>
    rw [e1] at s1
    exact s1.left.left.left
  | none =>
    rw [e1] at s1
    cases e2 : fStage2 eps (decide (0 < d ∧ 0 < e ∧ 0 < f)) A B C D E F with
    | some k =>
      rw [e2] at s2
      exact (s2.right s1).left.left
    | none =>
      rw [e2] at s2
      have s12 : ∀ k ∈ [1, 2, 3, 5, 4, 6, 7, 8] ++ [9, 10, 11, 12, 13, 15, 16, 14, 17],
          ¬ NiggliClass k a b c d e f := fun k hk => (List.mem_append.1 hk).elim (s1 k) (s2 k)
      cases e3 : fStage3 eps (decide (0 < d ∧ 0 < e ∧ 0 < f)) A B C D E F with
      | some k =>
        rw [e3] at s3
        exact (s3.right s12).left
      | none =>
        rw [e3] at s3
        exact s4.right fun k hk => (List.mem_append.1 hk).elim (s12 k) (s3 k)

end AutoGR
