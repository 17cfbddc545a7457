import Mathlib.Tactic.Linarith
import Verif.Lemmas.Classify

/-! # The search for the Niggli class, up to the tolerance -/

namespace AutoGR

open Spec

section
variable {R : ℚ → ℚ → Prop} {A B C D E F : ℚ}

theorem c1 : ClassEqs R 1 A B C D E F ↔ R A B ∧ R B C ∧ R D (A / 2) ∧ R E (A / 2) ∧ R F (A / 2) := Iff.rfl
theorem c2 : ClassEqs R 2 A B C D E F ↔ R A B ∧ R B C ∧ R E D ∧ R F D := Iff.rfl
theorem c3 : ClassEqs R 3 A B C D E F ↔ R A B ∧ R B C ∧ R D 0 ∧ R E 0 ∧ R F 0 := Iff.rfl
theorem c4 : ClassEqs R 4 A B C D E F ↔ R A B ∧ R B C ∧ R E D ∧ R F D := Iff.rfl
theorem c5 : ClassEqs R 5 A B C D E F ↔ R A B ∧ R B C ∧ R D (-A / 3) ∧ R E (-A / 3) ∧ R F (-A / 3) := Iff.rfl
theorem c6 : ClassEqs R 6 A B C D E F ↔ R A B ∧ R B C ∧ R (2 * |D + E + F|) (A + B) ∧ R E D := Iff.rfl
theorem c7 : ClassEqs R 7 A B C D E F ↔ R A B ∧ R B C ∧ R (2 * |D + E + F|) (A + B) ∧ R F E := Iff.rfl
theorem c8 : ClassEqs R 8 A B C D E F ↔ R A B ∧ R B C ∧ R (2 * |D + E + F|) (A + B) := Iff.rfl
theorem c9 : ClassEqs R 9 A B C D E F ↔ R A B ∧ R D (A / 2) ∧ R E (A / 2) ∧ R F (A / 2) := Iff.rfl
theorem c10 : ClassEqs R 10 A B C D E F ↔ R A B ∧ R E D := Iff.rfl
theorem c11 : ClassEqs R 11 A B C D E F ↔ R A B ∧ R D 0 ∧ R E 0 ∧ R F 0 := Iff.rfl
theorem c12 : ClassEqs R 12 A B C D E F ↔ R A B ∧ R D 0 ∧ R E 0 ∧ R F (-A / 2) := Iff.rfl
theorem c13 : ClassEqs R 13 A B C D E F ↔ R A B ∧ R D 0 ∧ R E 0 := Iff.rfl
theorem c14 : ClassEqs R 14 A B C D E F ↔ R A B ∧ R E D := Iff.rfl
theorem c15 : ClassEqs R 15 A B C D E F ↔ R A B ∧ R D (-A / 2) ∧ R E (-A / 2) ∧ R F 0 := Iff.rfl
theorem c16 : ClassEqs R 16 A B C D E F ↔ R A B ∧ R (2 * |D + E + F|) (A + B) ∧ R E D := Iff.rfl
theorem c17 : ClassEqs R 17 A B C D E F ↔ R A B ∧ R (2 * |D + E + F|) (A + B) := Iff.rfl
theorem c18 : ClassEqs R 18 A B C D E F ↔ R B C ∧ R D (A / 4) ∧ R E (A / 2) ∧ R F (A / 2) := Iff.rfl
theorem c19 : ClassEqs R 19 A B C D E F ↔ R B C ∧ R E (A / 2) ∧ R F (A / 2) := Iff.rfl
theorem c20 : ClassEqs R 20 A B C D E F ↔ R B C ∧ R F E := Iff.rfl
theorem c21 : ClassEqs R 21 A B C D E F ↔ R B C ∧ R D 0 ∧ R E 0 ∧ R F 0 := Iff.rfl
theorem c22 : ClassEqs R 22 A B C D E F ↔ R B C ∧ R D (-B / 2) ∧ R E 0 ∧ R F 0 := Iff.rfl
theorem c23 : ClassEqs R 23 A B C D E F ↔ R B C ∧ R E 0 ∧ R F 0 := Iff.rfl
theorem c24 : ClassEqs R 24 A B C D E F ↔ R B C ∧ R (2 * |D + E + F|) (A + B) ∧ R E (-A / 3) ∧ R F (-A / 3) := Iff.rfl
theorem c25 : ClassEqs R 25 A B C D E F ↔ R B C ∧ R F E := Iff.rfl
theorem c26 : ClassEqs R 26 A B C D E F ↔ R D (A / 4) ∧ R E (A / 2) ∧ R F (A / 2) := Iff.rfl
theorem c27 : ClassEqs R 27 A B C D E F ↔ R E (A / 2) ∧ R F (A / 2) := Iff.rfl
theorem c28 : ClassEqs R 28 A B C D E F ↔ R E (A / 2) ∧ R F (2 * D) := Iff.rfl
theorem c29 : ClassEqs R 29 A B C D E F ↔ R E (2 * D) ∧ R F (A / 2) := Iff.rfl
theorem c30 : ClassEqs R 30 A B C D E F ↔ R D (B / 2) ∧ R F (2 * E) := Iff.rfl
theorem c31 : ClassEqs R 31 A B C D E F ↔ True := Iff.rfl
theorem c32 : ClassEqs R 32 A B C D E F ↔ R D 0 ∧ R E 0 ∧ R F 0 := Iff.rfl
theorem c33 : ClassEqs R 33 A B C D E F ↔ R D 0 ∧ R F 0 := Iff.rfl
theorem c34 : ClassEqs R 34 A B C D E F ↔ R D 0 ∧ R E 0 := Iff.rfl
theorem c35 : ClassEqs R 35 A B C D E F ↔ R E 0 ∧ R F 0 := Iff.rfl
theorem c36 : ClassEqs R 36 A B C D E F ↔ R D 0 ∧ R E (-A / 2) ∧ R F 0 := Iff.rfl
theorem c37 : ClassEqs R 37 A B C D E F ↔ R E (-A / 2) ∧ R F 0 := Iff.rfl
theorem c38 : ClassEqs R 38 A B C D E F ↔ R D 0 ∧ R E 0 ∧ R F (-A / 2) := Iff.rfl
theorem c39 : ClassEqs R 39 A B C D E F ↔ R E 0 ∧ R F (-A / 2) := Iff.rfl
theorem c40 : ClassEqs R 40 A B C D E F ↔ R D (-B / 2) ∧ R E 0 ∧ R F 0 := Iff.rfl
theorem c41 : ClassEqs R 41 A B C D E F ↔ R D (-B / 2) ∧ R F 0 := Iff.rfl
theorem c42 : ClassEqs R 42 A B C D E F ↔ R D (-B / 2) ∧ R E (-A / 2) ∧ R F 0 := Iff.rfl
theorem c43 : ClassEqs R 43 A B C D E F ↔ R (2 * |D + E + F|) (A + B) ∧ R |2 * D + F| B := Iff.rfl
theorem c44 : ClassEqs R 44 A B C D E F ↔ True := Iff.rfl

end

theorem stage1_near {eps A B C D E F : ℚ} {pos : Bool} {k : ℕ} {N R : ℚ → ℚ → Prop}
    (t0 : allclose eps A B = true → N A B)
    (t1 : allclose eps B C = true → N B C)
    (t2 : allclose eps D E = true → N D E)
    (t3 : allclose eps D F = true → N D F)
    (t4 : allclose eps (A / 2) D = true → N (A / 2) D)
    (t5 : allclose eps (A / 2) E = true → N (A / 2) E)
    (t6 : allclose eps (A / 2) F = true → N (A / 2) F)
    (t7 : allclose eps 0 D = true → N 0 D)
    (t8 : allclose eps (-A / 3) D = true → N (-A / 3) D)
    (t9 : allclose eps (2 * |D + E + F|) (A + B) = true → N (2 * |D + E + F|) (A + B))
    (t10 : allclose eps E F = true → N E F)
    (n1 : ∀ x y, N x y → R x y) (n2 : ∀ x y, N x y → R y x)
    (n3 : ∀ x y z, N x y → N x z → R y z) (n4 : ∀ x y z, N x y → N y z → R z x)
    (h : idStage1 eps pos A B C D E F = some k) :
    ClassEqs R k A B C D E F ∧ (pos = true ↔ k ∈ typeIClasses) := by
  have two : (Arith.ofInt 2 : ℚ) = 2 := by simp [Arith.ofInt]
  have zero : (Arith.ofInt 0 : ℚ) = 0 := by simp [Arith.ofInt]
  have three : (Arith.ofInt 3 : ℚ) = 3 := by simp [Arith.ofInt]
  have four : (Arith.ofInt 4 : ℚ) = 4 := by simp [Arith.ofInt]
  have hadd (x y : ℚ) : Arith.add x y = x + y := rfl
  have hmul (x y : ℚ) : Arith.mul x y = x * y := rfl
  have hdiv (x y : ℚ) : Arith.div x y = x / y := rfl
  have hneg (x : ℚ) : Arith.neg x = -x := rfl
  have habs (x : ℚ) : Arith.abs x = |x| := rfl
  unfold idStage1 at h
  simp only [two, zero, three, four, hadd, hmul, hdiv, hneg, habs, Bool.and_eq_true] at h
  clear two zero three four hadd hmul hdiv hneg habs
  generalize allclose eps = cl at *
  split_ifs at h with hpos
  all_goals
    cases h
    simp only [typeIClasses, List.mem_cons, List.not_mem_nil, Nat.reduceEqDiff, or_false, false_or, or_true, true_or,
      iff_true, iff_false, c1, c2, c3, c5, c4, c6, c7, c8]
    grind

theorem stage2_near {eps A B C D E F : ℚ} {pos : Bool} {k : ℕ} {N R : ℚ → ℚ → Prop}
    (t0 : allclose eps A B = true → N A B)
    (t1 : allclose eps D E = true → N D E)
    (t2 : allclose eps D F = true → N D F)
    (t3 : allclose eps (A / 2) D = true → N (A / 2) D)
    (t4 : allclose eps D 0 = true → N D 0)
    (t5 : allclose eps (-A / 2) F = true → N (-A / 2) F)
    (t6 : allclose eps D (-A / 2) = true → N D (-A / 2))
    (t7 : allclose eps F 0 = true → N F 0)
    (t8 : allclose eps (2 * |D + E + F|) (A + B) = true → N (2 * |D + E + F|) (A + B))
    (n1 : ∀ x y, N x y → R x y) (n2 : ∀ x y, N x y → R y x)
    (n3 : ∀ x y z, N x y → N x z → R y z) (n4 : ∀ x y z, N x y → N y z → R z x)
    (h : idStage2 eps pos A B C D E F = some k) :
    ClassEqs R k A B C D E F ∧ (pos = true ↔ k ∈ typeIClasses) := by
  have two : (Arith.ofInt 2 : ℚ) = 2 := by simp [Arith.ofInt]
  have zero : (Arith.ofInt 0 : ℚ) = 0 := by simp [Arith.ofInt]
  have three : (Arith.ofInt 3 : ℚ) = 3 := by simp [Arith.ofInt]
  have four : (Arith.ofInt 4 : ℚ) = 4 := by simp [Arith.ofInt]
  have hadd (x y : ℚ) : Arith.add x y = x + y := rfl
  have hmul (x y : ℚ) : Arith.mul x y = x * y := rfl
  have hdiv (x y : ℚ) : Arith.div x y = x / y := rfl
  have hneg (x : ℚ) : Arith.neg x = -x := rfl
  have habs (x : ℚ) : Arith.abs x = |x| := rfl
  unfold idStage2 at h
  simp only [two, zero, three, four, hadd, hmul, hdiv, hneg, habs, Bool.and_eq_true] at h
  clear two zero three four hadd hmul hdiv hneg habs
  generalize allclose eps = cl at *
  split_ifs at h with hpos
  all_goals
    cases h
    simp only [typeIClasses, List.mem_cons, List.not_mem_nil, Nat.reduceEqDiff, or_false, false_or, or_true, true_or,
      iff_true, iff_false, c9, c10, c11, c12, c13, c15, c16, c14, c17]
    grind

theorem stage3_near {eps A B C D E F : ℚ} {pos : Bool} {k : ℕ} {N R : ℚ → ℚ → Prop}
    (t0 : allclose eps B C = true → N B C)
    (t1 : allclose eps E F = true → N E F)
    (t2 : allclose eps (A / 4) D = true → N (A / 4) D)
    (t3 : allclose eps (A / 2) E = true → N (A / 2) E)
    (t4 : allclose eps D 0 = true → N D 0)
    (t5 : allclose eps E 0 = true → N E 0)
    (t6 : allclose eps D (-B / 2) = true → N D (-B / 2))
    (t7 : allclose eps (2 * |D + E + F|) (A + B) = true → N (2 * |D + E + F|) (A + B))
    (t8 : allclose eps E (-A / 3) = true → N E (-A / 3))
    (n1 : ∀ x y, N x y → R x y) (n2 : ∀ x y, N x y → R y x)
    (n3 : ∀ x y z, N x y → N x z → R y z) (n4 : ∀ x y z, N x y → N y z → R z x)
    (h : idStage3 eps pos A B C D E F = some k) :
    ClassEqs R k A B C D E F ∧ (pos = true ↔ k ∈ typeIClasses) := by
  have two : (Arith.ofInt 2 : ℚ) = 2 := by simp [Arith.ofInt]
  have zero : (Arith.ofInt 0 : ℚ) = 0 := by simp [Arith.ofInt]
  have three : (Arith.ofInt 3 : ℚ) = 3 := by simp [Arith.ofInt]
  have four : (Arith.ofInt 4 : ℚ) = 4 := by simp [Arith.ofInt]
  have hadd (x y : ℚ) : Arith.add x y = x + y := rfl
  have hmul (x y : ℚ) : Arith.mul x y = x * y := rfl
  have hdiv (x y : ℚ) : Arith.div x y = x / y := rfl
  have hneg (x : ℚ) : Arith.neg x = -x := rfl
  have habs (x : ℚ) : Arith.abs x = |x| := rfl
  unfold idStage3 at h
  simp only [two, zero, three, four, hadd, hmul, hdiv, hneg, habs, Bool.and_eq_true] at h
  clear two zero three four hadd hmul hdiv hneg habs
  generalize allclose eps = cl at *
  split_ifs at h with hpos
  all_goals
    cases h
    simp only [typeIClasses, List.mem_cons, List.not_mem_nil, Nat.reduceEqDiff, or_false, false_or, or_true, true_or,
      iff_true, iff_false, c18, c19, c20, c21, c22, c23, c24, c25]
    grind

theorem stage4_near {eps A B C D E F : ℚ} {pos : Bool} {k : ℕ} {N R : ℚ → ℚ → Prop}
    (t0 : allclose eps E F = true → N E F)
    (t1 : allclose eps D (A / 4) = true → N D (A / 4))
    (t2 : allclose eps (A / 2) E = true → N (A / 2) E)
    (t3 : allclose eps E (A / 2) = true → N E (A / 2))
    (t4 : allclose eps F (2 * D) = true → N F (2 * D))
    (t5 : allclose eps F (A / 2) = true → N F (A / 2))
    (t6 : allclose eps E (2 * D) = true → N E (2 * D))
    (t7 : allclose eps D (B / 2) = true → N D (B / 2))
    (t8 : allclose eps F (2 * E) = true → N F (2 * E))
    (t9 : allclose eps E 0 = true → N E 0)
    (t10 : allclose eps D 0 = true → N D 0)
    (t11 : allclose eps D (-B / 2) = true → N D (-B / 2))
    (t12 : allclose eps D F = true → N D F)
    (t13 : allclose eps E (-A / 2) = true → N E (-A / 2))
    (t14 : allclose eps D E = true → N D E)
    (t15 : allclose eps F (-A / 2) = true → N F (-A / 2))
    (t16 : allclose eps (-B / 2) D = true → N (-B / 2) D)
    (t17 : allclose eps (-A / 2) E = true → N (-A / 2) E)
    (t18 : allclose eps F 0 = true → N F 0)
    (t19 : allclose eps (2 * |D + E + F|) (A + B) = true → N (2 * |D + E + F|) (A + B))
    (t20 : allclose eps |2 * D + F| B = true → N |2 * D + F| B)
    (n1 : ∀ x y, N x y → R x y) (n2 : ∀ x y, N x y → R y x)
    (n3 : ∀ x y z, N x y → N x z → R y z) (n4 : ∀ x y z, N x y → N y z → R z x)
    (h : idStage4 eps pos A B C D E F = some k) :
    ClassEqs R k A B C D E F ∧ (pos = true ↔ k ∈ typeIClasses) := by
  have two : (Arith.ofInt 2 : ℚ) = 2 := by simp [Arith.ofInt]
  have zero : (Arith.ofInt 0 : ℚ) = 0 := by simp [Arith.ofInt]
  have three : (Arith.ofInt 3 : ℚ) = 3 := by simp [Arith.ofInt]
  have four : (Arith.ofInt 4 : ℚ) = 4 := by simp [Arith.ofInt]
  have hadd (x y : ℚ) : Arith.add x y = x + y := rfl
  have hmul (x y : ℚ) : Arith.mul x y = x * y := rfl
  have hdiv (x y : ℚ) : Arith.div x y = x / y := rfl
  have hneg (x : ℚ) : Arith.neg x = -x := rfl
  have habs (x : ℚ) : Arith.abs x = |x| := rfl
  unfold idStage4 at h
  simp only [two, zero, three, four, hadd, hmul, hdiv, hneg, habs, Bool.and_eq_true] at h
  clear two zero three four hadd hmul hdiv hneg habs
  generalize allclose eps = cl at *
  split_ifs at h with hpos
  all_goals
    cases h
    simp only [typeIClasses, List.mem_cons, List.not_mem_nil, Nat.reduceEqDiff, or_false, false_or, or_true, true_or,
      iff_true, iff_false, c26, c27, c28, c29, c30, c31, c32, c40, c35, c36, c33, c38, c34, c42, c41, c37, c39, c43, c44]
    grind

end AutoGR
