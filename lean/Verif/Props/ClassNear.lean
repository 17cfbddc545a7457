import Verif.Lemmas.ClassNear
import Verif.Props.Classify

/-! # C48: the class `niggli_id` returns is right up to the tolerance -/

namespace AutoGR

open Spec

/-- The tolerance of C48: twice the sum of `eps` and the relative tolerance (numpy's `rtol = 1e-5`) of the
quantities that are compared, which are at most `2 * (|A|+|B|+|C|+|D|+|E|+|F|)`.  (The factor two: the code
tests `D = E` and `A/2 = D` where the class says `E = A/2`.) -/
def classTol (eps A B C D E F : ℚ) : ℚ :=
  2 * (eps + 1 / 100000 * (2 * (|A| + |B| + |C| + |D| + |E| + |F|)))

/-- C48, on the six scalar products: the number returned is in the table, every equality of that class holds
up to the tolerance, and the number is one of the classes of type I exactly when all of `D, E, F` are greater
than `eps`. -/
theorem niggliNum_near (eps A B C D E F : ℚ) (k : ℕ) (h : niggliNum eps A B C D E F = .ok k) :
    k ∈ classTable ∧
    ClassEqs (fun x y => |x - y| ≤ classTol eps A B C D E F) k A B C D E F ∧
    (k ∈ typeIClasses ↔ eps < D ∧ eps < E ∧ eps < F) := by
  set S := |A| + |B| + |C| + |D| + |E| + |F| with hS
  set N : ℚ → ℚ → Prop := fun x y => |x - y| ≤ eps + 1 / 100000 * (2 * S) with hN
  have hA := abs_nonneg A
  have hB := abs_nonneg B
  have hC := abs_nonneg C
  have hD := abs_nonneg D
  have hE := abs_nonneg E
  have hF := abs_nonneg F
  have t (x y : ℚ) (hy : |y| ≤ 2 * S) (hc : allclose eps x y = true) : N x y := by
    rw [close_iff, EqTol] at hc
    simp only [hN]
    linarith
  have d (x : ℚ) (m : ℚ) (hm : 1 ≤ m) : |x / m| ≤ |x| := by
    rw [abs_div, abs_of_pos (a := m) (by linarith)]
    exact div_le_self (abs_nonneg x) hm
  have bA : |A| ≤ 2 * S := by linarith
  have bB : |B| ≤ 2 * S := by linarith
  have bC : |C| ≤ 2 * S := by linarith
  have bD : |D| ≤ 2 * S := by linarith
  have bE : |E| ≤ 2 * S := by linarith
  have bF : |F| ≤ 2 * S := by linarith
  have b0 : |(0 : ℚ)| ≤ 2 * S := by rw [abs_zero]; linarith
  have bA2 : |A / 2| ≤ 2 * S := (d A 2 (by norm_num)).trans bA
  have bA4 : |A / 4| ≤ 2 * S := (d A 4 (by norm_num)).trans bA
  have bB2 : |B / 2| ≤ 2 * S := (d B 2 (by norm_num)).trans bB
  have bnA2 : |-A / 2| ≤ 2 * S := (d (-A) 2 (by norm_num)).trans (by rwa [abs_neg])
  have bnA3 : |-A / 3| ≤ 2 * S := (d (-A) 3 (by norm_num)).trans (by rwa [abs_neg])
  have bnB2 : |-B / 2| ≤ 2 * S := (d (-B) 2 (by norm_num)).trans (by rwa [abs_neg])
  have bAB : |A + B| ≤ 2 * S := (abs_add_le A B).trans (by linarith)
  have b2D : |2 * D| ≤ 2 * S := by rw [abs_mul, abs_two]; linarith
  have b2E : |2 * E| ≤ 2 * S := by rw [abs_mul, abs_two]; linarith
  have n1 (x y : ℚ) (h : N x y) : |x - y| ≤ classTol eps A B C D E F := by
    have := abs_nonneg (x - y)
    simp only [hN] at h
    unfold classTol
    linarith
  have n2 (x y : ℚ) (h : N x y) : |y - x| ≤ classTol eps A B C D E F := by
    rw [abs_sub_comm]
    exact n1 x y h
  have n3 (x y z : ℚ) (h1 : N x y) (h2 : N x z) : |y - z| ≤ classTol eps A B C D E F := by
    simp only [hN] at h1 h2
    unfold classTol
    rw [← hS]
    have := abs_sub_le y x z
    rw [abs_sub_comm y x] at this
    linarith
  have n4 (x y z : ℚ) (h1 : N x y) (h2 : N y z) : |z - x| ≤ classTol eps A B C D E F := by
    simp only [hN] at h1 h2
    unfold classTol
    rw [← hS]
    have := abs_sub_le x y z
    rw [abs_sub_comm z x]
    linarith
  have hp : idPositive eps D E F = true ↔ eps < D ∧ eps < E ∧ eps < F := by
    simp [idPositive, Arith.lt, Arith.sub, Arith.ofInt, and_assoc]
  have fin (k : ℕ) (h : ClassEqs (fun x y => |x - y| ≤ classTol eps A B C D E F) k A B C D E F ∧
      (idPositive eps D E F = true ↔ k ∈ typeIClasses)) :
      k ∈ classTable ∧ ClassEqs (fun x y => |x - y| ≤ classTol eps A B C D E F) k A B C D E F ∧
      (k ∈ typeIClasses ↔ eps < D ∧ eps < E ∧ eps < F) := by
    refine ⟨?_, h.1, h.2.symm.trans hp⟩
    have h1 := h.1
    unfold ClassEqs at h1
    split at h1 <;> first | decide | exact h1.elim
  unfold niggliNum at h
  dsimp only at h
  apply fin
  split at h
  · rename_i k' h1
    cases h
    refine stage1_near (N := N) (t _ _ bB) (t _ _ bC) (t _ _ bE) (t _ _ bF) (t _ _ bD) (t _ _ bE) (t _ _ bF) (t _ _ bD) (t _ _ bD) (t _ _ bAB) (t _ _ bF)
      n1 n2 n3 n4 h1
  split at h
  · rename_i k' h1
    cases h
    refine stage2_near (N := N) (t _ _ bB) (t _ _ bE) (t _ _ bF) (t _ _ bD) (t _ _ b0) (t _ _ bF) (t _ _ bnA2) (t _ _ b0) (t _ _ bAB)
      n1 n2 n3 n4 h1
  split at h
  · rename_i k' h1
    cases h
    refine stage3_near (N := N) (t _ _ bC) (t _ _ bF) (t _ _ bD) (t _ _ bE) (t _ _ b0) (t _ _ b0) (t _ _ bnB2) (t _ _ bAB) (t _ _ bnA3)
      n1 n2 n3 n4 h1
  split at h
  · rename_i k' h1
    cases h
    refine stage4_near (N := N) (t _ _ bF) (t _ _ bA4) (t _ _ bE) (t _ _ bA2) (t _ _ b2D) (t _ _ bA2) (t _ _ b2D) (t _ _ bB2) (t _ _ b2E) (t _ _ b0) (t _ _ b0) (t _ _ bnB2) (t _ _ bF) (t _ _ bnA2) (t _ _ bE) (t _ _ bnA2) (t _ _ bD) (t _ _ bE) (t _ _ b0) (t _ _ bAB) (t _ _ bB)
      n1 n2 n3 n4 h1
  · cases h

/-- C48: if `niggli_id(U,eps)` returns `k`, then the reduced metric meets the equalities of class `k` up to
the tolerance, and its type is that of `k` (with `eps` in place of zero). -/
theorem niggliId_near (U : RMat ℚ) (eps : Option ℚ) (k : ℕ) (h : niggliId U eps = .ok k) :
    ∃ C : IMat, reducedCell U eps = .ok C ∧ k ∈ classTable ∧
      ClassEqs (fun x y => |x - y| ≤ classTol (eps.getD (1 / 100000)) (gram U C 0 0) (gram U C 1 1)
          (gram U C 2 2) (gram U C 1 2) (gram U C 0 2) (gram U C 0 1)) k (gram U C 0 0) (gram U C 1 1)
        (gram U C 2 2) (gram U C 1 2) (gram U C 0 2) (gram U C 0 1) ∧
      (k ∈ typeIClasses ↔ eps.getD (1 / 100000) < gram U C 1 2 ∧ eps.getD (1 / 100000) < gram U C 0 2 ∧
        eps.getD (1 / 100000) < gram U C 0 1) := by
  rcases hC : reducedCell U eps with e | C
  · unfold niggliId at h
    rw [hC] at h
    cases h
  · refine ⟨C, rfl, ?_⟩
    apply niggliNum_near
    rw [← h]
    unfold niggliId
    rw [hC]
    dsimp only
    rw [cellMetric_metric]
    cases eps <;> rfl

/-- C48, the family: for every class of the table, the family number returned with it is that of its Bravais
lattice in International Tables A. -/
theorem latFam_right (k : ℕ) (hk : k ∈ classTable) :
    ∃ b, bravais k = some b ∧ latFam k = some b.family := by
  revert k
  decide

/-- C48, the name, where it is spelled right: for every class of the table but 43, the name returned with it
is that of its Bravais lattice.  Missing: class 43, where the file has a misspelling (see
`latType_misspelled`). -/
theorem latType_right_partial (k : ℕ) (hk : k ∈ classTable) (h43 : k ≠ 43) :
    ∃ b, bravais k = some b ∧ latType k = some b.name := by
  revert k
  decide

/-- For class 43 the file says "body centered monoclinc". -/
theorem latType_misspelled : bravais 43 = some .mI ∧ latType 43 ≠ some Bravais.mI.name := by decide

/-- The hypotheses are met by a cell that is near a special class but not in it: `A` and `B` differ by
`2e-6`. -/
example : niggliId (⟨1, 0, 0, 0, 1000001 / 1000000, 0, 0, 0, 3⟩ : RMat ℚ) none = .ok 11 := by decide +kernel

end AutoGR
