import Verif.Lemmas.FortranId
import Verif.Props.ClassNear

/-! # The search for the Niggli class in `niggli.f90`, up to the tolerance -/

set_option linter.unusedSimpArgs false

namespace AutoGR

open Spec

/-! ## Up to the tolerance -/

theorem fStage1_near {eps A B C D E F : ℚ} {pos : Bool} {k : ℕ} {N R : ℚ → ℚ → Prop}
    (t0 : allclose eps A B = true → N A B)
    (t1 : allclose eps B C = true → N B C)
    (t2 : allclose eps D E = true → N D E)
    (t3 : allclose eps D F = true → N D F)
    (t4 : allclose eps E F = true → N E F)
    (t5 : allclose eps (A / 2) D = true → N (A / 2) D)
    (t6 : allclose eps 0 D = true → N 0 D)
    (t7 : allclose eps (-A / 3) D = true → N (-A / 3) D)
    (t8 : allclose eps (2 * |D + E + F|) (A + B) = true → N (2 * |D + E + F|) (A + B))
    (n1 : ∀ x y, N x y → R x y) (n2 : ∀ x y, N x y → R y x)
    (n3 : ∀ x y z, N x y → N x z → R y z) (n4 : ∀ x y z, N x y → N y z → R z x)
    (h : fStage1 eps pos A B C D E F = some k) :
    ClassEqs R k A B C D E F ∧ (pos = true ↔ k ∈ typeIClasses) := by
  have two : (Arith.ofInt 2 : ℚ) = 2 := by simp [Arith.ofInt]
  have zero : (Arith.ofInt 0 : ℚ) = 0 := by simp [Arith.ofInt]
  have three : (Arith.ofInt 3 : ℚ) = 3 := by simp [Arith.ofInt]
  have four : (Arith.ofInt 4 : ℚ) = 4 := by simp [Arith.ofInt]
  have hadd (x y : ℚ) : Arith.add x y = x + y := rfl
  have hsub (x y : ℚ) : Arith.sub x y = x - y := rfl
  have hmul (x y : ℚ) : Arith.mul x y = x * y := rfl
  have hdiv (x y : ℚ) : Arith.div x y = x / y := rfl
  have hneg (x : ℚ) : Arith.neg x = -x := rfl
  have habs (x : ℚ) : Arith.abs x = |x| := rfl
  have hle (x y : ℚ) : Arith.le x y = decide (x ≤ y) := rfl
  have hcl : (fClose eps : ℚ → ℚ → Bool) = allclose eps := rfl
  unfold fStage1 at h
  simp only [hcl, two, zero, three, four, hadd, hsub, hmul, hdiv, hneg, habs, hle, Bool.and_eq_true,
    decide_eq_true_eq] at h
  clear two zero three four hadd hsub hmul hdiv hneg habs hle hcl
  generalize allclose eps = cl at *
  split_ifs at h with hpos
  all_goals
    cases h
    simp only [typeIClasses, List.mem_cons, List.not_mem_nil, Nat.reduceEqDiff, or_false, false_or, or_true, true_or,
      iff_true, iff_false, c1, c2, c3, c4, c5, c6, c7, c8]
    grind

theorem fStage2_near {eps A B C D E F : ℚ} {pos : Bool} {k : ℕ} {N R : ℚ → ℚ → Prop}
    (t0 : allclose eps A B = true → N A B)
    (t1 : allclose eps D E = true → N D E)
    (t2 : allclose eps D F = true → N D F)
    (t3 : allclose eps (A / 2) D = true → N (A / 2) D)
    (t4 : allclose eps 0 D = true → N 0 D)
    (t5 : allclose eps (-A / 2) F = true → N (-A / 2) F)
    (t6 : allclose eps (-A / 2) D = true → N (-A / 2) D)
    (t7 : allclose eps 0 F = true → N 0 F)
    (t8 : allclose eps (2 * |D + E + F|) (A + B) = true → N (2 * |D + E + F|) (A + B))
    (n1 : ∀ x y, N x y → R x y) (n2 : ∀ x y, N x y → R y x)
    (n3 : ∀ x y z, N x y → N x z → R y z) (n4 : ∀ x y z, N x y → N y z → R z x)
    (h : fStage2 eps pos A B C D E F = some k) :
    ClassEqs R k A B C D E F ∧ (pos = true ↔ k ∈ typeIClasses) := by
  have two : (Arith.ofInt 2 : ℚ) = 2 := by simp [Arith.ofInt]
  have zero : (Arith.ofInt 0 : ℚ) = 0 := by simp [Arith.ofInt]
  have three : (Arith.ofInt 3 : ℚ) = 3 := by simp [Arith.ofInt]
  have four : (Arith.ofInt 4 : ℚ) = 4 := by simp [Arith.ofInt]
  have hadd (x y : ℚ) : Arith.add x y = x + y := rfl
  have hsub (x y : ℚ) : Arith.sub x y = x - y := rfl
  have hmul (x y : ℚ) : Arith.mul x y = x * y := rfl
  have hdiv (x y : ℚ) : Arith.div x y = x / y := rfl
  have hneg (x : ℚ) : Arith.neg x = -x := rfl
  have habs (x : ℚ) : Arith.abs x = |x| := rfl
  have hle (x y : ℚ) : Arith.le x y = decide (x ≤ y) := rfl
  have hcl : (fClose eps : ℚ → ℚ → Bool) = allclose eps := rfl
  unfold fStage2 at h
  simp only [hcl, two, zero, three, four, hadd, hsub, hmul, hdiv, hneg, habs, hle, Bool.and_eq_true,
    decide_eq_true_eq] at h
  clear two zero three four hadd hsub hmul hdiv hneg habs hle hcl
  generalize allclose eps = cl at *
  split_ifs at h with hpos
  all_goals
    cases h
    simp only [typeIClasses, List.mem_cons, List.not_mem_nil, Nat.reduceEqDiff, or_false, false_or, or_true, true_or,
      iff_true, iff_false, c9, c10, c11, c12, c13, c14, c15, c16, c17]
    grind

theorem fStage3_near {eps A B C D E F : ℚ} {pos : Bool} {k : ℕ} {N R : ℚ → ℚ → Prop}
    (t0 : allclose eps B C = true → N B C)
    (t1 : allclose eps E F = true → N E F)
    (t2 : allclose eps (A / 4) D = true → N (A / 4) D)
    (t3 : allclose eps (A / 2) E = true → N (A / 2) E)
    (t4 : allclose eps 0 D = true → N 0 D)
    (t5 : allclose eps (-B / 2) D = true → N (-B / 2) D)
    (t6 : allclose eps 0 E = true → N 0 E)
    (t7 : allclose eps (2 * |D + E + F|) (A + B) = true → N (2 * |D + E + F|) (A + B))
    (t8 : allclose eps (-A / 3) E = true → N (-A / 3) E)
    (n1 : ∀ x y, N x y → R x y) (n2 : ∀ x y, N x y → R y x)
    (n3 : ∀ x y z, N x y → N x z → R y z) (n4 : ∀ x y z, N x y → N y z → R z x)
    (h : fStage3 eps pos A B C D E F = some k) :
    ClassEqs R k A B C D E F ∧ (pos = true ↔ k ∈ typeIClasses) := by
  have two : (Arith.ofInt 2 : ℚ) = 2 := by simp [Arith.ofInt]
  have zero : (Arith.ofInt 0 : ℚ) = 0 := by simp [Arith.ofInt]
  have three : (Arith.ofInt 3 : ℚ) = 3 := by simp [Arith.ofInt]
  have four : (Arith.ofInt 4 : ℚ) = 4 := by simp [Arith.ofInt]
  have hadd (x y : ℚ) : Arith.add x y = x + y := rfl
  have hsub (x y : ℚ) : Arith.sub x y = x - y := rfl
  have hmul (x y : ℚ) : Arith.mul x y = x * y := rfl
  have hdiv (x y : ℚ) : Arith.div x y = x / y := rfl
  have hneg (x : ℚ) : Arith.neg x = -x := rfl
  have habs (x : ℚ) : Arith.abs x = |x| := rfl
  have hle (x y : ℚ) : Arith.le x y = decide (x ≤ y) := rfl
  have hcl : (fClose eps : ℚ → ℚ → Bool) = allclose eps := rfl
  unfold fStage3 at h
  simp only [hcl, two, zero, three, four, hadd, hsub, hmul, hdiv, hneg, habs, hle, Bool.and_eq_true,
    decide_eq_true_eq] at h
  clear two zero three four hadd hsub hmul hdiv hneg habs hle hcl
  generalize allclose eps = cl at *
  split_ifs at h with hpos
  all_goals
    cases h
    simp only [typeIClasses, List.mem_cons, List.not_mem_nil, Nat.reduceEqDiff, or_false, false_or, or_true, true_or,
      iff_true, iff_false, c18, c19, c20, c21, c22, c23, c24, c25]
    grind

theorem fStage4_near {eps A B C D E F : ℚ} {pos : Bool} {k : ℕ} {N R : ℚ → ℚ → Prop}
    (t0 : allclose eps E F = true → N E F)
    (t1 : allclose eps (A / 2) E = true → N (A / 2) E)
    (t2 : allclose eps (2 * D) F = true → N (2 * D) F)
    (t3 : allclose eps (A / 2) F = true → N (A / 2) F)
    (t4 : allclose eps (2 * D) E = true → N (2 * D) E)
    (t5 : allclose eps (B / 2) D = true → N (B / 2) D)
    (t6 : allclose eps (2 * E) F = true → N (2 * E) F)
    (t7 : allclose eps 0 E = true → N 0 E)
    (t8 : allclose eps 0 D = true → N 0 D)
    (t9 : allclose eps D (-B / 2) = true → N D (-B / 2))
    (t10 : allclose eps D F = true → N D F)
    (t11 : allclose eps (-A / 2) E = true → N (-A / 2) E)
    (t12 : allclose eps D E = true → N D E)
    (t13 : allclose eps (-B / 2) D = true → N (-B / 2) D)
    (t14 : allclose eps 0 F = true → N 0 F)
    (t15 : allclose eps (-A / 2) F = true → N (-A / 2) F)
    (t16 : allclose eps (2 * |D + E + F|) (A + B) = true → N (2 * |D + E + F|) (A + B))
    (t17 : allclose eps |2 * D + F| B = true → N |2 * D + F| B)
    (u0 : k = 26 → |A / 4 - D| ≤ |eps * D| → N (A / 4) D)
    (u1 : k = 26 → |A / 2 - E| ≤ |eps * E| → N (A / 2) E)
    (u2 : k = 38 → |-A / 2 - F| ≤ |eps * F| → N (-A / 2) F)
    (n1 : ∀ x y, N x y → R x y) (n2 : ∀ x y, N x y → R y x)
    (n3 : ∀ x y z, N x y → N x z → R y z) (n4 : ∀ x y z, N x y → N y z → R z x)
    (h : fStage4 eps pos A B C D E F = k) :
    ClassEqs R k A B C D E F ∧ (pos = true ↔ k ∈ typeIClasses) := by
  have two : (Arith.ofInt 2 : ℚ) = 2 := by simp [Arith.ofInt]
  have zero : (Arith.ofInt 0 : ℚ) = 0 := by simp [Arith.ofInt]
  have three : (Arith.ofInt 3 : ℚ) = 3 := by simp [Arith.ofInt]
  have four : (Arith.ofInt 4 : ℚ) = 4 := by simp [Arith.ofInt]
  have hadd (x y : ℚ) : Arith.add x y = x + y := rfl
  have hsub (x y : ℚ) : Arith.sub x y = x - y := rfl
  have hmul (x y : ℚ) : Arith.mul x y = x * y := rfl
  have hdiv (x y : ℚ) : Arith.div x y = x / y := rfl
  have hneg (x : ℚ) : Arith.neg x = -x := rfl
  have habs (x : ℚ) : Arith.abs x = |x| := rfl
  have hle (x y : ℚ) : Arith.le x y = decide (x ≤ y) := rfl
  have hcl : (fClose eps : ℚ → ℚ → Bool) = allclose eps := rfl
  unfold fStage4 at h
  simp only [hcl, two, zero, three, four, hadd, hsub, hmul, hdiv, hneg, habs, hle, Bool.and_eq_true,
    decide_eq_true_eq] at h
  clear two zero three four hadd hsub hmul hdiv hneg habs hle hcl
  generalize allclose eps = cl at *
  split_ifs at h with hpos
  all_goals
    subst h
    simp only [typeIClasses, List.mem_cons, List.not_mem_nil, Nat.reduceEqDiff, or_false, false_or, or_true, true_or,
      iff_true, iff_false, c26, c27, c28, c29, c30, c31, c32, c33, c34, c35, c36, c37, c38, c39, c40, c41, c42, c43, c44]
    grind

private theorem near_aux (eps rr A B C D E F : ℚ) (hrr : 1 / 100000 ≤ rr)
    (hrel : (idNum eps A B C D E F = 26 ∨ idNum eps A B C D E F = 38) → 0 ≤ eps ∧ eps ≤ rr) :
    ClassEqs (fun x y => |x - y| ≤ 2 * (eps + rr * (2 * (|A| + |B| + |C| + |D| + |E| + |F|))))
      (idNum eps A B C D E F) A B C D E F ∧
    (idNum eps A B C D E F ∈ typeIClasses ↔ eps < D ∧ eps < E ∧ eps < F) := by
  set S := |A| + |B| + |C| + |D| + |E| + |F| with hS
  set N : ℚ → ℚ → Prop := fun x y => |x - y| ≤ eps + rr * (2 * S) with hN
  have hA := abs_nonneg A
  have hB := abs_nonneg B
  have hC := abs_nonneg C
  have hD := abs_nonneg D
  have hE := abs_nonneg E
  have hF := abs_nonneg F
  have t (x y : ℚ) (hy : |y| ≤ 2 * S) (hc : allclose eps x y = true) : N x y := by
    rw [close_iff, EqTol] at hc
    simp only [hN]
    have := mul_le_mul hrr hy (abs_nonneg y) (by linarith)
    linarith
  have d (x : ℚ) (m : ℚ) (hm : 1 ≤ m) : |x / m| ≤ |x| := by
    rw [abs_div, abs_of_pos (a := m) (by linarith)]
    exact div_le_self (abs_nonneg x) hm
  have bA : |A| ≤ 2 * S := by linarith
  have bB : |B| ≤ 2 * S := by linarith
  have bC : |C| ≤ 2 * S := by linarith
  have bD : |D| ≤ 2 * S := by linarith
  have bE : |E| ≤ 2 * S := by linarith
  have bF : |F| ≤ 2 * S := by linarith
  have b0 : |(0 : ℚ)| ≤ 2 * S := by rw [abs_zero]; linarith
  have bA2 : |A / 2| ≤ 2 * S := (d A 2 (by norm_num)).trans bA
  have bA4 : |A / 4| ≤ 2 * S := (d A 4 (by norm_num)).trans bA
  have bB2 : |B / 2| ≤ 2 * S := (d B 2 (by norm_num)).trans bB
  have bnA2 : |-A / 2| ≤ 2 * S := (d (-A) 2 (by norm_num)).trans (by rwa [abs_neg])
  have bnA3 : |-A / 3| ≤ 2 * S := (d (-A) 3 (by norm_num)).trans (by rwa [abs_neg])
  have bnB2 : |-B / 2| ≤ 2 * S := (d (-B) 2 (by norm_num)).trans (by rwa [abs_neg])
  have bAB : |A + B| ≤ 2 * S := (abs_add_le A B).trans (by linarith)
  have b2D : |2 * D| ≤ 2 * S := by rw [abs_mul, abs_two]; linarith
  have b2E : |2 * E| ≤ 2 * S := by rw [abs_mul, abs_two]; linarith
  have n1 (x y : ℚ) (h : N x y) : |x - y| ≤ 2 * (eps + rr * (2 * (|A| + |B| + |C| + |D| + |E| + |F|))) := by
    have := abs_nonneg (x - y)
    simp only [hN] at h
    linarith
  have n2 (x y : ℚ) (h : N x y) : |y - x| ≤ 2 * (eps + rr * (2 * (|A| + |B| + |C| + |D| + |E| + |F|))) := by
    rw [abs_sub_comm]
    exact n1 x y h
  have n3 (x y z : ℚ) (h1 : N x y) (h2 : N x z) : |y - z| ≤ 2 * (eps + rr * (2 * (|A| + |B| + |C| + |D| + |E| + |F|))) := by
    simp only [hN] at h1 h2
    rw [← hS]
    have := abs_sub_le y x z
    rw [abs_sub_comm y x] at this
    linarith
  have n4 (x y z : ℚ) (h1 : N x y) (h2 : N y z) : |z - x| ≤ 2 * (eps + rr * (2 * (|A| + |B| + |C| + |D| + |E| + |F|))) := by
    simp only [hN] at h1 h2
    rw [← hS]
    have := abs_sub_le x y z
    rw [abs_sub_comm z x]
    linarith
  have hp : idPositive eps D E F = true ↔ eps < D ∧ eps < E ∧ eps < F := by
    simp [idPositive, Arith.lt, Arith.sub, Arith.ofInt, and_assoc]
  have u (x y : ℚ) (hy : |y| ≤ 2 * S) (h : 0 ≤ eps ∧ eps ≤ rr) (hc : |x - y| ≤ |eps * y|) : N x y := by
    simp only [hN]
    rw [abs_mul, abs_of_nonneg h.1] at hc
    have := mul_le_mul h.2 hy (abs_nonneg y) (h.1.trans h.2)
    linarith [h.1]
  have hp' : (Arith.lt (Arith.ofInt 0) (Arith.sub D eps) && Arith.lt (Arith.ofInt 0) (Arith.sub E eps) &&
    Arith.lt (Arith.ofInt 0) (Arith.sub F eps)) = idPositive eps D E F := rfl
  have fin (k : ℕ) (h : ClassEqs (fun x y => |x - y| ≤ 2 * (eps + rr * (2 * S))) k A B C D E F ∧
      (idPositive eps D E F = true ↔ k ∈ typeIClasses)) :
      ClassEqs (fun x y => |x - y| ≤ 2 * (eps + rr * (2 * S))) k A B C D E F ∧
      (k ∈ typeIClasses ↔ eps < D ∧ eps < E ∧ eps < F) :=
    ⟨h.1, h.2.symm.trans hp⟩
  apply fin
  generalize hk : idNum eps A B C D E F = k at hrel ⊢
  unfold idNum at hk
  dsimp only at hk
  rw [hp'] at hk
  split at hk
  · rename_i k' h1
    subst hk
    exact fStage1_near (N := N) (t _ _ bB) (t _ _ bC) (t _ _ bE) (t _ _ bF) (t _ _ bF) (t _ _ bD) (t _ _ bD) (t _ _ bD) (t _ _ bAB)
      n1 n2 n3 n4 h1
  split at hk
  · rename_i k' h1
    subst hk
    exact fStage2_near (N := N) (t _ _ bB) (t _ _ bE) (t _ _ bF) (t _ _ bD) (t _ _ bD) (t _ _ bF) (t _ _ bD) (t _ _ bF) (t _ _ bAB)
      n1 n2 n3 n4 h1
  split at hk
  · rename_i k' h1
    subst hk
    exact fStage3_near (N := N) (t _ _ bC) (t _ _ bF) (t _ _ bD) (t _ _ bE) (t _ _ bD) (t _ _ bD) (t _ _ bE) (t _ _ bAB) (t _ _ bE)
      n1 n2 n3 n4 h1
  · exact fStage4_near (N := N) (t _ _ bF) (t _ _ bE) (t _ _ bF) (t _ _ bF) (t _ _ bE) (t _ _ bD) (t _ _ bF) (t _ _ bE) (t _ _ bD) (t _ _ bnB2) (t _ _ bF) (t _ _ bE) (t _ _ bE) (t _ _ bD)
      (t _ _ bF) (t _ _ bF) (t _ _ bAB) (t _ _ bB)
      (fun h => u _ _ bD (hrel (.inl h))) (fun h => u _ _ bE (hrel (.inl h)))
      (fun h => u _ _ bF (hrel (.inr h))) n1 n2 n3 n4 hk

theorem idNum_near' (eps A B C D E F : ℚ) (he : 0 ≤ eps) :
    let k := idNum eps A B C D E F
    let tol := if k = 26 ∨ k = 38 then
        2 * (eps + (1 / 100000 + eps) * (2 * (|A| + |B| + |C| + |D| + |E| + |F|)))
      else classTol eps A B C D E F
    ClassEqs (fun x y => |x - y| ≤ tol) k A B C D E F ∧ (k ∈ typeIClasses ↔ eps < D ∧ eps < E ∧ eps < F) := by
  dsimp only
  split_ifs with hk
  · exact near_aux eps (1 / 100000 + eps) A B C D E F (by linarith) (fun _ => ⟨he, by linarith⟩)
  · exact near_aux eps (1 / 100000) A B C D E F le_rfl (fun h => absurd h hk)

theorem Spec.ClassApart.separated {tau rho r A B C D E F : ℚ} (h : ClassApart tau rho A B C D E F) (h0 : 0 ≤ r)
    (hr : r ≤ rho) : ClassSeparated tau r A B C D E F where
  a_b := h.a_b.sep h0 hr
  b_c := h.b_c.sep h0 hr
  d_e := h.d_e.sep h0 hr
  d_f := h.d_f.sep h0 hr
  e_f := h.e_f.sep h0 hr
  zero_d := h.d_zero.symm.sep h0 hr
  d_zero := h.d_zero.sep h0 hr
  e_zero := h.e_zero.sep h0 hr
  f_zero := h.f_zero.sep h0 hr
  ha_d := h.d_ha.symm.sep h0 hr
  ha_e := h.e_ha.symm.sep h0 hr
  e_ha := h.e_ha.sep h0 hr
  ha_f := h.f_ha.symm.sep h0 hr
  f_ha := h.f_ha.sep h0 hr
  nha_f := h.f_nha.symm.sep h0 hr
  f_nha := h.f_nha.sep h0 hr
  d_nha := h.d_nha.sep h0 hr
  nha_e := h.e_nha.symm.sep h0 hr
  e_nha := h.e_nha.sep h0 hr
  d_hb := h.d_hb.sep h0 hr
  d_nhb := h.d_nhb.sep h0 hr
  nhb_d := h.d_nhb.symm.sep h0 hr
  ta_d := h.d_ta.symm.sep h0 hr
  e_ta := h.e_ta.sep h0 hr
  qa_d := h.d_qa.symm.sep h0 hr
  d_qa := h.d_qa.sep h0 hr
  f_2d := h.f_2d.sep h0 hr
  e_2d := h.e_2d.sep h0 hr
  f_2e := h.f_2e.sep h0 hr
  sum := h.sum.sep h0 hr
  last := h.last.sep h0 hr

theorem idCell_id {equal : ℚ → ℚ → ℚ → Bool} {U : RMat ℚ} {eps : ℚ} {r : IdCell}
    (h : idCell equal U (some eps) = .ok r) :
    r.id = idNum eps (gram U r.Cu 0 0) (gram U r.Cu 1 1) (gram U r.Cu 2 2) (gram U r.Cu 1 2)
      (gram U r.Cu 0 2) (gram U r.Cu 0 1) := by
  unfold idCell at h
  dsimp only at h
  split at h
  · cases h
  · rename_i Cu hCu
    split at h
    · cases h
    · cases h
      have := cellMetric_metric U Cu
      simp only [cellMetric, Prod.mk.injEq] at this
      obtain ⟨a, b, c, d, e, f⟩ := this
      dsimp only
      rw [← a, ← b, ← c, ← d, ← e, ← f]
      rfl

end AutoGR
