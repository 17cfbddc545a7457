import Verif.Lemmas.Classify

/-! # C49, C50: the search for the Niggli class -/

namespace AutoGR

open Spec

/-! ## C49 -/

/-- A lattice with vectors (4,0,0), (1,5,0), (6,7,7). -/
def gapCell : RMat ℚ := ⟨4, 1, 6, 0, 5, 7, 0, 0, 7⟩

/-- C49 is false of the code: there is a lattice that is reduced without error, and for which `niggli_id`
raises `UnboundLocalError`.  Its reduced cell is of type I with `E = F`, `E ≠ A/2`, and the file has no
branch for that. -/
theorem niggliId_gap :
    ∃ (U : RMat ℚ) (C : IMat), reducedCell U none = .ok C ∧ niggliId U none = .error .unboundLocal :=
  ⟨gapCell, ⟨1, 0, -1, 0, 1, -1, 0, 0, 1⟩, by decide +kernel, by decide +kernel⟩

/-- C49, the part that holds, for any arithmetic: `niggli_id` returns a number for every lattice that is
reduced without error, unless the reduced cell passes for type I with `E = F` and `E ≠ A/2`.  Missing: that
exception, where the claim is false (see above). -/
theorem niggliId_answers_partial {K : Type} [Arith K] (U : RMat K) (eps : Option K) (C : IMat)
    (h : reducedCell U eps = .ok C) :
    let e : K := eps.getD (Arith.ofRat (1 / 100000))
    let (A, _, _, D, E, F) := cellMetric U C
    ¬ (idPositive e D E F = true ∧ allclose e E F = true ∧
      allclose e (Arith.div A (Arith.ofInt 2)) E = false) →
    ∃ k, niggliId U eps = .ok k := by
  rcases hm : cellMetric U C with ⟨A, B, C', D, E, F⟩
  dsimp only
  intro hn
  have key (e : K) (hn : ¬ (idPositive e D E F = true ∧ allclose e E F = true ∧
      allclose e (Arith.div A (Arith.ofInt 2)) E = false)) :
      ∃ k, niggliNum e A B C' D E F = .ok k := by
    unfold niggliNum
    dsimp only
    split
    · exact ⟨_, rfl⟩
    split
    · exact ⟨_, rfl⟩
    split
    · exact ⟨_, rfl⟩
    split
    · exact ⟨_, rfl⟩
    · rename_i h4
      exfalso
      unfold idStage4 at h4
      dsimp only at h4
      split_ifs at h4 with h1 h2 h3 h5
      exact hn ⟨h1, h2, by simpa using h5⟩
  unfold niggliId
  rw [h]
  dsimp only
  rw [hm]
  dsimp only
  cases eps with
  | none => exact key _ hn
  | some e => exact key _ hn

/-- The hypotheses are met, for a lattice of type I. -/
example : reducedCell (⟨1, 1 / 4, 1 / 3, 0, 2, 1 / 5, 0, 0, 3⟩ : RMat ℚ) none = .ok IMat.one ∧
    niggliId (⟨1, 1 / 4, 1 / 3, 0, 2, 1 / 5, 0, 0, 3⟩ : RMat ℚ) none = .ok 31 := by
  constructor <;> decide +kernel

/-! ## C50 -/

/-- C50, on the six scalar products: if no two quantities of the table of classes are nearly equal without
being equal, and the cell is clearly of type I or of type II, then `niggli_id` returns `k` exactly when `k`
is the first class of the table to which the metric belongs, with one exception: for `k = 31` and `E = F`
it raises.  Missing: that exception (where the claim is false, see `niggliId_gap`). -/
theorem niggliNum_exact_partial (eps A B C D E F : ℚ) (he : 0 ≤ eps)
    (sep : ClassSeparated eps (1 / 100000) A B C D E F)
    (htype : (eps < D ∧ eps < E ∧ eps < F) ∨ (D ≤ 0 ∧ E ≤ 0 ∧ F ≤ 0)) (k : ℕ) :
    niggliNum eps A B C D E F = .ok k ↔ IsClass k A B C D E F ∧ ¬ (k = 31 ∧ E = F) := by
  rw [isClass_cast]
  rcases niggliNum_spec he sep htype with ⟨k', h1, h2, h3⟩ | ⟨h1, h2, h3⟩
  · rw [h1]
    constructor
    · intro h
      cases h
      exact ⟨h2, h3⟩
    · rintro ⟨h4, -⟩
      rw [h2.unique h4]
  · rw [h1]
    constructor
    · intro h
      cases h
    · rintro ⟨h4, h5⟩
      exact absurd ⟨h4.unique h2, h3⟩ h5

/-- C50, on the lattice: the same for `niggli_id(U,eps)` itself, on the metric of the reduced cell. -/
theorem niggliId_exact_partial (U : RMat ℚ) (eps : Option ℚ) (C : IMat) (h : reducedCell U eps = .ok C)
    (he : ∀ e, eps = some e → 0 ≤ e)
    (sep : ClassSeparated (eps.getD (1 / 100000)) (1 / 100000) (gram U C 0 0) (gram U C 1 1) (gram U C 2 2)
      (gram U C 1 2) (gram U C 0 2) (gram U C 0 1))
    (htype : (eps.getD (1 / 100000) < gram U C 1 2 ∧ eps.getD (1 / 100000) < gram U C 0 2 ∧
        eps.getD (1 / 100000) < gram U C 0 1) ∨
      (gram U C 1 2 ≤ 0 ∧ gram U C 0 2 ≤ 0 ∧ gram U C 0 1 ≤ 0)) (k : ℕ) :
    niggliId U eps = .ok k ↔ IsClass k (gram U C 0 0 : ℚ) (gram U C 1 1 : ℚ) (gram U C 2 2 : ℚ)
      (gram U C 1 2 : ℚ) (gram U C 0 2 : ℚ) (gram U C 0 1 : ℚ) ∧ ¬ (k = 31 ∧ gram U C 0 2 = gram U C 0 1) := by
  have he' : 0 ≤ eps.getD (1 / 100000) := by
    cases eps with
    | none => norm_num
    | some e => exact he e rfl
  have hnum : niggliId U eps = niggliNum (eps.getD (1 / 100000)) (gram U C 0 0) (gram U C 1 1) (gram U C 2 2)
      (gram U C 1 2) (gram U C 0 2) (gram U C 0 1) := by
    unfold niggliId
    rw [h]
    dsimp only
    rw [cellMetric_metric]
    cases eps <;> rfl
  rw [hnum]
  exact niggliNum_exact_partial _ _ _ _ _ _ _ he' sep htype k

/-- The hypotheses are met, with a cell that has to be changed; the class is 40 (base centred
orthorhombic). -/
example : reducedCell (⟨1, 0, 3, 0, 2, 1, 0, 0, 5⟩ : RMat ℚ) none = .ok ⟨-1, 0, -3, 0, -1, 0, 0, 0, 1⟩ ∧
    cellMetric (⟨1, 0, 3, 0, 2, 1, 0, 0, 5⟩ : RMat ℚ) ⟨-1, 0, -3, 0, -1, 0, 0, 0, 1⟩ = (1, 4, 26, -2, 0, 0) ∧
    niggliId (⟨1, 0, 3, 0, 2, 1, 0, 0, 5⟩ : RMat ℚ) none = .ok 40 := by
  refine ⟨?_, ?_, ?_⟩ <;> decide +kernel

example : ClassSeparated (1 / 100000) (1 / 100000) 1 4 26 (-2) 0 0 := by
  constructor <;> decide +kernel

/-- Every metric of type I or II has a class in the table, so the theorem above leaves no metric out. -/
theorem isClass_exists (A B C D E F : ℚ) (htype : (0 < D ∧ 0 < E ∧ 0 < F) ∨ (D ≤ 0 ∧ E ≤ 0 ∧ F ≤ 0)) :
    ∃ k, IsClass k A B C D E F := by
  simp only [isClass_cast]
  have key : ∀ l : List ℕ, (∃ k ∈ l, QClass k A B C D E F) → ∃ k, First l k A B C D E F := by
    intro l
    induction l with
    | nil => rintro ⟨k, hk, -⟩; simp at hk
    | cons a t ih =>
      rintro ⟨k, hk, hq⟩
      by_cases ha : QClass a A B C D E F
      · exact ⟨a, List.mem_cons_self, ha, by simp⟩
      · obtain ⟨k', h1, h2, h3⟩ := ih ⟨k, (List.mem_cons.1 hk).resolve_left (fun h => ha (h ▸ hq)), hq⟩
        have hne : a ≠ k' := fun h => ha (h ▸ h2)
        refine ⟨k', List.mem_cons_of_mem _ h1, h2, ?_⟩
        rw [List.takeWhile_cons_of_pos (by simpa using hne)]
        intro x hx
        rcases List.mem_cons.1 hx with rfl | hx
        · exact ha
        · exact h3 x hx
  apply key
  rcases htype with h | h
  · exact ⟨31, by decide, h⟩
  · exact ⟨44, by decide, h⟩

/-- The hypotheses are met: a metric of class 43, and one of class 20. -/
example : ClassSeparated (1 / 100000) (1 / 100000) 10 11 14 (-4) (-7 / 2) (-3) ∧
    niggliNum (1 / 100000 : ℚ) 10 11 14 (-4) (-7 / 2) (-3) = .ok 43 := by
  refine ⟨?_, by decide +kernel⟩
  constructor <;> decide +kernel

example : ClassSeparated (1 / 100000) (1 / 100000) 10 12 12 1 2 2 ∧
    niggliNum (1 / 100000 : ℚ) 10 12 12 1 2 2 = .ok 20 := by
  refine ⟨?_, by decide +kernel⟩
  constructor <;> decide +kernel

end AutoGR
