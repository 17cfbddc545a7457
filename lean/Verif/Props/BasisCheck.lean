import Mathlib.Tactic.Linarith
import Mathlib.Tactic.IntervalCases
import Verif.Model.BasisCheck
import Verif.Props.Volumes

/-! # C53, C56: the lists of test densities, and the generators `cell_test` names -/

namespace AutoGR

/-! ## C53 -/

/-- One pass over the multipliers: what is in the list afterwards. -/
theorem kps_inner (kmax k : ℤ) (ms : List ℤ) (l : List ℤ) (hl : l.Nodup) :
    (ms.foldl (fun kpds m =>
      let p := m * k ^ 3
      if p ≤ kmax ∧ p ∉ kpds then kpds ++ [p] else kpds) l).Nodup ∧
    ∀ p, p ∈ ms.foldl (fun kpds m =>
      let p := m * k ^ 3
      if p ≤ kmax ∧ p ∉ kpds then kpds ++ [p] else kpds) l ↔
      p ∈ l ∨ ∃ m ∈ ms, p = m * k ^ 3 ∧ p ≤ kmax := by
  induction ms generalizing l with
  | nil => simp [hl]
  | cons m ms ih =>
    rw [List.foldl_cons]
    dsimp only
    split_ifs with h
    · have hn : (l ++ [m * k ^ 3]).Nodup := by
        rw [List.nodup_append]
        refine ⟨hl, by simp, ?_⟩
        rintro a ha b hb rfl
        rw [List.mem_singleton] at hb
        exact h.2 (hb ▸ ha)
      refine ⟨(ih _ hn).1, fun p => ?_⟩
      rw [(ih _ hn).2 p]
      simp only [List.mem_append, List.mem_cons, List.not_mem_nil, or_false, exists_eq_or_imp]
      constructor
      · rintro ((h1 | rfl) | h1)
        · exact .inl h1
        · exact .inr (.inl ⟨rfl, h.1⟩)
        · exact .inr (.inr h1)
      · rintro (h1 | h1 | h1)
        · exact .inl (.inl h1)
        · exact .inl (.inr h1.1)
        · exact .inr h1
    · refine ⟨(ih _ hl).1, fun p => ?_⟩
      rw [(ih _ hl).2 p]
      simp only [List.mem_cons, exists_eq_or_imp]
      constructor
      · rintro (h1 | h1)
        · exact .inl h1
        · exact .inr (.inr h1)
      · rintro (h1 | ⟨rfl, h1⟩ | h1)
        · exact .inl h1
        · left
          by_contra h2
          exact h ⟨h1, h2⟩
        · exact .inr h1

theorem kpsLoop_spec (ms : List ℤ) (kmax : ℤ) (ks : List ℤ) :
    (kpsLoop ms kmax ks).Nodup ∧
      ∀ p, p ∈ kpsLoop ms kmax ks ↔ ∃ k ∈ ks, ∃ m ∈ ms, p = m * k ^ 3 ∧ p ≤ kmax := by
  unfold kpsLoop
  have key : ∀ (ks l : List ℤ), l.Nodup →
      (ks.foldl (fun kpds k =>
        ms.foldl (fun kpds m =>
          let p := m * k ^ 3
          if p ≤ kmax ∧ p ∉ kpds then kpds ++ [p] else kpds) kpds) l).Nodup ∧
      ∀ p, p ∈ ks.foldl (fun kpds k =>
        ms.foldl (fun kpds m =>
          let p := m * k ^ 3
          if p ≤ kmax ∧ p ∉ kpds then kpds ++ [p] else kpds) kpds) l ↔
        p ∈ l ∨ ∃ k ∈ ks, ∃ m ∈ ms, p = m * k ^ 3 ∧ p ≤ kmax := by
    intro ks
    induction ks with
    | nil => intro l hl; simp [hl]
    | cons k ks ih =>
      intro l hl
      rw [List.foldl_cons]
      have h1 := kps_inner kmax k ms l hl
      refine ⟨(ih _ h1.1).1, fun p => ?_⟩
      rw [(ih _ h1.1).2 p, h1.2 p]
      simp only [List.mem_cons, exists_eq_or_imp, or_assoc]
  have := key ks [] List.nodup_nil
  simpa using this

/-- What the two functions really list, for every bound: the cubes `k^3 ≤ kmax` with `0 ≤ k < kmax`, each
once.  The multipliers 2, 4 and 16 are never used, because `range(1,2,4)` and `range(1,4,16)` are `[1]`. -/
theorem kps_lists_partial (kmax : ℤ) :
    (scAndBccKps kmax).Nodup ∧ fccKps kmax = scAndBccKps kmax ∧
      ∀ p, p ∈ scAndBccKps kmax ↔ ∃ k, 0 ≤ k ∧ k < kmax ∧ p = k ^ 3 ∧ p ≤ kmax := by
  have h1 : pyRange3 1 2 4 = [1] := by decide
  have h2 : pyRange3 1 4 16 = [1] := by decide
  refine ⟨(kpsLoop_spec _ _ _).1, by simp only [fccKps, scAndBccKps, h1, h2], fun p => ?_⟩
  rw [scAndBccKps, (kpsLoop_spec _ _ _).2 p, h1]
  simp [mem_pyRange, and_assoc]

/-- C53 is false of the code, for every bound from 4 on (and trivially below): 4 is a density of the simple cubic, body centred
and face centred cubic lattices, and neither function lists it. -/
theorem kps_miss (kmax : ℤ) :
    sc_3 id 4 ≠ [] ∧ bcc_5 id 4 ≠ [] ∧ fcc_1 id 4 ≠ [] ∧ 4 ∉ scAndBccKps kmax ∧ 4 ∉ fccKps kmax := by
  have h4 : (4 : ℤ) ∉ scAndBccKps kmax := by
    rw [(kps_lists_partial kmax).2.2]
    rintro ⟨k, h0, -, h1, -⟩
    rcases le_or_gt k 1 with hk | hk
    · interval_cases k <;> omega
    · have : 2 ^ 3 ≤ k ^ 3 := pow_le_pow_left₀ (by norm_num) hk 3
      omega
  refine ⟨by decide +kernel, by decide +kernel, by decide +kernel, h4, ?_⟩
  rw [(kps_lists_partial kmax).2.1]
  exact h4

/-- The density 0, which no lattice has, is listed for every bound. -/
theorem kps_zero (kmax : ℤ) (h : 1 ≤ kmax) : 0 ∈ scAndBccKps kmax ∧ 0 ∈ fccKps kmax := by
  rw [(kps_lists_partial kmax).2.1, and_self, (kps_lists_partial kmax).2.2]
  exact ⟨0, le_refl _, by omega, by norm_num, by omega⟩

example : scAndBccKps 30 = [0, 1, 8, 27] := by decide +kernel

/-! ## C56 -/

/-- The classes for which the function named in `cell_test` does not exist. -/
def brokenClasses : List ℕ := [6, 7, 9, 10, 14, 15, 17, 18, 24, 27, 37, 39, 41]

/-- C56 is false of the code: for thirteen classes `cell_test` raises `AttributeError`, for every
`max_kpd ≥ 1` and whatever the test of a supercell would say. -/
theorem cellTest_raises (fl : ℚ → ℚ) (test : List Mat3 → Except PyErr Bool) (k : ℕ) (hk : k ∈ brokenClasses)
    (maxKpd : ℤ) (h : 1 ≤ maxKpd) : cellTest fl test k maxKpd = .error .attributeError := by
  have hr : ∃ x xs, pyRange 0 maxKpd = x :: xs := by
    apply List.exists_cons_of_ne_nil
    apply List.ne_nil_of_mem (a := 0)
    rw [mem_pyRange]
    omega
  obtain ⟨x, xs, hr⟩ := hr
  simp only [brokenClasses, List.mem_cons, List.not_mem_nil, or_false] at hk
  rcases hk with rfl | rfl | rfl | rfl | rfl | rfl | rfl | rfl | rfl | rfl | rfl | rfl | rfl <;>
    · simp [cellTest, cellTestKpds, hr]
      rfl

/-- C56, the part that holds: for the other classes, when the test of the supercells of each density
answers, `cell_test` answers, and it answers `True` exactly when the supercells of every density in its
list pass.  The supercells are those that `find_supercells` would use (`generatorOf`).  Missing: the
thirteen classes of `cellTest_raises`. -/
theorem cellTest_verdict_partial (fl : ℚ → ℚ) (test : List Mat3 → Except PyErr Bool) (k : ℕ) (h1 : 1 ≤ k)
    (h44 : k ≤ 44) (hk : k ∉ brokenClasses) (ht : k ≠ 31 ∧ k ≠ 44) (maxKpd : ℤ) :
    ∃ gen, cellTestGen fl k = some gen ∧
      (gen = sc_3 fl ∧ k = 3 ∨ gen = bcc_5 fl ∧ k = 5 ∨ gen = fcc_1 fl ∧ k = 1 ∨
        generatorOf fl k = some gen) ∧
      ((∀ n ∈ cellTestKpds k maxKpd, ∃ b, test (gen n) = .ok b) →
        ∃ b, cellTest fl test k maxKpd = .ok b ∧
          (b = true ↔ ∀ n ∈ cellTestKpds k maxKpd, test (gen n) = .ok true)) := by
  have hg : ∃ gen, cellTestGen fl k = some gen ∧
      (gen = sc_3 fl ∧ k = 3 ∨ gen = bcc_5 fl ∧ k = 5 ∨ gen = fcc_1 fl ∧ k = 1 ∨
        generatorOf fl k = some gen) := by
    interval_cases k <;> first
      | exact absurd (by decide) hk
      | exact absurd rfl ht.1
      | exact absurd rfl ht.2
      | exact ⟨_, rfl, .inr (.inr (.inr rfl))⟩
      | exact ⟨_, rfl, .inl ⟨rfl, rfl⟩⟩
      | exact ⟨_, rfl, .inr (.inl ⟨rfl, rfl⟩)⟩
      | exact ⟨_, rfl, .inr (.inr (.inl ⟨rfl, rfl⟩))⟩
  obtain ⟨gen, hg, hg2⟩ := hg
  refine ⟨gen, hg, hg2, fun hall => ?_⟩
  have hc : cellTest fl test k maxKpd = cellTestLoop (some gen) test (cellTestKpds k maxKpd) := by
    unfold cellTest
    rw [if_neg (by omega), if_pos ⟨by rw [List.mem_range]; omega, by omega⟩, hg]
  rw [hc]
  generalize cellTestKpds k maxKpd = ns at hall ⊢
  induction ns with
  | nil => exact ⟨true, rfl, by simp⟩
  | cons n ns ih =>
    obtain ⟨b, hb⟩ := hall n List.mem_cons_self
    obtain ⟨b', hb', hb2⟩ := ih (fun m hm => hall m (List.mem_cons_of_mem _ hm))
    cases b with
    | false => exact ⟨false, by simp only [cellTestLoop, hb], by simp [hb]⟩
    | true => exact ⟨b', by simp only [cellTestLoop, hb, hb'], by rw [hb2]; simp [hb]⟩

/-- The hypotheses are met, with a test that fails for some supercell. -/
example : cellTest id (fun Hs => .ok (Hs.length < 3)) 32 10 = .ok false := by decide +kernel

end AutoGR
