import Verif.Lemmas.Cubic
import Verif.Lemmas.ClassGroups
import Verif.Lemmas.Canonical

/-!
# C01, C31, C51, C52: factor triples, cubic volumes, canonical bases, smallest prime factor
-/

namespace AutoGR

open Spec

/-- C01: `get_HNF_diagonals(n)` lists every triple of positive integers with product `n`, nothing
else, each once, in lexicographic order; in particular nothing for `n ≤ 0`. -/
theorem getHNFDiagonals_correct (n : ℤ) :
    (∀ a c f : ℤ, (a, c, f) ∈ getHNFDiagonals n ↔ 0 < a ∧ 0 < c ∧ 0 < f ∧ a * c * f = n) ∧
    (getHNFDiagonals n).Nodup ∧
    (getHNFDiagonals n).Pairwise (fun x y => x.1 < y.1 ∨ (x.1 = y.1 ∧ x.2.1 < y.2.1)) ∧
    (n ≤ 0 → getHNFDiagonals n = []) := by
  have range_lt (lo hi : ℤ) : (pyRange lo hi).Pairwise (· < ·) := by
    unfold pyRange
    rw [List.pairwise_map]
    exact List.pairwise_lt_range.imp (by intro a b h; omega)
  refine ⟨fun a c f => mem_getHNFDiagonals, nodup_getHNFDiagonals n, ?_, ?_⟩
  · unfold getHNFDiagonals
    rw [List.pairwise_flatMap]
    constructor
    · intro i _
      split_ifs
      · dsimp only
        rw [List.pairwise_flatMap]
        constructor
        · intro j _
          split_ifs <;> simp
        · refine (range_lt _ _).imp ?_
          intro j j' hj x hx y hy
          split_ifs at hx hy <;> simp at hx hy
          subst hx hy
          exact .inr ⟨rfl, hj⟩
      · simp
    · refine (range_lt _ _).imp ?_
      intro i i' hi x hx y hy
      split_ifs at hx hy <;> simp only [List.mem_flatMap, List.not_mem_nil] at hx hy
      obtain ⟨j, _, hx⟩ := hx
      obtain ⟨j', _, hy⟩ := hy
      split_ifs at hx hy <;> simp at hx hy
      subst hx hy
      exact .inl hi
  · intro hn
    rw [List.eq_nil_iff_forall_not_mem]
    rintro ⟨a, c, f⟩ h
    rw [mem_getHNFDiagonals] at h
    obtain ⟨h1, h2, h3, h4⟩ := h
    have : 0 < a * c * f := by positivity
    omega

example : getHNFDiagonals 4 = [(1, 1, 4), (1, 2, 2), (1, 4, 1), (2, 1, 2), (2, 2, 1), (4, 1, 1)] := by
  decide

/-- C31, simple and body centred cubic: there is a symmetry preserving supercell of volume factor `n`
exactly when `n` is `j³`, `2j³` or `4j³`, and then exactly one. -/
theorem cubic_volumes_sc_bcc (k : ℕ) (hk : k = 3 ∨ k = 5) (n : ℤ) (Co : IMat)
    (hCo : reducedCanonical ℚ k = .ok Co) :
    ((∃ H, H ∈ SymmetricHNFs (ClassSym k Co.toMat) n) ↔
      ∃ j : ℤ, 1 ≤ j ∧ (n = j ^ 3 ∨ n = 2 * j ^ 3 ∨ n = 4 * j ^ 3)) ∧
    ∀ H H', H ∈ SymmetricHNFs (ClassSym k Co.toMat) n →
      H' ∈ SymmetricHNFs (ClassSym k Co.toMat) n → H = H' := by
  rcases hk with rfl | rfl
  · rw [reduced_3] at hCo
    cases hCo
    have e (H : IntMat) : H ∈ SymmetricHNFs (ClassSym 3 (canonC 3).toMat) n ↔ H ∈ sc_3 id n := by
      rw [sym_3, sc_3_mem]; simp [ops_sc_3, IMat.toMat]
    simp only [e]
    refine ⟨⟨?_, ?_⟩, fun H H' => sc_3_unique⟩
    · rintro ⟨H, hH⟩
      obtain ⟨a, ha, h⟩ := sc_3_forms.1 hH
      exact ⟨a, ha, by tauto⟩
    · rintro ⟨j, hj, h | h | h⟩
      · exact ⟨_, sc_3_forms.2 ⟨j, hj, .inl ⟨h, rfl⟩⟩⟩
      · exact ⟨_, sc_3_forms.2 ⟨j, hj, .inr (.inl ⟨h, rfl⟩)⟩⟩
      · exact ⟨_, sc_3_forms.2 ⟨j, hj, .inr (.inr ⟨h, rfl⟩)⟩⟩
  · rw [reduced_5] at hCo
    cases hCo
    have e (H : IntMat) : H ∈ SymmetricHNFs (ClassSym 5 (canonC 5).toMat) n ↔ H ∈ bcc_5 id n := by
      rw [sym_5, bcc_5_mem]; simp [ops_bcc_5, IMat.toMat]
    simp only [e]
    refine ⟨⟨?_, ?_⟩, fun H H' => bcc_5_unique⟩
    · rintro ⟨H, hH⟩
      obtain ⟨a, ha, h⟩ := bcc_5_forms.1 hH
      exact ⟨a, ha, by tauto⟩
    · rintro ⟨j, hj, h | h | h⟩
      · exact ⟨_, bcc_5_forms.2 ⟨j, hj, .inl ⟨h, rfl⟩⟩⟩
      · exact ⟨_, bcc_5_forms.2 ⟨j, hj, .inr (.inl ⟨h, rfl⟩)⟩⟩
      · exact ⟨_, bcc_5_forms.2 ⟨j, hj, .inr (.inr ⟨h, rfl⟩)⟩⟩

example : reducedCanonical ℚ 3 = .ok (canonC 3) ∧ reducedCanonical ℚ 5 = .ok (canonC 5) :=
  ⟨reduced_3, reduced_5⟩

/-- C31, face centred cubic: the volume factors are `j³`, `4j³` and `16j³`, with exactly one supercell
each. -/
theorem cubic_volumes_fcc (n : ℤ) (Co : IMat) (hCo : reducedCanonical ℚ 1 = .ok Co) :
    ((∃ H, H ∈ SymmetricHNFs (ClassSym 1 Co.toMat) n) ↔
      ∃ j : ℤ, 1 ≤ j ∧ (n = j ^ 3 ∨ n = 4 * j ^ 3 ∨ n = 16 * j ^ 3)) ∧
    ∀ H H', H ∈ SymmetricHNFs (ClassSym 1 Co.toMat) n →
      H' ∈ SymmetricHNFs (ClassSym 1 Co.toMat) n → H = H' := by
  rw [reduced_1] at hCo
  cases hCo
  have e (H : IntMat) : H ∈ SymmetricHNFs (ClassSym 1 (canonC 1).toMat) n ↔ H ∈ fcc_1 id n := by
    rw [sym_1, fcc_1_mem]; simp [ops_fcc_1, IMat.toMat]
  simp only [e]
  refine ⟨⟨?_, ?_⟩, fun H H' => fcc_1_unique⟩
  · rintro ⟨H, hH⟩
    obtain ⟨a, ha, h⟩ := fcc_1_forms.1 hH
    exact ⟨a, ha, by tauto⟩
  · rintro ⟨j, hj, h | h | h⟩
    · exact ⟨_, fcc_1_forms.2 ⟨j, hj, .inl ⟨h, rfl⟩⟩⟩
    · exact ⟨_, fcc_1_forms.2 ⟨j, hj, .inr (.inl ⟨h, rfl⟩)⟩⟩
    · exact ⟨_, fcc_1_forms.2 ⟨j, hj, .inr (.inr ⟨h, rfl⟩)⟩⟩

example : reducedCanonical ℚ 1 = .ok (canonC 1) := reduced_1

/-- C51: for every class number but the triclinic ones, the canonical basis `niggli_id` returns is
reduced without error (by a matrix of determinant 1), and `niggli_id` itself identifies it as that
class.  The table has 42 entries; this is about all of them. -/
theorem canonical_bases (k : ℕ) (hk : 1 ≤ k ∧ k ≤ 44 ∧ k ≠ 31 ∧ k ≠ 44) :
    ∃ (B : RMat ℚ) (C : IMat), canonBasis k = some B ∧ reducedCell B none = .ok C ∧
      C.toMat.det = 1 ∧ niggliId B none = .ok k := by
  have key : ∀ k ∈ List.range 45, (1 ≤ k ∧ k ≠ 31 ∧ k ≠ 44) →
      (match (canonBasis k : Option (RMat ℚ)) with
      | none => false
      | some B => decide (reducedCell B none = .ok (canonC k)) &&
          decide ((canonC k).toMat.det = 1) && decide (niggliId B none = .ok k)) = true := by
    decide +kernel
  have h := key k (by rw [List.mem_range]; omega) ⟨hk.1, hk.2.2.1, hk.2.2.2⟩
  cases hB : (canonBasis k : Option (RMat ℚ)) with
  | none => rw [hB] at h; simp at h
  | some B =>
    rw [hB] at h
    simp only [Bool.and_eq_true, decide_eq_true_eq] at h
    exact ⟨B, canonC k, rfl, h.1.1, h.1.2, h.2⟩

/-- C52: `smallest_prime(a)` is the least prime factor of `a`. -/
theorem smallestPrime_correct (a : ℕ) (ha : 2 ≤ a) : smallestPrime a = some (a.minFac : ℤ) := by
  unfold smallestPrime
  by_cases h2 : (a : ℤ) ≤ 2
  · have : a = 2 := by omega
    subst this
    norm_num
  · rw [if_neg h2]
    have hp : 2 ≤ a.minFac := (Nat.minFac_prime (by omega)).two_le
    have hle : a.minFac ≤ a := Nat.minFac_le (by omega)
    have hsplit : pyRange 2 (a + 1) = pyRange 2 (a.minFac : ℤ) ++
        (a.minFac : ℤ) :: pyRange (a.minFac + 1) (a + 1) := by
      unfold pyRange
      have e1 : ((a : ℤ) + 1 - 2).toNat = (a.minFac - 2) + (1 + (a - a.minFac)) := by omega
      have e2 : ((a.minFac : ℤ) - 2).toNat = a.minFac - 2 := by omega
      have e3 : ((a : ℤ) + 1 - (a.minFac + 1)).toNat = a - a.minFac := by omega
      rw [e1, e2, e3, List.range_add, List.map_append, List.map_map, Nat.add_comm 1,
        List.range_succ_eq_map]
      congr 1
      simp only [List.map_cons, List.map_map, Function.comp_def, Nat.add_zero]
      congr 1
      · omega
      · refine List.map_congr_left ?_
        intro x _
        push_cast
        omega
    rw [hsplit, List.find?_append, List.find?_cons_of_pos, List.find?_eq_none.2, Option.none_or]
    · intro p hp' h
      rw [mem_pyRange] at hp'
      simp only [decide_eq_true_eq] at h
      have : a.minFac ≤ p.toNat := by
        refine Nat.minFac_le_of_dvd (by omega) ?_
        have : p ∣ (a : ℤ) := Int.dvd_of_emod_eq_zero h
        rw [← Int.toNat_of_nonneg (show 0 ≤ p by omega)] at this
        exact_mod_cast this
      omega
    · simp only [decide_eq_true_eq]
      exact Int.emod_eq_zero_of_dvd (by exact_mod_cast Nat.minFac_dvd a)

example : smallestPrime 91 = some 7 := by decide

end AutoGR
