import Verif.Lemmas.FortranDens
import Verif.Lemmas.PyArith
import Verif.Props.Volumes
import Mathlib.NumberTheory.Padics.PadicVal.Basic
import Mathlib.Data.Nat.Prime.Basic
import Mathlib.Tactic.NormNum.Prime

/-!
# C68, C69: the k-point densities the Fortran program tries

`get_kpd_cubic` and `get_kpd_tric` of `find_kgrids.f90`.  `root` is the value of
`int(real(kpd,dp)**(1.0_dp/3.0_dp))`: the integer part of the cube root, or one less.
-/

namespace AutoGR.Fortran

open Spec

/-- The volumes `m*j^3` are all different. -/
private theorem mult_cube_inj (k : ℕ) {m m' j j' : ℤ} (hm : m ∈ mults k) (hm' : m' ∈ mults k)
    (hj : 1 ≤ j) (hj' : 1 ≤ j') (h : m * j ^ 3 = m' * j' ^ 3) : m = m' ∧ j = j' := by
  obtain ⟨a, rfl⟩ := Int.eq_ofNat_of_zero_le (show 0 ≤ j by omega)
  obtain ⟨b, rfl⟩ := Int.eq_ofNat_of_zero_le (show 0 ≤ j' by omega)
  have ha : a ≠ 0 := by omega
  have hb : b ≠ 0 := by omega
  have : Fact (Nat.Prime 2) := ⟨Nat.prime_two⟩
  have key : ∀ p q : ℕ, 2 ^ p * a ^ 3 = 2 ^ q * b ^ 3 → p % 3 = q % 3 := by
    intro p q hpq
    have := congrArg (padicValNat 2) hpq
    rw [padicValNat.mul (by positivity) (by positivity), padicValNat.mul (by positivity) (by positivity),
      padicValNat.prime_pow, padicValNat.prime_pow, padicValNat.pow, padicValNat.pow] at this
    omega
  have fin : m = m' → m = m' ∧ ((a : ℕ) : ℤ) = (b : ℕ) := by
    rintro rfl
    refine ⟨rfl, ?_⟩
    have hm0 : m ≠ 0 := by
      unfold mults at hm
      split_ifs at hm <;> simp only [List.mem_cons, List.not_mem_nil, or_false] at hm <;> omega
    have := mul_left_cancel₀ hm0 h
    have h3 : a ^ 3 = b ^ 3 := by exact_mod_cast this
    have : a = b := Nat.pow_left_injective (n := 3) (by norm_num) h3
    rw [this]
  apply fin
  unfold mults at hm hm'
  split_ifs at hm hm' <;> simp only [List.mem_cons, List.not_mem_nil, or_false] at hm hm' <;>
    rcases hm with rfl | rfl | rfl <;> rcases hm' with rfl | rfl | rfl <;> first
      | rfl
      | (exfalso
         first
          | (have := key 0 1 (by exact_mod_cast (by linarith)); omega)
          | (have := key 1 0 (by exact_mod_cast (by linarith)); omega)
          | (have := key 0 2 (by exact_mod_cast (by linarith)); omega)
          | (have := key 2 0 (by exact_mod_cast (by linarith)); omega)
          | (have := key 0 4 (by exact_mod_cast (by linarith)); omega)
          | (have := key 4 0 (by exact_mod_cast (by linarith)); omega))

/-- All values computed by the loops of `get_kpd_cubic` that are not below the density. -/
def tried (k : ℕ) (root kpd : ℤ) : List ℤ :=
  ((pyRange (root / 16 - 1) (root / 16 - 1 + 100)).flatMap fun n => (mults k).map (· * n ^ 3)).filter
    fun x => decide (kpd ≤ x)

theorem mults_pos (k : ℕ) : ∀ m ∈ mults k, 1 ≤ m ∧ m ≤ 16 := by
  unfold mults
  split_ifs <;> simp

theorem mem_tried {k : ℕ} {root kpd v : ℤ} (h1 : 1 ≤ kpd) : v ∈ tried k root kpd ↔
    kpd ≤ v ∧ ∃ m ∈ mults k, ∃ j : ℤ, 1 ≤ j ∧ root / 16 - 1 ≤ j ∧ j < root / 16 + 99 ∧ v = m * j ^ 3 := by
  unfold tried
  rw [List.mem_filter]
  simp only [List.mem_flatMap, mem_pyRange, List.mem_map, decide_eq_true_eq]
  constructor
  · rintro ⟨⟨j, ⟨a, b⟩, m, hm, rfl⟩, hk⟩
    refine ⟨hk, m, hm, j, ?_, a, by omega, rfl⟩
    by_contra hj
    have h3 : j ^ 3 ≤ 0 := by
      have : j ≤ 0 := by omega
      nlinarith [sq_nonneg j, mul_nonneg_of_nonpos_of_nonpos this this]
    have := (mults_pos k m hm).1
    nlinarith
  · rintro ⟨hk, m, hm, j, hj, a, b, rfl⟩
    exact ⟨⟨j, ⟨a, by omega⟩, m, hm, rfl⟩, hk⟩

private theorem tried_nodup (k : ℕ) (root kpd : ℤ) (h1 : 1 ≤ kpd) : (tried k root kpd).Nodup := by
  unfold tried
  rw [List.filter_flatMap]
  have pos : ∀ {m n : ℤ}, m ∈ mults k → kpd ≤ m * n ^ 3 → 1 ≤ n := by
    intro m n hm hk
    by_contra hj
    have h3 : n ^ 3 ≤ 0 := by
      have : n ≤ 0 := by omega
      nlinarith [sq_nonneg n, mul_nonneg_of_nonpos_of_nonpos this this]
    have := (mults_pos k m hm).1
    nlinarith
  refine List.nodup_flatMap.2 ⟨fun n _ => ?_, ?_⟩
  · by_cases hn : 1 ≤ n
    · refine List.Nodup.filter _ ((List.nodup_map_iff_inj_on ?_).2 ?_)
      · unfold mults
        split_ifs <;> decide
      · intro x hx y hy hxy
        exact (mult_cube_inj k hx hy hn hn hxy).1
    · rw [List.filter_eq_nil_iff.2]
      · exact List.nodup_nil
      · intro v hv hk
        obtain ⟨m, hm, rfl⟩ := List.mem_map.1 hv
        exact hn (pos hm (by simpa using hk))
  · refine (nodup_pyRange _ _).imp fun {a b} hab => ?_
    intro v hv hv'
    obtain ⟨hv, hk⟩ := List.mem_filter.1 hv
    obtain ⟨hv', -⟩ := List.mem_filter.1 hv'
    obtain ⟨m, hm, rfl⟩ := List.mem_map.1 hv
    obtain ⟨m', hm', he⟩ := List.mem_map.1 hv'
    simp only [decide_eq_true_eq] at hk
    exact hab (mult_cube_inj k hm hm' (pos hm hk) (pos hm' (he ▸ hk)) he.symm).2

theorem get_kpd_cubic_tried (k : ℕ) (root kpd : ℤ) (h1 : 1 ≤ kpd) (hr : 0 ≤ root) :
    ∃ l, TenSmallest (tried k root kpd) l ∧ get_kpd_cubic k root kpd = padded l := by
  obtain ⟨l, hl, hf⟩ := foldl_addDensity h1
    ((pyRange (root / 16 - 1) (root / 16 - 1 + 100)).flatMap fun n => (mults k).map (· * n ^ 3)) [] []
    ⟨by simp, ⟨[], by simp, by simp⟩, rfl⟩
  refine ⟨l, by simpa [tried] using hl, ?_⟩
  unfold get_kpd_cubic
  rw [Int.tdiv_eq_ediv_of_nonneg hr]
  have := congrArg Dens.densities hf
  simpa [padded, mults] using this

/-- Ten volumes below the first cube that is not reached. -/
private theorem ten_below (k : ℕ) (kpd root : ℤ) (h1 : 1 ≤ kpd)
    (hk : kpd ≤ if k = 1 then 1000188 else 1030301)
    (hroot : root ^ 3 ≤ kpd ∧ kpd < (root + 2) ^ 3) (hr : 0 ≤ root) :
    ∃ W : List ℤ, W.length = 10 ∧ W.Nodup ∧ (∀ x ∈ W, x ∈ tried k root kpd) ∧
      ∀ x ∈ W, x < (root / 16 + 99) ^ 3 := by
  obtain ⟨hr1, hr2⟩ := hroot
  have hroot101 : root ≤ 101 := by
    by_contra h
    have : (102 : ℤ) ^ 3 ≤ root ^ 3 := pow_le_pow_left₀ (by norm_num) (by omega) 3
    split_ifs at hk <;> omega
  by_cases hsmall : root ≤ 92
  · -- ten cubes
    refine ⟨(List.range 10).map fun (i : ℕ) => (root + 2 + (i : ℤ)) ^ 3, by simp, ?_, ?_, ?_⟩
    · refine (List.nodup_map_iff_inj_on List.nodup_range).2 fun x _ y _ hxy => ?_
      have : root + 2 + (x : ℤ) = root + 2 + y :=
        (pow_left_inj₀ (by omega) (by omega) (by norm_num)).1 hxy
      omega
    · intro x hx
      obtain ⟨i, hi, rfl⟩ := List.mem_map.1 hx
      rw [List.mem_range] at hi
      have hle : (root + 2) ^ 3 ≤ (root + 2 + (i : ℤ)) ^ 3 := pow_le_pow_left₀ (by omega) (by omega) 3
      refine (mem_tried h1).2 ⟨by omega, 1, ?_, root + 2 + i, by omega, by omega, by omega, by ring⟩
      unfold mults
      split_ifs <;> simp
    · intro x hx
      obtain ⟨i, hi, rfl⟩ := List.mem_map.1 hx
      rw [List.mem_range] at hi
      exact pow_lt_pow_left₀ (by omega) (by omega) (by norm_num)
  · -- written out
    have build : ∀ P : List (ℤ × ℤ), (P.map fun p => p.1 * p.2 ^ 3).length = 10 →
        (P.map fun p => p.1 * p.2 ^ 3).Nodup →
        (∀ p ∈ P, p.1 ∈ mults k ∧ 5 ≤ p.2 ∧ p.2 < root / 16 + 99 ∧ kpd ≤ p.1 * p.2 ^ 3 ∧
          p.1 * p.2 ^ 3 < (root / 16 + 99) ^ 3) →
        ∃ W : List ℤ, W.length = 10 ∧ W.Nodup ∧ (∀ x ∈ W, x ∈ tried k root kpd) ∧
          ∀ x ∈ W, x < (root / 16 + 99) ^ 3 := by
      intro P hl hn hP
      refine ⟨_, hl, hn, ?_, ?_⟩
      · intro x hx
        obtain ⟨p, hp, rfl⟩ := List.mem_map.1 hx
        obtain ⟨a, b, c, d, -⟩ := hP p hp
        exact (mem_tried h1).2 ⟨d, p.1, a, p.2, by omega, by omega, c, rfl⟩
      · intro x hx
        obtain ⟨p, hp, rfl⟩ := List.mem_map.1 hx
        exact (hP p hp).2.2.2.2
    by_cases h95 : root ≤ 95
    · have hd : root / 16 = 5 := by omega
      have hk' : kpd < 912673 := by
        have : (root + 2) ^ 3 ≤ (97 : ℤ) ^ 3 := pow_le_pow_left₀ (by omega) (by omega) 3
        omega
      rw [hd] at build ⊢
      by_cases h : k = 1
      · refine build [(1, 97), (1, 98), (1, 99), (1, 100), (4, 63), (16, 40), (1, 101), (4, 64), (1, 102),
          (1, 103)] (by decide) (by decide +kernel) ?_
        simp [mults, h]
        omega
      · refine build [(1, 97), (1, 98), (1, 99), (1, 100), (4, 63), (2, 80), (1, 101), (4, 64), (1, 102),
          (1, 103)] (by decide) (by decide +kernel) ?_
        simp [mults, h]
        omega
    · have hd : root / 16 = 6 := by omega
      rw [hd] at build ⊢
      by_cases h : k = 1
      · rw [if_pos h] at hk
        refine build [(4, 63), (16, 40), (1, 101), (4, 64), (1, 102), (1, 103), (4, 65), (16, 41), (1, 104),
          (4, 66)] (by decide) (by decide +kernel) ?_
        simp [mults, h]
        omega
      · rw [if_neg h] at hk
        refine build [(1, 101), (4, 64), (1, 102), (2, 81), (1, 103), (4, 65), (2, 82), (1, 104), (2, 83),
          (4, 66)] (by decide) (by decide +kernel) ?_
        simp [mults, h]
        omega

private theorem root_nonneg {kpd root : ℤ} (h1 : 1 ≤ kpd) (h2 : kpd < (root + 2) ^ 3) : 0 ≤ root := by
  by_contra h
  have : (root + 2) ^ 3 ≤ 1 ^ 3 := by
    by_cases h' : 0 ≤ root + 2
    · exact pow_le_pow_left₀ h' (by omega) 3
    · have : (root + 2) ^ 3 ≤ 0 := by
        have h0 : root + 2 ≤ 0 := by omega
        nlinarith [mul_nonneg_of_nonpos_of_nonpos h0 h0]
      omega
  omega

/-- The smallest values tried are right if there are as many values below the first cube that is not reached. -/
private theorem smallest_tried (k : ℕ) (hk : k ∈ [1, 3, 5]) (kpd root : ℤ) (h1 : 1 ≤ kpd) (hr1 : root ^ 3 ≤ kpd)
    (hr : 0 ≤ root) (Co : IMat) (hCo : reducedCanonical ℚ k = .ok Co) {l R W : List ℤ} (hs : l.Pairwise (· ≤ ·))
    (hR : (l ++ R).Perm (tried k root kpd)) (hRle : ∀ u ∈ l, ∀ x ∈ R, u ≤ x) (hlen : W.length = l.length) (hWn : W.Nodup)
    (hWt : ∀ x ∈ W, x ∈ tried k root kpd) (hWlt : ∀ x ∈ W, x < (root / 16 + 99) ^ 3) :
    l.Pairwise (· < ·) ∧ (∀ v ∈ l, kpd ≤ v ∧ ∃ H, H ∈ SymmetricHNFs (ClassSym k Co.toMat) v) ∧
      ∀ v, kpd ≤ v → (∃ H, H ∈ SymmetricHNFs (ClassSym k Co.toMat) v) → v ∈ l ∨ ∀ u ∈ l, u < v := by
  have hnod : (l ++ R).Nodup := hR.nodup_iff.2 (tried_nodup k root kpd h1)
  have hmemT : ∀ v ∈ l, v ∈ tried k root kpd := fun v hv => hR.mem_iff.1 (List.mem_append_left _ hv)
  have hbelow : ∀ u ∈ l, u < (root / 16 + 99) ^ 3 := by
    intro u hu
    by_contra hge
    have hsub : ∀ x ∈ u :: W, x ∈ l := by
      intro x hx
      rcases List.mem_cons.1 hx with rfl | hx
      · exact hu
      · rcases List.mem_append.1 (hR.mem_iff.2 (hWt x hx)) with h | h
        · exact h
        · have := hRle u hu x h
          have := hWlt x hx
          omega
    have hun : (u :: W).Nodup := by
      refine List.nodup_cons.2 ⟨fun h => ?_, hWn⟩
      have := hWlt u h
      omega
    have := (List.subperm_of_subset hun hsub).length_le
    rw [List.length_cons, hlen] at this
    omega
  refine ⟨?_, ?_, ?_⟩
  · have h2 : l.Pairwise (· ≠ ·) := (List.nodup_append.1 hnod).1
    exact (hs.and h2).imp fun h => lt_of_le_of_ne h.1 h.2
  · intro v hv
    obtain ⟨a, m, hm, j, hj, -, -, rfl⟩ := (mem_tried h1).1 (hmemT v hv)
    exact ⟨a, (admissible_iff k hk Co hCo _).2 ⟨m, hm, j, hj, rfl⟩⟩
  · intro v hv hadm
    obtain ⟨m, hm, j, hj, rfl⟩ := (admissible_iff k hk Co hCo v).1 hadm
    have hm16 := mults_pos k m hm
    by_cases hlow : root / 16 - 1 ≤ j
    · by_cases hhigh : j < root / 16 + 99
      · have hin : m * j ^ 3 ∈ tried k root kpd := (mem_tried h1).2 ⟨hv, m, hm, j, hj, hlow, hhigh, rfl⟩
        rcases List.mem_append.1 (hR.mem_iff.2 hin) with h | h
        · exact .inl h
        · refine .inr fun u hu => lt_of_le_of_ne (hRle u hu _ h) ?_
          rintro rfl
          exact (List.nodup_append.1 hnod).2.2 _ hu _ h rfl
      · refine .inr fun u hu => ?_
        have h1 := hbelow u hu
        have h2 : (root / 16 + 99) ^ 3 ≤ j ^ 3 := pow_le_pow_left₀ (by omega) (by omega) 3
        have h3 : 0 ≤ j ^ 3 := by positivity
        nlinarith
    · exfalso
      have h2 : (16 * (j + 2)) ^ 3 ≤ root ^ 3 := pow_le_pow_left₀ (by omega) (by omega) 3
      have h3 : 0 < j ^ 3 := by positivity
      have h4 : 16 * j ^ 3 < (16 * (j + 2)) ^ 3 := by
        have : j ^ 3 ≤ (j + 2) ^ 3 := pow_le_pow_left₀ (by omega) (by omega) 3
        nlinarith
      nlinarith

/-- C68: up to density 1000188 (face centred) or 1030301 (simple and body centred), the densities
tried for a cubic lattice are the ten smallest ones, not below the requested density, that have a symmetric
supercell, in increasing order.

Missing: larger densities, where it fails, see `get_kpd_cubic_false`. -/
theorem get_kpd_cubic_partial (k : ℕ) (hk : k ∈ [1, 3, 5]) (kpd root : ℤ) (h1 : 1 ≤ kpd)
    (hkpd : kpd ≤ if k = 1 then 1000188 else 1030301)
    (hroot : root ^ 3 ≤ kpd ∧ kpd < (root + 2) ^ 3) (Co : IMat)
    (hCo : reducedCanonical ℚ k = .ok Co) :
    (get_kpd_cubic k root kpd).length = 10 ∧
      (get_kpd_cubic k root kpd).Pairwise (· < ·) ∧
      (∀ v ∈ get_kpd_cubic k root kpd, kpd ≤ v ∧ ∃ H, H ∈ SymmetricHNFs (ClassSym k Co.toMat) v) ∧
      ∀ v, kpd ≤ v → (∃ H, H ∈ SymmetricHNFs (ClassSym k Co.toMat) v) →
        v ∈ get_kpd_cubic k root kpd ∨ ∀ u ∈ get_kpd_cubic k root kpd, u < v := by
  have hr := root_nonneg h1 hroot.2
  obtain ⟨l, hl, he⟩ := get_kpd_cubic_tried k root kpd h1 hr
  obtain ⟨W, hW, hWn, hWt, hWlt⟩ := ten_below k kpd root h1 hkpd hroot hr
  obtain ⟨R, hR, hRle⟩ := hl.rest
  have hTlen : 10 ≤ (tried k root kpd).length := by
    rw [← hW]
    exact (List.subperm_of_subset hWn hWt).length_le
  have hlen : l.length = 10 := by rw [hl.len]; omega
  have hpad : padded l = l := by simp [padded, hlen]
  rw [he, hpad]
  exact ⟨hlen, smallest_tried k hk kpd root h1 hroot.1 hr Co hCo hl.sorted hR hRle (by omega) hWn hWt hWlt⟩

/-- If five values are tried at least, the first five entries are the five smallest of them. -/
private theorem five_smallest {k : ℕ} {kpd root : ℤ} (h1 : 1 ≤ kpd) (hr : 0 ≤ root) (h5 : 5 ≤ (tried k root kpd).length) :
    ∃ l R, (get_kpd_cubic k root kpd).take 5 = l ∧ l.length = 5 ∧ l.Pairwise (· ≤ ·) ∧ (l ++ R).Perm (tried k root kpd) ∧
      ∀ u ∈ l, ∀ x ∈ R, u ≤ x := by
  obtain ⟨l, hl, he⟩ := get_kpd_cubic_tried k root kpd h1 hr
  obtain ⟨R, hR, hRle⟩ := hl.rest
  have hlen : 5 ≤ l.length := by rw [hl.len]; omega
  refine ⟨l.take 5, l.drop 5 ++ R, ?_, by simp [hlen], hl.sorted.sublist (List.take_sublist _ _), ?_, ?_⟩
  · rw [he, padded, List.take_append_of_le_length hlen]
  · rw [← List.append_assoc, List.take_append_drop]
    exact hR
  · intro u hu x hx
    rcases List.mem_append.1 hx with hx | hx
    · have := hl.sorted
      rw [← List.take_append_drop 5 l] at this
      exact (List.pairwise_append.1 this).2.2 u hu x hx
    · exact hRle u (List.mem_of_mem_take hu) x hx

/-- Five cubes. -/
private theorem five_cubes (k : ℕ) (kpd root : ℤ) (h1 : 1 ≤ kpd) (hr2 : kpd < (root + 2) ^ 3) (hr : 0 ≤ root)
    (hsmall : root ≤ 98) : ∃ W : List ℤ, W.length = 5 ∧ W.Nodup ∧ (∀ x ∈ W, x ∈ tried k root kpd) ∧
      ∀ x ∈ W, x < (root / 16 + 99) ^ 3 := by
  refine ⟨(List.range 5).map fun (i : ℕ) => (root + 2 + (i : ℤ)) ^ 3, by simp, ?_, ?_, ?_⟩
  · refine (List.nodup_map_iff_inj_on List.nodup_range).2 fun x _ y _ hxy => ?_
    have : root + 2 + (x : ℤ) = root + 2 + y :=
      (pow_left_inj₀ (by omega) (by omega) (by norm_num)).1 hxy
    omega
  · intro x hx
    obtain ⟨i, hi, rfl⟩ := List.mem_map.1 hx
    rw [List.mem_range] at hi
    have hle : (root + 2) ^ 3 ≤ (root + 2 + (i : ℤ)) ^ 3 := pow_le_pow_left₀ (by omega) (by omega) 3
    refine (mem_tried h1).2 ⟨by omega, 1, ?_, root + 2 + i, by omega, by omega, by omega, by ring⟩
    unfold mults
    split_ifs <;> simp
  · intro x hx
    obtain ⟨i, hi, rfl⟩ := List.mem_map.1 hx
    rw [List.mem_range] at hi
    exact pow_lt_pow_left₀ (by omega) (by omega) (by norm_num)

/-- Of the densities tried the first five, which are the ones `find_grid` looks at, are right a little longer: up to 1092727
(face centred) or 1098500 (simple and body centred). -/
theorem get_kpd_cubic_five_partial (k : ℕ) (hk : k ∈ [1, 3, 5]) (kpd root : ℤ) (h1 : 1 ≤ kpd)
    (hkpd : kpd ≤ if k = 1 then 1092727 else 1098500)
    (hroot : root ^ 3 ≤ kpd ∧ kpd < (root + 2) ^ 3) (Co : IMat)
    (hCo : reducedCanonical ℚ k = .ok Co) :
    ((get_kpd_cubic k root kpd).take 5).length = 5 ∧
      ((get_kpd_cubic k root kpd).take 5).Pairwise (· < ·) ∧
      (∀ v ∈ (get_kpd_cubic k root kpd).take 5, kpd ≤ v ∧ ∃ H, H ∈ SymmetricHNFs (ClassSym k Co.toMat) v) ∧
      ∀ v, kpd ≤ v → (∃ H, H ∈ SymmetricHNFs (ClassSym k Co.toMat) v) →
        v ∈ (get_kpd_cubic k root kpd).take 5 ∨ ∀ u ∈ (get_kpd_cubic k root kpd).take 5, u < v := by
  have hr := root_nonneg h1 hroot.2
  obtain ⟨W, hW, hWn, hWt, hWlt⟩ : ∃ W : List ℤ, W.length = 5 ∧ W.Nodup ∧ (∀ x ∈ W, x ∈ tried k root kpd) ∧
      ∀ x ∈ W, x < (root / 16 + 99) ^ 3 := by
    by_cases hsmall : root ≤ 98
    · exact five_cubes k kpd root h1 hroot.2 hr hsmall
    · have h103 : root ≤ 103 := by
        by_contra h
        have : (104 : ℤ) ^ 3 ≤ root ^ 3 := pow_le_pow_left₀ (by norm_num) (by omega) 3
        split_ifs at hkpd <;> omega
      have hd : root / 16 = 6 := by omega
      have build : ∀ P : List (ℤ × ℤ), (P.map fun p => p.1 * p.2 ^ 3).length = 5 →
          (P.map fun p => p.1 * p.2 ^ 3).Nodup →
          (∀ p ∈ P, p.1 ∈ mults k ∧ 5 ≤ p.2 ∧ p.2 < 6 + 99 ∧ kpd ≤ p.1 * p.2 ^ 3 ∧ p.1 * p.2 ^ 3 < (6 + 99) ^ 3) →
          ∃ W : List ℤ, W.length = 5 ∧ W.Nodup ∧ (∀ x ∈ W, x ∈ tried k root kpd) ∧ ∀ x ∈ W, x < (6 + 99) ^ 3 := by
        intro P hl hn hP
        refine ⟨_, hl, hn, ?_, ?_⟩
        · intro x hx
          obtain ⟨p, hp, rfl⟩ := List.mem_map.1 hx
          obtain ⟨a, b, c, d, -⟩ := hP p hp
          exact (mem_tried h1).2 ⟨d, p.1, a, p.2, by omega, by omega, by omega, rfl⟩
        · intro x hx
          obtain ⟨p, hp, rfl⟩ := List.mem_map.1 hx
          exact (hP p hp).2.2.2.2
      rw [hd]
      by_cases h : k = 1
      · rw [if_pos h] at hkpd
        refine build [(1, 103), (4, 65), (16, 41), (1, 104), (4, 66)] (by decide) (by decide +kernel) ?_
        simp [mults, h]
        omega
      · rw [if_neg h] at hkpd
        refine build [(4, 65), (2, 82), (1, 104), (2, 83), (4, 66)] (by decide) (by decide +kernel) ?_
        simp [mults, h]
        omega
  have hTlen : 5 ≤ (tried k root kpd).length := by
    rw [← hW]
    exact (List.subperm_of_subset hWn hWt).length_le
  obtain ⟨l, R, he, hlen, hs, hR, hRle⟩ := five_smallest h1 hr hTlen
  rw [he]
  exact ⟨hlen, smallest_tried k hk kpd root h1 hroot.1 hr Co hCo hs hR hRle (by omega) hWn hWt hWlt⟩

/-- The largest number of points for which five densities are tried: the cubic branch of `find_grid` needs five. -/
def cubicLimit (k : ℕ) : ℤ := if k = 1 then 21882096 else 4499456

private theorem cube_le {a b : ℤ} (hb : 0 ≤ b) (h : a ^ 3 ≤ b ^ 3) : a ≤ b := by
  by_contra hc
  exact absurd (pow_lt_pow_left₀ (not_le.1 hc) hb (by norm_num : (3 : ℕ) ≠ 0)) (not_lt.2 h)

/-- If `f (k - 1)³ < m³` and `c³` is at least `125 f`, then `f (k + 4)³` is at most `(m + c)³`. -/
private theorem five_steps {f c k m : ℤ} (hf : 0 < f) (hc : 0 ≤ c) (hcf : 125 * f ≤ c ^ 3) (hm : 0 ≤ m) (hk : 1 ≤ k)
    (h : f * (k - 1) ^ 3 < m ^ 3) : f * (k + 4) ^ 3 ≤ (m + c) ^ 3 := by
  obtain ⟨g, hg0, hg⟩ : ∃ g : ℝ, 0 ≤ g ∧ g ^ 3 = f :=
    ⟨(f : ℝ) ^ ((3 : ℕ) : ℝ)⁻¹, by positivity, Real.rpow_inv_natCast_pow (by exact_mod_cast hf.le) (by norm_num)⟩
  have root : ∀ {a b : ℝ}, 0 ≤ b → a ^ 3 ≤ b ^ 3 → a ≤ b := fun hb h => by
    by_contra hc
    exact absurd (pow_lt_pow_left₀ (not_le.1 hc) hb (by norm_num : (3 : ℕ) ≠ 0)) (not_lt.2 h)
  have h1 : g * (k - 1) ≤ m := by
    refine root (by exact_mod_cast hm) ?_
    rw [mul_pow, hg]
    exact_mod_cast h.le
  have h2 : 5 * g ≤ c := by
    refine root (by exact_mod_cast hc) ?_
    rw [mul_pow, hg]
    norm_num
    exact_mod_cast hcf
  have h3 : (g * (k + 4)) ^ 3 ≤ (m + c : ℝ) ^ 3 := by
    have : (1 : ℝ) ≤ k := by exact_mod_cast hk
    exact pow_le_pow_left₀ (by positivity) (by linarith) 3
  rw [mul_pow, hg] at h3
  exact_mod_cast h3

/-- Up to the limit the first five densities tried have symmetric supercells, are not below the requested one and not far above
it. -/
theorem get_kpd_cubic_enough (k : ℕ) (hk : k ∈ [1, 3, 5]) (kpd root : ℤ) (h1 : 1 ≤ kpd) (hkpd : kpd ≤ cubicLimit k)
    (hroot : root ^ 3 ≤ kpd ∧ kpd < (root + 2) ^ 3) (Co : IMat) (hCo : reducedCanonical ℚ k = .ok Co) :
    ((get_kpd_cubic k root kpd).take 5).length = 5 ∧
      ∀ v ∈ (get_kpd_cubic k root kpd).take 5, kpd ≤ v ∧ (∃ H, H ∈ SymmetricHNFs (ClassSym k Co.toMat) v) ∧
        ∀ m, 0 ≤ m → kpd ≤ m ^ 3 → v ≤ (m + if k = 1 then 13 else 8) ^ 3 := by
  have hr := root_nonneg h1 hroot.2
  obtain ⟨W, hW, hWn, hWt, hWle⟩ : ∃ W : List ℤ, W.length = 5 ∧ W.Nodup ∧ (∀ x ∈ W, x ∈ tried k root kpd) ∧
      ∀ x ∈ W, ∀ m, 0 ≤ m → kpd ≤ m ^ 3 → x ≤ (m + if k = 1 then 13 else 8) ^ 3 := by
    by_cases hsmall : root ≤ 98
    · refine ⟨(List.range 5).map fun (i : ℕ) => (root + 2 + (i : ℤ)) ^ 3, by simp, ?_, ?_, ?_⟩
      · refine (List.nodup_map_iff_inj_on List.nodup_range).2 fun x _ y _ hxy => ?_
        have : root + 2 + (x : ℤ) = root + 2 + y :=
          (pow_left_inj₀ (by omega) (by omega) (by norm_num)).1 hxy
        omega
      · intro x hx
        obtain ⟨i, hi, rfl⟩ := List.mem_map.1 hx
        rw [List.mem_range] at hi
        have hle : (root + 2) ^ 3 ≤ (root + 2 + (i : ℤ)) ^ 3 := pow_le_pow_left₀ (by omega) (by omega) 3
        refine (mem_tried h1).2 ⟨by omega, 1, ?_, root + 2 + i, by omega, by omega, by omega, by ring⟩
        unfold mults
        split_ifs <;> simp
      · intro x hx m hm hle
        obtain ⟨i, hi, rfl⟩ := List.mem_map.1 hx
        rw [List.mem_range] at hi
        have := cube_le hm (hroot.1.trans hle)
        exact pow_le_pow_left₀ (by omega) (by split_ifs <;> omega) 3
    · obtain ⟨f, hf, hf', hq⟩ : ∃ f ∈ mults k, (125 * f ≤ (if k = 1 then 13 else 8 : ℤ) ^ 3) ∧
          kpd ≤ f * (root / 16 + 94) ^ 3 := by
        have hq : 6 ≤ root / 16 := by omega
        have hup : kpd < (16 * (root / 16) + 17) ^ 3 :=
          lt_of_lt_of_le hroot.2 (pow_le_pow_left₀ (by omega) (by omega) 3)
        have hlo : (16 * (root / 16)) ^ 3 ≤ kpd := le_trans (pow_le_pow_left₀ (by omega) (by omega) 3) hroot.1
        generalize root / 16 = q at *
        unfold cubicLimit at hkpd
        by_cases h : k = 1
        · rw [if_pos h] at hkpd
          refine ⟨16, by simp [mults, h], by simp [h], ?_⟩
          have : q ≤ 17 := by
            by_contra hc
            have : (288 : ℤ) ^ 3 ≤ (16 * q) ^ 3 := pow_le_pow_left₀ (by norm_num) (by omega) 3
            omega
          interval_cases q <;> omega
        · rw [if_neg h] at hkpd
          refine ⟨4, by simp [mults, h], by simp [h], ?_⟩
          have : q ≤ 10 := by
            by_contra hc
            have : (176 : ℤ) ^ 3 ≤ (16 * q) ^ 3 := pow_le_pow_left₀ (by norm_num) (by omega) 3
            omega
          interval_cases q <;> omega
      have hf1 := mults_pos k f hf
      -- the first multiple that is large enough
      obtain ⟨a, ha1, ha2, ha3⟩ : ∃ a : ℤ, 1 ≤ a ∧ kpd ≤ f * a ^ 3 ∧ f * (a - 1) ^ 3 < kpd := by
        have hex : ∃ a : ℕ, kpd ≤ f * (a : ℤ) ^ 3 :=
          ⟨(root / 16 + 94).toNat, by rwa [Int.toNat_of_nonneg (by omega)]⟩
        have h2 := Nat.find_spec hex
        have hpos : 1 ≤ Nat.find hex := by
          by_contra hc
          rw [Nat.lt_one_iff.1 (not_le.1 hc)] at h2
          norm_num at h2
          omega
        refine ⟨Nat.find hex, by exact_mod_cast hpos, h2, ?_⟩
        have := Nat.find_min hex (m := Nat.find hex - 1) (by omega)
        push_cast [Nat.cast_sub hpos] at this
        omega
      have haq : a ≤ root / 16 + 94 := by
        by_contra hc
        have : (root / 16 + 94) ^ 3 ≤ (a - 1) ^ 3 := pow_le_pow_left₀ (by omega) (by omega) 3
        nlinarith
      have hqa : root / 16 ≤ a := by
        by_contra hc
        have h3 : a ^ 3 < (root / 16) ^ 3 := pow_lt_pow_left₀ (by omega) (by omega) (by norm_num)
        have h4 : (16 * (root / 16)) ^ 3 ≤ root ^ 3 := pow_le_pow_left₀ (by omega) (by omega) 3
        rw [mul_pow] at h4
        have h5 : 0 ≤ a ^ 3 := by positivity
        nlinarith
      refine ⟨(List.range 5).map fun (i : ℕ) => f * (a + (i : ℤ)) ^ 3, by simp, ?_, ?_, ?_⟩
      · refine (List.nodup_map_iff_inj_on List.nodup_range).2 fun x _ y _ hxy => ?_
        have := (mult_cube_inj k hf hf (by omega) (by omega) hxy).2
        omega
      · intro x hx
        obtain ⟨i, hi, rfl⟩ := List.mem_map.1 hx
        rw [List.mem_range] at hi
        have hle : a ^ 3 ≤ (a + (i : ℤ)) ^ 3 := pow_le_pow_left₀ (by omega) (by omega) 3
        exact (mem_tried h1).2 ⟨by nlinarith, f, hf, _, by omega, by omega, by omega, rfl⟩
      · intro x hx m hm hle
        obtain ⟨i, hi, rfl⟩ := List.mem_map.1 hx
        rw [List.mem_range] at hi
        have h5 := five_steps (by omega) (by split_ifs <;> omega) hf' hm ha1 (lt_of_lt_of_le ha3 hle)
        have hle : (a + (i : ℤ)) ^ 3 ≤ (a + 4) ^ 3 := pow_le_pow_left₀ (by omega) (by omega) 3
        refine le_trans ?_ h5
        exact mul_le_mul_of_nonneg_left hle (by omega)
  have hTlen : 5 ≤ (tried k root kpd).length := by
    rw [← hW]
    exact (List.subperm_of_subset hWn hWt).length_le
  obtain ⟨l, R, he, hlen, -, hR, hRle⟩ := five_smallest h1 hr hTlen
  rw [he]
  refine ⟨hlen, fun v hv => ?_⟩
  have hbound : ∀ m, 0 ≤ m → kpd ≤ m ^ 3 → v ≤ (m + if k = 1 then 13 else 8) ^ 3 := by
    intro m hm hle
    by_contra hge
    have hsub : ∀ x ∈ v :: W, x ∈ l := by
      intro x hx
      rcases List.mem_cons.1 hx with rfl | hx
      · exact hv
      · rcases List.mem_append.1 (hR.mem_iff.2 (hWt x hx)) with h | h
        · exact h
        · have := hRle v hv x h
          have := hWle x hx m hm hle
          omega
    have hun : (v :: W).Nodup := List.nodup_cons.2 ⟨fun h => hge (hWle v h m hm hle), hWn⟩
    have := (List.subperm_of_subset hun hsub).length_le
    rw [List.length_cons, hW, hlen] at this
    omega
  obtain ⟨a, m, hm, j, hj, -, -, rfl⟩ := (mem_tried h1).1 (hR.mem_iff.1 (List.mem_append_left _ hv))
  exact ⟨a, (admissible_iff k hk Co hCo _).2 ⟨m, hm, j, hj, rfl⟩, hbound⟩

/-- Beyond the limit fewer than five densities are found, and the next one is 0. -/
theorem get_kpd_cubic_short (k : ℕ) (kpd root : ℤ) (hkpd : cubicLimit k < kpd) (hroot : root ^ 3 ≤ kpd) (hr : 0 ≤ root) :
    ∃ l rest, get_kpd_cubic k root kpd = l ++ 0 :: rest ∧ l.length < 5 ∧
      ∀ v ∈ l, kpd ≤ v ∧ v ≤ 700000000 ∧ ∃ m ∈ mults k, ∃ j : ℤ, 1 ≤ j ∧ v = m * j ^ 3 := by
  have h1 : 1 ≤ kpd := by
    unfold cubicLimit at hkpd
    split_ifs at hkpd <;> omega
  have hlo : (16 * (root / 16)) ^ 3 ≤ kpd := le_trans (pow_le_pow_left₀ (by omega) (by omega) 3) hroot
  obtain ⟨hfew, hsmall⟩ : (tried k root kpd).length < 5 ∧ ∀ v ∈ tried k root kpd, v ≤ 700000000 := by
    have key : ∀ V : List ℤ, V.length < 5 ∧ (∀ v ∈ V, v ≤ 700000000) → (∀ v ∈ tried k root kpd, v ∈ V) →
        (tried k root kpd).length < 5 ∧ ∀ v ∈ tried k root kpd, v ≤ 700000000 := fun V hV h =>
      ⟨lt_of_le_of_lt (List.subperm_of_subset (tried_nodup k root kpd h1) h).length_le hV.1, fun v hv => hV.2 v (h v hv)⟩
    have cube : ∀ {j c : ℤ}, 0 ≤ j → j ≤ c → j ^ 3 ≤ c ^ 3 := fun h h' => pow_le_pow_left₀ h h' 3
    unfold cubicLimit at hkpd
    by_cases h : k = 1
    · rw [if_pos h] at hkpd
      have hm : ∀ m ∈ mults k, m = 1 ∨ m = 4 ∨ m = 16 := by simp [mults, h]
      by_cases h17 : root / 16 ≤ 17
      · refine key [16 * 112 ^ 3, 16 * 113 ^ 3, 16 * 114 ^ 3, 16 * 115 ^ 3] (by decide) fun v hv => ?_
        obtain ⟨a, m, hmem, j, hj, -, hj', rfl⟩ := (mem_tried h1).1 hv
        have h115 := cube (by omega) (show j ≤ 115 by omega)
        rcases hm m hmem with rfl | rfl | rfl
        · omega
        · omega
        · have : 112 ≤ j := by
            by_contra hc
            have := cube (by omega) (show j ≤ 111 by omega)
            omega
          have : j ≤ 115 := by omega
          interval_cases j <;> simp
      · by_cases h18 : root / 16 = 18
        · rw [h18] at hlo
          refine key [16 * 115 ^ 3, 16 * 116 ^ 3] (by decide) fun v hv => ?_
          obtain ⟨a, m, hmem, j, hj, -, hj', rfl⟩ := (mem_tried h1).1 hv
          have h116 := cube (by omega) (show j ≤ 116 by omega)
          rcases hm m hmem with rfl | rfl | rfl
          · omega
          · omega
          · have : 115 ≤ j := by
              by_contra hc
              have := cube (by omega) (show j ≤ 114 by omega)
              omega
            have : j ≤ 116 := by omega
            interval_cases j <;> simp
        · refine key [] (by decide) fun v hv => ?_
          obtain ⟨a, m, hmem, j, hj, -, hj', rfl⟩ := (mem_tried h1).1 hv
          have hq : (19 * j) ^ 3 ≤ (117 * (root / 16)) ^ 3 := cube (by omega) (by omega)
          have hj3 : 0 < j ^ 3 := by positivity
          have hq3 : 0 < (root / 16) ^ 3 := pow_pos (by omega) 3
          rw [mul_pow] at hq hlo
          rcases hm m hmem with rfl | rfl | rfl <;> linarith
    · rw [if_neg h] at hkpd
      have hm : ∀ m ∈ mults k, m = 1 ∨ m = 2 ∨ m = 4 := by simp [mults, h]
      by_cases h10 : root / 16 ≤ 10
      · refine key [4 * 105 ^ 3, 4 * 106 ^ 3, 4 * 107 ^ 3, 4 * 108 ^ 3] (by decide) fun v hv => ?_
        obtain ⟨a, m, hmem, j, hj, -, hj', rfl⟩ := (mem_tried h1).1 hv
        have h108 := cube (by omega) (show j ≤ 108 by omega)
        rcases hm m hmem with rfl | rfl | rfl
        · omega
        · omega
        · have : 105 ≤ j := by
            by_contra hc
            have := cube (by omega) (show j ≤ 104 by omega)
            omega
          have : j ≤ 108 := by omega
          interval_cases j <;> simp
      · refine key [] (by decide) fun v hv => ?_
        obtain ⟨a, m, hmem, j, hj, -, hj', rfl⟩ := (mem_tried h1).1 hv
        have hq : (11 * j) ^ 3 ≤ (109 * (root / 16)) ^ 3 := cube (by omega) (by omega)
        have hj3 : 0 < j ^ 3 := by positivity
        have hq3 : 0 < (root / 16) ^ 3 := pow_pos (by omega) 3
        rw [mul_pow] at hq hlo
        rcases hm m hmem with rfl | rfl | rfl <;> linarith
  obtain ⟨l, hl, he⟩ := get_kpd_cubic_tried k root kpd h1 hr
  obtain ⟨R, hR, -⟩ := hl.rest
  have hlen : l.length < 5 := by rw [hl.len]; omega
  refine ⟨l, List.replicate (9 - l.length) 0, ?_, hlen, fun v hv => ?_⟩
  · rw [he, padded, show 10 - l.length = (9 - l.length) + 1 by omega, List.replicate_succ]
  · have hv' := hR.mem_iff.1 (List.mem_append_left _ hv)
    have hb := hsmall v hv'
    obtain ⟨a, m, hm, j, hj, -, -, rfl⟩ := (mem_tried h1).1 hv'
    exact ⟨a, hb, m, hm, j, hj, rfl⟩

/-- C68 is not vacuous: density 1000, where the float cube root is 9.99…, so that `root = 9`. -/
example : get_kpd_cubic 3 9 1000 = [1000, 1024, 1331, 1372, 1458, 1728, 2000, 2048, 2197, 2662] ∧
    reducedCanonical ℚ 3 = .ok (canonC 3) ∧ (1000 : ℤ) ≤ 1030301 ∧ (9 : ℤ) ^ 3 ≤ 1000 ∧ 1000 < (9 + 2 : ℤ) ^ 3 :=
  ⟨by decide +kernel, reduced_3, by norm_num, by norm_num, by norm_num⟩

/-- C68 fails for every larger bound: one above it, the volume `105^3` is skipped and the larger
`1185408 = 16*42^3 = 2*84^3` is listed.  At ten million the list has only zeros for a simple cubic lattice. -/
theorem get_kpd_cubic_false :
    ((100 : ℤ) ^ 3 ≤ 1000189 ∧ (1000189 : ℤ) < (100 + 1) ^ 3 ∧
      1185408 ∈ get_kpd_cubic 1 100 1000189 ∧ 1157625 ∉ get_kpd_cubic 1 100 1000189 ∧
      ∃ H, H ∈ SymmetricHNFs (ClassSym 1 (canonC 1).toMat) 1157625) ∧
    ((101 : ℤ) ^ 3 ≤ 1030302 ∧ (1030302 : ℤ) < (101 + 1) ^ 3 ∧
      1185408 ∈ get_kpd_cubic 3 101 1030302 ∧ 1157625 ∉ get_kpd_cubic 3 101 1030302 ∧
      ∃ H, H ∈ SymmetricHNFs (ClassSym 3 (canonC 3).toMat) 1157625) ∧
    ((215 : ℤ) ^ 3 ≤ 10000000 ∧ (10000000 : ℤ) < (215 + 1) ^ 3 ∧
      get_kpd_cubic 3 215 10000000 = List.replicate 10 0) := by
  refine ⟨⟨by norm_num, by norm_num, by decide +kernel, by decide +kernel,
    (admissible_iff 1 (by simp) _ reduced_1 _).2 ⟨1, by simp [mults], 105, by norm_num, by norm_num⟩⟩,
    ⟨by norm_num, by norm_num, by decide +kernel, by decide +kernel,
    (admissible_iff 3 (by simp) _ reduced_3 _).2 ⟨1, by simp [mults], 105, by norm_num, by norm_num⟩⟩,
    by norm_num, by norm_num, by decide +kernel⟩

/-- The first five densities are wrong one above the bounds of `get_kpd_cubic_five_partial`: `105^3` is skipped. -/
theorem get_kpd_cubic_five_false :
    ((103 : ℤ) ^ 3 ≤ 1092728 ∧ (1092728 : ℤ) < (103 + 1) ^ 3 ∧
      1185408 ∈ (get_kpd_cubic 1 103 1092728).take 5 ∧ 1157625 ∉ (get_kpd_cubic 1 103 1092728).take 5) ∧
    ((103 : ℤ) ^ 3 ≤ 1098501 ∧ (1098501 : ℤ) < (103 + 1) ^ 3 ∧
      1185408 ∈ (get_kpd_cubic 3 103 1098501).take 5 ∧ 1157625 ∉ (get_kpd_cubic 3 103 1098501).take 5) := by
  refine ⟨⟨by norm_num, by norm_num, by decide +kernel, by decide +kernel⟩, by norm_num, by norm_num, by decide +kernel,
    by decide +kernel⟩

private theorem kpdTricLoop_eq (kpd : ℤ) (h1 : 1 ≤ kpd) : ∀ (fuel : ℕ) (t : ℤ), 1 ≤ t → kpd < t + fuel →
    (∀ s, 1 ≤ s → s < t → 100 < kpd / s ^ 3) →
    ∃ m, kpdTricLoop kpd fuel t = some (kpd / m ^ 3, m) ∧ 1 ≤ m ∧ kpd / m ^ 3 ≤ 100 ∧
      ∀ s, 1 ≤ s → s < m → 100 < kpd / s ^ 3 := by
  intro fuel
  induction fuel with
  | zero =>
    intro t ht hf hs
    exfalso
    have h := hs kpd h1 (by simpa using hf)
    have : kpd / kpd ^ 3 ≤ 1 := by
      have h3 : kpd ≤ kpd ^ 3 := le_self_pow₀ h1 (by norm_num)
      have := Int.ediv_le_ediv (c := kpd ^ 3) (by positivity) h3
      rwa [Int.ediv_self (by positivity)] at this
    omega
  | succ fuel ih =>
    intro t ht hf hs
    have hdiv : Int.tdiv kpd (t ^ 3) = kpd / t ^ 3 := Int.tdiv_eq_ediv_of_nonneg (by omega)
    unfold kpdTricLoop
    simp only [hdiv]
    by_cases h : kpd / t ^ 3 ≤ 100
    · exact ⟨t, by rw [if_pos h], ht, h, hs⟩
    · rw [if_neg h]
      refine ih (t + 1) (by omega) (by push_cast at hf; omega) fun s h1 h2 => ?_
      by_cases hst : s < t
      · exact hs s h1 hst
      · rw [show s = t by omega]
        omega

/-- C69: for a triclinic lattice the program takes the least factor `m` with `kpd/m^3 <= 100` in integer
division, and the quotient `n`, which is between 1 and 100; scaling a supercell of volume `n` by `m` gives
`n*m^3` points, at most the requested number and short of it by less than `m^3`.

Missing: at least the requested number, which fails, see `get_kpd_tric_short`. -/
theorem get_kpd_tric_partial (kpd : ℤ) (h1 : 1 ≤ kpd) :
    ∃ n m : ℤ, get_kpd_tric kpd = some (n, m) ∧ 1 ≤ n ∧ n ≤ 100 ∧ 1 ≤ m ∧
      n * m ^ 3 ≤ kpd ∧ kpd < (n + 1) * m ^ 3 ∧
      ∀ s, 1 ≤ s → s < m → 100 < kpd / s ^ 3 := by
  obtain ⟨m, he, hm, h100, hmin⟩ := kpdTricLoop_eq kpd h1 (kpd.toNat + 1) 1 le_rfl (by omega)
    (fun s a b => by omega)
  have hm3 : 0 < m ^ 3 := by positivity
  refine ⟨kpd / m ^ 3, m, he, ?_, h100, hm, ?_, ?_, hmin⟩
  · rw [Int.le_ediv_iff_mul_le hm3, one_mul]
    by_contra hlt
    have hm2 : 2 ≤ m := by
      by_contra h
      have : m = 1 := by omega
      subst this
      omega
    have h := hmin (m - 1) (by omega) (by omega)
    have hp : 0 < (m - 1) ^ 3 := by
      have : 0 < m - 1 := by omega
      positivity
    have h' : 101 * (m - 1) ^ 3 ≤ kpd := (Int.le_ediv_iff_mul_le hp).1 h
    have h8 : m ^ 3 ≤ 8 * (m - 1) ^ 3 := by
      have : m ^ 3 ≤ (2 * (m - 1)) ^ 3 := pow_le_pow_left₀ (by omega) (by omega) 3
      linarith [show (2 * (m - 1)) ^ 3 = 8 * (m - 1) ^ 3 by ring]
    omega
  · exact Int.ediv_mul_le _ hm3.ne'
  · exact Int.lt_ediv_add_one_mul_self _ hm3

/-- C69, the second part fails: 801 points are requested, the program scales the supercells of volume 100
by 2, which gives 800. -/
theorem get_kpd_tric_short : get_kpd_tric 801 = some (100, 2) ∧ (100 : ℤ) * 2 ^ 3 < 801 := by
  decide +kernel

/-- The two programs differ there: the Python function, which divides exactly, scales the supercells of
volume 29 by 3. -/
theorem get_kpd_tric_ne_python : get_kpd_tric 801 = some (100, 2) ∧
    findVolumes id 9 44 801 = .ok ([29], some 3) := by
  refine ⟨by decide +kernel, ?_⟩
  decide +kernel

end AutoGR.Fortran
