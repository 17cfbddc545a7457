import Verif.Lemmas.Volumes
import Verif.Lemmas.Tric
import Verif.Props.Basics

/-!
# C33-C36: the volumes `find_volumes` tries

`root` stands for `floor(kpd**(1.0/3.0))`.  The float result is the integer part of the cube root or,
at perfect cubes, possibly one less; the theorems hold for every `root` with
`root^3 <= kpd < (root+2)^3`, which covers both.
-/

namespace AutoGR

open Spec

private theorem cubic_core {ms : List ℤ} (hms : ms.Nodup) (hpos : ∀ m ∈ ms, 0 < m)
    (hu : ∀ m ∈ ms, ∀ m' ∈ ms, ∀ j j' : ℤ, 1 ≤ j → 1 ≤ j' → m * j ^ 3 = m' * j' ^ 3 → j = j')
    {kpd root : ℤ} (hk : 1 ≤ kpd) {p q r : ℤ}
    (hp : p ∈ cubicLoop ms kpd (kpd + 1000) (root - 1))
    (hq : q ∈ cubicLoop ms kpd (kpd + 1000) (root - 1))
    (hr : r ∈ cubicLoop ms kpd (kpd + 1000) (root - 1)) (hpq : p ≠ q) (hpr : p ≠ r) (hqr : q ≠ r) :
    ∃ x y z, ((cubicLoop ms kpd (kpd + 1000) (root - 1)).insertionSort (· ≤ ·)).take 3 = [x, y, z] ∧
      kpd ≤ x ∧ x < y ∧ y < z ∧ (∀ v ∈ [x, y, z], ∃ m ∈ ms, ∃ j : ℤ, 1 ≤ j ∧ v = m * j ^ 3) ∧
      ∀ m ∈ ms, ∀ j : ℤ, root - 1 ≤ j → j ^ 3 < kpd + 1000 → kpd ≤ m * j ^ 3 →
        m * j ^ 3 ∈ [x, y, z] ∨ z < m * j ^ 3 := by
  obtain ⟨x, y, z, h, hxy, hyz, hx, hy, hz, hall⟩ :=
    take_three (nodup_cubicLoop hms hk hu hpos _) hp hq hr hpq hpr hqr
  have form : ∀ v ∈ cubicLoop ms kpd (kpd + 1000) (root - 1),
      ∃ m ∈ ms, ∃ j : ℤ, 1 ≤ j ∧ v = m * j ^ 3 := by
    intro v hv
    obtain ⟨j, m, -, -, hm, rfl, h⟩ := (mem_cubicLoop _ _).1 hv
    refine ⟨m, hm, j, ?_, rfl⟩
    by_contra hj
    have h1 : j ^ 3 ≤ 0 := Odd.pow_nonpos (by decide) (by omega)
    have := hpos m hm
    nlinarith
  refine ⟨x, y, z, h, ?_, hxy, hyz, ?_, ?_⟩
  · obtain ⟨_, _, _, _, _, _, h⟩ := (mem_cubicLoop _ _).1 hx
    exact h
  · intro v hv
    simp only [List.mem_cons, List.not_mem_nil, or_false] at hv
    rcases hv with rfl | rfl | rfl
    exacts [form _ hx, form _ hy, form _ hz]
  · intro m hm j h1 h2 h3
    have := hall (m * j ^ 3) ((mem_cubicLoop _ _).2 ⟨j, m, h1, h2, hm, rfl, h3⟩)
    simp only [List.mem_cons, List.not_mem_nil, or_false]
    tauto

/-- The multipliers `m` for which class `k` admits the volumes `m*j^3`. -/
def mults (k : ℕ) : List ℤ := if k = 1 then [1, 4, 16] else [1, 2, 4]

theorem findVolumes_cubic_core (fl : ℚ → ℚ) (k : ℕ) (hk : k ∈ [1, 3, 5]) (kpd root : ℤ)
    (h1 : 1 ≤ kpd) (hroot : root ^ 3 ≤ kpd ∧ kpd < (root + 2) ^ 3) :
    ∃ x y z, findVolumes fl root k kpd = .ok ([x, y, z], none) ∧ kpd ≤ x ∧ x < y ∧ y < z ∧
      (∀ v ∈ [x, y, z], ∃ m ∈ mults k, ∃ j : ℤ, 1 ≤ j ∧ v = m * j ^ 3) ∧
      ∀ m ∈ mults k, ∀ j : ℤ, root - 1 ≤ j → j ^ 3 < kpd + 1000 → kpd ≤ m * j ^ 3 →
        m * j ^ 3 ∈ [x, y, z] ∨ z < m * j ^ 3 := by
  obtain ⟨hr1, hr2⟩ := hroot
  have hsmall : root < 8 → kpd < 1000 ∧ root - 1 ≤ 10 := by
    intro h
    have h0 : -1 ≤ root := by
      by_contra hc
      have : (root + 2) ^ 3 ≤ 0 := Odd.pow_nonpos (by decide) (by omega)
      omega
    have : (root + 2) ^ 3 ≤ 9 ^ 3 := pow_le_pow_left₀ (by omega) (by omega) 3
    omega
  have hbig : 8 ≤ root → kpd ≤ 2 * root ^ 3 ∧ kpd ≤ 4 * (root - 1) ^ 3 ∧ (root - 1) ^ 3 < root ^ 3 ∧
      0 < (root - 1) ^ 3 := by
    intro h
    obtain ⟨s, rfl⟩ : ∃ s, root = s + 8 := ⟨root - 8, by ring⟩
    have hs : 0 ≤ s := by omega
    have h2 : 0 ≤ s ^ 2 := by positivity
    have h3 : 0 ≤ s ^ 3 := by positivity
    refine ⟨by nlinarith, by nlinarith, by nlinarith, by nlinarith⟩
  simp only [List.mem_cons, List.not_mem_nil, or_false] at hk
  by_cases hk1 : k = 1
  · subst hk1
    simp only [findVolumes, mults]
    norm_num
    have mem : ∀ m ∈ [(1 : ℤ), 4, 16], ∀ j : ℤ, root - 1 ≤ j → j ^ 3 < kpd + 1000 → kpd ≤ m * j ^ 3 →
        m * j ^ 3 ∈ cubicLoop [1, 4, 16] kpd (kpd + 1000) (root - 1) :=
      fun m hm j a b c => (mem_cubicLoop _ _).2 ⟨j, m, a, b, hm, rfl, c⟩
    have core := @cubic_core [1, 4, 16] (by decide) (by decide) fcc_volume_unique kpd root h1
    by_cases hr : root < 8
    · obtain ⟨hs, hs2⟩ := hsmall hr
      simpa using core (mem 1 (by simp) 10 hs2 (by omega) (by omega))
        (mem 4 (by simp) 10 hs2 (by omega) (by omega))
        (mem 16 (by simp) 10 hs2 (by omega) (by omega)) (by norm_num) (by norm_num) (by norm_num)
    · obtain ⟨b1, b2, b3, b4⟩ := hbig (by omega)
      simpa using core (mem 4 (by simp) (root - 1) (by omega) (by omega) (by omega))
        (mem 4 (by simp) root (by omega) (by omega) (by omega))
        (mem 16 (by simp) (root) (by omega) (by omega) (by omega)) (by omega) (by omega) (by omega)
  · have hk35 : k = 3 ∨ k = 5 := by tauto
    simp only [findVolumes, mults, if_pos hk35, if_neg hk1]
    have mem : ∀ m ∈ [(1 : ℤ), 2, 4], ∀ j : ℤ, root - 1 ≤ j → j ^ 3 < kpd + 1000 → kpd ≤ m * j ^ 3 →
        m * j ^ 3 ∈ cubicLoop [1, 2, 4] kpd (kpd + 1000) (root - 1) :=
      fun m hm j a b c => (mem_cubicLoop _ _).2 ⟨j, m, a, b, hm, rfl, c⟩
    have core := @cubic_core [1, 2, 4] (by decide) (by decide) sc_volume_unique kpd root h1
    by_cases hr : root < 8
    · obtain ⟨hs, hs2⟩ := hsmall hr
      simpa using core (mem 1 (by simp) 10 hs2 (by omega) (by omega))
        (mem 2 (by simp) 10 hs2 (by omega) (by omega))
        (mem 4 (by simp) 10 hs2 (by omega) (by omega)) (by norm_num) (by norm_num) (by norm_num)
    · obtain ⟨b1, b2, b3, b4⟩ := hbig (by omega)
      simpa using core (mem 4 (by simp) (root - 1) (by omega) (by omega) (by omega))
        (mem 2 (by simp) root (by omega) (by omega) (by omega))
        (mem 4 (by simp) (root) (by omega) (by omega) (by omega))
        (by
          intro h
          have := sc_volume_unique 4 (by simp) 2 (by simp) (root - 1) root (by omega) (by omega) h
          omega) (by omega) (by omega)

theorem admissible_iff (k : ℕ) (hk : k ∈ [1, 3, 5]) (Co : IMat)
    (hCo : reducedCanonical ℚ k = .ok Co) (v : ℤ) :
    (∃ H, H ∈ SymmetricHNFs (ClassSym k Co.toMat) v) ↔
      ∃ m ∈ mults k, ∃ j : ℤ, 1 ≤ j ∧ v = m * j ^ 3 := by
  simp only [List.mem_cons, List.not_mem_nil, or_false] at hk
  by_cases hk1 : k = 1
  · subst hk1
    rw [(cubic_volumes_fcc v Co hCo).1]
    simp only [mults, if_pos, List.mem_cons, List.not_mem_nil, or_false]
    constructor
    · rintro ⟨j, hj, h | h | h⟩
      exacts [⟨1, by simp, j, hj, by rw [h]; ring⟩, ⟨4, by simp, j, hj, h⟩, ⟨16, by simp, j, hj, h⟩]
    · rintro ⟨m, rfl | rfl | rfl, j, hj, h⟩
      exacts [⟨j, hj, .inl (by rw [h]; ring)⟩, ⟨j, hj, .inr (.inl h)⟩, ⟨j, hj, .inr (.inr h)⟩]
  · have hk35 : k = 3 ∨ k = 5 := by tauto
    rw [(cubic_volumes_sc_bcc k hk35 v Co hCo).1]
    simp only [mults, if_neg hk1, List.mem_cons, List.not_mem_nil, or_false]
    constructor
    · rintro ⟨j, hj, h | h | h⟩
      exacts [⟨1, by simp, j, hj, by rw [h]; ring⟩, ⟨2, by simp, j, hj, h⟩, ⟨4, by simp, j, hj, h⟩]
    · rintro ⟨m, rfl | rfl | rfl, j, hj, h⟩
      exacts [⟨j, hj, .inl (by rw [h]; ring)⟩, ⟨j, hj, .inr (.inl h)⟩, ⟨j, hj, .inr (.inr h)⟩]

/-- C33: for a cubic lattice `find_volumes` returns three volume factors, strictly increasing, none
below the requested density, and for each of them the lattice has a symmetry preserving supercell. -/
theorem findVolumes_cubic (fl : ℚ → ℚ) (k : ℕ) (hk : k ∈ [1, 3, 5]) (kpd root : ℤ) (h1 : 1 ≤ kpd)
    (hroot : root ^ 3 ≤ kpd ∧ kpd < (root + 2) ^ 3) (Co : IMat)
    (hCo : reducedCanonical ℚ k = .ok Co) :
    ∃ x y z, findVolumes fl root k kpd = .ok ([x, y, z], none) ∧ kpd ≤ x ∧ x < y ∧ y < z ∧
      ∀ v ∈ [x, y, z], ∃ H, H ∈ SymmetricHNFs (ClassSym k Co.toMat) v := by
  obtain ⟨x, y, z, h, a, b, c, d, -⟩ := findVolumes_cubic_core fl k hk kpd root h1 hroot
  exact ⟨x, y, z, h, a, b, c, fun v hv => (admissible_iff k hk Co hCo v).2 (d v hv)⟩

/-- Non-vacuity: density 64, where the float cube root is 3.99…, so that `root = 3`. -/
example : ∃ x y z, findVolumes id 3 5 64 = .ok ([x, y, z], none) ∧ 64 ≤ x ∧ x < y ∧ y < z ∧
    ∀ v ∈ [x, y, z], ∃ H, H ∈ SymmetricHNFs (ClassSym 5 (canonC 5).toMat) v :=
  findVolumes_cubic id 5 (by simp) 64 3 (by norm_num) (by norm_num) _ reduced_5

/-- C34, the part that holds: up to density 215 (simple and body centred) or 63 (face centred), the three
volumes are the three smallest admissible ones that are not below the density.

Missing: all larger densities, where it fails, see `findVolumes_cubic_smallest_false`. -/
theorem findVolumes_cubic_smallest_partial (fl : ℚ → ℚ) (k : ℕ) (hk : k ∈ [1, 3, 5]) (kpd root : ℤ)
    (h1 : 1 ≤ kpd) (hsmall : kpd ≤ if k = 1 then 63 else 215)
    (hroot : root ^ 3 ≤ kpd ∧ kpd < (root + 2) ^ 3) (Co : IMat)
    (hCo : reducedCanonical ℚ k = .ok Co) :
    ∃ x y z, findVolumes fl root k kpd = .ok ([x, y, z], none) ∧ kpd ≤ x ∧ x < y ∧ y < z ∧
      (∀ v ∈ [x, y, z], ∃ H, H ∈ SymmetricHNFs (ClassSym k Co.toMat) v) ∧
      ∀ v, kpd ≤ v → (∃ H, H ∈ SymmetricHNFs (ClassSym k Co.toMat) v) → v ∈ [x, y, z] ∨ z < v := by
  obtain ⟨x, y, z, h, a, b, c, d, e⟩ := findVolumes_cubic_core fl k hk kpd root h1 hroot
  refine ⟨x, y, z, h, a, b, c, fun v hv => (admissible_iff k hk Co hCo v).2 (d v hv), ?_⟩
  intro v hv hadm
  obtain ⟨m, hm, j, hj, rfl⟩ := (admissible_iff k hk Co hCo v).1 hadm
  obtain ⟨hr1, hr2⟩ := hroot
  have hm16 : 1 ≤ m ∧ m ≤ if k = 1 then 16 else 4 := by
    unfold mults at hm
    split_ifs at hm ⊢ <;> simp only [List.mem_cons, List.not_mem_nil, or_false] at hm <;>
      rcases hm with rfl | rfl | rfl <;> norm_num
  by_cases hj1 : root - 1 ≤ j
  · by_cases hj2 : j ^ 3 < kpd + 1000
    · exact e m hm j hj1 hj2 hv
    · -- three volumes in the window are below `kpd + 1000`
      right
      have hv' : kpd + 1000 ≤ m * j ^ 3 := by nlinarith
      have hroot6 : root ≤ 5 := by
        by_contra hc
        have : (6 : ℤ) ^ 3 ≤ root ^ 3 := pow_le_pow_left₀ (by norm_num) (by omega) 3
        split_ifs at hsmall <;> omega
      have hz : z ≤ 500 := by
        by_contra hz
        by_cases hk1 : k = 1
        · rw [if_pos hk1] at hsmall
          simp only [mults, if_pos hk1] at e
          have e1 := e 1 (by simp) 4 (by omega) (by omega) (by omega)
          have e2 := e 1 (by simp) 5 (by omega) (by omega) (by omega)
          have e3 := e 1 (by simp) 6 (by omega) (by omega) (by omega)
          simp only [List.mem_cons, List.not_mem_nil, or_false] at e1 e2 e3
          omega
        · rw [if_neg hk1] at hsmall
          simp only [mults, if_neg hk1] at e
          have e1 := e 1 (by simp) 6 (by omega) (by omega) (by omega)
          have e2 := e 2 (by simp) 5 (by omega) (by omega) (by omega)
          have e3 := e 2 (by simp) 6 (by omega) (by omega) (by omega)
          simp only [List.mem_cons, List.not_mem_nil, or_false] at e1 e2 e3
          omega
      omega
  · exfalso
    have hj3 : j ^ 3 ≤ (root - 2) ^ 3 := pow_le_pow_left₀ (by omega) (by omega) 3
    have hroot6 : root ≤ 5 := by
      by_contra hc
      have : (6 : ℤ) ^ 3 ≤ root ^ 3 := pow_le_pow_left₀ (by norm_num) (by omega) 3
      split_ifs at hsmall <;> omega
    have hroot3 : 3 ≤ root := by omega
    by_cases hk1 : k = 1
    · rw [if_pos hk1] at hsmall hm16
      have : root ≤ 3 := by
        by_contra hc
        have : (4 : ℤ) ^ 3 ≤ root ^ 3 := pow_le_pow_left₀ (by norm_num) (by omega) 3
        omega
      have : root = 3 := by omega
      subst this
      nlinarith
    · rw [if_neg hk1] at hsmall hm16
      interval_cases root <;> nlinarith

/-- Non-vacuity: density 200 of a simple cubic lattice. -/
example : ∃ x y z, findVolumes id 5 3 200 = .ok ([x, y, z], none) ∧ 200 ≤ x ∧ x < y ∧ y < z ∧
      (∀ v ∈ [x, y, z], ∃ H, H ∈ SymmetricHNFs (ClassSym 3 (canonC 3).toMat) v) ∧
      ∀ v, 200 ≤ v → (∃ H, H ∈ SymmetricHNFs (ClassSym 3 (canonC 3).toMat) v) →
        v ∈ [x, y, z] ∨ z < v :=
  findVolumes_cubic_smallest_partial id 3 (by simp) 200 5 (by norm_num) (by norm_num) (by norm_num) _
    reduced_3

/-- C34 fails: at density 217 the volumes tried for a simple cubic lattice are 250, 343 and 432, but
256 = 4·4³ is admissible and closer than 343; likewise at density 65 for a face centred one, where
128 = 16·2³ is passed over for 216. -/
theorem findVolumes_cubic_smallest_false :
    (findVolumes id 6 3 217 = .ok ([250, 343, 432], none) ∧
      ∃ H, H ∈ SymmetricHNFs (ClassSym 3 (canonC 3).toMat) 256) ∧
    (findVolumes id 4 1 65 = .ok ([108, 125, 216], none) ∧
      ∃ H, H ∈ SymmetricHNFs (ClassSym 1 (canonC 1).toMat) 128) := by
  refine ⟨⟨?_, ((cubic_volumes_sc_bcc 3 (.inl rfl) 256 _ reduced_3).1).2 ⟨4, by norm_num⟩⟩,
    ⟨?_, ((cubic_volumes_fcc 128 _ reduced_1).1).2 ⟨2, by norm_num⟩⟩⟩
  · simp [findVolumes, cubicLoop]
  · simp [findVolumes, cubicLoop]

/-- C35: for a triclinic lattice `find_volumes` returns one factor `n` between 1 and 100 and the least
multiplier `m` with `kpd/m^3 <= 100`, and `n` is the integer part of `kpd/m^3`.  In exact arithmetic for every
density, with binary64 rounding for densities up to 10^14. -/
theorem findVolumes_triclinic (fl : ℚ → ℚ) (root : ℤ) (k : ℕ) (hk : k ∈ [31, 44])
    (kpd : ℤ) (h1 : 1 ≤ kpd) (hfl : Rounding fl kpd (10 ^ 14)) :
    ∃ n m : ℤ, findVolumes fl root k kpd = .ok ([n], some m) ∧ 1 ≤ n ∧ n ≤ 100 ∧ 1 ≤ m ∧
      n * m ^ 3 ≤ kpd ∧ kpd < (n + 1) * m ^ 3 ∧ kpd ≤ 100 * m ^ 3 ∧
      ∀ s : ℤ, 1 ≤ s → s < m → 100 * s ^ 3 < kpd := by
  obtain ⟨n, m, h, hm, hn, a, b, c, d⟩ :=
    tricLoop_correct hfl h1 (kpd.toNat + 1) 1 le_rfl (by push_cast; omega) (fun s _ _ => by omega)
  have hk' : ¬ (k = 3 ∨ k = 5) ∧ ¬ k = 1 ∧ (k = 31 ∨ k = 44) := by
    simp only [List.mem_cons, List.not_mem_nil, or_false] at hk
    omega
  refine ⟨n, m, ?_, ?_, hn, hm, a, b, c, d⟩
  · unfold findVolumes
    rw [if_neg hk'.1, if_neg hk'.2.1, if_pos hk'.2.2, h]
  · by_contra hn0
    have hm3 : 0 < m ^ 3 := by positivity
    have hlt : kpd < m ^ 3 := by nlinarith
    rcases eq_or_lt_of_le hm with h | h
    · rw [← h] at hlt
      omega
    · have := d (m - 1) (by omega) (by omega)
      obtain ⟨s, rfl⟩ : ∃ s, m = s + 2 := ⟨m - 2, by ring⟩
      have hs : 0 ≤ s := by omega
      have hs2 : 0 ≤ s ^ 2 := by positivity
      have hs3 : 0 ≤ s ^ 3 := by positivity
      have e : s + 2 - 1 = s + 1 := by ring
      rw [e] at this
      nlinarith

/-- Non-vacuity: density 1110 gives 41·3³. -/
example : ∃ n m : ℤ, findVolumes id 10 44 1110 = .ok ([n], some m) ∧ 1 ≤ n ∧ n ≤ 100 ∧ 1 ≤ m ∧
      n * m ^ 3 ≤ 1110 ∧ 1110 < (n + 1) * m ^ 3 ∧ 1110 ≤ 100 * m ^ 3 ∧
      ∀ s : ℤ, 1 ≤ s → s < m → 100 * s ^ 3 < 1110 :=
  findVolumes_triclinic id 10 44 (by simp) 1110 (by norm_num) (.inl rfl)

/-- C36: for every other lattice type `find_volumes` returns the eleven densities from `kpd` on, in
order, and no multiplier. -/
theorem findVolumes_other (fl : ℚ → ℚ) (root : ℤ) (k : ℕ) (hk : k ∉ [1, 3, 5, 31, 44]) (kpd : ℤ) :
    findVolumes fl root k kpd = .ok ([kpd, kpd + 1, kpd + 2, kpd + 3, kpd + 4, kpd + 5, kpd + 6,
      kpd + 7, kpd + 8, kpd + 9, kpd + 10], none) := by
  simp only [List.mem_cons, List.not_mem_nil, or_false, not_or] at hk
  unfold findVolumes
  rw [if_neg (by tauto), if_neg (by tauto), if_neg (by tauto)]
  unfold pyRange
  rw [show kpd + 11 - kpd = 11 by ring]
  simp [List.range_succ]

example : (12 : ℕ) ∉ [1, 3, 5, 31, 44] := by decide

end AutoGR
