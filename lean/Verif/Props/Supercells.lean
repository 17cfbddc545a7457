import Verif.Lemmas.Supercells

/-!
# C37-C42, C54: what `find_supercells` returns

The user's cell `U` is a matrix of exact rationals with the lattice vectors as columns.  A supercell is
described by an integer matrix `M`: it is `U * M`.  The symmetries of the class, in the user's basis, are
`ClassSym k Cu` where `Cu` is the reduction matrix of the user's cell (`U * Cu` is the Niggli cell).

`fl` is the rounding of the generators: exact, or any binary64 rounding for volumes up to ten
million.  `root` is `floor(kpd**(1.0/3.0))`, possibly one too small.
-/

namespace AutoGR

open Spec Matrix

/-- C54: every sublattice of finite index has exactly one Hermite normal form, so a list of HNFs is a
list of sublattices. -/
theorem hnf_exists_unique (M : IntMat) (hM : M.det ≠ 0) : ∃! H : IntMat, IsHNF H ∧ SameSpan M H := by
  obtain ⟨H, h1, h2⟩ := hnf_exists hM
  exact ⟨H, ⟨h1, h2⟩, fun H' h' => (hnf_unique h1 h'.1 (h2.symm.trans h'.2)).symm⟩

example : (!![2, 1, 0; 3, -1, 5; 0, 7, 1] : IntMat).det ≠ 0 := by decide

/-- C37: whatever `niggli_id` returns, in any arithmetic, is a number from 1 to 44, and
`find_supercells` has a branch for it: the `ValueError` for an unknown lattice type is not raised. -/
theorem niggliId_dispatched {K : Type} [Arith K] (U : RMat K) (eps : Option K) (k : ℕ)
    (hk : niggliId U eps = .ok k) (fl : ℚ → ℚ) (root kpt : ℤ) (exact : Bool) :
    1 ≤ k ∧ k ≤ 44 ∧ selectHNFs fl root k kpt exact ≠ .error .valueError := by
  have hr := niggliId_range hk
  refine ⟨hr.1, hr.2, ?_⟩
  have hfv : findVolumes fl root k kpt ≠ .error .valueError := by
    unfold findVolumes
    split_ifs
    · simp
    · simp
    · split <;> simp
    · simp
  have hcol : ∀ ns mult, collectHNFs fl k exact ns mult ≠ .error .valueError := by
    intro ns mult
    by_cases ht : k ∈ [31, 44]
    · unfold collectHNFs
      split_ifs
      · simp
      · simp
      · simp
      · cases generatorOf fl k <;> cases mult <;> simp
    · by_cases hk' : k ∈ [1, 3, 5]
      · unfold collectHNFs
        simp only [List.mem_cons, List.not_mem_nil, or_false] at hk'
        rcases hk' with rfl | rfl | rfl <;> simp
      · obtain ⟨-, Co, -, -, hCo⟩ := canon_ok hr ht
        obtain ⟨gen, hg, -⟩ := generatorOf_good fl k hr (by
          simp only [List.mem_cons, List.not_mem_nil, or_false] at ht hk' ⊢
          tauto) Co hCo
        unfold collectHNFs
        rw [hg]
        split_ifs <;> simp
  unfold selectHNFs
  split_ifs
  · exact hcol _ _
  · split
    · rename_i e he
      rw [he] at hfv
      simpa using hfv
    · exact hcol _ _

/-- A cell for the non-vacuity examples, not reduced; its lattice is body centred tetragonal. -/
def sampleCell : RMat ℚ := ⟨2, 0, 1, 0, 2, 3, 0, 0, 3⟩

/-- A non-reduced cell of the simple cubic lattice. -/
def cubicCell : RMat ℚ := ⟨1, 3, 0, 0, 1, 2, 0, 0, 1⟩

/-- A triclinic cell. -/
def triclinicCell : RMat ℚ := ⟨5, 1, 2, 0, 5, 3, 0, 0, 7⟩

theorem sampleCell_id : niggliId sampleCell none = .ok 15 := by decide +kernel

theorem cubicCell_id : niggliId cubicCell none = .ok 3 := by decide +kernel

theorem triclinicCell_id : niggliId triclinicCell none = .ok 44 := by decide +kernel

/-- C37 applies to a concrete cell. -/
example : selectHNFs id 2 15 10 false ≠ .error .valueError :=
  (niggliId_dispatched sampleCell none 15 sampleCell_id id 2 10 false).2.2

/-- C38: in exact mode `find_supercells` returns exactly one supercell of volume `n` for each sublattice of
index `n` that keeps all symmetries of the identified class. -/
theorem findSupercells_exact (fl : ℚ → ℚ) (root : ℤ) (U : RMat ℚ) (k : ℕ) (Cu : IMat)
    (hk : niggliId U none = .ok k) (hCu : reducedCell U none = .ok Cu) (n : ℤ) (hn : 1 ≤ n)
    (hfl : Rounding fl n (10 ^ 7)) :
    ∃ Ms : List IntMat,
      findSupercells fl root U n true = .ok (Ms.map fun M => U.toMatrix * castMat M) ∧
      ListsSublattices (ClassSym k Cu.toMat) n Ms := by
  obtain ⟨Co, P, Q, hcb, h1, h2, h3, h4⟩ := findSupercells_eq U k Cu hk hCu
  obtain ⟨L, hL, hl⟩ := select_exact fl root k (niggliId_range hk) n hfl Co hcb
  refine ⟨L.map fun H => P * H * Q, ?_, lists_change h1 h2 h3 hn hl⟩
  rw [h4 fl root n true L hL, List.map_map]
  rfl

/-- C38 applies to a concrete cell, with binary64 rounding. -/
example : ∃ Ms : List IntMat, findSupercells roundNearest 2 sampleCell 16 true =
      .ok (Ms.map fun M => sampleCell.toMatrix * castMat M) ∧
    ListsSublattices (ClassSym 15 (IMat.mk 0 1 0 1 0 1 0 0 (-1)).toMat) 16 Ms :=
  findSupercells_exact roundNearest 2 sampleCell 15 _ sampleCell_id (by decide +kernel) 16 (by norm_num)
    (.inr ⟨roundNearest_binary64, by norm_num⟩)

/-- C39: in search mode, on a lattice that is neither cubic nor triclinic, `find_supercells` returns the
symmetric supercells of the first five volumes among `kpd … kpd+10` that have more than one (of all
such volumes if they are fewer than five), and nothing else. -/
theorem findSupercells_search (fl : ℚ → ℚ) (root : ℤ) (U : RMat ℚ) (k : ℕ) (Cu : IMat)
    (hk : niggliId U none = .ok k) (hCu : reducedCell U none = .ok Cu)
    (hk' : k ∉ [1, 3, 5, 31, 44]) (kpd : ℤ) (h1 : 1 ≤ kpd) (hfl : Rounding fl (kpd + 10) (10 ^ 7)) :
    ∃ gen : ℤ → List IntMat,
      (∀ n, kpd ≤ n → n ≤ kpd + 10 → ListsSublattices (ClassSym k Cu.toMat) n (gen n)) ∧
      findSupercells fl root U kpd false = .ok (
        ((([kpd, kpd + 1, kpd + 2, kpd + 3, kpd + 4, kpd + 5, kpd + 6, kpd + 7, kpd + 8, kpd + 9,
          kpd + 10].filter fun n => 1 < (gen n).length).take 5).flatMap gen).map
          fun M => U.toMatrix * castMat M) := by
  obtain ⟨Co, P, Q, hcb, g1, g2, g3, g4⟩ := findSupercells_eq U k Cu hk hCu
  have ht : k ∉ [31, 44] := by
    simp only [List.mem_cons, List.not_mem_nil, or_false] at hk' ⊢
    tauto
  obtain ⟨gen, hgood, hsel⟩ :=
    select_search fl root k (niggliId_range hk) hk' kpd Co (hcb.canon ht)
  refine ⟨fun n => (gen n).map fun H => P * H * Q, fun n hn hn' => ?_, ?_⟩
  · refine lists_change g1 g2 g3 (by omega) (hgood.lists n (hfl.imp id fun h => ⟨h.1, ?_⟩))
    exact hn'.trans h.2
  · rw [g4 fl root kpd false _ hsel]
    simp only [List.length_map, List.map_flatMap, List.map_map]
    rfl

/-- C39 applies to a concrete cell: class 15 has more than one symmetric supercell of volume 16. -/
example : niggliId sampleCell none = .ok 15 ∧ (15 : ℕ) ∉ [1, 3, 5, 31, 44] ∧
    Rounding roundNearest (12 + 10) (10 ^ 7) ∧ 1 < (body_tet_6_7_15_18 id 16).length :=
  ⟨sampleCell_id, by decide, .inr ⟨roundNearest_binary64, by norm_num⟩,
    body_tet_6_7_15_18_two (t := 2) (by norm_num)⟩

/-- C33 and C38 together: in search mode, on a cubic lattice, `find_supercells` returns the symmetric
supercells of three volumes, none below the requested density, and each of the three has one. -/
theorem findSupercells_cubic (fl : ℚ → ℚ) (root : ℤ) (U : RMat ℚ) (k : ℕ) (Cu : IMat)
    (hk : niggliId U none = .ok k) (hCu : reducedCell U none = .ok Cu)
    (hk' : k ∈ [1, 3, 5]) (kpd : ℤ) (h1 : 1 ≤ kpd)
    (hroot : root ^ 3 ≤ kpd ∧ kpd < (root + 2) ^ 3)
    (hfl : Rounding fl (16 * (kpd + 1000)) (10 ^ 7)) :
    ∃ (x y z : ℤ) (gen : ℤ → List IntMat), kpd ≤ x ∧ x < y ∧ y < z ∧
      (∀ n ∈ [x, y, z], ListsSublattices (ClassSym k Cu.toMat) n (gen n) ∧ gen n ≠ []) ∧
      findSupercells fl root U kpd false = .ok (([x, y, z].flatMap gen).map
        fun M => U.toMatrix * castMat M) := by
  obtain ⟨Co, P, Q, hcb, g1, g2, g3, g4⟩ := findSupercells_eq U k Cu hk hCu
  have ht : k ∉ [31, 44] := by
    simp only [List.mem_cons, List.not_mem_nil, or_false] at hk' ⊢
    omega
  obtain ⟨x, y, z, G, hsel, a, b, c, d, -⟩ :=
    select_cubic fl k hk' kpd root h1 hroot hfl Co (hcb.canon ht)
  refine ⟨x, y, z, fun n => (G n).map fun H => P * H * Q, a, b, c, fun n hn => ⟨?_, ?_⟩, ?_⟩
  · refine lists_change g1 g2 g3 ?_ (d n hn).1
    simp only [List.mem_cons, List.not_mem_nil, or_false] at hn
    omega
  · simpa using (d n hn).2
  · rw [g4 fl root kpd false _ hsel]
    simp only [List.map_flatMap, List.map_map]
    rfl

/-- C35 and C38 together: in search mode, on a triclinic lattice, `find_supercells` returns all
supercells of one volume `n`, scaled by `m` in each direction; `n*m^3` is at most the requested density
and `(n+1)*m^3` is above it. -/
theorem findSupercells_triclinic (fl : ℚ → ℚ) (root : ℤ) (U : RMat ℚ) (k : ℕ) (Cu : IMat)
    (hk : niggliId U none = .ok k) (hCu : reducedCell U none = .ok Cu)
    (hk' : k ∈ [31, 44]) (kpd : ℤ) (h1 : 1 ≤ kpd) (hfl : Rounding fl kpd (10 ^ 14)) :
    ∃ (n m : ℤ) (Ms : List IntMat), 1 ≤ n ∧ n ≤ 100 ∧ 1 ≤ m ∧ n * m ^ 3 ≤ kpd ∧ kpd < (n + 1) * m ^ 3 ∧
      Ms ≠ [] ∧ ListsSublattices (ClassSym k Cu.toMat) n Ms ∧
      (∀ M ∈ Ms, (m • M).det = n * m ^ 3 ∧ ∀ X ∈ ClassSym k Cu.toMat, Keeps X (m • M)) ∧
      findSupercells fl root U kpd false = .ok (Ms.map fun M => U.toMatrix * castMat (m • M)) := by
  obtain ⟨Co, P, Q, hcb, g1, g2, g3, g4⟩ := findSupercells_eq U k Cu hk hCu
  obtain ⟨n, m, hsel, a, b, c, d, e, f⟩ := select_tric fl root k hk' kpd h1 hfl
  obtain ⟨t1, -, t2⟩ := tric_31_44_correct k hk' n Co.toMat (.inl (hcb.tric hk'))
  have hl := lists_change (k := k) g1 g2 g3 a ⟨t1, t2⟩
  refine ⟨n, m, (tric_31_44 n).map fun H => P * H * Q, a, b, c, d, e, by simpa using f, hl, ?_, ?_⟩
  · intro M hM
    obtain ⟨hd, hkeep⟩ := hl.sound M hM
    refine ⟨?_, fun X hX => ?_⟩
    · rw [det_smul, hd]
      simp [mul_comm]
    · obtain ⟨Y, hY⟩ := hkeep X hX
      exact ⟨Y, by rw [Matrix.mul_smul, hY, Matrix.smul_mul]⟩
  · rw [g4 fl root kpd false _ hsel]
    simp only [List.map_map]
    congr 1
    refine List.map_congr_left fun H _ => ?_
    simp only [Function.comp_apply, Matrix.mul_smul, Matrix.smul_mul]

/-- C40: `find_supercells` never returns an empty list in search mode, for any positive density. -/
theorem findSupercells_nonempty (fl : ℚ → ℚ) (root : ℤ) (U : RMat ℚ) (k : ℕ)
    (hk : niggliId U none = .ok k) (kpd : ℤ) (h1 : 1 ≤ kpd)
    (hroot : root ^ 3 ≤ kpd ∧ kpd < (root + 2) ^ 3)
    (hfl : Rounding fl (16 * (kpd + 1000)) (10 ^ 7)) :
    ∃ L, findSupercells fl root U kpd false = .ok L ∧ L ≠ [] := by
  obtain ⟨Cu, hCu⟩ : ∃ Cu, reducedCell U none = .ok Cu := by
    unfold niggliId at hk
    split at hk
    · cases hk
    · exact ⟨_, by assumption⟩
  have weaken {a b : ℤ} (ha : a ≤ 16 * (kpd + 1000)) (hb : (10 : ℤ) ^ 7 ≤ b) : Rounding fl a b :=
    hfl.imp id fun h => ⟨h.1, ha.trans (h.2.trans hb)⟩
  by_cases ht : k ∈ [31, 44]
  · obtain ⟨n, m, Ms, -, -, -, -, -, hne, -, -, h⟩ := findSupercells_triclinic fl root U k Cu hk hCu ht
      kpd h1 (weaken (by omega) (by norm_num))
    exact ⟨_, h, by simpa using hne⟩
  by_cases hc : k ∈ [1, 3, 5]
  · obtain ⟨x, y, z, gen, -, -, -, hg, h⟩ := findSupercells_cubic fl root U k Cu hk hCu hc kpd h1 hroot hfl
    refine ⟨_, h, ?_⟩
    have := (hg x (by simp)).2
    simp [this]
  have hk' : k ∉ [1, 3, 5, 31, 44] := by
    simp only [List.mem_cons, List.not_mem_nil, or_false] at ht hc ⊢
    tauto
  obtain ⟨Co, P, Q, hcb, g1, g2, g3, g4⟩ := findSupercells_eq U k Cu hk hCu
  obtain ⟨gen, hgood, hsel⟩ :=
    select_search fl root k (niggliId_range hk) hk' kpd Co (hcb.canon ht)
  refine ⟨_, g4 fl root kpd false _ hsel, ?_⟩
  -- one of the eleven volumes is a multiple of 8
  obtain ⟨t, ht0, i, hi0, hi, hti⟩ : ∃ t : ℤ, 0 < t ∧ ∃ i : ℤ, 0 ≤ i ∧ i ≤ 10 ∧ 8 * t = kpd + i :=
    ⟨(kpd + 7) / 8, by omega, 8 * ((kpd + 7) / 8) - kpd, by omega, by omega, by omega⟩
  have htwo := hgood.two t ht0 (weaken (by omega) le_rfl)
  rw [hti] at htwo
  intro hnil
  simp only [List.map_eq_nil_iff, List.flatMap_eq_nil_iff] at hnil
  set ns := [kpd, kpd + 1, kpd + 2, kpd + 3, kpd + 4, kpd + 5, kpd + 6, kpd + 7, kpd + 8, kpd + 9,
    kpd + 10] with hns
  have hmem : kpd + i ∈ ns.filter fun n => 1 < (gen n).length := by
    refine List.mem_filter.2 ⟨?_, by simpa using htwo⟩
    simp only [hns, List.mem_cons, List.not_mem_nil, or_false]
    omega
  cases hf : ns.filter fun n => 1 < (gen n).length with
  | nil => rw [hf] at hmem; simp at hmem
  | cons a l =>
    rw [hf] at hnil
    have ha : a ∈ ns.filter fun n => 1 < (gen n).length := by rw [hf]; simp
    have h2 := (List.mem_filter.1 ha).2
    have h3 := hnil a (by simp)
    rw [h3] at h2
    simp at h2

/-- C40 applies to each of the three cells. -/
example : (∃ L, findSupercells roundNearest 2 sampleCell 10 false = .ok L ∧ L ≠ []) ∧
    (∃ L, findSupercells roundNearest 2 cubicCell 10 false = .ok L ∧ L ≠ []) ∧
    ∃ L, findSupercells roundNearest 2 triclinicCell 10 false = .ok L ∧ L ≠ [] :=
  ⟨findSupercells_nonempty _ 2 _ 15 sampleCell_id 10 (by norm_num) (by norm_num)
      (.inr ⟨roundNearest_binary64, by norm_num⟩),
    findSupercells_nonempty _ 2 _ 3 cubicCell_id 10 (by norm_num) (by norm_num)
      (.inr ⟨roundNearest_binary64, by norm_num⟩),
    findSupercells_nonempty _ 2 _ 44 triclinicCell_id 10 (by norm_num) (by norm_num)
      (.inr ⟨roundNearest_binary64, by norm_num⟩)⟩

/-- C41: each matrix `transform_supercells` returns is the user's cell times an integer matrix with
the determinant of the HNF it comes from.  `Co` and `Cu` are the reduction matrices of the canonical cell
`O` and of the user's cell `U`, of determinant 1; any field will do. -/
theorem transformSupercells_integer {K : Type} [Field K] (U O : Matrix (Fin 3) (Fin 3) K)
    (hO : O.det ≠ 0) (Co Cu : IntMat) (hCo : Co.det = 1) (hCu : Cu.det = 1) (L : List IntMat) :
    ∃ Ms : List IntMat,
      transformSupercells L (O * castMat Co) (U * castMat Cu) (castMat Co) (castMat Cu) O =
        Ms.map (fun M => U * castMat M) ∧
      Ms.map det = L.map det := by
  have ho : Co * Co⁻¹ = 1 := mul_nonsing_inv _ (by rw [hCo]; exact isUnit_one)
  have hu : Cu * Cu⁻¹ = 1 := mul_nonsing_inv _ (by rw [hCu]; exact isUnit_one)
  refine ⟨L.map fun H => Cu * Co⁻¹ * H * (Co * Cu⁻¹), ?_, ?_⟩
  · unfold transformSupercells
    rw [List.map_map]
    exact List.map_congr_left fun H _ => transformOne_eq (isUnit_iff_ne_zero.2 hO) ho hu H
  · rw [List.map_map]
    refine List.map_congr_left fun H _ => ?_
    have e1 : Co.det * Co⁻¹.det = 1 := by rw [← det_mul, ho, Matrix.det_one]
    have e2 : Cu.det * Cu⁻¹.det = 1 := by rw [← det_mul, hu, Matrix.det_one]
    simp only [Function.comp_apply, det_mul]
    linear_combination (H.det * Cu.det * Cu⁻¹.det) * e1 + H.det * e2

example : ((!![2, 0, 1; 0, 2, 3; 0, 0, 3] : Matrix (Fin 3) (Fin 3) ℚ).det ≠ 0) ∧
    (!![0, 1, 0; 1, 0, 1; 0, 0, -1] : IntMat).det = 1 := by
  constructor
  · rw [det_fin_three]; simp
  · decide

/-- C42: if each `H` keeps the symmetries of the class in the canonical basis, then the supercells built
from them keep the symmetries of the class in the user's basis; and if the user's lattice is exactly of
that class (its Niggli cell `U * Cu` has a metric of class `k`) these are symmetries of the user's
lattice: they leave its metric `Uᵀ U` unchanged. -/
theorem transformSupercells_symmetric (k : ℕ) (U O : Matrix (Fin 3) (Fin 3) ℝ)
    (hO : O.det ≠ 0) (Co Cu : IntMat) (hCo : Co.det = 1) (hCu : Cu.det = 1) (L : List IntMat)
    (hL : ∀ H ∈ L, ∀ X ∈ ClassSym k Co, Keeps X H) :
    ∃ Ms : List IntMat,
      transformSupercells L (O * castMat Co) (U * castMat Cu) (castMat Co) (castMat Cu) O =
        Ms.map (fun M => U * castMat M) ∧
      (∀ M ∈ Ms, ∀ X ∈ ClassSym k Cu, Keeps X M) ∧
      ∀ A B C D E F : ℝ, NiggliReduced A B C D E F → NiggliClass k A B C D E F →
        (U * toReal Cu)ᵀ * (U * toReal Cu) = metric A B C D E F →
        ∀ X ∈ ClassSym k Cu, (U * toReal X)ᵀ * (U * toReal X) = Uᵀ * U := by
  have ho : Co * Co⁻¹ = 1 := mul_nonsing_inv _ (by rw [hCo]; exact isUnit_one)
  have hu : Cu * Cu⁻¹ = 1 := mul_nonsing_inv _ (by rw [hCu]; exact isUnit_one)
  have ho' := mul_eq_one_comm.1 ho
  have hu' := mul_eq_one_comm.1 hu
  have hQP : (Co * Cu⁻¹) * (Cu * Co⁻¹) = 1 := by
    calc (Co * Cu⁻¹) * (Cu * Co⁻¹) = Co * (Cu⁻¹ * Cu) * Co⁻¹ := by simp only [Matrix.mul_assoc]
      _ = 1 := by rw [hu', Matrix.mul_one, ho]
  have hPQ := mul_eq_one_comm.1 hQP
  have hC : (Co * Cu⁻¹) * Cu = Co := by rw [Matrix.mul_assoc, hu', Matrix.mul_one]
  refine ⟨L.map fun H => Cu * Co⁻¹ * H * (Co * Cu⁻¹), ?_, ?_, ?_⟩
  · unfold transformSupercells
    rw [List.map_map]
    exact List.map_congr_left fun H _ => transformOne_eq (isUnit_iff_ne_zero.2 hO) ho hu H
  · intro M hM X hX
    obtain ⟨H, hH, rfl⟩ := List.mem_map.1 hM
    exact keeps_change hQP hPQ (hL H hH _ (classSym_change hQP hPQ hC hX))
  · intro A B C D E F hN hk hG X hX
    have := hX (Uᵀ * U) A B C D E F hN hk (by
      rw [← hG, transpose_mul]; simp only [Matrix.mul_assoc])
    rw [transpose_mul, ← this]
    simp only [Matrix.mul_assoc]

/-- C42's hypotheses are met by the simple cubic lattice, its list of HNFs of volume 2, and the
canonical cell as the user's cell. -/
example : (∀ H ∈ sc_3 id 2, ∀ X ∈ ClassSym 3 (canonC 3).toMat, Keeps X H) ∧ sc_3 id 2 ≠ [] ∧
    (canonC 3).toMat.det = 1 ∧ NiggliReduced 1 1 1 0 0 0 ∧ NiggliClass 3 1 1 1 0 0 0 := by
  have h := sc_3_correct 2 _ reduced_3
  obtain ⟨H, hH⟩ := ((cubic_volumes_sc_bcc 3 (.inl rfl) 2 _ reduced_3).1).2 ⟨1, by norm_num⟩
  refine ⟨fun H hH => ((h.2 H).1 hH).2.2, List.ne_nil_of_mem ((h.2 H).2 hH), by decide, ?_, ?_⟩
  · constructor <;> norm_num [TypeI, TypeII]
  · norm_num [NiggliClass, TypeII]

end AutoGR
