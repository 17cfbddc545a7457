import Verif.Lemmas.GridComplete
import Verif.Props.FortranStops

/-!
# C104: no symmetric grid is missed

Every commensurate grid with all point symmetries of the crystal lattice is the grid of exactly one of the supercells
that the generators list.
-/

namespace AutoGR.Fortran

open Spec Matrix

variable {equal : ℚ → ℚ → ℚ → Bool} {U : RMat ℚ} {eps rho : ℚ} {r : IdCell}

/-- C104, for `find_supercells` of the Python package: in exact mode the grids reciprocal to the supercells that it
returns are all the symmetric grids with `n` points, each once. -/
theorem findSupercells_grids (fl : ℚ → ℚ) (root : ℤ) (U : RMat ℚ) (hU : U.toMatrix.det ≠ 0) (k : ℕ) (Cu : IMat)
    (hk : niggliId U none = .ok k) (hCu : reducedCell U none = .ok Cu) (n : ℤ) (hn : 1 ≤ n)
    (hfl : Rounding fl n (10 ^ 7))
    (red : NiggliReduced (gram U Cu 0 0 : ℚ) (gram U Cu 1 1 : ℚ) (gram U Cu 2 2 : ℚ) (gram U Cu 1 2 : ℚ)
      (gram U Cu 0 2 : ℚ) (gram U Cu 0 1 : ℚ))
    (sep : ClassSeparated (1 / 100000) (1 / 100000) (gram U Cu 0 0) (gram U Cu 1 1) (gram U Cu 2 2)
      (gram U Cu 1 2) (gram U Cu 0 2) (gram U Cu 0 1)) :
    ∃ Bs : List (Matrix (Fin 3) (Fin 3) ℚ), findSupercells fl root U n true = .ok Bs ∧
      ListsGrids (realCell U) n (Bs.map fun B => ((realMat B)ᵀ)⁻¹) := by
  obtain ⟨Ms, h1, h2⟩ := findSupercells_pointSym fl root U k Cu hk hCu n hn hfl red sep
  refine ⟨_, h1, ?_⟩
  have hUr : (realCell U).det ≠ 0 := by
    change (realMat U.toMatrix).det ≠ 0
    rw [realMat_det]
    exact_mod_cast hU
  have := listsGrids hUr hn h2
  rw [List.map_map]
  convert this using 2
  funext M
  change ((realMat (U.toMatrix * castMat M))ᵀ)⁻¹ = _
  rw [realMat_mul, realMat_castMat]
  rfl

/-- The grids of a complete list of the symmetric Hermite normal forms. -/
theorem gridsOf_lists (h : Recognised equal U eps rho r) {n : ℤ} (hn : 1 ≤ n) {L : List IntMat}
    (hL : L.Nodup ∧ ∀ H : IntMat, H ∈ L ↔ H ∈ SymmetricHNFs (ClassSym r.id r.Co.toMat) n) :
    ListsGrids (realCell U) n (L.map fun H => realMat (gridOf U r H)) := by
  obtain ⟨p1, p2⟩ := h.parts
  have hCu : r.Cu.toMat.det = 1 := (reduceCell_same_lattice equal U (some eps) _ p1).1
  have hCo : r.Co.toMat.det = 1 := (reduceCell_same_lattice equal _ (some eps) _ p2).1
  have ho : r.Co.toMat * r.Co.toMat⁻¹ = 1 := mul_nonsing_inv _ (by rw [hCo]; exact isUnit_one)
  have hu : r.Cu.toMat * r.Cu.toMat⁻¹ = 1 := mul_nonsing_inv _ (by rw [hCu]; exact isUnit_one)
  have hu' := mul_eq_one_comm.1 hu
  have hQP : (r.Co.toMat * r.Cu.toMat⁻¹) * (r.Cu.toMat * r.Co.toMat⁻¹) = 1 := by
    calc (r.Co.toMat * r.Cu.toMat⁻¹) * (r.Cu.toMat * r.Co.toMat⁻¹)
        = r.Co.toMat * (r.Cu.toMat⁻¹ * r.Cu.toMat) * r.Co.toMat⁻¹ := by simp only [Matrix.mul_assoc]
      _ = 1 := by rw [hu', Matrix.mul_one, ho]
  have hC : (r.Co.toMat * r.Cu.toMat⁻¹) * r.Cu.toMat = r.Co.toMat := by
    rw [Matrix.mul_assoc, hu', Matrix.mul_one]
  have hl := lists_change hQP (mul_eq_one_comm.1 hQP) hC hn hL
  rw [← pointSym_eq_classSym h.niggliCell h.isClass] at hl
  have := listsGrids h.real_det hn hl
  rw [List.map_map] at this
  convert this using 1
  refine List.map_congr_left fun H hH => ?_
  have hd : H.det ≠ 0 := by
    have := ((hL.2 H).1 hH).2.1
    omega
  have e := gridOf_real h H hd 1
  rw [castMat_one, Matrix.mul_one, toReal_one, Matrix.mul_one] at e
  exact e

/-- C104, for the lattices that are neither cubic nor triclinic: the grids that `find_grid` makes for the number `n` of
points are all the symmetric grids with `n` points, each once. -/
theorem grids_general (h : Recognised equal U eps rho r) (hid : r.id ∉ [1, 3, 5, 31, 44]) (w : ℤ → ℤ) {n : ℤ} (hn : 1 ≤ n)
    (hf : IntsFit w n) :
    ∃ gen, generatorOf w r.id = some gen ∧ ListsGrids (realCell U) n ((gen n).map fun H => realMat (gridOf U r H)) := by
  obtain ⟨k1, k2⟩ := h.id_range
  have hk' : r.id ∉ [31, 44] := fun hm => hid (by simp at hm ⊢; omega)
  obtain ⟨gen, hgen, good⟩ := generatorOf_good w r.id k1 k2 hid (reduced_canonC r.id k1 k2 hk')
  have hl := good.lists n hf
  rw [← h.classSym hk'] at hl
  exact ⟨gen, hgen, gridsOf_lists h hn hl⟩

/-- C104, for the cubic lattices. -/
theorem grids_cubic (h : Recognised equal U eps rho r) (hid : r.id ∈ [1, 3, 5]) (w : ℤ → ℤ) {n : ℤ} (hn : 1 ≤ n)
    (hf : IntsFit w n) :
    ListsGrids (realCell U) n
      (((if r.id = 3 then sc_3 else if r.id = 5 then bcc_5 w else fcc_1) n).map fun H => realMat (gridOf U r H)) := by
  obtain ⟨k1, k2⟩ := h.id_range
  have hk' : r.id ∉ [31, 44] := fun hm => by simp at hm hid; omega
  have hcl := h.classSym hk'
  have hred := reduced_canonC r.id k1 k2 hk'
  refine gridsOf_lists h hn ?_
  rw [hcl]
  simp only [List.mem_cons, List.not_mem_nil, or_false] at hid
  rcases hid with e | e | e <;> rw [e] at hred ⊢
  · exact fcc_1_correct n _ hred
  · exact sc_3_correct n _ hred
  · exact bcc_5_correct n hf _ hred

/-- C104, for the triclinic lattices: the generator lists all grids of `n` points. -/
theorem grids_tric (h : Recognised equal U eps rho r) (hid : r.id ∈ [31, 44]) {n : ℤ} (hn : 1 ≤ n) :
    ListsGrids (realCell U) n ((tric_31_44 n).map fun H => realMat (gridOf U r H)) := by
  have hCo : r.Co.toMat.det = 1 := (reduceCell_same_lattice equal _ (some eps) _ h.parts.2).1
  obtain ⟨t1, -, t2⟩ := AutoGR.tric_31_44_correct r.id hid n r.Co.toMat (.inl hCo)
  refine gridsOf_lists h hn ?_
  rw [tric_31_44_eq]
  exact ⟨t1, t2⟩

/-! ## The hypotheses are met -/

/-- C104 for the Python package and a base centred orthorhombic lattice, whose cell is not reduced. -/
example : ∃ Bs : List (Matrix (Fin 3) (Fin 3) ℚ), findSupercells roundNearest 2 orthoCell 6 true = .ok Bs ∧
    ListsGrids (realCell orthoCell) 6 (Bs.map fun B => ((realMat B)ᵀ)⁻¹) := by
  have hg := orthoCell_gram
  rw [cellMetric_metric] at hg
  simp only [Prod.mk.injEq] at hg
  obtain ⟨h1, h2, h3, h4, h5, h6⟩ := hg
  refine findSupercells_grids roundNearest 2 orthoCell (by rw [← rdet_eq]; decide +kernel) 40 _ (by decide +kernel)
    orthoCell_reduced 6 (by norm_num) (.inr ⟨roundNearest_binary64, by norm_num⟩) ?_ ?_
  · rw [h1, h2, h3, h4, h5, h6]
    constructor <;> norm_num [TypeI, TypeII]
  · rw [h1, h2, h3, h4, h5, h6]
    constructor <;> decide +kernel

/-- C104 for the Fortran program and the same lattice, with integers of 32 bits. -/
example : ∃ gen, generatorOf wrap32 40 = some gen ∧ (gen 4).length = 9 ∧ ListsGrids (realCell orthoCell) 4 ((gen 4).map fun H =>
    realMat (gridOf orthoCell ⟨⟨-1, 0, -3, 0, -1, 0, 0, 0, 1⟩, ⟨1, 0, 0, 0, 1, 0, 0, 0, 1⟩, 40, some 15⟩ H)) := by
  obtain ⟨gen, h1, h2⟩ := grids_general orthoCell_recognised (by decide) wrap32 (n := 4) (by norm_num)
    (.inr ⟨wrap32_int32, by norm_num⟩)
  refine ⟨gen, h1, ?_, h2⟩
  cases h1
  decide +kernel

/-- C104 for a cubic lattice: there is one symmetric grid of 8 points. -/
example : ∃ K, ListsGrids (realCell (⟨1, 1, 0, 0, 1, 0, 0, 0, 1⟩ : RMat ℚ)) 8 [K] := by
  have h := grids_cubic cubicCell_recognised (by decide) id (n := 8) (by norm_num) (.inl rfl)
  have e : (if (3 : ℕ) = 3 then sc_3 else if (3 : ℕ) = 5 then bcc_5 id else fcc_1) 8 = [hnf 2 0 2 0 0 2] := by decide +kernel
  exact ⟨_, by rw [e] at h; exact h⟩

/-- C104 for a triclinic lattice: there are seven grids of 2 points. -/
example : ∃ Ks, Ks.length = 7 ∧ ListsGrids (realCell (⟨3, -1, -1, 0, 4, -1, 0, 0, 5⟩ : RMat ℚ)) 2 Ks :=
  ⟨_, by rw [List.length_map]; decide +kernel, grids_tric tricCell_recognised (by decide) (by norm_num)⟩

end AutoGR.Fortran
