import Verif.Lemmas.LatticeSym
import Verif.Props.Supercells
import Verif.Props.Classify
import Verif.Props.NiggliTotal
import Verif.Props.FortranId
import Verif.Props.Fortran
import Verif.Model.FortranGrid

/-!
# C77, C78: the symmetries of a lattice are the symmetries of its class

The other chapters speak of the symmetries that all lattices of a class have in common (`ClassSym`).  Here
they are shown to be all the symmetries the user's own lattice has (`PointSym`).
-/

namespace AutoGR

open Spec Matrix

/-! ## C77 -/

theorem pointSym_iff {U : Matrix (Fin 3) (Fin 3) ℝ} (hU : U.det ≠ 0) {X : IntMat} :
    X ∈ PointSym U ↔ (toReal X)ᵀ * (Uᵀ * U) * toReal X = Uᵀ * U := by
  have hu : IsUnit U.det := isUnit_iff_ne_zero.2 hU
  have h1 : U * U⁻¹ = 1 := mul_nonsing_inv U hu
  have h2 : U⁻¹ * U = 1 := nonsing_inv_mul U hu
  have h1t : (U⁻¹)ᵀ * Uᵀ = 1 := by rw [← transpose_mul, h1, transpose_one]
  constructor
  · rintro ⟨R, hR, hX⟩
    calc (toReal X)ᵀ * (Uᵀ * U) * toReal X = (U * toReal X)ᵀ * (U * toReal X) := by
          rw [transpose_mul]; simp only [Matrix.mul_assoc]
      _ = Uᵀ * (Rᵀ * R) * U := by rw [← hX, transpose_mul]; simp only [Matrix.mul_assoc]
      _ = Uᵀ * U := by rw [hR, Matrix.mul_one]
  · intro hX
    refine ⟨U * toReal X * U⁻¹, ?_, ?_⟩
    · calc (U * toReal X * U⁻¹)ᵀ * (U * toReal X * U⁻¹)
          = (U⁻¹)ᵀ * ((toReal X)ᵀ * (Uᵀ * U) * toReal X) * U⁻¹ := by
            simp only [transpose_mul, Matrix.mul_assoc]
        _ = ((U⁻¹)ᵀ * Uᵀ) * (U * U⁻¹) := by rw [hX]; simp only [Matrix.mul_assoc]
        _ = 1 := by rw [h1, h1t, Matrix.one_mul]
    · rw [Matrix.mul_assoc, h2, Matrix.mul_one]

theorem Spec.NiggliCellOf.det_ne {U : Matrix (Fin 3) (Fin 3) ℝ} {Co : IntMat} {A B C D E F : ℝ}
    (h : NiggliCellOf U Co A B C D E F) : U.det ≠ 0 := by
  intro h0
  have h1 := congrArg Matrix.det h.cell
  rw [det_mul, det_transpose, det_mul, h0, zero_mul, zero_mul] at h1
  have := det_metric_pos h.red
  linarith

/-- A point symmetry in the basis `U` is a symmetry of the Niggli cell in its own basis. -/
theorem pointSym_iff_niggli {U : Matrix (Fin 3) (Fin 3) ℝ} {Co : IntMat} {A B C D E F : ℝ}
    (h : NiggliCellOf U Co A B C D E F) {X : IntMat} :
    X ∈ PointSym U ↔
      (toReal (Co⁻¹ * X * Co))ᵀ * metric A B C D E F * toReal (Co⁻¹ * X * Co) = metric A B C D E F := by
  have c1 : Co * Co⁻¹ = 1 := mul_nonsing_inv Co h.unit
  have c1' : toReal Co * toReal Co⁻¹ = 1 := by rw [← toReal_mul, c1, toReal_one]
  have c1t : (toReal Co⁻¹)ᵀ * (toReal Co)ᵀ = 1 := by rw [← transpose_mul, c1', transpose_one]
  rw [pointSym_iff h.det_ne, ← h.cell]
  set P := toReal Co
  set Q := toReal Co⁻¹
  have e : (toReal (Co⁻¹ * X * Co))ᵀ * ((U * P)ᵀ * (U * P)) * toReal (Co⁻¹ * X * Co) =
      Pᵀ * ((toReal X)ᵀ * (Uᵀ * U) * toReal X) * P := by
    rw [toReal_mul, toReal_mul]
    calc (Q * toReal X * P)ᵀ * ((U * P)ᵀ * (U * P)) * (Q * toReal X * P)
        = Pᵀ * (toReal X)ᵀ * (Qᵀ * Pᵀ) * (Uᵀ * U) * (P * Q) * toReal X * P := by
          simp only [transpose_mul, Matrix.mul_assoc]
      _ = _ := by rw [c1', c1t]; simp only [Matrix.mul_assoc, Matrix.mul_one]
  have e2 : (U * P)ᵀ * (U * P) = Pᵀ * (Uᵀ * U) * P := by simp only [transpose_mul, Matrix.mul_assoc]
  rw [e, e2]
  constructor
  · intro hX
    rw [hX]
  · intro hX
    have h' := congrArg (fun Y => Qᵀ * Y * Q) hX
    calc (toReal X)ᵀ * (Uᵀ * U) * toReal X
        = (Qᵀ * Pᵀ) * ((toReal X)ᵀ * (Uᵀ * U) * toReal X) * (P * Q) := by
          rw [c1', c1t, Matrix.one_mul, Matrix.mul_one]
      _ = Qᵀ * (Pᵀ * ((toReal X)ᵀ * (Uᵀ * U) * toReal X) * P) * Q := by simp only [Matrix.mul_assoc]
      _ = Qᵀ * (Pᵀ * (Uᵀ * U) * P) * Q := h'
      _ = (Qᵀ * Pᵀ) * (Uᵀ * U) * (P * Q) := by simp only [Matrix.mul_assoc]
      _ = Uᵀ * U := by rw [c1', c1t, Matrix.one_mul, Matrix.mul_one]

/-- C77: for every lattice, the operations common to all lattices of its Niggli class are all the point
symmetries of the lattice itself.  No lattice has a symmetry that its class does not have. -/
theorem pointSym_eq_classSym {U : Matrix (Fin 3) (Fin 3) ℝ} {Co : IntMat} {A B C D E F : ℝ}
    (h : NiggliCellOf U Co A B C D E F) {k : ℕ} (hk : IsClass k A B C D E F) :
    PointSym U = ClassSym k Co := by
  have c1 : Co * Co⁻¹ = 1 := mul_nonsing_inv Co h.unit
  have c2 : Co⁻¹ * Co = 1 := nonsing_inv_mul Co h.unit
  ext X
  constructor
  · intro hX G A' B' C' D' E' F' hN hc hG
    have h1 := (symm_iff_wit h.red hk).1 ((pointSym_iff_niggli h).1 hX)
    have h2 := wit_fix hk.1 h1 hN hc
    have c1' : toReal Co * toReal Co⁻¹ = 1 := by rw [← toReal_mul, c1, toReal_one]
    have c1t : (toReal Co⁻¹)ᵀ * (toReal Co)ᵀ = 1 := by rw [← transpose_mul, c1', transpose_one]
    rw [← hG, toReal_mul, toReal_mul] at h2
    set P := toReal Co
    set Q := toReal Co⁻¹
    have h' := congrArg (fun Y => Qᵀ * Y * Q) h2
    calc (toReal X)ᵀ * G * toReal X
        = (Qᵀ * Pᵀ) * (toReal X)ᵀ * (Qᵀ * Pᵀ) * G * (P * Q) * toReal X * (P * Q) := by
          rw [c1', c1t, Matrix.one_mul, Matrix.mul_one, Matrix.mul_one, Matrix.mul_one]
      _ = Qᵀ * ((Q * toReal X * P)ᵀ * (Pᵀ * G * P) * (Q * toReal X * P)) * Q := by
          simp only [transpose_mul, Matrix.mul_assoc]
      _ = Qᵀ * (Pᵀ * G * P) * Q := h'
      _ = (Qᵀ * Pᵀ) * G * (P * Q) := by simp only [Matrix.mul_assoc]
      _ = G := by rw [c1', c1t, Matrix.one_mul, Matrix.mul_one]
  · intro hX
    rw [pointSym_iff h.det_ne]
    exact hX (Uᵀ * U) A B C D E F h.red hk.2.1 (by
      rw [← h.cell, transpose_mul]; simp only [Matrix.mul_assoc])

/-- The hypotheses are met by the lattice with basis (1,0,0), (0,2,0), (0,-1,3), base centred orthorhombic. -/
theorem sampleNiggliCell : NiggliCellOf !![1, 0, 0; 0, 2, -1; 0, 0, 3] 1 1 4 10 (-2) 0 0 ∧
    IsClass 40 1 4 10 (-2) 0 0 := by
  refine ⟨⟨by simp, ?_, ?_⟩, ?_, ?_, ?_⟩
  · ext i j
    fin_cases i <;> fin_cases j <;>
      simp [toReal_one, metric, Matrix.mul_apply, Fin.sum_univ_three, Matrix.transpose] <;> norm_num
  · constructor <;> norm_num [TypeI, TypeII]
  · decide
  · norm_num [NiggliClass, TypeII]
  · have : classTable.takeWhile (· ≠ 40) = [1, 2, 3, 5, 4, 6, 7, 8, 9, 10, 11, 12, 13, 15, 16, 14, 17, 18, 19, 20,
      21, 22, 23, 24, 25, 26, 27, 28, 29, 30, 31, 32] := by decide
    rw [this]
    simp only [List.forall_mem_cons, List.not_mem_nil, false_imp_iff, implies_true, and_true]
    norm_num [NiggliClass, TypeI, TypeII]

/-- The cell, as a matrix of reals. -/
noncomputable def realCell (U : RMat ℚ) : Matrix (Fin 3) (Fin 3) ℝ := U.toMatrix.map fun q => (q : ℝ)

theorem gram_symm (U : RMat ℚ) (C : IMat) (i j : Fin 3) : gram U C i j = gram U C j i := by
  have : (gram U C)ᵀ = gram U C := by rw [gram, transpose_mul, transpose_transpose]
  conv_lhs => rw [← this]
  rfl

theorem realCell_metric (U : RMat ℚ) (C : IMat) :
    (realCell U * toReal C.toMat)ᵀ * (realCell U * toReal C.toMat) =
      metric (gram U C 0 0 : ℚ) (gram U C 1 1 : ℚ) (gram U C 2 2 : ℚ) (gram U C 1 2 : ℚ) (gram U C 0 2 : ℚ)
        (gram U C 0 1 : ℚ) := by
  have h1 : realCell U * toReal C.toMat = (cellMat U C).map fun q => (q : ℝ) := by
    ext i j
    simp [realCell, toReal, cellMat, castMat, Matrix.mul_apply, Fin.sum_univ_three]
  have h2 : ((cellMat U C).map fun q => (q : ℝ))ᵀ * ((cellMat U C).map fun q => (q : ℝ)) =
      (gram U C).map fun q => (q : ℝ) := by
    ext i j
    simp [gram, Matrix.mul_apply, Fin.sum_univ_three]
  rw [h1, h2]
  ext i j
  fin_cases i <;> fin_cases j <;> simp [metric] <;> exact gram_symm U C _ _

theorem sepTol_type {tau rho D E F : ℚ} (hD : SepTol tau rho D 0)
    (hE : SepTol tau rho E 0) (hF : SepTol tau rho F 0)
    (h : TypeI (D : ℝ) E F ∨ TypeII (D : ℝ) E F) :
    (tau < D ∧ tau < E ∧ tau < F) ∨ (D ≤ 0 ∧ E ≤ 0 ∧ F ≤ 0) := by
  rcases h with ⟨h1, h2, h3⟩ | ⟨h1, h2, h3⟩
  · have a1 : 0 < D := by exact_mod_cast h1
    have a2 : 0 < E := by exact_mod_cast h2
    have a3 : 0 < F := by exact_mod_cast h3
    left
    have key : ∀ {x : ℚ}, 0 < x → SepTol tau rho x 0 → tau < x := by
      intro x hx hs
      rcases hs with rfl | hs
      · exact absurd hx (lt_irrefl _)
      · rwa [abs_zero, mul_zero, add_zero, sub_zero, abs_of_pos hx] at hs
    exact ⟨key a1 hD, key a2 hE, key a3 hF⟩
  · right
    exact ⟨by exact_mod_cast h1, by exact_mod_cast h2, by exact_mod_cast h3⟩

/-- C77, for `niggli_id`: if the reduced cell meets the Niggli conditions and no two quantities of the table of
classes are nearly equal without being equal, the symmetries of the class returned are all the point
symmetries of the user's lattice. -/
theorem niggliId_pointSym (U : RMat ℚ) (k : ℕ) (Cu : IMat) (hk : niggliId U none = .ok k)
    (hCu : reducedCell U none = .ok Cu)
    (red : NiggliReduced (gram U Cu 0 0 : ℚ) (gram U Cu 1 1 : ℚ) (gram U Cu 2 2 : ℚ) (gram U Cu 1 2 : ℚ)
      (gram U Cu 0 2 : ℚ) (gram U Cu 0 1 : ℚ))
    (sep : ClassSeparated (1 / 100000) (1 / 100000) (gram U Cu 0 0) (gram U Cu 1 1) (gram U Cu 2 2)
      (gram U Cu 1 2) (gram U Cu 0 2) (gram U Cu 0 1)) :
    PointSym (realCell U) = ClassSym k Cu.toMat := by
  have hc := ((niggliId_exact_partial U none Cu hCu (by simp) sep
    (sepTol_type sep.d_zero sep.e_zero sep.f_zero red.type) k).1 hk).1
  exact pointSym_eq_classSym
    ⟨by rw [det_reducedCell hCu]; exact isUnit_one, realCell_metric U Cu, red⟩ hc

/-- C77, for `find_supercells`: under the same conditions, exact mode returns exactly one supercell for each
sublattice of index `n` that is invariant under all point symmetries of the user's lattice. -/
theorem findSupercells_pointSym (fl : ℚ → ℚ) (root : ℤ) (U : RMat ℚ) (k : ℕ) (Cu : IMat)
    (hk : niggliId U none = .ok k) (hCu : reducedCell U none = .ok Cu) (n : ℤ) (hn : 1 ≤ n)
    (hfl : Rounding fl n (10 ^ 7))
    (red : NiggliReduced (gram U Cu 0 0 : ℚ) (gram U Cu 1 1 : ℚ) (gram U Cu 2 2 : ℚ) (gram U Cu 1 2 : ℚ)
      (gram U Cu 0 2 : ℚ) (gram U Cu 0 1 : ℚ))
    (sep : ClassSeparated (1 / 100000) (1 / 100000) (gram U Cu 0 0) (gram U Cu 1 1) (gram U Cu 2 2)
      (gram U Cu 1 2) (gram U Cu 0 2) (gram U Cu 0 1)) :
    ∃ Ms : List IntMat,
      findSupercells fl root U n true = .ok (Ms.map fun M => U.toMatrix * castMat M) ∧
      ListsSublattices (PointSym (realCell U)) n Ms := by
  rw [niggliId_pointSym U k Cu hk hCu red sep]
  exact findSupercells_exact fl root U k Cu hk hCu n hn hfl

/-- A cell for the non-vacuity examples: it has to be reduced, and its lattice is base centred orthorhombic. -/
def orthoCell : RMat ℚ := ⟨1, 0, 3, 0, 2, 1, 0, 0, 5⟩

theorem orthoCell_reduced : reducedCell orthoCell none = .ok ⟨-1, 0, -3, 0, -1, 0, 0, 0, 1⟩ := by decide +kernel

theorem orthoCell_gram : cellMetric orthoCell ⟨-1, 0, -3, 0, -1, 0, 0, 0, 1⟩ = (1, 4, 26, -2, 0, 0) := by
  decide +kernel

/-- The hypotheses of `findSupercells_pointSym` are met by that cell. -/
example : ∃ Ms : List IntMat,
    findSupercells roundNearest 2 orthoCell 6 true = .ok (Ms.map fun M => orthoCell.toMatrix * castMat M) ∧
      ListsSublattices (PointSym (realCell orthoCell)) 6 Ms := by
  have hg := orthoCell_gram
  rw [cellMetric_metric] at hg
  simp only [Prod.mk.injEq] at hg
  obtain ⟨h1, h2, h3, h4, h5, h6⟩ := hg
  refine findSupercells_pointSym roundNearest 2 orthoCell 40 _ (by decide +kernel) orthoCell_reduced 6
    (by norm_num) (.inr ⟨roundNearest_binary64, by norm_num⟩) ?_ ?_
  · rw [h1, h2, h3, h4, h5, h6]
    constructor <;> norm_num [TypeI, TypeII]
  · rw [h1, h2, h3, h4, h5, h6]
    constructor <;> decide +kernel

/-- C77, for the Fortran `id_cell`: if the reduced cell meets the Niggli conditions and no two quantities of the
table of classes are nearly equal without being equal, the symmetries of the class found are all the point
symmetries of the user's lattice. -/
theorem idCell_pointSym (equal : ℚ → ℚ → ℚ → Bool) (U : RMat ℚ) (eps : ℚ) (r : IdCell)
    (h : idCell equal U (some eps) = .ok r) (rho : ℚ) (he : 0 ≤ eps) (hr : 1 / 100000 ≤ rho) (her : eps ≤ rho)
    (ap : ClassApart eps rho (gram U r.Cu 0 0) (gram U r.Cu 1 1) (gram U r.Cu 2 2) (gram U r.Cu 1 2)
      (gram U r.Cu 0 2) (gram U r.Cu 0 1))
    (red : NiggliReduced (gram U r.Cu 0 0 : ℚ) (gram U r.Cu 1 1 : ℚ) (gram U r.Cu 2 2 : ℚ)
      (gram U r.Cu 1 2 : ℚ) (gram U r.Cu 0 2 : ℚ) (gram U r.Cu 0 1 : ℚ)) :
    PointSym (realCell U) = ClassSym r.id r.Cu.toMat := by
  have sep := ap.separated (r := 1 / 100000) (by norm_num) hr
  have hc := idCell_exact equal U eps r h rho he hr her ap
    (sepTol_type sep.d_zero sep.e_zero sep.f_zero red.type)
  have hd : r.Cu.toMat.det = 1 := by
    unfold idCell at h
    dsimp only at h
    split at h
    · cases h
    · rename_i Cu hCu
      split at h
      · cases h
      · cases h
        exact (reduceCell_same_lattice equal U (some eps) Cu hCu).1
  exact pointSym_eq_classSym ⟨by rw [hd]; exact isUnit_one, realCell_metric U r.Cu, red⟩ hc

/-- The hypotheses are met by the same cell, with the driver's default tolerance. -/
example : PointSym (realCell orthoCell) = ClassSym 40 (⟨-1, 0, -3, 0, -1, 0, 0, 0, 1⟩ : IMat).toMat := by
  have hg := orthoCell_gram
  rw [cellMetric_metric] at hg
  simp only [Prod.mk.injEq] at hg
  obtain ⟨h1, h2, h3, h4, h5, h6⟩ := hg
  refine idCell_pointSym cmpEqual orthoCell (1 / 1000)
    ⟨⟨-1, 0, -3, 0, -1, 0, 0, 0, 1⟩, ⟨1, 0, 0, 0, 1, 0, 0, 0, 1⟩, 40, some 15⟩ (by decide +kernel) (1 / 1000)
    (by norm_num) (by norm_num) le_rfl ?_ ?_
  · dsimp only
    rw [h1, h2, h3, h4, h5, h6]
    constructor <;> decide +kernel
  · dsimp only
    rw [h1, h2, h3, h4, h5, h6]
    constructor <;> norm_num [TypeI, TypeII]

/-! ## C78 -/

theorem toMat_injective : Function.Injective IMat.toMat := by
  intro M N h
  have e := fun i j => congrFun (congrFun h i) j
  have h00 := e 0 0
  have h01 := e 0 1
  have h02 := e 0 2
  have h10 := e 1 0
  have h11 := e 1 1
  have h12 := e 1 2
  have h20 := e 2 0
  have h21 := e 2 1
  have h22 := e 2 2
  simp [IMat.toMat] at h00 h01 h02 h10 h11 h12 h20 h21 h22
  cases M
  cases N
  simp_all

/-- The symmetries of the chosen metric of class `k`, counted. -/
def witCount (k n : ℕ) : Bool :=
  (wit k).bounded && (wit k).autos.all (fixesWit k) && decide (wit k).autos.Nodup &&
    decide ((wit k).autos.length = n)

theorem ncard_wit {k n : ℕ} (h : witCount k n = true) :
    {X : IntMat | Xᵀ * (wit k).mat * X = (wit k).mat}.ncard = n := by
  simp only [witCount, Bool.and_eq_true, decide_eq_true_eq, List.all_eq_true] at h
  obtain ⟨⟨⟨hb, hf⟩, hn⟩, hl⟩ := h
  have : {X : IntMat | Xᵀ * (wit k).mat * X = (wit k).mat} = (((wit k).autos.map IMat.toMat).toFinset : Set IntMat) := by
    ext X
    simp only [Set.mem_ofPred_eq, List.coe_toFinset, List.mem_map]
    constructor
    · intro hX
      exact Form.mem_autos hb hX
    · rintro ⟨Z, hZ, rfl⟩
      exact witFix_iff.1 (hf Z hZ)
  rw [this, Set.ncard_coe_finset, List.toFinset_card_of_nodup (hn.map toMat_injective), List.length_map, hl]

theorem ncard_pointSym {U : Matrix (Fin 3) (Fin 3) ℝ} {Co : IntMat} {A B C D E F : ℝ}
    (h : NiggliCellOf U Co A B C D E F) {k : ℕ} (hk : IsClass k A B C D E F) :
    (PointSym U).ncard = {X : IntMat | Xᵀ * (wit k).mat * X = (wit k).mat}.ncard := by
  have c1 : Co * Co⁻¹ = 1 := mul_nonsing_inv Co h.unit
  have c2 : Co⁻¹ * Co = 1 := nonsing_inv_mul Co h.unit
  refine Set.ncard_congr (fun X _ => Co⁻¹ * X * Co) ?_ ?_ ?_
  · intro X hX
    exact (symm_iff_wit h.red hk).1 ((pointSym_iff_niggli h).1 hX)
  · intro X Y _ _ hXY
    have := congrArg (fun Z => Co * Z * Co⁻¹) hXY
    have e : ∀ Z : IntMat, Co * (Co⁻¹ * Z * Co) * Co⁻¹ = Z := by
      intro Z
      calc Co * (Co⁻¹ * Z * Co) * Co⁻¹ = (Co * Co⁻¹) * Z * (Co * Co⁻¹) := by simp only [Matrix.mul_assoc]
        _ = Z := by rw [c1, Matrix.one_mul, Matrix.mul_one]
    simpa only [e] using this
  · intro Y hY
    have e : Co⁻¹ * (Co * Y * Co⁻¹) * Co = Y := by
      calc Co⁻¹ * (Co * Y * Co⁻¹) * Co = (Co⁻¹ * Co) * Y * (Co⁻¹ * Co) := by simp only [Matrix.mul_assoc]
        _ = Y := by rw [c2, Matrix.one_mul, Matrix.mul_one]
    refine ⟨Co * Y * Co⁻¹, ?_, e⟩
    rw [pointSym_iff_niggli h, e]
    exact (symm_iff_wit h.red hk).2 hY

/-- C78: the number of point symmetries of every lattice is the order of the holohedry of the Bravais lattice
that the table of classes gives for its class: 48, 24, 16, 12, 8, 4 or 2. -/
theorem pointSym_order {U : Matrix (Fin 3) (Fin 3) ℝ} {Co : IntMat} {A B C D E F : ℝ}
    (h : NiggliCellOf U Co A B C D E F) {k : ℕ} (hk : IsClass k A B C D E F) :
    ∃ b, bravais k = some b ∧ (PointSym U).ncard = holohedryOrder b := by
  have hk' : 1 ≤ k ∧ k ≤ 44 := by
    have := hk.1
    clear hk
    revert k
    decide
  rw [ncard_pointSym h hk]
  have hall : ∀ k ∈ classTable, ((bravais k).map fun b => witCount k (holohedryOrder b)) = some true := by
    decide +kernel
  have hw := hall k hk.1
  cases hb : bravais k with
  | none => rw [hb] at hw; cases hw
  | some b =>
    rw [hb] at hw
    exact ⟨b, rfl, ncard_wit (Option.some.inj hw)⟩

/-- The theorem applies to the sample lattice: it has 8 point symmetries. -/
example : (PointSym !![1, 0, 0; 0, 2, -1; 0, 0, 3]).ncard = 8 := by
  obtain ⟨b, hb, hn⟩ := pointSym_order sampleNiggliCell.1 sampleNiggliCell.2
  cases hb
  exact hn

/-- C78, `check_sym`: called with the number of point symmetries the lattice has and the class it belongs to,
it neither stops nor refuses the lattice… -/
theorem check_sym_right {U : Matrix (Fin 3) (Fin 3) ℝ} {Co : IntMat} {A B C D E F : ℝ}
    (h : NiggliCellOf U Co A B C D E F) {k : ℕ} (hk : IsClass k A B C D E F) :
    Fortran.check_sym (PointSym U).ncard k = some true := by
  obtain ⟨b, hb, hn⟩ := pointSym_order h hk
  rw [hn]
  have hall : ∀ k ∈ classTable, ((bravais k).map fun b => Fortran.check_sym (holohedryOrder b) k) =
      some (some true) := by decide +kernel
  have := hall k hk.1
  rw [hb] at this
  exact Option.some.inj this

/-- … and with a class `j` of lattices that have a different number of point symmetries, it refuses. -/
theorem check_sym_wrong {U : Matrix (Fin 3) (Fin 3) ℝ} {Co : IntMat} {A B C D E F : ℝ}
    (h : NiggliCellOf U Co A B C D E F) {k : ℕ} (hk : IsClass k A B C D E F)
    {U' : Matrix (Fin 3) (Fin 3) ℝ} {Co' : IntMat} {A' B' C' D' E' F' : ℝ}
    (h' : NiggliCellOf U' Co' A' B' C' D' E' F') {j : ℕ} (hj : IsClass j A' B' C' D' E' F') :
    Fortran.check_sym (PointSym U).ncard j = some (decide ((PointSym U).ncard = (PointSym U').ncard)) := by
  obtain ⟨b, hb, hn⟩ := pointSym_order h hk
  obtain ⟨b', hb', hn'⟩ := pointSym_order h' hj
  rw [hn, hn']
  have hall : ∀ j ∈ classTable, ∀ k ∈ classTable,
      (match bravais k, bravais j with
      | some b, some b' => decide (Fortran.check_sym (holohedryOrder b) j =
          some (decide (holohedryOrder b = holohedryOrder b')))
      | _, _ => false) = true := by decide +kernel
  have := hall j hj.1 k hk.1
  rw [hb, hb'] at this
  simpa using this

/-- Both theorems apply to the sample lattice: `check_sym` accepts it as class 40. -/
example : Fortran.check_sym (PointSym !![1, 0, 0; 0, 2, -1; 0, 0, 3]).ncard 40 = some true :=
  check_sym_right sampleNiggliCell.1 sampleNiggliCell.2

/-- Every non-singular rational cell has a Niggli cell and a class. -/
theorem niggliCell_exists (U : RMat ℚ) (hU : U.toMatrix.det ≠ 0) :
    ∃ (Co : IntMat) (A B C D E F : ℚ) (k : ℕ), NiggliCellOf (realCell U) Co A B C D E F ∧ IsClass k A B C D E F := by
  obtain ⟨n, C, hC, -, red⟩ := niggliLoop_total_partial U hU
  have ht : (0 < gram U C 1 2 ∧ 0 < gram U C 0 2 ∧ 0 < gram U C 0 1) ∨
      (gram U C 1 2 ≤ 0 ∧ gram U C 0 2 ≤ 0 ∧ gram U C 0 1 ≤ 0) := by
    rcases red.type with ⟨h1, h2, h3⟩ | ⟨h1, h2, h3⟩
    · exact .inl ⟨by exact_mod_cast h1, by exact_mod_cast h2, by exact_mod_cast h3⟩
    · exact .inr ⟨by exact_mod_cast h1, by exact_mod_cast h2, by exact_mod_cast h3⟩
  obtain ⟨k, hk⟩ := isClass_exists (gram U C 0 0) (gram U C 1 1) (gram U C 2 2) _ _ _ ht
  exact ⟨C.toMat, _, _, _, _, _, _, k, ⟨by rw [hC]; exact isUnit_one, realCell_metric U C, red⟩, hk⟩

/-- C78: for every non-singular rational cell, `check_sym` given the true number of point symmetries never
stops, whatever class it is called with, and it accepts exactly the classes whose lattices have that number. -/
theorem check_sym_never_stops (U : RMat ℚ) (hU : U.toMatrix.det ≠ 0) (j : ℕ) :
    Fortran.check_sym (PointSym (realCell U)).ncard j =
      some (decide ((bravais j).map holohedryOrder = some (PointSym (realCell U)).ncard)) := by
  obtain ⟨Co, A, B, C, D, E, F, k, h, hk⟩ := niggliCell_exists U hU
  obtain ⟨b, hb, hn⟩ := pointSym_order h hk
  rw [hn]
  by_cases hj : j ≤ 44
  · have hall : ∀ b ∈ [Bravais.cF, .cP, .cI, .hR, .hP, .tP, .tI, .oP, .oC, .oI, .oF, .mP, .mC, .mI, .aP],
        ∀ j ∈ List.range 45, Fortran.check_sym (holohedryOrder b) j =
          some (decide ((bravais j).map holohedryOrder = some (holohedryOrder b))) := by decide +kernel
    exact hall b (by cases b <;> decide) j (List.mem_range.2 (by omega))
  · have hbj : bravais j = none := by
      unfold bravais
      split <;> first | omega | rfl
    have hne : ∀ i ≤ 44, j ≠ i := fun i hi => by omega
    rw [hbj]
    have e : decide (Option.map holohedryOrder none = some (holohedryOrder b)) = false := by simp
    rw [e]
    cases b <;> simp [Fortran.check_sym, holohedryOrder, hne]

/-- The hypothesis is met. -/
example : orthoCell.toMatrix.det ≠ 0 := by
  rw [← rdet_eq]
  decide +kernel

end AutoGR
