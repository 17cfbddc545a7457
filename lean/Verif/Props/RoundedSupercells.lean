import Verif.Lemmas.RoundedSupercells
import Verif.Props.RoundedGrid
import Verif.Props.AccuratePy
import Verif.Props.Supercells

/-!
# C123: `find_supercells` in floating point

The whole of `find_supercells` in binary64: the class and the reduction of the user's cell, the reduction of the stored
basis, the choice of the HNFs and the change of basis.  `U0` is the cell of the crystal that is meant.
-/

namespace AutoGR

open Spec Matrix Arith Fortran

variable {fl : ℚ → ℚ} {U : RMat (Rounded fl)} {U0 : Matrix (Fin 3) (Fin 3) ℝ} {k : ℕ} {Cu : IMat}
  {M δ c L ℓ w ι : ℝ} {inverse : Matrix (Fin 3) (Fin 3) (Rounded fl) → Matrix (Fin 3) (Fin 3) (Rounded fl)}

/-! ## The stored bases -/

theorem sign_rounded (hfl : Binary64 fl) (x : Rounded fl) : Arith.sign x = fSign x := by
  have f0 : fl 0 = 0 := by simpa using hfl.exact 0 (by norm_num)
  simp only [Arith.sign, fSign, Arith.lt, Arith.ofInt, Int.cast_zero, f0, decide_eq_true_eq]
  split_ifs <;> first | rfl | linarith

/-- C123: in every accurate arithmetic, `reduced_cell` takes the stored basis of each class that has one to the cell
that the generators of HNFs are written for. -/
theorem reducedCell_canon {K : Type} [Arith K] {val : K → ℝ} {η : ℝ} (hs : ∀ x : K, Arith.sign x = fSign x)
    (hK : Accurate K val 1000 η) (hη : η ≤ 2 / 10 ^ 13) (h1 : 1 ≤ k) (h2 : k ≤ 44) {O : RMat K}
    (hO : canonBasis k = some O) : reducedCell O none = .ok (canonC k) := by
  have hk : k ≠ 31 ∧ k ≠ 44 := by
    constructor <;> (rintro rfl; cases hO)
  have hr : canonRuns k (99 / 10 ^ 7) (101 / 10 ^ 7) = true := by
    apply canonRuns_all
    obtain ⟨a, b⟩ := hk
    clear hO
    interval_cases k <;> first | decide | omega
  have he := hK.ofRat (1 / 100000) (by norm_num)
  push_cast at he
  have he' := abs_le.1 he
  obtain ⟨g1, g2⟩ := canonical_py (eps := ofRat (1 / 100000)) hs hK hη hr hO (by norm_num) (by norm_num)
    (by push_cast; linarith) (by push_cast; linarith)
  unfold reducedCell
  dsimp only
  rw [if_neg, ← g1]
  · rfl
  · rw [Bool.and_eq_true, hK.le, hK.le, hK.ofInt 0 (by norm_num)]
    rintro ⟨a, b⟩
    have : val (rdet O) = 0 := le_antisymm (by simpa using a) (by simpa using b)
    rw [this] at g2
    norm_num at g2

/-- C123: in binary64 the reduction of the stored bases gives what it gives in exact arithmetic. -/
theorem reducedCanonical_rounded (hfl : Binary64 fl) (h1 : 1 ≤ k) (h2 : k ≤ 44) :
    reducedCanonical (Rounded fl) k = reducedCanonical ℚ k := by
  by_cases hk : k ∈ [31, 44]
  · simp only [List.mem_cons, List.not_mem_nil, or_false] at hk
    rcases hk with rfl | rfl <;> rfl
  · obtain ⟨O, hO⟩ := canonBasis_some (K := Rounded fl) h1 h2 hk
    rw [reduced_canonC k h1 h2 hk]
    unfold reducedCanonical
    rw [hO]
    exact reducedCell_canon (sign_rounded hfl) (accurate_rounded hfl (by norm_num) (by norm_num)) (by norm_num) h1 h2 hO

/-- Non-vacuity: the basis of the first class. -/
example : reducedCell (K := Rounded roundNearest) ⟨ofInt 0, ofInt 1, ofInt 1, ofInt 1, ofInt 0, ofInt 1, ofInt 1, ofInt 1,
    ofInt 0⟩ none = .ok (canonC 1) := by decide +kernel

/-! ## What is found for the user's cell -/

/-- `niggli_id` and `reduced_cell`, in floating point, have found the class `k` and the matrix `Cu` for the cell `U`,
which is `U0` up to `δ`, and this is right for `U0`: the matrix takes `U0` to a Niggli cell, and the class is the class
of this cell.  The numbers are of the sizes `L` (the cell), `c` and `w` (the integer matrix and its inverse) and `ℓ`
(the reduced cell). -/
structure RecognisedPy (U : RMat (Rounded fl)) (U0 : Matrix (Fin 3) (Fin 3) ℝ) (k : ℕ) (Cu : IMat)
    (M δ c L ℓ w : ℝ) : Prop where
  id : niggliId U none = .ok k
  cell : reducedCell U none = .ok Cu
  close : CloseTo (fun x : Rounded fl => (x.q : ℝ)) U.toMatrix U0 δ L
  ideal_det : U0.det ≠ 0
  right : ∃ A B C D E F, NiggliCellOf U0 Cu.toMat A B C D E F ∧ IsClass k A B C D E F
  factor : ∀ i j, |(Cu.toMat i j : ℝ)| ≤ c
  factor_inv : ∀ i j, |(Cu.toMat⁻¹ i j : ℝ)| ≤ w
  reduced : ∀ i j, |(U0 * toReal Cu.toMat) i j| ≤ ℓ
  range : 1 ≤ M ∧ M ≤ 2 ^ 53 ∧ c ≤ M ∧ 3 * (c * (L + δ)) + 5 * opErr M ≤ M

/-- C123: a cell within `δ` of `U0` is recognised as `U0`, if the tolerance `1e-5` is above the errors and below the gap
of the exact metric (C122). -/
theorem recognisedPy_close (hfl : Binary64 fl) {g a : ℝ} {A B C D E F : ℝ} (h1 : 1 ≤ M) (hM : M ≤ 2 ^ 53)
    (hU : CloseTo (fun x : Rounded fl => (x.q : ℝ)) U.toMatrix U0 δ L)
    (ht : Tolerated M (opErr M) δ c L ℓ |U0.det| ((fl (1 / 100000) : ℚ) : ℝ) g a)
    (h : reducedCell U none = .ok Cu) (hk : niggliId U none = .ok k) (hT : ∀ i j, |(Cu.toMat i j : ℝ)| ≤ c)
    (hw : ∀ i j, |(Cu.toMat⁻¹ i j : ℝ)| ≤ w)
    (hm : (U0 * toReal Cu.toMat)ᵀ * (U0 * toReal Cu.toMat) = metric A B C D E F)
    (ha : a ≤ A) (hA : A ≤ ℓ ^ 2) (hB : B ≤ ℓ ^ 2) (hC : C ≤ ℓ ^ 2) (hg : CellGap g A B C D E F)
    (hd0 : U0.det ≠ 0) : RecognisedPy U U0 k Cu M δ c L ℓ w := by
  have hK := accurate_rounded hfl h1 hM
  have l0 : 0 ≤ L := (abs_nonneg _).trans (hU.size 0 0)
  have d0 := ht.data
  have c1 := ht.factor
  have e0 := hK.nonneg
  have hr := ht.range_cell
  have p : 0 ≤ 3 * (c * (L + δ)) := by positivity
  have e0' : 0 ≤ opErr M := e0
  obtain ⟨hn, ⟨k', h2, h3, -⟩ | ⟨h2, -⟩⟩ := niggliId_ideal (eps := (ofRat (1 / 100000) : Rounded fl)) hK hU ht h hT hm ha
    hA hB hC hg
  · have : k' = k := by
      have := h2.symm.trans hk
      exact Except.ok.inj this
    subst this
    exact ⟨hk, h, hU, hd0, ⟨_, _, _, _, _, _, hn, h3⟩, hT, hw, entry_le hm ht.long hA hB hC,
      ⟨h1, hM, by linarith, by linarith⟩⟩
  · have := h2.symm.trans hk
    cases this

theorem RecognisedPy.pointSym (h : RecognisedPy U U0 k Cu M δ c L ℓ w) : PointSym U0 = ClassSym k Cu.toMat := by
  obtain ⟨A, B, C, D, E, F, h1, h2⟩ := h.right
  exact pointSym_eq_classSym h1 h2

theorem RecognisedPy.unit (h : RecognisedPy U U0 k Cu M δ c L ℓ w) : IsUnit Cu.toMat.det := by
  obtain ⟨A, B, C, D, E, F, h1, -⟩ := h.right
  exact h1.1

theorem matmulI_matmulK {K : Type} [Arith K] (U : RMat K) (C : IMat) :
    (matmulI U C).toMatrix = matmulK U.toMatrix (intMat C.toMat) := by
  ext i j
  fin_cases i <;> fin_cases j <;> rfl

theorem RecognisedPy.niggli (h : RecognisedPy U U0 k Cu M δ c L ℓ w) (hfl : Binary64 fl) :
    CloseTo (fun x : Rounded fl => (x.q : ℝ)) (matmulK U.toMatrix (intMat Cu.toMat)) (U0 * toReal Cu.toMat)
      (cellErr (opErr M) δ c) ℓ := by
  rw [← matmulI_matmulK]
  exact ⟨cell_close (accurate_rounded hfl h.range.1 h.range.2.1) h.close h.factor h.range.2.2.1 h.range.2.2.2, h.reduced⟩

/-- `np.linalg.inv` is accurate to `ι` on the three matrices it is given for a lattice with a stored basis. -/
structure InversePy (inverse : Matrix (Fin 3) (Fin 3) (Rounded fl) → Matrix (Fin 3) (Fin 3) (Rounded fl))
    (k : ℕ) (Cu : IMat) (ι : ℝ) : Prop where
  basis : ∀ (O : RMat ℚ) (O' : RMat (Rounded fl)), canonBasis k = some O → canonBasis k = some O' → ∀ i j,
    |((inverse O'.toMatrix i j).q : ℝ) - (realMat O.toMatrix)⁻¹ i j| ≤ ι
  reduced : ∀ (O : RMat ℚ) (O' : RMat (Rounded fl)), canonBasis k = some O → canonBasis k = some O' → ∀ i j,
    |((inverse (matmulK O'.toMatrix (intMat (canonC k).toMat)) i j).q : ℝ) -
      (realMat O.toMatrix * toReal (canonC k).toMat)⁻¹ i j| ≤ ι
  factor : ∀ i j, |((inverse (intMat Cu.toMat) i j).q : ℝ) - (toReal Cu.toMat)⁻¹ i j| ≤ ι

/-- `np.linalg.inv` is accurate to `ι` on the three matrices it is given for a triclinic lattice, whose basis is the
user's cell; the two real inverses have entries up to `l` and `m`. -/
structure InverseTric (inverse : Matrix (Fin 3) (Fin 3) (Rounded fl) → Matrix (Fin 3) (Fin 3) (Rounded fl))
    (U : RMat (Rounded fl)) (U0 : Matrix (Fin 3) (Fin 3) ℝ) (Cu : IMat) (ι l m : ℝ) : Prop where
  basis : CloseTo (fun x : Rounded fl => (x.q : ℝ)) (inverse U.toMatrix) U0⁻¹ ι l
  reduced : CloseTo (fun x : Rounded fl => (x.q : ℝ)) (inverse (matmulK U.toMatrix (intMat Cu.toMat)))
    (U0 * toReal Cu.toMat)⁻¹ ι m
  factor : ∀ i j, |((inverse (intMat Cu.toMat) i j).q : ℝ) - (toReal Cu.toMat)⁻¹ i j| ≤ ι

/-- The error of a supercell for HNFs with entries up to `N`, for a lattice with a stored basis. -/
noncomputable def storedErr (M δ c ℓ w ι N : ℝ) : ℝ :=
  floatBackErr (1 / 2 ^ 53) (cellErr (opErr M) δ c) (changeErr (1 / 2 ^ 53) (4 / 2 ^ 53) ι ι 4 2 24 4 N) ι ℓ (144 * N) w

/-- The error of a supercell for HNFs with entries up to `N`, for a triclinic lattice. -/
noncomputable def tricErr (M δ c L ℓ w ι l m N : ℝ) : ℝ :=
  floatBackErr (1 / 2 ^ 53) (cellErr (opErr M) δ c) (changeErr (1 / 2 ^ 53) δ ι ι L l m c N) ι ℓ (9 * w * N * c) w

/-- Each of the matrices `Bs` is, up to `ε`, made of the vectors of `U0` with the coefficients in the list `Ts`. -/
def SupercellsOf (U0 : Matrix (Fin 3) (Fin 3) ℝ) (ε : IntMat → ℝ) (Bs : List (Matrix (Fin 3) (Fin 3) (Rounded fl)))
    (Ts : List IntMat) : Prop :=
  List.Forall₂ (fun B T => ∀ i j, |((B i j).q : ℝ) - (U0 * toReal T) i j| ≤ ε T) Bs Ts

theorem supercellsOf_map {ε : IntMat → ℝ} (L : List IntMat) (S : IntMat → Matrix (Fin 3) (Fin 3) (Rounded fl))
    (T : IntMat → IntMat) (h : ∀ H ∈ L, ∀ i j, |((S H i j).q : ℝ) - (U0 * toReal (T H)) i j| ≤ ε (T H)) :
    SupercellsOf U0 ε (L.map S) (L.map T) := by
  unfold SupercellsOf
  rw [List.forall₂_map_left_iff, List.forall₂_map_right_iff, List.forall₂_same]
  exact h

theorem SupercellsOf.congr {ε ε' : IntMat → ℝ} {Bs : List (Matrix (Fin 3) (Fin 3) (Rounded fl))} {Ts : List IntMat}
    (h : SupercellsOf U0 ε Bs Ts) (he : ∀ T ∈ Ts, ε T = ε' T) : SupercellsOf U0 ε' Bs Ts := by
  unfold SupercellsOf at h ⊢
  induction h with
  | nil => exact .nil
  | cons h _ ih =>
    exact .cons (by rw [← he _ (by simp)]; exact h) (ih fun T hT => he T (by simp [hT]))

/-- `find_supercells`, for a lattice with a stored basis, as a selection of HNFs followed by an integer change of
basis, up to rounding. -/
theorem findSupercellsK_stored (hfl : Binary64 fl) (h : RecognisedPy U U0 k Cu M δ c L ℓ w) (hk : k ∉ [31, 44])
    (hi : InversePy inverse k Cu ι) :
    ∃ P Q : IntMat, Q * P = 1 ∧ P * Q = 1 ∧ Q * Cu.toMat = (canonC k).toMat ∧
      ∀ (root kpt : ℤ) (exact : Bool) (Ls : List Mat3), selectHNFs fl root k kpt exact = .ok Ls →
        (∀ H ∈ Ls, IsHNF H ∧ H.det ≤ 2 ^ 53) →
        ∃ Bs, findSupercellsK inverse fl root U kpt exact = .ok Bs ∧
          SupercellsOf U0 (fun T => storedErr M δ c ℓ w ι T.det) Bs (Ls.map fun H => P * H * Q) := by
  obtain ⟨k1, k2⟩ := niggliId_range h.id
  obtain ⟨O, hO⟩ := canonBasis_some (K := ℚ) k1 k2 hk
  obtain ⟨O', hO'⟩ := canonBasis_some (K := Rounded fl) k1 k2 hk
  have hred := reducedCell_canon (sign_rounded hfl) (accurate_rounded hfl (by norm_num) (by norm_num)) (by norm_num) k1 k2
    hO'
  obtain ⟨s1, s2, s3⟩ := canonBasis_parts hO
  obtain ⟨-, Do, d1, d2, d3⟩ := canonC_small k1 k2
  have d1' := mul_eq_one_comm.1 d1
  have hu : Cu.toMat * Cu.toMat⁻¹ = 1 := mul_nonsing_inv _ h.unit
  have hu' := mul_eq_one_comm.1 hu
  have hQP : (canonC k).toMat * Cu.toMat⁻¹ * (Cu.toMat * Do) = 1 := by
    calc (canonC k).toMat * Cu.toMat⁻¹ * (Cu.toMat * Do) = (canonC k).toMat * (Cu.toMat⁻¹ * Cu.toMat) * Do := by
          simp only [Matrix.mul_assoc]
      _ = 1 := by rw [hu', Matrix.mul_one, d1]
  have hPQ := mul_eq_one_comm.1 hQP
  refine ⟨Cu.toMat * Do, (canonC k).toMat * Cu.toMat⁻¹, hQP, hPQ, by rw [Matrix.mul_assoc, hu', Matrix.mul_one], ?_⟩
  intro root kpt exact Ls hL hb
  have hdet : (realMat O.toMatrix).det ≠ 0 := by
    have e := RingHom.map_det (Rat.castHom ℝ) O.toMatrix
    have e' : (realMat O.toMatrix).det = ((O.toMatrix.det : ℚ) : ℝ) := by
      simpa [realMat, RingHom.mapMatrix_apply] using e.symm
    rw [e']
    exact_mod_cast s3
  have z2 (i j : Fin 3) : |(realMat O.toMatrix)⁻¹ i j| ≤ 2 := by
    rw [← realMat_inv s3]
    have := (Rat.cast_le (K := ℝ)).2 (s2 i j)
    push_cast at this
    exact this
  have z1 (i j : Fin 3) : |(realMat O.toMatrix) i j| ≤ 4 := by
    have := (Rat.cast_le (K := ℝ)).2 (s1 i j)
    push_cast at this
    exact this
  have c1 : CloseTo (fun x : Rounded fl => (x.q : ℝ)) O'.toMatrix (realMat O.toMatrix) (4 / 2 ^ 53) 4 := by
    refine ⟨fun i j => ?_, z1⟩
    have e : (O'.toMatrix i j).q = fl (O.toMatrix i j) := by
      rw [canonBasis_literals hO hO']
      fin_cases i <;> fin_cases j <;> rfl
    have a := (Rat.cast_le (K := ℝ)).2 (hfl.close (O.toMatrix i j))
    have b := z1 i j
    push_cast at a
    show |((O'.toMatrix i j).q : ℝ) - (O.toMatrix i j : ℝ)| ≤ _
    rw [e]
    exact a.trans (div_le_div_of_nonneg_right b (by positivity))
  have c3 : CloseTo (fun x : Rounded fl => (x.q : ℝ)) (inverse (matmulK O'.toMatrix (intMat (canonC k).toMat)))
      (realMat O.toMatrix * toReal (canonC k).toMat)⁻¹ ι 24 := by
    refine ⟨hi.reduced O O' hO hO', fun i j => ?_⟩
    have e : (realMat O.toMatrix * toReal (canonC k).toMat)⁻¹ = toReal Do * (realMat O.toMatrix)⁻¹ := by
      rw [Matrix.mul_inv_rev]
      congr 1
      apply inv_eq_right_inv
      rw [← toReal_mul, d1, toReal_one]
    rw [e]
    have := size_mul (A := toReal Do) (s := 4) (by norm_num)
      (fun i j => by simp only [toReal, Matrix.map_apply]; exact_mod_cast d3 i j) z2 i j
    linarith
  have cI : CloseTo (fun x : Rounded fl => (x.q : ℝ)) (inverse (intMat Cu.toMat)) (toReal Cu.toMat)⁻¹
      ι w := ⟨hi.factor, fun i j => by rw [toReal_inv h.unit]; exact h.factor_inv i j⟩
  refine ⟨Ls.map (transformOneK inverse (matmulK O'.toMatrix (intMat (canonC k).toMat))
    (matmulK U.toMatrix (intMat Cu.toMat)) (canonC k).toMat Cu.toMat O'.toMatrix), ?_,
    supercellsOf_map Ls _ _ fun H hH i j => ?_⟩
  · unfold findSupercellsK
    simp only [h.id, h.cell, if_neg hk, hO', hred, hL, transformSupercellsK]
  · obtain ⟨q1, q2⟩ := hb H hH
    have hent (i j : Fin 3) := hnf_entries q1 i j
    have hd : (Cu.toMat * Do * H * ((canonC k).toMat * Cu.toMat⁻¹)).det = H.det := by
      have h1 := congrArg det hPQ
      rw [det_mul, Matrix.det_one] at h1
      rw [det_mul, det_mul]
      linear_combination H.det * h1
    rw [hd]
    exact transformOneK_close (relative_rounded hfl) (N := H.det) (f := 144 * H.det) d1 hu hdet c1
      ⟨hi.basis O O' hO hO', z2⟩ c3 (by exact_mod_cast q2) (fun i j => by exact_mod_cast hent i j) (by norm_num)
      (fun i j => by exact_mod_cast d2 i j) (h.niggli hfl) cI (fun i j => by
        have := product_size d3 hent d2 i j
        have e : (9 : ℤ) * 4 * H.det * 4 = 144 * H.det := by ring
        rw [e] at this
        exact_mod_cast this) i j

/-- C123, exact mode: in binary64, for a lattice with a stored basis, `find_supercells` returns one matrix for each
sublattice of index `n ≤ 10^7` of the crystal that is meant that is kept by all its point symmetries, and nothing else;
each matrix is, up to `storedErr`, a basis of this sublattice. -/
theorem findSupercells_rounded (hfl : Binary64 fl) (h : RecognisedPy U U0 k Cu M δ c L ℓ w) (hk : k ∉ [31, 44])
    (hi : InversePy inverse k Cu ι) (root n : ℤ) (h1 : 1 ≤ n) (h2 : n ≤ 10 ^ 7) :
    ∃ Bs Ts, findSupercellsK inverse fl root U n true = .ok Bs ∧ ListsSublattices (PointSym U0) n Ts ∧
      SupercellsOf U0 (fun _ => storedErr M δ c ℓ w ι n) Bs Ts := by
  have hr := niggliId_range h.id
  have hcb : ClassBasis k (canonC k) := by
    unfold ClassBasis
    rw [if_neg hk]
    exact reduced_canonC k hr.1 hr.2 hk
  obtain ⟨P, Q, p1, p2, p3, p4⟩ := findSupercellsK_stored hfl h hk hi
  obtain ⟨Ls, hL, hl⟩ := select_exact fl root k hr n (.inr ⟨hfl, h2⟩) _ hcb
  have hS := lists_change p1 p2 p3 h1 hl
  obtain ⟨Bs, b1, b2⟩ := p4 root n true Ls hL fun H hH => by
    obtain ⟨a, b, -⟩ := (hl.2 H).1 hH
    exact ⟨a, by omega⟩
  rw [h.pointSym]
  refine ⟨Bs, _, b1, hS, ?_⟩
  have hd : ∀ T ∈ Ls.map fun H => P * H * Q, T.det = n := fun T hT => (hS.sound T hT).1
  exact b2.congr fun T hT => by rw [hd T hT]

/-- C123, search mode, for a lattice that is neither cubic nor triclinic: the symmetric supercells of the first five
volumes among `kpd … kpd+10` that have more than one. -/
theorem findSupercells_rounded_search (hfl : Binary64 fl) (h : RecognisedPy U U0 k Cu M δ c L ℓ w)
    (hk : k ∉ [1, 3, 5, 31, 44]) (hi : InversePy inverse k Cu ι) (root kpd : ℤ) (h1 : 1 ≤ kpd) (h2 : kpd + 10 ≤ 10 ^ 7) :
    ∃ (Bs : List (Matrix (Fin 3) (Fin 3) (Rounded fl))) (gen : ℤ → List IntMat),
      findSupercellsK inverse fl root U kpd false = .ok Bs ∧
      (∀ n, kpd ≤ n → n ≤ kpd + 10 → ListsSublattices (PointSym U0) n (gen n)) ∧
      SupercellsOf U0 (fun T => storedErr M δ c ℓ w ι T.det) Bs
        ((([kpd, kpd + 1, kpd + 2, kpd + 3, kpd + 4, kpd + 5, kpd + 6, kpd + 7, kpd + 8, kpd + 9,
          kpd + 10].filter fun n => 1 < (gen n).length).take 5).flatMap gen) := by
  have hr := niggliId_range h.id
  have hk' : k ∉ [31, 44] := by
    simp only [List.mem_cons, List.not_mem_nil, or_false] at hk ⊢
    tauto
  obtain ⟨P, Q, p1, p2, p3, p4⟩ := findSupercellsK_stored hfl h hk' hi
  obtain ⟨gen, hgood, hsel⟩ := select_search fl root k hr hk kpd _ (reduced_canonC k hr.1 hr.2 hk')
  have hg (n : ℤ) (hn : n ≤ kpd + 10) := hgood.lists n (.inr ⟨hfl, hn.trans h2⟩)
  obtain ⟨Bs, b1, b2⟩ := p4 root kpd false _ hsel fun H hH => by
    obtain ⟨n, hn, hH⟩ := List.mem_flatMap.1 hH
    have hn' := (List.mem_filter.1 (List.mem_of_mem_take hn)).1
    have hle : n ≤ kpd + 10 := by
      simp only [List.mem_cons, List.not_mem_nil, or_false] at hn'
      omega
    obtain ⟨a, b, -⟩ := ((hg n hle).2 H).1 hH
    exact ⟨a, by omega⟩
  rw [h.pointSym]
  refine ⟨Bs, fun n => (gen n).map fun H => P * H * Q, b1, fun n hn hn' => lists_change p1 p2 p3 (by omega) (hg n hn'), ?_⟩
  simpa only [List.length_map, List.map_flatMap] using b2

/-- C123, search mode, for a cubic lattice: the symmetric supercells of three volumes, none below the requested density;
each of the three has one. -/
theorem findSupercells_rounded_cubic (hfl : Binary64 fl) (h : RecognisedPy U U0 k Cu M δ c L ℓ w)
    (hk : k ∈ [1, 3, 5]) (hi : InversePy inverse k Cu ι) (root kpd : ℤ) (h1 : 1 ≤ kpd)
    (hroot : root ^ 3 ≤ kpd ∧ kpd < (root + 2) ^ 3) (h2 : 16 * (kpd + 1000) ≤ 10 ^ 7) :
    ∃ (Bs : List (Matrix (Fin 3) (Fin 3) (Rounded fl))) (x y z : ℤ) (gen : ℤ → List IntMat),
      findSupercellsK inverse fl root U kpd false = .ok Bs ∧ kpd ≤ x ∧ x < y ∧ y < z ∧
      (∀ n ∈ [x, y, z], ListsSublattices (PointSym U0) n (gen n) ∧ gen n ≠ []) ∧
      SupercellsOf U0 (fun T => storedErr M δ c ℓ w ι T.det) Bs ([x, y, z].flatMap gen) := by
  have hr := niggliId_range h.id
  have hk' : k ∉ [31, 44] := by
    simp only [List.mem_cons, List.not_mem_nil, or_false] at hk ⊢
    omega
  obtain ⟨P, Q, p1, p2, p3, p4⟩ := findSupercellsK_stored hfl h hk' hi
  obtain ⟨x, y, z, G, hsel, a, b, c, d, e⟩ := select_cubic fl k hk kpd root h1 hroot (.inr ⟨hfl, h2⟩) _
    (reduced_canonC k hr.1 hr.2 hk')
  obtain ⟨Bs, b1, b2⟩ := p4 root kpd false _ hsel fun H hH => by
    obtain ⟨n, hn, hH⟩ := List.mem_flatMap.1 hH
    have hle := e n hn
    obtain ⟨a, b, -⟩ := ((d n hn).1.2 H).1 hH
    exact ⟨a, by omega⟩
  rw [h.pointSym]
  refine ⟨Bs, x, y, z, fun n => (G n).map fun H => P * H * Q, b1, a, b, c, fun n hn => ⟨?_, by simpa using (d n hn).2⟩, ?_⟩
  · refine lists_change p1 p2 p3 ?_ (d n hn).1
    simp only [List.mem_cons, List.not_mem_nil, or_false] at hn
    omega
  · simpa only [List.map_flatMap] using b2

/-- `find_supercells` for a triclinic lattice. -/
theorem findSupercellsK_tric (hfl : Binary64 fl) (h : RecognisedPy U U0 k Cu M δ c L ℓ w) (hk : k ∈ [31, 44])
    {l m : ℝ} (hi : InverseTric inverse U U0 Cu ι l m) (root kpt : ℤ) (exact : Bool) (Ls : List Mat3)
    (hL : selectHNFs fl root k kpt exact = .ok Ls) (N : ℤ) (hN : N ≤ 2 ^ 53) (hb : ∀ H ∈ Ls, ∀ i j, |H i j| ≤ N) :
    ∃ Bs, findSupercellsK inverse fl root U kpt exact = .ok Bs ∧
      SupercellsOf U0 (fun _ => tricErr M δ c L ℓ w ι l m N) Bs Ls := by
  have hu : Cu.toMat * Cu.toMat⁻¹ = 1 := mul_nonsing_inv _ h.unit
  have hu' := mul_eq_one_comm.1 hu
  have cI : CloseTo (fun x : Rounded fl => (x.q : ℝ)) (inverse (intMat Cu.toMat)) (toReal Cu.toMat)⁻¹
      ι w := ⟨hi.factor, fun i j => by rw [toReal_inv h.unit]; exact h.factor_inv i j⟩
  refine ⟨Ls.map (transformOneK inverse (matmulK U.toMatrix (intMat Cu.toMat))
    (matmulK U.toMatrix (intMat Cu.toMat)) Cu.toMat Cu.toMat U.toMatrix), ?_, ?_⟩
  · unfold findSupercellsK
    simp only [h.id, h.cell, if_pos hk, hL, transformSupercellsK]
  · have := supercellsOf_map (U0 := U0) (ε := fun _ => tricErr M δ c L ℓ w ι l m N) Ls
      (transformOneK inverse (matmulK U.toMatrix (intMat Cu.toMat))
        (matmulK U.toMatrix (intMat Cu.toMat)) Cu.toMat Cu.toMat U.toMatrix) (fun H => H) fun H hH i j => by
      have hent := hb H hH
      have e : Cu.toMat * Cu.toMat⁻¹ * H * (Cu.toMat * Cu.toMat⁻¹) = H := by
        rw [hu, Matrix.one_mul, Matrix.mul_one]
      have w0 : 0 ≤ w := (abs_nonneg _).trans (h.factor_inv 0 0)
      have n0 : (0 : ℝ) ≤ N := by exact_mod_cast (abs_nonneg _).trans (hent 0 0)
      have key := transformOneK_close (relative_rounded hfl) (N := N) (f := 9 * w * N * c) (H := H) hu hu h.ideal_det h.close
        hi.basis hi.reduced (by exact_mod_cast hN) (fun i j => by exact_mod_cast hent i j)
        (h.range.2.2.1.trans h.range.2.1) h.factor (h.niggli hfl) cI (fun i j => by
          have a := size_mul (A := toReal Cu.toMat⁻¹) (B := toReal H) (t := N) w0 (fun i j => h.factor_inv i j)
            (fun i j => by simp only [toReal, Matrix.map_apply]; exact_mod_cast hent i j)
          have b := size_mul (B := toReal Cu.toMat) (by positivity) a (fun i j => h.factor i j) i j
          rw [← toReal_mul, ← toReal_mul] at b
          have : |((Cu.toMat⁻¹ * H * Cu.toMat) i j : ℝ)| ≤ 3 * (3 * w * N) * c := b
          linarith) i j
      rw [e] at key
      exact key
    simpa using this

/-- C123, exact mode, for a triclinic lattice: all sublattices of index `n`. -/
theorem findSupercells_rounded_tric (hfl : Binary64 fl) (h : RecognisedPy U U0 k Cu M δ c L ℓ w) (hk : k ∈ [31, 44])
    {l m : ℝ} (hi : InverseTric inverse U U0 Cu ι l m) (root n : ℤ) (h1 : 1 ≤ n) (h2 : n ≤ 10 ^ 7) :
    ∃ Bs Ts, findSupercellsK inverse fl root U n true = .ok Bs ∧ ListsSublattices (PointSym U0) n Ts ∧
      SupercellsOf U0 (fun _ => tricErr M δ c L ℓ w ι l m n) Bs Ts := by
  have hr := niggliId_range h.id
  have hcb : ClassBasis k Cu := by
    unfold ClassBasis
    rw [if_pos hk]
    exact det_reducedCell h.cell
  obtain ⟨Ls, hL, hl⟩ := select_exact fl root k hr n (.inr ⟨hfl, h2⟩) _ hcb
  obtain ⟨Bs, b1, b2⟩ := findSupercellsK_tric hfl h hk hi root n true Ls hL n (by omega) fun H hH i j => by
    obtain ⟨a, b, -⟩ := (hl.2 H).1 hH
    have := hnf_entries a i j
    rwa [b] at this
  rw [h.pointSym]
  refine ⟨Bs, Ls, b1, ?_, b2⟩
  have := lists_change (k := k) (P := 1) (Q := 1) (Cu := Cu) (by simp) (by simp) (by simp) h1 hl
  simpa using this

/-- C123, search mode, for a triclinic lattice: all sublattices of one index `n`, scaled by `m` in each direction;
`n*m^3` is at most the requested density and `(n+1)*m^3` is above it. -/
theorem findSupercells_rounded_tric_search (hfl : Binary64 fl) (h : RecognisedPy U U0 k Cu M δ c L ℓ w)
    (hk : k ∈ [31, 44]) {l q : ℝ} (hi : InverseTric inverse U U0 Cu ι l q) (root kpd : ℤ) (h1 : 1 ≤ kpd)
    (h2 : kpd ≤ 10 ^ 14) :
    ∃ (Bs : List (Matrix (Fin 3) (Fin 3) (Rounded fl))) (n m : ℤ) (Ts : List IntMat),
      findSupercellsK inverse fl root U kpd false = .ok Bs ∧ 1 ≤ n ∧ n ≤ 100 ∧ 1 ≤ m ∧ n * m ^ 3 ≤ kpd ∧
      kpd < (n + 1) * m ^ 3 ∧ Bs ≠ [] ∧ ListsSublattices (PointSym U0) n Ts ∧
      SupercellsOf U0 (fun _ => tricErr M δ c L ℓ w ι l q (m * n : ℤ)) Bs (Ts.map fun T => m • T) := by
  obtain ⟨n, m, hsel, a, b, c, d, e, f⟩ := select_tric fl root k hk kpd h1 (.inr ⟨hfl, h2⟩)
  obtain ⟨t1, -, t2⟩ := tric_31_44_correct k hk n Cu.toMat (.inl (det_reducedCell h.cell))
  have hm : m * n ≤ n * m ^ 3 := by
    have : m ≤ m ^ 3 := by nlinarith [sq_nonneg (m - 1), sq_nonneg m]
    nlinarith
  obtain ⟨Bs, b1, b2⟩ := findSupercellsK_tric hfl h hk hi root kpd false _ hsel (m * n) (by omega) fun H hH i j => by
    obtain ⟨H0, hH0, rfl⟩ := List.mem_map.1 hH
    obtain ⟨x, y, -⟩ := (t2 H0).1 hH0
    have := hnf_entries x i j
    rw [y] at this
    rw [Matrix.smul_apply, smul_eq_mul, abs_mul, abs_of_nonneg (by omega : 0 ≤ m)]
    exact mul_le_mul_of_nonneg_left this (by omega)
  rw [h.pointSym]
  refine ⟨Bs, n, m, tric_31_44 n, b1, a, b, c, d, e, ?_, ?_, b2⟩
  · rintro rfl
    unfold SupercellsOf at b2
    rw [List.forall₂_nil_left_iff] at b2
    exact f (by simpa using b2)
  · have := lists_change (k := k) (P := 1) (Q := 1) (Co := Cu) (Cu := Cu) (by simp) (by simp) (by simp) a ⟨t1, t2⟩
    simpa using this

/-! ## Exact arithmetic -/

theorem matmulK_rat (A B : Matrix (Fin 3) (Fin 3) ℚ) : matmulK A B = A * B := by
  ext i j
  rw [Matrix.mul_apply, Fin.sum_univ_three]
  rfl

theorem intMat_rat (A : IntMat) : (intMat A : Matrix (Fin 3) (Fin 3) ℚ) = castMat A := rfl

theorem transformOneK_exact (No Nu O : Matrix (Fin 3) (Fin 3) ℚ) (Co Cu H : IntMat) :
    transformOneK (fun A => A⁻¹) No Nu Co Cu O H = transformOne No Nu (castMat Co) (castMat Cu) O H := by
  unfold transformOneK transformOne
  simp only [matmulK_rat, intMat_rat]

/-- In exact arithmetic, with exact inverses, this is the `find_supercells` of the other theorems. -/
theorem findSupercellsK_exact (fl : ℚ → ℚ) (root : ℤ) (U : RMat ℚ) (kpt : ℤ) (exact : Bool) :
    findSupercellsK (fun A => A⁻¹) fl root U kpt exact = findSupercells fl root U kpt exact := by
  have e (No Nu O : Matrix (Fin 3) (Fin 3) ℚ) (Co Cu : IntMat) :
      transformOneK (fun A => A⁻¹) No Nu Co Cu O = transformOne No Nu (castMat Co) (castMat Cu) O :=
    funext fun H => transformOneK_exact No Nu O Co Cu H
  unfold findSupercellsK findSupercells transformSupercellsK transformSupercells
  simp only [matmulK_rat, intMat_rat, e]
  cases niggliId U none with
  | error _ => rfl
  | ok k =>
    cases reducedCell U none with
    | error _ => rfl
    | ok Cu =>
      dsimp only
      cases (if k ∈ [31, 44] then some U else canonBasis k) with
      | none => rfl
      | some basis =>
        dsimp only
        cases reducedCell basis none with
        | error _ => rfl
        | ok Co =>
          dsimp only
          cases selectHNFs fl root k kpt exact with
          | error _ => rfl
          | ok _ => rfl

/-! ## Examples -/

theorem one_py (i j : Fin 3) : |((IMat.one.toMat i j : ℤ) : ℝ)| ≤ 1 := by
  rw [show IMat.one.toMat = 1 by decide]
  by_cases h : i = j <;> simp [Matrix.one_apply, h]

theorem one_inv_py (i j : Fin 3) : |((IMat.one.toMat⁻¹ i j : ℤ) : ℝ)| ≤ 1 := by
  rw [show IMat.one.toMat = 1 by decide, inv_one]
  by_cases h : i = j <;> simp [Matrix.one_apply, h]

theorem one_real_py : toReal IMat.one.toMat = 1 := by
  rw [show IMat.one.toMat = 1 by decide, toReal_one]

/-- The hexagonal crystal of `AccurateId.lean`, typed in with seven decimals. -/
theorem hexTyped_py : RecognisedPy (fl := roundNearest) hexTyped hexIdeal 12 IMat.one 10000 (5 / 10 ^ 8) 1 3 (8 / 5) 1 := by
  have hK := accurate_rounded roundNearest_binary64 (M := 10000) (by norm_num) (by norm_num)
  refine ⟨by decide +kernel, by decide +kernel, hexTyped_close hK (by norm_num), by rw [hexIdeal_det]; positivity,
    ⟨1, 1, 64 / 25, 0, 0, -1 / 2, ⟨by decide, ?_, hexIdeal_reduced⟩, by decide, by norm_num [NiggliClass, TypeII], ?_⟩,
    one_py, one_inv_py, ?_, ⟨by norm_num, by norm_num, by norm_num, by norm_num [opErr]⟩⟩
  · rw [one_real_py, Matrix.mul_one]
    exact hexIdeal_metric
  · norm_num [classTable, NiggliClass, TypeI, TypeII, List.takeWhile]
  · rw [one_real_py, Matrix.mul_one]
    exact entry_le hexIdeal_metric (by norm_num) (by norm_num) (by norm_num) (by norm_num)

theorem cofInverse_py : InversePy cofInverse 12 IMat.one (1 / 10 ^ 12) where
  basis := by
    intro O O' hO hO'
    exact cofInverse_stored.basis O O' hO hO'
  reduced := by
    intro O O' hO hO'
    rw [← matmulI_matmulK]
    exact cofInverse_stored.reduced O O' hO hO'
  factor := cofInverse_stored.factor

/-- Exact mode and search mode, for the typed hexagonal cell. -/
example : (∃ Bs Ts, findSupercellsK cofInverse roundNearest 4 hexTyped 100 true = .ok Bs ∧
      ListsSublattices (PointSym hexIdeal) 100 Ts ∧
      SupercellsOf hexIdeal (fun _ => storedErr 10000 (5 / 10 ^ 8) 1 (8 / 5) 1 (1 / 10 ^ 12) (100 : ℤ)) Bs Ts) ∧
    ∃ (Bs : List (Matrix (Fin 3) (Fin 3) (Rounded roundNearest))) (gen : ℤ → List IntMat),
      findSupercellsK cofInverse roundNearest 4 hexTyped 100 false = .ok Bs ∧
      ∀ n, 100 ≤ n → n ≤ 100 + 10 → ListsSublattices (PointSym hexIdeal) n (gen n) := by
  refine ⟨findSupercells_rounded roundNearest_binary64 hexTyped_py (by decide) cofInverse_py 4 100 (by norm_num)
    (by norm_num), ?_⟩
  obtain ⟨Bs, gen, h1, h2, -⟩ := findSupercells_rounded_search roundNearest_binary64 hexTyped_py (by decide) cofInverse_py 4
    100 (by norm_num) (by norm_num)
  exact ⟨Bs, gen, h1, h2⟩

/-- The bound on the error in this example. -/
example : storedErr 10000 (5 / 10 ^ 8) 1 (8 / 5) 1 (1 / 10 ^ 12) 100 ≤ 1 / 20 := by
  norm_num [storedErr, floatBackErr, changeErr, cellErr, opErr]

/-- A simple cubic cell. -/
theorem cubicTyped_py : RecognisedPy cubicTyped 1 3 IMat.one 10000 0 1 1 1 1 := by
  have h := cubicTyped_recognised
  exact ⟨by decide +kernel, by decide +kernel, h.close, h.ideal_det, h.right, h.factor, h.factor_inv, h.reduced, h.range⟩

theorem cofInverse_cubic_py : InversePy cofInverse 3 IMat.one (1 / 10 ^ 12) where
  basis := by
    intro O O' hO hO'
    exact cofInverse_cubic.basis O O' hO hO'
  reduced := by
    intro O O' hO hO'
    rw [← matmulI_matmulK]
    exact cofInverse_cubic.reduced O O' hO hO'
  factor := cofInverse_cubic.factor

example : ∃ (Bs : List (Matrix (Fin 3) (Fin 3) (Rounded roundNearest))) (x y z : ℤ) (gen : ℤ → List IntMat),
    findSupercellsK cofInverse roundNearest 4 cubicTyped 100 false = .ok Bs ∧ 100 ≤ x ∧ x < y ∧ y < z ∧
    ∀ n ∈ [x, y, z], ListsSublattices (PointSym 1) n (gen n) ∧ gen n ≠ [] := by
  obtain ⟨Bs, x, y, z, gen, h1, h2, h3, h4, h5, -⟩ := findSupercells_rounded_cubic roundNearest_binary64 cubicTyped_py
    (by decide) cofInverse_cubic_py 4 100 (by norm_num) (by norm_num) (by norm_num)
  exact ⟨Bs, x, y, z, gen, h1, h2, h3, h4, h5⟩

/-- A triclinic cell. -/
theorem tricTyped_py : RecognisedPy tricTyped (realMat tricRat.toMatrix) 31 IMat.one 10000 0 1 3 3 1 := by
  have h := tricTyped_recognised
  exact ⟨by decide +kernel, by decide +kernel, h.close, h.ideal_det, h.right, h.factor, h.factor_inv, h.reduced, h.range⟩

theorem cofInverse_tric_py :
    InverseTric cofInverse tricTyped (realMat tricRat.toMatrix) IMat.one (1 / 10 ^ 15) 1 1 := by
  have hd : tricRat.toMatrix.det ≠ 0 := by
    rw [← rdet_eq]
    decide +kernel
  have size : ∀ i j : Fin 3, |(realMat tricRat.toMatrix)⁻¹ i j| ≤ 1 := by
    intro i j
    have key : ∀ i j : Fin 3, |cof tricRat.toMatrix i j / Fortran.det3 tricRat.toMatrix| ≤ 1 := by decide +kernel
    rw [← realMat_inv hd]
    have := (Rat.cast_le (K := ℝ)).2 (key i j)
    rw [← inv_cof] at this
    push_cast at this
    exact this
  have inv1 : ∀ i j, |((cofInverse tricTyped.toMatrix i j).q : ℝ) - (realMat tricRat.toMatrix)⁻¹ i j| ≤ 1 / 10 ^ 15 := by
    intro i j
    have key : ∀ i j : Fin 3, |(cofInverse tricTyped.toMatrix i j).q - cof tricRat.toMatrix i j / Fortran.det3 tricRat.toMatrix| ≤
      1 / 10 ^ 15 := by decide +kernel
    rw [← realMat_inv hd]
    have := (Rat.cast_le (K := ℝ)).2 (key i j)
    rw [← inv_cof] at this
    push_cast at this
    exact this
  refine ⟨⟨inv1, size⟩, ?_, fun i j => ?_⟩
  · rw [one_real_py, Matrix.mul_one]
    have e : ∀ i j, (cofInverse (matmulK tricTyped.toMatrix (intMat IMat.one.toMat)) i j).q =
        (cofInverse tricTyped.toMatrix i j).q := by
      decide +kernel
    exact ⟨fun i j => by rw [e]; exact inv1 i j, size⟩
  · have key : ∀ i j : Fin 3, (cofInverse (intMat IMat.one.toMat) i j).q = (if i = j then 1 else 0) := by
      decide +kernel
    rw [key, one_real_py, inv_one, Matrix.one_apply]
    split_ifs <;> norm_num

example : (∃ Bs Ts, findSupercellsK cofInverse roundNearest 4 tricTyped 100 true = .ok Bs ∧
      ListsSublattices (PointSym (realMat tricRat.toMatrix)) 100 Ts ∧
      SupercellsOf (realMat tricRat.toMatrix) (fun _ => tricErr 10000 0 1 3 3 1 (1 / 10 ^ 15) 1 1 (100 : ℤ)) Bs Ts) ∧
    ∃ (Bs : List (Matrix (Fin 3) (Fin 3) (Rounded roundNearest))) (n m : ℤ) (Ts : List IntMat),
      findSupercellsK cofInverse roundNearest 9 tricTyped 900 false = .ok Bs ∧ n * m ^ 3 ≤ 900 ∧
      900 < (n + 1) * m ^ 3 ∧ ListsSublattices (PointSym (realMat tricRat.toMatrix)) n Ts := by
  refine ⟨findSupercells_rounded_tric roundNearest_binary64 tricTyped_py (by decide) cofInverse_tric_py 4 100 (by norm_num)
    (by norm_num), ?_⟩
  obtain ⟨Bs, n, m, Ts, h1, -, -, -, h2, h3, -, h4, -⟩ := findSupercells_rounded_tric_search roundNearest_binary64
    tricTyped_py (by decide) cofInverse_tric_py 9 900 (by norm_num) (by norm_num)
  exact ⟨Bs, n, m, Ts, h1, h2, h3, h4⟩

/-- The bound on the error in this example. -/
example : tricErr 10000 0 1 3 3 1 (1 / 10 ^ 15) 1 1 100 ≤ 1 / 10 ^ 6 := by
  norm_num [tricErr, floatBackErr, changeErr, cellErr, opErr]

/-! ### A finer cell, for the hypotheses of `recognisedPy_close` -/

/-- The hexagonal cell with twelve decimals. -/
def hexFine : RMat (Rounded roundNearest) :=
  ⟨ofInt 1, ofRat (-0.5), ofInt 0, ofInt 0, ofRat 0.866025403784, ofInt 0, ofInt 0, ofInt 0, ofRat 1.6⟩

theorem hexFine_close : CloseTo (fun x : Rounded roundNearest => (x.q : ℝ)) hexFine.toMatrix hexIdeal (1 / 10 ^ 12) 3 := by
  have key : ∀ i j : Fin 3, |(hexFine.toMatrix i j).q - (!![1, -1 / 2, 0; 0, 0.866025403784, 0; 0, 0, 8 / 5] :
      Matrix (Fin 3) (Fin 3) ℚ) i j| ≤ 1 / 10 ^ 15 := by decide +kernel
  have h1 : (1.732050807568 : ℝ) ≤ √3 := Real.le_sqrt_of_sq_le (by norm_num)
  have h2 : √3 ≤ 1.732050807569 := Real.sqrt_le_iff.2 ⟨by norm_num, by norm_num⟩
  constructor
  · intro i j
    have k := (Rat.cast_le (K := ℝ)).2 (key i j)
    push_cast at k
    have k' := abs_le.1 k
    clear key k
    rw [abs_le]
    revert k'
    generalize (hexFine.toMatrix i j).q = x
    fin_cases i <;> fin_cases j <;> norm_num [hexIdeal] <;> intros <;> constructor <;> linarith
  · intro i j
    fin_cases i <;> fin_cases j <;> norm_num [hexIdeal, abs_of_pos, abs_of_neg, abs_of_nonneg (Real.sqrt_nonneg 3)]
    linarith

theorem hexFine_tolerated {ε : ℝ} (h1 : |ε - 1 / 100000| ≤ 1 / 10 ^ 10) :
    Tolerated 1000 (opErr 1000) (1 / 10 ^ 12) 1 3 (8 / 5) |hexIdeal.det| ε (6 / 25) 1 := by
  have hd : hexIdeal.det = 4 / 5 * √3 := by
    rw [det_fin_three]
    simp [hexIdeal]
    ring
  have s1 : (1.732 : ℝ) ≤ √3 := Real.le_sqrt_of_sq_le (by norm_num)
  have s2 : √3 ≤ 1.7321 := Real.sqrt_le_iff.2 ⟨by norm_num, by norm_num⟩
  have h0 : 0 ≤ opErr 1000 := by unfold opErr; positivity
  have hη : opErr 1000 ≤ 1 / 10 ^ 12 := by norm_num [opErr]
  rw [hd, abs_of_nonneg (by linarith)]
  generalize opErr 1000 = η at h0 hη
  have c0 : 0 ≤ cellErr η (1 / 10 ^ 12) 1 := by unfold cellErr; positivity
  have c1 : cellErr η (1 / 10 ^ 12) 1 ≤ 1 / 10 ^ 11 := by unfold cellErr; linarith
  have d0 : 0 ≤ dotErr η (cellErr η (1 / 10 ^ 12) 1) (8 / 5) := by unfold dotErr; positivity
  have d1 : dotErr η (cellErr η (1 / 10 ^ 12) 1) (8 / 5) ≤ 2 / 10 ^ 10 := by
    unfold dotErr
    nlinarith
  have e0 : 0 ≤ sumErr η (1 / 10 ^ 12) 1 (8 / 5) := by unfold sumErr; positivity
  have e1 : sumErr η (1 / 10 ^ 12) 1 (8 / 5) ≤ 1 / 10 ^ 8 := by unfold sumErr; linarith
  have p1 : prodErr η (1 / 10 ^ 12) 3 ≤ 1 / 10 ^ 6 := by unfold prodErr; linarith
  have v1 : detErr η (1 / 10 ^ 12) 3 ≤ 1 / 10 ^ 4 := by unfold detErr tripleErr; linarith
  have a1 := abs_le.1 h1
  clear c0 c1 d0 d1 hd h1
  constructor
  · norm_num
  · norm_num
  · norm_num
  · linarith
  · linarith
  · nlinarith
  · exact ⟨1.1, by linarith, by linarith, by nlinarith⟩
  · nlinarith
  · exact ⟨1.2, by norm_num, by linarith, by nlinarith⟩
  · linarith
  · linarith
  · linarith
  · linarith
  · nlinarith

/-- The hypotheses of `recognisedPy_close` are met. -/
example : RecognisedPy hexFine hexIdeal 12 IMat.one 1000 (1 / 10 ^ 12) 1 3 (8 / 5) 1 := by
  refine recognisedPy_close roundNearest_binary64 (by norm_num) (by norm_num) hexFine_close (hexFine_tolerated ?_)
    (by decide +kernel) (by decide +kernel) one_py one_inv_py (by rw [one_real_py, Matrix.mul_one]; exact hexIdeal_metric)
    le_rfl (by norm_num) (by norm_num) (by norm_num) hexIdeal_gap (by rw [hexIdeal_det]; positivity)
  have key : |roundNearest (1 / 100000) - 1 / 100000| ≤ 1 / 10 ^ 10 := by decide +kernel
  have := (Rat.cast_le (K := ℝ)).2 key
  push_cast at this
  exact this

end AutoGR
