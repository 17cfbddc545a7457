import Verif.Spec.Shift
import Verif.Props.FortranKgrid

/-!
# C81: the offsets that are tried

`get_offsets` is documented to return the symmetry-preserving offsets of a class.
-/

namespace AutoGR.Fortran

open Spec Matrix

/-- C81: the grid without an offset is always tried, and tried first. -/
theorem offsets_zero_first (k : ℕ) (eq12 eq13 eq23 : Bool) (n1 n2 n3 : ℚ) :
    (get_offsets k eq12 eq13 eq23 n1 n2 n3).head? = some (0, 0, 0) := by
  unfold get_offsets
  split_ifs <;> rfl

/-- C81: the components of an offset are 0, 1/4, 1/2 or 3/4. -/
theorem offsets_quarters (k : ℕ) (eq12 eq13 eq23 : Bool) (n1 n2 n3 : ℚ) :
    ∀ s ∈ get_offsets k eq12 eq13 eq23 n1 n2 n3, s.1 ∈ [0, 1/4, 1/2, 3/4] ∧ s.2.1 ∈ [0, 1/4, 1/2, 3/4] ∧
      s.2.2 ∈ [0, 1/4, 1/2, 3/4] := by
  unfold get_offsets
  split_ifs <;> decide +kernel

/-- The base-centred classes. -/
def baseCentred : List ℕ := [40, 38, 36, 23, 13, 10, 14, 17, 20, 25, 27, 28, 29, 30, 37, 39, 41, 43]

/-- C81: no offset is offered twice, except for a base-centred lattice whose third vector is the shortest. -/
theorem offsets_distinct_partial (k : ℕ) (eq12 eq13 eq23 : Bool) (n1 n2 n3 : ℚ)
    (h : ¬ (k ∈ baseCentred ∧ n3 < n1 ∧ n3 < n2)) : (get_offsets k eq12 eq13 eq23 n1 n2 n3).Nodup := by
  unfold get_offsets
  unfold baseCentred at h
  split_ifs <;> first | decide +kernel | (exfalso; tauto)

/-- C81 is false there: the offset `(1/2, 1/4, 1/4)` is offered twice (and its companion `(0, 1/4, 1/4)`,
which the two other orientations have, is not offered). -/
theorem offsets_duplicate (k : ℕ) (hk : k ∈ baseCentred) (eq12 eq13 eq23 : Bool) (n1 n2 n3 : ℚ)
    (h1 : n3 < n1) (h2 : n3 < n2) :
    ¬ (get_offsets k eq12 eq13 eq23 n1 n2 n3).Nodup ∧
      (0, 1/4, 1/4) ∉ get_offsets k eq12 eq13 eq23 n1 n2 n3 := by
  have e : get_offsets k eq12 eq13 eq23 n1 n2 n3 =
      [(0, 0, 0), (0, 1/2, 0), (1/2, 0, 0), (1/2, 1/2, 0), (0, 1/4, 3/4), (1/2, 1/4, 3/4), (1/2, 1/4, 1/4),
        (1/2, 1/4, 1/4)] := by
    unfold baseCentred at hk
    unfold get_offsets
    rw [if_neg, if_neg, if_neg, if_neg, if_neg, if_pos hk, if_neg (fun h => absurd h.2 (not_lt.2 h1.le)),
      if_neg (fun h => absurd h.2 (not_lt.2 h2.le)), if_pos ⟨h1, h2⟩]
    all_goals (revert k; clear h1 h2; decide)
  rw [e]
  constructor <;> decide +kernel

/-- The hypotheses: class 40, vectors of lengths 3, 2 and 1. -/
example : ¬ (get_offsets 40 false false false 3 2 1).Nodup :=
  (offsets_duplicate 40 (by decide) false false false 3 2 1 (by norm_num) (by norm_num)).1

/-- The symmetries of the triclinic classes. -/
theorem classSym_tric (k : ℕ) (hk : k ∈ [31, 44]) {Co : IntMat} (hu : IsUnit Co.det) :
    ∀ X ∈ ClassSym k Co, X = 1 ∨ X = -1 := by
  intro X hX
  simp only [List.mem_cons, List.not_mem_nil, or_false] at hk
  rcases hk with rfl | rfl
  · exact classSym_trivial (M := ⟨8, 12, 12, 4, 1, 2⟩) (by decide +kernel) (by decide +kernel)
      (by witness_red) (by witness_class) hu hX
  · exact classSym_trivial (M := ⟨10, 16, 16, -3, -1, -3⟩) (by decide +kernel)
      (by decide +kernel) (by witness_red) (by witness_class) hu hX

variable {equal : ℚ → ℚ → ℚ → Bool} {U : RMat ℚ} {eps rho : ℚ} {r : IdCell}

/-- C81, for the triclinic lattices: the offsets do keep the symmetry of every grid. -/
theorem offsets_tric (h : Recognised equal U eps rho r) (hk : r.id ∈ [31, 44]) (eq12 eq13 eq23 : Bool)
    (n1 n2 n3 : ℚ) (Q K : Matrix (Fin 3) (Fin 3) ℝ) (hQ : Qᵀ * Q = 1)
    (hX : ∃ X : IntMat, Q * realCell U = realCell U * toReal X) :
    ∀ s ∈ get_offsets r.id eq12 eq13 eq23 n1 n2 n3, KeepsShifted Q K s := by
  obtain ⟨X, hX⟩ := hX
  have he : (0 : ℚ) ≤ eps := le_trans (by norm_num) h.eps_ge
  have hU : IsUnit (realCell U).det := isUnit_iff_ne_zero.2 h.real_det
  have hCu : r.Cu.toMat.det = 1 := (reduceCell_same_lattice equal U (some eps) _ h.parts.1).1
  have hm : X ∈ ClassSym r.id r.Cu.toMat := by
    rw [← idCell_pointSym equal U eps r h.found rho he (h.eps_ge.trans h.eps_le) h.eps_le h.apart h.red]
    exact ⟨Q, hQ, hX⟩
  have hoff : get_offsets r.id eq12 eq13 eq23 n1 n2 n3 = [(0, 0, 0), (1/2, 1/2, 1/2)] := by
    revert hk
    generalize r.id = k
    intro hk
    simp only [List.mem_cons, List.not_mem_nil, or_false] at hk
    rcases hk with rfl | rfl <;> rfl
  have cancel : ∀ A : Matrix (Fin 3) (Fin 3) ℝ, Q * realCell U = A * realCell U → Q = A := by
    intro A hA
    have := congrArg (· * (realCell U)⁻¹) hA
    simpa only [Matrix.mul_assoc, mul_nonsing_inv _ hU, Matrix.mul_one] using this
  rw [hoff]
  intro s hs z
  rcases classSym_tric r.id hk (by rw [hCu]; exact isUnit_one) X hm with rfl | rfl
  · have : Q = 1 := cancel 1 (by rw [hX, toReal_one, Matrix.mul_one, Matrix.one_mul])
    exact ⟨z, by rw [this, Matrix.one_mulVec]⟩
  · have hQ1 : Q = -1 := cancel (-1) (by
      rw [hX, toReal_neg, toReal_one, Matrix.mul_neg, Matrix.mul_one, Matrix.neg_mul, Matrix.one_mul])
    rw [hQ1, Matrix.neg_mulVec, Matrix.one_mulVec, ← Matrix.mulVec_neg]
    simp only [List.mem_cons, List.not_mem_nil, or_false] at hs
    rcases hs with rfl | rfl
    · refine ⟨fun i => -z i, ?_⟩
      congr 1
      ext i
      fin_cases i <;> simp [offsetVec, vecHead, vecTail]
    · refine ⟨fun i => -z i - 1, ?_⟩
      congr 1
      ext i
      fin_cases i <;> simp [offsetVec, vecHead, vecTail] <;> ring

/-- The hypotheses: the triclinic lattice of C80, and the inversion. -/
example (K : Matrix (Fin 3) (Fin 3) ℝ) : ∀ s ∈ get_offsets 44 false false false 3 4 5, KeepsShifted (-1) K s :=
  offsets_tric tricCell_recognised (by decide) false false false 3 4 5 (-1) K (by simp)
    ⟨-1, by rw [toReal_neg, toReal_one]; simp⟩

/-- C81 is false for the simple cubic lattice: the offset `(1/2, 0, 0)` is among those offered, and the quarter
turn about the third axis, a symmetry of the lattice and of the grid, does not keep the shifted grid. -/
theorem offsets_cubic_wrong (eq12 eq13 eq23 : Bool) (n1 n2 n3 : ℚ) :
    let Q : Matrix (Fin 3) (Fin 3) ℝ := !![0, -1, 0; 1, 0, 0; 0, 0, 1]
    (1/2, 0, 0) ∈ get_offsets 3 eq12 eq13 eq23 n1 n2 n3 ∧ Qᵀ * Q = 1 ∧
      (∃ X : IntMat, Q * 1 = 1 * toReal X) ∧ ¬ KeepsShifted Q 1 (1/2, 0, 0) := by
  intro Q
  refine ⟨by simp [get_offsets], ?_, ⟨!![0, -1, 0; 1, 0, 0; 0, 0, 1], ?_⟩, ?_⟩
  · ext i j
    fin_cases i <;> fin_cases j <;> simp [Q, Matrix.mul_apply, Fin.sum_univ_three]
  · ext i j
    fin_cases i <;> fin_cases j <;> simp [Q, toReal]
  · intro h
    obtain ⟨z', hz⟩ := h 0
    have h0 := congrFun hz 0
    simp [Q, offsetVec, Matrix.mulVec, dotProduct, Fin.sum_univ_three] at h0
    have h2 : (2 * z' 0 : ℝ) = -1 := by linarith
    have h3 : 2 * z' 0 = -1 := by exact_mod_cast h2
    omega

end AutoGR.Fortran
