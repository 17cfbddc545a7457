import Verif.Spec.RegularShift
import Verif.Props.LatticeSym
import Verif.Lemmas.Grid

/-!
# The shifts that keep the symmetry of a regular grid
-/

namespace AutoGR.Fortran

open Spec Matrix

theorem dots_eq (U : Matrix (Fin 3) (Fin 3) ℝ) (i j : Fin 3) : (Uᵀ * U) i j = dots U i j := by
  rw [Matrix.mul_apply]; rfl

theorem dots_pos {U : Matrix (Fin 3) (Fin 3) ℝ} (hU : U.det ≠ 0) (i : Fin 3) : 0 < dots U i i := by
  rcases (Finset.sum_nonneg fun k _ => mul_self_nonneg (U k i) : 0 ≤ ∑ k, U k i * U k i).eq_or_lt with h | h
  · exfalso
    apply hU
    refine Matrix.det_eq_zero_of_column_eq_zero i fun k => ?_
    have := (Finset.sum_eq_zero_iff_of_nonneg fun k _ => mul_self_nonneg (U k i)).1 h.symm k (Finset.mem_univ k)
    exact mul_self_eq_zero.1 this
  · exact h

/-- An integer matrix that keeps perpendicular vectors of lengths `√D` permutes them, up to the sign. -/
theorem signed_perm {D : Fin 3 → ℝ} (hD : ∀ i, 0 < D i) {X : IntMat}
    (h : (toReal X)ᵀ * diagonal D * toReal X = diagonal D) :
    ∀ i j, X i j ≠ 0 → (X i j = 1 ∨ X i j = -1) ∧ D i = D j ∧ ∀ i', i' ≠ i → X i' j = 0 := by
  have hcol : ∀ j, ∑ i, (X i j : ℝ) ^ 2 * D i = D j := by
    intro j
    have := congrFun (congrFun h j) j
    rw [Matrix.mul_apply, diagonal_apply_eq] at this
    rw [← this]
    refine Finset.sum_congr rfl fun i _ => ?_
    rw [Matrix.mul_diagonal]
    simp only [transpose_apply, toReal, map_apply]
    ring
  have hle : ∀ i j, X i j ≠ 0 → D i ≤ D j := by
    intro i j hij
    rw [← hcol j]
    refine le_trans ?_ (Finset.single_le_sum (f := fun i => (X i j : ℝ) ^ 2 * D i)
      (fun i _ => mul_nonneg (sq_nonneg _) (hD i).le) (Finset.mem_univ i))
    have h1 : (1 : ℝ) ≤ (X i j : ℝ) ^ 2 := by
      have : (1 : ℤ) ≤ X i j ^ 2 := by have := sq_pos_of_ne_zero hij; omega
      exact_mod_cast this
    nlinarith [hD i]
  have hdet : X.det ≠ 0 := by
    intro h0
    have h1 := congrArg Matrix.det h
    rw [det_mul, det_mul, toReal_det, h0, det_diagonal] at h1
    have : 0 < ∏ i, D i := Finset.prod_pos fun i _ => hD i
    simp at h1
    linarith [h1.symm]
  obtain ⟨σ, -, hσ⟩ := Finset.exists_ne_zero_of_sum_ne_zero (det_apply X ▸ hdet)
  have hσ : ∀ j, X (σ j) j ≠ 0 := by
    intro j hj
    refine hσ ?_
    have : ∏ i, X (σ i) i = 0 := Finset.prod_eq_zero (Finset.mem_univ j) hj
    rw [this, smul_zero]
  have hs : ∑ j, D (σ j) = ∑ j, D j := Equiv.sum_comp σ D
  have heq : ∀ j, D (σ j) = D j := by
    have := (Finset.sum_eq_sum_iff_of_le (s := Finset.univ) fun j _ => hle (σ j) j (hσ j)).1 hs
    exact fun j => this j (Finset.mem_univ j)
  -- the column `j` has one entry
  have hone : ∀ j, (X (σ j) j = 1 ∨ X (σ j) j = -1) ∧ ∀ i', i' ≠ σ j → X i' j = 0 := by
    intro j
    have hz : ∀ i', i' ≠ σ j → X i' j = 0 := by
      intro i' hi'
      by_contra hne
      have h1 : ∀ i, X i j ≠ 0 → D i ≤ (X i j : ℝ) ^ 2 * D i := by
        intro i hij
        have h1 : (1 : ℝ) ≤ (X i j : ℝ) ^ 2 := by
          have : (1 : ℤ) ≤ X i j ^ 2 := by have := sq_pos_of_ne_zero hij; omega
          exact_mod_cast this
        nlinarith [hD i]
      have h2 := hcol j
      rw [← Finset.add_sum_erase _ _ (Finset.mem_univ (σ j))] at h2
      have h3 := Finset.single_le_sum (s := Finset.univ.erase (σ j)) (f := fun i => (X i j : ℝ) ^ 2 * D i)
        (fun i _ => mul_nonneg (sq_nonneg _) (hD i).le) (Finset.mem_erase.2 ⟨hi', Finset.mem_univ i'⟩)
      have h4 := h1 _ hne
      have h5 := h1 _ (hσ j)
      rw [heq j] at h5
      have := hD i'
      rw [heq j] at h2
      linarith
    refine ⟨?_, hz⟩
    have h2 := hcol j
    rw [Finset.sum_eq_single (σ j) (fun i _ hi => by rw [hz i hi]; simp) (by simp), heq j] at h2
    have h3 : (X (σ j) j : ℝ) ^ 2 = 1 := by
      have := hD j
      field_simp at h2
      linarith
    have h4 : X (σ j) j ^ 2 = 1 := by exact_mod_cast h3
    exact mul_self_eq_one_iff.1 (by rw [← sq]; exact h4)
  intro i j hij
  have hi : i = σ j := by
    by_contra hne
    exact hij ((hone j).2 i hne)
  subst hi
  exact ⟨(hone j).1, heq j, (hone j).2⟩

theorem offsetVec_zero : offsetVec (0, 0, 0) = 0 := by
  ext i
  fin_cases i <;> simp [offsetVec]

/-- The condition on a shift, when the map acts on the grid by `Y`. -/
theorem keepsShifted_iff {Q K : Matrix (Fin 3) (Fin 3) ℝ} (hK : K.det ≠ 0) {Y : IntMat}
    (hY : Q * K = K * toReal Y) (s : ℚ × ℚ × ℚ) :
    KeepsShifted Q K s ↔
      ∃ w : Fin 3 → ℤ, toReal Y *ᵥ offsetVec s = offsetVec s + fun i => (w i : ℝ) := by
  have hu : IsUnit K.det := isUnit_iff_ne_zero.2 hK
  have inj : ∀ v w : Fin 3 → ℝ, K *ᵥ v = K *ᵥ w → v = w := by
    intro v w h
    have := congrArg (K⁻¹ *ᵥ ·) h
    simpa only [mulVec_mulVec, nonsing_inv_mul _ hu, one_mulVec] using this
  have hYz : ∀ z : Fin 3 → ℤ, toReal Y *ᵥ (fun i => (z i : ℝ)) = fun i => (((Y *ᵥ z) i : ℤ) : ℝ) := by
    intro z
    ext i
    simp [mulVec, dotProduct, toReal]
  constructor
  · intro h
    obtain ⟨z', hz⟩ := h 0
    rw [mulVec_mulVec, hY, ← mulVec_mulVec] at hz
    refine ⟨z', ?_⟩
    have e : (fun i : Fin 3 => (((0 : Fin 3 → ℤ) i : ℤ) : ℝ)) = 0 := by ext i; simp
    rw [e, add_zero] at hz
    exact inj _ _ hz
  · rintro ⟨w, hw⟩ z
    refine ⟨w + Y *ᵥ z, ?_⟩
    rw [mulVec_mulVec, hY, ← mulVec_mulVec, mulVec_add, hw, hYz]
    congr 1
    ext i
    simp only [Pi.add_apply, Int.cast_add]
    ring

theorem keepsShifted_zero {Q K : Matrix (Fin 3) (Fin 3) ℝ} (h : KeepsShifted Q K (0, 0, 0)) :
    ∃ Y : IntMat, Q * K = K * toReal Y := by
  choose f hf using h
  refine ⟨Matrix.of fun i j => f (Pi.single j 1) i, ?_⟩
  ext i j
  have := congrFun (hf (Pi.single j 1)) i
  rw [offsetVec_zero, zero_add, zero_add, mulVec_mulVec] at this
  have e : (fun k => ((Pi.single j (1 : ℤ) : Fin 3 → ℤ) k : ℝ)) = Pi.single j 1 := by
    ext k
    by_cases hk : k = j
    · subst hk; simp
    · simp [Pi.single_eq_of_ne hk]
  rw [e, mulVec_single_one] at this
  rw [show (Q * K) i j = (Q * K).col j i from rfl, this]
  rw [Matrix.mul_apply]
  rfl

section
variable {U : Matrix (Fin 3) (Fin 3) ℝ} {n : Fin 3 → ℕ}

theorem regularGrid_det (hU : U.det ≠ 0) (hn : ∀ i, 0 < n i) : (regularGrid U n).det ≠ 0 := by
  have hu : IsUnit Uᵀ.det := by rw [det_transpose]; exact isUnit_iff_ne_zero.2 hU
  rw [regularGrid, det_mul, det_diagonal]
  refine mul_ne_zero ?_ (Finset.prod_ne_zero_iff.2 fun i _ => ?_)
  · exact (isUnit_nonsing_inv_det _ hu).ne_zero
  · have := hn i
    positivity

theorem regularGrid_cell (hU : U.det ≠ 0) : (regularGrid U n)ᵀ * U = diagonal fun i => 1 / (n i : ℝ) := by
  have hu : IsUnit U.det := isUnit_iff_ne_zero.2 hU
  rw [regularGrid, transpose_mul, ← transpose_nonsing_inv, transpose_transpose, diagonal_transpose,
    Matrix.mul_assoc, nonsing_inv_mul _ hu, Matrix.mul_one]

/-- A map that takes the lattice vectors by `X` takes the grid by `Y`. -/
theorem dual_action (hU : U.det ≠ 0) {Q : Matrix (Fin 3) (Fin 3) ℝ} (hQ : Qᵀ * Q = 1) {X Y : IntMat}
    (hX : Q * U = U * toReal X) (hY : Q * regularGrid U n = regularGrid U n * toReal Y) :
    (toReal Y)ᵀ * (diagonal fun i => 1 / (n i : ℝ)) * toReal X = diagonal fun i => 1 / (n i : ℝ) := by
  rw [← regularGrid_cell (n := n) hU]
  set K := regularGrid U n
  calc (toReal Y)ᵀ * (Kᵀ * U) * toReal X = (K * toReal Y)ᵀ * (U * toReal X) := by
        rw [transpose_mul]; simp only [Matrix.mul_assoc]
    _ = Kᵀ * (Qᵀ * Q) * U := by rw [← hX, ← hY, transpose_mul]; simp only [Matrix.mul_assoc]
    _ = Kᵀ * U := by rw [hQ, Matrix.mul_one]

/-- The entries of the same equation. -/
theorem dual_entry {X Y : IntMat}
    (h : (toReal Y)ᵀ * (diagonal fun i => 1 / (n i : ℝ)) * toReal X = diagonal fun i => 1 / (n i : ℝ)) (j k : Fin 3) :
    ∑ i, (Y i j : ℝ) * (X i k : ℝ) / (n i : ℝ) = if j = k then 1 / (n j : ℝ) else 0 := by
  have := congrFun (congrFun h j) k
  rw [Matrix.mul_apply, diagonal_apply] at this
  rw [← this]
  refine Finset.sum_congr rfl fun i _ => ?_
  rw [Matrix.mul_diagonal]
  simp only [transpose_apply, toReal, map_apply]
  ring

theorem half_of_neg {s : ℚ × ℚ × ℚ} (hU : U.det ≠ 0) (hn : ∀ i, 0 < n i) (hs : InCell s) (h : KeepsSymmetry U n s) :
    ∀ i, offsetVec s i = 0 ∨ offsetVec s i = 1 / 2 := by
  have h1 := h (-1) (by simp) ⟨-1, by rw [toReal_neg, toReal_one]; simp⟩
  rw [keepsShifted_iff (regularGrid_det hU hn) (Y := -1) (by rw [toReal_neg, toReal_one]; simp)] at h1
  obtain ⟨w, hw⟩ := h1
  have hc : ∀ i, 0 ≤ offsetVec s i ∧ offsetVec s i < 1 := by
    obtain ⟨a, b, c, d, e, f⟩ := hs
    intro i
    fin_cases i <;> simp only [offsetVec] <;> constructor <;> simp <;> assumption_mod_cast
  intro i
  have hi := congrFun hw i
  rw [toReal_neg, toReal_one, neg_mulVec, one_mulVec] at hi
  simp only [Pi.neg_apply, Pi.add_apply] at hi
  obtain ⟨a, b⟩ := hc i
  have h2 : (w i : ℝ) = -2 * offsetVec s i := by linarith
  have h3 : (-2 : ℝ) < w i := by rw [h2]; linarith
  have h4 : (w i : ℝ) ≤ 0 := by rw [h2]; linarith
  have h5 : (-2 : ℤ) < w i := by exact_mod_cast h3
  have h6 : w i ≤ 0 := by exact_mod_cast h4
  have : w i = 0 ∨ w i = -1 := by omega
  rcases this with e | e <;> rw [e] at h2
  · left; push_cast at h2; linarith
  · right; push_cast at h2; linarith

theorem inCell_vec {s : ℚ × ℚ × ℚ} (hs : InCell s) (i : Fin 3) : 0 ≤ offsetVec s i ∧ offsetVec s i < 1 := by
  obtain ⟨a, b, c, d, e, f⟩ := hs
  fin_cases i <;> simp only [offsetVec] <;> constructor <;> simp <;> assumption_mod_cast

/-- The exchange of two vectors. -/
def swapMat (i j : Fin 3) : IntMat := Matrix.of fun a b => if Equiv.swap i j a = b then 1 else 0

/-- A lattice symmetry that exchanges two of the vectors. -/
theorem swap_equal {s : ℚ × ℚ × ℚ} (hU : U.det ≠ 0) (hn : ∀ i, 0 < n i) (hs : InCell s)
    (h0 : KeepsSymmetry U n (0, 0, 0)) (h : KeepsSymmetry U n s) {i j : Fin 3}
    (hX : swapMat i j ∈ PointSym U) : n i = n j ∧ offsetVec s i = offsetVec s j := by
  obtain ⟨Q, hQ, hX⟩ := hX
  obtain ⟨Y, hY⟩ := keepsShifted_zero (h0 Q hQ ⟨_, hX⟩)
  have hd := dual_entry (dual_action hU hQ hX hY)
  have hent : ∀ a b, swapMat i j a b = if Equiv.swap i j a = b then 1 else 0 := fun a b => rfl
  -- the entries of `Y`
  have hY1 : ∀ a b, (Y a b : ℝ) = if b = Equiv.swap i j a then (n a : ℝ) / n b else 0 := by
    intro a b
    have := hd b (Equiv.swap i j a)
    rw [Finset.sum_eq_single a] at this
    · rw [hent, if_pos rfl] at this
      have ha : (n a : ℝ) ≠ 0 := by have := hn a; positivity
      have hb : (n b : ℝ) ≠ 0 := by have := hn b; positivity
      split_ifs at this ⊢ with hc
      · field_simp at this ⊢
        simpa using this
      · simpa [ha] using this
    · intro c _ hc
      rw [hent, if_neg (fun e => hc ((Equiv.swap i j).injective e))]
      simp
    · simp
  have e1 : (Y i j : ℝ) = (n i : ℝ) / n j := by rw [hY1, if_pos (Equiv.swap_apply_left i j).symm]
  have e2 : (Y j i : ℝ) = (n j : ℝ) / n i := by rw [hY1, if_pos (Equiv.swap_apply_right i j).symm]
  have pi : (0 : ℝ) < n i := by exact_mod_cast hn i
  have pj : (0 : ℝ) < n j := by exact_mod_cast hn j
  have hni : n i = n j := by
    have d1 : (n i : ℝ) = Y i j * n j := by rw [e1]; field_simp
    have d2 : (n j : ℝ) = Y j i * n i := by rw [e2]; field_simp
    have d1 : (n i : ℤ) = Y i j * n j := by exact_mod_cast d1
    have d2 : (n j : ℤ) = Y j i * n i := by exact_mod_cast d2
    have l1 : (n i : ℤ) ≤ n j := Int.le_of_dvd (by exact_mod_cast hn j) ⟨Y j i, by rw [mul_comm]; exact d2⟩
    have l2 : (n j : ℤ) ≤ n i := Int.le_of_dvd (by exact_mod_cast hn i) ⟨Y i j, by rw [mul_comm]; exact d1⟩
    omega
  refine ⟨hni, ?_⟩
  obtain ⟨w, hw⟩ := (keepsShifted_iff (regularGrid_det hU hn) hY s).1 (h Q hQ ⟨_, hX⟩)
  have hwi := congrFun hw i
  have : (toReal Y *ᵥ offsetVec s) i = offsetVec s j := by
    rw [mulVec, dotProduct, Finset.sum_eq_single j]
    · rw [toReal, map_apply, e1, hni, div_self pj.ne', one_mul]
    · intro b _ hb
      rw [toReal, map_apply, hY1, if_neg (by rw [Equiv.swap_apply_left]; exact hb), zero_mul]
    · simp
  rw [this, Pi.add_apply] at hwi
  have a1 := inCell_vec hs i
  have a2 := inCell_vec hs j
  have b1 : (-1 : ℝ) < w i := by linarith
  have b2 : (w i : ℝ) < 1 := by linarith
  have b1 : (-1 : ℤ) < w i := by exact_mod_cast b1
  have b2 : w i < 1 := by exact_mod_cast b2
  have : w i = 0 := by omega
  rw [this] at hwi
  simpa using hwi.symm

theorem rectangular_diag (hr : Rectangular U) : Uᵀ * U = diagonal fun i => dots U i i := by
  ext i j
  rw [dots_eq, diagonal_apply]
  split_ifs with h
  · rw [h]
  · exact hr i j h

/-- The grid has perpendicular vectors as well. -/
theorem regular_metric (hU : U.det ≠ 0) (hr : Rectangular U) {Q : Matrix (Fin 3) (Fin 3) ℝ} (hQ : Qᵀ * Q = 1)
    {Y : IntMat} (hY : Q * regularGrid U n = regularGrid U n * toReal Y) :
    (toReal Y)ᵀ * (diagonal fun i => 1 / (dots U i i * (n i : ℝ) ^ 2)) * toReal Y =
      diagonal fun i => 1 / (dots U i i * (n i : ℝ) ^ 2) := by
  have hu : IsUnit U.det := isUnit_iff_ne_zero.2 hU
  have hD : ∀ i, 0 < dots U i i := dots_pos hU
  have e : (regularGrid U n)ᵀ * regularGrid U n = diagonal fun i => 1 / (dots U i i * (n i : ℝ) ^ 2) := by
    have e1 : (Uᵀ)⁻¹ = U * diagonal fun i => 1 / dots U i i := by
      have hd : (diagonal fun i => dots U i i) * (diagonal fun i => 1 / dots U i i) = 1 := by
        rw [diagonal_mul_diagonal, ← diagonal_one]
        congr 1
        ext i
        exact mul_one_div_cancel (hD i).ne'
      refine Matrix.inv_eq_right_inv ?_
      rw [← Matrix.mul_assoc, rectangular_diag hr, hd]
    have e2 := regularGrid_cell (n := n) hU
    have e3 : regularGrid U n = U * ((diagonal fun i => 1 / dots U i i) * diagonal fun i => 1 / (n i : ℝ)) := by
      rw [regularGrid, e1, Matrix.mul_assoc]
    calc (regularGrid U n)ᵀ * regularGrid U n
        = (regularGrid U n)ᵀ * (U * ((diagonal fun i => 1 / dots U i i) * diagonal fun i => 1 / (n i : ℝ))) :=
          congrArg ((regularGrid U n)ᵀ * ·) e3
      _ = _ := by
        rw [← Matrix.mul_assoc, e2, diagonal_mul_diagonal, diagonal_mul_diagonal]
        congr 1
        ext i
        ring
  rw [← e]
  calc (toReal Y)ᵀ * ((regularGrid U n)ᵀ * regularGrid U n) * toReal Y
      = (regularGrid U n * toReal Y)ᵀ * (regularGrid U n * toReal Y) := by
        rw [transpose_mul]; simp only [Matrix.mul_assoc]
    _ = (regularGrid U n)ᵀ * (Qᵀ * Q) * regularGrid U n := by
        rw [← hY, transpose_mul]; simp only [Matrix.mul_assoc]
    _ = _ := by rw [hQ, Matrix.mul_one]

/-- The shifts that keep the symmetry, for perpendicular lattice vectors. -/
theorem keeps_rectangular {s : ℚ × ℚ × ℚ} (hU : U.det ≠ 0) (hr : Rectangular U) (hn : ∀ i, 0 < n i)
    (h0 : KeepsSymmetry U n (0, 0, 0)) (hs : InCell s) :
    KeepsSymmetry U n s ↔ (∀ i, offsetVec s i = 0 ∨ offsetVec s i = 1 / 2) ∧
      ∀ i j, dots U i i = dots U j j → offsetVec s i = offsetVec s j := by
  have hD : ∀ i, 0 < dots U i i := dots_pos hU
  constructor
  · intro h
    refine ⟨half_of_neg hU hn hs h, fun i j hij => ?_⟩
    refine (swap_equal hU hn hs h0 h ?_).2
    rw [pointSym_iff hU, rectangular_diag hr]
    ext a b
    rw [Matrix.mul_apply, diagonal_apply]
    simp only [Matrix.mul_diagonal, transpose_apply, toReal, map_apply, swapMat, of_apply]
    rw [Finset.sum_eq_single (Equiv.swap i j a)]
    · rw [Equiv.swap_apply_self]
      have : dots U (Equiv.swap i j a) (Equiv.swap i j a) = dots U a a := by
        rw [Equiv.swap_apply_def]
        split_ifs with h1 h2
        · rw [h1, hij]
        · rw [h2, hij]
        · rfl
      rw [this]
      by_cases hab : a = b <;> simp [hab]
    · intro c _ hc
      rw [if_neg (fun e => hc (by rw [← e, Equiv.swap_apply_self]))]
      simp
    · simp
  · rintro ⟨hh, he⟩ Q hQ ⟨X, hX⟩
    obtain ⟨Y, hY⟩ := keepsShifted_zero (h0 Q hQ ⟨_, hX⟩)
    have hd := dual_entry (dual_action hU hQ hX hY)
    have hPX := signed_perm hD (by rw [← rectangular_diag hr]; exact (pointSym_iff hU).1 ⟨Q, hQ, hX⟩)
    rw [keepsShifted_iff (regularGrid_det hU hn) hY]
    have hPY := signed_perm (D := fun i => 1 / (dots U i i * (n i : ℝ) ^ 2))
      (fun i => by have := hD i; have := hn i; positivity) (regular_metric hU hr hQ hY)
    have hrow : ∀ i, ∃ k, X i k ≠ 0 := by
      intro i
      by_contra hc
      push Not at hc
      have h1 := dual_action hU hQ hX hY
      have h2 := congrArg Matrix.det h1
      rw [det_mul, toReal_det, det_eq_zero_of_row_eq_zero i hc, det_diagonal] at h2
      have : (0 : ℝ) < ∏ i, 1 / (n i : ℝ) := Finset.prod_pos fun i _ => by have := hn i; positivity
      simp only [Int.cast_zero, mul_zero] at h2
      linarith
    have hrowY : ∀ i, ∃ k, (Y i k = 1 ∨ Y i k = -1) ∧ (∀ j, j ≠ k → Y i j = 0) ∧ offsetVec s k = offsetVec s i := by
      intro i
      obtain ⟨k, hk⟩ := hrow i
      obtain ⟨hk1, hk2, hk3⟩ := hPX i k hk
      have hi : (n i : ℝ) ≠ 0 := by have := hn i; positivity
      have hY2 : ∀ j, (Y i j : ℝ) * (X i k : ℝ) / (n i : ℝ) = if j = k then 1 / (n j : ℝ) else 0 := by
        intro j
        rw [← hd j k, Finset.sum_eq_single i (fun b _ hb => by rw [hk3 b hb]; simp) (by simp)]
      have hX0 : (X i k : ℝ) ≠ 0 := by exact_mod_cast hk
      refine ⟨k, (hPY i k ?_).1, fun j hj => ?_, (he i k hk2).symm⟩
      · intro h0
        have := hY2 k
        rw [h0, if_pos rfl] at this
        have hk : (0 : ℝ) < 1 / (n k : ℝ) := by have := hn k; positivity
        rw [← this] at hk
        simp at hk
      · have := hY2 j
        rw [if_neg hj] at this
        simpa [hX0, hi] using this
    have : ∀ i, ∃ w : ℤ, (toReal Y *ᵥ offsetVec s) i = offsetVec s i + w := by
      intro i
      obtain ⟨k, h1, h2, h3⟩ := hrowY i
      have e : (toReal Y *ᵥ offsetVec s) i = Y i k * offsetVec s i := by
        rw [mulVec, dotProduct, Finset.sum_eq_single k (fun b _ hb => by simp [toReal, h2 b hb]) (by simp), h3]
        rfl
      rw [e]
      rcases h1 with h1 | h1 <;> rw [h1]
      · exact ⟨0, by simp⟩
      · rcases hh i with h4 | h4 <;> rw [h4]
        · exact ⟨0, by simp⟩
        · exact ⟨-1, by norm_num⟩
    choose w hw using this
    exact ⟨w, funext hw⟩

theorem sum_three {M : Type} [AddCommMonoid M] (f : Fin 3 → M) {i j c : Fin 3} (hij : i ≠ j) (hic : i ≠ c) (hjc : j ≠ c) :
    ∑ a, f a = f i + f j + f c := by
  rw [Fin.sum_univ_three]
  fin_cases i <;> fin_cases j <;> fin_cases c <;> first | (exfalso; simp at hij hic hjc; done) | skip
  all_goals simp only [Fin.zero_eta, Fin.mk_one, Fin.reduceFinMk]
  all_goals abel

/-- A symmetry of a hexagonal lattice keeps the axis. -/
theorem hex_axis (hU : U.det ≠ 0) {i j c : Fin 3} (hij : i ≠ j) (hic : i ≠ c) (hjc : j ≠ c) (hh : HexagonalAbout c U)
    {X : IntMat} (hX : X ∈ PointSym U) :
    (X c c = 1 ∨ X c c = -1) ∧ X i c = 0 ∧ X j c = 0 ∧ X c i = 0 ∧ X c j = 0 := by
  have hG := (pointSym_iff hU).1 hX
  set M := toReal X with hM
  set G := Uᵀ * U with hGdef
  have hGdet : IsUnit G.det := by
    rw [hGdef, det_mul, det_transpose]
    exact isUnit_iff_ne_zero.2 (mul_ne_zero hU hU)
  have hGP : G * G⁻¹ = 1 := mul_nonsing_inv G hGdet
  have hrow : M * G⁻¹ * Mᵀ = G⁻¹ := by
    have h1 : Mᵀ * (G * M * G⁻¹) = 1 := by
      rw [← Matrix.mul_assoc, ← Matrix.mul_assoc, hG, hGP]
    have h2 := mul_eq_one_comm.1 h1
    calc M * G⁻¹ * Mᵀ = (G⁻¹ * G) * (M * G⁻¹ * Mᵀ) := by rw [nonsing_inv_mul G hGdet, Matrix.one_mul]
      _ = G⁻¹ * (G * M * G⁻¹ * Mᵀ) := by simp only [Matrix.mul_assoc]
      _ = G⁻¹ := by rw [h2, Matrix.mul_one]
  set P := G⁻¹
  have hA : 0 < dots U i i := dots_pos hU i
  have hC : 0 < dots U c c := dots_pos hU c
  obtain ⟨hjj, hd⟩ := hh.2 i j hic hjc hij
  have hsym : ∀ a b, dots U a b = dots U b a := fun a b => Finset.sum_congr rfl fun k _ => mul_comm _ _
  have gic := hh.1 i hic
  have gjc := hh.1 j hjc
  have gci := (hsym c i).trans gic
  have gcj := (hsym c j).trans gjc
  have gji := hsym j i
  have ent : ∀ a b, dots U a i * P i b + dots U a j * P j b + dots U a c * P c b = (1 : Matrix (Fin 3) (Fin 3) ℝ) a b := by
    intro a b
    rw [← hGP, Matrix.mul_apply, sum_three _ hij hic hjc]
    simp only [hGdef, dots_eq]
  have q1 := ent i i
  have q2 := ent j i
  have q3 := ent c i
  have q4 := ent i j
  have q5 := ent j j
  have q6 := ent c j
  have q7 := ent i c
  have q8 := ent j c
  have q9 := ent c c
  simp only [one_apply_eq, one_apply_ne hij, one_apply_ne hij.symm, one_apply_ne hic, one_apply_ne hic.symm,
    one_apply_ne hjc, one_apply_ne hjc.symm, gic, gjc, gci, gcj, gji, ← hjj, zero_mul, add_zero, zero_add]
    at q1 q2 q3 q4 q5 q6 q7 q8 q9
  obtain ⟨η, hη, h2⟩ : ∃ η : ℤ, (η = 1 ∨ η = -1) ∧ 2 * dots U i j = η * dots U i i := by
    rcases hd with hd | hd
    · exact ⟨1, .inl rfl, by rw [hd]; simp⟩
    · exact ⟨-1, .inr rfl, by rw [hd]; simp⟩
  have hη2 : (η : ℝ) * η = 1 := by rcases hη with rfl | rfl <;> norm_num
  have hij' : dots U i j = η * dots U i i / 2 := by linarith
  rw [hij'] at q1 q2 q4 q5 q7 q8
  generalize eA : dots U i i = A at *
  generalize eC : dots U c c = C at *
  have p1 : 3 * A * P i i = 4 := by linear_combination 4 * q1 - 2 * η * q2 + A * P i i * hη2
  have p2 : 3 * A * P j i = -2 * η := by linear_combination 4 * q2 - 2 * η * q1 + A * P j i * hη2
  have p3 : 3 * A * P j j = 4 := by linear_combination 4 * q5 - 2 * η * q4 + A * P j j * hη2
  have p4 : 3 * A * P i j = -2 * η := by linear_combination 4 * q4 - 2 * η * q5 + A * P i j * hη2
  have p5 : P i c = 0 := by
    have : 3 * A * P i c = 0 := by linear_combination 4 * q7 - 2 * η * q8 + A * P i c * hη2
    simpa [hA.ne'] using this
  have p6 : P j c = 0 := by
    have : 3 * A * P j c = 0 := by linear_combination 4 * q8 - 2 * η * q7 + A * P j c * hη2
    simpa [hA.ne'] using this
  have p7 : P c i = 0 := by simpa [hC.ne'] using q3
  have p8 : P c j = 0 := by simpa [hC.ne'] using q6
  -- the row and the column of the axis
  have r1 := congrFun (congrFun hrow c) c
  have c1 := congrFun (congrFun hG c) c
  simp only [Matrix.mul_apply, sum_three _ hij hic hjc, transpose_apply] at r1 c1
  simp only [hGdef, dots_eq, gic, gjc, gci, gcj, gji, ← hjj, hij', eA, eC, p5, p6, p7, p8, hM, toReal, map_apply] at r1 c1
  have r2 : 4 * C * ((X c i : ℝ) ^ 2 - η * X c i * X c j + (X c j : ℝ) ^ 2) + 3 * A * (X c c : ℝ) ^ 2 = 3 * A := by
    linear_combination 3 * A * C * r1 - C * (X c i : ℝ) ^ 2 * p1 - C * (X c j : ℝ) ^ 2 * p3
      - C * X c i * X c j * (p2 + p4) - 3 * A * (X c c ^ 2 - 1) * q9
  have c2 : A * ((X i c : ℝ) ^ 2 + η * X i c * X j c + (X j c : ℝ) ^ 2) + C * (X c c : ℝ) ^ 2 = C := by
    linear_combination c1
  have hq : ∀ ε x y : ℤ, (ε = 1 ∨ ε = -1) → 0 ≤ x ^ 2 + ε * x * y + y ^ 2 ∧
      (x ^ 2 + ε * x * y + y ^ 2 = 0 → x = 0 ∧ y = 0) := by
    intro ε x y hε
    have h4 : 4 * (x ^ 2 + ε * x * y + y ^ 2) = (2 * x + ε * y) ^ 2 + 3 * y ^ 2 := by
      rcases hε with rfl | rfl <;> ring
    refine ⟨by nlinarith [sq_nonneg (2 * x + ε * y), sq_nonneg y], fun h0 => ?_⟩
    have hy : y ^ 2 = 0 := by nlinarith [sq_nonneg (2 * x + ε * y), sq_nonneg y]
    have hy : y = 0 := by simpa using hy
    subst hy
    simpa using h0
  obtain ⟨u0, u1⟩ := hq (-η) (X c i) (X c j) (by omega)
  obtain ⟨v0, v1⟩ := hq η (X i c) (X j c) hη
  have r3 : 4 * C * ((X c i ^ 2 + -η * X c i * X c j + X c j ^ 2 : ℤ) : ℝ) + 3 * A * ((X c c ^ 2 : ℤ) : ℝ) = 3 * A := by
    push_cast
    linear_combination r2
  have c3 : A * ((X i c ^ 2 + η * X i c * X j c + X j c ^ 2 : ℤ) : ℝ) + C * ((X c c ^ 2 : ℤ) : ℝ) = C := by
    push_cast
    linear_combination c2
  generalize X c i ^ 2 + -η * X c i * X c j + X c j ^ 2 = u at *
  generalize X i c ^ 2 + η * X i c * X j c + X j c ^ 2 = v at *
  by_cases hz : X c c = 0
  · exfalso
    rw [hz] at r3 c3
    simp only [ne_eq, OfNat.ofNat_ne_zero, not_false_eq_true, zero_pow, Int.cast_zero, mul_zero, add_zero] at r3 c3
    rw [← c3] at r3
    have : (4 * (v * u) : ℝ) = 3 := by
      have h : A * (4 * (v * u)) = A * 3 := by linarith
      exact mul_left_cancel₀ hA.ne' h
    have : 4 * (v * u) = 3 := by exact_mod_cast this
    omega
  · have h1 : 1 ≤ X c c ^ 2 := by have := sq_pos_of_ne_zero hz; omega
    have h1' : (1 : ℝ) ≤ ((X c c ^ 2 : ℤ) : ℝ) := by exact_mod_cast h1
    have u0' : (0 : ℝ) ≤ u := by exact_mod_cast u0
    have v0' : (0 : ℝ) ≤ v := by exact_mod_cast v0
    have k1 := mul_le_mul_of_nonneg_left h1' hC.le
    have k2 := mul_le_mul_of_nonneg_left h1' hA.le
    have hv : (v : ℝ) = 0 := by
      refine le_antisymm (not_lt.1 fun hc => ?_) v0'
      have := mul_pos hA hc
      linarith
    have hu : (u : ℝ) = 0 := by
      refine le_antisymm (not_lt.1 fun hc => ?_) u0'
      have := mul_pos hC hc
      linarith
    have e : ((X c c ^ 2 : ℤ) : ℝ) = 1 := by
      rw [hv] at c3
      have h : C * ((X c c ^ 2 : ℤ) : ℝ) = C * 1 := by linarith
      exact mul_left_cancel₀ hC.ne' h
    have e : X c c ^ 2 = 1 := by exact_mod_cast e
    obtain ⟨a1, a2⟩ := v1 (by exact_mod_cast hv)
    obtain ⟨b1, b2⟩ := u1 (by exact_mod_cast hu)
    exact ⟨mul_self_eq_one_iff.1 (by rw [← sq]; exact e), a1, a2, b1, b2⟩

/-- A lattice symmetry that is its own inverse. -/
theorem dual_involution (hU : U.det ≠ 0) (hn : ∀ i, 0 < n i) {Q : Matrix (Fin 3) (Fin 3) ℝ} (hQ : Qᵀ * Q = 1) {X Y : IntMat}
    (hX : Q * U = U * toReal X) (hY : Q * regularGrid U n = regularGrid U n * toReal Y) (h2 : X * X = 1) (a b : Fin 3) :
    (Y a b : ℝ) = n a * X b a / n b := by
  have h := dual_action hU hQ hX hY
  have h3 := congrArg (· * toReal X) h
  simp only [Matrix.mul_assoc, ← toReal_mul, h2, toReal_one, Matrix.mul_one] at h3
  have := congrFun (congrFun h3 b) a
  rw [Matrix.mul_diagonal, Matrix.diagonal_mul] at this
  simp only [transpose_apply, toReal, map_apply] at this
  have ha : (n a : ℝ) ≠ 0 := by have := hn a; positivity
  have hb : (n b : ℝ) ≠ 0 := by have := hn b; positivity
  field_simp at this ⊢
  linarith

/-- The reflection at the plane perpendicular to the vector `i` of a hexagonal lattice. -/
def hexMirror (i j : Fin 3) (η : ℤ) : IntMat :=
  Matrix.of fun a b => if a = b then (if a = i then -1 else 1) else if a = i ∧ b = j then η else 0

theorem keeps_hexagonal {s : ℚ × ℚ × ℚ} (hU : U.det ≠ 0) {i j c : Fin 3} (hij : i ≠ j) (hic : i ≠ c) (hjc : j ≠ c)
    (hh : HexagonalAbout c U) (hn : ∀ i, 0 < n i) (h0 : KeepsSymmetry U n (0, 0, 0)) (hs : InCell s) :
    KeepsSymmetry U n s ↔ (offsetVec s c = 0 ∨ offsetVec s c = 1 / 2) ∧ offsetVec s i = 0 ∧ offsetVec s j = 0 := by
  constructor
  · intro h
    have half := half_of_neg hU hn hs h
    refine ⟨half c, ?_⟩
    obtain ⟨hjj, hd⟩ := hh.2 i j hic hjc hij
    have hsym : ∀ a b, dots U a b = dots U b a := fun a b => Finset.sum_congr rfl fun k _ => mul_comm _ _
    have gic := hh.1 i hic
    have gjc := hh.1 j hjc
    have gci := (hsym c i).trans gic
    have gcj := (hsym c j).trans gjc
    have gji := hsym j i
    obtain ⟨η, hη, h2⟩ : ∃ η : ℤ, (η = 1 ∨ η = -1) ∧ 2 * dots U i j = η * dots U i i := by
      rcases hd with hd | hd
      · exact ⟨1, .inl rfl, by rw [hd]; simp⟩
      · exact ⟨-1, .inr rfl, by rw [hd]; simp⟩
    have hall : ∀ a : Fin 3, a = i ∨ a = j ∨ a = c := by
      clear * - hij hic hjc
      omega
    obtain ⟨G, hG⟩ : ∃ G, G = Uᵀ * U := ⟨_, rfl⟩
    have ge : ∀ a b, G a b = dots U a b := fun a b => by rw [hG, dots_eq]
    have hj2 : dots U i j = η * dots U i i / 2 := by linarith
    have hη2 : (η : ℝ) * η = 1 := by rcases hη with rfl | rfl <;> norm_num
    have m1 : swapMat i j ∈ PointSym U := by
      rw [pointSym_iff hU, ← hG]
      ext a b
      simp only [Matrix.mul_apply, sum_three _ hij hic hjc, transpose_apply, swapMat, toReal, map_apply, of_apply,
        ge, Equiv.swap_apply_left, Equiv.swap_apply_right, Equiv.swap_apply_of_ne_of_ne hic.symm hjc.symm]
      rcases hall a with rfl | rfl | rfl <;> rcases hall b with rfl | rfl | rfl <;>
        simp [hij, hic, hjc, hij.symm, hic.symm, hjc.symm, gic, gjc, gci, gcj, gji, hjj]
    have m2 : hexMirror i j (-η) ∈ PointSym U := by
      rw [pointSym_iff hU, ← hG]
      ext a b
      simp only [Matrix.mul_apply, sum_three _ hij hic hjc, transpose_apply, hexMirror, toReal, map_apply, of_apply, ge]
      rcases hall a with rfl | rfl | rfl <;> rcases hall b with rfl | rfl | rfl <;>
        simp [hij, hic, hjc, hij.symm, hic.symm, hjc.symm, gic, gjc, gci, gcj, gji, ← hjj, hj2]
      all_goals first | linear_combination dots U _ _ * hη2 | linear_combination 0 * hη2
    obtain ⟨hnn, e1⟩ := swap_equal hU hn hs h0 h m1
    obtain ⟨Q, hQ, hX⟩ := m2
    obtain ⟨Y, hY⟩ := keepsShifted_zero (h0 Q hQ ⟨_, hX⟩)
    have hinv : hexMirror i j (-η) * hexMirror i j (-η) = 1 := by
      ext a b
      simp only [Matrix.mul_apply, sum_three _ hij hic hjc, hexMirror, of_apply]
      rcases hall a with rfl | rfl | rfl <;> rcases hall b with rfl | rfl | rfl <;>
        simp [hij, hic, hjc, hij.symm, hic.symm, hjc.symm]
    have hent := dual_involution hU hn hQ hX hY hinv
    obtain ⟨w, hw⟩ := (keepsShifted_iff (regularGrid_det hU hn) hY s).1 (h Q hQ ⟨_, hX⟩)
    have hwj := congrFun hw j
    have pj : (n j : ℝ) ≠ 0 := by have := hn j; positivity
    have : (toReal Y *ᵥ offsetVec s) j = -η * offsetVec s i + offsetVec s j := by
      rw [mulVec, dotProduct, sum_three _ hij hic hjc]
      simp only [toReal, map_apply, hent, hexMirror, of_apply]
      simp [hij, hij.symm, hic.symm, hjc.symm, hnn]
      field_simp
    rw [this, Pi.add_apply] at hwj
    have hi0 : offsetVec s i = 0 := by
      rcases half i with e | e
      · exact e
      · rw [e] at hwj
        exfalso
        have : (-η : ℝ) = 2 * w j := by linarith
        have : -η = 2 * w j := by exact_mod_cast this
        omega
    exact ⟨hi0, e1 ▸ hi0⟩
  · rintro ⟨hc, hi, hj⟩ Q hQ ⟨X, hX⟩
    obtain ⟨x1, x2, x3, x4, x5⟩ := hex_axis hU hij hic hjc hh ⟨Q, hQ, hX⟩
    obtain ⟨Y, hY⟩ := keepsShifted_zero (h0 Q hQ ⟨_, hX⟩)
    rw [keepsShifted_iff (regularGrid_det hU hn) hY]
    have hd := dual_entry (dual_action hU hQ hX hY)
    have hX1 : IsUnit (toReal X)ᵀ.det := by
      have h1 := congrArg Matrix.det (dual_action hU hQ hX hY)
      rw [det_transpose]
      refine isUnit_iff_ne_zero.2 fun h2 => ?_
      rw [det_mul, h2, mul_zero, det_diagonal] at h1
      have : (0 : ℝ) < ∏ i, 1 / (n i : ℝ) := Finset.prod_pos fun i _ => by have := hn i; positivity
      linarith
    -- the column of the axis in `Y`
    have hcol : (fun a => (Y a c : ℝ) / n a) = fun a => if a = c then (X c c : ℝ) / n c else 0 := by
      have h1 : (toReal X)ᵀ *ᵥ (fun a => (Y a c : ℝ) / n a) = (toReal X)ᵀ *ᵥ fun a => if a = c then (X c c : ℝ) / n c else 0 := by
        ext k
        have e1 : ((toReal X)ᵀ *ᵥ (fun a => (Y a c : ℝ) / n a)) k = if c = k then 1 / (n c : ℝ) else 0 := by
          rw [← hd c k, mulVec, dotProduct]
          refine Finset.sum_congr rfl fun a _ => ?_
          simp only [transpose_apply, toReal, map_apply]
          ring
        rw [e1, mulVec, dotProduct, sum_three _ hij hic hjc]
        simp only [transpose_apply, toReal, map_apply, if_neg hic, if_neg hjc, if_true, mul_zero, zero_add]
        have hall : k = i ∨ k = j ∨ k = c := by
          clear * - hij hic hjc
          omega
        rcases hall with rfl | rfl | rfl
        · rw [if_neg hic.symm, x4]; simp
        · rw [if_neg hjc.symm, x5]; simp
        · rw [if_pos rfl]
          rcases x1 with x1 | x1 <;> rw [x1] <;> push_cast <;> ring
      have := congrArg ((toReal X)ᵀ⁻¹ *ᵥ ·) h1
      simpa only [mulVec_mulVec, nonsing_inv_mul _ hX1, one_mulVec] using this
    have hY1 : ∀ a, (Y a c : ℝ) = if a = c then (X c c : ℝ) else 0 := by
      intro a
      have : (Y a c : ℝ) / n a = if a = c then (X c c : ℝ) / n c else 0 := congrFun hcol a
      have ha : (n a : ℝ) ≠ 0 := by have := hn a; positivity
      split_ifs at this ⊢ with h
      · subst h
        field_simp at this
        exact this
      · simpa [ha] using this
    have : ∀ a, ∃ w : ℤ, (toReal Y *ᵥ offsetVec s) a = offsetVec s a + w := by
      intro a
      have e : (toReal Y *ᵥ offsetVec s) a = (if a = c then (X c c : ℝ) else 0) * offsetVec s c := by
        rw [mulVec, dotProduct, sum_three _ hij hic hjc, hi, hj, ← hY1 a]
        simp [toReal]
      rw [e]
      by_cases hac : a = c
      · rw [if_pos hac, hac]
        rcases x1 with x1 | x1 <;> rw [x1]
        · exact ⟨0, by simp⟩
        · rcases hc with h4 | h4 <;> rw [h4]
          · exact ⟨0, by simp⟩
          · exact ⟨-1, by norm_num⟩
      · have hall : a = i ∨ a = j := by
          clear * - hij hic hjc hac
          omega
        rcases hall with rfl | rfl
        · exact ⟨0, by simp [hac, hi]⟩
        · exact ⟨0, by simp [hac, hj]⟩
    choose w hw using this
    exact ⟨w, funext hw⟩

/-- If the symmetries do no more than reverse the lattice vectors, all halves are allowed. -/
theorem keeps_diagonal {s : ℚ × ℚ × ℚ} (hU : U.det ≠ 0) (hd : ∀ X ∈ PointSym U, ∀ i j, i ≠ j → X i j = 0)
    (hn : ∀ i, 0 < n i) (hs : InCell s) :
    KeepsSymmetry U n s ↔ ∀ i, offsetVec s i = 0 ∨ offsetVec s i = 1 / 2 := by
  refine ⟨half_of_neg hU hn hs, fun h Q hQ hX => ?_⟩
  obtain ⟨X, hX⟩ := hX
  have hoff := hd X ⟨Q, hQ, hX⟩
  have hone : ∀ i, X i i = 1 ∨ X i i = -1 := by
    intro i
    have h1 := congrFun (congrFun ((pointSym_iff hU).1 ⟨Q, hQ, hX⟩) i) i
    obtain ⟨G, hG⟩ : ∃ G, G = Uᵀ * U := ⟨_, rfl⟩
    have gp : 0 < G i i := by rw [hG, dots_eq]; exact dots_pos hU i
    rw [← hG, Matrix.mul_apply, Finset.sum_eq_single i
      (fun b _ hb => by simp [toReal, hoff b i hb]) (by simp), Matrix.mul_apply,
      Finset.sum_eq_single i (fun b _ hb => by simp [toReal, hoff b i hb]) (by simp)] at h1
    simp only [transpose_apply, toReal, map_apply] at h1
    have h2 : G i i * ((X i i : ℝ) * X i i) = G i i * 1 := by linarith
    have h3 := mul_left_cancel₀ gp.ne' h2
    exact mul_self_eq_one_iff.1 (by exact_mod_cast h3)
  have hdiag : X = diagonal fun i => X i i := by
    ext i j
    rw [diagonal_apply]
    split_ifs with hij
    · rw [hij]
    · exact hoff i j hij
  have hXX : (toReal X)ᵀ * toReal X = 1 := by
    rw [← toReal_transpose, ← toReal_mul, ← toReal_one]
    congr 1
    rw [hdiag, diagonal_transpose, diagonal_mul_diagonal, ← diagonal_one]
    congr 1
    ext i
    rcases hone i with e | e <;> simp [e]
  have hu : IsUnit Uᵀ.det := by rw [det_transpose]; exact isUnit_iff_ne_zero.2 hU
  have hY : Q * regularGrid U n = regularGrid U n * toReal X := by
    have h1 : Uᵀ * Qᵀ = (toReal X)ᵀ * Uᵀ := by rw [← transpose_mul, hX, transpose_mul]
    have hQQ : Q * Qᵀ = 1 := mul_eq_one_comm.1 hQ
    have h2 : Q * (Uᵀ)⁻¹ = (Uᵀ)⁻¹ * toReal X := by
      have h3 : (Uᵀ)⁻¹ * (toReal X)ᵀ = Qᵀ * (Uᵀ)⁻¹ := by
        calc (Uᵀ)⁻¹ * (toReal X)ᵀ = (Uᵀ)⁻¹ * ((toReal X)ᵀ * Uᵀ) * (Uᵀ)⁻¹ := by
              rw [Matrix.mul_assoc, Matrix.mul_assoc, mul_nonsing_inv _ hu, Matrix.mul_one]
          _ = Qᵀ * (Uᵀ)⁻¹ := by rw [← h1, ← Matrix.mul_assoc, nonsing_inv_mul _ hu, Matrix.one_mul]
      calc Q * (Uᵀ)⁻¹ = Q * ((Uᵀ)⁻¹ * (toReal X)ᵀ) * toReal X := by
            rw [Matrix.mul_assoc, Matrix.mul_assoc, hXX, Matrix.mul_one]
        _ = (Uᵀ)⁻¹ * toReal X := by rw [h3, ← Matrix.mul_assoc Q, hQQ, Matrix.one_mul]
    have h4 : toReal X = diagonal fun i => (X i i : ℝ) := by
      conv_lhs => rw [hdiag]
      ext i j
      rw [toReal, map_apply, diagonal_apply, diagonal_apply]
      split_ifs <;> simp
    rw [regularGrid, ← Matrix.mul_assoc, h2, Matrix.mul_assoc, Matrix.mul_assoc]
    congr 1
    rw [h4, diagonal_mul_diagonal, diagonal_mul_diagonal]
    congr 1
    ext i
    ring
  rw [keepsShifted_iff (regularGrid_det hU hn) hY]
  have : ∀ i, ∃ w : ℤ, (toReal X *ᵥ offsetVec s) i = offsetVec s i + w := by
    intro i
    have e : (toReal X *ᵥ offsetVec s) i = X i i * offsetVec s i := by
      rw [mulVec, dotProduct, Finset.sum_eq_single i (fun b _ hb => by simp [toReal, hoff i b hb.symm]) (by simp)]
      rfl
    rw [e]
    rcases hone i with h1 | h1 <;> rw [h1]
    · exact ⟨0, by simp⟩
    · rcases h i with h4 | h4 <;> rw [h4]
      · exact ⟨0, by simp⟩
      · exact ⟨-1, by norm_num⟩
  choose w hw using this
  exact ⟨w, funext hw⟩

/-- The `m × m × m` grid of any lattice has its symmetry. -/
theorem keeps_cubed (hU : U.det ≠ 0) (m : ℕ) : KeepsSymmetry U (fun _ => m) (0, 0, 0) := by
  rintro Q hQ ⟨X, hX⟩
  have hu : IsUnit Uᵀ.det := by rw [det_transpose]; exact isUnit_iff_ne_zero.2 hU
  have hdet : IsUnit X.det := by
    have h1 := congrArg Matrix.det ((pointSym_iff hU).1 ⟨Q, hQ, hX⟩)
    rw [det_mul, det_mul, det_transpose, toReal_det, det_mul, det_transpose] at h1
    have h2 : (U.det * U.det) * ((X.det : ℝ) * X.det) = (U.det * U.det) * 1 := by linarith
    have h3 := mul_left_cancel₀ (mul_ne_zero hU hU) h2
    have h4 : X.det * X.det = 1 := by exact_mod_cast h3
    exact IsUnit.of_mul_eq_one _ h4
  have hQQ : Q * Qᵀ = 1 := mul_eq_one_comm.1 hQ
  have h1 : Uᵀ * Qᵀ = (toReal X)ᵀ * Uᵀ := by rw [← transpose_mul, hX, transpose_mul]
  have h3 : (Uᵀ)⁻¹ * (toReal X)ᵀ = Qᵀ * (Uᵀ)⁻¹ := by
    calc (Uᵀ)⁻¹ * (toReal X)ᵀ = (Uᵀ)⁻¹ * ((toReal X)ᵀ * Uᵀ) * (Uᵀ)⁻¹ := by
          rw [Matrix.mul_assoc, Matrix.mul_assoc, mul_nonsing_inv _ hu, Matrix.mul_one]
      _ = Qᵀ * (Uᵀ)⁻¹ := by rw [← h1, ← Matrix.mul_assoc, nonsing_inv_mul _ hu, Matrix.one_mul]
  have h5 : (toReal X)ᵀ * toReal (X⁻¹)ᵀ = 1 := by
    rw [← toReal_transpose, ← toReal_mul, ← transpose_mul, nonsing_inv_mul _ hdet, transpose_one, toReal_one]
  have hY : Q * regularGrid U (fun _ => m) = regularGrid U (fun _ => m) * toReal (X⁻¹)ᵀ := by
    have h2 : Q * (Uᵀ)⁻¹ = (Uᵀ)⁻¹ * toReal (X⁻¹)ᵀ := by
      calc Q * (Uᵀ)⁻¹ = Q * ((Uᵀ)⁻¹ * (toReal X)ᵀ) * toReal (X⁻¹)ᵀ := by
            rw [Matrix.mul_assoc, Matrix.mul_assoc, h5, Matrix.mul_one]
        _ = _ := by rw [h3, ← Matrix.mul_assoc Q, hQQ, Matrix.one_mul]
    rw [regularGrid, ← Matrix.mul_assoc, h2, Matrix.mul_assoc, Matrix.mul_assoc]
    congr 1
    ext i j
    rw [Matrix.mul_diagonal, Matrix.diagonal_mul]
    ring
  intro z
  refine ⟨(X⁻¹)ᵀ *ᵥ z, ?_⟩
  rw [mulVec_mulVec, hY, ← mulVec_mulVec, offsetVec_zero, zero_add, zero_add]
  congr 1
  ext i
  simp [mulVec, dotProduct, toReal]

end

end AutoGR.Fortran
