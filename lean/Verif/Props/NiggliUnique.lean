import Verif.Lemmas.NiggliUnique
import Verif.Spec.SameCrystal
import Verif.Props.Niggli
import Verif.Props.FortranStops

/-!
# C101: the reduced cell and the class do not depend on the cell that describes the lattice
-/

namespace AutoGR

open Spec Matrix

variable {A B C D E F A' B' C' D' E' F' : ℝ}

theorem Spec.NiggliReduced.scale {c : ℝ} (hc : 0 < c) (h : NiggliReduced A B C D E F) :
    NiggliReduced (c * A) (c * B) (c * C) (c * D) (c * E) (c * F) := by
  have ab := h.ab
  have bc := h.bc
  have key {x y : ℝ} : c * x = c * y ↔ x = y := mul_right_inj' hc.ne'
  have kl {x y : ℝ} (h : x ≤ y) : c * x ≤ c * y := mul_le_mul_of_nonneg_left h hc.le
  have ha (x : ℝ) : |c * x| = c * |x| := by rw [abs_mul, abs_of_pos hc]
  refine ⟨mul_pos hc h.pos, kl ab, kl bc, ?_, ?_, ?_, ?_, ?_, ?_, ?_, ?_, ?_, ?_, ?_, ?_, ?_, ?_⟩
  · rcases h.type with ⟨h1, h2, h3⟩ | ⟨h1, h2, h3⟩
    · exact .inl ⟨mul_pos hc h1, mul_pos hc h2, mul_pos hc h3⟩
    · exact .inr ⟨mul_nonpos_of_nonneg_of_nonpos hc.le h1, mul_nonpos_of_nonneg_of_nonpos hc.le h2,
        mul_nonpos_of_nonneg_of_nonpos hc.le h3⟩
  · rw [ha]; linarith [kl h.d_le]
  · rw [ha]; linarith [kl h.e_le]
  · rw [ha]; linarith [kl h.f_le]
  · have := mul_nonneg hc.le h.sum; linarith
  · intro e; rw [ha, ha]; exact kl (h.ab_eq (key.1 e))
  · intro e; rw [ha, ha]; exact kl (h.bc_eq (key.1 e))
  · intro e; linarith [kl (h.d_eq (key.1 (by linarith)))]
  · intro e; linarith [kl (h.e_eq (key.1 (by linarith)))]
  · intro e; linarith [kl (h.f_eq (key.1 (by linarith)))]
  · intro e; rw [h.d_neg (key.1 (by linarith)), mul_zero]
  · intro e; rw [h.e_neg (key.1 (by linarith)), mul_zero]
  · intro e; rw [h.f_neg (key.1 (by linarith)), mul_zero]
  · intro e; linarith [kl (h.sum_eq (key.1 (by linarith)))]

/-- The equalities of a class do not depend on the unit of length. -/
theorem niggliClass_scale {c : ℝ} (hc : 0 < c) (k : ℕ) :
    NiggliClass k (c * A) (c * B) (c * C) (c * D) (c * E) (c * F) ↔ NiggliClass k A B C D E F := by
  have t1 : TypeI (c * D) (c * E) (c * F) ↔ TypeI D E F := by
    unfold TypeI; rw [mul_pos_iff_of_pos_left hc, mul_pos_iff_of_pos_left hc, mul_pos_iff_of_pos_left hc]
  have t2 : TypeII (c * D) (c * E) (c * F) ↔ TypeII D E F := by
    unfold TypeII; simp only [mul_nonpos_iff_pos_imp_nonpos]
    constructor
    · rintro ⟨h1, h2, h3⟩; exact ⟨h1.1 hc, h2.1 hc, h3.1 hc⟩
    · rintro ⟨h1, h2, h3⟩; exact ⟨⟨fun _ => h1, fun _ => hc.le⟩, ⟨fun _ => h2, fun _ => hc.le⟩, ⟨fun _ => h3, fun _ => hc.le⟩⟩
  have e0 {x y : ℝ} : c * x = c * y ↔ x = y := mul_right_inj' hc.ne'
  have ez {x : ℝ} : c * x = 0 ↔ x = 0 := by simp [hc.ne']
  have ed {x y n : ℝ} : c * x = c * y / n ↔ x = y / n := by rw [mul_div_assoc, e0]
  have en {x y n : ℝ} : c * x = -(c * y) / n ↔ x = -y / n := by rw [← mul_neg, mul_div_assoc, e0]
  have e2 {x y : ℝ} : c * x = 2 * (c * y) ↔ x = 2 * y := by rw [mul_left_comm, e0]
  have es : 2 * |c * D + c * E + c * F| = c * A + c * B ↔ 2 * |D + E + F| = A + B := by
    rw [← mul_add, ← mul_add, ← mul_add, abs_mul, abs_of_pos hc, mul_left_comm, e0]
  have ef : |2 * (c * D) + c * F| = c * B ↔ |2 * D + F| = B := by
    rw [mul_left_comm, ← mul_add, abs_mul, abs_of_pos hc, e0]
  unfold NiggliClass
  split <;> simp only [t1, t2, e0, ez, ed, en, e2, es, ef]

theorem isClass_scale {c : ℝ} (hc : 0 < c) {k : ℕ} (h : IsClass k A B C D E F) :
    IsClass k (c * A) (c * B) (c * C) (c * D) (c * E) (c * F) :=
  ⟨h.1, (niggliClass_scale hc k).2 h.2.1, fun k' hk' hc' => h.2.2 k' hk' ((niggliClass_scale hc k').1 hc')⟩

theorem takeWhile_or {l : List ℕ} {a b : ℕ} (ha : a ∈ l) (hb : b ∈ l) (hab : a ≠ b) :
    a ∈ l.takeWhile (· ≠ b) ∨ b ∈ l.takeWhile (· ≠ a) := by
  induction l with
  | nil => cases ha
  | cons x l ih =>
    by_cases hx : x = a
    · left
      rw [List.takeWhile_cons_of_pos (by simp [hx, hab])]
      simp [hx]
    · by_cases hy : x = b
      · right
        rw [List.takeWhile_cons_of_pos (by simp [hx])]
        simp [hy]
      · have ha' : a ∈ l := by
          rcases List.mem_cons.1 ha with h | h
          · exact absurd h.symm hx
          · exact h
        have hb' : b ∈ l := by
          rcases List.mem_cons.1 hb with h | h
          · exact absurd h.symm hy
          · exact h
        rw [List.takeWhile_cons_of_pos (by simp [hy]), List.takeWhile_cons_of_pos (by simp [hx])]
        exact (ih ha' hb').imp (List.mem_cons_of_mem _) (List.mem_cons_of_mem _)

/-- A metric has one class. -/
theorem isClass_unique {k k' : ℕ} (h : IsClass k A B C D E F) (h' : IsClass k' A B C D E F) : k = k' := by
  by_contra hne
  rcases takeWhile_or h.1 h'.1 hne with h1 | h1
  · exact h'.2.2 k h1 h.2.1
  · exact h.2.2 k' h1 h'.2.1

variable {s : ℝ} {R U U' : Matrix (Fin 3) (Fin 3) ℝ} {Co Co' : IntMat}

/-- C101, the lattice: two Niggli cells of the same lattice have the same lengths and angles, whatever cells they
were made from, up to the unit of length. -/
theorem niggliCell_unique (hs : SameCrystal s R U U') (h : NiggliCellOf U Co A B C D E F)
    (h' : NiggliCellOf U' Co' A' B' C' D' E' F') :
    A' = s ^ 2 * A ∧ B' = s ^ 2 * B ∧ C' = s ^ 2 * C ∧ D' = s ^ 2 * D ∧ E' = s ^ 2 * E ∧ F' = s ^ 2 * F := by
  obtain ⟨hs0, hR, W, hW, hU⟩ := hs
  have hp : 0 < s ^ 2 := by positivity
  have ho : Co * Co⁻¹ = 1 := mul_nonsing_inv _ h.unit
  set X : IntMat := Co⁻¹ * W * Co' with hXdef
  have hu : IsUnit X.det := by
    rw [hXdef, det_mul, det_mul]
    exact ((isUnit_inv_det h.unit).mul hW).mul h'.unit
  have hc : U' * toReal Co' = s • (R * ((U * toReal Co) * toReal X)) := by
    rw [hU, hXdef, toReal_mul, toReal_mul]
    have e : toReal Co * toReal Co⁻¹ = 1 := by rw [← toReal_mul, ho, toReal_one]
    calc s • (R * U * toReal W) * toReal Co'
        = s • (R * U * 1 * toReal W * toReal Co') := by rw [Matrix.mul_one, Matrix.smul_mul]
      _ = _ := by rw [← e]; simp only [Matrix.mul_assoc]
  have hm : metric (s ^ 2 * A) (s ^ 2 * B) (s ^ 2 * C) (s ^ 2 * D) (s ^ 2 * E) (s ^ 2 * F) =
      s ^ 2 • metric A B C D E F := by
    ext i j; fin_cases i <;> fin_cases j <;> simp [metric]
  refine niggli_unique (X := X) (h.red.scale hp) h'.red ?_ hu
  rw [hm, ← h'.cell, hc, ← h.cell, Matrix.transpose_smul, Matrix.smul_mul, Matrix.mul_smul, Matrix.smul_mul,
    Matrix.mul_smul, smul_smul, ← pow_two, Matrix.transpose_mul R,
    Matrix.transpose_mul (U * toReal Co) (toReal X)]
  congr 1
  calc (toReal X)ᵀ * ((U * toReal Co)ᵀ * (U * toReal Co)) * toReal X
      = (toReal X)ᵀ * (U * toReal Co)ᵀ * 1 * (U * toReal Co * toReal X) := by
        rw [Matrix.mul_one]; simp only [Matrix.mul_assoc]
    _ = _ := by rw [← hR]; simp only [Matrix.mul_assoc]

/-- C101, the class: two cells of the same lattice have the same class, whatever unit of length they are given in. -/
theorem class_unique (hs : SameCrystal s R U U') (h : NiggliCellOf U Co A B C D E F)
    (h' : NiggliCellOf U' Co' A' B' C' D' E' F') {k k' : ℕ} (hk : IsClass k A B C D E F)
    (hk' : IsClass k' A' B' C' D' E' F') : k' = k := by
  have hp : 0 < s ^ 2 := pow_pos hs.1 2
  obtain ⟨rfl, rfl, rfl, rfl, rfl, rfl⟩ := niggliCell_unique hs h h'
  exact isClass_unique hk' (isClass_scale hp hk)

/-- Cells of one lattice, up to scale. -/
theorem gram_unique {U U' : RMat ℚ} {C C' : IMat} {q : ℚ} (hs : SameCrystal q R (realCell U) (realCell U'))
    (hC : C.toMat.det = 1) (hC' : C'.toMat.det = 1)
    (red : NiggliReduced (gram U C 0 0 : ℚ) (gram U C 1 1 : ℚ) (gram U C 2 2 : ℚ) (gram U C 1 2 : ℚ)
      (gram U C 0 2 : ℚ) (gram U C 0 1 : ℚ))
    (red' : NiggliReduced (gram U' C' 0 0 : ℚ) (gram U' C' 1 1 : ℚ) (gram U' C' 2 2 : ℚ) (gram U' C' 1 2 : ℚ)
      (gram U' C' 0 2 : ℚ) (gram U' C' 0 1 : ℚ)) : gram U' C' = q ^ 2 • gram U C := by
  obtain ⟨a, b, c, d, e, f⟩ := niggliCell_unique hs
    ⟨by rw [hC]; exact isUnit_one, realCell_metric U C, red⟩
    ⟨by rw [hC']; exact isUnit_one, realCell_metric U' C', red'⟩
  have a' : gram U' C' 0 0 = q ^ 2 * gram U C 0 0 := by exact_mod_cast a
  have b' : gram U' C' 1 1 = q ^ 2 * gram U C 1 1 := by exact_mod_cast b
  have c' : gram U' C' 2 2 = q ^ 2 * gram U C 2 2 := by exact_mod_cast c
  have d' : gram U' C' 1 2 = q ^ 2 * gram U C 1 2 := by exact_mod_cast d
  have e' : gram U' C' 0 2 = q ^ 2 * gram U C 0 2 := by exact_mod_cast e
  have f' : gram U' C' 0 1 = q ^ 2 * gram U C 0 1 := by exact_mod_cast f
  ext i j
  rw [Matrix.smul_apply, smul_eq_mul]
  fin_cases i <;> fin_cases j
  · exact a'
  · exact f'
  · exact e'
  · rw [gram_symm, gram_symm U]; exact f'
  · exact b'
  · exact d'
  · rw [gram_symm, gram_symm U]; exact e'
  · rw [gram_symm, gram_symm U]; exact d'
  · exact c'

/-- C101, `reduced_cell` of `pyniggli.py` in exact arithmetic with tolerance 0: two cells of the same lattice are
reduced to cells with the same lengths and angles. -/
theorem reducedCell_unique {U U' : RMat ℚ} {C C' : IMat} {q : ℚ} (hs : SameCrystal q R (realCell U) (realCell U'))
    (h : reducedCell U (some 0) = .ok C) (h' : reducedCell U' (some 0) = .ok C') :
    gram U' C' = q ^ 2 • gram U C :=
  gram_unique hs (det_reducedCell h) (det_reducedCell h') (reducedCell_exact U C h) (reducedCell_exact U' C' h')

/-- C101, `niggli_id` of `niggli_lat_id.py`: the answer for two cells of the same lattice is the same, if both are
reduced to Niggli cells (with tolerance 0 they are whenever `reduced_cell` returns). -/
theorem niggliId_unique {U U' : RMat ℚ} {C C' : IMat} {eps : Option ℚ}
    (hs : SameCrystal 1 R (realCell U) (realCell U'))
    (h : reducedCell U eps = .ok C) (h' : reducedCell U' eps = .ok C')
    (red : NiggliReduced (gram U C 0 0 : ℚ) (gram U C 1 1 : ℚ) (gram U C 2 2 : ℚ) (gram U C 1 2 : ℚ)
      (gram U C 0 2 : ℚ) (gram U C 0 1 : ℚ))
    (red' : NiggliReduced (gram U' C' 0 0 : ℚ) (gram U' C' 1 1 : ℚ) (gram U' C' 2 2 : ℚ) (gram U' C' 1 2 : ℚ)
      (gram U' C' 0 2 : ℚ) (gram U' C' 0 1 : ℚ)) : niggliId U' eps = niggliId U eps := by
  have hg := gram_unique (q := 1) (by simpa using hs) (det_reducedCell h) (det_reducedCell h') red red'
  rw [one_pow, one_smul] at hg
  unfold niggliId
  rw [h, h']
  dsimp only
  rw [cellMetric_metric, cellMetric_metric, hg]

/-- Two cells of the orthorhombic lattice of C77. -/
theorem sameCrystal_ortho : SameCrystal ((1 : ℚ) : ℝ) 1 (realCell ⟨1, 0, 3, 0, 2, 1, 0, 0, 5⟩)
    (realCell ⟨1, 3, 1, 2, 1, 0, 0, 5, 0⟩) := by
  refine ⟨by norm_num, by simp, !![1, 0, 1; 1, 0, 0; 0, 1, 0], by decide, ?_⟩
  ext i j
  fin_cases i <;> fin_cases j <;>
    simp [realCell, RMat.toMatrix, toReal, Matrix.mul_apply, Fin.sum_univ_three]

/-- The hypotheses are met: both cells are reduced. -/
example : gram ⟨1, 3, 1, 2, 1, 0, 0, 5, 0⟩ ⟨0, -1, 1, 0, 0, -1, 1, 1, 2⟩ =
    (1 : ℚ) ^ 2 • gram ⟨1, 0, 3, 0, 2, 1, 0, 0, 5⟩ ⟨-1, 0, -3, 0, -1, 0, 0, 0, 1⟩ :=
  reducedCell_unique sameCrystal_ortho (by decide +kernel) (by decide +kernel)

example : niggliId (⟨1, 3, 1, 2, 1, 0, 0, 5, 0⟩ : RMat ℚ) (some 0) =
    niggliId (⟨1, 0, 3, 0, 2, 1, 0, 0, 5⟩ : RMat ℚ) (some 0) :=
  niggliId_unique (eps := some 0) (C := ⟨-1, 0, -3, 0, -1, 0, 0, 0, 1⟩) (C' := ⟨0, -1, 1, 0, 0, -1, 1, 1, 2⟩)
    (by simpa using sameCrystal_ortho) (by decide +kernel) (by decide +kernel)
    (reducedCell_exact _ _ (by decide +kernel)) (reducedCell_exact _ _ (by decide +kernel))

namespace Fortran

variable {equal : ℚ → ℚ → ℚ → Bool} {eps rho eps' rho' : ℚ} {r r' : IdCell}

/-- C101, `id_cell` of the program: two cells of the same lattice, possibly in different units of length and
turned against each other, are given the same class, the same range of densities, and reduced cells of
the same shape. -/
theorem idCell_unique {U U' : RMat ℚ} {q : ℚ} (hs : SameCrystal q R (realCell U) (realCell U'))
    (h : Recognised equal U eps rho r) (h' : Recognised equal U' eps' rho' r') :
    r'.id = r.id ∧ r'.s_range = r.s_range ∧ gram U' r'.Cu = q ^ 2 • gram U r.Cu := by
  have hid := class_unique hs h.niggliCell h'.niggliCell h.isClass h'.isClass
  refine ⟨hid, by rw [h.s_range, h'.s_range, hid], ?_⟩
  exact gram_unique hs (reduceCell_same_lattice equal U (some eps) _ h.parts.1).1
    (reduceCell_same_lattice equal U' (some eps') _ h'.parts.1).1 h.red h'.red

/-- C101: for the symmetric classes the reduced canonical basis is the same too, if the tolerance is. -/
theorem idCell_unique_Co {U U' : RMat ℚ} {q : ℚ} (hs : SameCrystal q R (realCell U) (realCell U'))
    (h : Recognised equal U eps rho r) (h' : Recognised equal U' eps rho' r') (hk : r.id ∉ [31, 44]) :
    r'.Co = r.Co := by
  have hid := (idCell_unique hs h h').1
  have h1 := h.parts.2
  have h2 := h'.parts.2
  rw [hid] at h2
  obtain ⟨O, hO⟩ : ∃ O, (fBasis r.id : Option (RMat ℚ)) = some O := by
    have : ∀ k ∈ classTable, k ∉ [31, 44] → (fBasis k : Option (RMat ℚ)).isSome = true := by decide +kernel
    exact Option.isSome_iff_exists.1 (this _ h.id_mem hk)
  rw [hO, Option.getD_some] at h1 h2
  rw [h1] at h2
  exact (Except.ok.inj h2).symm

/-- The lattice of `sameCrystal_ortho`, twice as large, mirrored, and in another cell. -/
theorem sameCrystal_mirror : SameCrystal ((2 : ℚ) : ℝ) !![1, 0, 0; 0, -1, 0; 0, 0, 1]
    (realCell ⟨1, 0, 3, 0, 2, 1, 0, 0, 5⟩) (realCell ⟨2, 0, 6, -4, -4, -2, 0, 0, 10⟩) := by
  refine ⟨by norm_num, ?_, !![1, 0, 0; 1, 1, 0; 0, 0, 1], by decide, ?_⟩
  · ext i j
    fin_cases i <;> fin_cases j <;> simp [Matrix.mul_apply, Fin.sum_univ_three]
  · ext i j
    rw [Matrix.smul_apply, Matrix.mul_apply, Fin.sum_univ_three, Matrix.mul_apply, Matrix.mul_apply,
      Matrix.mul_apply, Fin.sum_univ_three, Fin.sum_univ_three, Fin.sum_univ_three]
    fin_cases i <;> fin_cases j <;> simp [realCell, RMat.toMatrix, toReal] <;> norm_num

theorem recognised_ortho : Recognised cmpEqual ⟨1, 0, 3, 0, 2, 1, 0, 0, 5⟩ (8589935 / 2 ^ 33) (8589935 / 2 ^ 33)
    ⟨⟨-1, 0, -3, 0, -1, 0, 0, 0, 1⟩, ⟨1, 0, 0, 0, 1, 0, 0, 0, 1⟩, 40, some 15⟩ :=
  recognised_of (A := 1) (B := 4) (C := 26) (D := -2) (E := 0) (F := 0) (by decide +kernel) (by decide +kernel)
    (by decide +kernel) (by constructor <;> norm_num [TypeI, TypeII]) (by constructor <;> decide +kernel)
    (by norm_num) (by decide)

theorem recognised_mirror : Recognised cmpEqual ⟨2, 0, 6, -4, -4, -2, 0, 0, 10⟩ (8589935 / 2 ^ 33)
    (8589935 / 2 ^ 33) ⟨⟨1, 0, 3, -1, -1, -2, 0, 0, -1⟩, ⟨1, 0, 0, 0, 1, 0, 0, 0, 1⟩, 40, some 15⟩ :=
  recognised_of (A := 4) (B := 16) (C := 104) (D := -8) (E := 0) (F := 0) (by decide +kernel) (by decide +kernel)
    (by decide +kernel) (by constructor <;> norm_num [TypeI, TypeII]) (by constructor <;> decide +kernel)
    (by norm_num) (by decide)

/-- The hypotheses are met. -/
example : gram ⟨2, 0, 6, -4, -4, -2, 0, 0, 10⟩ ⟨1, 0, 3, -1, -1, -2, 0, 0, -1⟩ =
    (2 : ℚ) ^ 2 • gram ⟨1, 0, 3, 0, 2, 1, 0, 0, 5⟩ ⟨-1, 0, -3, 0, -1, 0, 0, 0, 1⟩ :=
  (idCell_unique sameCrystal_mirror recognised_ortho recognised_mirror).2.2

end Fortran

end AutoGR
