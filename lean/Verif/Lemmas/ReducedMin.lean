import Verif.Spec.NiggliClass
import Verif.Lemmas.ClassSym
import Mathlib.Tactic.Linarith
import Mathlib.Tactic.Ring
import Mathlib.Tactic.FinCases
import Mathlib.Tactic.Positivity
import Mathlib.Data.Int.Cast.Lemmas
import Mathlib.Data.Sign.Basic

/-!
# The short vectors of a Niggli reduced lattice

A symmetry of a lattice written in its Niggli basis has entries -1, 0 and 1 only.
-/

namespace AutoGR

open Spec Matrix

/-- The squared length of the vector `p a + q b + r c`. -/
def sqLen (A B C D E F : ℝ) (p q r : ℤ) : ℝ :=
  A * (p : ℝ) ^ 2 + B * (q : ℝ) ^ 2 + C * (r : ℝ) ^ 2 + 2 * D * q * r + 2 * E * p * r + 2 * F * p * q

theorem Spec.NiggliReduced.signs {A B C D E F : ℝ} (h : NiggliReduced A B C D E F) :
    (0 < D ∧ 0 < E ∧ 0 < F ∧ 2 * D ≤ B ∧ 2 * E ≤ A ∧ 2 * F ≤ A) ∨
    (D ≤ 0 ∧ E ≤ 0 ∧ F ≤ 0 ∧ -(2 * D) ≤ B ∧ -(2 * E) ≤ A ∧ -(2 * F) ≤ A) := by
  have d := h.d_le
  have e := h.e_le
  have f := h.f_le
  rcases h.type with ⟨h1, h2, h3⟩ | ⟨h1, h2, h3⟩
  · rw [abs_of_pos h1] at d
    rw [abs_of_pos h2] at e
    rw [abs_of_pos h3] at f
    exact .inl ⟨h1, h2, h3, d, e, f⟩
  · rw [abs_of_nonpos h1] at d
    rw [abs_of_nonpos h2] at e
    rw [abs_of_nonpos h3] at f
    exact .inr ⟨h1, h2, h3, by linarith, by linarith, by linarith⟩

theorem sqLen_nonneg {A B C D E F : ℝ} (h : NiggliReduced A B C D E F) (p q r : ℤ) :
    0 ≤ sqLen A B C D E F p q r := by
  have ab := h.ab
  have bc := h.bc
  have ha := h.pos
  rcases h.signs with ⟨h1, h2, h3, d, e, f⟩ | ⟨h1, h2, h3, d, e, f⟩
  · have : sqLen A B C D E F p q r = (A - E - F) * (p : ℝ) ^ 2 + (B - D - F) * (q : ℝ) ^ 2 +
        (C - D - E) * (r : ℝ) ^ 2 + F * ((p : ℝ) + q) ^ 2 + E * ((p : ℝ) + r) ^ 2 + D * ((q : ℝ) + r) ^ 2 := by
      simp only [sqLen]; ring
    rw [this]
    have i1 : 0 ≤ A - E - F := by linarith
    have i2 : 0 ≤ B - D - F := by linarith
    have i3 : 0 ≤ C - D - E := by linarith
    positivity
  · have : sqLen A B C D E F p q r = (A + E + F) * (p : ℝ) ^ 2 + (B + D + F) * (q : ℝ) ^ 2 +
        (C + D + E) * (r : ℝ) ^ 2 + (-F) * ((p : ℝ) - q) ^ 2 + (-E) * ((p : ℝ) - r) ^ 2 +
        (-D) * ((q : ℝ) - r) ^ 2 := by
      simp only [sqLen]; ring
    rw [this]
    have i1 : 0 ≤ A + E + F := by linarith
    have i2 : 0 ≤ B + D + F := by linarith
    have i3 : 0 ≤ C + D + E := by linarith
    have i4 : 0 ≤ -F := by linarith
    have i5 : 0 ≤ -E := by linarith
    have i6 : 0 ≤ -D := by linarith
    positivity

/-- The sign as an integer. -/
def sg (x : ℤ) : ℤ := if 0 < x then 1 else if x < 0 then -1 else 0

theorem sg_cases (x : ℤ) : (0 < x ∧ sg x = 1) ∨ (x < 0 ∧ sg x = -1) ∨ (x = 0 ∧ sg x = 0) := by
  unfold sg; split_ifs <;> omega

theorem sg_zero : sg 0 = 0 := rfl

theorem sg_cases' (x : ℤ) : (x ≠ 0 ∧ sg x = 1) ∨ (x ≠ 0 ∧ sg x = -1) ∨ (x = 0 ∧ sg x = 0) := by
  unfold sg; split_ifs <;> omega

theorem sq_sg (x : ℤ) : (sg x) ^ 2 + (x - sg x) ^ 2 ≤ x ^ 2 := by
  rcases sg_cases x with ⟨h, e⟩ | ⟨h, e⟩ | ⟨h, e⟩ <;> rw [e] <;> nlinarith

theorem sub_sg (x y : ℤ) : (sg x - sg y) ^ 2 + ((x - sg x) - (y - sg y)) ^ 2 ≤ (x - y) ^ 2 := by
  rcases sg_cases x with ⟨h, e⟩ | ⟨h, e⟩ | ⟨h, e⟩ <;>
  rcases sg_cases y with ⟨h', e'⟩ | ⟨h', e'⟩ | ⟨h', e'⟩ <;> rw [e, e'] <;> nlinarith

theorem add_sg (x y : ℤ) : (sg x + sg y) ^ 2 + ((x - sg x) + (y - sg y)) ^ 2 ≤ (x + y) ^ 2 := by
  rcases sg_cases x with ⟨h, e⟩ | ⟨h, e⟩ | ⟨h, e⟩ <;>
  rcases sg_cases y with ⟨h', e'⟩ | ⟨h', e'⟩ | ⟨h', e'⟩ <;> rw [e, e'] <;> nlinarith

/-- Splitting off the signs of the coordinates. -/
theorem sqLen_split {A B C D E F : ℝ} (h : NiggliReduced A B C D E F) (p q r : ℤ) :
    sqLen A B C D E F (sg p) (sg q) (sg r) + sqLen A B C D E F (p - sg p) (q - sg q) (r - sg r) ≤
      sqLen A B C D E F p q r := by
  have ab := h.ab
  have bc := h.bc
  have ha := h.pos
  have cp : ((sg p : ℤ) : ℝ) ^ 2 + ((p - sg p : ℤ) : ℝ) ^ 2 ≤ (p : ℝ) ^ 2 := by exact_mod_cast sq_sg p
  have cq : ((sg q : ℤ) : ℝ) ^ 2 + ((q - sg q : ℤ) : ℝ) ^ 2 ≤ (q : ℝ) ^ 2 := by exact_mod_cast sq_sg q
  have cr : ((sg r : ℤ) : ℝ) ^ 2 + ((r - sg r : ℤ) : ℝ) ^ 2 ≤ (r : ℝ) ^ 2 := by exact_mod_cast sq_sg r
  rcases h.signs with ⟨h1, h2, h3, d, e, f⟩ | ⟨h1, h2, h3, d, e, f⟩
  · have key (p q r : ℤ) : sqLen A B C D E F p q r = (A - E - F) * (p : ℝ) ^ 2 + (B - D - F) * (q : ℝ) ^ 2 +
        (C - D - E) * (r : ℝ) ^ 2 + F * ((p : ℝ) + q) ^ 2 + E * ((p : ℝ) + r) ^ 2 + D * ((q : ℝ) + r) ^ 2 := by
      simp only [sqLen]; ring
    have i1 : 0 ≤ A - E - F := by linarith
    have i2 : 0 ≤ B - D - F := by linarith
    have i3 : 0 ≤ C - D - E := by linarith
    have c1 : ((sg p : ℤ) + (sg q : ℤ) : ℝ) ^ 2 + (((p - sg p : ℤ) : ℝ) + ((q - sg q : ℤ) : ℝ)) ^ 2 ≤
      ((p : ℝ) + q) ^ 2 := by exact_mod_cast add_sg p q
    have c2 : ((sg p : ℤ) + (sg r : ℤ) : ℝ) ^ 2 + (((p - sg p : ℤ) : ℝ) + ((r - sg r : ℤ) : ℝ)) ^ 2 ≤
      ((p : ℝ) + r) ^ 2 := by exact_mod_cast add_sg p r
    have c3 : ((sg q : ℤ) + (sg r : ℤ) : ℝ) ^ 2 + (((q - sg q : ℤ) : ℝ) + ((r - sg r : ℤ) : ℝ)) ^ 2 ≤
      ((q : ℝ) + r) ^ 2 := by exact_mod_cast add_sg q r
    rw [key, key, key]
    have m1 := mul_le_mul_of_nonneg_left cp i1
    have m2 := mul_le_mul_of_nonneg_left cq i2
    have m3 := mul_le_mul_of_nonneg_left cr i3
    have m4 := mul_le_mul_of_nonneg_left c1 h3.le
    have m5 := mul_le_mul_of_nonneg_left c2 h2.le
    have m6 := mul_le_mul_of_nonneg_left c3 h1.le
    linarith
  · have key (p q r : ℤ) : sqLen A B C D E F p q r = (A + E + F) * (p : ℝ) ^ 2 + (B + D + F) * (q : ℝ) ^ 2 +
        (C + D + E) * (r : ℝ) ^ 2 + (-F) * ((p : ℝ) - q) ^ 2 + (-E) * ((p : ℝ) - r) ^ 2 +
        (-D) * ((q : ℝ) - r) ^ 2 := by
      simp only [sqLen]; ring
    have i1 : 0 ≤ A + E + F := by linarith
    have i2 : 0 ≤ B + D + F := by linarith
    have i3 : 0 ≤ C + D + E := by linarith
    have i4 : 0 ≤ -F := by linarith
    have i5 : 0 ≤ -E := by linarith
    have i6 : 0 ≤ -D := by linarith
    have c1 : ((sg p : ℤ) - (sg q : ℤ) : ℝ) ^ 2 + (((p - sg p : ℤ) : ℝ) - ((q - sg q : ℤ) : ℝ)) ^ 2 ≤
      ((p : ℝ) - q) ^ 2 := by exact_mod_cast sub_sg p q
    have c2 : ((sg p : ℤ) - (sg r : ℤ) : ℝ) ^ 2 + (((p - sg p : ℤ) : ℝ) - ((r - sg r : ℤ) : ℝ)) ^ 2 ≤
      ((p : ℝ) - r) ^ 2 := by exact_mod_cast sub_sg p r
    have c3 : ((sg q : ℤ) - (sg r : ℤ) : ℝ) ^ 2 + (((q - sg q : ℤ) : ℝ) - ((r - sg r : ℤ) : ℝ)) ^ 2 ≤
      ((q : ℝ) - r) ^ 2 := by exact_mod_cast sub_sg q r
    rw [key, key, key]
    have m1 := mul_le_mul_of_nonneg_left cp i1
    have m2 := mul_le_mul_of_nonneg_left cq i2
    have m3 := mul_le_mul_of_nonneg_left cr i3
    have m4 := mul_le_mul_of_nonneg_left c1 i4
    have m5 := mul_le_mul_of_nonneg_left c2 i5
    have m6 := mul_le_mul_of_nonneg_left c3 i6
    linarith

/-- The length of the shortest vectors with the same last non-zero coordinate. -/
noncomputable def lowest (A B C : ℝ) (p q r : ℤ) : ℝ :=
  if r ≠ 0 then C else if q ≠ 0 then B else if p ≠ 0 then A else 0

theorem lowest_le_sg {A B C D E F : ℝ} (h : NiggliReduced A B C D E F) (p q r : ℤ) :
    lowest A B C p q r ≤ sqLen A B C D E F (sg p) (sg q) (sg r) := by
  have ab := h.ab
  have bc := h.bc
  have ha := h.pos
  have su := h.sum
  rcases sg_cases' p with ⟨hp, ep⟩ | ⟨hp, ep⟩ | ⟨hp, ep⟩ <;>
  rcases sg_cases' q with ⟨hq, eq⟩ | ⟨hq, eq⟩ | ⟨hq, eq⟩ <;>
  rcases sg_cases' r with ⟨hr, er⟩ | ⟨hr, er⟩ | ⟨hr, er⟩ <;>
  simp only [ep, eq, er, sg_zero, sqLen, lowest, hr, hq, hp, ne_eq,
    not_false_eq_true, not_true_eq_false, if_true, if_false, Int.cast_one, Int.cast_neg, Int.cast_zero] <;>
  rcases h.signs with ⟨h1, h2, h3, d, e, f⟩ | ⟨h1, h2, h3, d, e, f⟩ <;> linarith

theorem lowest_pos {A B C D E F : ℝ} (h : NiggliReduced A B C D E F) {p q r : ℤ}
    (hx : ¬ (p = 0 ∧ q = 0 ∧ r = 0)) : A ≤ lowest A B C p q r := by
  have ab := h.ab
  have bc := h.bc
  unfold lowest
  split_ifs with h1 h2 h3
  · linarith
  · linarith
  · exact le_rfl
  · exfalso; apply hx; push Not at *; exact ⟨h3, h2, h1⟩

theorem lowest_le {A B C D E F : ℝ} (h : NiggliReduced A B C D E F) (p q r : ℤ) :
    lowest A B C p q r ≤ sqLen A B C D E F p q r := by
  have h1 := lowest_le_sg h p q r
  have h2 := sqLen_split h p q r
  have h3 := sqLen_nonneg h (p - sg p) (q - sg q) (r - sg r)
  linarith

theorem sqLen_pos {A B C D E F : ℝ} (h : NiggliReduced A B C D E F) {p q r : ℤ}
    (hx : ¬ (p = 0 ∧ q = 0 ∧ r = 0)) : 0 < sqLen A B C D E F p q r :=
  h.pos.trans_le ((lowest_pos h hx).trans (lowest_le h p q r))

theorem abs_le_of_sg {x : ℤ} (h : x - sg x = 0) : -1 ≤ x ∧ x ≤ 1 := by
  rcases sg_cases x with ⟨_, e⟩ | ⟨_, e⟩ | ⟨_, e⟩ <;> rw [e] at h <;> omega

/-- A vector that is as short as possible has coordinates -1, 0, 1. -/
theorem entries_of_lowest {A B C D E F : ℝ} (h : NiggliReduced A B C D E F) {p q r : ℤ}
    (hx : sqLen A B C D E F p q r ≤ lowest A B C p q r) :
    (-1 ≤ p ∧ p ≤ 1) ∧ (-1 ≤ q ∧ q ≤ 1) ∧ (-1 ≤ r ∧ r ≤ 1) := by
  have h1 := lowest_le_sg h p q r
  have h2 := sqLen_split h p q r
  have h3 : p - sg p = 0 ∧ q - sg q = 0 ∧ r - sg r = 0 := by
    by_contra hne
    have := sqLen_pos h hne
    linarith
  exact ⟨abs_le_of_sg h3.1, abs_le_of_sg h3.2.1, abs_le_of_sg h3.2.2⟩

theorem det_metric (A B C D E F : ℝ) : (metric A B C D E F).det =
    A * B * C + 2 * D * E * F - A * D * D - B * E * E - C * F * F := by
  simp [metric, Matrix.det_fin_three]; ring

theorem det_metric_pos {A B C D E F : ℝ} (h : NiggliReduced A B C D E F) : 0 < (metric A B C D E F).det := by
  rw [det_metric]
  have ab := h.ab
  have bc := h.bc
  have ha := h.pos
  have hb : 0 < B := by linarith
  have hc : 0 < C := by linarith
  have su := h.sum
  have hAB : 0 < A * B := mul_pos ha hb
  have hABC : 0 < A * B * C := mul_pos hAB hc
  rcases h.signs with ⟨h1, h2, h3, d, e, f⟩ | ⟨h1, h2, h3, d, e, f⟩
  · have p1 : 0 < D * E * F := by positivity
    have p2 : 4 * (A * D * D) ≤ A * B * C := by
      have : 4 * (D * D) ≤ B * C := by nlinarith
      nlinarith
    have p3 : 4 * (B * E * E) ≤ A * B * C := by
      have : 4 * (E * E) ≤ A * C := by nlinarith
      nlinarith
    have p4 : 4 * (C * F * F) ≤ A * B * C := by
      have : 4 * (F * F) ≤ A * B := by nlinarith
      nlinarith
    linarith
  · have p1 : 2 * (A * (D * D)) ≤ A * C * (-D) := by
      have : 2 * (D * D) ≤ C * (-D) := by nlinarith
      nlinarith
    have p2 : 2 * (B * (E * E)) ≤ A * C * (-E) := by
      have : 2 * (E * E) ≤ A * (-E) := by nlinarith
      have : 2 * (B * (E * E)) ≤ B * (A * (-E)) := by nlinarith
      have : B * (A * (-E)) ≤ C * (A * (-E)) := by
        apply mul_le_mul_of_nonneg_right bc; nlinarith
      linarith
    have p3 : 2 * (C * (F * F)) ≤ A * C * (-F) := by
      have : 2 * (F * F) ≤ A * (-F) := by nlinarith
      nlinarith
    have p4 : A * C * (-D - E - F) * 2 ≤ A * C * (A + B) := by
      have : 0 < A * C := mul_pos ha hc
      nlinarith
    have p5 : A * C * (A + B) ≤ 2 * (A * B * C) := by nlinarith [mul_pos ha hc]
    have p6 : 4 * ((-E) * (-F)) ≤ A * A := by nlinarith
    have p7 : 8 * ((-D) * ((-E) * (-F))) ≤ A * A * B := by
      have h0 : 0 ≤ (-E) * (-F) := by nlinarith
      have : 2 * ((-D) * ((-E) * (-F))) ≤ B * ((-E) * (-F)) := by nlinarith
      nlinarith
    have p8 : A * A * B ≤ A * B * C := by nlinarith
    nlinarith

theorem det_toReal (X : IntMat) : (toReal X).det = (X.det : ℝ) := by
  simp [toReal, Matrix.det_fin_three]

/-- A symmetry of a lattice has determinant 1 or -1. -/
theorem symm_det {A B C D E F : ℝ} (h : NiggliReduced A B C D E F) {X : IntMat}
    (hX : (toReal X)ᵀ * metric A B C D E F * toReal X = metric A B C D E F) : X.det = 1 ∨ X.det = -1 := by
  have h1 := congrArg Matrix.det hX
  rw [Matrix.det_mul, Matrix.det_mul, Matrix.det_transpose, det_toReal] at h1
  have h2 := det_metric_pos h
  have h3 : ((X.det : ℝ) * X.det - 1) * (metric A B C D E F).det = 0 := by linarith
  have h4 : (X.det : ℝ) * X.det = 1 := by
    rcases mul_eq_zero.1 h3 with h4 | h4
    · linarith
    · exact absurd h4 h2.ne'
  have h5 : X.det * X.det = 1 := by exact_mod_cast h4
  have h6 : (X.det - 1) * (X.det + 1) = 0 := by linarith
  rcases mul_eq_zero.1 h6 with h7 | h7
  · left; linarith
  · right; linarith

theorem unit_of_mul {p m : ℤ} (h : p * m = 1 ∨ p * m = -1) : -1 ≤ p ∧ p ≤ 1 := by
  have : IsUnit p := by
    rcases h with h | h
    · exact IsUnit.of_mul_eq_one _ h
    · exact IsUnit.of_mul_eq_one (-m) (by linarith)
  rcases Int.isUnit_iff.1 this with rfl | rfl <;> norm_num

/-- The symmetries of a lattice in its Niggli basis have entries -1, 0, 1. -/
theorem symm_entries {A B C D E F : ℝ} (h : NiggliReduced A B C D E F) {X : IntMat}
    (hX : (toReal X)ᵀ * metric A B C D E F * toReal X = metric A B C D E F) (i j : Fin 3) :
    -1 ≤ X i j ∧ X i j ≤ 1 := by
  have ab := h.ab
  have bc := h.bc
  have ha := h.pos
  have hd := symm_det h hX
  rw [Matrix.det_fin_three] at hd
  have hh := fun i j => congrFun (congrFun hX i) j
  have n1 := hh 0 0
  have n2 := hh 1 1
  have n3 := hh 2 2
  simp only [metric, toReal, Matrix.mul_apply, Fin.sum_univ_three, Matrix.transpose_apply, Matrix.map_apply,
    Matrix.of_apply, Matrix.cons_val', Matrix.cons_val_zero, Matrix.cons_val_one, Matrix.cons_val] at n1 n2 n3
  have e1 : sqLen A B C D E F (X 0 0) (X 1 0) (X 2 0) = A := by rw [sqLen]; linarith
  have e2 : sqLen A B C D E F (X 0 1) (X 1 1) (X 2 1) = B := by rw [sqLen]; linarith
  have e3 : sqLen A B C D E F (X 0 2) (X 1 2) (X 2 2) = C := by rw [sqLen]; linarith
  have z1 : ¬ (X 0 0 = 0 ∧ X 1 0 = 0 ∧ X 2 0 = 0) := by
    rintro ⟨a, b, c⟩; rw [a, b, c] at hd; omega
  have z3 : ¬ (X 0 2 = 0 ∧ X 1 2 = 0 ∧ X 2 2 = 0) := by
    rintro ⟨a, b, c⟩; rw [a, b, c] at hd; omega
  have l1 := lowest_pos h z1
  have l3 := lowest_pos h z3
  have c1 := entries_of_lowest h (p := X 0 0) (q := X 1 0) (r := X 2 0) (by linarith)
  have c2 : (-1 ≤ X 0 1 ∧ X 0 1 ≤ 1) ∧ (-1 ≤ X 1 1 ∧ X 1 1 ≤ 1) ∧ (-1 ≤ X 2 1 ∧ X 2 1 ≤ 1) := by
    by_cases hr : X 2 1 = 0
    · by_cases hq : X 1 1 = 0
      · rw [hr, hq] at hd ⊢
        refine ⟨unit_of_mul (m := X 1 2 * X 2 0 - X 1 0 * X 2 2) ?_, by norm_num, by norm_num⟩
        rcases hd with hd | hd
        · left; linarith
        · right; linarith
      · exact entries_of_lowest h (by rw [e2]; simp [lowest, hr, hq])
    · exact entries_of_lowest h (by rw [e2]; simpa [lowest, hr] using bc)
  have c3 : (-1 ≤ X 0 2 ∧ X 0 2 ≤ 1) ∧ (-1 ≤ X 1 2 ∧ X 1 2 ≤ 1) ∧ (-1 ≤ X 2 2 ∧ X 2 2 ≤ 1) := by
    by_cases hr : X 2 2 = 0
    · have hCB : C = B := by
        by_cases h20 : X 2 0 = 0
        · have h21 : X 2 1 ≠ 0 := by
            intro h21; rw [hr, h20, h21] at hd; omega
          have := lowest_le h (X 0 1) (X 1 1) (X 2 1)
          rw [e2] at this
          simp only [lowest, h21, ne_eq, not_false_eq_true, if_true] at this
          linarith
        · have := lowest_le h (X 0 0) (X 1 0) (X 2 0)
          rw [e1] at this
          simp only [lowest, h20, ne_eq, not_false_eq_true, if_true] at this
          linarith
      by_cases hq : X 1 2 = 0
      · rw [hr, hq] at hd ⊢
        refine ⟨unit_of_mul (m := X 1 0 * X 2 1 - X 1 1 * X 2 0) ?_, by norm_num, by norm_num⟩
        rcases hd with hd | hd
        · left; linarith
        · right; linarith
      · exact entries_of_lowest h (by rw [e3]; simp [lowest, hr, hq, hCB])
    · exact entries_of_lowest h (by rw [e3]; simp [lowest, hr])
  fin_cases i <;> fin_cases j
  · exact c1.1
  · exact c2.1
  · exact c3.1
  · exact c1.2.1
  · exact c2.2.1
  · exact c3.2.1
  · exact c1.2.2
  · exact c2.2.2
  · exact c3.2.2

end AutoGR
