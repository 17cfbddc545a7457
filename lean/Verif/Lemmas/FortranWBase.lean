import Verif.Lemmas.FortranBase
import Verif.Lemmas.Float
import Verif.Spec.Int32

/-! # 32-bit evaluation of small integer expressions -/

namespace AutoGR

namespace Fortran

open Spec

/-- The machine value `x'` is the exact value `x`, of absolute value at most `B`. -/
def W (B x' x : ℤ) : Prop := x' = x ∧ |x| ≤ B

theorem Int32.small {w : ℤ → ℤ} (hw : Int32 w) {z B : ℤ} (h : |z| ≤ B) (hB : B < 2 ^ 31) :
    w z = z := by
  have := abs_le.1 h
  exact hw.exact z (by omega) (by omega)

namespace W

variable {w : ℤ → ℤ} {B B' x' x y' y : ℤ}

theorem var (h0 : 0 ≤ x) (h : x ≤ B) : W B x x := ⟨rfl, by rwa [abs_of_nonneg h0]⟩

theorem neg (h : W B x' x) : W B (-x') (-x) := ⟨by rw [h.1], by rw [abs_neg]; exact h.2⟩

theorem add (hw : Int32 w) (h : W B x' x) (h' : W B' y' y) (hB : B + B' < 2 ^ 31) :
    W (B + B') (iadd w x' y') (x + y) := by
  have hb : |x + y| ≤ B + B' := (abs_add_le _ _).trans (add_le_add h.2 h'.2)
  refine ⟨?_, hb⟩
  unfold iadd
  rw [h.1, h'.1, Int32.small hw hb hB]

theorem sub (hw : Int32 w) (h : W B x' x) (h' : W B' y' y) (hB : B + B' < 2 ^ 31) :
    W (B + B') (isub w x' y') (x - y) := by
  have hb : |x - y| ≤ B + B' := (abs_sub _ _).trans (add_le_add h.2 h'.2)
  refine ⟨?_, hb⟩
  unfold isub
  rw [h.1, h'.1, Int32.small hw hb hB]

theorem mul_bound (h : W B x' x) (h' : W B' y' y) : |x * y| ≤ B * B' := by
  rw [abs_mul]
  exact mul_le_mul h.2 h'.2 (abs_nonneg _) ((abs_nonneg _).trans h.2)

theorem mul (hw : Int32 w) (h : W B x' x) (h' : W B' y' y) (hB : B * B' < 2 ^ 31) :
    W (B * B') (imul w x' y') (x * y) := by
  refine ⟨?_, mul_bound h h'⟩
  unfold imul
  rw [h.1, h'.1, Int32.small hw (mul_bound h h') hB]

/-- A product with a better bound. -/
theorem mulB (hw : Int32 w) (h : W B x' x) (h' : W B' y' y) {C : ℤ} (hC : |x * y| ≤ C)
    (hB : C < 2 ^ 31) : W C (imul w x' y') (x * y) := by
  refine ⟨?_, hC⟩
  unfold imul
  rw [h.1, h'.1, Int32.small hw hC hB]

theorem addL (h : W B x' x) (h' : W B' y' y) : W (B + B') (x' + y') (x + y) :=
  ⟨by rw [h.1, h'.1], (abs_add_le _ _).trans (add_le_add h.2 h'.2)⟩

theorem subL (h : W B x' x) (h' : W B' y' y) : W (B + B') (x' - y') (x - y) :=
  ⟨by rw [h.1, h'.1], (abs_sub _ _).trans (add_le_add h.2 h'.2)⟩

theorem mulL (h : W B x' x) (h' : W B' y' y) : W (B * B') (x' * y') (x * y) :=
  ⟨by rw [h.1, h'.1], mul_bound h h'⟩

theorem tdiv (h : W B x' x) (h' : W B' y' y) : W B (Int.tdiv x' y') (Int.tdiv x y) := by
  refine ⟨by rw [h.1, h'.1], le_trans ?_ h.2⟩
  rw [Int.abs_eq_natAbs, Int.abs_eq_natAbs, Int.natAbs_tdiv]
  exact_mod_cast Nat.div_le_self _ _

end W

theorem iff_MOD {B B' x' x m' m : ℤ} (h : W B x' x) (h' : W B' m' m) :
    MOD x' m' = 0 ↔ MOD x m = 0 := by
  rw [h.1, h'.1]

/-- The bounds used below, from `a * c * f = n ≤ 46000`. -/
theorem diag_boundsW {n a c f : ℤ} (hn : n ≤ 46000) (h : (a, c, f) ∈ get_HNF_diagonals n) :
    (0 < a ∧ 0 < c ∧ 0 < f) ∧ (a ≤ 46000 ∧ c ≤ 46000 ∧ f ≤ 46000) ∧
    (a * c ≤ 46000 ∧ a * f ≤ 46000 ∧ c * f ≤ 46000) ∧
    (a * a ≤ 46000 ^ 2 ∧ c * c ≤ 46000 ^ 2 ∧ f * f ≤ 46000 ^ 2) := by
  rw [get_HNF_diagonals_eq] at h
  obtain ⟨ha, hc, hf, h⟩ := mem_getHNFDiagonals.1 h
  have hcf : 1 ≤ c * f := Int.mul_pos hc hf
  have haf : 1 ≤ a * f := Int.mul_pos ha hf
  have hac : 1 ≤ a * c := Int.mul_pos ha hc
  have h1 : a * c ≤ 46000 := by nlinarith
  have h2 : a * f ≤ 46000 := by nlinarith
  have h3 : c * f ≤ 46000 := by nlinarith
  have b1 : a ≤ 46000 := by nlinarith
  have b2 : c ≤ 46000 := by nlinarith
  have b3 : f ≤ 46000 := by nlinarith
  exact ⟨⟨ha, hc, hf⟩, ⟨b1, b2, b3⟩, ⟨h1, h2, h3⟩, ⟨by nlinarith, by nlinarith, by nlinarith⟩⟩

theorem half_le {x m : ℤ} (hm : 0 < m) (h : x ∈ halves m) : 0 ≤ x ∧ x ≤ m ∧ 2 * x ≤ m := by
  unfold halves at h
  split_ifs at h <;> simp at h <;> omega

end Fortran

end AutoGR
