import Mathlib.Data.Matrix.Mul
import Mathlib.LinearAlgebra.Matrix.Determinant.Basic
import Mathlib.Tactic.FinCases
import Mathlib.Tactic.Ring
import Mathlib.Tactic.SplitIfs
import Verif.Lemmas.ClassSym
import Verif.Model.LatId

/-! # The reduction only multiplies by matrices of determinant 1 -/

namespace AutoGR

variable {K : Type} [Arith K]

theorem det_mulC {C M : IMat} (hC : C.toMat.det = 1) (hM : M.toMat.det = 1) :
    (mulC C M).toMat.det = 1 := by
  rw [toMat_mulC, Matrix.det_mul, hC, hM, one_mul]

theorem det_one : IMat.one.toMat.det = 1 := by
  rw [toMat_one, Matrix.det_one]

theorem det_toMat (M : IMat) : M.toMat.det =
    M.m00 * M.m11 * M.m22 - M.m00 * M.m12 * M.m21 - M.m01 * M.m10 * M.m22 +
    M.m01 * M.m12 * M.m20 + M.m02 * M.m10 * M.m21 - M.m02 * M.m11 * M.m20 := by
  rw [Matrix.det_fin_three]
  simp [IMat.toMat]

theorem signFlag_mem (eps x : K) : signFlag eps x = -1 ∨ signFlag eps x = 0 ∨ signFlag eps x = 1 := by
  unfold signFlag
  split_ifs <;> simp

theorem det_findC3 {l m n : ℤ} (hl : l = -1 ∨ l = 0 ∨ l = 1) (hm : m = -1 ∨ m = 0 ∨ m = 1)
    (hn : n = -1 ∨ n = 0 ∨ n = 1) (h : l * m * n = 1) : (findC3 l m n).toMat.det = 1 := by
  rcases hl with rfl | rfl | rfl <;> rcases hm with rfl | rfl | rfl <;>
    rcases hn with rfl | rfl | rfl <;> simp_all [findC3, det_toMat]

theorem det_findC4 {l m n : ℤ} (hl : l = -1 ∨ l = 0 ∨ l = 1) (hm : m = -1 ∨ m = 0 ∨ m = 1)
    (hn : n = -1 ∨ n = 0 ∨ n = 1) (h : l * m * n = 0 ∨ l * m * n = -1) :
    (findC4 l m n).toMat.det = 1 := by
  rcases hl with rfl | rfl | rfl <;> rcases hm with rfl | rfl | rfl <;>
    rcases hn with rfl | rfl | rfl <;> simp_all [findC4, det_toMat, IMat.one]

theorem det_pass (orig : RMat K) (eps : K) {C : IMat} (hC : C.toMat.det = 1) :
    (niggliPass orig eps C).1.toMat.det = 1 := by
  unfold niggliPass
  extract_lets par c1 C1 p1 M3 s3 C2 p2 M4 s4 C4 reduced p
  have h1 : C1.toMat.det = 1 := by
    unfold C1
    split_ifs
    · exact det_mulC hC (by simp [det_toMat])
    · exact hC
  split_ifs
  · exact det_mulC h1 (by simp [det_toMat])
  all_goals
    have h2 : C2.toMat.det = 1 := by
      unfold C2
      split_ifs with hs
      · exact det_mulC h1 (det_findC3 (signFlag_mem _ _) (signFlag_mem _ _) (signFlag_mem _ _) hs)
      · exact h1
    have h4 : C4.toMat.det = 1 := by
      unfold C4
      split_ifs with hs
      · exact det_mulC h2 (det_findC4 (signFlag_mem _ _) (signFlag_mem _ _) (signFlag_mem _ _) hs)
      · exact h2
  · exact det_mulC h4 (by simp [det_toMat])
  · exact det_mulC h4 (by simp [det_toMat])
  · exact det_mulC h4 (by simp [det_toMat])
  · exact det_mulC h4 (by simp [det_toMat])
  · exact h4

theorem det_loop (orig : RMat K) (eps : K) : ∀ (fuel count : ℕ) {C : IMat}, C.toMat.det = 1 →
    (niggliLoop orig eps fuel count C).1.toMat.det = 1
  | 0, _, _, h => h
  | fuel + 1, count, C, h => by
    unfold niggliLoop
    have := det_pass orig eps h
    split
    · rename_i C' heq; rw [heq] at this; exact this
    · rename_i C' heq; rw [heq] at this; exact det_loop orig eps fuel _ this

theorem det_niggliReduction {orig : RMat K} {eps : K} {C : IMat}
    (h : niggliReduction orig eps = .ok C) : C.toMat.det = 1 := by
  unfold niggliReduction at h
  have := det_loop orig eps 1001 0 det_one
  split at h
  rename_i C' count heq
  rw [heq] at this
  split_ifs at h
  cases h
  exact this

theorem det_reducedCell {A : RMat K} {eps : Option K} {C : IMat} (h : reducedCell A eps = .ok C) :
    C.toMat.det = 1 := by
  unfold reducedCell at h
  dsimp only at h
  split_ifs at h
  cases eps with
  | none => exact det_niggliReduction h
  | some e => exact det_niggliReduction h

end AutoGR
