import Verif.Lemmas.Cubic
import Verif.Lemmas.GenMem1
import Verif.Lemmas.GenMem2
import Verif.Lemmas.GenMem3

/-! # Every non-cubic class has at least two symmetric HNFs for every multiple of 8 -/

namespace AutoGR

open Spec

/-- Checks an explicit `Y` with `X * H = H * Y`. -/
macro "keeps_tac" : tactic => `(tactic| (
  ext i j
  fin_cases i <;> fin_cases j <;> simp [hnf, Matrix.mul_apply, Fin.sum_univ_three] <;> ring))

theorem one_lt_length {α : Type*} {l : List α} {x y : α} (hx : x ∈ l) (hy : y ∈ l) (h : x ≠ y) :
    1 < l.length := by
  match l with
  | [] => simp at hx
  | [a] =>
    simp only [List.mem_singleton] at hx hy
    exact absurd (hx.trans hy.symm) h
  | _ :: _ :: _ => simp

theorem hnf_ne {a b c d e f a' b' c' d' e' f' : ℤ} (h : a ≠ a' ∨ c ≠ c' ∨ f ≠ f' ∨ b ≠ b' ∨ d ≠ d' ∨ e ≠ e') :
    hnf a b c d e f ≠ hnf a' b' c' d' e' f' := by
  intro heq
  have h1 := congrFun (congrFun heq 0) 0
  have h2 := congrFun (congrFun heq 1) 1
  have h3 := congrFun (congrFun heq 2) 2
  have h4 := congrFun (congrFun heq 1) 0
  have h5 := congrFun (congrFun heq 2) 0
  have h6 := congrFun (congrFun heq 2) 1
  simp [hnf] at h1 h2 h3 h4 h5 h6
  tauto

theorem hex_12_two {t : ℤ} (ht : 0 < t) : 1 < (hex_12 id (8 * t)).length := by
  refine one_lt_length (x := hnf 2 0 2 0 0 (2 * t)) (y := hnf 1 0 1 0 0 (8 * t)) ?_ ?_ (hnf_ne (by omega))
  · exact hex_12_mem.2 ⟨⟨isHNF_hnf (by omega) (by omega) (by omega) (by omega) (by omega) (by omega),
      by rw [det_hnf]; ring⟩, ⟨!![0, 1, 0; 1, 0, 0; 0, 0, -1], by keeps_tac⟩,
      ⟨!![1, 1, 0; 0, -1, 0; 0, 0, -1], by keeps_tac⟩⟩
  · exact hex_12_mem.2 ⟨⟨isHNF_hnf (by omega) (by omega) (by omega) (by omega) (by omega) (by omega),
      by rw [det_hnf]; ring⟩, ⟨!![0, 1, 0; 1, 0, 0; 0, 0, -1], by keeps_tac⟩,
      ⟨!![1, 1, 0; 0, -1, 0; 0, 0, -1], by keeps_tac⟩⟩

theorem hex_22_two {t : ℤ} (ht : 0 < t) : 1 < (hex_22 id (8 * t)).length := by
  refine one_lt_length (x := hnf (2 * t) 0 2 0 0 2) (y := hnf (8 * t) 0 1 0 0 1) ?_ ?_ (hnf_ne (by omega))
  · exact hex_22_mem.2 ⟨⟨isHNF_hnf (by omega) (by omega) (by omega) (by omega) (by omega) (by omega),
      by rw [det_hnf]; ring⟩, ⟨!![1, 0, 0; 0, 0, 1; 0, 1, 0], by keeps_tac⟩,
      ⟨!![1, 0, 0; 0, 0, 1; 0, -1, 1], by keeps_tac⟩⟩
  · exact hex_22_mem.2 ⟨⟨isHNF_hnf (by omega) (by omega) (by omega) (by omega) (by omega) (by omega),
      by rw [det_hnf]; ring⟩, ⟨!![1, 0, 0; 0, 0, 1; 0, 1, 0], by keeps_tac⟩,
      ⟨!![1, 0, 0; 0, 0, 1; 0, -1, 1], by keeps_tac⟩⟩

theorem stet_11_two {t : ℤ} (ht : 0 < t) : 1 < (stet_11 id (8 * t)).length := by
  refine one_lt_length (x := hnf 2 0 2 0 0 (2 * t)) (y := hnf 1 1 2 0 0 (4 * t)) ?_ ?_ (hnf_ne (by omega))
  · exact stet_11_mem.2 ⟨⟨isHNF_hnf (by omega) (by omega) (by omega) (by omega) (by omega) (by omega),
      by rw [det_hnf]; ring⟩, ⟨!![0, 1, 0; 1, 0, 0; 0, 0, 1], by keeps_tac⟩,
      ⟨!![1, 0, 0; 0, -1, 0; 0, 0, 1], by keeps_tac⟩⟩
  · exact stet_11_mem.2 ⟨⟨isHNF_hnf (by omega) (by omega) (by omega) (by omega) (by omega) (by omega),
      by rw [det_hnf]; ring⟩, ⟨!![1, 2, 0; 0, -1, 0; 0, 0, 1], by keeps_tac⟩,
      ⟨!![1, 0, 0; -1, -1, 0; 0, 0, 1], by keeps_tac⟩⟩

theorem stet_21_two {t : ℤ} (ht : 0 < t) : 1 < (stet_21 id (8 * t)).length := by
  refine one_lt_length (x := hnf (2 * t) 0 2 0 0 2) (y := hnf (4 * t) 0 1 0 1 2) ?_ ?_ (hnf_ne (by omega))
  · exact stet_21_mem.2 ⟨⟨isHNF_hnf (by omega) (by omega) (by omega) (by omega) (by omega) (by omega),
      by rw [det_hnf]; ring⟩, ⟨!![1, 0, 0; 0, -1, 0; 0, 0, 1], by keeps_tac⟩,
      ⟨!![1, 0, 0; 0, 0, -1; 0, 1, 0], by keeps_tac⟩⟩
  · exact stet_21_mem.2 ⟨⟨isHNF_hnf (by omega) (by omega) (by omega) (by omega) (by omega) (by omega),
      by rw [det_hnf]; ring⟩, ⟨!![1, 0, 0; 0, -1, 0; 0, 1, 1], by keeps_tac⟩,
      ⟨!![1, 0, 0; 0, -1, -2; 0, 1, 1], by keeps_tac⟩⟩

theorem body_tet_6_7_15_18_two {t : ℤ} (ht : 0 < t) : 1 < (body_tet_6_7_15_18 id (8 * t)).length := by
  refine one_lt_length (x := hnf (8 * t) 0 1 0 0 1) (y := hnf (4 * t) 0 1 0 1 2) ?_ ?_ (hnf_ne (by omega))
  · exact body_tet_6_7_15_18_mem.2 ⟨⟨isHNF_hnf (by omega) (by omega) (by omega) (by omega) (by omega) (by omega),
      by rw [det_hnf]; ring⟩, ⟨!![1, 0, 0; 0, 0, 1; 0, 1, 0], by keeps_tac⟩,
      ⟨!![1, 0, 0; -8 * t, 0, -1; 0, 1, 0], by keeps_tac⟩⟩
  · exact body_tet_6_7_15_18_mem.2 ⟨⟨isHNF_hnf (by omega) (by omega) (by omega) (by omega) (by omega) (by omega),
      by rw [det_hnf]; ring⟩, ⟨!![1, 0, 0; 0, 1, 2; 0, 0, -1], by keeps_tac⟩,
      ⟨!![1, 0, 0; -4 * t, -1, -2; 2 * t, 1, 1], by keeps_tac⟩⟩

theorem so_32_two {t : ℤ} (ht : 0 < t) : 1 < (so_32 (8 * t)).length := by
  refine one_lt_length (x := hnf (4 * t) 0 2 0 0 1) (y := hnf 2 0 (4 * t) 0 0 1) ?_ ?_ (hnf_ne (by omega))
  · exact so_32_mem.2 ⟨⟨isHNF_hnf (by omega) (by omega) (by omega) (by omega) (by omega) (by omega),
      by rw [det_hnf]; ring⟩, ⟨!![1, 0, 0; 0, 1, 0; 0, 0, -1], by keeps_tac⟩,
      ⟨!![1, 0, 0; 0, -1, 0; 0, 0, -1], by keeps_tac⟩⟩
  · exact so_32_mem.2 ⟨⟨isHNF_hnf (by omega) (by omega) (by omega) (by omega) (by omega) (by omega),
      by rw [det_hnf]; ring⟩, ⟨!![1, 0, 0; 0, 1, 0; 0, 0, -1], by keeps_tac⟩,
      ⟨!![1, 0, 0; 0, -1, 0; 0, 0, -1], by keeps_tac⟩⟩

theorem body_ortho_19_two {t : ℤ} (ht : 0 < t) : 1 < (body_ortho_19 id (8 * t)).length := by
  refine one_lt_length (x := hnf (4 * t) 0 2 0 0 1) (y := hnf (4 * t) 0 1 0 0 2) ?_ ?_ (hnf_ne (by omega))
  · exact body_ortho_19_mem.2 ⟨⟨isHNF_hnf (by omega) (by omega) (by omega) (by omega) (by omega) (by omega),
      by rw [det_hnf]; ring⟩, ⟨!![1, 0, 0; 0, 1, 0; -4 * t, 0, -1], by keeps_tac⟩,
      ⟨!![1, 0, 0; -2 * t, -1, 0; 0, 0, 1], by keeps_tac⟩⟩
  · exact body_ortho_19_mem.2 ⟨⟨isHNF_hnf (by omega) (by omega) (by omega) (by omega) (by omega) (by omega),
      by rw [det_hnf]; ring⟩, ⟨!![1, 0, 0; 0, 1, 0; -2 * t, 0, -1], by keeps_tac⟩,
      ⟨!![1, 0, 0; -4 * t, -1, 0; 0, 0, 1], by keeps_tac⟩⟩

theorem body_ortho_8_two {t : ℤ} (ht : 0 < t) : 1 < (body_ortho_8 id (8 * t)).length := by
  refine one_lt_length (x := hnf (4 * t) 0 2 0 0 1) (y := hnf (4 * t) 0 1 0 0 2) ?_ ?_ (hnf_ne (by omega))
  · exact body_ortho_8_mem.2 ⟨⟨isHNF_hnf (by omega) (by omega) (by omega) (by omega) (by omega) (by omega),
      by rw [det_hnf]; ring⟩, ⟨!![1, 0, 0; 0, -1, 0; -4 * t, 0, -1], by keeps_tac⟩,
      ⟨!![1, 0, 0; 2 * t, -1, 1; 0, 0, 1], by keeps_tac⟩⟩
  · exact body_ortho_8_mem.2 ⟨⟨isHNF_hnf (by omega) (by omega) (by omega) (by omega) (by omega) (by omega),
      by rw [det_hnf]; ring⟩, ⟨!![1, 0, 0; 0, -1, 0; -2 * t, 0, -1], by keeps_tac⟩,
      ⟨!![1, 0, 0; 4 * t, -1, 4; 0, 0, 1], by keeps_tac⟩⟩

theorem body_ortho_42_two {t : ℤ} (ht : 0 < t) : 1 < (body_ortho_42 id (8 * t)).length := by
  refine one_lt_length (x := hnf (4 * t) 0 2 0 0 1) (y := hnf (4 * t) 0 1 0 0 2) ?_ ?_ (hnf_ne (by omega))
  · exact body_ortho_42_mem.2 ⟨⟨isHNF_hnf (by omega) (by omega) (by omega) (by omega) (by omega) (by omega),
      by rw [det_hnf]; ring⟩, ⟨!![1, 0, 0; 2 * t, -1, 0; 0, 0, 1], by keeps_tac⟩,
      ⟨!![1, 0, 0; 0, 1, 0; 4 * t, 0, -1], by keeps_tac⟩⟩
  · exact body_ortho_42_mem.2 ⟨⟨isHNF_hnf (by omega) (by omega) (by omega) (by omega) (by omega) (by omega),
      by rw [det_hnf]; ring⟩, ⟨!![1, 0, 0; 4 * t, -1, 0; 0, 0, 1], by keeps_tac⟩,
      ⟨!![1, 0, 0; 0, 1, 0; 2 * t, 0, -1], by keeps_tac⟩⟩

theorem face_ortho_26_two {t : ℤ} (ht : 0 < t) : 1 < (face_ortho_26 id (8 * t)).length := by
  refine one_lt_length (x := hnf 2 0 (4 * t) 0 0 1) (y := hnf (4 * t) 0 2 0 0 1) ?_ ?_ (hnf_ne (by omega))
  · exact face_ortho_26_mem.2 ⟨⟨isHNF_hnf (by omega) (by omega) (by omega) (by omega) (by omega) (by omega),
      by rw [det_hnf]; ring⟩, ⟨!![1, 0, 0; 0, -1, 0; -2, 0, -1], by keeps_tac⟩,
      ⟨!![1, 0, 0; 0, -1, 0; 0, 4 * t, 1], by keeps_tac⟩⟩
  · exact face_ortho_26_mem.2 ⟨⟨isHNF_hnf (by omega) (by omega) (by omega) (by omega) (by omega) (by omega),
      by rw [det_hnf]; ring⟩, ⟨!![1, 0, 0; 0, -1, 0; -4 * t, 0, -1], by keeps_tac⟩,
      ⟨!![1, 0, 0; 0, -1, 0; 0, 2, 1], by keeps_tac⟩⟩

theorem face_ortho_16_two {t : ℤ} (ht : 0 < t) : 1 < (face_ortho_16 id (8 * t)).length := by
  refine one_lt_length (x := hnf 2 0 (4 * t) 0 0 1) (y := hnf (4 * t) 0 2 0 0 1) ?_ ?_ (hnf_ne (by omega))
  · exact face_ortho_16_mem.2 ⟨⟨isHNF_hnf (by omega) (by omega) (by omega) (by omega) (by omega) (by omega),
      by rw [det_hnf]; ring⟩, ⟨!![1, 0, 0; 0, -1, 0; -2, 0, -1], by keeps_tac⟩,
      ⟨!![1, 0, 0; 0, -1, 0; 0, 4 * t, 1], by keeps_tac⟩⟩
  · exact face_ortho_16_mem.2 ⟨⟨isHNF_hnf (by omega) (by omega) (by omega) (by omega) (by omega) (by omega),
      by rw [det_hnf]; ring⟩, ⟨!![1, 0, 0; 0, -1, 0; -4 * t, 0, -1], by keeps_tac⟩,
      ⟨!![1, 0, 0; 0, -1, 0; 0, 2, 1], by keeps_tac⟩⟩

theorem base_ortho_38_13_two {t : ℤ} (ht : 0 < t) : 1 < (base_ortho_38_13 id (8 * t)).length := by
  refine one_lt_length (x := hnf 2 0 2 0 0 (2 * t)) (y := hnf 1 1 (4 * t) 0 0 2) ?_ ?_ (hnf_ne (by omega))
  · exact base_ortho_38_13_mem.2 ⟨⟨isHNF_hnf (by omega) (by omega) (by omega) (by omega) (by omega) (by omega),
      by rw [det_hnf]; ring⟩, ⟨!![1, 0, 0; 0, 1, 0; 0, 0, -1], by keeps_tac⟩,
      ⟨!![0, 1, 0; 1, 0, 0; 0, 0, 1], by keeps_tac⟩⟩
  · exact base_ortho_38_13_mem.2 ⟨⟨isHNF_hnf (by omega) (by omega) (by omega) (by omega) (by omega) (by omega),
      by rw [det_hnf]; ring⟩, ⟨!![1, 0, 0; 0, 1, 0; 0, 0, -1], by keeps_tac⟩,
      ⟨!![1, 4 * t, 0; 0, -1, 0; 0, 0, 1], by keeps_tac⟩⟩

theorem base_ortho_23_two {t : ℤ} (ht : 0 < t) : 1 < (base_ortho_23 id (8 * t)).length := by
  refine one_lt_length (x := hnf 2 0 (2 * t) 0 0 2) (y := hnf 1 0 (8 * t) 0 0 1) ?_ ?_ (hnf_ne (by omega))
  · exact base_ortho_23_mem.2 ⟨⟨isHNF_hnf (by omega) (by omega) (by omega) (by omega) (by omega) (by omega),
      by rw [det_hnf]; ring⟩, ⟨!![0, 0, 1; 0, 1, 0; 1, 0, 0], by keeps_tac⟩,
      ⟨!![1, 0, 0; 0, -1, 0; 0, 0, 1], by keeps_tac⟩⟩
  · exact base_ortho_23_mem.2 ⟨⟨isHNF_hnf (by omega) (by omega) (by omega) (by omega) (by omega) (by omega),
      by rw [det_hnf]; ring⟩, ⟨!![0, 0, 1; 0, 1, 0; 1, 0, 0], by keeps_tac⟩,
      ⟨!![1, 0, 0; 0, -1, 0; 0, 0, 1], by keeps_tac⟩⟩

theorem base_ortho_40_two {t : ℤ} (ht : 0 < t) : 1 < (base_ortho_40 id (8 * t)).length := by
  refine one_lt_length (x := hnf 1 0 2 0 0 (4 * t)) (y := hnf (2 * t) 0 2 0 0 2) ?_ ?_ (hnf_ne (by omega))
  · exact base_ortho_40_mem.2 ⟨⟨isHNF_hnf (by omega) (by omega) (by omega) (by omega) (by omega) (by omega),
      by rw [det_hnf]; ring⟩, ⟨!![1, 0, 0; 0, -1, 0; 0, 0, -1], by keeps_tac⟩,
      ⟨!![1, 0, 0; 0, -1, 2 * t; 0, 0, 1], by keeps_tac⟩⟩
  · exact base_ortho_40_mem.2 ⟨⟨isHNF_hnf (by omega) (by omega) (by omega) (by omega) (by omega) (by omega),
      by rw [det_hnf]; ring⟩, ⟨!![1, 0, 0; 0, -1, 0; 0, 0, -1], by keeps_tac⟩,
      ⟨!![1, 0, 0; 0, -1, 1; 0, 0, 1], by keeps_tac⟩⟩

theorem base_ortho_36_two {t : ℤ} (ht : 0 < t) : 1 < (base_ortho_36 id (8 * t)).length := by
  refine one_lt_length (x := hnf 1 0 (4 * t) 0 0 2) (y := hnf 1 0 2 0 0 (4 * t)) ?_ ?_ (hnf_ne (by omega))
  · exact base_ortho_36_mem.2 ⟨⟨isHNF_hnf (by omega) (by omega) (by omega) (by omega) (by omega) (by omega),
      by rw [det_hnf]; ring⟩, ⟨!![1, 0, 0; 0, -1, 0; 0, 0, 1], by keeps_tac⟩,
      ⟨!![1, 0, -2; 0, -1, 0; 0, 0, -1], by keeps_tac⟩⟩
  · exact base_ortho_36_mem.2 ⟨⟨isHNF_hnf (by omega) (by omega) (by omega) (by omega) (by omega) (by omega),
      by rw [det_hnf]; ring⟩, ⟨!![1, 0, 0; 0, -1, 0; 0, 0, 1], by keeps_tac⟩,
      ⟨!![1, 0, -4 * t; 0, -1, 0; 0, 0, -1], by keeps_tac⟩⟩

theorem base_mono_20_25_two {t : ℤ} (ht : 0 < t) : 1 < (base_mono_20_25 id (8 * t)).length := by
  refine one_lt_length (x := hnf (4 * t) 0 2 0 0 1) (y := hnf 2 0 (4 * t) 0 0 1) ?_ ?_ (hnf_ne (by omega))
  · exact base_mono_20_25_mem.2 ⟨⟨isHNF_hnf (by omega) (by omega) (by omega) (by omega) (by omega) (by omega),
      by rw [det_hnf]; ring⟩, ⟨!![1, 0, 0; 0, -1, 0; 0, 2, 1], by keeps_tac⟩⟩
  · exact base_mono_20_25_mem.2 ⟨⟨isHNF_hnf (by omega) (by omega) (by omega) (by omega) (by omega) (by omega),
      by rw [det_hnf]; ring⟩, ⟨!![1, 0, 0; 0, -1, 0; 0, 4 * t, 1], by keeps_tac⟩⟩

theorem base_mono_28_two {t : ℤ} (ht : 0 < t) : 1 < (base_mono_28 id (8 * t)).length := by
  refine one_lt_length (x := hnf 1 0 2 0 0 (4 * t)) (y := hnf (2 * t) 0 2 0 0 2) ?_ ?_ (hnf_ne (by omega))
  · exact base_mono_28_mem.2 ⟨⟨isHNF_hnf (by omega) (by omega) (by omega) (by omega) (by omega) (by omega),
      by rw [det_hnf]; ring⟩, ⟨!![1, 0, 0; 0, 1, 2 * t; 0, 0, -1], by keeps_tac⟩⟩
  · exact base_mono_28_mem.2 ⟨⟨isHNF_hnf (by omega) (by omega) (by omega) (by omega) (by omega) (by omega),
      by rw [det_hnf]; ring⟩, ⟨!![1, 0, 0; 0, 1, 1; 0, 0, -1], by keeps_tac⟩⟩

theorem base_mono_29_30_two {t : ℤ} (ht : 0 < t) : 1 < (base_mono_29_30 id (8 * t)).length := by
  refine one_lt_length (x := hnf 1 0 2 0 0 (4 * t)) (y := hnf (2 * t) 0 2 0 0 2) ?_ ?_ (hnf_ne (by omega))
  · exact base_mono_29_30_mem.2 ⟨⟨isHNF_hnf (by omega) (by omega) (by omega) (by omega) (by omega) (by omega),
      by rw [det_hnf]; ring⟩, ⟨!![1, 0, 0; 0, 1, 2 * t; 0, 0, -1], by keeps_tac⟩⟩
  · exact base_mono_29_30_mem.2 ⟨⟨isHNF_hnf (by omega) (by omega) (by omega) (by omega) (by omega) (by omega),
      by rw [det_hnf]; ring⟩, ⟨!![1, 0, 0; 0, 1, 1; 0, 0, -1], by keeps_tac⟩⟩

theorem base_mono_10_14_17_27_37_39_41_two {t : ℤ} (ht : 0 < t) : 1 < (base_mono_10_14_17_27_37_39_41 id (8 * t)).length := by
  refine one_lt_length (x := hnf (4 * t) 0 2 0 0 1) (y := hnf 2 0 (4 * t) 0 0 1) ?_ ?_ (hnf_ne (by omega))
  · exact base_mono_10_14_17_27_37_39_41_mem.2 ⟨⟨isHNF_hnf (by omega) (by omega) (by omega) (by omega) (by omega) (by omega),
      by rw [det_hnf]; ring⟩, ⟨!![1, 0, 0; 0, 1, 0; 4 * t, 0, -1], by keeps_tac⟩⟩
  · exact base_mono_10_14_17_27_37_39_41_mem.2 ⟨⟨isHNF_hnf (by omega) (by omega) (by omega) (by omega) (by omega) (by omega),
      by rw [det_hnf]; ring⟩, ⟨!![1, 0, 0; 0, 1, 0; 2, 0, -1], by keeps_tac⟩⟩

theorem base_mono_43_two {t : ℤ} (ht : 0 < t) : 1 < (base_mono_43 id (8 * t)).length := by
  refine one_lt_length (x := hnf (4 * t) 0 1 0 0 2) (y := hnf (4 * t) 0 1 1 0 2) ?_ ?_ (hnf_ne (by omega))
  · exact base_mono_43_mem.2 ⟨⟨isHNF_hnf (by omega) (by omega) (by omega) (by omega) (by omega) (by omega),
      by rw [det_hnf]; ring⟩, ⟨!![1, 0, 0; -4 * t, 1, -2; -4 * t, 0, -1], by keeps_tac⟩⟩
  · exact base_mono_43_mem.2 ⟨⟨isHNF_hnf (by omega) (by omega) (by omega) (by omega) (by omega) (by omega),
      by rw [det_hnf]; ring⟩, ⟨!![1, 0, 0; -4 * t - 1, 1, -2; -4 * t - 1, 0, -1], by keeps_tac⟩⟩

theorem sm_33_two {t : ℤ} (ht : 0 < t) : 1 < (sm_33 id (8 * t)).length := by
  refine one_lt_length (x := hnf (4 * t) 0 2 0 0 1) (y := hnf 2 0 (4 * t) 0 0 1) ?_ ?_ (hnf_ne (by omega))
  · exact sm_33_mem.2 ⟨⟨isHNF_hnf (by omega) (by omega) (by omega) (by omega) (by omega) (by omega),
      by rw [det_hnf]; ring⟩, ⟨!![1, 0, 0; 0, -1, 0; 0, 0, 1], by keeps_tac⟩⟩
  · exact sm_33_mem.2 ⟨⟨isHNF_hnf (by omega) (by omega) (by omega) (by omega) (by omega) (by omega),
      by rw [det_hnf]; ring⟩, ⟨!![1, 0, 0; 0, -1, 0; 0, 0, 1], by keeps_tac⟩⟩

theorem sm_34_two {t : ℤ} (ht : 0 < t) : 1 < (sm_34 (8 * t)).length := by
  refine one_lt_length (x := hnf (4 * t) 0 2 0 0 1) (y := hnf 2 0 (4 * t) 0 0 1) ?_ ?_ (hnf_ne (by omega))
  · exact sm_34_mem.2 ⟨⟨isHNF_hnf (by omega) (by omega) (by omega) (by omega) (by omega) (by omega),
      by rw [det_hnf]; ring⟩, ⟨!![1, 0, 0; 0, 1, 0; 0, 0, -1], by keeps_tac⟩⟩
  · exact sm_34_mem.2 ⟨⟨isHNF_hnf (by omega) (by omega) (by omega) (by omega) (by omega) (by omega),
      by rw [det_hnf]; ring⟩, ⟨!![1, 0, 0; 0, 1, 0; 0, 0, -1], by keeps_tac⟩⟩

theorem sm_35_two {t : ℤ} (ht : 0 < t) : 1 < (sm_35 (8 * t)).length := by
  refine one_lt_length (x := hnf (4 * t) 0 2 0 0 1) (y := hnf 2 0 (4 * t) 0 0 1) ?_ ?_ (hnf_ne (by omega))
  · exact sm_35_mem.2 ⟨⟨isHNF_hnf (by omega) (by omega) (by omega) (by omega) (by omega) (by omega),
      by rw [det_hnf]; ring⟩, ⟨!![1, 0, 0; 0, 1, 0; 0, 0, -1], by keeps_tac⟩⟩
  · exact sm_35_mem.2 ⟨⟨isHNF_hnf (by omega) (by omega) (by omega) (by omega) (by omega) (by omega),
      by rw [det_hnf]; ring⟩, ⟨!![1, 0, 0; 0, 1, 0; 0, 0, -1], by keeps_tac⟩⟩

theorem rhom_9_24_two_even {t : ℤ} (ht : 1 ≤ t) : 1 < (rhom_9_24 id (16 * t)).length := by
  refine one_lt_length (x := hnf 1 1 2 (8 * t - 1) (8 * t - 1) (8 * t)) (y := hnf 2 2 4 (2 * t - 2) (2 * t - 2) (2 * t)) ?_ ?_ (hnf_ne (by omega))
  · exact rhom_9_24_mem.2 ⟨⟨isHNF_hnf (by omega) (by omega) (by omega) (by omega) (by omega) (by omega),
      by rw [det_hnf]; ring⟩, ⟨!![1, 0, 0; -1, -1, 0; 1, 2, 1], by keeps_tac⟩,
      ⟨!![8 * t - 1, 8 * t - 1, 8 * t; 0, 1, 0; -8 * t + 2, -8 * t + 1, -8 * t + 1], by keeps_tac⟩⟩
  · exact rhom_9_24_mem.2 ⟨⟨isHNF_hnf (by omega) (by omega) (by omega) (by omega) (by omega) (by omega),
      by rw [det_hnf]; ring⟩, ⟨!![1, 0, 0; -1, -1, 0; 1, 2, 1], by keeps_tac⟩,
      ⟨!![t - 1, t - 1, t; 0, 1, 0; -1 * t + 2, -1 * t + 1, -1 * t + 1], by keeps_tac⟩⟩

theorem rhom_9_24_two_odd {t : ℤ} (ht : 0 ≤ t) : 1 < (rhom_9_24 id (16 * t + 8)).length := by
  refine one_lt_length (x := hnf 1 1 2 (8 * t + 3) (8 * t + 3) (8 * t + 4)) (y := hnf 2 0 2 (2 * t) (2 * t) (4 * t + 2)) ?_ ?_ (hnf_ne (by omega))
  · exact rhom_9_24_mem.2 ⟨⟨isHNF_hnf (by omega) (by omega) (by omega) (by omega) (by omega) (by omega),
      by rw [det_hnf]; ring⟩, ⟨!![1, 0, 0; -1, -1, 0; 1, 2, 1], by keeps_tac⟩,
      ⟨!![8 * t + 3, 8 * t + 3, 8 * t + 4; 0, 1, 0; -8 * t - 2, -8 * t - 3, -8 * t - 3], by keeps_tac⟩⟩
  · exact rhom_9_24_mem.2 ⟨⟨isHNF_hnf (by omega) (by omega) (by omega) (by omega) (by omega) (by omega),
      by rw [det_hnf]; ring⟩, ⟨!![1, 0, 0; 0, -1, 0; 0, 1, 1], by keeps_tac⟩,
      ⟨!![t, t, 2 * t + 1; t - 1, t + 1, 2 * t + 1; -1 * t + 1, -1 * t, -2 * t], by keeps_tac⟩⟩

theorem rhom_4_2_two_even {t : ℤ} (ht : 2 ≤ t) : 1 < (rhom_4_2 id (16 * t)).length := by
  refine one_lt_length (x := hnf 1 1 2 1 1 (8 * t)) (y := hnf 2 2 4 2 2 (2 * t)) ?_ ?_ (hnf_ne (by omega))
  · exact rhom_4_2_mem.2 ⟨⟨isHNF_hnf (by omega) (by omega) (by omega) (by omega) (by omega) (by omega),
      by rw [det_hnf]; ring⟩, ⟨!![1, 0, 0; -1, -1, 0; 0, 0, 1], by keeps_tac⟩,
      ⟨!![0, 1, -8 * t; -1, -1, 0; 0, 0, 1], by keeps_tac⟩⟩
  · exact rhom_4_2_mem.2 ⟨⟨isHNF_hnf (by omega) (by omega) (by omega) (by omega) (by omega) (by omega),
      by rw [det_hnf]; ring⟩, ⟨!![1, 0, 0; -1, -1, 0; 0, 0, 1], by keeps_tac⟩,
      ⟨!![0, 1, -1 * t; -1, -1, 0; 0, 0, 1], by keeps_tac⟩⟩

theorem rhom_4_2_two_odd {t : ℤ} (ht : 1 ≤ t) : 1 < (rhom_4_2 id (16 * t + 8)).length := by
  refine one_lt_length (x := hnf 1 1 2 1 1 (8 * t + 4)) (y := hnf 2 0 2 (2 * t + 2) (2 * t + 2) (4 * t + 2)) ?_ ?_ (hnf_ne (by omega))
  · exact rhom_4_2_mem.2 ⟨⟨isHNF_hnf (by omega) (by omega) (by omega) (by omega) (by omega) (by omega),
      by rw [det_hnf]; ring⟩, ⟨!![1, 0, 0; -1, -1, 0; 0, 0, 1], by keeps_tac⟩,
      ⟨!![0, 1, -8 * t - 4; -1, -1, 0; 0, 0, 1], by keeps_tac⟩⟩
  · exact rhom_4_2_mem.2 ⟨⟨isHNF_hnf (by omega) (by omega) (by omega) (by omega) (by omega) (by omega),
      by rw [det_hnf]; ring⟩, ⟨!![1, 0, 0; 0, -1, 0; 0, 1, 1], by keeps_tac⟩,
      ⟨!![-1 * t - 1, -1 * t, -2 * t - 1; -1 * t - 2, -1 * t - 1, -2 * t - 1; t + 2, t + 1, 2 * t + 2], by keeps_tac⟩⟩

theorem rhom_9_24_two {t : ℤ} (ht : 0 < t) : 1 < (rhom_9_24 id (8 * t)).length := by
  rcases Int.even_or_odd' t with ⟨u, h | h⟩
  · have e : 8 * t = 16 * u := by omega
    rw [e]
    exact rhom_9_24_two_even (by omega)
  · have e : 8 * t = 16 * u + 8 := by omega
    rw [e]
    exact rhom_9_24_two_odd (by omega)

theorem rhom_4_2_two {t : ℤ} (ht : 0 < t) : 1 < (rhom_4_2 id (8 * t)).length := by
  rcases Int.even_or_odd' t with ⟨u, h | h⟩
  · have e : 8 * t = 16 * u := by omega
    rw [e]
    rcases eq_or_lt_of_le (show 1 ≤ u by omega) with rfl | hu
    · decide +kernel
    · exact rhom_4_2_two_even (by omega)
  · have e : 8 * t = 16 * u + 8 := by omega
    rw [e]
    rcases eq_or_lt_of_le (show 0 ≤ u by omega) with rfl | hu
    · decide +kernel
    · exact rhom_4_2_two_odd (by omega)

end AutoGR
