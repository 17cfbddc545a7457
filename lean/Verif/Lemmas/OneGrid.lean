import Verif.Lemmas.TwoGrids

/-! # Every non-cubic class has a symmetric HNF for every volume -/

namespace AutoGR

open Spec

theorem hex_12_one {n : ℤ} (hn : 0 < n) : hnf 1 0 1 0 0 n ∈ hex_12 id n :=
  hex_12_mem.2 ⟨⟨isHNF_hnf (by omega) (by omega) (by omega) (by omega) (by omega) (by omega),
      by rw [det_hnf]; ring⟩, ⟨!![0, 1, 0; 1, 0, 0; 0, 0, -1], by keeps_tac⟩, ⟨!![1, 1, 0; 0, -1, 0; 0, 0, -1], by keeps_tac⟩⟩

theorem body_tet_6_7_15_18_one {n : ℤ} (hn : 0 < n) : hnf n 0 1 0 0 1 ∈ body_tet_6_7_15_18 id n :=
  body_tet_6_7_15_18_mem.2 ⟨⟨isHNF_hnf (by omega) (by omega) (by omega) (by omega) (by omega) (by omega),
      by rw [det_hnf]; ring⟩, ⟨!![1, 0, 0; 0, 0, 1; 0, 1, 0], by keeps_tac⟩, ⟨!![1, 0, 0; -1 * n, 0, -1; 0, 1, 0], by keeps_tac⟩⟩

theorem body_ortho_8_one {n : ℤ} (hn : 0 < n) : hnf n 0 1 0 0 1 ∈ body_ortho_8 id n :=
  body_ortho_8_mem.2 ⟨⟨isHNF_hnf (by omega) (by omega) (by omega) (by omega) (by omega) (by omega),
      by rw [det_hnf]; ring⟩, ⟨!![1, 0, 0; 0, -1, 0; -1 * n, 0, -1], by keeps_tac⟩, ⟨!![1, 0, 0; n, -1, 2; 0, 0, 1], by keeps_tac⟩⟩

theorem face_ortho_16_one {n : ℤ} (hn : 0 < n) : hnf n 0 1 0 0 1 ∈ face_ortho_16 id n :=
  face_ortho_16_mem.2 ⟨⟨isHNF_hnf (by omega) (by omega) (by omega) (by omega) (by omega) (by omega),
      by rw [det_hnf]; ring⟩, ⟨!![1, 0, 0; 0, -1, 0; -1 * n, 0, -1], by keeps_tac⟩, ⟨!![1, 0, 0; 0, -1, 0; 0, 1, 1], by keeps_tac⟩⟩

theorem base_ortho_40_one {n : ℤ} (hn : 0 < n) : hnf n 0 1 0 0 1 ∈ base_ortho_40 id n :=
  base_ortho_40_mem.2 ⟨⟨isHNF_hnf (by omega) (by omega) (by omega) (by omega) (by omega) (by omega),
      by rw [det_hnf]; ring⟩, ⟨!![1, 0, 0; 0, -1, 0; 0, 0, -1], by keeps_tac⟩, ⟨!![1, 0, 0; 0, -1, 1; 0, 0, 1], by keeps_tac⟩⟩

theorem base_mono_28_one {n : ℤ} (hn : 0 < n) : hnf n 0 1 0 0 1 ∈ base_mono_28 id n :=
  base_mono_28_mem.2 ⟨⟨isHNF_hnf (by omega) (by omega) (by omega) (by omega) (by omega) (by omega),
      by rw [det_hnf]; ring⟩, ⟨!![1, 0, 0; 0, 1, 1; 0, 0, -1], by keeps_tac⟩⟩

theorem base_mono_43_one {n : ℤ} (hn : 0 < n) : hnf n 0 1 0 0 1 ∈ base_mono_43 id n :=
  base_mono_43_mem.2 ⟨⟨isHNF_hnf (by omega) (by omega) (by omega) (by omega) (by omega) (by omega),
      by rw [det_hnf]; ring⟩, ⟨!![1, 0, 0; -1 * n, 1, -1; -2 * n, 0, -1], by keeps_tac⟩⟩

theorem sm_35_one {n : ℤ} (hn : 0 < n) : hnf n 0 1 0 0 1 ∈ sm_35 n :=
  sm_35_mem.2 ⟨⟨isHNF_hnf (by omega) (by omega) (by omega) (by omega) (by omega) (by omega),
      by rw [det_hnf]; ring⟩, ⟨!![1, 0, 0; 0, 1, 0; 0, 0, -1], by keeps_tac⟩⟩

theorem hex_22_one {n : ℤ} (hn : 0 < n) : hnf n 0 1 0 0 1 ∈ hex_22 id n :=
  hex_22_mem.2 ⟨⟨isHNF_hnf (by omega) (by omega) (by omega) (by omega) (by omega) (by omega),
      by rw [det_hnf]; ring⟩, ⟨!![1, 0, 0; 0, 0, 1; 0, 1, 0], by keeps_tac⟩, ⟨!![1, 0, 0; 0, 0, 1; 0, -1, 1], by keeps_tac⟩⟩

theorem stet_11_one {n : ℤ} (hn : 0 < n) : hnf 1 0 1 0 0 n ∈ stet_11 id n :=
  stet_11_mem.2 ⟨⟨isHNF_hnf (by omega) (by omega) (by omega) (by omega) (by omega) (by omega),
      by rw [det_hnf]; ring⟩, ⟨!![0, 1, 0; 1, 0, 0; 0, 0, 1], by keeps_tac⟩, ⟨!![1, 0, 0; 0, -1, 0; 0, 0, 1], by keeps_tac⟩⟩

theorem so_32_one {n : ℤ} (hn : 0 < n) : hnf n 0 1 0 0 1 ∈ so_32 n :=
  so_32_mem.2 ⟨⟨isHNF_hnf (by omega) (by omega) (by omega) (by omega) (by omega) (by omega),
      by rw [det_hnf]; ring⟩, ⟨!![1, 0, 0; 0, 1, 0; 0, 0, -1], by keeps_tac⟩, ⟨!![1, 0, 0; 0, -1, 0; 0, 0, -1], by keeps_tac⟩⟩

theorem body_ortho_42_one {n : ℤ} (hn : 0 < n) : hnf n 0 1 0 0 1 ∈ body_ortho_42 id n :=
  body_ortho_42_mem.2 ⟨⟨isHNF_hnf (by omega) (by omega) (by omega) (by omega) (by omega) (by omega),
      by rw [det_hnf]; ring⟩, ⟨!![1, 0, 0; n, -1, 0; 0, 0, 1], by keeps_tac⟩, ⟨!![1, 0, 0; 0, 1, 0; n, 0, -1], by keeps_tac⟩⟩

theorem base_ortho_38_13_one {n : ℤ} (hn : 0 < n) : hnf 1 0 1 0 0 n ∈ base_ortho_38_13 id n :=
  base_ortho_38_13_mem.2 ⟨⟨isHNF_hnf (by omega) (by omega) (by omega) (by omega) (by omega) (by omega),
      by rw [det_hnf]; ring⟩, ⟨!![1, 0, 0; 0, 1, 0; 0, 0, -1], by keeps_tac⟩, ⟨!![0, 1, 0; 1, 0, 0; 0, 0, 1], by keeps_tac⟩⟩

theorem base_ortho_36_one {n : ℤ} (hn : 0 < n) : hnf 1 0 1 0 0 n ∈ base_ortho_36 id n :=
  base_ortho_36_mem.2 ⟨⟨isHNF_hnf (by omega) (by omega) (by omega) (by omega) (by omega) (by omega),
      by rw [det_hnf]; ring⟩, ⟨!![1, 0, 0; 0, -1, 0; 0, 0, 1], by keeps_tac⟩, ⟨!![1, 0, -1 * n; 0, -1, 0; 0, 0, -1], by keeps_tac⟩⟩

theorem base_mono_29_30_one {n : ℤ} (hn : 0 < n) : hnf n 0 1 0 0 1 ∈ base_mono_29_30 id n :=
  base_mono_29_30_mem.2 ⟨⟨isHNF_hnf (by omega) (by omega) (by omega) (by omega) (by omega) (by omega),
      by rw [det_hnf]; ring⟩, ⟨!![1, 0, 0; 0, 1, 1; 0, 0, -1], by keeps_tac⟩⟩

theorem sm_33_one {n : ℤ} (hn : 0 < n) : hnf n 0 1 0 0 1 ∈ sm_33 id n :=
  sm_33_mem.2 ⟨⟨isHNF_hnf (by omega) (by omega) (by omega) (by omega) (by omega) (by omega),
      by rw [det_hnf]; ring⟩, ⟨!![1, 0, 0; 0, -1, 0; 0, 0, 1], by keeps_tac⟩⟩

theorem stet_21_one {n : ℤ} (hn : 0 < n) : hnf n 0 1 0 0 1 ∈ stet_21 id n :=
  stet_21_mem.2 ⟨⟨isHNF_hnf (by omega) (by omega) (by omega) (by omega) (by omega) (by omega),
      by rw [det_hnf]; ring⟩, ⟨!![1, 0, 0; 0, -1, 0; 0, 0, 1], by keeps_tac⟩, ⟨!![1, 0, 0; 0, 0, -1; 0, 1, 0], by keeps_tac⟩⟩

theorem body_ortho_19_one {n : ℤ} (hn : 0 < n) : hnf n 0 1 0 0 1 ∈ body_ortho_19 id n :=
  body_ortho_19_mem.2 ⟨⟨isHNF_hnf (by omega) (by omega) (by omega) (by omega) (by omega) (by omega),
      by rw [det_hnf]; ring⟩, ⟨!![1, 0, 0; 0, 1, 0; -1 * n, 0, -1], by keeps_tac⟩, ⟨!![1, 0, 0; -1 * n, -1, 0; 0, 0, 1], by keeps_tac⟩⟩

theorem face_ortho_26_one {n : ℤ} (hn : 0 < n) : hnf n 0 1 0 0 1 ∈ face_ortho_26 id n :=
  face_ortho_26_mem.2 ⟨⟨isHNF_hnf (by omega) (by omega) (by omega) (by omega) (by omega) (by omega),
      by rw [det_hnf]; ring⟩, ⟨!![1, 0, 0; 0, -1, 0; -1 * n, 0, -1], by keeps_tac⟩, ⟨!![1, 0, 0; 0, -1, 0; 0, 1, 1], by keeps_tac⟩⟩

theorem base_ortho_23_one {n : ℤ} (hn : 0 < n) : hnf 1 0 n 0 0 1 ∈ base_ortho_23 id n :=
  base_ortho_23_mem.2 ⟨⟨isHNF_hnf (by omega) (by omega) (by omega) (by omega) (by omega) (by omega),
      by rw [det_hnf]; ring⟩, ⟨!![0, 0, 1; 0, 1, 0; 1, 0, 0], by keeps_tac⟩, ⟨!![1, 0, 0; 0, -1, 0; 0, 0, 1], by keeps_tac⟩⟩

theorem base_mono_20_25_one {n : ℤ} (hn : 0 < n) : hnf n 0 1 0 0 1 ∈ base_mono_20_25 id n :=
  base_mono_20_25_mem.2 ⟨⟨isHNF_hnf (by omega) (by omega) (by omega) (by omega) (by omega) (by omega),
      by rw [det_hnf]; ring⟩, ⟨!![1, 0, 0; 0, -1, 0; 0, 1, 1], by keeps_tac⟩⟩

theorem base_mono_10_14_17_27_37_39_41_one {n : ℤ} (hn : 0 < n) : hnf n 0 1 0 0 1 ∈ base_mono_10_14_17_27_37_39_41 id n :=
  base_mono_10_14_17_27_37_39_41_mem.2 ⟨⟨isHNF_hnf (by omega) (by omega) (by omega) (by omega) (by omega) (by omega),
      by rw [det_hnf]; ring⟩, ⟨!![1, 0, 0; 0, 1, 0; n, 0, -1], by keeps_tac⟩⟩

theorem sm_34_one {n : ℤ} (hn : 0 < n) : hnf n 0 1 0 0 1 ∈ sm_34 n :=
  sm_34_mem.2 ⟨⟨isHNF_hnf (by omega) (by omega) (by omega) (by omega) (by omega) (by omega),
      by rw [det_hnf]; ring⟩, ⟨!![1, 0, 0; 0, 1, 0; 0, 0, -1], by keeps_tac⟩⟩

theorem rhom_9_24_one_odd {t : ℤ} (ht : 0 ≤ t) : hnf 1 0 1 t t (2 * t + 1) ∈ rhom_9_24 id (2 * t + 1) :=
  rhom_9_24_mem.2 ⟨⟨isHNF_hnf (by omega) (by omega) (by omega) (by omega) (by omega) (by omega),
      by rw [det_hnf]; ring⟩, ⟨!![1, 0, 0; 0, -1, 0; 0, 1, 1], by keeps_tac⟩, ⟨!![t, t, 2 * t + 1; t - 1, t + 1, 2 * t + 1; -1 * t + 1, -1 * t, -2 * t], by keeps_tac⟩⟩

theorem rhom_9_24_one_even {t : ℤ} (ht : 1 ≤ t) : hnf 1 1 2 (t - 1) (t - 1) t ∈ rhom_9_24 id (2 * t) :=
  rhom_9_24_mem.2 ⟨⟨isHNF_hnf (by omega) (by omega) (by omega) (by omega) (by omega) (by omega),
      by rw [det_hnf]; ring⟩, ⟨!![1, 0, 0; -1, -1, 0; 1, 2, 1], by keeps_tac⟩, ⟨!![t - 1, t - 1, t; 0, 1, 0; -1 * t + 2, -1 * t + 1, -1 * t + 1], by keeps_tac⟩⟩

theorem rhom_4_2_one_odd {t : ℤ} (ht : 1 ≤ t) : hnf 1 0 1 (t + 1) (t + 1) (2 * t + 1) ∈ rhom_4_2 id (2 * t + 1) :=
  rhom_4_2_mem.2 ⟨⟨isHNF_hnf (by omega) (by omega) (by omega) (by omega) (by omega) (by omega),
      by rw [det_hnf]; ring⟩, ⟨!![1, 0, 0; 0, -1, 0; 0, 1, 1], by keeps_tac⟩, ⟨!![-1 * t - 1, -1 * t, -2 * t - 1; -1 * t - 2, -1 * t - 1, -2 * t - 1; t + 2, t + 1, 2 * t + 2], by keeps_tac⟩⟩

theorem rhom_4_2_one_even {t : ℤ} (ht : 2 ≤ t) : hnf 1 1 2 1 1 t ∈ rhom_4_2 id (2 * t) :=
  rhom_4_2_mem.2 ⟨⟨isHNF_hnf (by omega) (by omega) (by omega) (by omega) (by omega) (by omega),
      by rw [det_hnf]; ring⟩, ⟨!![1, 0, 0; -1, -1, 0; 0, 0, 1], by keeps_tac⟩, ⟨!![0, 1, -1 * t; -1, -1, 0; 0, 0, 1], by keeps_tac⟩⟩

theorem rhom_9_24_one {n : ℤ} (hn : 0 < n) : rhom_9_24 id n ≠ [] := by
  rcases Int.even_or_odd' n with ⟨t, rfl | rfl⟩
  · exact List.ne_nil_of_mem (rhom_9_24_one_even (by omega))
  · exact List.ne_nil_of_mem (rhom_9_24_one_odd (by omega))

theorem rhom_4_2_one {n : ℤ} (hn : 0 < n) : rhom_4_2 id n ≠ [] := by
  rcases Int.even_or_odd' n with ⟨t, rfl | rfl⟩
  · by_cases ht : t = 1
    · subst ht
      decide +kernel
    · exact List.ne_nil_of_mem (rhom_4_2_one_even (by omega))
  · by_cases ht : t = 0
    · subst ht
      decide +kernel
    · exact List.ne_nil_of_mem (rhom_4_2_one_odd (by omega))

end AutoGR
