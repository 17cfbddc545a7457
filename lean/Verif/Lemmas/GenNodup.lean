import Verif.Lemmas.GenBase

/-! # No generator lists a matrix twice -/

namespace AutoGR

theorem hex_22_nodup (fl : ℚ → ℚ) (n : ℤ) : (hex_22 fl n).Nodup := by
  unfold hex_22
  gen_nodup

theorem rhom_9_24_nodup (fl : ℚ → ℚ) (n : ℤ) : (rhom_9_24 fl n).Nodup := by
  unfold rhom_9_24
  gen_nodup

theorem rhom_4_2_nodup (fl : ℚ → ℚ) (n : ℤ) : (rhom_4_2 fl n).Nodup := by
  unfold rhom_4_2
  gen_nodup

theorem stet_11_nodup (fl : ℚ → ℚ) (n : ℤ) : (stet_11 fl n).Nodup := by
  unfold stet_11
  gen_nodup

theorem stet_21_nodup (fl : ℚ → ℚ) (n : ℤ) : (stet_21 fl n).Nodup := by
  unfold stet_21
  gen_nodup

theorem body_tet_6_7_15_18_nodup (fl : ℚ → ℚ) (n : ℤ) : (body_tet_6_7_15_18 fl n).Nodup := by
  unfold body_tet_6_7_15_18
  gen_nodup

theorem so_32_nodup (n : ℤ) : (so_32 n).Nodup := by
  unfold so_32
  gen_nodup

theorem body_ortho_19_nodup (fl : ℚ → ℚ) (n : ℤ) : (body_ortho_19 fl n).Nodup := by
  unfold body_ortho_19
  gen_nodup

theorem body_ortho_8_nodup (fl : ℚ → ℚ) (n : ℤ) : (body_ortho_8 fl n).Nodup := by
  unfold body_ortho_8
  gen_nodup

theorem body_ortho_42_nodup (fl : ℚ → ℚ) (n : ℤ) : (body_ortho_42 fl n).Nodup := by
  unfold body_ortho_42
  gen_nodup

theorem face_ortho_26_nodup (fl : ℚ → ℚ) (n : ℤ) : (face_ortho_26 fl n).Nodup := by
  unfold face_ortho_26
  gen_nodup

theorem face_ortho_16_nodup (fl : ℚ → ℚ) (n : ℤ) : (face_ortho_16 fl n).Nodup := by
  unfold face_ortho_16
  gen_nodup

theorem base_ortho_38_13_nodup (fl : ℚ → ℚ) (n : ℤ) : (base_ortho_38_13 fl n).Nodup := by
  unfold base_ortho_38_13
  gen_nodup

theorem base_ortho_23_nodup (fl : ℚ → ℚ) (n : ℤ) : (base_ortho_23 fl n).Nodup := by
  unfold base_ortho_23
  gen_nodup

theorem base_ortho_40_nodup (fl : ℚ → ℚ) (n : ℤ) : (base_ortho_40 fl n).Nodup := by
  unfold base_ortho_40
  gen_nodup

theorem base_ortho_36_nodup (fl : ℚ → ℚ) (n : ℤ) : (base_ortho_36 fl n).Nodup := by
  unfold base_ortho_36
  gen_nodup

theorem base_mono_20_25_nodup (fl : ℚ → ℚ) (n : ℤ) : (base_mono_20_25 fl n).Nodup := by
  unfold base_mono_20_25
  gen_nodup

theorem base_mono_28_nodup (fl : ℚ → ℚ) (n : ℤ) : (base_mono_28 fl n).Nodup := by
  unfold base_mono_28
  gen_nodup

theorem base_mono_29_30_nodup (fl : ℚ → ℚ) (n : ℤ) : (base_mono_29_30 fl n).Nodup := by
  unfold base_mono_29_30
  gen_nodup

theorem base_mono_10_14_17_27_37_39_41_nodup (fl : ℚ → ℚ) (n : ℤ) : (base_mono_10_14_17_27_37_39_41 fl n).Nodup := by
  unfold base_mono_10_14_17_27_37_39_41
  gen_nodup

theorem base_mono_43_nodup (fl : ℚ → ℚ) (n : ℤ) : (base_mono_43 fl n).Nodup := by
  unfold base_mono_43
  gen_nodup

theorem sm_33_nodup (fl : ℚ → ℚ) (n : ℤ) : (sm_33 fl n).Nodup := by
  unfold sm_33
  gen_nodup

theorem sm_34_nodup (n : ℤ) : (sm_34 n).Nodup := by
  unfold sm_34
  gen_nodup

theorem sm_35_nodup (n : ℤ) : (sm_35 n).Nodup := by
  unfold sm_35
  gen_nodup

theorem tric_31_44_nodup (n : ℤ) : (tric_31_44 n).Nodup := by
  unfold tric_31_44
  gen_nodup

end AutoGR
