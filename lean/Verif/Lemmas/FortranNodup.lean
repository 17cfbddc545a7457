import Verif.Lemmas.FortranBase

/-! # No Fortran generator lists a matrix twice -/

namespace AutoGR

namespace Fortran

theorem hex_12_nodup (w : ℤ → ℤ) (n : ℤ) : (hex_12 w n).Nodup := by
  unfold hex_12
  rw [get_HNF_diagonals_eq]
  gen_nodup

theorem hex_22_nodup (w : ℤ → ℤ) (n : ℤ) : (hex_22 w n).Nodup := by
  unfold hex_22
  rw [get_HNF_diagonals_eq]
  gen_nodup

theorem rhom_9_24_nodup (w : ℤ → ℤ) (n : ℤ) : (rhom_9_24 w n).Nodup := by
  unfold rhom_9_24
  rw [get_HNF_diagonals_eq]
  gen_nodup

theorem rhom_4_2_nodup (w : ℤ → ℤ) (n : ℤ) : (rhom_4_2 w n).Nodup := by
  unfold rhom_4_2
  rw [get_HNF_diagonals_eq]
  gen_nodup

theorem st_11_nodup (w : ℤ → ℤ) (n : ℤ) : (st_11 w n).Nodup := by
  unfold st_11
  rw [get_HNF_diagonals_eq]
  gen_nodup

theorem st_21_nodup (w : ℤ → ℤ) (n : ℤ) : (st_21 w n).Nodup := by
  unfold st_21
  rw [get_HNF_diagonals_eq]
  gen_nodup

theorem bct_6_7_15_18_nodup (w : ℤ → ℤ) (n : ℤ) : (bct_6_7_15_18 w n).Nodup := by
  unfold bct_6_7_15_18
  rw [get_HNF_diagonals_eq]
  gen_nodup

theorem so_32_nodup (w : ℤ → ℤ) (n : ℤ) : (so_32 w n).Nodup := by
  unfold so_32
  rw [get_HNF_diagonals_eq]
  gen_nodup

theorem bco_19_nodup (w : ℤ → ℤ) (n : ℤ) : (bco_19 w n).Nodup := by
  unfold bco_19
  rw [get_HNF_diagonals_eq]
  gen_nodup

theorem bco_8_nodup (w : ℤ → ℤ) (n : ℤ) : (bco_8 w n).Nodup := by
  unfold bco_8
  rw [get_HNF_diagonals_eq]
  gen_nodup

theorem bco_42_nodup (w : ℤ → ℤ) (n : ℤ) : (bco_42 w n).Nodup := by
  unfold bco_42
  rw [get_HNF_diagonals_eq]
  gen_nodup

theorem fco_26_nodup (w : ℤ → ℤ) (n : ℤ) : (fco_26 w n).Nodup := by
  unfold fco_26
  rw [get_HNF_diagonals_eq]
  gen_nodup

theorem fco_16_nodup (w : ℤ → ℤ) (n : ℤ) : (fco_16 w n).Nodup := by
  unfold fco_16
  rw [get_HNF_diagonals_eq]
  gen_nodup

theorem baseco_38_13_nodup (w : ℤ → ℤ) (n : ℤ) : (baseco_38_13 w n).Nodup := by
  unfold baseco_38_13
  rw [get_HNF_diagonals_eq]
  gen_nodup

theorem baseco_23_nodup (w : ℤ → ℤ) (n : ℤ) : (baseco_23 w n).Nodup := by
  unfold baseco_23
  rw [get_HNF_diagonals_eq]
  gen_nodup

theorem baseco_40_nodup (w : ℤ → ℤ) (n : ℤ) : (baseco_40 w n).Nodup := by
  unfold baseco_40
  rw [get_HNF_diagonals_eq]
  gen_nodup

theorem baseco_36_nodup (w : ℤ → ℤ) (n : ℤ) : (baseco_36 w n).Nodup := by
  unfold baseco_36
  rw [get_HNF_diagonals_eq]
  gen_nodup

theorem basecm_20_25_nodup (w : ℤ → ℤ) (n : ℤ) : (basecm_20_25 w n).Nodup := by
  unfold basecm_20_25
  rw [get_HNF_diagonals_eq]
  gen_nodup

theorem basecm_28_nodup (w : ℤ → ℤ) (n : ℤ) : (basecm_28 w n).Nodup := by
  unfold basecm_28
  rw [get_HNF_diagonals_eq]
  gen_nodup

theorem basecm_29_30_nodup (w : ℤ → ℤ) (n : ℤ) : (basecm_29_30 w n).Nodup := by
  unfold basecm_29_30
  rw [get_HNF_diagonals_eq]
  gen_nodup

theorem basecm_10_14_17_27_37_39_41_nodup (w : ℤ → ℤ) (n : ℤ) : (basecm_10_14_17_27_37_39_41 w n).Nodup := by
  unfold basecm_10_14_17_27_37_39_41
  rw [get_HNF_diagonals_eq]
  gen_nodup

theorem basecm_43_nodup (w : ℤ → ℤ) (n : ℤ) : (basecm_43 w n).Nodup := by
  unfold basecm_43
  rw [get_HNF_diagonals_eq]
  gen_nodup

theorem sm_33_nodup (w : ℤ → ℤ) (n : ℤ) : (sm_33 w n).Nodup := by
  unfold sm_33
  rw [get_HNF_diagonals_eq]
  gen_nodup

theorem sm_34_35_nodup (n : ℤ) : (sm_34_35 n).Nodup := by
  unfold sm_34_35
  rw [get_HNF_diagonals_eq]
  gen_nodup

end Fortran

end AutoGR
