import Verif.Lemmas.OneGrid
import Verif.Model.FortranGrid
import Verif.Props.Fortran
import Mathlib.Tactic.IntervalCases

/-! # The generator `find_grid` uses for each class -/

namespace AutoGR.Fortran

open Spec

/-- What the loop of `find_grid` needs to know about a generator. -/
structure FGood (w : ℤ → ℤ) (k : ℕ) (Co : IMat) (gen : ℤ → List Mat3) : Prop where
  lists : ∀ n : ℤ, IntsFit w n →
    (gen n).Nodup ∧ ∀ H : IntMat, H ∈ gen n ↔ H ∈ SymmetricHNFs (ClassSym k Co.toMat) n
  one : ∀ n : ℤ, 0 < n → IntsFit w n → gen n ≠ []
  two : ∀ t : ℤ, 0 < t → IntsFit w (8 * t) → 1 < (gen (8 * t)).length

theorem FGood.of_perm {w : ℤ → ℤ} {k : ℕ} {Co : IMat} {gen py : ℤ → List Mat3}
    (hp : ∀ n, IntsFit w n → (gen n).Perm (py n))
    (hl : ∀ n, IntsFit w n →
      (gen n).Nodup ∧ ∀ H : IntMat, H ∈ gen n ↔ H ∈ SymmetricHNFs (ClassSym k Co.toMat) n)
    (h1 : ∀ n, 0 < n → py n ≠ []) (h2 : ∀ t, 0 < t → 1 < (py (8 * t)).length) : FGood w k Co gen where
  lists := hl
  one n hn hf h := h1 n hn (by rw [← List.nil_perm, ← h]; exact hp n hf)
  two t ht hf := by rw [(hp _ hf).length_eq]; exact h2 t ht

theorem hex_12_good (w : ℤ → ℤ) {Co : IMat} (hCo : reducedCanonical ℚ 12 = .ok Co) :
    FGood w 12 Co (hex_12 w) :=
  .of_perm (fun n hf => hex_12_perm n hf) (fun n hf => hex_12_correct n hf Co hCo)
    (fun _ hn => List.ne_nil_of_mem (AutoGR.hex_12_one hn)) (fun _ ht => AutoGR.hex_12_two ht)

theorem hex_22_good (w : ℤ → ℤ) {Co : IMat} (hCo : reducedCanonical ℚ 22 = .ok Co) :
    FGood w 22 Co (hex_22 w) :=
  .of_perm (fun n hf => hex_22_perm n hf) (fun n hf => hex_22_correct n hf Co hCo)
    (fun _ hn => List.ne_nil_of_mem (AutoGR.hex_22_one hn)) (fun _ ht => AutoGR.hex_22_two ht)

theorem rhom_9_24_good (w : ℤ → ℤ) {k : ℕ} (hk : k ∈ [9, 24]) {Co : IMat}
    (hCo : reducedCanonical ℚ k = .ok Co) : FGood w k Co (rhom_9_24 w) :=
  .of_perm (fun n hf => rhom_9_24_perm n hf) (fun n hf => rhom_9_24_correct k hk n hf Co hCo)
    (fun _ hn => AutoGR.rhom_9_24_one hn) (fun _ ht => AutoGR.rhom_9_24_two ht)

theorem rhom_4_2_good (w : ℤ → ℤ) {k : ℕ} (hk : k ∈ [4, 2]) {Co : IMat}
    (hCo : reducedCanonical ℚ k = .ok Co) : FGood w k Co (rhom_4_2 w) :=
  .of_perm (fun n hf => rhom_4_2_perm n hf) (fun n hf => rhom_4_2_correct k hk n hf Co hCo)
    (fun _ hn => AutoGR.rhom_4_2_one hn) (fun _ ht => AutoGR.rhom_4_2_two ht)

theorem st_11_good (w : ℤ → ℤ) {Co : IMat} (hCo : reducedCanonical ℚ 11 = .ok Co) :
    FGood w 11 Co (st_11 w) :=
  .of_perm (fun n hf => st_11_perm n hf) (fun n hf => st_11_correct n hf Co hCo)
    (fun _ hn => List.ne_nil_of_mem (AutoGR.stet_11_one hn)) (fun _ ht => AutoGR.stet_11_two ht)

theorem st_21_good (w : ℤ → ℤ) {Co : IMat} (hCo : reducedCanonical ℚ 21 = .ok Co) :
    FGood w 21 Co (st_21 w) :=
  .of_perm (fun n hf => st_21_perm n hf) (fun n hf => st_21_correct n hf Co hCo)
    (fun _ hn => List.ne_nil_of_mem (AutoGR.stet_21_one hn)) (fun _ ht => AutoGR.stet_21_two ht)

theorem bct_6_7_15_18_good (w : ℤ → ℤ) {k : ℕ} (hk : k ∈ [6, 7, 15, 18]) {Co : IMat}
    (hCo : reducedCanonical ℚ k = .ok Co) : FGood w k Co (bct_6_7_15_18 w) :=
  .of_perm (fun n hf => bct_6_7_15_18_perm n hf) (fun n hf => bct_6_7_15_18_correct k hk n hf Co hCo)
    (fun _ hn => List.ne_nil_of_mem (AutoGR.body_tet_6_7_15_18_one hn)) (fun _ ht => AutoGR.body_tet_6_7_15_18_two ht)

theorem so_32_good (w : ℤ → ℤ) {Co : IMat} (hCo : reducedCanonical ℚ 32 = .ok Co) :
    FGood w 32 Co (so_32 w) :=
  .of_perm (fun n hf => so_32_perm n hf) (fun n hf => so_32_correct n hf Co hCo)
    (fun _ hn => List.ne_nil_of_mem (AutoGR.so_32_one hn)) (fun _ ht => AutoGR.so_32_two ht)

theorem bco_19_good (w : ℤ → ℤ) {Co : IMat} (hCo : reducedCanonical ℚ 19 = .ok Co) :
    FGood w 19 Co (bco_19 w) :=
  .of_perm (fun n hf => bco_19_perm n hf) (fun n hf => bco_19_correct n hf Co hCo)
    (fun _ hn => List.ne_nil_of_mem (AutoGR.body_ortho_19_one hn)) (fun _ ht => AutoGR.body_ortho_19_two ht)

theorem bco_8_good (w : ℤ → ℤ) {Co : IMat} (hCo : reducedCanonical ℚ 8 = .ok Co) :
    FGood w 8 Co (bco_8 w) :=
  .of_perm (fun n hf => bco_8_perm n hf) (fun n hf => bco_8_correct n hf Co hCo)
    (fun _ hn => List.ne_nil_of_mem (AutoGR.body_ortho_8_one hn)) (fun _ ht => AutoGR.body_ortho_8_two ht)

theorem bco_42_good (w : ℤ → ℤ) {Co : IMat} (hCo : reducedCanonical ℚ 42 = .ok Co) :
    FGood w 42 Co (bco_42 w) :=
  .of_perm (fun n hf => bco_42_perm n hf) (fun n hf => bco_42_correct n hf Co hCo)
    (fun _ hn => List.ne_nil_of_mem (AutoGR.body_ortho_42_one hn)) (fun _ ht => AutoGR.body_ortho_42_two ht)

theorem fco_26_good (w : ℤ → ℤ) {Co : IMat} (hCo : reducedCanonical ℚ 26 = .ok Co) :
    FGood w 26 Co (fco_26 w) :=
  .of_perm (fun n hf => fco_26_perm n hf) (fun n hf => fco_26_correct n hf Co hCo)
    (fun _ hn => List.ne_nil_of_mem (AutoGR.face_ortho_26_one hn)) (fun _ ht => AutoGR.face_ortho_26_two ht)

theorem fco_16_good (w : ℤ → ℤ) {Co : IMat} (hCo : reducedCanonical ℚ 16 = .ok Co) :
    FGood w 16 Co (fco_16 w) :=
  .of_perm (fun n hf => fco_16_perm n hf) (fun n hf => fco_16_correct n hf Co hCo)
    (fun _ hn => List.ne_nil_of_mem (AutoGR.face_ortho_16_one hn)) (fun _ ht => AutoGR.face_ortho_16_two ht)

theorem baseco_38_13_good (w : ℤ → ℤ) {k : ℕ} (hk : k ∈ [38, 13]) {Co : IMat}
    (hCo : reducedCanonical ℚ k = .ok Co) : FGood w k Co (baseco_38_13 w) :=
  .of_perm (fun n hf => baseco_38_13_perm n hf) (fun n hf => baseco_38_13_correct k hk n hf Co hCo)
    (fun _ hn => List.ne_nil_of_mem (AutoGR.base_ortho_38_13_one hn)) (fun _ ht => AutoGR.base_ortho_38_13_two ht)

theorem baseco_23_good (w : ℤ → ℤ) {Co : IMat} (hCo : reducedCanonical ℚ 23 = .ok Co) :
    FGood w 23 Co (baseco_23 w) :=
  .of_perm (fun n hf => baseco_23_perm n hf) (fun n hf => baseco_23_correct n hf Co hCo)
    (fun _ hn => List.ne_nil_of_mem (AutoGR.base_ortho_23_one hn)) (fun _ ht => AutoGR.base_ortho_23_two ht)

theorem baseco_40_good (w : ℤ → ℤ) {Co : IMat} (hCo : reducedCanonical ℚ 40 = .ok Co) :
    FGood w 40 Co (baseco_40 w) :=
  .of_perm (fun n hf => baseco_40_perm n hf) (fun n hf => baseco_40_correct n hf Co hCo)
    (fun _ hn => List.ne_nil_of_mem (AutoGR.base_ortho_40_one hn)) (fun _ ht => AutoGR.base_ortho_40_two ht)

theorem baseco_36_good (w : ℤ → ℤ) {Co : IMat} (hCo : reducedCanonical ℚ 36 = .ok Co) :
    FGood w 36 Co (baseco_36 w) :=
  .of_perm (fun n hf => baseco_36_perm n hf) (fun n hf => baseco_36_correct n hf Co hCo)
    (fun _ hn => List.ne_nil_of_mem (AutoGR.base_ortho_36_one hn)) (fun _ ht => AutoGR.base_ortho_36_two ht)

theorem basecm_20_25_good (w : ℤ → ℤ) {k : ℕ} (hk : k ∈ [20, 25]) {Co : IMat}
    (hCo : reducedCanonical ℚ k = .ok Co) : FGood w k Co (basecm_20_25 w) :=
  .of_perm (fun n hf => basecm_20_25_perm n hf) (fun n hf => basecm_20_25_correct k hk n hf Co hCo)
    (fun _ hn => List.ne_nil_of_mem (AutoGR.base_mono_20_25_one hn)) (fun _ ht => AutoGR.base_mono_20_25_two ht)

theorem basecm_28_good (w : ℤ → ℤ) {Co : IMat} (hCo : reducedCanonical ℚ 28 = .ok Co) :
    FGood w 28 Co (basecm_28 w) :=
  .of_perm (fun n hf => basecm_28_perm n hf) (fun n hf => basecm_28_correct n hf Co hCo)
    (fun _ hn => List.ne_nil_of_mem (AutoGR.base_mono_28_one hn)) (fun _ ht => AutoGR.base_mono_28_two ht)

theorem basecm_29_30_good (w : ℤ → ℤ) {k : ℕ} (hk : k ∈ [29, 30]) {Co : IMat}
    (hCo : reducedCanonical ℚ k = .ok Co) : FGood w k Co (basecm_29_30 w) :=
  .of_perm (fun n hf => basecm_29_30_perm n hf) (fun n hf => basecm_29_30_correct k hk n hf Co hCo)
    (fun _ hn => List.ne_nil_of_mem (AutoGR.base_mono_29_30_one hn)) (fun _ ht => AutoGR.base_mono_29_30_two ht)

theorem basecm_10_14_17_27_37_39_41_good (w : ℤ → ℤ) {k : ℕ} (hk : k ∈ [10, 14, 17, 27, 37, 39, 41]) {Co : IMat}
    (hCo : reducedCanonical ℚ k = .ok Co) : FGood w k Co (basecm_10_14_17_27_37_39_41 w) :=
  .of_perm (fun n hf => basecm_10_14_17_27_37_39_41_perm n hf) (fun n hf => basecm_10_14_17_27_37_39_41_correct k hk n hf Co hCo)
    (fun _ hn => List.ne_nil_of_mem (AutoGR.base_mono_10_14_17_27_37_39_41_one hn)) (fun _ ht => AutoGR.base_mono_10_14_17_27_37_39_41_two ht)

theorem basecm_43_good (w : ℤ → ℤ) {Co : IMat} (hCo : reducedCanonical ℚ 43 = .ok Co) :
    FGood w 43 Co (basecm_43 w) :=
  .of_perm (fun n hf => basecm_43_perm n hf) (fun n hf => basecm_43_correct n hf Co hCo)
    (fun _ hn => List.ne_nil_of_mem (AutoGR.base_mono_43_one hn)) (fun _ ht => AutoGR.base_mono_43_two ht)

theorem sm_33_good (w : ℤ → ℤ) {Co : IMat} (hCo : reducedCanonical ℚ 33 = .ok Co) :
    FGood w 33 Co (sm_33 w) :=
  .of_perm (fun n hf => sm_33_perm n hf) (fun n hf => sm_33_correct n hf Co hCo)
    (fun _ hn => List.ne_nil_of_mem (AutoGR.sm_33_one hn)) (fun _ ht => AutoGR.sm_33_two ht)

theorem sm_34_35_good_34 (w : ℤ → ℤ) {Co : IMat} (hCo : reducedCanonical ℚ 34 = .ok Co) :
    FGood w 34 Co sm_34_35 :=
  .of_perm (fun n _ => sm_34_35_perm_34 n) (fun n _ => sm_34_35_correct_34 n Co hCo)
    (fun _ hn => List.ne_nil_of_mem (AutoGR.sm_34_one hn)) (fun _ ht => AutoGR.sm_34_two ht)

theorem sm_34_35_good_35 (w : ℤ → ℤ) {Co : IMat} (hCo : reducedCanonical ℚ 35 = .ok Co) :
    FGood w 35 Co sm_34_35 :=
  .of_perm (fun n _ => sm_34_35_perm_35 n) (fun n _ => sm_34_35_correct_35 n Co hCo)
    (fun _ hn => List.ne_nil_of_mem (AutoGR.sm_35_one hn)) (fun _ ht => AutoGR.sm_35_two ht)

/-- Every class that is neither cubic nor triclinic has a generator, and it is a good one. -/
theorem generatorOf_good (w : ℤ → ℤ) (k : ℕ) (h1 : 1 ≤ k) (h2 : k ≤ 44) (hk : k ∉ [1, 3, 5, 31, 44]) {Co : IMat}
    (hCo : reducedCanonical ℚ k = .ok Co) : ∃ gen, generatorOf w k = some gen ∧ FGood w k Co gen := by
  interval_cases k
  · exact absurd (by simp) hk
  · exact ⟨_, by simp [generatorOf], rhom_4_2_good w (by simp) hCo⟩
  · exact absurd (by simp) hk
  · exact ⟨_, by simp [generatorOf], rhom_4_2_good w (by simp) hCo⟩
  · exact absurd (by simp) hk
  · exact ⟨_, by simp [generatorOf], bct_6_7_15_18_good w (by simp) hCo⟩
  · exact ⟨_, by simp [generatorOf], bct_6_7_15_18_good w (by simp) hCo⟩
  · exact ⟨_, by simp [generatorOf], bco_8_good w hCo⟩
  · exact ⟨_, by simp [generatorOf], rhom_9_24_good w (by simp) hCo⟩
  · exact ⟨_, by simp [generatorOf], basecm_10_14_17_27_37_39_41_good w (by simp) hCo⟩
  · exact ⟨_, by simp [generatorOf], st_11_good w hCo⟩
  · exact ⟨_, by simp [generatorOf], hex_12_good w hCo⟩
  · exact ⟨_, by simp [generatorOf], baseco_38_13_good w (by simp) hCo⟩
  · exact ⟨_, by simp [generatorOf], basecm_10_14_17_27_37_39_41_good w (by simp) hCo⟩
  · exact ⟨_, by simp [generatorOf], bct_6_7_15_18_good w (by simp) hCo⟩
  · exact ⟨_, by simp [generatorOf], fco_16_good w hCo⟩
  · exact ⟨_, by simp [generatorOf], basecm_10_14_17_27_37_39_41_good w (by simp) hCo⟩
  · exact ⟨_, by simp [generatorOf], bct_6_7_15_18_good w (by simp) hCo⟩
  · exact ⟨_, by simp [generatorOf], bco_19_good w hCo⟩
  · exact ⟨_, by simp [generatorOf], basecm_20_25_good w (by simp) hCo⟩
  · exact ⟨_, by simp [generatorOf], st_21_good w hCo⟩
  · exact ⟨_, by simp [generatorOf], hex_22_good w hCo⟩
  · exact ⟨_, by simp [generatorOf], baseco_23_good w hCo⟩
  · exact ⟨_, by simp [generatorOf], rhom_9_24_good w (by simp) hCo⟩
  · exact ⟨_, by simp [generatorOf], basecm_20_25_good w (by simp) hCo⟩
  · exact ⟨_, by simp [generatorOf], fco_26_good w hCo⟩
  · exact ⟨_, by simp [generatorOf], basecm_10_14_17_27_37_39_41_good w (by simp) hCo⟩
  · exact ⟨_, by simp [generatorOf], basecm_28_good w hCo⟩
  · exact ⟨_, by simp [generatorOf], basecm_29_30_good w (by simp) hCo⟩
  · exact ⟨_, by simp [generatorOf], basecm_29_30_good w (by simp) hCo⟩
  · exact absurd (by simp) hk
  · exact ⟨_, by simp [generatorOf], so_32_good w hCo⟩
  · exact ⟨_, by simp [generatorOf], sm_33_good w hCo⟩
  · exact ⟨_, by simp [generatorOf], sm_34_35_good_34 w hCo⟩
  · exact ⟨_, by simp [generatorOf], sm_34_35_good_35 w hCo⟩
  · exact ⟨_, by simp [generatorOf], baseco_36_good w hCo⟩
  · exact ⟨_, by simp [generatorOf], basecm_10_14_17_27_37_39_41_good w (by simp) hCo⟩
  · exact ⟨_, by simp [generatorOf], baseco_38_13_good w (by simp) hCo⟩
  · exact ⟨_, by simp [generatorOf], basecm_10_14_17_27_37_39_41_good w (by simp) hCo⟩
  · exact ⟨_, by simp [generatorOf], baseco_40_good w hCo⟩
  · exact ⟨_, by simp [generatorOf], basecm_10_14_17_27_37_39_41_good w (by simp) hCo⟩
  · exact ⟨_, by simp [generatorOf], bco_42_good w hCo⟩
  · exact ⟨_, by simp [generatorOf], basecm_43_good w hCo⟩
  · exact absurd (by simp) hk

end AutoGR.Fortran
