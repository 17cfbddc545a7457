import Verif.Lemmas.TwoGrids
import Verif.Lemmas.Volumes
import Verif.Model.Universal
import Verif.Props.Float
import Verif.Props.Generators

/-! # The generator `find_supercells` uses for each class -/

namespace AutoGR

open Spec

/-- `L` lists the symmetric HNFs of class `k` and volume `n`, each once (`Co` is the reduction matrix
of the canonical basis). -/
def Lists (k : ℕ) (Co : IMat) (n : ℤ) (L : List IntMat) : Prop :=
  L.Nodup ∧ ∀ H : IntMat, H ∈ L ↔ H ∈ SymmetricHNFs (ClassSym k Co.toMat) n

/-- What the loops need to know about a generator. -/
structure GoodGen (fl : ℚ → ℚ) (k : ℕ) (Co : IMat) (gen : ℤ → List Mat3) : Prop where
  lists : ∀ n : ℤ, Rounding fl n (10 ^ 7) → Lists k Co n (gen n)
  two : ∀ t : ℤ, 0 < t → Rounding fl (8 * t) (10 ^ 7) → 1 < (gen (8 * t)).length

theorem sc_3_rnd {fl : ℚ → ℚ} {n : ℤ} (h : Rounding fl n (10 ^ 7)) : sc_3 fl n = sc_3 id n := by
  rcases h with rfl | ⟨hb, hn⟩
  · rfl
  · exact sc_3_fl hb hn

theorem bcc_5_rnd {fl : ℚ → ℚ} {n : ℤ} (h : Rounding fl n (10 ^ 7)) : bcc_5 fl n = bcc_5 id n := by
  rcases h with rfl | ⟨hb, hn⟩
  · rfl
  · exact bcc_5_fl hb hn

theorem fcc_1_rnd {fl : ℚ → ℚ} {n : ℤ} (h : Rounding fl n (10 ^ 7)) : fcc_1 fl n = fcc_1 id n := by
  rcases h with rfl | ⟨hb, hn⟩
  · rfl
  · exact fcc_1_fl hb hn

theorem hex_12_good (fl : ℚ → ℚ) {k : ℕ} (hk : k = 12) {Co : IMat}
    (hCo : reducedCanonical ℚ k = .ok Co) : GoodGen fl k Co (hex_12 fl) := by
  subst hk
  constructor
  · rintro n (rfl | ⟨hb, hn⟩)
    · exact hex_12_correct n Co hCo
    · rw [hex_12_fl hb hn]
      exact hex_12_correct n Co hCo
  · rintro t ht (rfl | ⟨hb, hn⟩)
    · exact hex_12_two ht
    · rw [hex_12_fl hb hn]
      exact hex_12_two ht

theorem hex_22_good (fl : ℚ → ℚ) {k : ℕ} (hk : k = 22) {Co : IMat}
    (hCo : reducedCanonical ℚ k = .ok Co) : GoodGen fl k Co (hex_22 fl) := by
  subst hk
  constructor
  · rintro n (rfl | ⟨hb, hn⟩)
    · exact hex_22_correct n Co hCo
    · rw [hex_22_fl hb hn]
      exact hex_22_correct n Co hCo
  · rintro t ht (rfl | ⟨hb, hn⟩)
    · exact hex_22_two ht
    · rw [hex_22_fl hb hn]
      exact hex_22_two ht

theorem rhom_9_24_good (fl : ℚ → ℚ) {k : ℕ} (hk : k = 9 ∨ k = 24) {Co : IMat}
    (hCo : reducedCanonical ℚ k = .ok Co) : GoodGen fl k Co (rhom_9_24 fl) := by
  constructor
  · rintro n (rfl | ⟨hb, hn⟩)
    · exact rhom_9_24_correct k (by simpa using hk) n Co hCo
    · rw [rhom_9_24_fl hb hn]
      exact rhom_9_24_correct k (by simpa using hk) n Co hCo
  · rintro t ht (rfl | ⟨hb, hn⟩)
    · exact rhom_9_24_two ht
    · rw [rhom_9_24_fl hb hn]
      exact rhom_9_24_two ht

theorem rhom_4_2_good (fl : ℚ → ℚ) {k : ℕ} (hk : k = 4 ∨ k = 2) {Co : IMat}
    (hCo : reducedCanonical ℚ k = .ok Co) : GoodGen fl k Co (rhom_4_2 fl) := by
  constructor
  · rintro n (rfl | ⟨hb, hn⟩)
    · exact rhom_4_2_correct k (by simpa using hk) n Co hCo
    · rw [rhom_4_2_fl hb hn]
      exact rhom_4_2_correct k (by simpa using hk) n Co hCo
  · rintro t ht (rfl | ⟨hb, hn⟩)
    · exact rhom_4_2_two ht
    · rw [rhom_4_2_fl hb hn]
      exact rhom_4_2_two ht

theorem stet_11_good (fl : ℚ → ℚ) {k : ℕ} (hk : k = 11) {Co : IMat}
    (hCo : reducedCanonical ℚ k = .ok Co) : GoodGen fl k Co (stet_11 fl) := by
  subst hk
  constructor
  · rintro n (rfl | ⟨hb, hn⟩)
    · exact stet_11_correct n Co hCo
    · rw [stet_11_fl hb hn]
      exact stet_11_correct n Co hCo
  · rintro t ht (rfl | ⟨hb, hn⟩)
    · exact stet_11_two ht
    · rw [stet_11_fl hb hn]
      exact stet_11_two ht

theorem stet_21_good (fl : ℚ → ℚ) {k : ℕ} (hk : k = 21) {Co : IMat}
    (hCo : reducedCanonical ℚ k = .ok Co) : GoodGen fl k Co (stet_21 fl) := by
  subst hk
  constructor
  · rintro n (rfl | ⟨hb, hn⟩)
    · exact stet_21_correct n Co hCo
    · rw [stet_21_fl hb hn]
      exact stet_21_correct n Co hCo
  · rintro t ht (rfl | ⟨hb, hn⟩)
    · exact stet_21_two ht
    · rw [stet_21_fl hb hn]
      exact stet_21_two ht

theorem body_tet_6_7_15_18_good (fl : ℚ → ℚ) {k : ℕ} (hk : k = 6 ∨ k = 7 ∨ k = 15 ∨ k = 18) {Co : IMat}
    (hCo : reducedCanonical ℚ k = .ok Co) : GoodGen fl k Co (body_tet_6_7_15_18 fl) := by
  constructor
  · rintro n (rfl | ⟨hb, hn⟩)
    · exact body_tet_6_7_15_18_correct k (by simpa using hk) n Co hCo
    · rw [body_tet_6_7_15_18_fl hb hn]
      exact body_tet_6_7_15_18_correct k (by simpa using hk) n Co hCo
  · rintro t ht (rfl | ⟨hb, hn⟩)
    · exact body_tet_6_7_15_18_two ht
    · rw [body_tet_6_7_15_18_fl hb hn]
      exact body_tet_6_7_15_18_two ht

theorem so_32_good (fl : ℚ → ℚ) {k : ℕ} (hk : k = 32) {Co : IMat}
    (hCo : reducedCanonical ℚ k = .ok Co) : GoodGen fl k Co so_32 := by
  subst hk
  exact ⟨fun n _ => so_32_correct n Co hCo, fun t ht _ => so_32_two ht⟩

theorem body_ortho_19_good (fl : ℚ → ℚ) {k : ℕ} (hk : k = 19) {Co : IMat}
    (hCo : reducedCanonical ℚ k = .ok Co) : GoodGen fl k Co (body_ortho_19 fl) := by
  subst hk
  constructor
  · rintro n (rfl | ⟨hb, hn⟩)
    · exact body_ortho_19_correct n Co hCo
    · rw [body_ortho_19_fl hb hn]
      exact body_ortho_19_correct n Co hCo
  · rintro t ht (rfl | ⟨hb, hn⟩)
    · exact body_ortho_19_two ht
    · rw [body_ortho_19_fl hb hn]
      exact body_ortho_19_two ht

theorem body_ortho_8_good (fl : ℚ → ℚ) {k : ℕ} (hk : k = 8) {Co : IMat}
    (hCo : reducedCanonical ℚ k = .ok Co) : GoodGen fl k Co (body_ortho_8 fl) := by
  subst hk
  constructor
  · rintro n (rfl | ⟨hb, hn⟩)
    · exact body_ortho_8_correct n Co hCo
    · rw [body_ortho_8_fl hb hn]
      exact body_ortho_8_correct n Co hCo
  · rintro t ht (rfl | ⟨hb, hn⟩)
    · exact body_ortho_8_two ht
    · rw [body_ortho_8_fl hb hn]
      exact body_ortho_8_two ht

theorem body_ortho_42_good (fl : ℚ → ℚ) {k : ℕ} (hk : k = 42) {Co : IMat}
    (hCo : reducedCanonical ℚ k = .ok Co) : GoodGen fl k Co (body_ortho_42 fl) := by
  subst hk
  constructor
  · rintro n (rfl | ⟨hb, hn⟩)
    · exact body_ortho_42_correct n Co hCo
    · rw [body_ortho_42_fl hb hn]
      exact body_ortho_42_correct n Co hCo
  · rintro t ht (rfl | ⟨hb, hn⟩)
    · exact body_ortho_42_two ht
    · rw [body_ortho_42_fl hb hn]
      exact body_ortho_42_two ht

theorem face_ortho_26_good (fl : ℚ → ℚ) {k : ℕ} (hk : k = 26) {Co : IMat}
    (hCo : reducedCanonical ℚ k = .ok Co) : GoodGen fl k Co (face_ortho_26 fl) := by
  subst hk
  constructor
  · rintro n (rfl | ⟨hb, hn⟩)
    · exact face_ortho_26_correct n Co hCo
    · rw [face_ortho_26_fl hb hn]
      exact face_ortho_26_correct n Co hCo
  · rintro t ht (rfl | ⟨hb, hn⟩)
    · exact face_ortho_26_two ht
    · rw [face_ortho_26_fl hb hn]
      exact face_ortho_26_two ht

theorem face_ortho_16_good (fl : ℚ → ℚ) {k : ℕ} (hk : k = 16) {Co : IMat}
    (hCo : reducedCanonical ℚ k = .ok Co) : GoodGen fl k Co (face_ortho_16 fl) := by
  subst hk
  constructor
  · rintro n (rfl | ⟨hb, hn⟩)
    · exact face_ortho_16_correct n Co hCo
    · rw [face_ortho_16_fl hb hn]
      exact face_ortho_16_correct n Co hCo
  · rintro t ht (rfl | ⟨hb, hn⟩)
    · exact face_ortho_16_two ht
    · rw [face_ortho_16_fl hb hn]
      exact face_ortho_16_two ht

theorem base_ortho_38_13_good (fl : ℚ → ℚ) {k : ℕ} (hk : k = 38 ∨ k = 13) {Co : IMat}
    (hCo : reducedCanonical ℚ k = .ok Co) : GoodGen fl k Co (base_ortho_38_13 fl) := by
  constructor
  · rintro n (rfl | ⟨hb, hn⟩)
    · exact base_ortho_38_13_correct k (by simpa using hk) n Co hCo
    · rw [base_ortho_38_13_fl hb hn]
      exact base_ortho_38_13_correct k (by simpa using hk) n Co hCo
  · rintro t ht (rfl | ⟨hb, hn⟩)
    · exact base_ortho_38_13_two ht
    · rw [base_ortho_38_13_fl hb hn]
      exact base_ortho_38_13_two ht

theorem base_ortho_23_good (fl : ℚ → ℚ) {k : ℕ} (hk : k = 23) {Co : IMat}
    (hCo : reducedCanonical ℚ k = .ok Co) : GoodGen fl k Co (base_ortho_23 fl) := by
  subst hk
  constructor
  · rintro n (rfl | ⟨hb, hn⟩)
    · exact base_ortho_23_correct n Co hCo
    · rw [base_ortho_23_fl hb hn]
      exact base_ortho_23_correct n Co hCo
  · rintro t ht (rfl | ⟨hb, hn⟩)
    · exact base_ortho_23_two ht
    · rw [base_ortho_23_fl hb hn]
      exact base_ortho_23_two ht

theorem base_ortho_40_good (fl : ℚ → ℚ) {k : ℕ} (hk : k = 40) {Co : IMat}
    (hCo : reducedCanonical ℚ k = .ok Co) : GoodGen fl k Co (base_ortho_40 fl) := by
  subst hk
  constructor
  · rintro n (rfl | ⟨hb, hn⟩)
    · exact base_ortho_40_correct n Co hCo
    · rw [base_ortho_40_fl hb hn]
      exact base_ortho_40_correct n Co hCo
  · rintro t ht (rfl | ⟨hb, hn⟩)
    · exact base_ortho_40_two ht
    · rw [base_ortho_40_fl hb hn]
      exact base_ortho_40_two ht

theorem base_ortho_36_good (fl : ℚ → ℚ) {k : ℕ} (hk : k = 36) {Co : IMat}
    (hCo : reducedCanonical ℚ k = .ok Co) : GoodGen fl k Co (base_ortho_36 fl) := by
  subst hk
  constructor
  · rintro n (rfl | ⟨hb, hn⟩)
    · exact base_ortho_36_correct n Co hCo
    · rw [base_ortho_36_fl hb hn]
      exact base_ortho_36_correct n Co hCo
  · rintro t ht (rfl | ⟨hb, hn⟩)
    · exact base_ortho_36_two ht
    · rw [base_ortho_36_fl hb hn]
      exact base_ortho_36_two ht

theorem base_mono_20_25_good (fl : ℚ → ℚ) {k : ℕ} (hk : k = 20 ∨ k = 25) {Co : IMat}
    (hCo : reducedCanonical ℚ k = .ok Co) : GoodGen fl k Co (base_mono_20_25 fl) := by
  constructor
  · rintro n (rfl | ⟨hb, hn⟩)
    · exact base_mono_20_25_correct k (by simpa using hk) n Co hCo
    · rw [base_mono_20_25_fl hb hn]
      exact base_mono_20_25_correct k (by simpa using hk) n Co hCo
  · rintro t ht (rfl | ⟨hb, hn⟩)
    · exact base_mono_20_25_two ht
    · rw [base_mono_20_25_fl hb hn]
      exact base_mono_20_25_two ht

theorem base_mono_28_good (fl : ℚ → ℚ) {k : ℕ} (hk : k = 28) {Co : IMat}
    (hCo : reducedCanonical ℚ k = .ok Co) : GoodGen fl k Co (base_mono_28 fl) := by
  subst hk
  constructor
  · rintro n (rfl | ⟨hb, hn⟩)
    · exact base_mono_28_correct n Co hCo
    · rw [base_mono_28_fl hb hn]
      exact base_mono_28_correct n Co hCo
  · rintro t ht (rfl | ⟨hb, hn⟩)
    · exact base_mono_28_two ht
    · rw [base_mono_28_fl hb hn]
      exact base_mono_28_two ht

theorem base_mono_29_30_good (fl : ℚ → ℚ) {k : ℕ} (hk : k = 29 ∨ k = 30) {Co : IMat}
    (hCo : reducedCanonical ℚ k = .ok Co) : GoodGen fl k Co (base_mono_29_30 fl) := by
  constructor
  · rintro n (rfl | ⟨hb, hn⟩)
    · exact base_mono_29_30_correct k (by simpa using hk) n Co hCo
    · rw [base_mono_29_30_fl hb hn]
      exact base_mono_29_30_correct k (by simpa using hk) n Co hCo
  · rintro t ht (rfl | ⟨hb, hn⟩)
    · exact base_mono_29_30_two ht
    · rw [base_mono_29_30_fl hb hn]
      exact base_mono_29_30_two ht

theorem base_mono_10_14_17_27_37_39_41_good (fl : ℚ → ℚ) {k : ℕ} (hk : k = 10 ∨ k = 14 ∨ k = 17 ∨ k = 27 ∨ k = 37 ∨ k = 39 ∨ k = 41) {Co : IMat}
    (hCo : reducedCanonical ℚ k = .ok Co) : GoodGen fl k Co (base_mono_10_14_17_27_37_39_41 fl) := by
  constructor
  · rintro n (rfl | ⟨hb, hn⟩)
    · exact base_mono_10_14_17_27_37_39_41_correct k (by simpa using hk) n Co hCo
    · rw [base_mono_10_14_17_27_37_39_41_fl hb hn]
      exact base_mono_10_14_17_27_37_39_41_correct k (by simpa using hk) n Co hCo
  · rintro t ht (rfl | ⟨hb, hn⟩)
    · exact base_mono_10_14_17_27_37_39_41_two ht
    · rw [base_mono_10_14_17_27_37_39_41_fl hb hn]
      exact base_mono_10_14_17_27_37_39_41_two ht

theorem base_mono_43_good (fl : ℚ → ℚ) {k : ℕ} (hk : k = 43) {Co : IMat}
    (hCo : reducedCanonical ℚ k = .ok Co) : GoodGen fl k Co (base_mono_43 fl) := by
  subst hk
  constructor
  · rintro n (rfl | ⟨hb, hn⟩)
    · exact base_mono_43_correct n Co hCo
    · rw [base_mono_43_fl hb hn]
      exact base_mono_43_correct n Co hCo
  · rintro t ht (rfl | ⟨hb, hn⟩)
    · exact base_mono_43_two ht
    · rw [base_mono_43_fl hb hn]
      exact base_mono_43_two ht

theorem sm_33_good (fl : ℚ → ℚ) {k : ℕ} (hk : k = 33) {Co : IMat}
    (hCo : reducedCanonical ℚ k = .ok Co) : GoodGen fl k Co (sm_33 fl) := by
  subst hk
  constructor
  · rintro n (rfl | ⟨hb, hn⟩)
    · exact sm_33_correct n Co hCo
    · rw [sm_33_fl hb hn]
      exact sm_33_correct n Co hCo
  · rintro t ht (rfl | ⟨hb, hn⟩)
    · exact sm_33_two ht
    · rw [sm_33_fl hb hn]
      exact sm_33_two ht

theorem sm_34_good (fl : ℚ → ℚ) {k : ℕ} (hk : k = 34) {Co : IMat}
    (hCo : reducedCanonical ℚ k = .ok Co) : GoodGen fl k Co sm_34 := by
  subst hk
  exact ⟨fun n _ => sm_34_correct n Co hCo, fun t ht _ => sm_34_two ht⟩

theorem sm_35_good (fl : ℚ → ℚ) {k : ℕ} (hk : k = 35) {Co : IMat}
    (hCo : reducedCanonical ℚ k = .ok Co) : GoodGen fl k Co sm_35 := by
  subst hk
  exact ⟨fun n _ => sm_35_correct n Co hCo, fun t ht _ => sm_35_two ht⟩

/-- Every class other than the cubic and triclinic ones has its generator. -/
theorem generatorOf_good (fl : ℚ → ℚ) (k : ℕ) (hk : 1 ≤ k ∧ k ≤ 44) (hk' : k ∉ [1, 3, 5, 31, 44])
    (Co : IMat) (hCo : reducedCanonical ℚ k = .ok Co) :
    ∃ gen, generatorOf fl k = some gen ∧ GoodGen fl k Co gen := by
  obtain ⟨h1, h2⟩ := hk
  interval_cases k
  · simp at hk'
  · exact ⟨_, by simp [generatorOf], rhom_4_2_good fl (by simp) hCo⟩
  · simp at hk'
  · exact ⟨_, by simp [generatorOf], rhom_4_2_good fl (by simp) hCo⟩
  · simp at hk'
  · exact ⟨_, by simp [generatorOf], body_tet_6_7_15_18_good fl (by simp) hCo⟩
  · exact ⟨_, by simp [generatorOf], body_tet_6_7_15_18_good fl (by simp) hCo⟩
  · exact ⟨_, by simp [generatorOf], body_ortho_8_good fl (by simp) hCo⟩
  · exact ⟨_, by simp [generatorOf], rhom_9_24_good fl (by simp) hCo⟩
  · exact ⟨_, by simp [generatorOf], base_mono_10_14_17_27_37_39_41_good fl (by simp) hCo⟩
  · exact ⟨_, by simp [generatorOf], stet_11_good fl (by simp) hCo⟩
  · exact ⟨_, by simp [generatorOf], hex_12_good fl (by simp) hCo⟩
  · exact ⟨_, by simp [generatorOf], base_ortho_38_13_good fl (by simp) hCo⟩
  · exact ⟨_, by simp [generatorOf], base_mono_10_14_17_27_37_39_41_good fl (by simp) hCo⟩
  · exact ⟨_, by simp [generatorOf], body_tet_6_7_15_18_good fl (by simp) hCo⟩
  · exact ⟨_, by simp [generatorOf], face_ortho_16_good fl (by simp) hCo⟩
  · exact ⟨_, by simp [generatorOf], base_mono_10_14_17_27_37_39_41_good fl (by simp) hCo⟩
  · exact ⟨_, by simp [generatorOf], body_tet_6_7_15_18_good fl (by simp) hCo⟩
  · exact ⟨_, by simp [generatorOf], body_ortho_19_good fl (by simp) hCo⟩
  · exact ⟨_, by simp [generatorOf], base_mono_20_25_good fl (by simp) hCo⟩
  · exact ⟨_, by simp [generatorOf], stet_21_good fl (by simp) hCo⟩
  · exact ⟨_, by simp [generatorOf], hex_22_good fl (by simp) hCo⟩
  · exact ⟨_, by simp [generatorOf], base_ortho_23_good fl (by simp) hCo⟩
  · exact ⟨_, by simp [generatorOf], rhom_9_24_good fl (by simp) hCo⟩
  · exact ⟨_, by simp [generatorOf], base_mono_20_25_good fl (by simp) hCo⟩
  · exact ⟨_, by simp [generatorOf], face_ortho_26_good fl (by simp) hCo⟩
  · exact ⟨_, by simp [generatorOf], base_mono_10_14_17_27_37_39_41_good fl (by simp) hCo⟩
  · exact ⟨_, by simp [generatorOf], base_mono_28_good fl (by simp) hCo⟩
  · exact ⟨_, by simp [generatorOf], base_mono_29_30_good fl (by simp) hCo⟩
  · exact ⟨_, by simp [generatorOf], base_mono_29_30_good fl (by simp) hCo⟩
  · simp at hk'
  · exact ⟨_, by simp [generatorOf], so_32_good fl (by simp) hCo⟩
  · exact ⟨_, by simp [generatorOf], sm_33_good fl (by simp) hCo⟩
  · exact ⟨_, by simp [generatorOf], sm_34_good fl (by simp) hCo⟩
  · exact ⟨_, by simp [generatorOf], sm_35_good fl (by simp) hCo⟩
  · exact ⟨_, by simp [generatorOf], base_ortho_36_good fl (by simp) hCo⟩
  · exact ⟨_, by simp [generatorOf], base_mono_10_14_17_27_37_39_41_good fl (by simp) hCo⟩
  · exact ⟨_, by simp [generatorOf], base_ortho_38_13_good fl (by simp) hCo⟩
  · exact ⟨_, by simp [generatorOf], base_mono_10_14_17_27_37_39_41_good fl (by simp) hCo⟩
  · exact ⟨_, by simp [generatorOf], base_ortho_40_good fl (by simp) hCo⟩
  · exact ⟨_, by simp [generatorOf], base_mono_10_14_17_27_37_39_41_good fl (by simp) hCo⟩
  · exact ⟨_, by simp [generatorOf], body_ortho_42_good fl (by simp) hCo⟩
  · exact ⟨_, by simp [generatorOf], base_mono_43_good fl (by simp) hCo⟩
  · simp at hk'

end AutoGR
