import Verif.Lemmas.FloatGen1
import Verif.Lemmas.FloatGen2

/-!
# Floating point does not change what the generators list

The specification of binary64 rounding is `Verif/Spec/Float.lean`.  The generators `triclinic`,
`so_32`, `sm_34` and `sm_35` do no division and take no rounding function.
-/

namespace AutoGR

open Spec

/-- Rounding to nearest with 53 significant bits is a `Binary64` rounding. -/
theorem roundNearest_binary64 : Binary64 roundNearest where
  exact := by
    intro z hz
    unfold roundNearest
    dsimp only
    rcases eq_or_ne z 0 with rfl | h0
    · simp
    have hpos : (0 : ℚ) < |(z : ℚ)| := by positivity
    set e := Int.log 2 |(z : ℚ)| with he
    have hlo : (2 : ℚ) ^ e ≤ |(z : ℚ)| := by
      have := Int.zpow_log_le_self (b := 2) (by norm_num) hpos
      rwa [Nat.cast_ofNat] at this
    have hu : (0 : ℚ) < 2 ^ (e - 52) := by positivity
    have hzq : |(z : ℚ)| ≤ 2 ^ (53 : ℤ) := by exact_mod_cast hz
    have he53 : e ≤ 53 := by
      by_contra hgt
      have h1 : (2 : ℚ) ^ (54 : ℤ) ≤ 2 ^ e := zpow_le_zpow_right₀ (by norm_num) (by omega)
      have h2 : (2 : ℚ) ^ (54 : ℤ) ≤ 2 ^ (53 : ℤ) := h1.trans (hlo.trans hzq)
      norm_num at h2
    obtain ⟨k, hk⟩ : ∃ k : ℤ, (z : ℚ) / 2 ^ (e - 52) = k := by
      rcases lt_or_eq_of_le he53 with hlt | heq
      · refine ⟨z * 2 ^ (52 - e).toNat, ?_⟩
        rw [div_eq_mul_inv, ← zpow_neg, neg_sub]
        push_cast
        congr 1
        rw [← zpow_natCast, Int.toNat_of_nonneg (by omega)]
      · have h1 : (2 : ℚ) ^ (53 : ℤ) ≤ |(z : ℚ)| := by rw [← heq]; exact hlo
        have h2 : |(z : ℚ)| = 2 ^ (53 : ℤ) := le_antisymm hzq h1
        have h3 : |z| = 2 ^ 53 := by
          have : ((|z| : ℤ) : ℚ) = ((2 ^ 53 : ℤ) : ℚ) := by
            push_cast; rw [h2]; norm_num
          exact_mod_cast this
        have : z = 2 ^ 53 ∨ z = -2 ^ 53 := by
          rcases abs_cases z with ⟨h, _⟩ | ⟨h, _⟩ <;> omega
        rw [heq]
        rcases this with rfl | rfl
        · exact ⟨2 ^ 52, by norm_num⟩
        · exact ⟨-2 ^ 52, by norm_num⟩
    rw [hk, round_intCast, ← hk]
    field_simp
  close := by
    intro x
    unfold roundNearest
    dsimp only
    rcases eq_or_ne x 0 with rfl | h0
    · simp
    have hpos : (0 : ℚ) < |x| := by positivity
    set e := Int.log 2 |x| with he
    have hlo : (2 : ℚ) ^ e ≤ |x| := by
      have := Int.zpow_log_le_self (b := 2) (by norm_num) hpos
      exact_mod_cast this
    have hu : (0 : ℚ) < 2 ^ (e - 52) := by positivity
    have hr := abs_sub_round (x / 2 ^ (e - 52))
    have h1 : (round (x / 2 ^ (e - 52)) : ℚ) * 2 ^ (e - 52) - x =
        -((x / 2 ^ (e - 52) - round (x / 2 ^ (e - 52))) * 2 ^ (e - 52)) := by
      field_simp
      ring
    rw [h1, abs_neg, abs_mul, abs_of_pos hu]
    have h2 : (2 : ℚ) ^ (e - 52) = 2 ^ e / 2 ^ 52 := by
      rw [zpow_sub₀ (by norm_num)]
      norm_num
    rw [h2] at hr ⊢
    calc |x / (2 ^ e / 2 ^ 52) - round (x / (2 ^ e / 2 ^ 52))| * (2 ^ e / 2 ^ 52)
        ≤ 1 / 2 * (2 ^ e / 2 ^ 52) := mul_le_mul_of_nonneg_right hr (by positivity)
      _ = 2 ^ e / 2 ^ 53 := by ring
      _ ≤ |x| / 2 ^ 53 := div_le_div_of_nonneg_right hlo (by positivity)

/-- C32: with any binary64 rounding, and for every volume up to ten million, each generator that
divides lists exactly what it lists in exact arithmetic, in the same order. -/
theorem generators_float_exact {fl : ℚ → ℚ} (hfl : Binary64 fl) {n : ℤ} (hn : n ≤ 10 ^ 7) :
    sc_3 fl n = sc_3 id n ∧
    bcc_5 fl n = bcc_5 id n ∧
    fcc_1 fl n = fcc_1 id n ∧
    hex_12 fl n = hex_12 id n ∧
    hex_22 fl n = hex_22 id n ∧
    rhom_9_24 fl n = rhom_9_24 id n ∧
    rhom_4_2 fl n = rhom_4_2 id n ∧
    stet_11 fl n = stet_11 id n ∧
    stet_21 fl n = stet_21 id n ∧
    body_tet_6_7_15_18 fl n = body_tet_6_7_15_18 id n ∧
    body_ortho_19 fl n = body_ortho_19 id n ∧
    body_ortho_8 fl n = body_ortho_8 id n ∧
    body_ortho_42 fl n = body_ortho_42 id n ∧
    face_ortho_26 fl n = face_ortho_26 id n ∧
    face_ortho_16 fl n = face_ortho_16 id n ∧
    base_ortho_38_13 fl n = base_ortho_38_13 id n ∧
    base_ortho_23 fl n = base_ortho_23 id n ∧
    base_ortho_40 fl n = base_ortho_40 id n ∧
    base_ortho_36 fl n = base_ortho_36 id n ∧
    base_mono_20_25 fl n = base_mono_20_25 id n ∧
    base_mono_28 fl n = base_mono_28 id n ∧
    base_mono_29_30 fl n = base_mono_29_30 id n ∧
    base_mono_10_14_17_27_37_39_41 fl n = base_mono_10_14_17_27_37_39_41 id n ∧
    base_mono_43 fl n = base_mono_43 id n ∧
    sm_33 fl n = sm_33 id n :=
  ⟨sc_3_fl hfl hn,
    bcc_5_fl hfl hn,
    fcc_1_fl hfl hn,
    hex_12_fl hfl hn,
    hex_22_fl hfl hn,
    rhom_9_24_fl hfl hn,
    rhom_4_2_fl hfl hn,
    stet_11_fl hfl hn,
    stet_21_fl hfl hn,
    body_tet_6_7_15_18_fl hfl hn,
    body_ortho_19_fl hfl hn,
    body_ortho_8_fl hfl hn,
    body_ortho_42_fl hfl hn,
    face_ortho_26_fl hfl hn,
    face_ortho_16_fl hfl hn,
    base_ortho_38_13_fl hfl hn,
    base_ortho_23_fl hfl hn,
    base_ortho_40_fl hfl hn,
    base_ortho_36_fl hfl hn,
    base_mono_20_25_fl hfl hn,
    base_mono_28_fl hfl hn,
    base_mono_29_30_fl hfl hn,
    base_mono_10_14_17_27_37_39_41_fl hfl hn,
    base_mono_43_fl hfl hn,
    sm_33_fl hfl hn⟩

/-- Non-vacuity: rounding to nearest at volume 12. -/
example : hex_12 roundNearest 12 = hex_12 id 12 :=
  (generators_float_exact roundNearest_binary64 (by norm_num : (12 : ℤ) ≤ 10 ^ 7)).2.2.2.1

/-- Rounding matters in general: with a coarser rounding (steps of one third) the listing changes. -/
example : sc_3 (fun x => ⌊3 * x⌋ / 3 + 1 / 3) 2 ≠ sc_3 id 2 := by decide +kernel

end AutoGR
