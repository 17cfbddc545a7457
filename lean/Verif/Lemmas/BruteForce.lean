import Verif.Model.BruteForce
import Verif.Lemmas.FortranBase
import Verif.Lemmas.GenBase
import Verif.Lemmas.ClassSym

/-! # The brute force search: rounding and loops -/

namespace AutoGR.Brute

open Spec Matrix

/-- A comparison that finds an integer equal to itself, and different from numbers that are at least `1/n`
away. -/
structure Separates (equal : ℝ → ℝ → Bool) (n : ℤ) : Prop where
  same : ∀ z : ℤ, equal z z = true
  apart : ∀ (x : ℝ) (z : ℤ), 1 / (n : ℝ) ≤ |x - z| → equal x z = false

theorem nint_int (z : ℤ) : nint (z : ℝ) = z := by
  unfold nint
  split_ifs with h
  · rw [Int.floor_intCast_add, Int.floor_eq_zero_iff.2 (by constructor <;> norm_num), add_zero]
  · rw [sub_eq_add_neg, Int.ceil_intCast_add, Int.ceil_eq_zero_iff.2 (by constructor <;> norm_num), add_zero]

theorem equal_frac {equal : ℝ → ℝ → Bool} {n : ℤ} (he : Separates equal n) (hn : 0 < n) (m : ℤ) :
    equal ((m : ℝ) / n) (nint ((m : ℝ) / n)) = true ↔ n ∣ m := by
  have hn' : (0 : ℝ) < n := by exact_mod_cast hn
  constructor
  · intro h
    by_contra hd
    have h1 : 1 / (n : ℝ) ≤ |(m : ℝ) / n - nint ((m : ℝ) / n)| := by
      set z := nint ((m : ℝ) / n)
      have e : (m : ℝ) / n - z = ((m - n * z : ℤ) : ℝ) / n := by
        push_cast
        field_simp
      have h0 : m - n * z ≠ 0 := fun h0 => hd ⟨z, by omega⟩
      have h2 : (1 : ℝ) ≤ |((m - n * z : ℤ) : ℝ)| := by exact_mod_cast Int.one_le_abs h0
      rw [e, abs_div, abs_of_pos hn']
      exact (div_le_div_iff_of_pos_right hn').2 h2
    rw [he.apart _ _ h1] at h
    exact absurd h (by decide)
  · rintro ⟨z, rfl⟩
    have e : ((n * z : ℤ) : ℝ) / n = (z : ℝ) := by
      push_cast
      field_simp
    rw [e, nint_int]
    exact he.same z

/-- `lat⁻¹ R lat` for a supercell, over the common denominator. -/
theorem quotient_eq {P R : R3} {X H : IntMat} (hP : P.det ≠ 0) (hR : R * P = P * toReal X) (hH : H.det ≠ 0) :
    (P * toReal H)⁻¹ * (R * (P * toReal H)) = ((H.det : ℝ)⁻¹) • toReal (H.adjugate * X * H) := by
  have hu : IsUnit P.det := isUnit_iff_ne_zero.2 hP
  have hd : (toReal H).det = (H.det : ℝ) := (Int.cast_det H).symm
  have hH' : (toReal H).det ≠ 0 := by rw [hd]; exact_mod_cast hH
  have hinv : (toReal H)⁻¹ = ((H.det : ℝ)⁻¹) • toReal H.adjugate := by
    apply Matrix.inv_eq_left_inv
    rw [smul_mul_assoc, ← toReal_mul, adjugate_mul]
    ext i j
    have : (H.det : ℝ) ≠ 0 := by exact_mod_cast hH
    simp only [Matrix.smul_apply, toReal, Matrix.map_apply, smul_eq_mul, Int.cast_mul, Matrix.one_apply]
    split_ifs <;> simp [this]
  calc (P * toReal H)⁻¹ * (R * (P * toReal H))
      = (toReal H)⁻¹ * (P⁻¹ * (R * P)) * toReal H := by
        rw [Matrix.mul_inv_rev]; simp only [Matrix.mul_assoc]
    _ = (toReal H)⁻¹ * toReal X * toReal H := by
        rw [hR, ← Matrix.mul_assoc P⁻¹, nonsing_inv_mul P hu, Matrix.one_mul]
    _ = _ := by
        rw [hinv, smul_mul_assoc, smul_mul_assoc, ← toReal_mul, ← toReal_mul]

theorem keeps_iff_dvd {X H : IntMat} (hH : H.det ≠ 0) :
    Keeps X H ↔ ∀ i j, H.det ∣ (H.adjugate * X * H) i j := by
  constructor
  · rintro ⟨Y, hY⟩ i j
    rw [Matrix.mul_assoc, hY, ← Matrix.mul_assoc, adjugate_mul, smul_mul_assoc, Matrix.one_mul]
    exact ⟨Y i j, by simp⟩
  · intro h
    choose Y hY using h
    refine ⟨Matrix.of Y, ?_⟩
    have e : H.adjugate * X * H = H.det • Matrix.of Y := by
      ext i j
      simp [hY i j]
    have e2 : H.det • (X * H) = H.det • (H * Matrix.of Y) := by
      calc H.det • (X * H) = (H * H.adjugate) * (X * H) := by rw [mul_adjugate, smul_mul_assoc, Matrix.one_mul]
        _ = H * (H.adjugate * X * H) := by simp only [Matrix.mul_assoc]
        _ = _ := by rw [e, mul_smul_comm]
    ext i j
    have := congrFun (congrFun e2 i) j
    simp only [Matrix.smul_apply, smul_eq_mul] at this
    exact mul_left_cancel₀ hH this

theorem symm_pres_iff {equal : ℝ → ℝ → Bool} {P : R3} {H : IntMat} (he : Separates equal H.det)
    (hP : P.det ≠ 0) (hH : 0 < H.det) (pg : List R3) (hpg : ∀ R ∈ pg, ∃ X : IntMat, R * P = P * toReal X) :
    symm_pres equal (P * toReal H) pg = true ↔ ∀ R ∈ pg, ∀ X : IntMat, R * P = P * toReal X → Keeps X H := by
  induction pg with
  | nil => simp [symm_pres]
  | cons R rest ih =>
    have ih := ih fun S hS => hpg S (by simp [hS])
    obtain ⟨X, hX⟩ := hpg R (by simp)
    have key : equalMat equal ((P * toReal H)⁻¹ * (R * (P * toReal H)))
        (((P * toReal H)⁻¹ * (R * (P * toReal H))).map fun x => ((nint x : ℤ) : ℝ)) = true ↔ Keeps X H := by
      rw [quotient_eq hP hX hH.ne', keeps_iff_dvd hH.ne', equalMat, decide_eq_true_iff]
      refine forall_congr' fun i => forall_congr' fun j => ?_
      rw [← equal_frac he hH]
      simp only [Matrix.map_apply, Matrix.smul_apply, toReal, smul_eq_mul]
      rw [inv_mul_eq_div]
    have huniq : ∀ Y : IntMat, R * P = P * toReal Y → Y = X := by
      intro Y hY
      apply toReal_injective
      have h1 : P * toReal Y = P * toReal X := hY.symm.trans hX
      have hu : IsUnit P.det := isUnit_iff_ne_zero.2 hP
      calc toReal Y = P⁻¹ * (P * toReal Y) := by rw [← Matrix.mul_assoc, nonsing_inv_mul P hu, Matrix.one_mul]
        _ = P⁻¹ * (P * toReal X) := by rw [h1]
        _ = toReal X := by rw [← Matrix.mul_assoc, nonsing_inv_mul P hu, Matrix.one_mul]
    rw [symm_pres]
    simp only [List.forall_mem_cons]
    split_ifs with h
    · rw [ih]
      constructor
      · intro h'
        exact ⟨fun Y hY => huniq Y hY ▸ key.1 h, h'⟩
      · exact fun h' => h'.2
    · constructor
      · intro h'
        cases h'
      · intro h'
        exact absurd (key.2 (h'.1 X hX)) h

theorem searchLoop_eq (equal : ℝ → ℝ → Bool) (P : R3) (gens : List R3) (l : List Mat3) (b : Buf)
    (h1 : 1 ≤ b.current_max) (h2 : b.stored.length ≤ b.current_max) :
    (searchLoop equal P gens l b).map Buf.stored =
      some (b.stored ++ l.filter fun H => symm_pres equal (P * toReal H) gens) := by
  induction l generalizing b with
  | nil => simp [searchLoop]
  | cons H rest ih =>
    rw [searchLoop]
    by_cases h : symm_pres equal (P * toReal H) gens = true
    · have h' : symm_pres equal (P * H.map (fun z => (z : ℝ))) gens = true := h
      simp only [h', if_true]
      rw [List.filter_cons_of_pos (p := fun H => symm_pres equal (P * toReal H) gens) h]
      unfold store
      by_cases hf : b.stored.length = b.current_max
      · simp only [hf, if_true]
        rw [if_pos (by omega), Option.bind_some, ih _ (by simp; omega) (by simp; omega)]
        simp
      · simp only [hf, if_false]
        rw [if_pos (by omega), Option.bind_some, ih _ (by simp; omega) (by simp; omega)]
        simp
    · have h' : ¬ symm_pres equal (P * H.map (fun z => (z : ℝ))) gens = true := h
      simp only [if_neg h']
      rw [List.filter_cons_of_neg (p := fun H => symm_pres equal (P * toReal H) gens) h, ih b h1 h2]

theorem get_srHNFs_eq (equal : ℝ → ℝ → Bool) (P : R3) (gens : List R3) (n : ℤ) :
    get_srHNFs equal P gens n = some ((candidates n).filter fun H => symm_pres equal (P * toReal H) gens) := by
  rw [get_srHNFs, searchLoop_eq _ _ _ _ _ (by norm_num) (by simp)]
  simp

theorem mem_candidates {n : ℤ} {H : IntMat} : H ∈ candidates n ↔ IsHNF H ∧ H.det = n := by
  have h := gen_mem (Q := fun _ => True) (body := fun x : ℤ × ℤ × ℤ =>
    (pyRange 0 x.2.1).flatMap fun j => (pyRange 0 x.2.2).flatMap fun k =>
      (pyRange 0 x.2.2).map fun l => hnf x.1 j x.2.1 k l x.2.2) (by
    intro a c f _ _ _ H
    simp only [List.mem_flatMap, List.mem_map, mem_pyRange, true_and]
    constructor
    · rintro ⟨b, hb, d, hd, e, he, rfl⟩
      exact ⟨b, d, e, hb, hd, he, rfl⟩
    · rintro ⟨b, d, e, hb, hd, he, rfl⟩
      exact ⟨b, hb, d, hd, e, he, rfl⟩) (n := n) (H := H)
  rw [and_true] at h
  rw [← h, candidates, Fortran.get_HNF_diagonals_eq]

theorem nodup_candidates (n : ℤ) : (candidates n).Nodup := by
  rw [candidates, Fortran.get_HNF_diagonals_eq]
  refine nodup_diag ?_ ?_
  · intro a c f _ _ _
    refine nodup_loopB (nodup_pyRange _ _) ?_ ?_
    · intro b _
      refine nodup_loopD (nodup_pyRange _ _) ?_ ?_
      · intro d _
        refine List.Nodup.map ?_ (nodup_pyRange _ _)
        intro x y hxy
        have := congrFun (congrFun hxy 2) 1
        simpa [hnf] using this
      · intro d _ H hH
        obtain ⟨e, _, rfl⟩ := List.mem_map.1 hH
        simp [hnf]
    · intro b _ H hH
      simp only [List.mem_flatMap, List.mem_map] at hH
      obtain ⟨d, _, e, _, rfl⟩ := hH
      simp [hnf]
  · intro a c f H hH
    simp only [List.mem_flatMap, List.mem_map] at hH
    obtain ⟨b, _, d, _, e, _, rfl⟩ := hH
    simp [hnf]

end AutoGR.Brute
