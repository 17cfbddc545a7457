import Verif.Lemmas.FortranStops
import Verif.Spec.Lattice
import Verif.Spec.Grid

/-! # How far the loops of `find_grid` go -/

namespace AutoGR.Fortran

open Spec

variable {G Off : Type}

/-- If five numbers up to `B` are accepted and `B` is past the range that is always searched, no number above `B` is
tried. -/
theorem generalLoop_le {tryN : ℤ → Except GridErr (Tried G Off)} {s_range : ℕ} {kpd B : ℤ} (S : Finset ℤ)
    (h5 : 5 ≤ S.card) (hS : ∀ n ∈ S, n ≤ B ∧ ∃ b, Accepted tryN n b) (hB : kpd + s_range ≤ B + 1)
    (fuel : ℕ) : ∀ (a : ℤ) (found out : List (Entry G Off)), a ≤ B + 1 → (∀ e ∈ found, e.nt_kpts ≤ B) →
      (S.filter (· < a)).card ≤ found.length → generalLoop tryN s_range kpd fuel a found = .ok out →
      ∀ e ∈ out, e.nt_kpts ≤ B := by
  induction fuel with
  | zero => intro a found out _ _ _ h; cases h
  | succ fuel ih =>
    intro a found out ha hf hlen h
    unfold generalLoop at h
    by_cases hc : found.length < 5 ∨ (5 ≤ found.length ∧ a - kpd < s_range)
    · rw [if_pos hc] at h
      have haB : a ≤ B := by
        by_contra hlt
        have : S.filter (· < a) = S := Finset.filter_true_of_mem fun n hn => by
          have := (hS n hn).1
          omega
        rw [this] at hlen
        omega
      have hstep : (S.filter (· < a + 1)).card ≤ (S.filter (· < a)).card + 1 := by
        have : S.filter (· < a + 1) ⊆ insert a (S.filter (· < a)) := by
          intro n hn
          simp only [Finset.mem_filter, Finset.mem_insert] at hn ⊢
          obtain ⟨h1, h2⟩ := hn
          by_cases e : n = a
          · exact .inl e
          · exact .inr ⟨h1, by omega⟩
        exact (Finset.card_le_card this).trans (Finset.card_insert_le _ _)
      have hskip : (¬∃ b, Accepted tryN a b) → (S.filter (· < a + 1)).card ≤ found.length := by
        intro hno
        have : S.filter (· < a + 1) = S.filter (· < a) := Finset.filter_congr fun n hn => by
          have : n ≠ a := fun e => hno (e ▸ (hS n hn).2)
          omega
        rwa [this]
      cases ht : tryN a with
      | error e => rw [ht] at h; cases h
      | ok t =>
        obtain ⟨m, best⟩ := t
        rw [ht] at h
        cases best with
        | none =>
          refine ih (a + 1) found out (by omega) hf (hskip ?_) h
          rintro ⟨b, m', -, h'⟩
          rw [ht] at h'
          cases h'
        | some b =>
          dsimp only at h
          by_cases hm : 1 < m
          · rw [if_pos hm] at h
            split_ifs at h with hr
            refine ih (a + 1) _ out (by omega) (fun e he => ?_) (by rw [List.length_append, List.length_singleton]; omega) h
            rcases List.mem_append.1 he with he | he
            · exact hf e he
            · rw [List.mem_singleton.1 he]
              exact haB
          · rw [if_neg hm] at h
            refine ih (a + 1) found out (by omega) hf (hskip ?_) h
            rintro ⟨b', m', hm', h'⟩
            rw [ht] at h'
            cases h'
            exact hm hm'
    · rw [if_neg hc] at h
      cases h
      exact hf

theorem minFirst_mem {α : Type} (f : α → ℚ) (l : List α) : ∀ x, minFirst f l = some x → x ∈ l := by
  induction l with
  | nil => intro x h; cases h
  | cons a l ih =>
    intro x h
    unfold minFirst at h
    split at h
    · cases h
      simp
    · rename_i y hy
      split_ifs at h
      · cases h
        exact List.mem_cons_of_mem _ (ih _ hy)
      · cases h
        simp

theorem choose_mem {min_kpts : Bool} {kpd : ℤ} {found : List (Entry G Off)} {e : Entry G Off}
    (h : choose min_kpts kpd found = .ok e) : e ∈ found := by
  unfold choose at h
  split_ifs at h <;> split at h <;> cases h
  · exact minFirst_mem _ _ _ (by assumption)
  · exact List.mem_of_mem_filter (minFirst_mem _ _ _ (by assumption))

/-- A multiple of a supercell has the same symmetries. -/
theorem symmetricHNFs_smul {S : Set IntMat} {n : ℤ} {H : IntMat} (h : H ∈ SymmetricHNFs S n) {m : ℤ} (hm : 1 ≤ m) :
    m • H ∈ SymmetricHNFs S (n * m ^ 3) := by
  obtain ⟨h1, h2, h3⟩ := h
  refine ⟨?_, by rw [Matrix.det_smul, h2, Fintype.card_fin, mul_comm], fun X hX => ?_⟩
  · constructor <;> simp only [Matrix.smul_apply, smul_eq_mul]
    · rw [h1.upper01, mul_zero]
    · rw [h1.upper02, mul_zero]
    · rw [h1.upper12, mul_zero]
    · exact mul_pos (by omega) h1.pos0
    · exact mul_pos (by omega) h1.pos1
    · exact mul_pos (by omega) h1.pos2
    · exact ⟨mul_nonneg (by omega) h1.low10.1, mul_lt_mul_of_pos_left h1.low10.2 (by omega)⟩
    · exact ⟨mul_nonneg (by omega) h1.low20.1, mul_lt_mul_of_pos_left h1.low20.2 (by omega)⟩
    · exact ⟨mul_nonneg (by omega) h1.low21.1, mul_lt_mul_of_pos_left h1.low21.2 (by omega)⟩
  · obtain ⟨Y, hY⟩ := h3 X hX
    exact ⟨Y, by rw [Matrix.mul_smul, Matrix.smul_mul, hY]⟩

/-- The cubes. -/
theorem five_cubes {D m : ℤ} (hD : 1 ≤ D) (hm : 1 ≤ m) :
    ∃ S : Finset ℤ, S.card = 5 ∧ ∀ n ∈ S, D * m ^ 3 ≤ n ∧ n ≤ D * (m + 4) ^ 3 ∧ ∃ j, 1 ≤ j ∧ n = D * j ^ 3 := by
  refine ⟨(Finset.Icc m (m + 4)).image fun j => D * j ^ 3, ?_, ?_⟩
  · rw [Finset.card_image_of_injective, Int.card_Icc]
    · omega
    · intro a b hab
      have : a ^ 3 = b ^ 3 := mul_left_cancel₀ (by omega) hab
      exact (Odd.strictMono_pow (by decide : Odd 3)).injective this
  · intro n hn
    obtain ⟨j, hj, rfl⟩ := Finset.mem_image.1 hn
    obtain ⟨j1, j2⟩ := Finset.mem_Icc.1 hj
    refine ⟨?_, ?_, j, by omega, rfl⟩
    · exact mul_le_mul_of_nonneg_left (pow_le_pow_left₀ (by omega) j1 3) (by omega)
    · exact mul_le_mul_of_nonneg_left (pow_le_pow_left₀ (by omega) j2 3) (by omega)

theorem amongFirst_le {kpd v D m : ℤ} {P : ℤ → Prop} (hD : 1 ≤ D) (hm : 1 ≤ m) (h : AmongFirst 5 kpd P v)
    (hk : kpd ≤ D * m ^ 3) (hP : ∀ j, 1 ≤ j → P (D * j ^ 3)) : v ≤ D * (m + 4) ^ 3 := by
  by_contra hlt
  obtain ⟨S, h1, h2⟩ := five_cubes hD hm
  have hsub : (S : Set ℤ) ⊆ {u | kpd ≤ u ∧ u < v ∧ P u} := by
    intro n hn
    obtain ⟨a, b, j, hj, rfl⟩ := h2 n hn
    exact ⟨by omega, by omega, hP j hj⟩
  have hfin : {u | kpd ≤ u ∧ u < v ∧ P u}.Finite := (Set.finite_Ico kpd v).subset fun u hu => ⟨hu.1, hu.2.1⟩
  have := Set.ncard_le_ncard hsub hfin
  rw [Set.ncard_coe_finset, h1] at this
  exact absurd h.2.2 (by omega)

/-- The next cube is not much larger. -/
theorem next_cube {D : ℤ} (hD : 1 ≤ D) (s : ℕ) {δ : ℚ} (hδ : 0 < δ) :
    ∃ n0 : ℤ, ∀ kpd : ℤ, n0 ≤ kpd → ∃ m : ℤ, 1 ≤ m ∧ kpd ≤ D * m ^ 3 ∧
      ((max (D * (m + 4) ^ 3) (kpd + s - 1) : ℤ) : ℚ) ≤ (1 + δ) * kpd := by
  obtain ⟨T, hT⟩ := exists_nat_gt (215 / δ)
  obtain ⟨R, hR⟩ := exists_nat_gt ((s : ℚ) / δ)
  rw [div_lt_iff₀ hδ] at hT hR
  refine ⟨max (D * T ^ 3 + 1) (max R 1), fun kpd hk => ?_⟩
  have hk1 : D * T ^ 3 < kpd := by omega
  have hkR : (R : ℤ) ≤ kpd := by omega
  have hk0 : 1 ≤ kpd := by omega
  have hex : ∃ m : ℕ, kpd ≤ D * (m : ℤ) ^ 3 := by
    refine ⟨kpd.toNat, ?_⟩
    rw [Int.toNat_of_nonneg (by omega)]
    have : kpd ≤ kpd ^ 3 := le_self_pow₀ hk0 (by norm_num)
    nlinarith
  classical
  obtain ⟨m, hm, hmin⟩ : ∃ m : ℕ, kpd ≤ D * (m : ℤ) ^ 3 ∧ ∀ j < m, ¬ kpd ≤ D * (j : ℤ) ^ 3 :=
    ⟨Nat.find hex, Nat.find_spec hex, fun j hj => Nat.find_min hex hj⟩
  have hTm : T < m := by
    by_contra hle
    have : (m : ℤ) ^ 3 ≤ (T : ℤ) ^ 3 := pow_le_pow_left₀ (by omega) (by omega) 3
    nlinarith
  obtain ⟨t, rfl⟩ : ∃ t, m = t + 1 := ⟨m - 1, by omega⟩
  have hlow := hmin t (by omega)
  refine ⟨(t + 1 : ℕ), by omega, hm, ?_⟩
  have hT0 : (1 : ℚ) ≤ T := by
    rcases Nat.eq_zero_or_pos T with h0 | h0
    · rw [h0] at hT
      norm_num at hT
    · exact_mod_cast h0
  have htT : (T : ℚ) ≤ t := by exact_mod_cast (by omega : T ≤ t)
  have hlow' : (D : ℚ) * t ^ 3 ≤ kpd := by exact_mod_cast (not_le.1 hlow).le
  have hkR' : (R : ℚ) ≤ kpd := by exact_mod_cast hkR
  have hD' : (1 : ℚ) ≤ D := by exact_mod_cast hD
  rw [Int.cast_max]
  refine max_le ?_ ?_
  · push_cast
    have h1 : ((t : ℚ) + 1 + 4) ^ 3 ≤ t ^ 3 + 215 * t ^ 2 := by nlinarith [hT0.trans htT]
    have h2 : 215 * (t : ℚ) ^ 2 ≤ δ * t ^ 3 := by
      have : 215 ≤ δ * t := by nlinarith
      nlinarith [sq_nonneg (t : ℚ)]
    calc (D : ℚ) * ((t : ℚ) + 1 + 4) ^ 3 ≤ D * ((1 + δ) * t ^ 3) :=
          mul_le_mul_of_nonneg_left (by linarith) (by linarith)
      _ = (1 + δ) * (D * t ^ 3) := by ring
      _ ≤ (1 + δ) * kpd := mul_le_mul_of_nonneg_left hlow' (by linarith)
  · push_cast
    nlinarith

end AutoGR.Fortran
