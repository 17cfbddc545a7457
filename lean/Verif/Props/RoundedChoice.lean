import Verif.Model.RoundedChoice
import Verif.Model.Rounded
import Verif.Props.Float
import Verif.Props.ShiftedGrid

/-!
# C127: rounding does not change the choice among the grids found

The ratio of irreducible k-points to all k-points, by which `find_grid` chooses, is a quotient in binary64.  Different
quotients of integers up to 2^26 are rounded to different numbers, in the same order.
-/

namespace AutoGR.Fortran

open Spec Arith

variable {G Off : Type} {fl : ℚ → ℚ}

/-- The library does not count more irreducible k-points than there are k-points.  `k` is the class of the lattice, `Co` the
matrix that reduces the tabulated basis. -/
structure NotMore (k : ℕ) (Co : IMat) (lib : Lib G Off) : Prop where
  compared : ∀ n H, 1 ≤ n → H ∈ SymmetricHNFs (ClassSym k Co.toMat) n → ∀ o (m : ℕ),
    lib.irr (lib.geom H).grid o = some m ∨ lib.irrDefault (lib.geom H).grid o = some m → (m : ℤ) ≤ n
  cubic : ∀ n H, 1 ≤ n → H ∈ SymmetricHNFs (ClassSym k Co.toMat) n → ∀ o (m : ℕ),
    lib.irr (lib.gridOf H) o = some m → (m : ℤ) ≤ n

/-! ## Quotients -/

theorem quotient_lt (hb : Binary64 fl) {n₁ t₁ n₂ t₂ : ℤ} (h₁ : 0 ≤ n₁) (p₁ : 1 ≤ t₁) (q₁ : t₁ ≤ 2 ^ 26)
    (h₂ : 0 ≤ n₂) (h₂' : n₂ ≤ t₂) (p₂ : 1 ≤ t₂) (q₂ : t₂ ≤ 2 ^ 26) (h : (n₁ : ℚ) / t₁ < n₂ / t₂) :
    fl (n₁ / t₁) < fl (n₂ / t₂) := by
  have r₁ : (0 : ℚ) < t₁ := by exact_mod_cast p₁
  have r₂ : (0 : ℚ) < t₂ := by exact_mod_cast p₂
  have hgap : (1 : ℚ) / (t₁ * t₂) ≤ n₂ / t₂ - n₁ / t₁ := by
    rw [div_lt_div_iff₀ r₁ r₂] at h
    have h' : n₁ * t₂ < n₂ * t₁ := by exact_mod_cast h
    have h'' : (1 : ℚ) ≤ n₂ * t₁ - n₁ * t₂ := by exact_mod_cast (by omega : (1 : ℤ) ≤ n₂ * t₁ - n₁ * t₂)
    rw [div_sub_div _ _ r₂.ne' r₁.ne', div_le_div_iff₀ (by positivity) (by positivity)]
    nlinarith [mul_pos r₁ r₂]
  have hsmall : (1 : ℚ) / 2 ^ 52 ≤ 1 / (t₁ * t₂) := by
    refine one_div_le_one_div_of_le (by positivity) ?_
    have : t₁ * t₂ ≤ 2 ^ 26 * 2 ^ 26 := mul_le_mul q₁ q₂ (by omega) (by norm_num)
    exact_mod_cast (by omega : t₁ * t₂ ≤ 2 ^ 52)
  have b₂ : (n₂ : ℚ) / t₂ ≤ 1 := by
    rw [div_le_one r₂]
    exact_mod_cast h₂'
  have a₁ : (0 : ℚ) ≤ n₁ / t₁ := div_nonneg (by exact_mod_cast h₁) r₁.le
  have a₂ : (0 : ℚ) ≤ n₂ / t₂ := div_nonneg (by exact_mod_cast h₂) r₂.le
  have c₁ := hb.close ((n₁ : ℚ) / t₁)
  have c₂ := hb.close ((n₂ : ℚ) / t₂)
  rw [abs_of_nonneg a₁, abs_le] at c₁
  rw [abs_of_nonneg a₂, abs_le] at c₂
  generalize (n₁ : ℚ) / t₁ = x at *
  generalize (n₂ : ℚ) / t₂ = y at *
  have : x / 2 ^ 53 + y / 2 ^ 53 < 1 / 2 ^ 52 := by
    rw [← add_div, div_lt_div_iff₀ (by norm_num) (by norm_num)]
    linarith
  linarith [c₁.2, c₂.1]

/-- An entry whose ratio binary64 orders rightly. -/
structure Moderate (e : Entry G Off) : Prop where
  le : (e.sel.n_irr : ℤ) ≤ e.nt_kpts
  pos : 1 ≤ e.nt_kpts
  limit : e.nt_kpts ≤ 2 ^ 26

/-- Binary64 orders the ratios of two entries as the exact ratios are ordered. -/
theorem ratio_order (hb : Binary64 fl) {e e' : Entry G Off} (h : Moderate e) (h' : Moderate e') :
    lt (ratioK e : Rounded fl) (ratioK e') = decide (ratio e < ratio e') := by
  have key : ∀ {e : Entry G Off}, Moderate e → (ratioK e : Rounded fl).q = fl (((e.sel.n_irr : ℤ) : ℚ) / e.nt_kpts) := by
    intro e h
    have := h.le
    have := h.limit
    have := h.pos
    change fl (fl ((e.sel.n_irr : ℤ) : ℚ) / fl (e.nt_kpts : ℚ)) = _
    rw [hb.exact _ (by rw [abs_of_nonneg (by omega)]; omega), hb.exact e.nt_kpts (by rw [abs_of_nonneg (by omega)]; omega)]
  change decide ((ratioK e : Rounded fl).q < (ratioK e' : Rounded fl).q) = _
  rw [key h, key h', decide_eq_decide]
  have r : ∀ e : Entry G Off, ratio e = ((e.sel.n_irr : ℤ) : ℚ) / e.nt_kpts := fun e => by unfold ratio; push_cast; rfl
  rw [r, r]
  refine ⟨fun hlt => ?_, quotient_lt hb (by omega) h.pos h.limit (by omega) h'.le h'.pos h'.limit⟩
  by_contra hc
  rcases lt_or_eq_of_le (not_lt.1 hc) with hc | hc
  · exact absurd (quotient_lt hb (by omega) h'.pos h'.limit (by omega) h.le h.pos h.limit hc) (not_lt.2 hlt.le)
  · rw [hc] at hlt
    exact lt_irrefl _ hlt

theorem minFirstK_eq (hb : Binary64 fl) : ∀ l : List (Entry G Off), (∀ e ∈ l, Moderate e) →
    minFirstK (ratioK (K := Rounded fl)) l = minFirst ratio l
  | [], _ => rfl
  | x :: l, h => by
    rw [minFirstK, minFirst, minFirstK_eq hb l fun e he => h e (List.mem_cons_of_mem _ he)]
    cases hm : minFirst ratio l with
    | none => rfl
    | some y =>
      have hy : y ∈ l := by
        obtain ⟨z, z1, z2, -⟩ := minFirst_spec ratio l (by rintro rfl; cases hm)
        rw [hm] at z1
        cases z1
        exact z2
      dsimp only
      rw [ratio_order hb (h y (List.mem_cons_of_mem _ hy)) (h x List.mem_cons_self)]
      simp only [decide_eq_true_eq]

theorem chooseK_eq (hb : Binary64 fl) (min_kpts : Bool) (kpd : ℤ) {found : List (Entry G Off)}
    (h : ∀ e ∈ found, Moderate e) : chooseK (Rounded fl) min_kpts kpd found = choose min_kpts kpd found := by
  unfold chooseK choose
  rw [minFirstK_eq hb found h]
  rfl

theorem chooseCubicK_eq (hb : Binary64 fl) (min_kpts : Bool) (kpd : ℤ) {arr : List (Option (Entry G Off))} {count : ℕ}
    (h : ∀ e, some e ∈ arr → Moderate e) :
    chooseCubicK (Rounded fl) min_kpts kpd arr count = chooseCubic min_kpts kpd arr count := by
  unfold chooseCubicK chooseCubic
  rw [minFirstK_eq hb]
  · rfl
  intro e he
  rw [List.mem_filterMap] at he
  obtain ⟨x, hx, hx'⟩ := he
  rw [id] at hx'
  subst hx'
  exact h e (List.mem_of_mem_take hx)

/-! ## The entries -/

theorem generalLoop_all {P : Entry G Off → Prop} {tryN : ℤ → Except GridErr (Tried G Off)} {s_range : ℕ} {kpd N : ℤ}
    (hP : ∀ n t b, kpd ≤ n → n < N → tryN n = .ok t → t.best = some b → P ⟨b, n⟩) (fuel : ℕ) :
    ∀ (a : ℤ) (found found' : List (Entry G Off)), kpd ≤ a → a + fuel ≤ N → (∀ e ∈ found, P e) →
      generalLoop tryN s_range kpd fuel a found = .ok found' → ∀ e ∈ found', P e := by
  induction fuel with
  | zero =>
    intro a found found' _ _ _ h
    cases h
  | succ fuel ih =>
    intro a found found' ha haN hf h
    push_cast at haN
    rw [generalLoop] at h
    by_cases hc : found.length < 5 ∨ (5 ≤ found.length ∧ a - kpd < s_range)
    · rw [if_pos hc] at h
      split at h
      · cases h
      · rename_i t ht
        split at h
        · rename_i b hb
          by_cases h1 : 1 < t.nhnfs
          · rw [if_pos h1] at h
            by_cases h2 : found.length + 1 ≤ s_range
            · rw [if_pos h2] at h
              refine ih _ _ _ (by omega) (by omega) ?_ h
              intro e he
              rcases List.mem_append.1 he with he | he
              · exact hf e he
              · rw [List.mem_singleton.1 he]
                exact hP a t b ha (by omega) ht hb
            · rw [if_neg h2] at h
              cases h
          · rw [if_neg h1] at h
            exact ih _ _ _ (by omega) (by omega) hf h
        · exact ih _ _ _ (by omega) (by omega) hf h
    · rw [if_neg hc] at h
      cases h
      exact hf

theorem cubicLoop_all {P : Entry G Off → Prop} {tryN : ℤ → Except GridErr (Tried G Off)} : ∀ (l : List ℤ)
    (_ : ∀ n ∈ l, ∀ t b, tryN n = .ok t → t.best = some b → P ⟨b, n⟩) (i : ℕ) (arr : List (Option (Entry G Off))) (count : ℕ)
    (r : List (Option (Entry G Off)) × ℕ), (∀ e, some e ∈ arr → P e) → cubicLoop tryN l i arr count = .ok r →
      ∀ e, some e ∈ r.1 → P e
  | [], _, _, _, _, _, hf, h => by
    cases h
    exact hf
  | n :: l, hP, i, arr, count, r, hf, h => by
    have ih := cubicLoop_all l fun n hn => hP n (List.mem_cons_of_mem _ hn)
    rw [cubicLoop] at h
    by_cases hc : count < 5
    · rw [if_pos hc] at h
      split at h
      · cases h
      · rename_i t ht
        split at h
        · rename_i b hb
          by_cases hi : i ≤ 5
          · rw [if_pos hi] at h
            refine ih _ _ _ _ ?_ h
            intro e he
            rcases List.mem_or_eq_of_mem_set he with he | he
            · exact hf e he
            · cases he
              exact hP n List.mem_cons_self t b ht hb
          · rw [if_neg hi] at h
            cases h
        · exact ih _ _ _ _ hf h
    · rw [if_neg hc] at h
      cases h
      exact hf

/-! ## The search -/

/-- C127, for the lattices that are neither cubic nor triclinic: with ratios in binary64 the search returns what it returns with
exact ratios.  The numbers of k-points that are tried must not exceed 2^26. -/
theorem choice_rounded_general (hb : Binary64 fl) (lib : Lib G Off) (hirr : ∀ g o m, lib.irr g o = some m → 1 ≤ m) (w : ℤ → ℤ)
    (eps : ℚ) (offsets : List Off) (min_kpts : Bool) (root : ℤ) (fuel k : ℕ) (hk1 : 1 ≤ k) (hk2 : k ≤ 44)
    (hk : k ∉ [1, 3, 5, 31, 44]) (Co : IMat) (hCo : reducedCanonical ℚ k = .ok Co) (hle : NotMore k Co lib) (s_range : ℕ)
    (kpd : ℤ) (h1 : 1 ≤ kpd) (hfit : IntsFit w (kpd + fuel)) (hlim : kpd + fuel ≤ 2 ^ 26) :
    findGridK (Rounded fl) lib w eps offsets min_kpts root fuel k s_range kpd =
      findGrid lib w eps offsets min_kpts root fuel k s_range kpd := by
  obtain ⟨gen, hgen, good⟩ := generatorOf_good w k hk1 hk2 hk hCo
  simp only [List.mem_cons, List.not_mem_nil, or_false, not_or] at hk
  unfold findGridK findGrid
  rw [if_neg (by omega), if_neg (by omega), if_neg (by omega), if_neg (by omega), hgen]
  dsimp only
  cases hloop : generalLoop (fun n => tryHNFs lib.equal eps lib.geom lib.irr lib.irrDefault offsets (gen n))
      s_range kpd fuel kpd [] with
  | error e => rfl
  | ok found =>
    refine chooseK_eq hb _ _ fun e he => ?_
    refine generalLoop_all (P := Moderate) (N := kpd + fuel) (fun n t b hn hn' ht hb' => ?_) fuel kpd [] found le_rfl le_rfl (by simp)
      hloop e he
    have hf := intsFit_mono hfit (show n ≤ kpd + fuel by omega)
    obtain ⟨r, hr, hr'⟩ := tryHNFs_ok lib hirr eps offsets (gen n) (good.one n (by omega) hf)
    rw [hr] at ht
    cases ht
    have hc := hr' b hb'
    have hm := ((good.lists n hf).2 _).1 hc.mem
    refine ⟨?_, by dsimp only; omega, by dsimp only; omega⟩
    refine hle.compared n _ (by omega) hm b.offset _ ?_
    rw [← hc.grid]
    exact hc.irr

/-- C127 for the triclinic lattices: no ratios are compared. -/
theorem choice_rounded_tric (lib : Lib G Off) (w : ℤ → ℤ) (eps : ℚ) (offsets : List Off) (min_kpts : Bool) (root : ℤ) (fuel k : ℕ)
    (hk : k ∈ [31, 44]) (s_range : ℕ) (kpd : ℤ) :
    findGridK (Rounded fl) lib w eps offsets min_kpts root fuel k s_range kpd =
      findGrid lib w eps offsets min_kpts root fuel k s_range kpd := by
  simp only [List.mem_cons, List.not_mem_nil, or_false] at hk
  unfold findGridK findGrid
  rw [if_neg (by omega), if_pos (by omega), if_neg (by omega), if_pos (by omega)]
  rfl

theorem get_kpd_cubic_lt (k : ℕ) (kpd root : ℤ) (h1 : 1 ≤ kpd) (hr : 0 ≤ root) (hr' : root ≤ 281) :
    ∀ v ∈ get_kpd_cubic k root kpd, v ≤ 2 ^ 26 := by
  obtain ⟨l, hl, he⟩ := get_kpd_cubic_tried k root kpd h1 hr
  rw [he]
  intro v hv
  unfold padded at hv
  rcases List.mem_append.1 hv with hv | hv
  · obtain ⟨R, hR, -⟩ := hl.rest
    obtain ⟨-, m, hm, j, hj, -, hj', rfl⟩ := (mem_tried h1).1 (hR.subset (List.mem_append_left _ hv))
    have hj3 : j ^ 3 ≤ 116 ^ 3 := pow_le_pow_left₀ (by omega) (by omega) 3
    have := mults_pos k m hm
    nlinarith [pow_pos (show 0 < j by omega) 3]
  · have := List.eq_of_mem_replicate hv
    omega

theorem cubic_mem (w : ℤ → ℤ) (hw : w = id ∨ Int32 w) (k : ℕ) (hk : k ∈ [1, 3, 5]) (Co : IMat)
    (hCo : reducedCanonical ℚ k = .ok Co) (v : ℤ) (hv : v ≤ 700000000) (H : Mat3)
    (hH : H ∈ (if k = 3 then sc_3 else if k = 5 then bcc_5 w else fcc_1) v) : H ∈ SymmetricHNFs (ClassSym k Co.toMat) v := by
  simp only [List.mem_cons, List.not_mem_nil, or_false] at hk
  rcases hk with rfl | rfl | rfl
  · exact ((fcc_1_correct v Co hCo).2 H).1 hH
  · exact ((sc_3_correct v Co hCo).2 H).1 hH
  · rcases hw with rfl | hw
    · exact ((bcc_5_correct v (.inl rfl) Co hCo).2 H).1 hH
    · have : bcc_5 w v = bcc_5 id v := bcc5Loop_big hw _ fun x hx => by
        obtain ⟨a, c, f⟩ := x
        rw [get_HNF_diagonals_eq] at hx
        obtain ⟨ha, hc, hf, he⟩ := mem_getHNFDiagonals.1 hx
        have hcf : 1 ≤ c * f := Int.mul_pos hc hf
        exact ⟨ha, by nlinarith⟩
      change H ∈ bcc_5 w v at hH
      rw [this] at hH
      exact ((bcc_5_correct v (.inl rfl) Co hCo).2 H).1 hH

/-- C127, for the cubic lattices. -/
theorem choice_rounded_cubic (hb : Binary64 fl) (lib : Lib G Off) (hirr : ∀ g o m, lib.irr g o = some m → 1 ≤ m) (w : ℤ → ℤ)
    (hw : w = id ∨ Int32 w) (eps : ℚ) (offsets : List Off) (min_kpts : Bool) (fuel k : ℕ) (hk : k ∈ [1, 3, 5])
    (Co : IMat) (hCo : reducedCanonical ℚ k = .ok Co) (hle : NotMore k Co lib) (s_range : ℕ)
    (kpd root : ℤ) (h1 : 1 ≤ kpd) (hr : 0 ≤ root) (hr' : root ≤ 281) :
    findGridK (Rounded fl) lib w eps offsets min_kpts root fuel k s_range kpd =
      findGrid lib w eps offsets min_kpts root fuel k s_range kpd := by
  have hlim := get_kpd_cubic_lt k kpd root h1 hr hr'
  have hmem := cubic_mem w hw k hk Co hCo
  simp only [List.mem_cons, List.not_mem_nil, or_false] at hk
  have hc : k = 3 ∨ k = 5 ∨ k = 1 := by omega
  unfold findGridK findGrid
  rw [if_pos hc, if_pos hc]
  dsimp only
  generalize hgen : (if k = 3 then sc_3 else if k = 5 then bcc_5 w else fcc_1) = gen at *
  cases hloop : cubicLoop (fun n => tryCubic lib.gridOf lib.irr lib.irrDefault offsets (gen n))
      (get_kpd_cubic k root kpd) 1 (List.replicate 5 none) 0 with
  | error e => rfl
  | ok r =>
    refine chooseCubicK_eq hb _ _ fun e he => ?_
    refine cubicLoop_all (P := Moderate) _ (fun n hn t b ht hb' => ?_) _ _ _ _ (fun e he => ?_) hloop e he
    · have hn26 := hlim n hn
      cases hg : gen n with
      | nil =>
        rw [hg] at ht
        cases ht
      | cons H rest =>
        have hH : H ∈ SymmetricHNFs (ClassSym k Co.toMat) n := hmem n (by omega) H (by rw [hg]; exact List.mem_cons_self)
        have hpos : 1 ≤ n := by
          have := isHNF_det_pos hH.1
          have := hH.2.1
          omega
        rw [hg] at ht
        simp only [tryCubic] at ht
        obtain ⟨r, c1, c2, -⟩ := gridSelection_partial lib.irr lib.irrDefault hirr [(lib.gridOf H, H)] [] offsets
        rw [c1] at ht
        cases ht
        obtain ⟨d1, -, d2, -⟩ := c2 b hb'
        rcases d2 with ⟨d2, d3⟩ | ⟨d2, -⟩
        · obtain ⟨f1, f2⟩ := Prod.mk.inj (List.mem_singleton.1 d2)
          rw [f1] at d3
          exact ⟨hle.cubic n H hpos hH _ _ d3, hpos, hn26⟩
        · simp at d2
    · simp at he

/-! ## A library that counts irreducible points -/

open Matrix

/-- There are not more irreducible points than points. -/
theorem irreducible_le {U K : Matrix (Fin 3) (Fin 3) ℝ} (hU : U.det ≠ 0) {N : ℤ} (hN : 1 ≤ N) (hg : SymmetricGrid U K N)
    {ops : Set (Matrix (Fin 3) (Fin 3) ℝ)} (h1 : 1 ∈ ops) {off : Fin 3 → ℝ} {pts : List ((Fin 3 → ℝ) × ℤ)}
    (h : IrreduciblePoints (Uᵀ)⁻¹ K off ops pts) : (pts.length : ℤ) ≤ N := by
  obtain ⟨M, m1, m2⟩ := hg.reciprocal
  have hK := symmetricGrid_det_ne hU hN hg
  have hM : M.det ≠ 0 := by
    intro h0
    rw [h0, abs_zero] at m2
    omega
  have hcard := card_grid (off := off) hK m1 hM
  have hfin : (classes (Uᵀ)⁻¹ K off).Finite := by
    refine Set.finite_coe_iff.1 (Nat.finite_of_card_ne_zero ?_)
    rw [hcard]
    omega
  let f : Fin pts.length → Set (Fin 3 → ℝ) := fun i => translates (Uᵀ)⁻¹ (pts.get i).1
  have hf : Function.Injective f := by
    intro i j hij
    obtain ⟨l, -, hl⟩ := h.one _ (h.grid _ (List.get_mem pts i))
    obtain ⟨m, hm⟩ := translates_eq_iff.1 hij
    exact (hl i ⟨1, h1, 0, by rw [one_mulVec, intVec_zero, mulVec_zero, add_zero]⟩).trans
      (hl j ⟨1, h1, m, by rw [one_mulVec]; exact hm⟩).symm
  have hsub : Set.range f ⊆ classes (Uᵀ)⁻¹ K off := by
    rintro _ ⟨i, rfl⟩
    exact ⟨_, h.grid _ (List.get_mem pts i), rfl⟩
  have hle := Set.ncard_le_ncard hsub hfin
  rw [← Nat.card_coe_set_eq (classes _ _ _), hcard, Set.ncard_range_of_injective hf, Nat.card_eq_fintype_card, Fintype.card_fin] at hle
  rw [Int.abs_eq_natAbs] at m2
  omega

/-- A library that reduces the grids and counts irreducible points by groups of symmetries does not count too many. -/
theorem notMore_counts {equal : ℚ → ℚ → ℚ → Bool} {U : RMat ℚ} {eps rho : ℚ} {r : IdCell}
    {lib : Lib (Matrix (Fin 3) (Fin 3) ℚ) Offset} (h : Recognised equal U eps rho r) (hid : r.id ∉ [31, 44]) (hl : Reduces U r lib)
    {ops ops0 : Set (Matrix (Fin 3) (Fin 3) ℝ)} (h1 : 1 ∈ ops) (h0 : 1 ∈ ops0) (hc : CountsShifted (realCell U) ops ops0 lib) :
    NotMore r.id (canonC r.id) lib := by
  have hU := h.real_det
  refine ⟨fun n H hn hH o m hm => ?_, fun n H hn hH o m hm => ?_⟩
  · obtain ⟨W, hW, hg⟩ := hl.geom H (by rw [hH.2.1]; omega)
    have hs := gridOf_symmetric h H (by rw [hH.2.1]; omega) (by rw [h.classSym hid]; exact hH.2.2) W hW
    rw [← hg, hH.2.1, abs_of_pos (by omega)] at hs
    rcases hm with hm | hm
    · obtain ⟨pts, p1, rfl⟩ := hc.irr _ _ _ _ hs hm
      exact irreducible_le hU hn hs h1 p1
    · obtain ⟨pts, p1, rfl⟩ := hc.irrDefault _ _ _ _ hs hm
      exact irreducible_le hU hn hs h0 p1
  · have hs := gridOf_symmetric h H (by rw [hH.2.1]; omega) (by rw [h.classSym hid]; exact hH.2.2) 1 (by simp)
    rw [castMat_one, Matrix.mul_one, ← hl.grid, hH.2.1, abs_of_pos (by omega)] at hs
    obtain ⟨pts, p1, rfl⟩ := hc.irr _ _ _ _ hs hm
    exact irreducible_le hU hn hs h1 p1

/-- C127: the search with ratios in binary64 returns what it returns with exact ratios, for every cell that is recognised and a
library that counts irreducible points by groups of symmetries. -/
theorem choice_rounded {equal : ℚ → ℚ → ℚ → Bool} {U : RMat ℚ} {eps rho : ℚ} {r : IdCell}
    {lib : Lib (Matrix (Fin 3) (Fin 3) ℚ) Offset} (hb : Binary64 fl) (h : Recognised equal U eps rho r) (hl : Reduces U r lib)
    (hirr : ∀ g o m, lib.irr g o = some m → 1 ≤ m)
    {ops ops0 : Set (Matrix (Fin 3) (Fin 3) ℝ)} (h1 : 1 ∈ ops) (h0 : 1 ∈ ops0) (hc : CountsShifted (realCell U) ops ops0 lib)
    (w : ℤ → ℤ) (hw : w = id ∨ Int32 w) (offsets : List Offset) (min_kpts : Bool) (fuel s_range : ℕ) (kpd root : ℤ)
    (hk : 1 ≤ kpd) (hroot : 0 ≤ root) (hroot' : root ≤ 281) (hfit : IntsFit w (kpd + fuel)) (hlim : kpd + fuel ≤ 2 ^ 26) :
    findGridK (Rounded fl) lib w eps offsets min_kpts root fuel r.id s_range kpd =
      findGrid lib w eps offsets min_kpts root fuel r.id s_range kpd := by
  obtain ⟨k1, k2⟩ := h.id_range
  by_cases ht : r.id ∈ [31, 44]
  · exact choice_rounded_tric lib w eps offsets min_kpts root fuel r.id ht s_range kpd
  have hn := notMore_counts h ht hl h1 h0 hc
  have hred := reduced_canonC r.id k1 k2 ht
  by_cases h3 : r.id ∈ [1, 3, 5]
  · exact choice_rounded_cubic hb lib hirr w hw eps offsets min_kpts fuel r.id h3 _ hred hn s_range kpd root hk hroot hroot'
  · exact choice_rounded_general hb lib hirr w eps offsets min_kpts root fuel r.id k1 k2
      (fun hm => by simp at hm ht h3; omega) _ hred hn s_range kpd hk hfit hlim

/-- With ratios in binary64 the entry chosen still has the smallest exact ratio among those with several grids. -/
theorem findGridK_best (hb : Binary64 fl) (lib : Lib G Off) (hirr : ∀ g o m, lib.irr g o = some m → 1 ≤ m) (w : ℤ → ℤ)
    (eps : ℚ) (offsets : List Off) (root : ℤ) (fuel k : ℕ) (hk1 : 1 ≤ k) (hk2 : k ≤ 44)
    (hk : k ∉ [1, 3, 5, 31, 44]) (Co : IMat) (hCo : reducedCanonical ℚ k = .ok Co) (hle : NotMore k Co lib) (s_range : ℕ)
    (hs : 5 ≤ s_range) (kpd : ℤ) (h1 : 500 < kpd) (hfit : IntsFit w (kpd + fuel)) (hlim : kpd + fuel ≤ 2 ^ 26)
    (e : Entry G Off) (he : findGridK (Rounded fl) lib w eps offsets false root fuel k s_range kpd = .ok e) :
    kpd ≤ e.nt_kpts ∧ e.sel.HNF ∈ SymmetricHNFs (ClassSym k Co.toMat) e.nt_kpts ∧
      ∀ n, kpd ≤ n → n < kpd + s_range → ∀ gen, generatorOf w k = some gen → 1 < (gen n).length →
        ∀ m b, tryHNFs lib.equal eps lib.geom lib.irr lib.irrDefault offsets (gen n) = .ok ⟨m, some b⟩ →
          (e.sel.n_irr : ℚ) / e.nt_kpts ≤ b.n_irr / n := by
  rw [choice_rounded_general hb lib hirr w eps offsets false root fuel k hk1 hk2 hk Co hCo hle s_range kpd (by omega) hfit hlim] at he
  rcases findGrid_general lib hirr w eps offsets false root fuel k hk1 hk2 hk Co hCo s_range hs kpd (by omega) hfit with
    hr | ⟨e', he', a1, a2, -, -, -, -, a3⟩
  · rw [hr] at he
    cases he
  · rw [he'] at he
    cases he
    refine ⟨a1, a2, fun n hn hn' gen hg hl m b hb => ?_⟩
    have := a3 n hn hn' gen hg hl m b hb
    unfold Preferred at this
    rw [if_pos ⟨rfl, h1⟩] at this
    have p1 : (0 : ℚ) < e.nt_kpts := by exact_mod_cast (by omega : 0 < e.nt_kpts)
    have p2 : (0 : ℚ) < n := by exact_mod_cast (by omega : 0 < n)
    rw [div_le_div_iff₀ p1 p2]
    exact_mod_cast this

/-! ## Beyond the limit, and an example -/

/-- An entry with so many points, of which so many are irreducible. -/
def countedEntry (n_irr : ℕ) (nt_kpts : ℤ) : Entry Unit Unit := ⟨⟨(), 1, (), n_irr⟩, nt_kpts⟩

/-- With a little more than 2^27 points the quotients may be rounded to the same number: then the first entry is chosen, although
the second has the smaller ratio.  (The limit is not far from the best possible.) -/
theorem choice_limit : chooseK (Rounded roundNearest) false 134217728 [countedEntry 134217728 134217729, countedEntry 134217727 134217728] =
      .ok (countedEntry 134217728 134217729) ∧
    choose false 134217728 [countedEntry 134217728 134217729, countedEntry 134217727 134217728] =
      .ok (countedEntry 134217727 134217728) ∧
    ratio (countedEntry 134217727 134217728) < ratio (countedEntry 134217728 134217729) := by
  have e1 : lt (ratioK (countedEntry 134217727 134217728) : Rounded roundNearest) (ratioK (countedEntry 134217728 134217729)) = false := by
    decide +kernel
  have e2 : ratio (countedEntry 134217727 134217728) < ratio (countedEntry 134217728 134217729) := by
    norm_num [ratio, countedEntry]
  refine ⟨?_, ?_, e2⟩
  · simp [chooseK, minFirstK, e1]
  · simp [choose, minFirst, e2]

/-- A library for the example: half of the points are irreducible, rounded up to more. -/
def halfLib : Lib Mat3 Bool where
  equal := sampleEqual
  geom H := ⟨H, (H 0 0 : ℚ), true⟩
  gridOf := id
  irr g _ := some (g.det.toNat / 2 + 1)
  irrDefault g _ := some (g.det.toNat / 2 + 1)

/-- The hypotheses are met: hexagonal lattice (class 12), 501 points requested, 32-bit integers. -/
example : ∃ e, findGridK (Rounded roundNearest) halfLib wrap32 (1 / 1000) [true, false] false 7 41 12 10 501 = .ok e ∧
    501 ≤ e.nt_kpts ∧ ∀ n : ℤ, 501 ≤ n → n < 501 + (10 : ℕ) → ∀ gen, generatorOf wrap32 12 = some gen → 1 < (gen n).length →
      ∀ m b, tryHNFs halfLib.equal (1 / 1000) halfLib.geom halfLib.irr halfLib.irrDefault [true, false] (gen n) = .ok ⟨m, some b⟩ →
        (e.sel.n_irr : ℚ) / e.nt_kpts ≤ b.n_irr / n := by
  have hirr : ∀ g o m, halfLib.irr g o = some m → 1 ≤ m := fun g o m h => by
    simp only [halfLib, Option.some.injEq] at h
    omega
  have hle : NotMore 12 (canonC 12) halfLib := by
    constructor
    · intro n H hn hH o m hm
      simp only [halfLib, Option.some.injEq, or_self] at hm
      rw [hH.2.1] at hm
      omega
    · intro n H hn hH o m hm
      simp only [halfLib, Option.some.injEq, id] at hm
      rw [hH.2.1] at hm
      omega
  have hfit : IntsFit wrap32 (501 + (41 : ℕ)) := .inr ⟨wrap32_int32, by norm_num⟩
  obtain ⟨e, he, -⟩ := findGrid_ends halfLib hirr wrap32 (1 / 1000) [true, false] (by simp)
    (fun g o _ => by simp [halfLib]) false 7 41 12 (by norm_num) (by norm_num) (by decide) (canonC 12)
    reduced_12 10 (by norm_num) 501 (by norm_num) (.inr ⟨wrap32_int32, by norm_num⟩) (by norm_num) (by
      intro n hn hn' _
      obtain ⟨gen, -, good⟩ := generatorOf_good wrap32 12 (by norm_num) (by norm_num) (by decide) reduced_12
      have hf : IntsFit wrap32 n := .inr ⟨wrap32_int32, by push_cast at hn'; omega⟩
      obtain ⟨H, hH⟩ := List.exists_mem_of_ne_nil _ (good.one n (by omega) hf)
      have hH' := ((good.lists n hf).2 H).1 hH
      have hpos : (1 : ℤ) ≤ H 0 0 := by have := hH'.1.pos0; omega
      have hq : (1 : ℚ) ≤ (H 0 0 : ℚ) := by exact_mod_cast hpos
      refine ⟨H, hH', rfl, ?_⟩
      simp only [halfLib]
      linarith)
  rw [← choice_rounded_general roundNearest_binary64 halfLib hirr wrap32 (1 / 1000) [true, false] false 7 41 12 (by norm_num)
    (by norm_num) (by decide) (canonC 12) reduced_12 hle 10 501 (by norm_num) hfit (by norm_num)] at he
  obtain ⟨a1, -, a2⟩ := findGridK_best roundNearest_binary64 halfLib hirr wrap32 (1 / 1000) [true, false] 7 41 12 (by norm_num)
    (by norm_num) (by decide) (canonC 12) reduced_12 hle 10 (by norm_num) 501 (by norm_num) hfit (by norm_num) e he
  exact ⟨e, he, a1, a2⟩

/-- The tetragonal lattice of C107, 1000 points requested, with a library that counts the irreducible points by all symmetries of the
lattice. -/
example {mink : Matrix (Fin 3) (Fin 3) ℚ → Matrix (Fin 3) (Fin 3) ℚ} {sqrt : ℚ → ℚ} (hm : Minkowski mink) (hs : SqrtOk sqrt)
    (offsets : List Offset) :
    findGridK (Rounded roundNearest) ((shiftEnv mink sqrt).lib (cellOf tetData.columns) [] [] 0 (8589935 / 2 ^ 33) tetId) wrap32
        (8589935 / 2 ^ 33) offsets false 9 1000 tetId.id 25 1000 =
      findGrid ((shiftEnv mink sqrt).lib (cellOf tetData.columns) [] [] 0 (8589935 / 2 ^ 33) tetId) wrap32
        (8589935 / 2 ^ 33) offsets false 9 1000 tetId.id 25 1000 := by
  have hb := shiftEnv_built hm hs (cellOf tetData.columns) (8589935 / 2 ^ 33) tetId
  have h1 := (latticeGroup_all tet_recognised.real_det).one
  exact choice_rounded roundNearest_binary64 tet_recognised ((hb.right tet_recognised).reduces [] [] 0) (hb.irr [] [] 0) h1 h1
    (shiftEnv_counts tet_recognised.real_det ..) wrap32 (.inr wrap32_int32) offsets false 1000 25 1000 9 (by norm_num) (by norm_num)
    (by norm_num) (.inr ⟨wrap32_int32, by norm_num⟩) (by norm_num)

end AutoGR.Fortran
