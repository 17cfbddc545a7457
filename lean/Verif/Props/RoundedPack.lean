import Verif.Lemmas.RoundedPack
import Verif.Props.RoundedInput
import Verif.Props.RoundedGrid
import Verif.Props.FortranPack

/-!
# C126: the packing fraction in floating point

`compare_grids` computes the distance between the points of a grid and the share of space that its balls fill in floating
point, from a reduced basis that has errors.  Both are right up to a factor close to one, so the test against `0.3` is right
except for grids that are very close to `0.3`.
-/

namespace AutoGR.Fortran

open Arith Matrix
open AutoGR.Spec

section
variable {K : Type} [Arith K] {val : K → ℝ} {u : ℝ} {sqrt : K → K} {G : Matrix (Fin 3) (Fin 3) K}
  {G0 : Matrix (Fin 3) (Fin 3) ℝ} {γ s ℓ ρ σ : ℝ}

/-- C126: the distance that is computed is the smallest distance between points of the grid, up to a factor. -/
theorem rmin_pack_rounded (hu : RelativeOps K val u) (hc : Compares K val) (hr : RootRight val u sqrt)
    (hG : CloseTo val G G0 γ s) (hsh : HasShortest G0) (hℓ : 0 < ℓ) (hmin : ∀ v : Fin 3 → ℤ, v ≠ 0 → ℓ ≤ gridLength G0 v)
    (hσ : 1 ≤ σ) (hlen : LengthRight γ ℓ σ) :
    ∃ v : Fin 3 → ℤ, v ≠ 0 ∧ (∀ w : Fin 3 → ℤ, w ≠ 0 → gridLength G0 v ≤ gridLength G0 w) ∧
      gridLength G0 v / ((1 / (1 - u)) ^ 3 * σ) ≤ val (tempRminK sqrt G) ∧
      val (tempRminK sqrt G) ≤ gridLength G0 v * ((1 / (1 - u)) ^ 3 * σ) := by
  obtain ⟨j, hj⟩ := hsh
  have hle := hmin _ (single_ne_zero j)
  have hlen' : LengthRight γ (gridLength G0 (Pi.single j 1)) σ := by
    refine le_trans hlen (mul_le_mul_of_nonneg_right hle ?_)
    rw [sub_nonneg, div_le_one (by linarith)]
    exact hσ
  have w := tempRminK_within hu hc hr hG (lt_of_lt_of_le hℓ hle) hσ hlen' rfl fun i => hj _ (single_ne_zero i)
  exact ⟨_, single_ne_zero j, hj, w.low, w.high⟩

/-- C126: for a right-handed reduced basis, computed with small errors, that has a shortest vector of its grid among its
vectors, the grid is taken if its balls fill the share `0.3 f` of space, and only if they fill `0.3 / f`, where `f` is close
to one. -/
theorem packed_rounded (hu : RelativeOps K val u) (hu' : 1 / 2 ^ 60 ≤ u) (hc : Compares K val) (hr : RootRight val u sqrt)
    (hG : CloseTo val G G0 γ s) (hdet : 0 < G0.det) (hsh : HasShortest G0) (hℓ : 0 < ℓ)
    (hmin : ∀ v : Fin 3 → ℤ, v ≠ 0 → ℓ ≤ gridLength G0 v) (hσ : 1 ≤ σ) (hlen : LengthRight γ ℓ σ) (hρ : 1 ≤ ρ)
    (hcell : CellRight u γ s G0.det ρ) :
    (PackedAtLeast (3 / 10 * packFactor u ρ σ) G0 → packedK sqrt G = true) ∧
      (packedK sqrt G = true → PackedAtLeast (3 / 10 / packFactor u ρ σ) G0) := by
  obtain ⟨v, hv, hv2, l1, l2⟩ := rmin_pack_rounded hu hc hr hG hsh hℓ hmin hσ hlen
  have hu0 := hu.nonneg
  have hw := one_le_w hu.nonneg hu.lt_one
  obtain ⟨l, hl⟩ : ∃ l, l = gridLength G0 v := ⟨_, rfl⟩
  rw [← hl] at l1 l2
  have hl0 : 0 < l := by rw [hl]; exact lt_of_lt_of_le hℓ (hmin v hv)
  have hrm : Within val (tempRminK sqrt G) l ((1 / (1 - u)) ^ 3 * σ) :=
    ⟨hl0, by nlinarith [one_le_pow₀ hw (n := 3)], l1, l2⟩
  have hd : Within val (determinantK G) G0.det ρ :=
    Within.of_err hdet hρ (determinantK_signed hu (nearMat_of_close hG)) hcell
  have hf := (ball_within hu hu' hrm).div hu hd
  have hlit : Within val (ofRat (3 / 10) : K) (3 / 10) (1 / (1 - u)) :=
    Within.of_read hu.nonneg hu.lt_one (by norm_num) (by have := hu.ofRat (3 / 10); push_cast at this; exact this)
  set f := packFactor u ρ σ with hfdef
  set F := Real.pi / 6 * l ^ 3 / G0.det with hF
  have hF0 : 0 < F := by have := Real.pi_pos; positivity
  set a := ((1 / (1 - u)) ^ 3 * σ) ^ 3 * (1 / (1 - u)) ^ 10 * ρ * (1 / (1 - u)) with ha
  set b := 1 / (1 - u) with hb
  have hff : f = a * b := by
    rw [hfdef, ha]
    unfold packFactor
    rw [← hb]
    ring
  have hbp : 0 < b := by linarith
  have hap : 0 < a := by linarith [hf.one]
  have hwlo : 3 / 10 / b ≤ val (ofRat (3 / 10) : K) := hlit.low
  have hwhi : val (ofRat (3 / 10) : K) ≤ 3 / 10 * b := hlit.high
  have hle : packedK sqrt G = true ↔ val (ofRat (3 / 10) : K) ≤ val (pacFracK sqrt G) := hc _ _
  have hlo : F / a ≤ val (pacFracK sqrt G) := hf.low
  have hhi : val (pacFracK sqrt G) ≤ F * a := hf.high
  have e : G0.det * F = Real.pi / 6 * l ^ 3 := by
    rw [hF]
    field_simp
  constructor
  · intro h
    have h1 := h v hv
    rw [← hl, abs_of_pos hdet, ← e, hff, mul_comm _ G0.det, mul_le_mul_iff_right₀ hdet] at h1
    rw [hle]
    refine hwhi.trans (le_trans ?_ hlo)
    rw [le_div_iff₀ hap]
    linarith
  · intro h v' hv'
    rw [hle] at h
    have h1 := hwlo.trans (h.trans hhi)
    rw [div_le_iff₀ hbp] at h1
    have h2 : l ^ 3 ≤ gridLength G0 v' ^ 3 := pow_le_pow_left₀ hl0.le (by rw [hl]; exact hv2 v' hv') 3
    have h3 : Real.pi / 6 * l ^ 3 ≤ Real.pi / 6 * gridLength G0 v' ^ 3 :=
      mul_le_mul_of_nonneg_left h2 (by have := Real.pi_pos; positivity)
    refine le_trans ?_ h3
    rw [abs_of_pos hdet, ← e, mul_comm, mul_le_mul_iff_right₀ hdet, hff, div_le_iff₀ (by positivity)]
    linarith

/-- C126: a left-handed basis is never taken. -/
theorem left_handed_rounded (hu : RelativeOps K val u) (hu' : 1 / 2 ^ 60 ≤ u) (hc : Compares K val)
    (hr : RootRight val u sqrt) (hG : CloseTo val G G0 γ s) (hdet : G0.det < 0) (hsh : HasShortest G0) (hℓ : 0 < ℓ)
    (hmin : ∀ v : Fin 3 → ℤ, v ≠ 0 → ℓ ≤ gridLength G0 v) (hσ : 1 ≤ σ) (hlen : LengthRight γ ℓ σ) (hρ : 1 ≤ ρ)
    (hcell : CellRight u γ s |G0.det| ρ) : packedK sqrt G = false := by
  obtain ⟨v, hv, hv2, l1, l2⟩ := rmin_pack_rounded hu hc hr hG hsh hℓ hmin hσ hlen
  have hw := one_le_w hu.nonneg hu.lt_one
  have hrm : Within val (tempRminK sqrt G) (gridLength G0 v) ((1 / (1 - u)) ^ 3 * σ) :=
    ⟨lt_of_lt_of_le hℓ (hmin v hv), by nlinarith [one_le_pow₀ hw (n := 3)], l1, l2⟩
  have hb := ball_within hu hu' hrm
  have hpos := lt_of_lt_of_le (div_pos hb.pos (lt_of_lt_of_le one_pos hb.one)) hb.low
  have hneg : val (determinantK G) < 0 := by
    have h1 := (abs_le.1 ((determinantK_signed hu (nearMat_of_close hG)).trans hcell)).2
    rw [abs_of_neg hdet] at h1
    have h2 : 0 < 1 / ρ := by positivity
    nlinarith
  have hlit := (Within.of_read (val := val) (x := (ofRat (3 / 10) : K)) hu.nonneg hu.lt_one (x0 := 3 / 10) (by norm_num)
    (by have := hu.ofRat (3 / 10); push_cast at this; exact this)).low
  have hlit0 : 0 < val (ofRat (3 / 10) : K) :=
    lt_of_lt_of_le (div_pos (by norm_num) (lt_of_lt_of_le one_pos hw)) hlit
  rw [Bool.eq_false_iff]
  intro h
  have h1 : val (ofRat (3 / 10) : K) ≤ val (pacFracK sqrt G) := (hc _ _).1 h
  have h2 := hu.div (div (mul (mul (ofInt 4) (ofRat piLit)) (cubeK (div (tempRminK sqrt G) (ofInt 2)))) (ofInt 3))
    (determinantK G)
  have h3 := div_neg_of_pos_of_neg hpos hneg
  rw [abs_of_neg h3] at h2
  have h4 := (abs_le.1 h2).2
  have h5 := hu.lt_one
  have h6 : val (pacFracK sqrt G) = val (div (div (mul (mul (ofInt 4) (ofRat piLit))
    (cubeK (div (tempRminK sqrt G) (ofInt 2)))) (ofInt 3)) (determinantK G)) := rfl
  nlinarith

end

theorem compares_rat : Compares ℚ (fun q : ℚ => (q : ℝ)) := fun x y => by
  show decide (x ≤ y) = true ↔ _
  rw [decide_eq_true_eq, Rat.cast_le]

theorem compares_rounded {fl : ℚ → ℚ} : Compares (Rounded fl) (fun x => (x.q : ℝ)) := fun x y => by
  show decide (x.q ≤ y.q) = true ↔ _
  rw [decide_eq_true_eq, Rat.cast_le]

/-- In exact arithmetic this is the model of C96. -/
theorem packedK_exact (sqrt : ℚ → ℚ) (G : Matrix (Fin 3) (Fin 3) ℚ) :
    tempRminK sqrt G = (compareGeom sqrt G).rmin ∧ packedK sqrt G = (compareGeom sqrt G).packed := by
  have hd : determinantK G = G.det := by
    rw [det_fin_three]
    show G 0 0 * (G 1 1 * G 2 2 - G 1 2 * G 2 1) - G 0 1 * (G 1 0 * G 2 2 - G 1 2 * G 2 0) +
      G 0 2 * (G 1 0 * G 2 1 - G 1 1 * G 2 0) = _
    ring
  have hn (j : Fin 3) : normsK sqrt G j = sqrt (∑ i, G i j * G i j) := by
    rw [Fin.sum_univ_three]
    rfl
  have hm (x y : ℚ) : minK x y = min x y := by
    unfold minK
    show (if decide (x ≤ y) = true then x else y) = _
    rw [min_def]
    simp only [decide_eq_true_eq]
  have hr : tempRminK sqrt G = (compareGeom sqrt G).rmin := by
    unfold tempRminK
    rw [hm, hm, hn, hn, hn]
    rfl
  refine ⟨hr, ?_⟩
  have e : (compareGeom sqrt G).packed =
    decide (3 / 10 ≤ 4 * piLit * ((compareGeom sqrt G).rmin / 2) ^ 3 / 3 / G.det) := rfl
  unfold packedK pacFracK
  rw [hd, hr, e]
  generalize (compareGeom sqrt G).rmin = R
  show decide ((3 / 10 : ℚ) ≤ ((4 : ℤ) : ℚ) * piLit * (R / ((2 : ℤ) : ℚ) * (R / ((2 : ℤ) : ℚ)) * (R / ((2 : ℤ) : ℚ))) /
    ((3 : ℤ) : ℚ) / G.det) = _
  congr 2
  push_cast
  ring

/-- C126, for the search: for a lattice that is neither cubic nor triclinic, the grid that `find_grid` returns fills `0.3 / f`
of space, if the library tests the grids as `compare_grids` does. -/
theorem find_grid_packed_rounded {fl : ℚ → ℚ} (hfl : Binary64 fl) {sqrt : Rounded fl → Rounded fl}
    (hr : RootRight (fun x : Rounded fl => (x.q : ℝ)) (1 / 2 ^ 53) sqrt) {Off : Type}
    (lib : Lib (Matrix (Fin 3) (Fin 3) (Rounded fl)) Off)
    (hlib : ∀ H, (lib.geom H).packed = true → packedK sqrt (lib.geom H).grid = true)
    (hirr : ∀ g o m, lib.irr g o = some m → 1 ≤ m) (wr : ℤ → ℤ) (tol : ℚ) (offsets : List Off) (min_kpts : Bool) (root : ℤ)
    (fuel k : ℕ) (hk1 : 1 ≤ k) (hk2 : k ≤ 44) (hk : k ∉ [1, 3, 5, 31, 44]) (s_range : ℕ) (hs : 5 ≤ s_range) (kpd : ℤ)
    (h1 : 1 ≤ kpd) (hfit : IntsFit wr (kpd + fuel)) {e : Entry (Matrix (Fin 3) (Fin 3) (Rounded fl)) Off}
    (he : findGrid lib wr tol offsets min_kpts root fuel k s_range kpd = .ok e)
    {G0 : Matrix (Fin 3) (Fin 3) ℝ} {γ s ℓ ρ σ : ℝ} (hG : CloseTo (fun x : Rounded fl => (x.q : ℝ)) e.sel.grid G0 γ s)
    (hdet : 0 < G0.det) (hsh : HasShortest G0) (hℓ : 0 < ℓ) (hmin : ∀ v : Fin 3 → ℤ, v ≠ 0 → ℓ ≤ gridLength G0 v)
    (hσ : 1 ≤ σ) (hlen : LengthRight γ ℓ σ) (hρ : 1 ≤ ρ) (hcell : CellRight (1 / 2 ^ 53) γ s G0.det ρ) :
    PackedAtLeast (3 / 10 / packFactor (1 / 2 ^ 53) ρ σ) G0 := by
  have hk' : k ∉ [31, 44] := fun hm => hk (by simp at hm ⊢; omega)
  rcases findGrid_general lib hirr wr tol offsets min_kpts root fuel k hk1 hk2 hk _ (reduced_canonC k hk1 hk2 hk')
    s_range hs kpd h1 hfit with hrun | ⟨e', he', -, -, a3, a4, -⟩
  · rw [hrun] at he
    cases he
  · rw [he'] at he
    cases he
    refine (packed_rounded (relativeOps_rounded hfl) (by norm_num) compares_rounded hr hG hdet hsh hℓ hmin hσ hlen hρ
      hcell).2 ?_
    rw [a3]
    exact hlib _ a4

/-! ## The hypotheses are met -/

/-- There is such a square root. -/
theorem root_exists (fl : ℚ → ℚ) :
    ∃ sqrt : Rounded fl → Rounded fl, RootRight (fun x : Rounded fl => (x.q : ℝ)) (1 / 2 ^ 53) sqrt := by
  have key : ∀ x : Rounded fl, ∃ q : Rounded fl, 0 ≤ (x.q : ℝ) → |(q.q : ℝ) - √(x.q : ℝ)| ≤ 1 / 2 ^ 53 * √(x.q : ℝ) := by
    intro x
    by_cases hx : 0 < (x.q : ℝ)
    · have h0 : 0 < √(x.q : ℝ) := Real.sqrt_pos.2 hx
      obtain ⟨q, h1, h2⟩ := exists_rat_btwn (show (1 - 1 / 2 ^ 53) * √(x.q : ℝ) < √(x.q : ℝ) by
        have : (0 : ℝ) < 1 / 2 ^ 53 := by norm_num
        nlinarith)
      exact ⟨⟨q⟩, fun _ => abs_le.2 ⟨by norm_num at h1 ⊢; linarith, by norm_num at h2 ⊢; linarith⟩⟩
    · refine ⟨⟨0⟩, fun h => ?_⟩
      have : (x.q : ℝ) = 0 := le_antisymm (not_lt.1 hx) h
      rw [this]
      simp
  choose sqrt h using key
  exact ⟨sqrt, h⟩

/-- A cubic grid with a spacing of one third. -/
def thirdGrid : Matrix (Fin 3) (Fin 3) (Rounded roundNearest) := fun i j =>
  if i = j then div (ofInt 1) (ofInt 3) else ofInt 0

theorem thirdGrid_close : CloseTo (fun x : Rounded roundNearest => (x.q : ℝ)) thirdGrid ((1 / 3 : ℝ) • 1) (1 / 10 ^ 16)
    (1 / 3) := by
  constructor
  · intro i j
    have key : ∀ i j : Fin 3, |(thirdGrid i j).q - (if i = j then 1 / 3 else 0)| ≤ 1 / 10 ^ 16 := by decide +kernel
    have := (Rat.cast_le (K := ℝ)).2 (key i j)
    by_cases h : i = j
    · rw [if_pos h] at this
      push_cast at this
      simpa [h, Matrix.smul_apply, Matrix.one_apply] using this
    · rw [if_neg h] at this
      push_cast at this
      simpa [h, Matrix.smul_apply, Matrix.one_apply] using this
  · intro i j
    by_cases h : i = j <;> simp [h, Matrix.smul_apply]

theorem third_length (v : Fin 3 → ℤ) :
    gridLength ((1 / 3 : ℝ) • 1) v = √(((v 0 : ℝ) ^ 2 + (v 1 : ℝ) ^ 2 + (v 2 : ℝ) ^ 2) / 9) := by
  unfold gridLength
  congr 1
  rw [Fin.sum_univ_three, smul_mulVec, one_mulVec]
  simp only [Pi.smul_apply, smul_eq_mul]
  ring

theorem third_shortest (v : Fin 3 → ℤ) (hv : v ≠ 0) : 1 / 3 ≤ gridLength ((1 / 3 : ℝ) • 1) v := by
  rw [third_length, Real.le_sqrt' (by norm_num)]
  have : (1 : ℤ) ≤ v 0 ^ 2 + v 1 ^ 2 + v 2 ^ 2 := by
    by_contra hn
    have a := sq_nonneg (v 0)
    have b := sq_nonneg (v 1)
    have c := sq_nonneg (v 2)
    apply hv
    funext i
    fin_cases i
    · exact pow_eq_zero_iff (two_ne_zero) |>.1 (by show v 0 ^ 2 = 0; omega)
    · exact pow_eq_zero_iff (two_ne_zero) |>.1 (by show v 1 ^ 2 = 0; omega)
    · exact pow_eq_zero_iff (two_ne_zero) |>.1 (by show v 2 ^ 2 = 0; omega)
  have : (1 : ℝ) ≤ (v 0 : ℝ) ^ 2 + (v 1 : ℝ) ^ 2 + (v 2 : ℝ) ^ 2 := by exact_mod_cast this
  linarith

theorem third_hasShortest : HasShortest ((1 / 3 : ℝ) • 1) := by
  refine ⟨0, fun v hv => le_trans (le_of_eq ?_) (third_shortest v hv)⟩
  rw [third_length]
  simp
  rw [show (9 : ℝ) = 3 ^ 2 by norm_num, Real.sqrt_sq (by norm_num)]

theorem third_det : ((1 / 3 : ℝ) • (1 : Matrix (Fin 3) (Fin 3) ℝ)).det = 1 / 27 := by
  rw [det_smul, Fintype.card_fin, Matrix.det_one]
  norm_num

theorem third_lengthRight : LengthRight (1 / 10 ^ 16) (1 / 3) (1 + 1 / 10 ^ 14) := by
  unfold LengthRight
  norm_num

theorem third_cellRight : CellRight (1 / 2 ^ 53) (1 / 10 ^ 16) (1 / 3) (1 / 27) (1 + 1 / 10 ^ 13) := by
  unfold CellRight
  norm_num

theorem third_factor : packFactor (1 / 2 ^ 53) (1 + 1 / 10 ^ 13) (1 + 1 / 10 ^ 14) ≤ 1 + 1 / 10 ^ 12 := by
  unfold packFactor
  norm_num

/-- The grid is taken. -/
theorem third_packed {sqrt : Rounded roundNearest → Rounded roundNearest}
    (hr : RootRight (fun x : Rounded roundNearest => (x.q : ℝ)) (1 / 2 ^ 53) sqrt) : packedK sqrt thirdGrid = true := by
  refine (packed_rounded (relativeOps_rounded roundNearest_binary64) (by norm_num) compares_rounded hr thirdGrid_close
    (by rw [third_det]; norm_num) third_hasShortest (ℓ := 1 / 3) (by norm_num) third_shortest (σ := 1 + 1 / 10 ^ 14) (by norm_num)
    third_lengthRight (ρ := 1 + 1 / 10 ^ 13) (by norm_num) (by rw [third_det]; exact third_cellRight)).1 ?_
  intro v hv
  have h1 : ((1 / 3 : ℝ)) ^ 3 ≤ gridLength ((1 / 3 : ℝ) • 1) v ^ 3 :=
    pow_le_pow_left₀ (by norm_num) (third_shortest v hv) 3
  have hpi := Real.pi_gt_d2
  have hf := third_factor
  rw [third_det, abs_of_pos (by norm_num)]
  norm_num at h1 hf hpi ⊢
  nlinarith

/-- The same grid with a left-handed basis is not taken, although it is the same set of points. -/
example {sqrt : Rounded roundNearest → Rounded roundNearest}
    (hr : RootRight (fun x : Rounded roundNearest => (x.q : ℝ)) (1 / 2 ^ 53) sqrt) :
    packedK sqrt (fun i j => neg (thirdGrid i j)) = false := by
  have hlen (v : Fin 3 → ℤ) : gridLength (-((1 / 3 : ℝ) • 1)) v = gridLength ((1 / 3 : ℝ) • 1) v := by
    unfold gridLength
    simp [neg_mulVec]
  have hd : (-((1 / 3 : ℝ) • (1 : Matrix (Fin 3) (Fin 3) ℝ))).det = -(1 / 27) := by
    rw [det_neg, third_det, Fintype.card_fin]
    norm_num
  refine left_handed_rounded (relativeOps_rounded roundNearest_binary64) (by norm_num) compares_rounded hr
    (G0 := -((1 / 3 : ℝ) • 1)) (γ := 1 / 10 ^ 16) (s := 1 / 3) ⟨fun i j => ?_, fun i j => ?_⟩ (by rw [hd]; norm_num) ?_
    (ℓ := 1 / 3) (by norm_num) (fun v hv => by rw [hlen]; exact third_shortest v hv) (σ := 1 + 1 / 10 ^ 14) (by norm_num)
    third_lengthRight (ρ := 1 + 1 / 10 ^ 13) (by norm_num) (by rw [hd, abs_neg, abs_of_pos (by norm_num)]; exact third_cellRight)
  · have := thirdGrid_close.err i j
    rw [← abs_neg] at this
    refine le_trans (le_of_eq ?_) this
    congr 1
    show (((-(thirdGrid i j).q : ℚ)) : ℝ) - _ = _
    rw [Matrix.neg_apply]
    push_cast
    ring
  · rw [Matrix.neg_apply, abs_neg]
    exact thirdGrid_close.size i j
  · obtain ⟨j, hj⟩ := third_hasShortest
    exact ⟨j, fun v hv => by rw [hlen, hlen]; exact hj v hv⟩

/-- The distance that is computed. -/
example {sqrt : Rounded roundNearest → Rounded roundNearest}
    (hr : RootRight (fun x : Rounded roundNearest => (x.q : ℝ)) (1 / 2 ^ 53) sqrt) :
    ∃ v : Fin 3 → ℤ, v ≠ 0 ∧ ((tempRminK sqrt thirdGrid).q : ℝ) ≤
      gridLength ((1 / 3 : ℝ) • 1) v * ((1 / (1 - 1 / 2 ^ 53)) ^ 3 * (1 + 1 / 10 ^ 14)) := by
  obtain ⟨v, h1, -, -, h2⟩ := rmin_pack_rounded (relativeOps_rounded roundNearest_binary64) compares_rounded hr
    thirdGrid_close third_hasShortest (ℓ := 1 / 3) (by norm_num) third_shortest (by norm_num) third_lengthRight
  exact ⟨v, h1, h2⟩

def thirdLib : Lib (Matrix (Fin 3) (Fin 3) (Rounded roundNearest)) Unit where
  equal := fun a b => decide (a = b)
  geom := fun _ => ⟨thirdGrid, 1, true⟩
  gridOf := fun _ => thirdGrid
  irr := fun _ _ => some 1
  irrDefault := fun _ _ => some 1

/-- A search in which this grid is found. -/
example {sqrt : Rounded roundNearest → Rounded roundNearest}
    (hr : RootRight (fun x : Rounded roundNearest => (x.q : ℝ)) (1 / 2 ^ 53) sqrt) :
    ∃ e, findGrid thirdLib wrap32 (1 / 1000) [()] false 1 60 12 5 3 = .ok e ∧
      PackedAtLeast (3 / 10 / packFactor (1 / 2 ^ 53) (1 + 1 / 10 ^ 13) (1 + 1 / 10 ^ 14)) ((1 / 3 : ℝ) • 1) := by
  have hr' : (match findGrid thirdLib wrap32 (1 / 1000) [()] false 1 60 12 5 3 with
    | .ok _ => true
    | .error _ => false) = true := by decide +kernel
  cases he : findGrid thirdLib wrap32 (1 / 1000) [()] false 1 60 12 5 3 with
  | error _ => rw [he] at hr'; cases hr'
  | ok e =>
    have hfit : IntsFit wrap32 (3 + (60 : ℕ)) := .inr ⟨wrap32_int32, by norm_num⟩
    have hirr : ∀ g o m, thirdLib.irr g o = some m → 1 ≤ m := fun _ _ _ h => by cases h; exact le_rfl
    have hg : e.sel.grid = thirdGrid := by
      rcases findGrid_general thirdLib hirr wrap32 (1 / 1000) [()] false 1 60 12 (by norm_num) (by norm_num) (by decide) _
        (reduced_canonC 12 (by norm_num) (by norm_num) (by decide)) 5 le_rfl 3 (by norm_num) hfit with
        hrun | ⟨e', he', -, -, a3, -⟩
      · rw [hrun] at he
        cases he
      · rw [he'] at he
        cases he
        exact a3
    refine ⟨e, rfl, find_grid_packed_rounded roundNearest_binary64 hr thirdLib (fun _ _ => third_packed hr) hirr wrap32
      (1 / 1000) [()] false 1 60 12 (by norm_num) (by norm_num) (by decide) 5 le_rfl 3 (by norm_num) hfit he
      (by rw [hg]; exact thirdGrid_close) (by rw [third_det]; norm_num) third_hasShortest (ℓ := 1 / 3) (by norm_num)
      third_shortest (by norm_num) third_lengthRight (by norm_num) (by rw [third_det]; exact third_cellRight)⟩

end AutoGR.Fortran
