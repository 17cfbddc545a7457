import Verif.Lemmas.FortranOutput
import Verif.Lemmas.ReducedMin
import Verif.Lemmas.Packing
import Verif.Props.FortranKgrid
import Mathlib.Tactic.NormNum

/-!
# C97, C98: the file `KPOINTS`
-/

namespace AutoGR.Fortran

open Spec Matrix

/-- Rounding to a nearest integer. -/
def Rounds (rnd : ℚ → ℕ) : Prop := ∀ y : ℚ, 0 ≤ y → |(rnd y : ℚ) - y| ≤ 1 / 2

/-- The coordinates have room in `F15.12` and the weight in `I5`. -/
def Fits (p : (Fin 3 → ℚ) × ℤ) : Prop :=
  (∀ i, -(10 - 1 / 2 / 10 ^ 12) < p.1 i ∧ p.1 i < 100 - 1 / 2 / 10 ^ 12) ∧ -9999 ≤ p.2 ∧ p.2 ≤ 99999

/-- What is read is what was written: the weight, and the coordinates to 12 decimals. -/
def Same (p q : (Fin 3 → ℚ) × ℤ) : Prop := q.2 = p.2 ∧ ∀ i, |q.1 i - p.1 i| ≤ 1 / 2 / 10 ^ 12

section

variable {rnd : ℚ → ℕ} {pad : ℕ} {R : Matrix (Fin 3) (Fin 3) ℚ}

private theorem coord_read (hr : Rounds rnd) {x : ℚ} (h1 : -(10 - 1 / 2 / 10 ^ 12) < x) (h2 : x < 100 - 1 / 2 / 10 ^ 12) :
    ∃ s y, words (editF rnd 15 12 x) = [s] ∧ decOf s = some y ∧ |y - x| ≤ 1 / 2 / 10 ^ 12 := by
  have hy := hr (|x| * 10 ^ 12) (by positivity)
  have key := editF_read (rnd := rnd) (w := 15) (d := 12) (x := x) (by norm_num) (by norm_num)
  generalize rnd (|x| * 10 ^ 12) = m at hy key
  have hm := abs_le.1 hy
  obtain ⟨s, h3, h4⟩ := key (by
    split_ifs with h0
    · have : (m : ℚ) < 10000000000000 := by
        rw [abs_of_neg h0] at hm
        norm_num at hm h1
        linarith [hm.2]
      exact_mod_cast this
    · have : (m : ℚ) < 100000000000000 := by
        rw [abs_of_nonneg (not_lt.1 h0)] at hm
        norm_num at hm h2
        linarith [hm.2]
      exact_mod_cast this)
  refine ⟨s, _, h3, h4, ?_⟩
  rw [abs_le]
  obtain ⟨e1, e2⟩ := hm
  split_ifs with h0
  · rw [abs_of_neg h0] at e1 e2
    constructor <;> norm_num at e1 e2 ⊢ <;> linarith
  · rw [abs_of_nonneg (not_lt.1 h0)] at e1 e2
    constructor <;> norm_num at e1 e2 ⊢ <;> linarith

private theorem coord_stars (hr : Rounds rnd) {x : ℚ} (h : x ≤ -10 ∨ 100 ≤ x) :
    words (editF rnd 15 12 x) = [List.replicate 15 '*'] := by
  have hm := abs_le.1 (hr (|x| * 10 ^ 12) (by positivity))
  refine editF_stars (by norm_num) (by norm_num) ?_
  split_ifs with h0
  · rw [abs_of_neg h0] at hm ⊢
    have : ((10 ^ 13 : ℕ) : ℚ) < (rnd (-x * 10 ^ 12) + 1 : ℕ) := by
      push_cast
      rcases h with h | h
      · norm_num at hm ⊢; linarith
      · linarith
    have : 10 ^ 13 < rnd (-x * 10 ^ 12) + 1 := by exact_mod_cast this
    exact Nat.lt_succ_iff.1 this
  · rw [abs_of_nonneg (not_lt.1 h0)] at hm ⊢
    have : ((10 ^ 14 : ℕ) : ℚ) < (rnd (x * 10 ^ 12) + 1 : ℕ) := by
      push_cast
      rcases h with h | h
      · linarith
      · norm_num at hm ⊢; linarith
    have : 10 ^ 14 < rnd (x * 10 ^ 12) + 1 := by exact_mod_cast this
    exact Nat.lt_succ_iff.1 this

/-- The words of a coordinate are one word. -/
private theorem coord_word (x : ℚ) : ∃ s, words (editF rnd 15 12 x) = [s] := by
  by_cases h : rnd (|x| * 10 ^ 12) < 10 ^ (15 - 1 - if x < 0 then 1 else 0)
  · obtain ⟨s, h, -⟩ := editF_read (rnd := rnd) (w := 15) (d := 12) (x := x) (by norm_num) (by norm_num) h
    exact ⟨s, h⟩
  · exact ⟨_, editF_stars (by norm_num) (by norm_num) (not_lt.1 h)⟩

private theorem weight_word (z : ℤ) : ∃ s, words (editI 5 z) = [s] := by
  by_cases h : z < 10 ^ 5 ∧ -10 ^ (5 - 1) < z
  · obtain ⟨s, h, -⟩ := editI_read (w := 5) (by norm_num) h.1 h.2
    exact ⟨s, h⟩
  · exact ⟨_, editI_stars (by norm_num) (by
      rw [not_and_or, not_lt, not_lt] at h
      exact h)⟩

private theorem words_line (R : Matrix (Fin 3) (Fin 3) ℚ) (k : (Fin 3 → ℚ) × ℤ) : words (pointLine rnd R k) =
    words (editF rnd 15 12 ((R⁻¹ *ᵥ k.1) 0)) ++ (words (editF rnd 15 12 ((R⁻¹ *ᵥ k.1) 1)) ++
      (words (editF rnd 15 12 ((R⁻¹ *ᵥ k.1) 2)) ++ words (editI 5 k.2))) := by
  unfold pointLine
  simp only [words_append]

private theorem back (hR : R.det ≠ 0) (t : Fin 3 → ℚ) : R⁻¹ *ᵥ (R *ᵥ t) = t := by
  rw [mulVec_mulVec, nonsing_inv_mul _ (isUnit_iff_ne_zero.2 hR), one_mulVec]

/-- C97: the file that the program writes for the points with the coordinates and weights `pts` can be read and gives these
coordinates and weights, whenever they have room in their fields. -/
theorem kpoints_says (hr : Rounds rnd) (hR : R.det ≠ 0) (pts : List ((Fin 3 → ℚ) × ℤ)) (hfit : ∀ p ∈ pts, Fits p) :
    ∃ q, KpointsSay (kpointsFile rnd pad R (pts.map fun p => (R *ᵥ p.1, p.2))) q ∧ List.Forall₂ Same pts q := by
  have line : ∀ p, Fits p → ∃ q, pointOf (pointLine rnd R (R *ᵥ p.1, p.2)) = some q ∧ Same p q := by
    intro p hp
    obtain ⟨h1, h2, h3⟩ := hp
    obtain ⟨s0, y0, a0, b0, c0⟩ := coord_read hr (h1 0).1 (h1 0).2
    obtain ⟨s1, y1, a1, b1, c1⟩ := coord_read hr (h1 1).1 (h1 1).2
    obtain ⟨s2, y2, a2, b2, c2⟩ := coord_read hr (h1 2).1 (h1 2).2
    obtain ⟨sw, aw, bw⟩ := editI_read (w := 5) (z := p.2) (by norm_num) (by norm_num; omega) (by norm_num; omega)
    refine ⟨(![y0, y1, y2], p.2), ?_, rfl, ?_⟩
    · unfold pointOf
      rw [words_line]
      dsimp only
      rw [back hR, a0, a1, a2, aw]
      simp [b0, b1, b2, bw]
    · intro i
      fin_cases i
      · exact c0
      · exact c1
      · exact c2
  have lines : ∃ q, ((pts.map fun p => (R *ᵥ p.1, p.2)).map (pointLine rnd R)).map pointOf = q.map some ∧
      List.Forall₂ Same pts q := by
    induction pts with
    | nil => exact ⟨[], rfl, List.Forall₂.nil⟩
    | cons p pts ih =>
      obtain ⟨q, h1, h2⟩ := line p (hfit p (by simp))
      obtain ⟨qs, h3, h4⟩ := ih fun p hp => hfit p (by simp [hp])
      exact ⟨q :: qs, by rw [List.map_cons, List.map_cons, List.map_cons, h1, h3]; rfl, List.Forall₂.cons h2 h4⟩
  obtain ⟨q, h1, h2⟩ := lines
  refine ⟨q, ⟨_, _, _, _, rfl, ⟨decimal pts.length, ?_, ?_⟩, ⟨'F', "ractional".toList, ?_, by decide⟩, h1⟩, h2⟩
  · rw [words_cons, words_pad, List.length_map]
    exact words_one (decimal_ne_nil _) (decimal_ne _ (by decide))
  · rw [intOf_decimal, h2.length_eq]
  · decide

/-- C97, the other direction: a coordinate from 100 on, or down from -10, or a weight of more than five places makes the
file unreadable. -/
theorem kpoints_unreadable (hr : Rounds rnd) (hR : R.det ≠ 0) (pts : List ((Fin 3 → ℚ) × ℤ))
    (h : ∃ p ∈ pts, (∃ i, p.1 i ≤ -10 ∨ 100 ≤ p.1 i) ∨ 100000 ≤ p.2 ∨ p.2 ≤ -10000) :
    ¬ ∃ q, KpointsSay (kpointsFile rnd pad R (pts.map fun p => (R *ᵥ p.1, p.2))) q := by
  rintro ⟨q, title, count, mode, lines, h0, -, -, h1⟩
  obtain ⟨p, hp, hbad⟩ := h
  obtain rfl : lines = (pts.map fun p => (R *ᵥ p.1, p.2)).map (pointLine rnd R) := by
    unfold kpointsFile at h0
    injection h0 with _ h0
    injection h0 with _ h0
    injection h0 with _ h0
    exact h0.symm
  have hnone : pointOf (pointLine rnd R (R *ᵥ p.1, p.2)) = none := by
    obtain ⟨s0, a0⟩ := coord_word (rnd := rnd) (p.1 0)
    obtain ⟨s1, a1⟩ := coord_word (rnd := rnd) (p.1 1)
    obtain ⟨s2, a2⟩ := coord_word (rnd := rnd) (p.1 2)
    obtain ⟨sw, aw⟩ := weight_word p.2
    have hd : decOf s0 = none ∨ decOf s1 = none ∨ decOf s2 = none ∨ intOf sw = none := by
      have star : ∀ {x : ℚ} {s}, words (editF rnd 15 12 x) = [s] → (x ≤ -10 ∨ 100 ≤ x) → decOf s = none := by
        intro x s hs hx
        rw [coord_stars hr hx] at hs
        injection hs with hs _
        rw [← hs]
        exact decOf_stars
      rcases hbad with ⟨i, hi⟩ | hw
      · fin_cases i
        · exact Or.inl (star a0 hi)
        · exact Or.inr (Or.inl (star a1 hi))
        · exact Or.inr (Or.inr (Or.inl (star a2 hi)))
      · refine Or.inr (Or.inr (Or.inr ?_))
        rw [editI_stars (by norm_num) (by norm_num; omega)] at aw
        injection aw with aw _
        rw [← aw]
        exact intOf_stars
    unfold pointOf
    rw [words_line]
    dsimp only
    rw [back hR, a0, a1, a2, aw]
    dsimp only [List.cons_append, List.nil_append]
    rcases hd with h | h | h | h <;> rw [h]
    all_goals (try cases decOf s0) <;> (try cases decOf s1) <;> (try cases decOf s2) <;> rfl
  have hm : none ∈ q.map some := by
    rw [← h1, ← hnone]
    refine List.mem_map_of_mem (List.mem_map_of_mem ?_)
    exact List.mem_map.2 ⟨p, hp, rfl⟩
  obtain ⟨_, _, h⟩ := List.mem_map.1 hm
  exact Option.some_ne_none _ h

end

/-- A rounding. -/
theorem rounds_floor : Rounds fun y => ⌊y + 1 / 2⌋₊ := by
  intro y hy
  have h1 := Nat.floor_le (show 0 ≤ y + 1 / 2 by linarith)
  have h2 := Nat.lt_floor_add_one (y + 1 / 2)
  rw [abs_le]
  constructor <;> linarith

/-- Two points: the hypotheses of `kpoints_says` are met. -/
example : ∀ p ∈ [((![1 / 3, -1 / 4, 5] : Fin 3 → ℚ), (12 : ℤ)), (![0, 0, 0], 1)], Fits p := by
  intro p hp
  simp only [List.mem_cons, List.not_mem_nil, or_false] at hp
  rcases hp with rfl | rfl <;> refine ⟨fun i => ?_, by norm_num, by norm_num⟩ <;> fin_cases i <;> norm_num

end AutoGR.Fortran
