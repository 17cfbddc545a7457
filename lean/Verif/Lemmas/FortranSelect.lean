import Verif.Model.FortranGrid
import Mathlib.Tactic.Linarith

/-! # Lemmas on `grid_selection` -/

namespace AutoGR.Fortran

variable {G Off : Type}

theorem minloc_spec (l : List ℤ) (h : l.any (fun x => decide (0 < x)) = true) :
    ∃ x, 1 ≤ minloc (fun x => decide (0 < x)) l ∧ minloc (fun x => decide (0 < x)) l ≤ l.length ∧
      l[minloc (fun x => decide (0 < x)) l - 1]? = some x ∧ 0 < x ∧ ∀ y ∈ l, 0 < y → x ≤ y := by
  unfold minloc
  cases hm : (l.filter fun x => decide (0 < x)).min? with
  | none =>
    rw [List.min?_eq_none_iff] at hm
    obtain ⟨x, hx, hx'⟩ := List.any_eq_true.1 h
    have : x ∈ l.filter fun x => decide (0 < x) := List.mem_filter.2 ⟨hx, hx'⟩
    rw [hm] at this
    simp at this
  | some m =>
    obtain ⟨h1, h2⟩ := List.min?_eq_some_iff.1 hm
    obtain ⟨h3, h4⟩ := List.mem_filter.1 h1
    have hlt := List.idxOf_lt_length_of_mem h3
    refine ⟨m, by simp, hlt, ?_, by simpa using h4, fun y hy hpos => ?_⟩
    · simp only [Nat.add_sub_cancel]
      rw [List.getElem?_eq_getElem hlt, List.getElem_idxOf]
    · exact h2 y (List.mem_filter.2 ⟨hy, by simpa using hpos⟩)

/-- Only the entry that is written changes. -/
theorem offsetLoop_other (irr : Off → Option ℕ) (rd wr : ℕ) (os : List Off) :
    ∀ (s : SelState Off) (p : ℕ), p ≠ wr →
      (offsetLoop irr rd wr s os).n p = s.n p ∧ (offsetLoop irr rd wr s os).off p = s.off p := by
  induction os with
  | nil => intro s p _; exact ⟨rfl, rfl⟩
  | cons o os ih =>
    intro s p hp
    unfold offsetLoop
    obtain ⟨h1, h2⟩ := ih (offsetStep irr rd wr s o) p hp
    rw [h1, h2]
    unfold offsetStep
    cases irr o with
    | none => exact ⟨rfl, rfl⟩
    | some m =>
      simp only
      split_ifs <;> simp [Function.update_of_ne hp]

/-- The entry that is written holds a value found for one of the offsets, with that offset. -/
theorem offsetLoop_value (irr : Off → Option ℕ) (rd wr : ℕ) (os : List Off) :
    ∀ (s : SelState Off),
      ((offsetLoop irr rd wr s os).n wr = s.n wr ∧ (offsetLoop irr rd wr s os).off wr = s.off wr) ∨
      ∃ o ∈ os, (offsetLoop irr rd wr s os).off wr = some o ∧
        irr o = some ((offsetLoop irr rd wr s os).n wr) := by
  induction os with
  | nil => intro s; exact .inl ⟨rfl, rfl⟩
  | cons o os ih =>
    intro s
    unfold offsetLoop
    rcases ih (offsetStep irr rd wr s o) with ⟨h1, h2⟩ | ⟨o', ho', h1, h2⟩
    · rw [h1, h2]
      unfold offsetStep
      cases hi : irr o with
      | none => exact .inl ⟨rfl, rfl⟩
      | some m =>
        simp only
        split_ifs
        · exact .inr ⟨o, by simp, by simp, by simp [hi]⟩
        · exact .inr ⟨o, by simp, by simp, by simp [hi]⟩
        · exact .inl ⟨rfl, rfl⟩
    · exact .inr ⟨o', List.mem_cons_of_mem _ ho', h1, h2⟩

/-- When the entry written is the one read, the loop finds the minimum. -/
theorem offsetLoop_min (irr : Off → Option ℕ) (hirr : ∀ o m, irr o = some m → 1 ≤ m) (i : ℕ)
    (os : List Off) : ∀ (s : SelState Off),
      (s.n i ≠ 0 → (offsetLoop irr i i s os).n i ≠ 0 ∧ (offsetLoop irr i i s os).n i ≤ s.n i) ∧
      ∀ o ∈ os, ∀ m, irr o = some m →
        (offsetLoop irr i i s os).n i ≠ 0 ∧ (offsetLoop irr i i s os).n i ≤ m := by
  induction os with
  | nil => intro s; exact ⟨fun h => ⟨h, le_rfl⟩, by simp⟩
  | cons o os ih =>
    intro s
    unfold offsetLoop
    obtain ⟨h1, h2⟩ := ih (offsetStep irr i i s o)
    generalize hs' : offsetStep irr i i s o = s' at h1 h2 ⊢
    have key : (s.n i ≠ 0 → s'.n i ≠ 0 ∧ s'.n i ≤ s.n i) ∧
        ∀ m, irr o = some m → s'.n i ≠ 0 ∧ s'.n i ≤ m := by
      subst hs'
      unfold offsetStep
      cases hi : irr o with
      | none => exact ⟨fun h => ⟨h, le_rfl⟩, by simp⟩
      | some m =>
        have := hirr o m hi
        simp only
        by_cases hz : s.n i = 0
        · rw [if_pos hz]
          simp [hz]
          omega
        · rw [if_neg hz]
          by_cases hlt : m < s.n i
          · rw [if_pos hlt]
            simp
            omega
          · rw [if_neg hlt]
            refine ⟨fun h => ⟨h, le_rfl⟩, ?_⟩
            intro m' hm'
            cases hm'
            exact ⟨hz, by omega⟩
    refine ⟨fun h => ?_, fun o' ho' m hm => ?_⟩
    · obtain ⟨k1, k2⟩ := key.1 h
      obtain ⟨k3, k4⟩ := h1 k1
      exact ⟨k3, k4.trans k2⟩
    · rcases List.mem_cons.1 ho' with rfl | ho'
      · obtain ⟨k1, k2⟩ := key.2 m hm
        obtain ⟨k3, k4⟩ := h1 k1
        exact ⟨k3, k4.trans k2⟩
      · exact h2 o' ho' m hm

/-- Entries outside the range written do not change. -/
theorem gridLoop_other (irr : G → Off → Option ℕ) (os : List Off) (base : ℕ) (gs : List (G × Mat3)) :
    ∀ (s : SelState Off) (i p : ℕ), p < base + i ∨ base + i + gs.length ≤ p →
      (gridLoop irr os base s i gs).n p = s.n p ∧ (gridLoop irr os base s i gs).off p = s.off p := by
  induction gs with
  | nil => intro s i p _; exact ⟨rfl, rfl⟩
  | cons g gs ih =>
    intro s i p hp
    unfold gridLoop
    simp only [List.length_cons] at hp
    obtain ⟨h1, h2⟩ := ih (offsetLoop (irr g.1) i (base + i) s os) (i + 1) p (by omega)
    obtain ⟨h3, h4⟩ := offsetLoop_other (irr g.1) i (base + i) os s p (by omega)
    exact ⟨h1.trans h3, h2.trans h4⟩

/-- Each entry written holds a value found for its grid, or is 0. -/
theorem gridLoop_value (irr : G → Off → Option ℕ) (os : List Off) (base : ℕ) (gs : List (G × Mat3)) :
    ∀ (s : SelState Off) (i : ℕ), (∀ p, base + i ≤ p → s.n p = 0) →
      ∀ (q : ℕ) (g : G × Mat3), gs[q]? = some g →
        (gridLoop irr os base s i gs).n (base + i + q) = 0 ∨
        ∃ o ∈ os, (gridLoop irr os base s i gs).off (base + i + q) = some o ∧
          irr g.1 o = some ((gridLoop irr os base s i gs).n (base + i + q)) := by
  induction gs with
  | nil => intro s i _ q g h; simp at h
  | cons g0 gs ih =>
    intro s i hz q g hq
    unfold gridLoop
    cases q with
    | zero =>
      simp only [List.getElem?_cons_zero, Option.some.injEq] at hq
      subst hq
      obtain ⟨h1, h2⟩ := gridLoop_other irr os base gs (offsetLoop (irr g0.1) i (base + i) s os) (i + 1)
        (base + i) (by omega)
      simp only [Nat.add_zero]
      rw [h1, h2]
      rcases offsetLoop_value (irr g0.1) i (base + i) os s with ⟨h3, -⟩ | h
      · exact .inl (h3.trans (hz _ le_rfl))
      · exact .inr h
    | succ q =>
      rw [List.getElem?_cons_succ] at hq
      have := ih (offsetLoop (irr g0.1) i (base + i) s os) (i + 1) (fun p hp => ?_) q g hq
      · rwa [show base + (i + 1) + q = base + i + (q + 1) by omega] at this
      · rw [(offsetLoop_other (irr g0.1) i (base + i) os s p (by omega)).1]
        exact hz p (by omega)

/-- The first loop finds the minimum of each grid. -/
theorem gridLoop_min (irr : G → Off → Option ℕ) (hirr : ∀ g o m, irr g o = some m → 1 ≤ m) (os : List Off)
    (gs : List (G × Mat3)) : ∀ (s : SelState Off) (i : ℕ) (q : ℕ) (g : G × Mat3), gs[q]? = some g →
      ∀ o ∈ os, ∀ m, irr g.1 o = some m →
        (gridLoop irr os 0 s i gs).n (i + q) ≠ 0 ∧ (gridLoop irr os 0 s i gs).n (i + q) ≤ m := by
  induction gs with
  | nil => intro s i q g h; simp at h
  | cons g0 gs ih =>
    intro s i q g hq o ho m hm
    unfold gridLoop
    cases q with
    | zero =>
      simp only [List.getElem?_cons_zero, Option.some.injEq] at hq
      subst hq
      obtain ⟨h1, -⟩ := gridLoop_other irr os 0 gs (offsetLoop (irr g0.1) i (0 + i) s os) (i + 1) i (by omega)
      simp only [Nat.add_zero]
      rw [h1, Nat.zero_add]
      exact (offsetLoop_min (irr g0.1) (hirr g0.1) i os s).2 o ho m hm
    | succ q =>
      rw [List.getElem?_cons_succ] at hq
      have := ih (offsetLoop (irr g0.1) i (0 + i) s os) (i + 1) q g hq o ho m hm
      rwa [show i + 1 + q = i + (q + 1) by omega] at this

end AutoGR.Fortran
