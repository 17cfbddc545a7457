import Verif.Model.FortranGrid
import Mathlib.Tactic.Linarith

/-! # Lemmas on `compare_grids` -/

namespace AutoGR.Fortran

variable {G : Type}

/-- The values of `compare_grids` without the size of the arrays. -/
structure Best (G : Type) where
  rmin1 : ℚ
  rmin2 : ℚ
  list1 : List (G × Mat3)
  list2 : List (G × Mat3)

/-- Forget the size of the arrays. -/
def Grids.best (s : Grids G) : Best G := ⟨s.rmin1, s.rmin2, s.list1, s.list2⟩

/-- `compare_grids` without the size of the arrays. -/
def bestStep (equal : ℚ → ℚ → Bool) (eps : ℚ) (geom : Mat3 → Geom G) (s : Best G) (H : Mat3) : Best G :=
  if (geom H).packed then
    if s.rmin1 + (geom H).rmin * eps < (geom H).rmin ∧ equal (geom H).rmin s.rmin1 = false then
      ⟨(geom H).rmin, s.rmin1, [((geom H).grid, H)], s.list1⟩
    else if s.rmin2 + (geom H).rmin * eps < (geom H).rmin ∧ equal (geom H).rmin s.rmin1 = false ∧
        equal (geom H).rmin s.rmin2 = false then
      ⟨s.rmin1, (geom H).rmin, s.list1, [((geom H).grid, H)]⟩
    else if equal (geom H).rmin s.rmin1 then
      ⟨s.rmin1, s.rmin2, s.list1 ++ [((geom H).grid, H)], s.list2⟩
    else if equal (geom H).rmin s.rmin2 then
      ⟨s.rmin1, s.rmin2, s.list1, s.list2 ++ [((geom H).grid, H)]⟩
    else s
  else s

/-- The entries fit into the arrays. -/
structure Grids.Fits (s : Grids G) : Prop where
  pos : 1 ≤ s.size
  one : s.list1.length ≤ s.size
  two : s.list2.length ≤ s.size

theorem compareGrids_ok (equal : ℚ → ℚ → Bool) (eps : ℚ) (geom : Mat3 → Geom G) (s : Grids G) (H : Mat3)
    (hs : s.Fits) : ∃ s', compareGrids equal eps geom s H = .ok s' ∧ s'.Fits ∧
      s'.best = bestStep equal eps geom s.best H := by
  obtain ⟨h0, h1, h2⟩ := hs
  unfold compareGrids bestStep Grids.best
  simp only
  by_cases hp : (geom H).packed = true
  · rw [if_pos hp, if_pos hp]
    by_cases c1 : s.rmin1 + (geom H).rmin * eps < (geom H).rmin ∧ equal (geom H).rmin s.rmin1 = false
    · rw [if_pos c1, if_pos c1]
      rw [Grids.push1, if_pos (by simpa using h0)]
      refine ⟨_, rfl, ⟨h0, by simpa using h0, h1⟩, rfl⟩
    · rw [if_neg c1, if_neg c1]
      by_cases c2 : s.rmin2 + (geom H).rmin * eps < (geom H).rmin ∧ equal (geom H).rmin s.rmin1 = false ∧
          equal (geom H).rmin s.rmin2 = false
      · rw [if_pos c2, if_pos c2]
        rw [Grids.push2, if_pos (by simpa using h0)]
        refine ⟨_, rfl, ⟨h0, h1, by simpa using h0⟩, rfl⟩
      · rw [if_neg c2, if_neg c2]
        by_cases c3 : equal (geom H).rmin s.rmin1 = true
        · rw [if_pos c3, if_pos c3]
          by_cases hsz : s.size = s.list1.length
          · rw [if_pos hsz, Grids.resize, if_pos ⟨by omega, by omega⟩]
            simp only
            rw [Grids.push1, if_pos (by simp; omega)]
            refine ⟨_, rfl, ⟨?_, ?_, ?_⟩, rfl⟩ <;> simp <;> omega
          · rw [if_neg hsz]
            simp only
            rw [Grids.push1, if_pos (by omega)]
            refine ⟨_, rfl, ⟨h0, ?_, h2⟩, rfl⟩
            simp
            omega
        · rw [if_neg c3, if_neg c3]
          by_cases c4 : equal (geom H).rmin s.rmin2 = true
          · rw [if_pos c4, if_pos c4]
            by_cases hsz : s.size = s.list2.length
            · rw [if_pos hsz, Grids.resize, if_pos ⟨by omega, by omega⟩]
              simp only
              rw [Grids.push2, if_pos (by simp; omega)]
              refine ⟨_, rfl, ⟨?_, ?_, ?_⟩, rfl⟩ <;> simp <;> omega
            · rw [if_neg hsz]
              simp only
              rw [Grids.push2, if_pos (by omega)]
              refine ⟨_, rfl, ⟨h0, h1, ?_⟩, rfl⟩
              simp
              omega
          · rw [if_neg c4, if_neg c4]
            exact ⟨s, rfl, ⟨h0, h1, h2⟩, rfl⟩
  · rw [if_neg hp, if_neg hp]
    exact ⟨s, rfl, ⟨h0, h1, h2⟩, rfl⟩

theorem compareAll_some (equal : ℚ → ℚ → Bool) (eps : ℚ) (geom : Mat3 → Geom G) (Hs : List Mat3) :
    ∀ s : Grids G, s.Fits → ∃ s', compareAll equal eps geom (some s) Hs = .ok (some s') ∧ s'.Fits ∧
      s'.best = Hs.foldl (bestStep equal eps geom) s.best := by
  induction Hs with
  | nil => intro s hs; exact ⟨s, rfl, hs, rfl⟩
  | cons H Hs ih =>
    intro s hs
    obtain ⟨s1, h1, h2, h3⟩ := compareGrids_ok equal eps geom s H hs
    obtain ⟨s', h4, h5, h6⟩ := ih s1 h2
    refine ⟨s', ?_, h5, by rw [h6, h3]; rfl⟩
    unfold compareAll
    simp only [Option.getD_some, h1]
    exact h4

/-- The calls of `compare_grids` for a list that is not empty never fail. -/
theorem compareAll_ok (equal : ℚ → ℚ → Bool) (eps : ℚ) (geom : Mat3 → Geom G) (Hs : List Mat3)
    (hne : Hs ≠ []) : ∃ s', compareAll equal eps geom none Hs = .ok (some s') ∧ s'.Fits ∧
      s'.best = Hs.foldl (bestStep equal eps geom) ⟨0, 0, [], []⟩ := by
  cases Hs with
  | nil => exact absurd rfl hne
  | cons H Hs =>
    obtain ⟨s1, h1, h2, h3⟩ := compareGrids_ok equal eps geom (⟨0, 0, [], [], 10⟩ : Grids G) H
      ⟨by simp, by simp, by simp⟩
    obtain ⟨s', h4, h5, h6⟩ := compareAll_some equal eps geom Hs s1 h2
    refine ⟨s', ?_, h5, by rw [h6, h3]; rfl⟩
    unfold compareAll
    simp only [Option.getD_none, h1]
    exact h4

end AutoGR.Fortran
