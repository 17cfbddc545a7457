import Verif.Model.RoundedCompare
import Verif.Spec.Longest
import Verif.Props.FortranCompare

/-! # Lemmas: the lists of `compare_grids` in any arithmetic -/

namespace AutoGR.Fortran

open Arith Spec

variable {K G : Type} [Arith K]

/-- The place of the length of `x` among the lengths in the list, counted from one. -/
noncomputable def rank {α : Type} (len : α → ℝ) (l : List α) (x : α) : ℚ :=
  1 + (((l.map len).toFinset.filter (· < len x)).card : ℚ)

theorem rank_lt {α : Type} {len : α → ℝ} {l : List α} {x y : α} (hx : x ∈ l) (_hy : y ∈ l) :
    rank len l x < rank len l y ↔ len x < len y := by
  unfold rank
  rw [add_lt_add_iff_left, Nat.cast_lt]
  constructor
  · intro h
    by_contra hn
    refine absurd (Finset.card_le_card ?_) (not_le.2 h)
    intro z hz
    rw [Finset.mem_filter] at hz ⊢
    exact ⟨hz.1, lt_of_lt_of_le hz.2 (not_lt.1 hn)⟩
  · intro h
    refine Finset.card_lt_card ?_
    rw [Finset.ssubset_iff_of_subset]
    · refine ⟨len x, ?_, ?_⟩
      · rw [Finset.mem_filter, List.mem_toFinset]
        exact ⟨List.mem_map.2 ⟨x, hx, rfl⟩, h⟩
      · rw [Finset.mem_filter]
        exact fun h' => lt_irrefl _ h'.2
    · intro z hz
      rw [Finset.mem_filter] at hz ⊢
      exact ⟨hz.1, hz.2.trans h⟩

theorem rank_eq {α : Type} {len : α → ℝ} {l : List α} {x y : α} (hx : x ∈ l) (hy : y ∈ l) :
    rank len l x = rank len l y ↔ len x = len y := by
  have h1 := rank_lt (len := len) hx hy
  have h2 := rank_lt (len := len) hy hx
  constructor
  · intro h
    rcases lt_trichotomy (len x) (len y) with g | g | g
    · exact absurd h (h1.2 g).ne
    · exact g
    · exact absurd h (h2.2 g).ne'
  · intro h
    unfold rank
    rw [h]

theorem rank_pos {α : Type} (len : α → ℝ) (l : List α) (x : α) : 0 < rank len l x := by
  unfold rank
  positivity

/-- The same grids, with their places for lengths. -/
noncomputable def rankGeom (geom : Mat3 → GeomK K G) (len : Mat3 → ℝ) (l : List Mat3) (H : Mat3) : Geom G :=
  ⟨(geom H).grid, rank len l H, (geom H).packed⟩

/-- A computed length and the place that stands for it. -/
inductive Stands (geom : Mat3 → GeomK K G) (len : Mat3 → ℝ) (l : List Mat3) : K → ℚ → Prop
  | zero : Stands geom len l (ofInt 0) 0
  | of (x : Mat3) (hx : x ∈ l) : Stands geom len l (geom x).rmin (rank len l x)

/-- The arrays of `compare_grids` and those of the comparison of places. -/
structure Sim (geom : Mat3 → GeomK K G) (len : Mat3 → ℝ) (l : List Mat3) (s : GridsK K G) (t : Grids G) : Prop where
  one : Stands geom len l s.rmin1 t.rmin1
  two : Stands geom len l s.rmin2 t.rmin2
  list1 : s.list1 = t.list1
  list2 : s.list2 = t.list2
  size : s.size = t.size

/-- Both fail in the same way, or both go on. -/
inductive SimR (geom : Mat3 → GeomK K G) (len : Mat3 → ℝ) (l : List Mat3) :
    Except GridErr (GridsK K G) → Except GridErr (Grids G) → Prop
  | err (e : GridErr) : SimR geom len l (.error e) (.error e)
  | ok {s : GridsK K G} {t : Grids G} (h : Sim geom len l s t) : SimR geom len l (.ok s) (.ok t)

def idealEqual (a b : ℚ) : Bool := decide (a = b)

section

variable {equal : K → K → Bool} {eps : K} {geom : Mat3 → GeomK K G} {len : Mat3 → ℝ} {l : List Mat3}

theorem aboveK_iff (hT : Told (aboveK eps) equal (ofInt 0) (fun H => (geom H).rmin) len l) {H : Mat3} (hH : H ∈ l)
    {k : K} {q : ℚ} (hs : Stands geom len l k q) :
    aboveK eps k (geom H).rmin = true ↔ q + rank len l H * 0 < rank len l H := by
  rw [mul_zero, add_zero]
  cases hs with
  | zero => exact iff_of_true (hT.start H hH).1 (rank_pos _ _ _)
  | of x hx => rw [rank_lt hx hH]; exact hT.order H hH x hx

theorem equalK_iff (hT : Told (aboveK eps) equal (ofInt 0) (fun H => (geom H).rmin) len l) {H : Mat3} (hH : H ∈ l)
    {k : K} {q : ℚ} (hs : Stands geom len l k q) : equal (geom H).rmin k = idealEqual (rank len l H) q := by
  rw [Bool.eq_iff_iff]
  unfold idealEqual
  rw [decide_eq_true_iff]
  cases hs with
  | zero =>
    have h1 := (hT.start H hH).2
    exact iff_of_false (by rw [h1]; simp) (rank_pos _ _ _).ne'
  | of x hx => rw [rank_eq hH hx]; exact hT.same H hH x hx

theorem simR_push1 {s : GridsK K G} {t : Grids G} (h : Sim geom len l s t) (x : G × Mat3) :
    SimR geom len l (s.push1 x) (t.push1 x) := by
  unfold GridsK.push1 Grids.push1
  rw [h.list1, h.size]
  by_cases c : t.list1.length + 1 ≤ t.size
  · rw [if_pos c, if_pos c]
    exact .ok ⟨h.one, h.two, rfl, h.list2, rfl⟩
  · rw [if_neg c, if_neg c]
    exact .err _

theorem simR_push2 {s : GridsK K G} {t : Grids G} (h : Sim geom len l s t) (x : G × Mat3) :
    SimR geom len l (s.push2 x) (t.push2 x) := by
  unfold GridsK.push2 Grids.push2
  rw [h.list2, h.size]
  by_cases c : t.list2.length + 1 ≤ t.size
  · rw [if_pos c, if_pos c]
    exact .ok ⟨h.one, h.two, h.list1, rfl, rfl⟩
  · rw [if_neg c, if_neg c]
    exact .err _

theorem simR_resize {s : GridsK K G} {t : Grids G} (h : Sim geom len l s t) (m : ℕ) :
    SimR geom len l (s.resize m) (t.resize m) := by
  unfold GridsK.resize Grids.resize
  rw [h.list1, h.list2]
  by_cases c : t.list1.length ≤ m ∧ t.list2.length ≤ m
  · rw [if_pos c, if_pos c]
    exact .ok ⟨h.one, h.two, rfl, rfl, rfl⟩
  · rw [if_neg c, if_neg c]
    exact .err _

theorem simR_grow {s : GridsK K G} {t : Grids G} (h : Sim geom len l s t) (n m : ℕ) :
    SimR geom len l (if s.size = n then s.resize m else .ok s) (if t.size = n then t.resize m else .ok t) := by
  rw [h.size]
  by_cases c : t.size = n
  · rw [if_pos c, if_pos c]; exact simR_resize h m
  · rw [if_neg c, if_neg c]; exact .ok h

theorem compareGrids_sim (hT : Told (aboveK eps) equal (ofInt 0) (fun H => (geom H).rmin) len l) {H : Mat3}
    (hH : (geom H).packed = true → H ∈ l) {s : GridsK K G} {t : Grids G} (h : Sim geom len l s t) :
    SimR geom len l (compareGridsK equal eps geom s H) (compareGrids idealEqual 0 (rankGeom geom len l) t H) := by
  unfold compareGridsK compareGrids
  simp only
  by_cases hp : (geom H).packed = true
  swap
  · have hp' : ¬ (rankGeom geom len l H).packed = true := hp
    rw [if_neg hp, if_neg hp']
    exact .ok h
  have hH' := hH hp
  have hp' : (rankGeom geom len l H).packed = true := hp
  rw [if_pos hp, if_pos hp']
  have a1 := aboveK_iff hT hH' h.one
  have a2 := aboveK_iff hT hH' h.two
  have e1 := equalK_iff hT hH' h.one
  have e2 := equalK_iff hT hH' h.two
  have hg : (rankGeom geom len l H).grid = (geom H).grid := rfl
  have hr : (rankGeom geom len l H).rmin = rank len l H := rfl
  rw [hg, hr, e1, e2]
  simp only [a1, a2]
  by_cases c1 : t.rmin1 + rank len l H * 0 < rank len l H ∧ idealEqual (rank len l H) t.rmin1 = false
  · rw [if_pos c1, if_pos c1]
    exact simR_push1 (s := { s with rmin2 := s.rmin1, list2 := s.list1, rmin1 := (geom H).rmin, list1 := [] })
      (t := { t with rmin2 := t.rmin1, list2 := t.list1, rmin1 := rank len l H, list1 := [] })
      ⟨.of H hH', h.one, rfl, h.list1, h.size⟩ _
  rw [if_neg c1, if_neg c1]
  by_cases c2 : t.rmin2 + rank len l H * 0 < rank len l H ∧ idealEqual (rank len l H) t.rmin1 = false ∧
      idealEqual (rank len l H) t.rmin2 = false
  · rw [if_pos c2, if_pos c2]
    exact simR_push2 (s := { s with rmin2 := (geom H).rmin, list2 := [] })
      (t := { t with rmin2 := rank len l H, list2 := [] }) ⟨h.one, .of H hH', h.list1, rfl, h.size⟩ _
  rw [if_neg c2, if_neg c2]
  by_cases c3 : idealEqual (rank len l H) t.rmin1 = true
  · rw [if_pos c3, if_pos c3, h.list1]
    have := simR_grow h t.list1.length (2 * t.list1.length)
    generalize (if s.size = t.list1.length then s.resize (2 * t.list1.length) else .ok s) = x at this ⊢
    generalize (if t.size = t.list1.length then t.resize (2 * t.list1.length) else .ok t) = y at this ⊢
    cases this with
    | err e => exact .err e
    | ok h' => exact simR_push1 h' _
  rw [if_neg c3, if_neg c3]
  by_cases c4 : idealEqual (rank len l H) t.rmin2 = true
  · rw [if_pos c4, if_pos c4, h.list2]
    have := simR_grow h t.list2.length (2 * t.list2.length)
    generalize (if s.size = t.list2.length then s.resize (2 * t.list2.length) else .ok s) = x at this ⊢
    generalize (if t.size = t.list2.length then t.resize (2 * t.list2.length) else .ok t) = y at this ⊢
    cases this with
    | err e => exact .err e
    | ok h' => exact simR_push2 h' _
  rw [if_neg c4, if_neg c4]
  exact .ok h

/-- The first call starts from empty arrays. -/
inductive SimO (geom : Mat3 → GeomK K G) (len : Mat3 → ℝ) (l : List Mat3) : Option (GridsK K G) → Option (Grids G) → Prop
  | none : SimO geom len l none none
  | some {s : GridsK K G} {t : Grids G} (h : Sim geom len l s t) : SimO geom len l (some s) (some t)

theorem compareAll_sim (hT : Told (aboveK eps) equal (ofInt 0) (fun H => (geom H).rmin) len l) :
    ∀ (Hs : List Mat3) (s : Option (GridsK K G)) (t : Option (Grids G)),
      (∀ H ∈ Hs, (geom H).packed = true → H ∈ l) → SimO geom len l s t → ∀ t',
      compareAll idealEqual 0 (rankGeom geom len l) t Hs = .ok t' →
      ∃ s', compareAllK equal eps geom s Hs = .ok s' ∧ SimO geom len l s' t'
  | [], s, t, _, h, t', ht => by
    unfold compareAll at ht
    cases ht
    exact ⟨s, rfl, h⟩
  | H :: Hs, s, t, hl, h, t', ht => by
    unfold compareAll at ht
    unfold compareAllK
    have h0 : Sim geom len l (s.getD ⟨ofInt 0, ofInt 0, [], [], 10⟩) (t.getD ⟨0, 0, [], [], 10⟩) := by
      cases h with
      | none => exact ⟨.zero, .zero, rfl, rfl, rfl⟩
      | some h => exact h
    have := compareGrids_sim hT (hl H (List.mem_cons_self ..)) h0
    generalize compareGrids idealEqual 0 (rankGeom geom len l) (t.getD ⟨0, 0, [], [], 10⟩) H = y at this ht
    generalize compareGridsK equal eps geom (s.getD ⟨ofInt 0, ofInt 0, [], [], 10⟩) H = x at this ⊢
    cases this with
    | err e => cases ht
    | ok h' => exact compareAll_sim hT Hs _ _ (fun H hH => hl H (List.mem_cons_of_mem _ hH)) (.some h') t' ht

end

end AutoGR.Fortran
