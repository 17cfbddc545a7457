import Verif.Lemmas.FortranSelect

/-!
# C71: the grid `grid_selection` returns

`irr g o` is the number of irreducible k-points of the grid `g` with offset `o` under the user's choice of
symmetries, `none` if the library reports an error.  `irrDefault` is the same number when the choice of
symmetries is left out, as in the loop over the second list.
-/

namespace AutoGR.Fortran

variable {G Off : Type}

/-- C71, the part that holds: `grid_selection` never reads an entry that was not set, and leaves no array.
If it returns a grid, the offset is one of those offered; the grid is from the first list and the number is
the one of that grid and offset under the user's symmetries, or it is from the second list and the number is
the one under the default symmetries; and no grid and offset of the first list has a smaller number.  If it
returns none, then none of the first list has a number.

Missing: minimality over the second list, and the user's symmetries there, which fail, see
`gridSelection_second_list` and `gridSelection_symmetry`. -/
theorem gridSelection_partial (irr irrDefault : G → Off → Option ℕ)
    (hirr : ∀ g o m, irr g o = some m → 1 ≤ m) (list1 list2 : List (G × Mat3)) (offsets : List Off) :
    ∃ r, gridSelection irr irrDefault list1 list2 offsets = .ok r ∧
      (∀ b, r = some b → b.offset ∈ offsets ∧ 1 ≤ b.n_irr ∧
        (((b.grid, b.HNF) ∈ list1 ∧ irr b.grid b.offset = some b.n_irr) ∨
          ((b.grid, b.HNF) ∈ list2 ∧ irrDefault b.grid b.offset = some b.n_irr)) ∧
        ∀ g ∈ list1, ∀ o ∈ offsets, ∀ m, irr g.1 o = some m → b.n_irr ≤ m) ∧
      (r = none → ∀ g ∈ list1, ∀ o ∈ offsets, irr g.1 o = none) := by
  unfold gridSelection
  simp only
  set s0 : SelState Off := ⟨fun _ => 0, fun _ => none⟩ with hs0
  set s1 := gridLoop irr offsets 0 s0 1 list1 with hs1
  set s2 := gridLoop irrDefault offsets list1.length s1 1 list2 with hs2
  set l := (List.range (list1.length + list2.length)).map fun i => (s2.n (i + 1) : ℤ) with hl
  have hlen : l.length = list1.length + list2.length := by simp [hl]
  have hget : ∀ i, i < list1.length + list2.length → l[i]? = some (s2.n (i + 1) : ℤ) := by
    intro i hi
    simp [hl, hi]
  -- the entries of the first list
  have h12 : ∀ p, p ≤ list1.length → s2.n p = s1.n p ∧ s2.off p = s1.off p := fun p hp =>
    gridLoop_other irrDefault offsets list1.length list2 s1 1 p (.inl (by omega))
  have hv1 : ∀ q g, list1[q]? = some g → s2.n (q + 1) = 0 ∨
      ∃ o ∈ offsets, s2.off (q + 1) = some o ∧ irr g.1 o = some (s2.n (q + 1)) := by
    intro q g hq
    have hlt : q < list1.length := (List.getElem?_eq_some_iff.1 hq).1
    obtain ⟨e1, e2⟩ := h12 (q + 1) (by omega)
    have := gridLoop_value irr offsets 0 list1 s0 1 (fun _ _ => rfl) q g hq
    rw [show 0 + 1 + q = q + 1 by omega, ← hs1] at this
    rw [e1, e2]
    exact this
  have hm1 : ∀ q g, list1[q]? = some g → ∀ o ∈ offsets, ∀ m, irr g.1 o = some m →
      s2.n (q + 1) ≠ 0 ∧ s2.n (q + 1) ≤ m := by
    intro q g hq o ho m hm
    have hlt : q < list1.length := (List.getElem?_eq_some_iff.1 hq).1
    have := gridLoop_min irr hirr offsets list1 s0 1 q g hq o ho m hm
    rw [show 1 + q = q + 1 by omega, ← hs1] at this
    rw [(h12 (q + 1) (by omega)).1]
    exact this
  -- the entries of the second list
  have hv2 : ∀ q g, list2[q]? = some g → s2.n (list1.length + q + 1) = 0 ∨
      ∃ o ∈ offsets, s2.off (list1.length + q + 1) = some o ∧
        irrDefault g.1 o = some (s2.n (list1.length + q + 1)) := by
    intro q g hq
    have := gridLoop_value irrDefault offsets list1.length list2 s1 1 (fun p hp => ?_) q g hq
    · rwa [show list1.length + 1 + q = list1.length + q + 1 by omega, ← hs2] at this
    · exact (gridLoop_other irr offsets 0 list1 s0 1 p (.inr (by omega))).1
  by_cases hany : l.any (fun x => decide (0 < x)) = true
  · rw [if_pos hany]
    obtain ⟨x, a, b, c, d, e⟩ := minloc_spec l hany
    generalize minloc (fun x => decide (0 < x)) l = p at a b c ⊢
    rw [hlen] at b
    have hx : x = (s2.n p : ℤ) := by
      rw [hget (p - 1) (by omega), show p - 1 + 1 = p by omega] at c
      exact (Option.some.inj c).symm
    have hpos : s2.n p ≠ 0 := by omega
    have hmin : ∀ g ∈ list1, ∀ o ∈ offsets, ∀ m, irr g.1 o = some m → s2.n p ≤ m := by
      intro g hg o ho m hm
      obtain ⟨q, hq⟩ := List.mem_iff_getElem?.1 hg
      have hlt : q < list1.length := (List.getElem?_eq_some_iff.1 hq).1
      obtain ⟨k1, k2⟩ := hm1 q g hq o ho m hm
      have := e (s2.n (q + 1) : ℤ) (List.mem_of_getElem? (hget q (by omega))) (by omega)
      omega
    by_cases hp : p ≤ list1.length
    · rw [if_pos hp]
      obtain ⟨g, hg⟩ : ∃ g, list1[p - 1]? = some g := ⟨_, List.getElem?_eq_getElem (by omega)⟩
      rw [hg]
      simp only
      have := hv1 (p - 1) g hg
      rw [show p - 1 + 1 = p by omega] at this
      rcases this with h | ⟨o, ho, h1, h2⟩
      · exact absurd h hpos
      · rw [h1]
        refine ⟨_, rfl, ?_, by simp⟩
        intro b hb
        cases hb
        exact ⟨ho, by simp only; omega, .inl ⟨List.mem_of_getElem? hg, h2⟩, hmin⟩
    · rw [if_neg hp]
      obtain ⟨g, hg⟩ : ∃ g, list2[p - list1.length - 1]? = some g :=
        ⟨_, List.getElem?_eq_getElem (by omega)⟩
      rw [hg]
      simp only
      have := hv2 (p - list1.length - 1) g hg
      rw [show list1.length + (p - list1.length - 1) + 1 = p by omega] at this
      rcases this with h | ⟨o, ho, h1, h2⟩
      · exact absurd h hpos
      · rw [h1]
        refine ⟨_, rfl, ?_, by simp⟩
        intro b hb
        cases hb
        exact ⟨ho, by simp only; omega, .inr ⟨List.mem_of_getElem? hg, h2⟩, hmin⟩
  · rw [if_neg hany]
    refine ⟨none, rfl, by simp, fun _ g hg o ho => ?_⟩
    by_contra hne
    obtain ⟨m, hm⟩ := Option.ne_none_iff_exists'.1 hne
    obtain ⟨q, hq⟩ := List.mem_iff_getElem?.1 hg
    have hlt : q < list1.length := (List.getElem?_eq_some_iff.1 hq).1
    obtain ⟨k1, -⟩ := hm1 q g hq o ho m hm
    refine hany (List.any_eq_true.2 ⟨(s2.n (q + 1) : ℤ), List.mem_of_getElem? (hget q (by omega)), ?_⟩)
    simp
    omega

/-- C71 when there is only one list: the grid and offset with the fewest irreducible k-points. -/
theorem gridSelection_one_list (irr irrDefault : G → Off → Option ℕ)
    (hirr : ∀ g o m, irr g o = some m → 1 ≤ m) (list1 : List (G × Mat3)) (offsets : List Off)
    (hex : ∃ g ∈ list1, ∃ o ∈ offsets, irr g.1 o ≠ none) :
    ∃ b, gridSelection irr irrDefault list1 [] offsets = .ok (some b) ∧
      (b.grid, b.HNF) ∈ list1 ∧ b.offset ∈ offsets ∧ irr b.grid b.offset = some b.n_irr ∧
      ∀ g ∈ list1, ∀ o ∈ offsets, ∀ m, irr g.1 o = some m → b.n_irr ≤ m := by
  obtain ⟨r, h1, h2, h3⟩ := gridSelection_partial irr irrDefault hirr list1 [] offsets
  cases r with
  | none =>
    obtain ⟨g, hg, o, ho, h⟩ := hex
    exact absurd (h3 rfl g hg o ho) h
  | some b =>
    obtain ⟨a1, -, a2, a3⟩ := h2 b rfl
    rcases a2 with ⟨a2, a4⟩ | ⟨a2, -⟩
    · exact ⟨b, h1, a2, a1, a4, a3⟩
    · simp at a2

/-- The hypotheses of the two theorems are met: two grids with the numbers 7, 4 and 6, 5 for two offsets. -/
example : ∃ b, gridSelection (fun g o => some (if g then (if o then 7 else 4) else (if o then 6 else 5)))
      (fun _ _ => none) [(true, hnf 1 0 1 0 0 4), (false, hnf 1 0 2 0 0 2)] [] [true, false] = .ok (some b) ∧
    b.grid = true ∧ b.HNF = hnf 1 0 1 0 0 4 ∧ b.offset = false ∧ b.n_irr = 4 := by
  refine ⟨⟨true, hnf 1 0 1 0 0 4, false, 4⟩, by rfl, rfl, rfl, rfl, rfl⟩

/-- C71 fails for the second list: its grid has 3 irreducible k-points with the first offset, 5 with
the second, the grid of the first list 10; the program returns the one with 5. -/
theorem gridSelection_second_list :
    let irr : Bool → Bool → Option ℕ := fun g o => some (if g then 10 else if o then 3 else 5)
    gridSelection irr irr [(true, hnf 1 0 1 0 0 4)] [(false, hnf 1 0 2 0 0 2)] [true, false] =
        .ok (some ⟨false, hnf 1 0 2 0 0 2, false, 5⟩) ∧
      irr false true = some 3 := by
  exact ⟨rfl, rfl⟩

/-- C71 fails when the user's choice of symmetries is not the default: under that choice the grid of the
second list has 50 irreducible k-points and the one of the first list 10, and the program returns the
former because its number under the default symmetries is 4. -/
theorem gridSelection_symmetry :
    let irr : Bool → Unit → Option ℕ := fun g _ => some (if g then 10 else 50)
    let irrDefault : Bool → Unit → Option ℕ := fun g _ => some (if g then 3 else 4)
    gridSelection irr irrDefault [(true, hnf 1 0 1 0 0 4)] [(false, hnf 1 0 2 0 0 2)] [()] =
        .ok (some ⟨false, hnf 1 0 2 0 0 2, (), 4⟩) ∧
      irr true () = some 10 ∧ irr false () = some 50 := by
  exact ⟨rfl, rfl, rfl⟩

end AutoGR.Fortran
