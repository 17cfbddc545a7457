import Verif.Props.FortranSelect

/-!
# C71 for a single shift

When the user gives the shift, `grid_selection` has one offset to try.  Then its loop over the second list, which compares
with the wrong place of `n_irreducible`, still finds the smallest number.
-/

namespace AutoGR.Fortran

variable {G Off : Type}

/-- Each grid of the list that has a number leaves a number behind that is not larger. -/
theorem gridLoop_single (irr : G → Off → Option ℕ) (hirr : ∀ g o m, irr g o = some m → 1 ≤ m) (o : Off) (base : ℕ)
    (gs : List (G × Mat3)) : ∀ (s : SelState Off) (i : ℕ), 1 ≤ i → ∀ g ∈ gs, ∀ m, irr g.1 o = some m →
      ∃ p, 1 ≤ p ∧ p < base + i + gs.length ∧ (gridLoop irr [o] base s i gs).n p ≠ 0 ∧
        (gridLoop irr [o] base s i gs).n p ≤ m := by
  induction gs with
  | nil => simp
  | cons x gs ih =>
    intro s i hi g hg m hm
    unfold gridLoop
    rw [List.length_cons]
    rcases List.mem_cons.1 hg with rfl | hg
    · have hm1 := hirr _ _ _ hm
      have hstep : ∀ p, p < base + (i + 1) →
          (gridLoop irr [o] base (offsetLoop (irr g.1) i (base + i) s [o]) (i + 1) gs).n p =
            (offsetStep (irr g.1) i (base + i) s o).n p := fun p hp =>
        (gridLoop_other irr [o] base gs _ _ p (.inl hp)).1
      by_cases h : s.n i = 0 ∨ m < s.n i
      · refine ⟨base + i, by omega, by omega, ?_⟩
        rw [hstep _ (by omega)]
        have : (offsetStep (irr g.1) i (base + i) s o).n (base + i) = m := by
          unfold offsetStep
          rw [hm]
          dsimp only
          by_cases h0 : s.n i = 0
          · rw [if_pos h0]
            exact Function.update_self ..
          · rw [if_neg h0, if_pos (h.resolve_left h0)]
            exact Function.update_self ..
        rw [this]
        omega
      · refine ⟨i, hi, by omega, ?_⟩
        rw [hstep _ (by omega)]
        have : offsetStep (irr g.1) i (base + i) s o = s := by
          unfold offsetStep
          rw [hm]
          dsimp only
          rw [if_neg (by omega), if_neg (by omega)]
        rw [this]
        omega
    · obtain ⟨p, p1, p2, p3, p4⟩ := ih (offsetLoop (irr x.1) i (base + i) s [o]) (i + 1) (by omega) g hg m hm
      exact ⟨p, p1, by omega, p3, p4⟩

/-- The place is the first one of the smallest number. -/
theorem minloc_first (l : List ℤ) (i : ℕ)
    (hi : i + 1 < minloc (fun x => decide (0 < x)) l) :
    l[i]? ≠ l[minloc (fun x => decide (0 < x)) l - 1]? := by
  unfold minloc at hi ⊢
  cases hm : (l.filter fun x => decide (0 < x)).min? with
  | none => rw [hm] at hi; simp at hi
  | some m =>
    rw [hm] at hi
    dsimp only at hi ⊢
    have hmem : m ∈ l := (List.mem_filter.1 (List.min?_eq_some_iff.1 hm).1).1
    have hlt := List.idxOf_lt_length_iff.2 hmem
    rw [Nat.add_sub_cancel, List.getElem?_eq_getElem hlt, List.getElem_idxOf hlt,
      List.getElem?_eq_getElem (by omega)]
    intro hc
    have := List.not_of_lt_findIdx (p := (· == m)) (xs := l) (i := i) (by unfold List.idxOf at hi; omega)
    exact (beq_eq_false_iff_ne.1 this) (Option.some.inj hc)

/-- C71 when there is only one offset: the number of irreducible k-points returned is the smallest one of all the grids of
the two lists, counted under the user's symmetries in the first list and under the default symmetries in the second; a grid
of the second list is returned only if it has fewer than all those of the first.  None is returned only if no grid has a
number. -/
theorem gridSelection_one_offset (irr irrDefault : G → Off → Option ℕ)
    (hirr : ∀ g o m, irr g o = some m → 1 ≤ m) (hdef : ∀ g o m, irrDefault g o = some m → 1 ≤ m)
    (list1 list2 : List (G × Mat3)) (o : Off) :
    ∃ r, gridSelection irr irrDefault list1 list2 [o] = .ok r ∧
      (∀ b, r = some b → b.offset = o ∧
        (((b.grid, b.HNF) ∈ list1 ∧ irr b.grid o = some b.n_irr) ∨
          ((b.grid, b.HNF) ∈ list2 ∧ irrDefault b.grid o = some b.n_irr ∧
            ∀ g ∈ list1, ∀ m, irr g.1 o = some m → b.n_irr < m)) ∧
        (∀ g ∈ list1, ∀ m, irr g.1 o = some m → b.n_irr ≤ m) ∧
        ∀ g ∈ list2, ∀ m, irrDefault g.1 o = some m → b.n_irr ≤ m) ∧
      (r = none → (∀ g ∈ list1, irr g.1 o = none) ∧ ∀ g ∈ list2, irrDefault g.1 o = none) := by
  unfold gridSelection
  simp only
  set s0 : SelState Off := ⟨fun _ => 0, fun _ => none⟩ with hs0
  set s1 := gridLoop irr [o] 0 s0 1 list1 with hs1
  set s2 := gridLoop irrDefault [o] list1.length s1 1 list2 with hs2
  set l := (List.range (list1.length + list2.length)).map fun i => (s2.n (i + 1) : ℤ) with hl
  have hlen : l.length = list1.length + list2.length := by simp [hl]
  have hget : ∀ i, i < list1.length + list2.length → l[i]? = some (s2.n (i + 1) : ℤ) := by
    intro i hi
    simp [hl, hi]
  have h12 : ∀ p, p ≤ list1.length → s2.n p = s1.n p ∧ s2.off p = s1.off p := fun p hp =>
    gridLoop_other irrDefault [o] list1.length list2 s1 1 p (.inl (by omega))
  have hv1 : ∀ q g, list1[q]? = some g → s2.n (q + 1) = 0 ∨
      s2.off (q + 1) = some o ∧ irr g.1 o = some (s2.n (q + 1)) := by
    intro q g hq
    have hlt : q < list1.length := (List.getElem?_eq_some_iff.1 hq).1
    obtain ⟨e1, e2⟩ := h12 (q + 1) (by omega)
    have := gridLoop_value irr [o] 0 list1 s0 1 (fun _ _ => rfl) q g hq
    rw [show 0 + 1 + q = q + 1 by omega, ← hs1] at this
    rw [e1, e2]
    simpa using this
  have hm1 : ∀ q g, list1[q]? = some g → ∀ m, irr g.1 o = some m → s2.n (q + 1) ≠ 0 ∧ s2.n (q + 1) ≤ m := by
    intro q g hq m hm
    have hlt : q < list1.length := (List.getElem?_eq_some_iff.1 hq).1
    have := gridLoop_min irr hirr [o] list1 s0 1 q g hq o (by simp) m hm
    rw [show 1 + q = q + 1 by omega, ← hs1] at this
    rw [(h12 (q + 1) (by omega)).1]
    exact this
  have hm2 : ∀ g ∈ list2, ∀ m, irrDefault g.1 o = some m →
      ∃ p, 1 ≤ p ∧ p ≤ list1.length + list2.length ∧ s2.n p ≠ 0 ∧ s2.n p ≤ m := by
    intro g hg m hm
    obtain ⟨p, p1, p2, p3, p4⟩ := gridLoop_single irrDefault hdef o list1.length list2 s1 1 le_rfl g hg m hm
    exact ⟨p, p1, by omega, p3, p4⟩
  have hv2 : ∀ q g, list2[q]? = some g → s2.n (list1.length + q + 1) = 0 ∨
      s2.off (list1.length + q + 1) = some o ∧ irrDefault g.1 o = some (s2.n (list1.length + q + 1)) := by
    intro q g hq
    have := gridLoop_value irrDefault [o] list1.length list2 s1 1 (fun p hp => ?_) q g hq
    · rw [show list1.length + 1 + q = list1.length + q + 1 by omega, ← hs2] at this
      simpa using this
    · exact (gridLoop_other irr [o] 0 list1 s0 1 p (.inr (by omega))).1
  by_cases hany : l.any (fun x => decide (0 < x)) = true
  · rw [if_pos hany]
    obtain ⟨x, a, b, c, d, e⟩ := minloc_spec l hany
    have hfirst := minloc_first l
    generalize minloc (fun x => decide (0 < x)) l = p at a b c hfirst ⊢
    rw [hlen] at b
    have hx : x = (s2.n p : ℤ) := by
      rw [hget (p - 1) (by omega), show p - 1 + 1 = p by omega] at c
      exact (Option.some.inj c).symm
    have hpos : s2.n p ≠ 0 := by omega
    have hmin1 : ∀ g ∈ list1, ∀ m, irr g.1 o = some m → s2.n p ≤ m := by
      intro g hg m hm
      obtain ⟨q, hq⟩ := List.mem_iff_getElem?.1 hg
      have hlt : q < list1.length := (List.getElem?_eq_some_iff.1 hq).1
      obtain ⟨k1, k2⟩ := hm1 q g hq m hm
      have := e (s2.n (q + 1) : ℤ) (List.mem_of_getElem? (hget q (by omega))) (by omega)
      omega
    have hmin2 : ∀ g ∈ list2, ∀ m, irrDefault g.1 o = some m → s2.n p ≤ m := by
      intro g hg m hm
      obtain ⟨q, q1, q2, q3, q4⟩ := hm2 g hg m hm
      have hq := hget (q - 1) (by omega)
      rw [show q - 1 + 1 = q by omega] at hq
      have := e (s2.n q : ℤ) (List.mem_of_getElem? hq) (by omega)
      omega
    by_cases hp : p ≤ list1.length
    · rw [if_pos hp]
      obtain ⟨g, hg⟩ : ∃ g, list1[p - 1]? = some g := ⟨_, List.getElem?_eq_getElem (by omega)⟩
      rw [hg]
      simp only
      have := hv1 (p - 1) g hg
      rw [show p - 1 + 1 = p by omega] at this
      rcases this with h | ⟨h1, h2⟩
      · exact absurd h hpos
      · rw [h1]
        refine ⟨_, rfl, ?_, by simp⟩
        intro b hb
        cases hb
        exact ⟨rfl, .inl ⟨List.mem_of_getElem? hg, h2⟩, hmin1, hmin2⟩
    · rw [if_neg hp]
      obtain ⟨g, hg⟩ : ∃ g, list2[p - list1.length - 1]? = some g :=
        ⟨_, List.getElem?_eq_getElem (by omega)⟩
      rw [hg]
      simp only
      have := hv2 (p - list1.length - 1) g hg
      rw [show list1.length + (p - list1.length - 1) + 1 = p by omega] at this
      rcases this with h | ⟨h1, h2⟩
      · exact absurd h hpos
      · rw [h1]
        refine ⟨_, rfl, ?_, by simp⟩
        intro b hb
        cases hb
        refine ⟨rfl, .inr ⟨List.mem_of_getElem? hg, h2, ?_⟩, hmin1, hmin2⟩
        intro g hg m hm
        obtain ⟨q, hq⟩ := List.mem_iff_getElem?.1 hg
        have hlt : q < list1.length := (List.getElem?_eq_some_iff.1 hq).1
        obtain ⟨k1, k2⟩ := hm1 q g hq m hm
        have k3 := e (s2.n (q + 1) : ℤ) (List.mem_of_getElem? (hget q (by omega))) (by omega)
        have k4 := hfirst q (by omega)
        rw [c, hget q (by omega), hx] at k4
        have k5 : s2.n (q + 1) ≠ s2.n p := fun h => k4 (by rw [h])
        dsimp only
        omega
  · rw [if_neg hany]
    have hno : ∀ p, 1 ≤ p → p ≤ list1.length + list2.length → s2.n p = 0 := by
      intro p p1 p2
      by_contra hne
      have hq := hget (p - 1) (by omega)
      rw [show p - 1 + 1 = p by omega] at hq
      refine hany (List.any_eq_true.2 ⟨_, List.mem_of_getElem? hq, ?_⟩)
      simp
      omega
    refine ⟨none, rfl, by simp, fun _ => ⟨fun g hg => ?_, fun g hg => ?_⟩⟩
    · by_contra hne
      obtain ⟨m, hm⟩ := Option.ne_none_iff_exists'.1 hne
      obtain ⟨q, hq⟩ := List.mem_iff_getElem?.1 hg
      have hlt : q < list1.length := (List.getElem?_eq_some_iff.1 hq).1
      exact (hm1 q g hq m hm).1 (hno _ (by omega) (by omega))
    · by_contra hne
      obtain ⟨m, hm⟩ := Option.ne_none_iff_exists'.1 hne
      obtain ⟨p, p1, p2, p3, -⟩ := hm2 g hg m hm
      exact p3 (hno p p1 p2)

/-- The hypotheses are met: the numbers are 6 and 4 in the first list, 7, 5 and 3 in the second. -/
example : ∃ b, gridSelection (fun g _ => some (g + 1)) (fun g _ => some (g + 1)) [(5, hnf 1 0 1 0 0 4), (3, hnf 1 0 2 0 0 2)]
      [(6, hnf 1 1 2 0 0 2), (4, hnf 2 0 2 0 0 1), (2, hnf 1 1 4 0 0 1)] [()] = .ok (some b) ∧ b.n_irr = 3 := by
  obtain ⟨r, h1, h2, h3⟩ := gridSelection_one_offset (fun (g : ℕ) (_ : Unit) => some (g + 1)) (fun g _ => some (g + 1))
    (by rintro g o m h; cases h; omega) (by rintro g o m h; cases h; omega) [(5, hnf 1 0 1 0 0 4), (3, hnf 1 0 2 0 0 2)]
    [(6, hnf 1 1 2 0 0 2), (4, hnf 2 0 2 0 0 1), (2, hnf 1 1 4 0 0 1)] ()
  cases r with
  | none => exact absurd ((h3 rfl).1 (5, hnf 1 0 1 0 0 4) (by simp)) (by simp)
  | some b =>
    refine ⟨b, h1, ?_⟩
    obtain ⟨-, a1, a2, a3⟩ := h2 b rfl
    have := a3 (2, hnf 1 1 4 0 0 1) (by simp) 3 rfl
    rcases a1 with ⟨a1, a4⟩ | ⟨a1, a4, -⟩ <;> have a5 := Option.some.inj a4 <;>
      (simp only [List.mem_cons, Prod.mk.injEq, List.not_mem_nil, or_false] at a1; omega)

end AutoGR.Fortran
