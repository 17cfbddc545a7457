import Verif.Lemmas.FortranCompare
import Verif.Spec.Grid

/-!
# C70: the candidates `compare_grids` keeps

`geom H` is what the program computes from the matrix `H`: the reduced grid, the length of its shortest
vector, and whether it is packed densely enough.
-/

namespace AutoGR.Fortran

open Spec

variable {G : Type}

/-- C70, first part: for every list of matrices that is not empty, whatever the lengths are and however they
compare, no index leaves the arrays of `compare_grids`, and `ngrids` has a value at the end. -/
theorem compareAll_total (equal : ℚ → ℚ → Bool) (eps : ℚ) (geom : Mat3 → Geom G) (Hs : List Mat3)
    (hne : Hs ≠ []) : ∃ s, compareAll equal eps geom none Hs = .ok (some s) ∧
      s.list1.length ≤ s.size ∧ s.list2.length ≤ s.size := by
  obtain ⟨s, h1, h2, -⟩ := compareAll_ok equal eps geom Hs hne
  exact ⟨s, h1, h2.one, h2.two⟩

/-- The other half of that statement: for an empty list `ngrids` has no value. -/
theorem compareAll_nil (equal : ℚ → ℚ → Bool) (eps : ℚ) (geom : Mat3 → Geom G) :
    compareAll equal eps geom none [] = .ok none := rfl

/-- The matrices that are packed densely enough. -/
def packedHNFs (geom : Mat3 → Geom G) (Hs : List Mat3) : List Mat3 := Hs.filter fun H => (geom H).packed

/-- The entries of length `r`, in the order of the list. -/
def entriesOf (geom : Mat3 → Geom G) (Hs : List Mat3) (r : ℚ) : List (G × Mat3) :=
  ((packedHNFs geom Hs).filter fun H => decide ((geom H).rmin = r)).map fun H => ((geom H).grid, H)

/-- The lengths of the matrices that are packed densely enough. -/
def lengthsOf (geom : Mat3 → Geom G) (Hs : List Mat3) : List ℚ :=
  (packedHNFs geom Hs).map fun H => (geom H).rmin

/-- What holds after some of the matrices. -/
private inductive TopTwo (geom : Mat3 → Geom G) (P : List Mat3) (s : Best G) : Prop
  | none (h : lengthsOf geom P = []) (hs : s = ⟨0, 0, [], []⟩)
  | one (r : ℚ) (h : Largest (lengthsOf geom P) r) (h' : ∀ x ∈ lengthsOf geom P, x = r)
      (hs : s = ⟨r, 0, entriesOf geom P r, []⟩)
  | two (r1 r2 : ℚ) (h : Largest (lengthsOf geom P) r1) (h2 : r2 ∈ lengthsOf geom P) (hlt : r2 < r1)
      (h' : ∀ x ∈ lengthsOf geom P, x ≠ r1 → x ≤ r2)
      (hs : s = ⟨r1, r2, entriesOf geom P r1, entriesOf geom P r2⟩)

private theorem lengthsOf_append (geom : Mat3 → Geom G) (P : List Mat3) (H : Mat3) :
    lengthsOf geom (P ++ [H]) = lengthsOf geom P ++ if (geom H).packed then [(geom H).rmin] else [] := by
  unfold lengthsOf packedHNFs
  rw [List.filter_append, List.map_append]
  congr 1
  by_cases h : (geom H).packed = true <;> simp [h]

private theorem entriesOf_append (geom : Mat3 → Geom G) (P : List Mat3) (H : Mat3) (r : ℚ) :
    entriesOf geom (P ++ [H]) r = entriesOf geom P r ++
      if (geom H).packed = true ∧ (geom H).rmin = r then [((geom H).grid, H)] else [] := by
  unfold entriesOf packedHNFs
  rw [List.filter_append, List.filter_append, List.map_append]
  congr 1
  by_cases h : (geom H).packed = true <;> by_cases h' : (geom H).rmin = r <;> simp [h, h']

private theorem entriesOf_nil (geom : Mat3 → Geom G) (P : List Mat3) (r : ℚ)
    (h : r ∉ lengthsOf geom P) : entriesOf geom P r = [] := by
  unfold entriesOf
  rw [List.map_eq_nil_iff, List.filter_eq_nil_iff]
  intro H hH hr
  exact h (List.mem_map.2 ⟨H, hH, by simpa using hr⟩)

private theorem topTwo_step (equal : ℚ → ℚ → Bool) (eps : ℚ) (geom : Mat3 → Geom G) (P : List Mat3)
    (H : Mat3) (s : Best G) (hA : LengthsApart equal eps (lengthsOf geom (P ++ [H])))
    (h : TopTwo geom P s) : TopTwo geom (P ++ [H]) (bestStep equal eps geom s H) := by
  have hl := lengthsOf_append geom P H
  have he := entriesOf_append geom P H
  by_cases hp : (geom H).packed = true
  swap
  · have hl' : lengthsOf geom (P ++ [H]) = lengthsOf geom P := by simpa [hp] using hl
    have he' : ∀ r, entriesOf geom (P ++ [H]) r = entriesOf geom P r := fun r => by simpa [hp] using he r
    have hb : bestStep equal eps geom s H = s := by unfold bestStep; rw [if_neg hp]
    rw [hb]
    cases h with
    | none a b => exact .none (by rw [hl']; exact a) b
    | one r a b c => exact .one r (by rw [hl']; exact a) (by rw [hl']; exact b) (by rw [he']; exact c)
    | two r1 r2 a b c d e =>
      exact .two r1 r2 (by rw [hl']; exact a) (by rw [hl']; exact b) c (by rw [hl']; exact d)
        (by rw [he', he']; exact e)
  rw [if_pos hp] at hl
  simp only [hp, true_and] at he
  have hb : ∀ s : Best G, bestStep equal eps geom s H =
      if s.rmin1 + (geom H).rmin * eps < (geom H).rmin ∧ equal (geom H).rmin s.rmin1 = false then
        ⟨(geom H).rmin, s.rmin1, [((geom H).grid, H)], s.list1⟩
      else if s.rmin2 + (geom H).rmin * eps < (geom H).rmin ∧ equal (geom H).rmin s.rmin1 = false ∧
          equal (geom H).rmin s.rmin2 = false then
        ⟨s.rmin1, (geom H).rmin, s.list1, [((geom H).grid, H)]⟩
      else if equal (geom H).rmin s.rmin1 then
        ⟨s.rmin1, s.rmin2, s.list1 ++ [((geom H).grid, H)], s.list2⟩
      else if equal (geom H).rmin s.rmin2 then
        ⟨s.rmin1, s.rmin2, s.list1, s.list2 ++ [((geom H).grid, H)]⟩
      else s := by
    intro s
    unfold bestStep
    rw [if_pos hp]
  generalize (geom H).rmin = r at hl he hb
  generalize (geom H).grid = g at he hb
  have hrm : r ∈ lengthsOf geom (P ++ [H]) := by rw [hl]; simp
  have hP : ∀ x ∈ lengthsOf geom P, x ∈ lengthsOf geom (P ++ [H]) := fun x hx => by
    rw [hl]; exact List.mem_append_left _ hx
  obtain ⟨z1, z2, z3⟩ := hA.zero r hrm
  have hsame := hA.same r hrm
  have hmem : ∀ x ∈ lengthsOf geom (P ++ [H]), x ∈ lengthsOf geom P ∨ x = r := fun x hx => by
    rw [hl] at hx
    simpa using hx
  cases h with
  | none a b =>
    subst b
    have hnew : entriesOf geom (P ++ [H]) r = [(g, H)] := by
      rw [he, entriesOf_nil geom P r (by rw [a]; simp)]
      simp
    refine .one r ⟨hrm, fun x hx => ?_⟩ (fun x hx => ?_) ?_
    · rcases hmem x hx with h | h
      · rw [a] at h; simp at h
      · exact h.le
    · rcases hmem x hx with h | h
      · rw [a] at h; simp at h
      · exact h
    · rw [hb]
      dsimp only
      rw [if_pos ⟨by simpa using z2, z3⟩, hnew]
  | one q a b c =>
    subst c
    have hq := hP q a.1
    rcases lt_trichotomy q r with hlt | heq | hgt
    · -- a larger length
      obtain ⟨p1, p2, -⟩ := hA.apart r hrm q hq hlt
      have hnot : r ∉ lengthsOf geom P := fun h => by have := b r h; exact hlt.ne' this
      refine .two r q ⟨hrm, fun x hx => ?_⟩ hq hlt (fun x hx hne => ?_) ?_
      · rcases hmem x hx with h | h
        · rw [b x h]; exact hlt.le
        · exact h.le
      · rcases hmem x hx with h | h
        · exact (b x h).le
        · exact absurd h hne
      · rw [hb]
        dsimp only
        rw [if_pos ⟨p1, p2⟩, he, he, entriesOf_nil geom P r hnot, if_pos rfl, if_neg hlt.ne']
        simp
    · subst heq
      refine .one q ⟨hq, fun x hx => ?_⟩ (fun x hx => ?_) ?_
      · rcases hmem x hx with h | h
        · exact (b x h).le
        · exact h.le
      · rcases hmem x hx with h | h
        · exact b x h
        · exact h
      · rw [hb]
        dsimp only
        rw [if_neg (by simp [hsame]), if_neg (by simp [hsame]), if_pos hsame, he, if_pos rfl]
    · obtain ⟨p1, p2, p3⟩ := hA.apart q hq r hrm hgt
      have hnot : r ∉ lengthsOf geom P := fun h => by have := b r h; exact hgt.ne this
      refine .two q r ⟨hq, fun x hx => ?_⟩ hrm hgt (fun x hx hne => ?_) ?_
      · rcases hmem x hx with h | h
        · exact (b x h).le
        · rw [h]; exact hgt.le
      · rcases hmem x hx with h | h
        · exact absurd (b x h) hne
        · exact h.le
      · have hn1 : ¬(q + r * eps < r ∧ equal r q = false) := by
          rintro ⟨h, -⟩
          nlinarith [mul_nonneg z1.le hA.nonneg]
        rw [hb]
        dsimp only
        rw [if_neg hn1, if_pos ⟨by simpa using z2, p3, z3⟩, he, he,
          entriesOf_nil geom P r hnot, if_pos rfl, if_neg hgt.ne]
        simp
  | two r1 r2 a b c d e =>
    subst e
    have h1 := hP r1 a.1
    have h2 := hP r2 b
    have o1 : ∀ x ∈ lengthsOf geom P, x ≤ r1 := a.2
    have up : ∀ q ∈ lengthsOf geom (P ++ [H]), r < q → ¬(q + r * eps < r) := by
      intro q _ hq h
      nlinarith [mul_nonneg z1.le hA.nonneg]
    rcases lt_trichotomy r1 r with hlt | heq | hgt
    · -- a larger length
      obtain ⟨p1, p2, -⟩ := hA.apart r hrm r1 h1 hlt
      have hnot : r ∉ lengthsOf geom P := fun h => by have := o1 r h; linarith
      refine .two r r1 ⟨hrm, fun x hx => ?_⟩ h1 hlt (fun x hx hne => ?_) ?_
      · rcases hmem x hx with h | h
        · exact (o1 x h).trans hlt.le
        · exact h.le
      · rcases hmem x hx with h | h
        · exact o1 x h
        · exact absurd h hne
      · rw [hb]
        dsimp only
        rw [if_pos ⟨p1, p2⟩, he, he, entriesOf_nil geom P r hnot, if_pos rfl, if_neg hlt.ne']
        simp
    · -- the largest length again
      subst heq
      refine .two r1 r2 ⟨h1, fun x hx => ?_⟩ h2 c (fun x hx hne => ?_) ?_
      · rcases hmem x hx with h | h
        · exact o1 x h
        · exact h.le
      · rcases hmem x hx with h | h
        · exact d x h hne
        · exact absurd h hne
      · rw [hb]
        dsimp only
        rw [if_neg (by simp [hsame]), if_neg (by simp [hsame]), if_pos hsame, he, he, if_pos rfl,
          if_neg c.ne']
        simp
    · obtain ⟨-, p2, p3⟩ := hA.apart r1 h1 r hrm hgt
      rcases lt_trichotomy r2 r with hlt2 | heq2 | hgt2
      · -- between the two
        obtain ⟨q1, q2, -⟩ := hA.apart r hrm r2 h2 hlt2
        have hnot : r ∉ lengthsOf geom P := fun h => by have := d r h hgt.ne; linarith
        refine .two r1 r ⟨h1, fun x hx => ?_⟩ hrm hgt (fun x hx hne => ?_) ?_
        · rcases hmem x hx with h | h
          · exact o1 x h
          · rw [h]; exact hgt.le
        · rcases hmem x hx with h | h
          · exact (d x h hne).trans hlt2.le
          · exact h.le
        · rw [hb]
          dsimp only
          rw [if_neg fun h => up r1 h1 hgt h.1, if_pos ⟨q1, p3, q2⟩, he, he, entriesOf_nil geom P r hnot,
            if_pos rfl, if_neg hgt.ne]
          simp
      · -- the second length again
        subst heq2
        refine .two r1 r2 ⟨h1, fun x hx => ?_⟩ h2 c (fun x hx hne => ?_) ?_
        · rcases hmem x hx with h | h
          · exact o1 x h
          · rw [h]; exact hgt.le
        · rcases hmem x hx with h | h
          · exact d x h hne
          · exact h.le
        · rw [hb]
          dsimp only
          rw [if_neg fun h => up r1 h1 hgt h.1, if_neg (by simp [hsame]), if_neg (by simp [p3]), if_pos hsame,
            he, he, if_pos rfl, if_neg hgt.ne]
          simp
      · -- smaller than both
        obtain ⟨-, q2, q3⟩ := hA.apart r2 h2 r hrm hgt2
        refine .two r1 r2 ⟨h1, fun x hx => ?_⟩ h2 c (fun x hx hne => ?_) ?_
        · rcases hmem x hx with h | h
          · exact o1 x h
          · rw [h]; exact hgt.le
        · rcases hmem x hx with h | h
          · exact d x h hne
          · rw [h]; exact hgt2.le
        · rw [hb]
          dsimp only
          rw [if_neg fun h => up r1 h1 hgt h.1, if_neg fun h => up r2 h2 hgt2 h.1, if_neg (by simp [p3]),
            if_neg (by simp [q3]), he, he, if_neg hgt.ne, if_neg hgt2.ne]
          simp

private theorem topTwo_all (equal : ℚ → ℚ → Bool) (eps : ℚ) (geom : Mat3 → Geom G) (Hs : List Mat3)
    (hA : LengthsApart equal eps (lengthsOf geom Hs)) :
    TopTwo geom Hs (Hs.foldl (bestStep equal eps geom) ⟨0, 0, [], []⟩) := by
  induction Hs using List.reverseRecOn with
  | nil => exact .none rfl rfl
  | append_singleton P H ih =>
    have hsub : ∀ x ∈ lengthsOf geom P, x ∈ lengthsOf geom (P ++ [H]) := fun x hx => by
      rw [lengthsOf_append]; exact List.mem_append_left _ hx
    have hA' : LengthsApart equal eps (lengthsOf geom P) :=
      ⟨hA.nonneg, fun r hr => hA.zero r (hsub r hr), fun r hr => hA.same r (hsub r hr),
        fun r hr r' hr' => hA.apart r (hsub r hr) r' (hsub r' hr')⟩
    rw [List.foldl_append]
    exact topTwo_step equal eps geom P H _ hA (ih hA')

/-- C70, second part: when the tolerance tells the lengths apart, the first list holds every matrix that is
packed densely enough and has the largest length, in the order of the generator, the second list those with
the second largest length; and the lists are empty only if there is no such length.

Missing: lengths that the tolerance does not tell apart, where it fails, see `compareAll_order`. -/
theorem compareAll_lists_partial (equal : ℚ → ℚ → Bool) (eps : ℚ) (geom : Mat3 → Geom G) (Hs : List Mat3)
    (hne : Hs ≠ []) (hA : LengthsApart equal eps (lengthsOf geom Hs)) :
    ∃ s, compareAll equal eps geom none Hs = .ok (some s) ∧
      (∀ r, Largest (lengthsOf geom Hs) r → s.list1 = entriesOf geom Hs r) ∧
      (∀ r, SecondLargest (lengthsOf geom Hs) r → s.list2 = entriesOf geom Hs r) ∧
      ((¬∃ r, Largest (lengthsOf geom Hs) r) → s.list1 = []) ∧
      ((¬∃ r, SecondLargest (lengthsOf geom Hs) r) → s.list2 = []) := by
  obtain ⟨s, hs, -, hbest⟩ := compareAll_ok equal eps geom Hs hne
  have ht := topTwo_all equal eps geom Hs hA
  rw [← hbest] at ht
  have uniq : ∀ r r', Largest (lengthsOf geom Hs) r → Largest (lengthsOf geom Hs) r' → r = r' :=
    fun r r' h h' => le_antisymm (h'.2 r h.1) (h.2 r' h'.1)
  refine ⟨s, hs, ?_⟩
  have l1 : s.list1 = s.best.list1 := rfl
  have l2 : s.list2 = s.best.list2 := rfl
  rw [l1, l2]
  cases ht with
  | none a b =>
    rw [b]
    refine ⟨fun r h => ?_, fun r h => ?_, fun _ => rfl, fun _ => rfl⟩
    · have := h.1; rw [a] at this; simp at this
    · have := h.1; rw [a] at this; simp at this
  | one q a b c =>
    rw [c]
    refine ⟨fun r h => by rw [uniq r q h a], fun r h => ?_, fun h => absurd ⟨q, a⟩ h, fun _ => rfl⟩
    obtain ⟨hr, r1, h1, h2, -⟩ := h
    have := b r hr
    have := b r1 h1.1
    exact absurd h2 (by simp [*])
  | two r1 r2 a b c d e =>
    rw [e]
    have hsec : SecondLargest (lengthsOf geom Hs) r2 := ⟨b, r1, a, c, d⟩
    refine ⟨fun r h => by rw [uniq r r1 h a], fun r h => ?_, fun h => absurd ⟨r1, a⟩ h,
      fun h => absurd ⟨r2, hsec⟩ h⟩
    obtain ⟨hr, q, hq, hrq, hall⟩ := h
    have hq1 := uniq q r1 hq a
    subst hq1
    rw [le_antisymm (d r hr hrq.ne) (hall r2 b c.ne)]

/-- A sample: the length of `H` is its first entry, `H` is packed densely enough unless its last entry is 5. -/
private def sampleGeom (H : Mat3) : Geom Mat3 := ⟨H, (H 0 0 : ℚ), decide (H 2 2 ≠ 5)⟩

/-- Lengths are equal when they differ by at most 0.001. -/
def sampleEqual (a b : ℚ) : Bool := decide (|a - b| ≤ 1 / 1000)

/-- C70 is not vacuous: the lengths 1, 3, 2, 3, 2 and one matrix that is not packed densely enough. -/
example : LengthsApart sampleEqual (1 / 1000) (lengthsOf sampleGeom
      [hnf 1 0 1 0 0 1, hnf 3 0 1 0 0 1, hnf 2 0 1 0 0 1, hnf 9 0 1 0 0 5, hnf 3 1 2 0 0 1, hnf 2 1 2 0 0 1]) ∧
    lengthsOf sampleGeom
      [hnf 1 0 1 0 0 1, hnf 3 0 1 0 0 1, hnf 2 0 1 0 0 1, hnf 9 0 1 0 0 5, hnf 3 1 2 0 0 1, hnf 2 1 2 0 0 1] =
      [1, 3, 2, 3, 2] := by
  have h : lengthsOf sampleGeom
      [hnf 1 0 1 0 0 1, hnf 3 0 1 0 0 1, hnf 2 0 1 0 0 1, hnf 9 0 1 0 0 5, hnf 3 1 2 0 0 1, hnf 2 1 2 0 0 1] =
      [1, 3, 2, 3, 2] := by decide +kernel
  rw [h]
  exact ⟨⟨by norm_num, by decide +kernel, by decide +kernel, by decide +kernel⟩, rfl⟩

/-- C70 needs the lengths to be apart: with lengths 1, 1.0009 and 1.0018, of which neighbours count as equal,
the first list holds one matrix, two or all three, depending on the order in which they come. -/
theorem compareAll_order :
    let geom : Mat3 → Geom Mat3 := fun H => ⟨H, 1 + 9 / 10000 * (H 0 0 : ℚ), true⟩
    let len (Hs : List Mat3) : Option ℕ :=
      match compareAll sampleEqual (1 / 1000) geom none Hs with
      | .ok (some s) => some s.list1.length
      | _ => none
    let a := hnf 0 0 1 0 0 1
    let b := hnf 1 0 1 0 0 1
    let c := hnf 2 0 1 0 0 1
    len [a, b, c] = some 1 ∧ len [c, b, a] = some 2 ∧ len [b, c, a] = some 3 := by
  decide +kernel

end AutoGR.Fortran
