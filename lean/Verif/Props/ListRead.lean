import Verif.Lemmas.ListRead
import Verif.Lemmas.Float

/-!
# C114: the numbers of the input files

The other theorems about the files take the reading of numbers as a parameter (`Reader`).  Here is the reader of the
Fortran system: it reads numbers in the usual decimal notation, blanks between them, as the numbers they stand for.
-/

namespace AutoGR.Fortran

open Spec

/-- C114: integers, real numbers and triples of real numbers are read as they are written, in any notation that
`RealNumeral` describes, with any number of blanks before, between and after them. -/
theorem listReader_decimals (fl : ℚ → ℚ) : ReadsDecimals fl (listReader fl) where
  int := by
    rintro line z ⟨w, more, hw, hz, h1, h2⟩
    have := (nextValue_word hw (int_ends hz)).1
    simp only [listReader]
    rw [this, parseInt_numeral hz]
    dsimp only
    rw [if_pos ⟨h1, h2⟩]
  real := by
    rintro line q ⟨w, more, hw, hq⟩
    have := (nextValue_word hw (real_ends hq)).1
    simp only [listReader, readReals]
    rw [this, parseReal_numeral hq]
    rfl
  real3 := by
    rintro line ⟨a, b, c⟩ ⟨w1, w2, w3, more, hw, ha, hb, hc⟩
    obtain ⟨e1, l1, hl1, f1, -⟩ := nextValue_word hw (real_ends ha)
    obtain ⟨e2, l2, hl2, f2, -⟩ := nextValue_word (words_after hl1 (real_ends hb)) (real_ends hb)
    obtain ⟨e3, -⟩ := nextValue_word (words_after hl2 (real_ends hc)) (real_ends hc)
    simp only [listReader, readReals]
    rw [e1, parseReal_numeral ha, f1]
    dsimp only
    rw [e2, parseReal_numeral hb, f2]
    dsimp only
    rw [e3, parseReal_numeral hc]
    rfl
  names := by
    rintro line c t rfl hc
    have hd : c.isDigit = false := by
      simp only [Char.isAlpha, Char.isUpper, Char.isLower, Char.isDigit, Bool.or_eq_true, Bool.and_eq_true,
        decide_eq_true_eq, Bool.and_eq_false_iff, decide_eq_false_iff_not] at hc ⊢
      right
      have h1 : (65 : UInt32) ≤ c.val := by
        rcases hc with h | h
        · exact h.1
        · exact UInt32.le_trans (show (65 : UInt32) ≤ 97 by decide) h.1
      exact fun h => absurd (UInt32.le_trans h1 h) (by decide)
    have hne (x : Char) (hx : x.isAlpha = false) : c ≠ x := by
      rintro rfl
      rw [hx] at hc
      cases hc
    have he : endsValue c = false := by
      simp only [endsValue, isBlank, Bool.or_eq_false_iff, beq_eq_false_iff_ne]
      exact ⟨⟨⟨⟨hne _ (by decide), hne _ (by decide)⟩, hne _ (by decide)⟩, hne _ (by decide)⟩, hne _ (by decide)⟩
    have hb : isBlank c = false := by
      unfold endsValue at he
      simp only [Bool.or_eq_false_iff] at he
      exact he.1.1.1
    have hn : ∃ u, (nextValue (c :: t)).1 = c :: u := by
      unfold nextValue
      refine ⟨t.takeWhile fun c => !endsValue c, ?_⟩
      simp [hb, he]
    obtain ⟨u, hu⟩ := hn
    have hp : parseInt (c :: u) = none := by
      unfold parseInt
      have : splitSign (c :: u) = (1, c :: u) := by
        unfold splitSign
        split
        · rename_i h
          exact absurd (List.cons.inj h).1 (hne _ (by decide))
        · rename_i h
          exact absurd (List.cons.inj h).1 (hne _ (by decide))
        · rfl
      rw [this]
      dsimp only
      rw [if_neg]
      rintro ⟨-, h⟩
      rw [List.all_cons, hd] at h
      cases h
    simp only [listReader]
    rw [hu, hp]

/-- C114: a word is read as a number exactly if it is one. -/
theorem parseReal_iff (w : List Char) (q : ℚ) : parseReal w = some q ↔ RealNumeral w q :=
  ⟨parseReal_sound, parseReal_numeral⟩

/-- C114: a word is read as an integer exactly if it is one. -/
theorem parseInt_iff (w : List Char) (z : ℤ) : parseInt w = some z ↔ IntNumeral w z :=
  ⟨parseInt_sound, parseInt_numeral⟩

/-- C114: a number has one value. -/
theorem realNumeral_unique {w : List Char} {p q : ℚ} (hp : RealNumeral w p) (hq : RealNumeral w q) : p = q :=
  Option.some.inj ((parseReal_numeral hp).symm.trans (parseReal_numeral hq))

theorem words_single {w : List Char} (h : w ≠ [] ∧ ' ' ∉ w) : Words w [w] := by
  have := Words.cons (word := w) (rest := []) 0 h (.inl rfl) (.none 0)
  simpa using this

/-- C114: whatever reads numbers in the usual notation reads the file as it is written, up to the rounding of the
numbers. -/
theorem poscarText_says {fl : ℚ → ℚ} {rd : Reader} (hr : ReadsDecimals fl rd) {lines : List (List Char)} {d : PoscarData}
    (h : PoscarText lines d) : PoscarSays rd lines (d.rounded fl) := by
  obtain ⟨title, scale, l1, l2, l3, names, counts, mode, positions, extra, words, h1, h2, h3, h4, h5, h6, h7, h8, h9,
    h10, h11, h12, h13⟩ := h
  refine ⟨title, scale, l1, l2, l3, names, counts, mode, positions, extra, h1, hr.real _ _ h2, hr.real3 _ _ h3,
    hr.real3 _ _ h4, hr.real3 _ _ h5, ?_, h7, ⟨words, h8, ?_⟩, h10, h11, ?_, ?_⟩
  · rcases h6 with h6 | ⟨line, c, word, more, h6, h6', h6''⟩
    · exact .inl h6
    · exact .inr ⟨line, c :: word, more, h6, h6', hr.names _ c word rfl h6''⟩
  · show words.map rd.int = d.counts.map _
    have hw : ∀ w ∈ words, w ≠ [] ∧ ' ' ∉ w := by
      have : ∀ {l ws}, Words l ws → ∀ w ∈ ws, w ≠ [] ∧ ' ' ∉ w := by
        intro l ws hl
        induction hl with
        | none => intro w hw; cases hw
        | cons n hne hr hrest ih =>
          intro w hw
          rcases List.mem_cons.1 hw with rfl | hw
          · exact hne
          · exact ih w hw
      exact this h8.1
    clear h8
    revert hw
    generalize d.counts = cs at h9
    induction h9 with
    | nil => intro; rfl
    | cons hwn _ ih =>
      rename_i w n ws ns _
      intro hw
      rw [List.map_cons, List.map_cons, ih fun x hx => hw x (List.mem_cons_of_mem _ hx)]
      congr 1
      refine hr.int _ _ ⟨w, [], words_single (hw w List.mem_cons_self), hwn.1, ?_, by exact_mod_cast hwn.2⟩
      have : (0 : ℤ) ≤ n := Int.natCast_nonneg n
      omega
  · show positions.map rd.real3 = (d.positions.map _).map some
    clear h13 h1
    generalize d.positions = ps at h12
    induction h12 with
    | nil => rfl
    | cons hx _ ih =>
      rw [List.map_cons, List.map_cons, List.map_cons, ih, hr.real3 _ _ hx]
  · show (d.positions.map _).length = _
    rw [List.length_map]
    exact h13

/-! ## Examples -/

/-- `-01.50d-3` is `-0.0015`. -/
theorem sample_numeral : RealNumeral "-01.50d-3".toList (-3 / 2000) := parseReal_sound (by decide +kernel)

example : (listReader id).real "  -01.50d-3  comment".toList = some (-3 / 2000) :=
  (listReader_decimals id).real _ _ ⟨"-01.50d-3".toList, ["comment".toList],
    Words.cons (word := "-01.50d-3".toList) (rest := "  comment".toList) 2 (by decide) (.inr ⟨_, rfl⟩)
      (Words.cons (word := "comment".toList) (rest := []) 2 (by decide) (.inl rfl) (.none 0)), sample_numeral⟩

/-- Words that are no numbers. -/
example : ∀ w ∈ ["", ".", "1e", "1.2.3", "--1", "0x10", "1_8"], ∀ q, ¬ RealNumeral w.toList q := by
  intro w hw q
  rw [← parseReal_iff]
  have : ∀ w ∈ ["", ".", "1e", "1.2.3", "--1", "0x10", "1_8"], parseReal w.toList = none := by decide +kernel
  rw [this w hw]
  simp

end AutoGR.Fortran
