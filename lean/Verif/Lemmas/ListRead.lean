import Verif.Spec.Numeral
import Verif.Model.ListRead
import Mathlib.Data.List.TakeWhile
import Mathlib.Tactic.Ring

/-!
# Lemmas on list-directed reading
-/

namespace AutoGR.Fortran

open Spec

theorem readDigits_aux (ds : List Char) (n : ℕ) :
    ds.foldl (fun n c => 10 * n + (c.toNat - 48)) n = n * 10 ^ ds.length + digitsValue ds := by
  induction ds generalizing n with
  | nil => simp [digitsValue]
  | cons c t ih =>
    rw [List.foldl_cons, ih, digitsValue, List.length_cons, show '0'.toNat = 48 from rfl, pow_succ]
    ring

theorem readDigits_value (ds : List Char) : readDigits ds = digitsValue ds := by
  unfold readDigits
  rw [readDigits_aux, Nat.zero_mul, Nat.zero_add]

theorem takeWhile_stop {p : Char → Bool} {a b : List Char} (ha : ∀ c ∈ a, p c = true)
    (hb : ∀ c t, b = c :: t → p c = false) : (a ++ b).takeWhile p = a ∧ (a ++ b).dropWhile p = b := by
  induction a with
  | nil =>
    cases b with
    | nil => exact ⟨rfl, rfl⟩
    | cons c t =>
      have := hb c t rfl
      exact ⟨by simp [this], by simp [this]⟩
  | cons c t ih =>
    obtain ⟨h1, h2⟩ := ih fun x hx => ha x (List.mem_cons_of_mem _ hx)
    have hc := ha c List.mem_cons_self
    simp only [List.cons_append, List.takeWhile_cons, hc, if_true, h1, List.dropWhile_cons, h2, and_self]

theorem splitSign_sign {s t : List Char} {σ : ℤ} (h : Sign s σ)
    (ht : ∀ c u, t = c :: u → c ≠ '+' ∧ c ≠ '-') : splitSign (s ++ t) = (σ, t) := by
  rcases h with ⟨rfl | rfl, rfl⟩ | ⟨rfl, rfl⟩
  · rw [List.nil_append]
    cases t with
    | nil => rfl
    | cons c u =>
      obtain ⟨h1, h2⟩ := ht c u rfl
      unfold splitSign
      split
      · rename_i hc
        exact absurd (List.cons.inj hc).1 h1
      · rename_i hc
        exact absurd (List.cons.inj hc).1 h2
      · rfl
  · rfl
  · rfl

theorem digit_sign {c : Char} (h : c.isDigit = true) : c ≠ '+' ∧ c ≠ '-' ∧ c ≠ '.' ∧ endsValue c = false := by
  refine ⟨?_, ?_, ?_, ?_⟩
  · rintro rfl; revert h; decide
  · rintro rfl; revert h; decide
  · rintro rfl; revert h; decide
  · by_contra hc
    simp only [Bool.not_eq_false, endsValue, isBlank, Bool.or_eq_true, beq_iff_eq] at hc
    rcases hc with (((rfl | rfl) | rfl) | rfl) | rfl <;> revert h <;> decide

theorem parseInt_numeral {w : List Char} {z : ℤ} (h : IntNumeral w z) : parseInt w = some z := by
  obtain ⟨s, σ, ds, rfl, hs, hd, hne, rfl⟩ := h
  have hsp := splitSign_sign hs (t := ds) fun c u hc => by
    have := digit_sign (hd c (by rw [hc]; exact List.mem_cons_self))
    exact ⟨this.1, this.2.1⟩
  unfold parseInt
  rw [hsp]
  dsimp only
  rw [if_pos ⟨hne, List.all_eq_true.2 hd⟩, readDigits_value]

theorem parseExp_exponent {x : List Char} {e : ℤ} (h : Exponent x e) : parseExp x = some e := by
  rcases h with ⟨rfl, rfl⟩ | ⟨c, w, rfl, hc, hw⟩ | ⟨c, w, rfl, hc, hw⟩
  · rfl
  · unfold parseExp
    dsimp only
    rw [if_pos hc, parseInt_numeral hw]
  · unfold parseExp
    dsimp only
    simp only [List.mem_cons, List.not_mem_nil, or_false] at hc
    rw [if_neg (by rcases hc with rfl | rfl <;> decide), if_pos hc, parseInt_numeral hw]

theorem exponent_first {x : List Char} {e : ℤ} (h : Exponent x e) {c : Char} {t : List Char} (hx : x = c :: t) :
    c.isDigit = false ∧ c ≠ '.' := by
  rcases h with ⟨rfl, -⟩ | ⟨c', w, rfl, hc, -⟩ | ⟨c', w, rfl, hc, -⟩
  · cases hx
  · cases hx
    simp only [List.mem_cons, List.not_mem_nil, or_false] at hc
    rcases hc with rfl | rfl | rfl | rfl <;> decide
  · cases hx
    simp only [List.mem_cons, List.not_mem_nil, or_false] at hc
    rcases hc with rfl | rfl <;> decide

theorem parseReal_numeral {w : List Char} {q : ℚ} (h : RealNumeral w q) : parseReal w = some q := by
  obtain ⟨s, σ, i, p, f, x, e, rfl, hs, hi, hf, hne, hp, hx, rfl⟩ := h
  have hsp : splitSign (s ++ (i ++ (p ++ (f ++ x)))) = (σ, i ++ (p ++ (f ++ x))) := by
    refine splitSign_sign hs fun c u hc => ?_
    cases i with
    | cons c' i' =>
      cases hc
      have := digit_sign (hi c List.mem_cons_self)
      exact ⟨this.1, this.2.1⟩
    | nil =>
      rcases hp with rfl | ⟨rfl, rfl⟩
      · cases hc
        decide
      · simp at hne
  have hrest : ∀ c u, p ++ (f ++ x) = c :: u → c.isDigit = false := by
    intro c u hc
    rcases hp with rfl | ⟨rfl, rfl⟩
    · cases hc
      rfl
    · exact (exponent_first hx (by simpa using hc)).1
  obtain ⟨t1, t2⟩ := takeWhile_stop hi hrest
  obtain ⟨t3, t4⟩ := takeWhile_stop (b := x) hf fun c u hc => (exponent_first hx hc).1
  have hfx : splitPoint (p ++ (f ++ x)) = (f, x) := by
    rcases hp with rfl | ⟨rfl, rfl⟩
    · simp only [List.cons_append, List.nil_append, splitPoint]
      rw [t3, t4]
    · simp only [List.nil_append]
      unfold splitPoint
      split
      · rename_i u
        exact absurd rfl (exponent_first hx rfl).2
      · rfl
  unfold parseReal
  rw [hsp]
  dsimp only
  rw [t1, t2, hfx]
  dsimp only
  rw [if_neg (by rintro ⟨rfl, rfl⟩; simp at hne), parseExp_exponent hx, readDigits_value]

theorem splitSign_spec (w : List Char) : ∃ s, w = s ++ (splitSign w).2 ∧ Sign s (splitSign w).1 := by
  unfold splitSign
  split
  · exact ⟨['+'], rfl, .inl ⟨.inr rfl, rfl⟩⟩
  · exact ⟨['-'], rfl, .inr ⟨rfl, rfl⟩⟩
  · exact ⟨[], rfl, .inl ⟨.inl rfl, rfl⟩⟩

theorem parseInt_sound {w : List Char} {z : ℤ} (h : parseInt w = some z) : IntNumeral w z := by
  unfold parseInt at h
  dsimp only at h
  split at h
  · rename_i hc
    obtain ⟨s, hs, hs'⟩ := splitSign_spec w
    rw [← Option.some.inj h, readDigits_value]
    exact ⟨s, _, _, hs, hs', fun c hm => List.all_eq_true.1 hc.2 c hm, hc.1, rfl⟩
  · cases h

theorem parseExp_sound {x : List Char} {e : ℤ} (h : parseExp x = some e) : Exponent x e := by
  unfold parseExp at h
  split at h
  · exact .inl ⟨rfl, (Option.some.inj h).symm⟩
  · rename_i c t
    split at h
    · rename_i hc
      exact .inr (.inl ⟨c, t, rfl, hc, parseInt_sound h⟩)
    · split at h
      · rename_i hc
        exact .inr (.inr ⟨c, t, rfl, by simpa using hc, parseInt_sound h⟩)
      · cases h

theorem splitPoint_spec (t : List Char) : ∃ p, t = p ++ ((splitPoint t).1 ++ (splitPoint t).2) ∧
    Digits (splitPoint t).1 ∧ (p = ['.'] ∨ p = [] ∧ (splitPoint t).1 = []) := by
  unfold splitPoint
  split
  · rename_i u
    exact ⟨['.'], by simp, fun c hc => List.mem_takeWhile_imp hc, .inl rfl⟩
  · exact ⟨[], rfl, ⟨fun c hc => (List.not_mem_nil hc).elim, Or.inr ⟨rfl, rfl⟩⟩⟩

theorem parseReal_sound {w : List Char} {q : ℚ} (h : parseReal w = some q) : RealNumeral w q := by
  unfold parseReal at h
  dsimp only at h
  split at h
  · cases h
  · rename_i hne
    split at h
    · cases h
    · rename_i e he
      obtain ⟨s, hs, hs'⟩ := splitSign_spec w
      obtain ⟨p, hp, hp', hp''⟩ := splitPoint_spec ((splitSign w).2.dropWhile Char.isDigit)
      rw [← Option.some.inj h, readDigits_value]
      refine ⟨s, _, (splitSign w).2.takeWhile Char.isDigit, p, _, _, e, ?_, hs', fun c hc => List.mem_takeWhile_imp hc,
        hp', ?_, hp'', parseExp_sound he, rfl⟩
      · rw [← hp, List.takeWhile_append_dropWhile]
        exact hs
      · by_contra hc
        push Not at hc
        exact hne hc

theorem int_ends {w : List Char} {z : ℤ} (h : IntNumeral w z) : ∀ c ∈ w, endsValue c = false := by
  obtain ⟨s, σ, ds, rfl, hs, hd, -, -⟩ := h
  intro c hc
  rcases List.mem_append.1 hc with hc | hc
  · rcases hs with ⟨rfl | rfl, -⟩ | ⟨rfl, -⟩
    · cases hc
    · cases List.mem_singleton.1 hc
      decide
    · cases List.mem_singleton.1 hc
      decide
  · exact (digit_sign (hd c hc)).2.2.2

theorem real_ends {w : List Char} {q : ℚ} (h : RealNumeral w q) : ∀ c ∈ w, endsValue c = false := by
  obtain ⟨s, σ, i, p, f, x, e, rfl, hs, hi, hf, -, hp, hx, -⟩ := h
  intro c hc
  simp only [List.mem_append] at hc
  rcases hc with hc | hc | hc | hc | hc
  · rcases hs with ⟨rfl | rfl, -⟩ | ⟨rfl, -⟩
    · cases hc
    · cases List.mem_singleton.1 hc
      decide
    · cases List.mem_singleton.1 hc
      decide
  · exact (digit_sign (hi c hc)).2.2.2
  · rcases hp with rfl | ⟨rfl, -⟩
    · cases List.mem_singleton.1 hc
      decide
    · cases hc
  · exact (digit_sign (hf c hc)).2.2.2
  · rcases hx with ⟨rfl, -⟩ | ⟨c', w, rfl, hc', hw⟩ | ⟨c', w, rfl, hc', hw⟩
    · cases hc
    · rcases List.mem_cons.1 hc with rfl | hc
      · simp only [List.mem_cons, List.not_mem_nil, or_false] at hc'
        rcases hc' with rfl | rfl | rfl | rfl <;> decide
      · exact int_ends hw c hc
    · exact int_ends hw c hc

theorem nextValue_word {line w : List Char} {more : List (List Char)} (h : Words line (w :: more))
    (hw : ∀ c ∈ w, endsValue c = false) :
    (nextValue line).1 = w ∧ ∃ l, Words l more ∧ (nextValue line).2 = l ∧ (l = [] ∨ ∃ t, l = ' ' :: t) := by
  cases h with
  | cons n hne hr hrest =>
    rename_i rest
    have hblank : ∀ c ∈ w, isBlank c = false := fun c hc => by
      have := hw c hc
      unfold endsValue at this
      simp only [Bool.or_eq_false_iff] at this
      exact this.1.1.1
    have hd : (List.replicate n ' ' ++ w ++ rest).dropWhile isBlank = w ++ rest := by
      rw [List.append_assoc]
      refine (takeWhile_stop (a := List.replicate n ' ') (b := w ++ rest) ?_ ?_).2
      · intro c hc
        rw [List.eq_of_mem_replicate hc]
        rfl
      · intro c t hc
        cases w with
        | nil => exact absurd rfl hne.1
        | cons c' w' =>
          cases hc
          exact hblank c List.mem_cons_self
    obtain ⟨t1, t2⟩ := takeWhile_stop (p := fun c => !endsValue c) (a := w) (b := rest)
      (fun c hc => by rw [hw c hc]; rfl) (fun c t hc => by
        rcases hr with rfl | ⟨u, rfl⟩
        · cases hc
        · cases hc
          rfl)
    unfold nextValue
    dsimp only
    rw [hd, t1, t2]
    exact ⟨rfl, rest, hrest, rfl, hr⟩

/-- Blanks between the words do not matter. -/
theorem words_after {line w : List Char} {more : List (List Char)} (h : Words line (w :: more))
    (hn : ∀ c ∈ w, endsValue c = false) : Words (afterValue line) (w :: more) := by
  cases h with
  | cons n hne hr hrest =>
    rename_i rest
    cases w with
    | nil => exact absurd rfl hne.1
    | cons c' w' =>
      have hc' := hn c' List.mem_cons_self
      have hb : isBlank c' = false := by
        unfold endsValue at hc'
        simp only [Bool.or_eq_false_iff] at hc'
        exact hc'.1.1.1
      have hd : (List.replicate n ' ' ++ (c' :: w') ++ rest).dropWhile isBlank = c' :: w' ++ rest := by
        rw [List.append_assoc]
        refine (takeWhile_stop (a := List.replicate n ' ') (b := c' :: w' ++ rest) ?_ ?_).2
        · intro c hc
          rw [List.eq_of_mem_replicate hc]
          rfl
        · intro c t hc
          cases hc
          exact hb
      have ha : afterValue (List.replicate n ' ' ++ (c' :: w') ++ rest) = c' :: w' ++ rest := by
        unfold afterValue
        rw [hd]
        split
        · rename_i hc
          cases hc
          exact absurd hc' (by decide)
        · rfl
      rw [ha]
      exact Words.cons 0 hne hr hrest

end AutoGR.Fortran
