import Verif.Model.FortranPoscar
import Verif.Lemmas.FortranInput
import Verif.Spec.Poscar

/-!
# Lemmas about the words of a line and `read_POSCAR`
-/

namespace AutoGR.Fortran

open Spec

theorem words_tail {t : List Char} {ws : List (List Char)} (h : Words (' ' :: t) ws) : Words t ws := by
  generalize hl : (' ' :: t : List Char) = l at h
  cases h with
  | none n =>
    cases n with
    | zero => simp at hl
    | succ m =>
      rw [List.replicate_succ, List.cons.injEq] at hl
      rw [hl.2]
      exact .none m
  | @cons n word rest words hw hr h =>
    cases n with
    | zero =>
      obtain ⟨c, w, rfl⟩ := List.exists_cons_of_ne_nil hw.1
      simp only [List.replicate_zero, List.nil_append, List.cons_append, List.cons.injEq] at hl
      exact absurd (hl.1 ▸ List.mem_cons_self) hw.2
    | succ m =>
      rw [List.replicate_succ, List.cons_append, List.cons_append, List.cons.injEq] at hl
      rw [hl.2]
      exact .cons m hw hr h

theorem words_blanks {t : List Char} {ws : List (List Char)} :
    ∀ n, Words (List.replicate n ' ' ++ t) ws → Words t ws
  | 0, h => h
  | n + 1, h => words_blanks n (words_tail (by rwa [List.replicate_succ, List.cons_append] at h))

theorem words_adjustl {l : List Char} {ws : List (List Char)} (h : Words l ws) : Words (adjustl l) ws := by
  obtain ⟨n, hn⟩ := adjustl_split l
  rw [hn] at h
  exact words_blanks n h

theorem words_init {l : List Char} {ws : List (List Char)} (h : Words l ws) :
    ∀ a, l = a ++ [' '] → Words a ws := by
  induction h with
  | none n =>
    intro a ha
    cases n with
    | zero => simp at ha
    | succ m =>
      rw [List.replicate_succ'] at ha
      obtain ⟨rfl, -⟩ := List.append_inj' ha rfl
      exact .none m
  | @cons n word rest words hw hr h ih =>
    intro a ha
    rcases hr with rfl | ⟨t, rfl⟩
    · rw [List.append_nil] at ha
      exfalso
      obtain ⟨w, c, rfl⟩ := List.eq_nil_or_concat word |>.resolve_left hw.1
      rw [List.concat_eq_append, ← List.append_assoc] at ha
      obtain ⟨-, hc⟩ := List.append_inj' ha rfl
      simp only [List.cons.injEq, and_true] at hc
      apply hw.2
      rw [hc]
      simp
    · obtain ⟨r, c, hrc⟩ := List.eq_nil_or_concat (' ' :: t) |>.resolve_left (by simp)
      rw [List.concat_eq_append] at hrc
      rw [hrc, ← List.append_assoc] at ha
      obtain ⟨rfl, hc⟩ := List.append_inj' ha rfl
      rw [hc] at hrc
      refine .cons n hw ?_ (ih r hrc)
      cases r with
      | nil => exact .inl rfl
      | cons x r =>
        rw [List.cons_append, List.cons.injEq] at hrc
        exact .inr ⟨r, by rw [← hrc.1]⟩

theorem words_trim {l : List Char} {ws : List (List Char)} (h : Words l ws) : Words (trim l) ws := by
  obtain ⟨n, hn⟩ := trim_split l
  generalize trim l = t at hn
  subst hn
  induction n with
  | zero => simpa using h
  | succ n ih =>
    apply ih
    apply words_init h
    rw [List.replicate_succ', List.append_assoc]

theorem trim_length (l : List Char) : (trim l).length ≤ l.length := by
  obtain ⟨n, hn⟩ := trim_split l
  conv_rhs => rw [hn]
  simp

theorem adjustl_length (l : List Char) : (adjustl l).length ≤ l.length := by
  obtain ⟨n, hn⟩ := adjustl_split l
  conv_rhs => rw [hn]
  simp

theorem adjustl_head (l : List Char) : (adjustl l).head? ≠ some ' ' := by
  unfold adjustl
  intro h
  have := List.head?_dropWhile_not (fun x : Char => decide (x = ' ')) l
  rw [h] at this
  simp at this

/-- A line without words is blank. -/
theorem words_nil {l : List Char} (h : Words l []) : ∃ n, l = List.replicate n ' ' := by
  cases h with
  | none n => exact ⟨n, rfl⟩

theorem adjustl_replicate (n : ℕ) : adjustl (List.replicate n ' ') = [] := by
  unfold adjustl
  induction n with
  | zero => rfl
  | succ n ih => rw [List.replicate_succ, List.dropWhile_cons, if_pos (by simp), ih]

theorem trim_replicate (n : ℕ) : trim (List.replicate n ' ') = [] := by
  unfold trim
  have := adjustl_replicate n
  unfold adjustl at this
  rw [List.reverse_replicate, this]
  rfl

theorem split_str_words {line : List Char} {word : List Char} {words : List (List Char)}
    (h : Words line (word :: words)) (hl : line.length < 300) :
    (split_str line).1 = word ∧ word ≠ [] ∧ Words (split_str line).2 words ∧
      (split_str line).2.length < 300 ∧ ((split_str line).2 = [] ↔ words = []) := by
  have h1 := words_adjustl (words_trim h)
  have h2 : (adjustl (trim line)).length < 300 :=
    lt_of_le_of_lt ((adjustl_length _).trans (trim_length _)) hl
  have h3 := adjustl_head (trim line)
  unfold split_str
  generalize adjustl (trim line) = t at h1 h2 h3
  dsimp only
  rw [if_neg (by omega)]
  generalize hws : word :: words = ws at h1
  cases h1 with
  | none n => cases hws
  | @cons n w rest ws' hw hr h' =>
    cases hws
    cases n with
    | succ n => simp [List.replicate_succ] at h3
    | zero =>
      have htw : (word ++ rest).takeWhile (fun x => decide (x ≠ ' ')) = word := by
        rw [List.takeWhile_append_of_pos]
        · rcases hr with rfl | ⟨t, rfl⟩ <;> simp
        · intro x hx
          have : x ≠ ' ' := fun e => hw.2 (e ▸ hx)
          simpa using this
      have hdw : (word ++ rest).dropWhile (fun x => decide (x ≠ ' ')) = rest := by
        rw [List.dropWhile_append_of_pos]
        · rcases hr with rfl | ⟨t, rfl⟩ <;> simp
        · intro x hx
          have : x ≠ ' ' := fun e => hw.2 (e ▸ hx)
          simpa using this
      simp only [List.replicate_zero, List.nil_append]
      rw [htw, hdw]
      have hrt : Words rest.tail words := by
        rcases hr with rfl | ⟨t, rfl⟩
        · exact h'
        · exact words_tail h'
      have hlen : rest.tail.length < 300 := by
        simp only [List.replicate_zero, List.nil_append, List.length_append] at h2
        rw [List.length_tail]
        omega
      have hw2 := words_adjustl (words_trim hrt)
      refine ⟨rfl, hw.1, hw2, lt_of_le_of_lt ((adjustl_length _).trans (trim_length _)) hlen, ?_, ?_⟩
      · intro e
        rw [e] at hw2
        generalize hnil : ([] : List Char) = l at hw2
        cases hw2 with
        | none n => rfl
        | cons n hw _ _ =>
          have := congrArg List.length hnil
          simp only [List.length_nil, List.length_append] at this
          have h0 := List.length_pos_of_ne_nil hw.1
          omega
      · rintro rfl
        obtain ⟨n, hn⟩ := words_nil hrt
        rw [hn, trim_replicate]
        rfl

theorem words_length {l : List Char} {ws : List (List Char)} (h : Words l ws) : ws.length ≤ l.length := by
  induction h with
  | none n => simp
  | cons n hw hr h ih =>
    have := List.length_pos_of_ne_nil hw.1
    simp only [List.length_cons, List.length_append]
    omega

/-- The loop reads the words up to the first one that is not a number. -/
theorem parseLoop_words (int : List Char → Option ℤ) (junk : ℤ) :
    ∀ (fuel : ℕ) (line : List Char) (words : List (List Char)) (values acc : List ℤ), words ≠ [] →
      Words line words → line.length < 300 → words.map int = values.map some → words.length < fuel →
      parseLoop int junk fuel line acc = some ⟨acc.length + values.length, acc ++ values⟩
  | 0, _, _, _, _, _, _, _, _, hf => absurd hf (Nat.not_lt_zero _)
  | _ + 1, _, [], _, _, hne, _, _, _, _ => absurd rfl hne
  | fuel + 1, line, word :: words, values, acc, _, hw, hl, hv, hf => by
    obtain ⟨h1, h2, h3, h4, h5⟩ := split_str_words hw hl
    cases values with
    | nil => simp at hv
    | cons v vs =>
      simp only [List.map_cons, List.cons.injEq] at hv
      rw [parseLoop]
      rw [h1, if_neg h2, hv.1]
      dsimp only
      cases words with
      | nil =>
        rw [if_pos (h5.2 rfl)]
        have : vs = [] := by simpa using hv.2.symm
        subst this
        rfl
      | cons w ws =>
        rw [if_neg (fun e => by cases h5.1 e)]
        rw [parseLoop_words int junk fuel _ (w :: ws) vs (acc ++ [v]) (by simp) h3 h4 hv.2
          (by simp only [List.length_cons] at hf ⊢; omega)]
        simp only [List.length_append, List.length_cons, List.length_nil, List.append_assoc,
          List.cons_append, List.nil_append, Option.some.injEq, Parsed.mk.injEq, and_true]
        omega

theorem parse_words (int : List Char → Option ℤ) (junk : ℤ) {line : List Char} {words : List (List Char)}
    {values : List ℤ} (h : ShortWords line words) (hne : words ≠ []) (hv : words.map int = values.map some) :
    parse_line_for_numbers int junk (line.take 300) = some ⟨values.length, values⟩ := by
  obtain ⟨hw, hl⟩ := h
  rw [List.take_of_length_le hl.le]
  have h1 := words_trim (words_adjustl hw)
  have h2 : (trim (adjustl line)).length < 300 :=
    lt_of_le_of_lt ((trim_length _).trans (adjustl_length _)) hl
  unfold parse_line_for_numbers
  dsimp only
  have h3 := words_length h1
  have h4 := List.length_pos_of_ne_nil hne
  rw [if_neg (by rintro e; rw [e] at h3; simp only [List.length_nil] at h3; omega),
    parseLoop_words int junk 301 _ words values [] hne h1 h2 hv (by omega)]
  simp

/-- A line whose first word is not a number. -/
theorem parse_names (int : List Char → Option ℤ) (junk : ℤ) {line word : List Char} {words : List (List Char)}
    (h : ShortWords line (word :: words)) (hv : int word = none) :
    ∃ values, parse_line_for_numbers int junk (line.take 300) = some ⟨0, values⟩ := by
  obtain ⟨hw, hl⟩ := h
  rw [List.take_of_length_le hl.le]
  have h1 := words_trim (words_adjustl hw)
  have h2 : (trim (adjustl line)).length < 300 :=
    lt_of_le_of_lt ((trim_length _).trans (adjustl_length _)) hl
  unfold parse_line_for_numbers
  dsimp only
  split_ifs
  · exact ⟨_, rfl⟩
  · obtain ⟨e1, e2, -⟩ := split_str_words h1 h2
    refine ⟨[junk], ?_⟩
    rw [parseLoop]
    rw [e1, if_neg e2, hv]
    rfl

theorem typeLoop_length : ∀ (i : ℕ) (cs : List ℕ), (typeLoop i (cs.map fun n : ℕ => (n : ℤ))).length = cs.sum
  | _, [] => rfl
  | i, c :: cs => by
    rw [List.map_cons, typeLoop, List.length_append, typeLoop_length (i + 1) cs, List.sum_cons]
    split_ifs with h
    · simp
    · simp only [List.length_nil]
      omega

theorem typeLoop_ge : ∀ (i : ℕ) (cs : List ℕ), ∀ x ∈ typeLoop i (cs.map fun n : ℕ => (n : ℤ)), i ≤ x ∧ x < i + cs.length
  | _, [], x, hx => by simp [typeLoop] at hx
  | i, c :: cs, x, hx => by
    rw [List.map_cons, typeLoop, List.mem_append] at hx
    rw [List.length_cons]
    rcases hx with hx | hx
    · split_ifs at hx with h
      · rw [List.eq_of_mem_replicate hx]
        omega
      · simp at hx
    · have := typeLoop_ge (i + 1) cs x hx
      omega

theorem typeLoop_sorted : ∀ (i : ℕ) (cs : List ℕ), (typeLoop i (cs.map fun n : ℕ => (n : ℤ))).Pairwise (· ≤ ·)
  | _, [] => by simp [typeLoop]
  | i, c :: cs => by
    rw [List.map_cons, typeLoop, List.pairwise_append]
    refine ⟨?_, typeLoop_sorted (i + 1) cs, ?_⟩
    · split_ifs
      · exact List.pairwise_replicate.2 (.inr le_rfl)
      · exact List.Pairwise.nil
    · intro a ha b hb
      have h1 := typeLoop_ge (i + 1) cs b hb
      split_ifs at ha
      · rw [List.eq_of_mem_replicate ha]
        omega
      · simp at ha

theorem typeLoop_count : ∀ (i : ℕ) (cs : List ℕ) (j : ℕ) (hj : j < cs.length),
    (typeLoop i (cs.map fun n : ℕ => (n : ℤ))).count (i + j) = cs[j]
  | _, [], j, hj => absurd hj (Nat.not_lt_zero _)
  | i, c :: cs, 0, _ => by
    rw [List.map_cons, typeLoop, List.count_append]
    have h0 : (typeLoop (i + 1) (cs.map fun n : ℕ => (n : ℤ))).count (i + 0) = 0 := by
      rw [List.count_eq_zero]
      intro h
      have := typeLoop_ge (i + 1) cs _ h
      omega
    rw [h0]
    split_ifs with h
    · simp
    · simp only [List.count_nil, List.getElem_cons_zero]
      omega
  | i, c :: cs, j + 1, hj => by
    rw [List.map_cons, typeLoop, List.count_append]
    have h0 : (if 0 < (c : ℤ) then List.replicate (c : ℤ).toNat i else []).count (i + (j + 1)) = 0 := by
      rw [List.count_eq_zero]
      intro h
      split_ifs at h
      · have := List.eq_of_mem_replicate h
        omega
      · simp at h
    rw [h0, Nat.zero_add, show i + (j + 1) = i + 1 + j by omega,
      typeLoop_count (i + 1) cs j (by simpa using hj)]
    rfl

theorem readPositions_map (rd : Reader) : ∀ (lines : List (List Char)) (xs : List (ℚ × ℚ × ℚ))
    (extra : List (List Char)), lines.map rd.real3 = xs.map some →
    readPositions rd xs.length (lines ++ extra) = .ok (xs.map vec)
  | [], [], _, _ => rfl
  | [], _ :: _, _, h => by simp at h
  | _ :: _, [], _, h => by simp at h
  | l :: ls, x :: xs, extra, h => by
    simp only [List.map_cons, List.cons.injEq] at h
    rw [List.cons_append, List.length_cons, readPositions, h.1]
    dsimp only
    rw [readPositions_map rd ls xs extra h.2]
    rfl

theorem sum_cast (l : List ℕ) : (l.map fun n : ℕ => (n : ℤ)).sum.toNat = l.sum := by
  have : (l.map fun n : ℕ => (n : ℤ)).sum = (l.sum : ℤ) := by
    induction l with
    | nil => rfl
    | cons a l ih => rw [List.map_cons, List.sum_cons, List.sum_cons, ih]; push_cast; rfl
  rw [this, Int.toNat_natCast]

theorem adjustl_cons {n : ℕ} {c : Char} {rest : List Char} (hc : c ≠ ' ') :
    adjustl (List.replicate n ' ' ++ c :: rest) = c :: rest := by
  unfold adjustl
  rw [dropWhile_replicate _ _ (by simp), List.dropWhile_cons, if_neg (by simpa using hc)]

theorem mode_head {line : List Char} {m : Mode} (h : SaysMode line m) :
    ∃ c, (adjustl (trim line)).head? = some c ∧ (m = .cartesian ↔ c = 'c' ∨ c = 'C' ∨ c = 'k' ∨ c = 'K') := by
  obtain ⟨n, c, rest, rfl, hc, hm⟩ := h
  refine ⟨c, ?_, hm⟩
  obtain ⟨b, hb⟩ := trim_split (List.replicate n ' ' ++ c :: rest)
  generalize trim (List.replicate n ' ' ++ c :: rest) = t at hb
  -- the blanks at the end do not reach `c`
  have hlen : n < t.length := by
    by_contra hlt
    have hge : t.length ≤ n := by omega
    have e := congrArg (fun l => l[n]?) hb
    rw [List.getElem?_append_right (by simp), List.getElem?_append_right hge] at e
    simp only [List.length_replicate, Nat.sub_self, List.getElem?_cons_zero] at e
    have := List.mem_of_getElem? e.symm
    exact hc (List.eq_of_mem_replicate this)
  have ht : t = List.replicate n ' ' ++ c :: (t.drop (n + 1)) := by
    have e : t = (List.replicate n ' ' ++ c :: rest).take t.length := by rw [hb]; simp
    have e2 : t = List.replicate n ' ' ++ (c :: rest).take (t.length - n) := by
      conv_lhs => rw [e]
      rw [List.take_append, List.length_replicate, List.take_of_length_le (by simp; omega)]
    obtain ⟨k, hk⟩ : ∃ k, t.length - n = k + 1 := ⟨t.length - n - 1, by omega⟩
    rw [hk, List.take_succ_cons] at e2
    have e3 : t.drop (n + 1) = rest.take k := by
      rw [e2, List.drop_append]
      simp
    rw [e3]
    exact e2
  rw [ht, adjustl_cons hc]
  rfl

end AutoGR.Fortran
