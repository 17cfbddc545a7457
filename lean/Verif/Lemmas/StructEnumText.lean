import Verif.Lemmas.StructEnum
import Mathlib.Tactic

/-!
# Reading the lines of `struct_enum.in`
-/

namespace AutoGR.Brute

open Fortran Spec

/-- Blanks. -/
abbrev blanks (n : ℕ) : List Char := List.replicate n ' '

theorem fit_length (n : ℕ) (l : List Char) : (fit n l).length = n := by
  simp [fit]

theorem fit_blanks (m n : ℕ) (x : List Char) : fit m (x ++ blanks n) = fit m x := by
  unfold fit blanks
  rw [List.append_assoc, List.replicate_append_replicate]
  rw [List.take_append, List.take_append, List.take_replicate, List.take_replicate]
  congr 2
  omega

theorem fit_short {m : ℕ} {x : List Char} (h : x.length ≤ m) : fit m x = x ++ blanks (m - x.length) := by
  unfold fit blanks
  rw [List.take_append, List.take_of_length_le h, List.take_replicate]
  congr 2
  omega

theorem dropWhile_blanks (x : List Char) (n : ℕ) (m : ℕ) :
    fit m ((x ++ blanks n).dropWhile (· == ' ')) = fit m (x.dropWhile (· == ' ')) := by
  induction x with
  | nil =>
    have : (blanks n).dropWhile (· == ' ') = [] := by
      rw [List.dropWhile_eq_nil_iff]
      intro c hc
      rw [List.eq_of_mem_replicate hc]
      rfl
    simp only [List.nil_append, this, List.dropWhile_nil]
  | cons c t ih =>
    by_cases hc : c = ' '
    · subst hc
      rw [List.cons_append, List.dropWhile_cons_of_pos (by rfl), List.dropWhile_cons_of_pos (by rfl)]
      exact ih
    · have : ¬ ((c == ' ') = true) := by simpa using hc
      rw [List.cons_append, List.dropWhile_cons_of_neg (p := fun x => x == ' ') this,
        List.dropWhile_cons_of_neg (p := fun x => x == ' ') this, ← List.cons_append]
      exact fit_blanks _ _ _

theorem fit_fit {m n : ℕ} {x : List Char} (h : x.length ≤ n) : fit m (fit n x) = fit m x := by
  rw [fit_short h, fit_blanks]

theorem fit_adjustl (m : ℕ) (x : List Char) : fit m (adjustl x) = fit m (x.dropWhile (· == ' ')) := by
  unfold adjustl
  exact fit_fit (List.length_dropWhile_le _ _)

theorem fit_self {m : ℕ} {x : List Char} (h : x.length = m) : fit m x = x := by
  rw [fit_short h.le, h, Nat.sub_self]
  simp

/-- A word in front of a blank or the end. -/
theorem dropWhile_word {w r : List Char} (hw : ' ' ∉ w) : (w ++ ' ' :: r).dropWhile (· != ' ') = ' ' :: r := by
  induction w with
  | nil => rfl
  | cons c t ih =>
    have hc : c ≠ ' ' := fun h => hw (by rw [h]; exact List.mem_cons_self)
    rw [List.cons_append, List.dropWhile_cons_of_pos (by simpa using hc)]
    exact ih fun h => hw (List.mem_cons_of_mem _ h)

theorem ends_blank {c : Char} (h : endsValue c = false) : isBlank c = false := by
  unfold endsValue at h
  simp only [Bool.or_eq_false_iff] at h
  exact h.1.1.1

theorem ends_ne {c : Char} (h : endsValue c = false) : c ≠ ' ' ∧ c ≠ '/' ∧ c ≠ ',' := by
  refine ⟨?_, ?_, ?_⟩ <;> rintro rfl <;> revert h <;> decide

/-- The value of a string that begins with a word. -/
theorem nextValue_start {w r : List Char} (hne : w ≠ []) (hw : ∀ c ∈ w, endsValue c = false)
    (hr : ∀ c t, r = c :: t → endsValue c = true) : nextValue (w ++ r) = (w, r) := by
  unfold nextValue
  have hd : (w ++ r).dropWhile isBlank = w ++ r := by
    cases w with
    | nil => exact absurd rfl hne
    | cons c t =>
      rw [List.cons_append, List.dropWhile_cons_of_neg]
      rw [ends_blank (hw c List.mem_cons_self)]
      simp
  obtain ⟨t1, t2⟩ := takeWhile_stop (p := fun c => !endsValue c) (a := w) (b := r)
    (fun c hc => by rw [hw c hc]; rfl) (fun c t hc => by rw [hr c t hc]; rfl)
  rw [hd]
  dsimp only
  rw [t1, t2]

/-- One coordinate. -/
theorem coordinate_word (fl : ℚ → ℚ) {w r : List Char} {q : ℚ} (hq : RealNumeral w q) (hl : (w ++ ' ' :: r).length ≤ 100) :
    coordinate fl (fit 100 (w ++ ' ' :: r)) = some (fl q, fit 100 (r.dropWhile (· == ' '))) := by
  have he := real_ends hq
  have hne : w ≠ [] := by
    obtain ⟨s, σ, i, p, f, x, e, rfl, -, -, -, h, -⟩ := hq
    intro hh
    simp only [List.append_eq_nil_iff] at hh
    rcases h with h | h
    · exact h hh.2.1
    · exact h hh.2.2.2.1
  rw [fit_short hl]
  generalize hn : 100 - (w ++ ' ' :: r).length = n
  have e1 : w ++ ' ' :: r ++ blanks n = w ++ ' ' :: (r ++ blanks n) := by simp
  have hnv : nextValue (w ++ ' ' :: (r ++ blanks n)) = (w, ' ' :: (r ++ blanks n)) :=
    nextValue_start hne he (fun c t h => by cases h; rfl)
  unfold coordinate
  rw [e1, hnv]
  dsimp only
  rw [parseReal_numeral hq]
  dsimp only
  rw [if_pos (by simp), dropWhile_word fun h => (ends_ne (he _ h)).1 rfl, fit_adjustl,
    List.dropWhile_cons_of_pos (by rfl), dropWhile_blanks]

/-- Blanks, and then nothing or a comment. -/
def Tail (v : List Char) : Prop := ∃ n t, v = blanks n ++ t ∧ (t = [] ∨ ∃ u, t = '#' :: u)

theorem Tail.take {v : List Char} (h : Tail v) (j : ℕ) : Tail (v.take j) := by
  obtain ⟨n, t, rfl, ht⟩ := h
  refine ⟨min j n, t.take (j - n), ?_, ?_⟩
  · rw [List.take_append, List.take_replicate, List.length_replicate]
  · rcases ht with rfl | ⟨u, rfl⟩
    · left
      simp
    · cases h : j - n with
      | zero => left; rfl
      | succ i => right; exact ⟨u.take i, rfl⟩

theorem Tail.pad {v : List Char} (h : Tail v) (j : ℕ) : Tail (v ++ blanks j) := by
  obtain ⟨n, t, rfl, ht⟩ := h
  rcases ht with rfl | ⟨u, rfl⟩
  · refine ⟨n + j, [], ?_, .inl rfl⟩
    simp [blanks]
  · exact ⟨n, '#' :: (u ++ blanks j), by simp, .inr ⟨_, rfl⟩⟩

theorem Tail.set {v : List Char} (h : Tail v) (j : ℕ) : Tail (v.set j '#') := by
  obtain ⟨n, t, rfl, ht⟩ := h
  by_cases hj : j < n
  · refine ⟨j, '#' :: (blanks (n - j - 1) ++ t), ?_, .inr ⟨_, rfl⟩⟩
    rw [List.set_append_left _ _ (by simpa using hj)]
    have : blanks n = blanks j ++ ' ' :: blanks (n - j - 1) := by
      unfold blanks
      rw [← List.replicate_succ, List.replicate_append_replicate]
      congr 1
      omega
    rw [this, List.set_append_right _ _ (by simp)]
    simp
  · refine ⟨n, t.set (j - n) '#', ?_, ?_⟩
    · rw [List.set_append_right _ _ (by simpa using hj)]
      simp
    · rcases ht with rfl | ⟨u, rfl⟩
      · left; rfl
      · right
        cases j - n with
        | zero => exact ⟨u, rfl⟩
        | succ i => exact ⟨u.set i '#', rfl⟩

theorem Tail.takeWhile {v : List Char} (h : Tail v) : ∃ n, v.takeWhile (· != '#') = blanks n := by
  obtain ⟨n, t, rfl, ht⟩ := h
  refine ⟨n, ?_⟩
  refine (takeWhile_stop (p := fun c => c != '#') (a := blanks n) (b := t) ?_ ?_).1
  · intro c hc
    rw [List.eq_of_mem_replicate hc]
    rfl
  · rintro c u rfl
    rcases ht with h | ⟨x, h⟩
    · cases h
    · cases h
      rfl

theorem trim_blanks {w : List Char} (n : ℕ) (hw : ' ' ∉ w) : trim (w ++ blanks n) = w := by
  unfold trim
  rw [List.reverse_append]
  have e : (blanks n).reverse = blanks n := by simp [blanks]
  rw [e, (takeWhile_stop (p := fun c => c == ' ') (a := blanks n) (b := w.reverse) ?_ ?_).2, List.reverse_reverse]
  · intro c hc
    rw [List.eq_of_mem_replicate hc]
    rfl
  · intro c t h
    have : c ∈ w := by
      rw [← List.mem_reverse, h]
      exact List.mem_cons_self
    have hc : c ≠ ' ' := fun h => hw (h ▸ this)
    simpa using hc

/-- The labels, without the comment, and a slash behind them. -/
theorem labelText_word {w v : List Char} (h1 : ' ' ∉ w) (h2 : '#' ∉ w) (hl : w.length < 100) (hv : Tail v)
    (ht : (w ++ v).length ≤ 100) :
    labelText (fit 100 (w ++ v)) = fit 100 (w ++ ['/']) := by
  unfold labelText
  rw [fit_short ht, List.append_assoc, List.set_append_right _ _ (by omega)]
  have hT := (hv.pad (100 - (w ++ v).length)).set (99 - w.length)
  obtain ⟨n, hn⟩ := hT.takeWhile
  have : (w ++ (v ++ blanks (100 - (w ++ v).length)).set (99 - w.length) '#').takeWhile (· != '#') = w ++ blanks n := by
    rw [← hn]
    apply List.takeWhile_append_of_pos
    intro c hc
    have : c ≠ '#' := fun h => h2 (h ▸ hc)
    simpa using this
  rw [this, trim_blanks n h1]

theorem int_first {w : List Char} {z : ℤ} (h : IntNumeral w z) : ∃ c t, w = c :: t := by
  obtain ⟨s, σ, ds, rfl, -, -, hne, -⟩ := h
  cases s with
  | nil =>
    cases ds with
    | nil => exact absurd rfl hne
    | cons c t => exact ⟨c, t, rfl⟩
  | cons c t => exact ⟨c, t ++ ds, rfl⟩

theorem int_hash {w : List Char} {z : ℤ} (h : IntNumeral w z) : '#' ∉ w := by
  obtain ⟨s, σ, ds, rfl, hs, hd, -, -⟩ := h
  intro h
  rcases List.mem_append.1 h with h | h
  · rcases hs with ⟨rfl | rfl, -⟩ | ⟨rfl, -⟩ <;> simp at h
  · have := hd _ h
    revert this
    decide

/-- Labels with slashes between and behind them. -/
def slashed : List (List Char) → List Char
  | [] => []
  | w :: ws => w ++ '/' :: slashed ws

theorem slashed_intercalate : ∀ {ws : List (List Char)}, ws ≠ [] → List.intercalate ['/'] ws ++ ['/'] = slashed ws
  | [w], _ => by simp [slashed, List.intercalate]
  | w :: w' :: ws, _ => by
    have := slashed_intercalate (ws := w' :: ws) (by simp)
    rw [slashed, ← this, List.intercalate_cons_cons]
    simp

theorem labelLoop_words (k : ℕ) : ∀ (ws : List (List Char)) (ns : List ℕ) (left i : ℕ), ws ≠ [] →
    List.Forall₂ (fun w (n : ℕ) => IntNumeral w n ∧ n < 2 ^ 31) ws ns → (∀ n ∈ ns, n < k) → ws.length ≤ left →
    (slashed ws).length ≤ 100 →
    labelLoop k left i (fit 100 (slashed ws)) = .ok (List.map (fun n : ℕ => (n : ℤ)) ns, i + ws.length - 1)
  | [], _, _, _, h, _, _, _, _ => absurd rfl h
  | w :: ws, ns, left, i, _, hf, hk, hlen, hl => by
    cases hf with
    | cons hw hf' =>
      rename_i n ns'
      obtain ⟨hz, hz'⟩ := hw
      cases left with
      | zero => simp at hlen
      | succ left =>
        have he := int_ends hz
        have hl' : (w ++ '/' :: slashed ws).length ≤ 100 := hl
        have e0 : fit 100 (slashed (w :: ws)) = w ++ '/' :: (slashed ws ++ blanks (100 - (w ++ '/' :: slashed ws).length)) := by
          rw [slashed, fit_short hl']
          simp
        generalize 100 - (w ++ '/' :: slashed ws).length = b at e0
        have hne : w ≠ [] := by
          obtain ⟨c, t, rfl⟩ := int_first hz
          simp
        have hnv : nextValue (w ++ '/' :: (slashed ws ++ blanks b)) = (w, '/' :: (slashed ws ++ blanks b)) :=
          nextValue_start hne he (fun c t h => by cases h; rfl)
        have hr : readLabel (w ++ '/' :: (slashed ws ++ blanks b)) = some (n : ℤ) := by
          unfold readLabel
          rw [hnv]
          obtain ⟨c, t, rfl⟩ := int_first hz
          dsimp only
          rw [parseInt_numeral hz]
          dsimp only
          rw [if_pos]
          constructor
          · have : (0 : ℤ) ≤ n := Int.natCast_nonneg n
            omega
          · exact_mod_cast hz'
        have hd : (w ++ '/' :: (slashed ws ++ blanks b)).dropWhile (· != '/') = '/' :: (slashed ws ++ blanks b) := by
          refine (takeWhile_stop (p := fun c => c != '/') (a := w) (b := '/' :: (slashed ws ++ blanks b)) ?_ ?_).2
          · intro c hc
            have := (ends_ne (he c hc)).2.1
            simpa using this
          · intro c t h
            cases h
            rfl
        have hnk : n < k := hk n List.mem_cons_self
        rw [e0]
        unfold labelLoop
        rw [if_neg (by simp), hr]
        dsimp only
        rw [if_neg (by
          have : (0 : ℤ) ≤ n := Int.natCast_nonneg n
          have : (n : ℤ) < k := by exact_mod_cast hnk
          omega), hd, List.drop_one, List.tail_cons, fit_adjustl, dropWhile_blanks]
        cases ws with
        | nil =>
          cases hf'
          rw [if_pos (by decide)]
          simp
        | cons w' ws' =>
          cases hf' with
          | cons hw' hf'' =>
            rename_i n' ns''
            obtain ⟨c, t, hct⟩ := int_first hw'.1
            have hc := ends_ne (int_ends hw'.1 c (by rw [hct]; exact List.mem_cons_self))
            have hs : slashed (w' :: ws') = c :: (t ++ '/' :: slashed ws') := by
              rw [slashed, hct]
              rfl
            have hdw : (slashed (w' :: ws')).dropWhile (· == ' ') = slashed (w' :: ws') := by
              rw [hs, List.dropWhile_cons_of_neg]
              simpa using hc.1
            rw [hdw, if_neg]
            · rw [labelLoop_words k (w' :: ws') (n' :: ns'') left (i + 1) (by simp) (.cons hw' hf'')
                (fun m hm => hk m (List.mem_cons_of_mem _ hm)) (by simpa using hlen)
                (by
                  rw [slashed, List.length_append, List.length_cons] at hl
                  omega)]
              dsimp only
              rw [List.map_cons]
              congr 2
              simp only [List.length_cons]
              omega
            · intro h
              rw [List.all_eq_true] at h
              have hmem : c ∈ fit 100 (slashed (w' :: ws')) := by
                rw [hs]
                unfold fit
                simp
              have := h c hmem
              exact hc.1 (by simpa using this)

theorem dropWhile_start {w r : List Char} (n : ℕ) (hne : w ≠ []) (hw : ' ' ∉ w) :
    (blanks n ++ (w ++ r)).dropWhile (· == ' ') = w ++ r := by
  refine (takeWhile_stop (p := fun c => c == ' ') (a := blanks n) (b := w ++ r) ?_ ?_).2
  · intro c hc
    rw [List.eq_of_mem_replicate hc]
    rfl
  · intro c t h
    cases w with
    | nil => exact absurd rfl hne
    | cons c' w' =>
      cases h
      have : c ≠ ' ' := fun h => hw (h ▸ List.mem_cons_self)
      simpa using this

/-- The first word of a line that begins with a blank. -/
theorem words_blank {r w : List Char} {ws : List (List Char)} (hr : r = [] ∨ ∃ t, r = ' ' :: t) (h : Words r (w :: ws)) :
    ∃ n r', r = ' ' :: (blanks n ++ (w ++ r')) ∧ (w ≠ [] ∧ ' ' ∉ w) ∧ (r' = [] ∨ ∃ t, r' = ' ' :: t) ∧ Words r' ws := by
  cases h with
  | cons n hw hr' h' =>
    rename_i r'
    cases n with
    | zero =>
      exfalso
      rw [List.replicate_zero, List.nil_append] at hr
      cases w with
      | nil => exact hw.1 rfl
      | cons c t =>
        rcases hr with hr | ⟨u, hr⟩
        · cases hr
        · cases hr
          exact hw.2 List.mem_cons_self
    | succ n => exact ⟨n, r', by simp [List.replicate_succ], hw, hr', h'⟩

theorem words_nil {r : List Char} (h : Words r []) : ∃ n, r = blanks n := by
  cases h with
  | none n => exact ⟨n, rfl⟩

/-- The line of a site. -/
theorem siteOf_text (fl : ℚ → ℚ) {k : ℕ} {line : List Char} {s : EnumSite} (h : SiteText line s) (hne : s.labels ≠ [])
    (hd : s.labels.Nodup) (hk : ∀ n ∈ s.labels, n < k) :
    siteOf fl k line = .ok ⟨(fl s.position.1, fl s.position.2.1, fl s.position.2.2),
      List.map (fun n : ℕ => (n : ℤ)) s.labels, s.labels.length⟩ := by
  obtain ⟨text, comment, w1, w2, w3, w4, ws, rfl, hc, hlen, hw, n1, n2, n3, rfl, hl⟩ := h
  generalize hw4 : List.intercalate ['/'] ws = w4 at hw
  have hws : ws ≠ [] := by
    rintro rfl
    exact hne (List.forall₂_nil_left_iff.1 hl)
  have hcount : s.labels.length ≤ k := by
    have := (List.Nodup.subperm hd (l₂ := List.range k) (fun n hn => List.mem_range.2 (hk n hn))).length_le
    simpa using this
  have hlw : ws.length = s.labels.length := hl.length_eq
  cases hw with
  | cons a1 b1 c1 d1 =>
    rename_i r1
    obtain ⟨a2, r2, rfl, b2, c2, d2⟩ := words_blank c1 d1
    obtain ⟨a3, r3, rfl, b3, c3, d3⟩ := words_blank c2 d2
    obtain ⟨a4, r4, rfl, b4, c4, d4⟩ := words_blank c3 d3
    obtain ⟨a5, rfl⟩ := words_nil d4
    obtain ⟨cm, hcm, htail, htot⟩ : ∃ cm, fit 100 (blanks a1 ++ w1 ++ ' ' :: (blanks a2 ++ (w2 ++ ' ' :: (blanks a3 ++ (w3 ++
        ' ' :: (blanks a4 ++ (w4 ++ blanks a5)))))) ++ comment) = blanks a1 ++ (w1 ++ ' ' :: (blanks a2 ++ (w2 ++ ' ' ::
        (blanks a3 ++ (w3 ++ ' ' :: (blanks a4 ++ (w4 ++ (blanks a5 ++ cm)))))))) ∧ Tail cm ∧
        (blanks a1 ++ (w1 ++ ' ' :: (blanks a2 ++ (w2 ++ ' ' ::
        (blanks a3 ++ (w3 ++ ' ' :: (blanks a4 ++ (w4 ++ (blanks a5 ++ cm))))))))).length = 100 := by
      generalize ht : blanks a1 ++ w1 ++ ' ' :: (blanks a2 ++ (w2 ++ ' ' :: (blanks a3 ++ (w3 ++
        ' ' :: (blanks a4 ++ (w4 ++ blanks a5)))))) = text at hlen
      have e : fit 100 (text ++ comment) = text ++ (comment ++ blanks 100).take (100 - text.length) := by
        unfold fit
        rw [List.append_assoc, List.take_append, List.take_of_length_le hlen]
      have hT : Tail comment := by
        refine ⟨0, comment, rfl, hc⟩
      refine ⟨(comment ++ blanks 100).take (100 - text.length), ?_, (hT.pad 100).take _, ?_⟩
      · rw [e, ← ht]
        simp
      · have e2 := fit_length 100 (text ++ comment)
        rw [e] at e2
        generalize (comment ++ blanks 100).take (100 - text.length) = cm at e2
        rw [← ht] at e2
        simp only [List.length_append, List.length_cons] at e2 ⊢
        omega
    have h1 : adjustl (fit 100 (blanks a1 ++ w1 ++ ' ' :: (blanks a2 ++ (w2 ++ ' ' :: (blanks a3 ++ (w3 ++
        ' ' :: (blanks a4 ++ (w4 ++ blanks a5)))))) ++ comment)) = fit 100 (w1 ++ ' ' :: (blanks a2 ++ (w2 ++ ' ' ::
        (blanks a3 ++ (w3 ++ ' ' :: (blanks a4 ++ (w4 ++ (blanks a5 ++ cm)))))))) := by
      rw [hcm]
      unfold adjustl
      rw [htot, dropWhile_start a1 b1.1 b1.2]
    have hlen' := htot
    simp only [List.length_append, List.length_cons, List.length_replicate] at hlen'
    have hw1 : 0 < w1.length := List.length_pos_iff.2 b1.1
    have s1 := coordinate_word fl n1 (r := blanks a2 ++ (w2 ++ ' ' ::
        (blanks a3 ++ (w3 ++ ' ' :: (blanks a4 ++ (w4 ++ (blanks a5 ++ cm))))))) (by
      simp only [List.length_append, List.length_cons, List.length_replicate]; omega)
    rw [dropWhile_start a2 b2.1 b2.2] at s1
    have s2 := coordinate_word fl n2 (r := blanks a3 ++ (w3 ++ ' ' :: (blanks a4 ++ (w4 ++ (blanks a5 ++ cm))))) (by
      simp only [List.length_append, List.length_cons, List.length_replicate]; omega)
    rw [dropWhile_start a3 b3.1 b3.2] at s2
    have s3 := coordinate_word fl n3 (r := blanks a4 ++ (w4 ++ (blanks a5 ++ cm))) (by
      simp only [List.length_append, List.length_cons, List.length_replicate]; omega)
    rw [dropWhile_start a4 b4.1 b4.2] at s3
    have hhash : '#' ∉ w4 := by
      rw [← hw4]
      clear hw4 s1 s2 s3 h1 hcm htot hlen hcount hlw hlen' b4 hne hd hk
      intro h
      have key : ∀ {ws : List (List Char)} {ns : List ℕ},
          List.Forall₂ (fun w (n : ℕ) => IntNumeral w n ∧ n < 2 ^ 31) ws ns → '#' ∉ slashed ws := by
        intro ws ns hf
        induction hf with
        | nil => simp [slashed]
        | cons hw _ ih =>
          rw [slashed]
          intro h
          rcases List.mem_append.1 h with h | h
          · exact int_hash hw.1 h
          · rcases List.mem_cons.1 h with h | h
            · exact absurd h (by decide)
            · exact ih h
      refine key hl ?_
      rw [← slashed_intercalate hws]
      exact List.mem_append_left _ h
    have s4 := labelText_word (w := w4) (v := blanks a5 ++ cm) b4.2 hhash (by omega) (by
      obtain ⟨n, t, rfl, ht⟩ := htail
      exact ⟨a5 + n, t, by simp [blanks, ← List.append_assoc], ht⟩) (by
        simp only [List.length_append, List.length_replicate]; omega)
    have s5 := labelLoop_words k ws s.labels k 1 hws hl hk (by omega) (by
      rw [← slashed_intercalate hws, hw4, List.length_append]
      simp only [List.length_cons, List.length_nil]
      omega)
    rw [← slashed_intercalate hws, hw4] at s5
    unfold siteOf
    dsimp only
    rw [h1, s1]
    dsimp only
    rw [s2]
    dsimp only
    rw [s3]
    dsimp only
    rw [s4, Int.toNat_natCast, s5]
    dsimp only
    rw [hlw]
    congr 2
    omega

end AutoGR.Brute
