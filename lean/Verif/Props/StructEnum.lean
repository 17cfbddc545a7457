import Verif.Lemmas.StructEnumText
import Verif.Props.BruteForce
import Verif.Props.LatticeSym
import Verif.Props.ListRead

/-!
# C116, C117: the input file of the brute force program
-/

namespace AutoGR.Brute

open Fortran Spec

/-! ## C116: what is read -/

/-- C116: comment lines and blank lines make no difference, wherever they are. -/
theorem readInput_comments (fl : ℚ → ℚ) (equal : ℚ → ℚ → ℚ → Bool) {f s : List (List Char)} (h : Significant f s) :
    (readInput fl equal f).map Prod.fst = (readInput fl equal s).map Prod.fst := by
  rw [← (significant_sig h).1, clean_readInput fl equal f]
  cases readInput fl equal f with
  | error e => rfl
  | ok x => rfl

theorem readInts_words : ∀ {ws more : List (List Char)} {zs : List ℤ} {line : List Char}, Words line (ws ++ more) →
    List.Forall₂ (fun w (z : ℤ) => IntNumeral w z ∧ -2 ^ 31 ≤ z ∧ z < 2 ^ 31) ws zs →
    readInts zs.length line = some zs
  | [], _, _, _, _, .nil => rfl
  | w :: ws, more, _, line, hw, .cons (l₂ := zs) hz hf => by
    obtain ⟨e1, l, hl, f1, -⟩ := nextValue_word hw (int_ends hz.1)
    rw [List.length_cons]
    unfold readInts
    rw [e1, parseInt_numeral hz.1]
    dsimp only
    rw [if_pos hz.2, f1]
    cases hf with
    | nil => rfl
    | cons hz' hf' =>
      rw [readInts_words (words_after hl (int_ends hz'.1)) (.cons hz' hf')]
      rfl

theorem readInts_text {line : List Char} {zs : List ℤ} (h : Integers line zs) : readInts zs.length line = some zs := by
  obtain ⟨ws, more, hw, hf⟩ := h
  exact readInts_words hw hf

/-- What `read_input` returns for the contents of a file; real numbers are rounded with `fl`. -/
def toInput (fl : ℚ → ℚ) (d : EnumData) : EnumInput :=
  let three (x : ℚ × ℚ × ℚ) : ℚ × ℚ × ℚ := (fl x.1, fl x.2.1, fl x.2.2)
  { title := (d.title ++ List.replicate 80 ' ').take 80
    latDim := if d.surface then 2 else 3
    v1 := three d.v1
    v2 := three d.v2
    v3 := three d.v3
    k := d.k
    nD := d.sites.length
    sites := d.sites.map fun s => ⟨three s.position, List.map (fun n : ℕ => (n : ℤ)) s.labels, s.labels.length⟩
    eq := d.equivalent.getD (List.map (fun i : ℕ => (i : ℤ) + 1) (List.range d.sites.length))
    nMin := d.nMin
    nMax := d.nMax
    eps := fl d.eps
    full := d.full
    conc := d.concentrations }

theorem nextLine_cons {l : List Char} (t : List (List Char)) (h : commentLine l = false) : nextLine (l :: t) = .ok (l, t) := by
  rw [nextLine_run, List.dropWhile_cons_of_neg (by rw [h]; simp)]

theorem nextLine?_cons {l : List Char} (t : List (List Char)) (h : commentLine l = false) :
    nextLine? (l :: t) = .ok (some l, t) := by
  unfold nextLine?
  rw [List.dropWhile_cons_of_neg (by rw [h]; simp)]

theorem readSites_text (fl : ℚ → ℚ) (k : ℕ) : ∀ {ls : List (List Char)} {ss : List EnumSite} (rest : List (List Char)),
    List.Forall₂ SiteText ls ss → (∀ l ∈ ls, commentLine l = false) → (∀ s ∈ ss, s.labels ≠ []) →
    (∀ s ∈ ss, s.labels.Nodup) → (∀ s ∈ ss, ∀ n ∈ s.labels, n < k) →
    readSites fl k ss.length (ls ++ rest) = .ok (ss.map fun s => ⟨(fl s.position.1, fl s.position.2.1, fl s.position.2.2),
      List.map (fun n : ℕ => (n : ℤ)) s.labels, s.labels.length⟩, rest)
  | _, _, _, .nil, _, _, _, _ => rfl
  | l :: ls, s :: ss, rest, .cons h hf, hc, h1, h2, h3 => by
    rw [List.length_cons]
    unfold readSites
    rw [List.cons_append, bind_run, nextLine_cons _ (hc l List.mem_cons_self)]
    dsimp only
    rw [siteOf_text fl h (h1 s List.mem_cons_self) (h2 s List.mem_cons_self) (h3 s List.mem_cons_self)]
    dsimp only
    rw [bind_run, readSites_text fl k rest hf (fun x hx => hc x (List.mem_cons_of_mem _ hx))
      (fun x hx => h1 x (List.mem_cons_of_mem _ hx)) (fun x hx => h2 x (List.mem_cons_of_mem _ hx))
      (fun x hx => h3 x (List.mem_cons_of_mem _ hx))]
    rfl

theorem readConc_text : ∀ {ls : List (List Char)} {cs : List (ℤ × ℤ × ℤ)} (rest : List (List Char)),
    List.Forall₂ (fun l (c : ℤ × ℤ × ℤ) => Integers l [c.1, c.2.1, c.2.2]) ls cs → (∀ l ∈ ls, commentLine l = false) →
    readConc cs.length (ls ++ rest) = .ok (some cs, rest)
  | _, _, _, .nil, _ => rfl
  | l :: ls, c :: cs, rest, .cons h hf, hc => by
    rw [List.length_cons]
    unfold readConc
    rw [List.cons_append, bind_run, nextLine?_cons _ (hc l List.mem_cons_self)]
    have e : int3 l = some c := by
      unfold int3
      have := readInts_text h
      simp only [List.length_cons, List.length_nil] at this
      rw [this]
    dsimp only
    rw [e]
    dsimp only
    rw [bind_run, readConc_text rest hf fun x hx => hc x (List.mem_cons_of_mem _ hx)]
    rfl

theorem labelRange_mem {k : ℕ} {i : ℤ} : i ∈ labelRange k ↔ ∃ n < k, i = (n : ℕ) := by
  unfold labelRange
  rw [Int.toNat_natCast, List.mem_map]
  constructor
  · rintro ⟨n, hn, rfl⟩
    exact ⟨n, List.mem_range.1 hn, rfl⟩
  · rintro ⟨n, hn, rfl⟩
    exact ⟨n, List.mem_range.2 hn, rfl⟩

theorem mem_cast {n : ℕ} {l : List ℕ} : ((n : ℕ) : ℤ) ∈ List.map (fun n : ℕ => (n : ℤ)) l ↔ n ∈ l := by
  rw [List.mem_map]
  constructor
  · rintro ⟨m, hm, e⟩
    have : m = n := by exact_mod_cast e
    exact this ▸ hm
  · exact fun h => ⟨n, h, rfl⟩

theorem checkLabels_right (fl : ℚ → ℚ) {d : EnumData} (h : LabelsRight d.k d.sites) :
    checkLabels d.k (toInput fl d).sites = none := by
  unfold checkLabels
  rw [if_neg, if_neg]
  · intro hh
    rw [List.any_eq_true] at hh
    obtain ⟨s, hs, hh⟩ := hh
    rw [List.any_eq_true] at hh
    obtain ⟨i, -, hi⟩ := hh
    obtain ⟨s', hs', rfl⟩ := List.mem_map.1 hs
    have hn : (List.map (fun n : ℕ => (n : ℤ)) s'.labels).Nodup :=
      (h.distinct s' hs').map fun a b hab => by exact_mod_cast hab
    have := List.nodup_iff_count_le_one.1 hn i
    have h2 : 1 < List.count i (List.map (fun n : ℕ => (n : ℤ)) s'.labels) := of_decide_eq_true hi
    omega
  · intro hh
    rw [List.any_eq_true] at hh
    obtain ⟨i, hi, hh⟩ := hh
    obtain ⟨n, hn, rfl⟩ := labelRange_mem.1 hi
    obtain ⟨s, hs, hns⟩ := h.used n hn
    rw [List.all_eq_true] at hh
    have := hh _ (List.mem_map.2 ⟨s, hs, rfl⟩)
    simp only [Bool.not_eq_true', List.contains_eq_mem, decide_eq_false_iff_not] at this
    exact this (mem_cast.2 hns)

theorem checkConc_right {cs : List (ℤ × ℤ × ℤ)} (h : ∀ c ∈ cs, ConcRight c) : checkConc cs = none := by
  unfold checkConc
  rw [if_neg, if_neg]
  · intro hh
    rw [List.any_eq_true] at hh
    obtain ⟨c, hc, hh⟩ := hh
    have := of_decide_eq_true hh
    obtain ⟨-, -, h1, h2⟩ := h c hc
    exact absurd this (not_lt.2 (max_le h1 h2))
  · intro hh
    rw [List.any_eq_true] at hh
    obtain ⟨c, hc, hh⟩ := hh
    have := of_decide_eq_true hh
    obtain ⟨h1, h2, h3, h4⟩ := h c hc
    omega

theorem int_not_E {w : List Char} {z : ℤ} (h : IntNumeral w z) : (ucase w).head? ≠ some 'E' := by
  obtain ⟨s, σ, ds, rfl, hs, hd, hne, -⟩ := h
  have hdig : ∀ c : Char, c.isDigit = true → c.toUpper ≠ 'E' := by
    intro c hc he
    unfold Char.toUpper at he
    have h2 : c.val ≤ 57 := by
      simp only [Char.isDigit, Bool.and_eq_true, decide_eq_true_eq] at hc
      exact hc.2
    split at he
    · rename_i h
      exact absurd (UInt32.le_trans h.1 h2) (by decide)
    · subst he
      exact absurd h2 (by decide)
  rcases hs with ⟨rfl | rfl, -⟩ | ⟨rfl, -⟩
  · cases ds with
    | nil => exact absurd rfl hne
    | cons c t =>
      intro h
      simp only [List.nil_append, ucase, List.map_cons, List.head?_cons, Option.some.injEq] at h
      exact hdig c (hd c List.mem_cons_self) h
  · intro h
    simp only [ucase, List.cons_append, List.map_cons, List.head?_cons, Option.some.injEq] at h
    exact absurd h (by decide)
  · intro h
    simp only [ucase, List.cons_append, List.map_cons, List.head?_cons, Option.some.injEq] at h
    exact absurd h (by decide)

theorem real3_text (fl : ℚ → ℚ) {line : List Char} {x : ℚ × ℚ × ℚ} (h : Numbers3 line x) :
    real3 fl line = some (fl x.1, fl x.2.1, fl x.2.2) := (listReader_decimals fl).real3 line x h

theorem real1_text (fl : ℚ → ℚ) {line : List Char} {x : ℚ} (h : Number line x) : real1 fl line = some (fl x) := by
  obtain ⟨w, more, hw, hq⟩ := h
  have := (nextValue_word hw (real_ends hq)).1
  simp only [real1, readReals]
  rw [this, parseReal_numeral hq]
  rfl

theorem int1_text {line : List Char} {z : ℤ} (h : Integers line [z]) : int1 line = some z := by
  have := readInts_text h
  simp only [List.length_cons, List.length_nil] at this
  unfold int1
  rw [this]

theorem int2_text {line : List Char} {a b : ℤ} (h : Integers line [a, b]) : int2 line = some (a, b) := by
  have := readInts_text h
  simp only [List.length_cons, List.length_nil] at this
  unfold int2
  rw [this]

/-- The first character of the next word. -/
theorem nextValue_head {line w : List Char} {c : Char} {more : List (List Char)} (h : Words line ((c :: w) :: more))
    (hc : endsValue c = false) : (nextValue line).1.head? = some c := by
  cases h with
  | cons n hne hr hrest =>
    rename_i rest
    have hd : (List.replicate n ' ' ++ (c :: w) ++ rest).dropWhile isBlank = c :: w ++ rest := by
      rw [List.append_assoc]
      refine (takeWhile_stop (a := List.replicate n ' ') (b := c :: w ++ rest) ?_ ?_).2
      · intro c hc
        rw [List.eq_of_mem_replicate hc]
        rfl
      · intro x t hx
        cases hx
        exact ends_blank hc
    unfold nextValue
    dsimp only
    rw [hd, List.cons_append, List.takeWhile_cons_of_pos (by rw [hc]; rfl)]
    rfl

theorem readEq_none {lN : List Char} {rest : List (List Char)} {a b : ℤ} (n : ℕ) (h : Integers lN [a, b])
    (hc : commentLine lN = false) :
    readEq n (lN :: rest) = .ok (List.map (fun i : ℕ => (i : ℤ) + 1) (List.range n), lN :: rest) := by
  obtain ⟨ws, more, hw, hf⟩ := h
  cases hf with
  | cons hz hf' =>
    have e := (nextValue_word hw (int_ends hz.1)).1
    unfold readEq
    rw [bind_run, nextLine_cons _ hc]
    dsimp only
    rw [e, if_neg (int_not_E hz.1)]
    rfl

theorem readEq_some {le lv : List Char} {rest : List (List Char)} {e : List ℤ} {c : Char} {w : List Char}
    {ws : List (List Char)} {n : ℕ} (hn : e.length = n) (hl : Words le ((c :: w) :: ws)) (hE : c = 'e' ∨ c = 'E')
    (hv : Integers lv e) (h1 : commentLine le = false) (h2 : commentLine lv = false) :
    readEq n (le :: lv :: rest) = .ok (e, rest) := by
  have hh := nextValue_head hl (by rcases hE with rfl | rfl <;> rfl)
  unfold readEq
  rw [bind_run, nextLine_cons _ h1]
  dsimp only
  rw [if_pos (by
    unfold ucase
    rw [List.head?_map, hh]
    rcases hE with rfl | rfl <;> rfl)]
  rw [bind_run, nextLine_cons _ h2]
  dsimp only
  rw [Int.toNat_natCast, ← hn, readInts_text hv]
  rfl

theorem upper_ends {c : Char} (h : c.toUpper.isAlpha = true) : endsValue c = false := by
  by_contra hh
  rw [Bool.not_eq_false] at hh
  simp only [endsValue, isBlank, Bool.or_eq_true, beq_iff_eq] at hh
  rcases hh with (((rfl | rfl) | rfl) | rfl) | rfl <;> exact absurd h (by decide)

theorem alpha_ends {c : Char} (h : c.isAlpha = true) : endsValue c = false := by
  by_contra hh
  rw [Bool.not_eq_false] at hh
  simp only [endsValue, isBlank, Bool.or_eq_true, beq_iff_eq] at hh
  rcases hh with (((rfl | rfl) | rfl) | rfl) | rfl <;> exact absurd h (by decide)

theorem fit_spelled {w u : List Char} {name : String} (h : Spells w name) (hl : name.toList.length = 4) :
    ucase (fit 4 (w ++ u)) = name.toList := by
  have hw : w.length = 4 := by rw [← hl, ← h, List.length_map]
  unfold fit
  rw [List.append_assoc, List.take_left' hw]
  exact h

theorem mode_text {mode w u : List Char} {ws : List (List Char)} {full : Bool} (h : Words mode ((w ++ u) :: ws))
    (hs : Spells w (if full then "FULL" else "PART")) (hu : ∀ c ∈ u, c.isAlpha = true) (f : List (List Char)) :
    fullOf (ucase (fit 4 (nextValue mode).1)) f = .ok (full, f) := by
  have hw : ∀ c ∈ w, endsValue c = false := by
    intro c hc
    refine upper_ends ?_
    have : c.toUpper ∈ w.map Char.toUpper := List.mem_map_of_mem hc
    rw [hs] at this
    revert this
    generalize c.toUpper = x
    cases full
    · intro hx
      have : ∀ x ∈ "PART".toList, x.isAlpha = true := by decide
      exact this x hx
    · intro hx
      have : ∀ x ∈ "FULL".toList, x.isAlpha = true := by decide
      exact this x hx
  rw [(nextValue_word h (fun c hc => by
    rcases List.mem_append.1 hc with hc | hc
    · exact hw c hc
    · exact alpha_ends (hu c hc))).1, fit_spelled hs (by cases full <;> rfl)]
  cases full <;> rfl

theorem kind_text {kind more : List Char} {surface : Bool} (equal : ℚ → ℚ → ℚ → Bool) (v1 : ℚ × ℚ × ℚ) (eps : ℚ)
    (hs : Spells kind (if surface then "SURF" else "BULK"))
    (he : surface = true → equal v1.2.1 0 eps = true ∧ equal v1.2.2 0 eps = true) (f : List (List Char)) :
    latDimOf equal (ucase (fit 4 (kind ++ more))) v1 eps f = .ok (if surface then 2 else 3, f) := by
  rw [fit_spelled hs (by cases surface <;> rfl)]
  cases surface
  · rfl
  · obtain ⟨a, b⟩ := he rfl
    unfold latDimOf
    rw [if_pos (by rfl), a, b]
    rfl

theorem orStop_some {α : Type} (a : α) (f : List (List Char)) : orStop (some a) f = .ok (a, f) := rfl
theorem check_none (f : List (List Char)) : check none f = .ok ((), f) := rfl
theorem pure_run {α : Type} (a : α) (f : List (List Char)) : (pure a : Rd α) f = .ok (a, f) := rfl

/-- C116: if the file says `d` then `d` is what is read, with its numbers rounded.  For a surface the second and third
component of the first vector must be zero. -/
theorem readInput_text (fl : ℚ → ℚ) (equal : ℚ → ℚ → ℚ → Bool) {lines : List (List Char)} {d : EnumData}
    (h : EnumText lines d)
    (hs : d.surface = true → equal (fl d.v1.2.1) 0 (fl d.eps) = true ∧ equal (fl d.v1.2.2) 0 (fl d.eps) = true) :
    (readInput fl equal lines).map Prod.fst = .ok (toInput fl d) := by
  obtain ⟨title, kind, more1, l1, l2, l3, lk, lD, siteLines, eqLines, lN, lEps, mode, concLines, extra, hsig, htitle, hkind,
    h1, h2, h3, hk, hk0, hD, hsites, hlab, heq, hN, hEps, ⟨w, u, ws, hm1, hm2, hm3⟩, hconc⟩ := h
  have hc := (significant_sig hsig).2
  rw [readInput_comments fl equal hsig]
  have hS := readSites_text fl d.k (eqLines ++ lN :: lEps :: mode :: (concLines ++ extra)) hsites
    (fun l hl => hc l (by simp [hl])) hlab.some hlab.distinct hlab.below
  have hE : readEq (d.sites.length : ℕ) (eqLines ++ lN :: lEps :: mode :: (concLines ++ extra)) =
      .ok (d.equivalent.getD (List.map (fun i : ℕ => (i : ℤ) + 1) (List.range d.sites.length)),
        lN :: lEps :: mode :: (concLines ++ extra)) := by
    rcases heq with ⟨e1, rfl⟩ | ⟨e, le, c, w, ws, e1, e2, e3, e4, lv, rfl, e5⟩
    · rw [e1, List.nil_append, readEq_none _ hN (hc _ (by simp))]
      rfl
    · rw [e1]
      exact readEq_some e2 e3 e4 e5 (hc _ (by simp)) (hc _ (by simp))
  obtain ⟨rest, hC, hC'⟩ : ∃ rest, readConc d.k (concLines ++ extra) = .ok (d.concentrations, rest) ∧
      checkConc (d.concentrations.getD []) = none := by
    rcases hconc with ⟨e1, rfl, rfl⟩ | ⟨cs, e1, e2, e3, e4⟩
    · refine ⟨[], ?_, by rw [e1]; rfl⟩
      obtain ⟨k, hk⟩ : ∃ k, d.k = k + 1 := ⟨d.k - 1, by omega⟩
      rw [hk, e1]
      rfl
    · refine ⟨extra, ?_, by rw [e1]; exact checkConc_right e3⟩
      rw [e1, ← e2]
      exact readConc_text extra e4 fun l hl => hc l (by simp [hl])
  have hCL : checkLabels d.k (d.sites.map fun s => ⟨(fl s.position.1, fl s.position.2.1, fl s.position.2.2),
      List.map (fun n : ℕ => (n : ℤ)) s.labels, s.labels.length⟩) = none := checkLabels_right fl hlab
  unfold readInput
  dsimp only
  rw [bind_run, nextLine_cons _ (hc _ (by simp))]
  dsimp only
  rw [bind_run, nextLine_cons _ (hc _ (by simp))]
  dsimp only
  rw [bind_run, nextLine_cons _ (hc _ (by simp))]
  dsimp only
  rw [real3_text fl h1, bind_run, orStop_some]
  dsimp only
  rw [bind_run, nextLine_cons _ (hc _ (by simp))]
  dsimp only
  rw [real3_text fl h2, bind_run, orStop_some]
  dsimp only
  rw [bind_run, nextLine_cons _ (hc _ (by simp))]
  dsimp only
  rw [real3_text fl h3, bind_run, orStop_some]
  dsimp only
  rw [bind_run, nextLine_cons _ (hc _ (by simp))]
  dsimp only
  rw [int1_text hk, bind_run, orStop_some]
  dsimp only
  rw [bind_run, nextLine_cons _ (hc _ (by simp))]
  dsimp only
  rw [int1_text hD, bind_run, orStop_some]
  dsimp only
  rw [Int.toNat_natCast, bind_run, hS]
  dsimp only
  rw [bind_run, hCL, check_none]
  dsimp only
  rw [bind_run, hE]
  dsimp only
  rw [bind_run, nextLine_cons _ (hc _ (by simp))]
  dsimp only
  rw [int2_text hN, bind_run, orStop_some]
  dsimp only
  rw [bind_run, nextLine_cons _ (hc _ (by simp))]
  dsimp only
  rw [real1_text fl hEps, bind_run, orStop_some]
  dsimp only
  rw [bind_run, nextLine_cons _ (hc _ (by simp))]
  dsimp only
  rw [bind_run, kind_text equal _ _ hkind hs]
  dsimp only
  rw [bind_run, mode_text hm1 hm2 hm3]
  dsimp only
  rw [Int.toNat_natCast, bind_run, hC]
  dsimp only
  rw [bind_run, hC', check_none]
  dsimp only
  rw [pure_run]
  subst htitle
  rfl

/-- The vectors of the file as columns, rounded. -/
noncomputable def enumCell (fl : ℚ → ℚ) (d : EnumData) : R3 :=
  !![(fl d.v1.1 : ℝ), fl d.v2.1, fl d.v3.1; fl d.v1.2.1, fl d.v2.2.1, fl d.v3.2.1; fl d.v1.2.2, fl d.v2.2.2, fl d.v3.2.2]

theorem bruteProgram_driver (fl : ℚ → ℚ) (equalQ : ℚ → ℚ → ℚ → Bool) (equal : ℝ → ℝ → Bool) (pointGroup : R3 → List R3)
    {lines : List (List Char)} {d : EnumData} (h : EnumText lines d)
    (hs : d.surface = true → equalQ (fl d.v1.2.1) 0 (fl d.eps) = true ∧ equalQ (fl d.v1.2.2) 0 (fl d.eps) = true) :
    bruteProgram fl equalQ equal pointGroup lines =
      .ok (driver equal (enumCell fl d) (pointGroup (enumCell fl d)) d.nMax) := by
  have := readInput_text fl equalQ h hs
  unfold bruteProgram
  cases hr : readInput fl equalQ lines with
  | error e => rw [hr] at this; cases this
  | ok r =>
    rw [hr] at this
    obtain ⟨x, rest⟩ := r
    have hx : x = toInput fl d := by simpa [Except.map] using this
    subst hx
    rfl

/-- C116: from the text of the input file to the lines of `n_srHNFs.out`: one line for each volume from 1 to the last
volume of the file that has symmetric supercells, in increasing order, with the number of these supercells.  The first
volume of the file is not used. -/
theorem bruteProgram_text (fl : ℚ → ℚ) (equalQ : ℚ → ℚ → ℚ → Bool) (equal : ℝ → ℝ → Bool) (pointGroup : R3 → List R3)
    {lines : List (List Char)} {d : EnumData} (h : EnumText lines d)
    (hs : d.surface = true → equalQ (fl d.v1.2.1) 0 (fl d.eps) = true ∧ equalQ (fl d.v1.2.2) 0 (fl d.eps) = true)
    (hP : (enumCell fl d).det ≠ 0) (hg : ListsPointGroup (enumCell fl d) (pointGroup (enumCell fl d)))
    (he : ∀ i, 1 ≤ i → i ≤ d.nMax → Separates equal i) :
    ∃ out, bruteProgram fl equalQ equal pointGroup lines = .ok (some out) ∧ (out.Pairwise fun x y => x.1 < y.1) ∧
      ∀ i c, (i, c) ∈ out ↔ (1 ≤ i ∧ i ≤ d.nMax) ∧ c = (SymmetricHNFs (PointSym (enumCell fl d)) i).ncard ∧ c ≠ 0 := by
  obtain ⟨out, h1, h2, h3⟩ := driver_lines equal _ hP _ hg d.nMax he
  exact ⟨out, by rw [bruteProgram_driver fl equalQ equal pointGroup h hs, h1], h2, h3⟩

/-- C116: two files with the same vectors and the same last volume give the same output, whatever else they say: sites,
labels, equivalencies, the first volume, the tolerance, `full` or `part` and concentrations. -/
theorem bruteProgram_congr (fl : ℚ → ℚ) (equalQ : ℚ → ℚ → ℚ → Bool) (equal : ℝ → ℝ → Bool) (pointGroup : R3 → List R3)
    {lines lines' : List (List Char)} {d d' : EnumData} (h : EnumText lines d) (h' : EnumText lines' d')
    (hs : d.surface = false) (hs' : d'.surface = false)
    (h1 : d.v1 = d'.v1) (h2 : d.v2 = d'.v2) (h3 : d.v3 = d'.v3) (hn : d.nMax = d'.nMax) :
    bruteProgram fl equalQ equal pointGroup lines = bruteProgram fl equalQ equal pointGroup lines' := by
  rw [bruteProgram_driver fl equalQ equal pointGroup h (by rw [hs]; exact fun h => absurd h (by decide)),
    bruteProgram_driver fl equalQ equal pointGroup h' (by rw [hs']; exact fun h => absurd h (by decide))]
  unfold enumCell
  rw [h1, h2, h3, hn]

/-! ## C117: what is refused -/

theorem bind_ok {α β : Type} {m : Rd α} {k : α → Rd β} {f : List (List Char)} {r : β × List (List Char)}
    (h : (m >>= k) f = .ok r) : ∃ a f', m f = .ok (a, f') ∧ k a f' = .ok r := by
  rw [bind_run] at h
  cases hm : m f with
  | error e => rw [hm] at h; cases h
  | ok x => rw [hm] at h; exact ⟨x.1, x.2, rfl, h⟩

theorem labelLoop_valid (k : ℤ) : ∀ (left i : ℕ) (line : List Char) (zs : List ℤ) (j : ℕ),
    labelLoop k left i line = .ok (zs, j) →
    (∀ z ∈ zs, 0 ≤ z ∧ z < k) ∧ (left ≠ 0 → zs ≠ []) ∧ zs.length ≤ left ∧
      (j + 1 = i + zs.length ∨ zs.length = left ∧ j = i + left)
  | 0, i, line, zs, j, h => by
    simp only [labelLoop, Except.ok.injEq, Prod.mk.injEq] at h
    obtain ⟨rfl, rfl⟩ := h
    exact ⟨by simp, by simp, by simp, .inr ⟨rfl, rfl⟩⟩
  | left + 1, i, line, zs, j, h => by
    unfold labelLoop at h
    split at h
    · cases h
    · split at h
      · cases h
      · rename_i z hz
        split at h
        · cases h
        · rename_i hr
          have hz : 0 ≤ z ∧ z < k := by omega
          dsimp only at h
          split at h
          · simp only [Except.ok.injEq, Prod.mk.injEq] at h
            obtain ⟨rfl, rfl⟩ := h
            exact ⟨by simpa using hz, by simp, by simp, .inl (by simp)⟩
          · split at h
            · cases h
            · rename_i zs' j' hrec
              simp only [Except.ok.injEq, Prod.mk.injEq] at h
              obtain ⟨rfl, rfl⟩ := h
              obtain ⟨a, -, c, d⟩ := labelLoop_valid k left (i + 1) _ _ _ hrec
              refine ⟨?_, by simp, by simpa using c, ?_⟩
              · intro x hx
                rcases List.mem_cons.1 hx with rfl | hx
                · exact hz
                · exact a x hx
              · rw [List.length_cons]
                rcases d with d | d
                · exact .inl (by omega)
                · exact .inr (by omega)

theorem siteOf_valid {fl : ℚ → ℚ} {k : ℤ} {line : List Char} {s : Site} (h : siteOf fl k line = .ok s) :
    (∀ z ∈ s.labels, 0 ≤ z ∧ z < k) ∧ (0 < k → s.labels ≠ []) ∧
      (s.digit = s.labels.length ∨ (s.labels.length : ℤ) = max k 0 ∧ (s.digit : ℤ) = max k 0 + 1) := by
  unfold siteOf at h
  dsimp only at h
  split at h
  · cases h
  · split at h
    · cases h
    · split at h
      · cases h
      · split at h
        · cases h
        · rename_i labels i hl
          cases h
          obtain ⟨a, b, c, d⟩ := labelLoop_valid k _ _ _ _ _ hl
          refine ⟨a, fun hk => b (by omega), ?_⟩
          dsimp only
          rcases d with d | d
          · exact .inl (by omega)
          · exact .inr (by omega)

theorem readSites_valid {fl : ℚ → ℚ} {k : ℤ} : ∀ (n : ℕ) (f : List (List Char)) (ss : List Site) (rest : List (List Char)),
    readSites fl k n f = .ok (ss, rest) → ss.length = n ∧ ∀ s ∈ ss, ∃ line, siteOf fl k line = .ok s
  | 0, f, ss, rest, h => by
    cases h
    exact ⟨rfl, by simp⟩
  | n + 1, f, ss, rest, h => by
    unfold readSites at h
    obtain ⟨line, f', -, h⟩ := bind_ok h
    cases hs : siteOf fl k line with
    | error e => rw [hs] at h; cases h
    | ok s =>
      rw [hs] at h
      obtain ⟨ss', f'', h1, h2⟩ := bind_ok h
      cases h2
      obtain ⟨a, b⟩ := readSites_valid n _ _ _ h1
      refine ⟨by rw [List.length_cons, a], ?_⟩
      intro x hx
      rcases List.mem_cons.1 hx with rfl | hx
      · exact ⟨line, hs⟩
      · exact b x hx

theorem readConc_valid : ∀ (n : ℕ) (f : List (List Char)) (cs : List (ℤ × ℤ × ℤ)) (rest : List (List Char)),
    readConc n f = .ok (some cs, rest) → cs.length = n
  | 0, f, cs, rest, h => by
    cases h
    rfl
  | n + 1, f, cs, rest, h => by
    unfold readConc at h
    obtain ⟨l, f', -, h⟩ := bind_ok h
    cases l with
    | none => cases h
    | some l =>
      dsimp only at h
      cases hl : int3 l with
      | none => rw [hl] at h; cases h
      | some c =>
        rw [hl] at h
        obtain ⟨cs', f'', h1, h2⟩ := bind_ok h
        cases cs' with
        | none => cases h2
        | some cs' =>
          cases h2
          rw [List.length_cons, readConc_valid n _ _ _ h1]

theorem check_ok {o : Option EnumStop} {f : List (List Char)} {r : Unit × List (List Char)} (h : check o f = .ok r) :
    o = none := by
  cases o with
  | none => rfl
  | some e => cases h

theorem checkLabels_none {k : ℤ} {ss : List Site} (h : checkLabels k ss = none) :
    (∀ z, 0 ≤ z → z < k → ∃ s ∈ ss, z ∈ s.labels) ∧ ∀ s ∈ ss, ∀ z, 0 ≤ z → z < k → s.labels.count z ≤ 1 := by
  have hm : ∀ z, 0 ≤ z → z < k → z ∈ labelRange k := by
    intro z h1 h2
    refine List.mem_map.2 ⟨z.toNat, List.mem_range.2 (by omega), by simp; omega⟩
  unfold checkLabels at h
  split at h
  · cases h
  · rename_i h1
    split at h
    · cases h
    · rename_i h2
      refine ⟨?_, ?_⟩
      · intro z a b
        by_contra hh
        refine h1 (List.any_eq_true.2 ⟨z, hm z a b, List.all_eq_true.2 fun s hs => ?_⟩)
        simp only [Bool.not_eq_true', List.contains_eq_mem, decide_eq_false_iff_not]
        exact fun hz => hh ⟨s, hs, hz⟩
      · intro s hs z a b
        by_contra hh
        exact h2 (List.any_eq_true.2 ⟨s, hs, List.any_eq_true.2 ⟨z, hm z a b, decide_eq_true (by omega)⟩⟩)

theorem checkConc_none {cs : List (ℤ × ℤ × ℤ)} (h : checkConc cs = none) : ∀ c ∈ cs, ConcRight c := by
  unfold checkConc at h
  split at h
  · cases h
  · rename_i h1
    split at h
    · cases h
    · rename_i h2
      intro c hc
      have a : ¬ (c.1 < 0 ∨ c.2.1 < 0 ∨ c.2.2 < 0) := fun hh => h1 (List.any_eq_true.2 ⟨c, hc, decide_eq_true hh⟩)
      have b : ¬ (c.2.2 < max c.1 c.2.1) := fun hh => h2 (List.any_eq_true.2 ⟨c, hc, decide_eq_true hh⟩)
      have b' := max_le_iff.1 (not_lt.1 b)
      exact ⟨by omega, by omega, b'.1, b'.2⟩

/-- C117: an input that is accepted has as many sites as it says; the labels that were read are between 0 and `k - 1`,
each site has at least one and none twice, and each of them is used; and the concentrations, if there are any, are `k`
ranges of fractions between 0 and 1.  Missing: a site can have more than `k` labels in the file; those after the `k`-th
are not looked at (`site_extra_labels`), and then the number of labels that is stored is wrong. -/
theorem readInput_valid_partial (fl : ℚ → ℚ) (equal : ℚ → ℚ → ℚ → Bool) {f rest : List (List Char)} {x : EnumInput}
    (h : readInput fl equal f = .ok (x, rest)) :
    x.sites.length = x.nD.toNat ∧
    (∀ s ∈ x.sites, (∀ z ∈ s.labels, 0 ≤ z ∧ z < x.k) ∧ s.labels.Nodup ∧ (0 < x.k → s.labels ≠ []) ∧
      (s.digit = s.labels.length ∨ (s.labels.length : ℤ) = max x.k 0 ∧ (s.digit : ℤ) = max x.k 0 + 1)) ∧
    (∀ z, 0 ≤ z → z < x.k → ∃ s ∈ x.sites, z ∈ s.labels) ∧
    (∀ cs, x.conc = some cs → cs.length = x.k.toNat ∧ ∀ c ∈ cs, ConcRight c) := by
  unfold readInput at h
  obtain ⟨title, f1, -, h⟩ := bind_ok h
  obtain ⟨kind, f2, -, h⟩ := bind_ok h
  obtain ⟨l1, f3, -, h⟩ := bind_ok h
  obtain ⟨v1, f4, -, h⟩ := bind_ok h
  obtain ⟨l2, f5, -, h⟩ := bind_ok h
  obtain ⟨v2, f6, -, h⟩ := bind_ok h
  obtain ⟨l3, f7, -, h⟩ := bind_ok h
  obtain ⟨v3, f8, -, h⟩ := bind_ok h
  obtain ⟨l4, f9, -, h⟩ := bind_ok h
  obtain ⟨k, f10, -, h⟩ := bind_ok h
  obtain ⟨l5, f11, -, h⟩ := bind_ok h
  obtain ⟨nD, f12, -, h⟩ := bind_ok h
  obtain ⟨sites, f13, hsites, h⟩ := bind_ok h
  obtain ⟨u1, f14, hlab, h⟩ := bind_ok h
  obtain ⟨eq, f15, -, h⟩ := bind_ok h
  obtain ⟨l6, f16, -, h⟩ := bind_ok h
  obtain ⟨n, f17, -, h⟩ := bind_ok h
  obtain ⟨l7, f18, -, h⟩ := bind_ok h
  obtain ⟨eps, f19, -, h⟩ := bind_ok h
  obtain ⟨l8, f20, -, h⟩ := bind_ok h
  obtain ⟨latDim, f21, -, h⟩ := bind_ok h
  obtain ⟨full, f22, -, h⟩ := bind_ok h
  obtain ⟨conc, f23, hconc, h⟩ := bind_ok h
  obtain ⟨u2, f24, hcc, h⟩ := bind_ok h
  cases h
  obtain ⟨a, b⟩ := readSites_valid _ _ _ _ hsites
  obtain ⟨c, d⟩ := checkLabels_none (check_ok hlab)
  refine ⟨a, ?_, c, ?_⟩
  · intro s hs
    obtain ⟨line, hl⟩ := b s hs
    obtain ⟨e1, e2, e3⟩ := siteOf_valid hl
    refine ⟨e1, List.nodup_iff_count_le_one.2 fun z => ?_, e2, e3⟩
    by_cases hz : z ∈ s.labels
    · exact d s hs z (e1 z hz).1 (e1 z hz).2
    · rw [List.count_eq_zero_of_not_mem hz]
      exact Nat.zero_le _
  · intro cs hcs
    dsimp only at hcs
    subst hcs
    exact ⟨readConc_valid _ _ _ _ hconc, checkConc_none (check_ok hcc)⟩

/-- The labels after the `k`-th one are not looked at: here label 0 is given twice, and here there is a label that does
not exist, and something that is no label.  The number of labels that is stored is then `k + 1`. -/
theorem site_extra_labels :
    siteOf id 2 "0.0 0.0 0.0 0/1/0".toList = .ok ⟨(0, 0, 0), [0, 1], 3⟩ ∧
    siteOf id 2 "0.0 0.0 0.0 0/1/7".toList = .ok ⟨(0, 0, 0), [0, 1], 3⟩ ∧
    siteOf id 2 "0.0 0.0 0.0 0/1/x".toList = .ok ⟨(0, 0, 0), [0, 1], 3⟩ := by
  decide +kernel

/-- The lines of a text. -/
def textLines (ls : List String) : List (List Char) := ls.map String.toList

/-- The lines of the file `support/brute_force/struct_enum.in`. -/
def sampleEnum : List (List Char) := textLines ["System ", "bulk ", "0 1 1", "1 0 1", "1 1 0", "2", "1 ",
  "0.0 0.0 0.0  0/1 ", "1 10", "0.00001 ", "part list of labelings (including incomplete labelings) is used ",
  "# Concentration ranges ", "5 5 10 ", "5 5 10"]

/-- What it says. -/
def sampleData : EnumData where
  title := "System ".toList
  surface := false
  v1 := (0, 1, 1)
  v2 := (1, 0, 1)
  v3 := (1, 1, 0)
  k := 2
  sites := [⟨(0, 0, 0), [0, 1]⟩]
  equivalent := none
  nMin := 1
  nMax := 10
  eps := 1 / 100000
  full := false
  concentrations := some [(5, 5, 10), (5, 5, 10)]

/-- The words of a line. -/
def toWords : ℕ → List Char → List (List Char)
  | 0, _ => []
  | n + 1, l =>
    let l := l.dropWhile (· == ' ')
    if l = [] then [] else l.takeWhile (· != ' ') :: toWords n (l.dropWhile (· != ' '))

theorem blank_prefix (l : List Char) : ∃ n, l = List.replicate n ' ' ++ l.dropWhile (· == ' ') := by
  refine ⟨(l.takeWhile (· == ' ')).length, ?_⟩
  conv_lhs => rw [← List.takeWhile_append_dropWhile (p := (· == ' ')) (l := l)]
  congr 1
  refine List.eq_replicate_iff.2 ⟨rfl, fun c hc => ?_⟩
  simpa using List.mem_takeWhile_imp hc

theorem words_toWords : ∀ (n : ℕ) (l : List Char), l.length < n → Words l (toWords n l)
  | 0, _, h => absurd h (by omega)
  | n + 1, l, h => by
    obtain ⟨m, hm⟩ := blank_prefix l
    have hh : ∀ c t, l.dropWhile (· == ' ') = c :: t → c ≠ ' ' := by
      intro c t hc e
      have hne : l.dropWhile (· == ' ') ≠ [] := by rw [hc]; exact List.cons_ne_nil _ _
      have := List.head_dropWhile_not (· == ' ') hne
      simp only [hc, List.head_cons] at this
      rw [e] at this
      exact absurd this (by decide)
    have hlen : (l.dropWhile (· == ' ')).length ≤ l.length := (List.dropWhile_sublist _).length_le
    unfold toWords
    dsimp only
    generalize hr : l.dropWhile (· == ' ') = r at hm hh hlen ⊢
    by_cases h0 : r = []
    · rw [if_pos h0, hm, h0, List.append_nil]
      exact .none m
    · rw [if_neg h0]
      obtain ⟨c, t, rfl⟩ := List.exists_cons_of_ne_nil h0
      have hc := hh c t rfl
      have hlt : ((c :: t).dropWhile (· != ' ')).length < n := by
        rw [List.dropWhile_cons_of_pos (by simpa using hc)]
        have : (t.dropWhile (· != ' ')).length ≤ t.length := (List.dropWhile_sublist _).length_le
        rw [List.length_cons] at hlen
        omega
      have key := Words.cons (word := (c :: t).takeWhile (· != ' ')) (rest := (c :: t).dropWhile (· != ' ')) m
        ⟨by rw [List.takeWhile_cons_of_pos (by simpa using hc)]; exact List.cons_ne_nil _ _, fun hx => by
          simpa using List.mem_takeWhile_imp hx⟩ (by
          cases hd : (c :: t).dropWhile (· != ' ') with
          | nil => exact .inl rfl
          | cons x u =>
            right
            have hne : (c :: t).dropWhile (· != ' ') ≠ [] := by rw [hd]; exact List.cons_ne_nil _ _
            have := List.head_dropWhile_not (· != ' ') hne
            simp only [hd, List.head_cons, bne_eq_false_iff_eq] at this
            exact ⟨u, by rw [this]⟩) (words_toWords n _ hlt)
      rw [List.append_assoc, List.takeWhile_append_dropWhile, ← hm] at key
      exact key

theorem words_of {s : String} {ws : List String} (h : toWords (s.toList.length + 1) s.toList = textLines ws) :
    Words s.toList (textLines ws) := h ▸ words_toWords _ _ (by omega)

theorem significant_of : ∀ f, Significant f (sig f)
  | [] => .nil
  | l :: f => by
    unfold sig
    by_cases h : commentLine l = true
    · rw [List.filter_cons_of_neg (by rw [h]; decide)]
      exact .comment ((commentLine_iff l).1 h) (significant_of f)
    · rw [List.filter_cons_of_pos (by rw [Bool.not_eq_true] at h; rw [h]; decide)]
      exact .line (fun hc => h ((commentLine_iff l).2 hc)) (significant_of f)

theorem int_of {w : String} {z : ℤ} (h : parseInt w.toList = some z ∧ -2 ^ 31 ≤ z ∧ z < 2 ^ 31) :
    IntNumeral w.toList z ∧ -2 ^ 31 ≤ z ∧ z < 2 ^ 31 := ⟨parseInt_sound h.1, h.2⟩

theorem real_of {w : String} {q : ℚ} (h : parseReal w.toList = some q) : RealNumeral w.toList q := parseReal_sound h

theorem sampleEnum_text : EnumText sampleEnum sampleData := by
  refine ⟨"System ".toList, "bulk".toList, " ".toList, "0 1 1".toList, "1 0 1".toList, "1 1 0".toList, "2".toList,
    "1 ".toList, textLines ["0.0 0.0 0.0  0/1 "], [], "1 10".toList, "0.00001 ".toList,
    "part list of labelings (including incomplete labelings) is used ".toList, textLines ["5 5 10 ", "5 5 10"], [],
    ?_, rfl, (by decide : List.map _ _ = _), ?_, ?_, ?_, ?_, by decide, ?_, ?_, ?_, .inl ⟨rfl, rfl⟩, ?_, ?_, ?_, .inr ⟨_, rfl, rfl, ?_, ?_⟩⟩
  · have := significant_of sampleEnum
    have e : sig sampleEnum = textLines ["System ", "bulk ", "0 1 1", "1 0 1", "1 1 0", "2", "1 ",
        "0.0 0.0 0.0  0/1 ", "1 10", "0.00001 ", "part list of labelings (including incomplete labelings) is used ",
        "5 5 10 ", "5 5 10"] := by decide +kernel
    rw [e] at this
    exact this
  · exact ⟨_, _, _, _, words_of (ws := ["0", "1", "1"]) (by decide +kernel), real_of (by decide +kernel),
      real_of (by decide +kernel), real_of (by decide +kernel)⟩
  · exact ⟨_, _, _, _, words_of (ws := ["1", "0", "1"]) (by decide +kernel), real_of (by decide +kernel),
      real_of (by decide +kernel), real_of (by decide +kernel)⟩
  · exact ⟨_, _, _, _, words_of (ws := ["1", "1", "0"]) (by decide +kernel), real_of (by decide +kernel),
      real_of (by decide +kernel), real_of (by decide +kernel)⟩
  · exact ⟨textLines ["2"], [], words_of (s := "2") (ws := ["2"]) (by decide +kernel), .cons (int_of (by decide +kernel)) .nil⟩
  · exact ⟨textLines ["1"], [], words_of (s := "1 ") (ws := ["1"]) (by decide +kernel), .cons (int_of (by decide +kernel)) .nil⟩
  · refine .cons ⟨"0.0 0.0 0.0  0/1 ".toList, [], "0.0".toList, "0.0".toList, "0.0".toList, "0/1".toList,
      textLines ["0", "1"], by decide, .inl rfl, by decide, words_of (ws := ["0.0", "0.0", "0.0", "0/1"])
      (by decide +kernel), real_of (by decide +kernel), real_of (by decide +kernel), real_of (by decide +kernel),
      by decide, .cons ⟨parseInt_sound (by decide +kernel), by decide⟩
        (.cons ⟨parseInt_sound (by decide +kernel), by decide⟩ .nil)⟩ .nil
  · exact ⟨by decide, by decide, by decide, by decide⟩
  · exact ⟨textLines ["1", "10"], [], words_of (s := "1 10") (ws := ["1", "10"]) (by decide +kernel), .cons (int_of (by decide +kernel))
      (.cons (int_of (by decide +kernel)) .nil)⟩
  · exact ⟨"0.00001".toList, [], words_of (ws := ["0.00001"]) (by decide +kernel), real_of (by decide +kernel)⟩
  · exact ⟨"part".toList, [], textLines ["list", "of", "labelings", "(including", "incomplete", "labelings)", "is", "used"],
      words_of (ws := ["part", "list", "of", "labelings", "(including", "incomplete", "labelings)", "is", "used"])
      (by decide +kernel), (by decide : List.map _ _ = _), by simp⟩
  · intro c hc
    simp only [List.mem_cons, List.not_mem_nil, or_false, or_self] at hc
    subst hc
    unfold ConcRight
    decide
  · refine .cons ?_ (.cons ?_ .nil)
    · exact ⟨textLines ["5", "5", "10"], [], words_of (s := "5 5 10 ") (ws := ["5", "5", "10"]) (by decide +kernel),
        .cons (int_of (by decide +kernel)) (.cons (int_of (by decide +kernel)) (.cons (int_of (by decide +kernel)) .nil))⟩
    · exact ⟨textLines ["5", "5", "10"], [], words_of (s := "5 5 10") (ws := ["5", "5", "10"]) (by decide +kernel),
        .cons (int_of (by decide +kernel)) (.cons (int_of (by decide +kernel)) (.cons (int_of (by decide +kernel)) .nil))⟩

/-- The file of the repository, for any rounding and any `equal`. -/
example (fl : ℚ → ℚ) (equal : ℚ → ℚ → ℚ → Bool) :
    (readInput fl equal sampleEnum).map Prod.fst = .ok (toInput fl sampleData) :=
  readInput_text fl equal sampleEnum_text (fun h => absurd h (by decide))

/-- Its lattice and a list of its symmetries: the output is the list of the volumes up to 10 with symmetric supercells. -/
example : ∃ (pointGroup : R3 → List R3) (out : List (ℤ × ℕ)),
    bruteProgram id (fun x y e => decide (|x - y| < e)) (fun x y => decide (|x - y| < 1e-10)) pointGroup sampleEnum =
      .ok (some out) ∧
    ∀ i c, (i, c) ∈ out ↔ (1 ≤ i ∧ i ≤ 10) ∧ c = (SymmetricHNFs (PointSym (enumCell id sampleData)) i).ncard ∧ c ≠ 0 := by
  have hC : enumCell id sampleData = !![((0 : ℚ) : ℝ), (1 : ℚ), (1 : ℚ); (1 : ℚ), (0 : ℚ), (1 : ℚ); (1 : ℚ), (1 : ℚ), (0 : ℚ)] := rfl
  have hP : (enumCell id sampleData).det ≠ 0 := by
    rw [hC, Matrix.det_fin_three]
    simp
  obtain ⟨Co, A, B, C, D, E, F, k, hN, hk⟩ := niggliCell_exists ⟨0, 1, 1, 1, 0, 1, 1, 1, 0⟩ (by
    rw [Matrix.det_fin_three]
    simp [RMat.toMatrix])
  have hU : realCell ⟨0, 1, 1, 1, 0, 1, 1, 1, 0⟩ = enumCell id sampleData := by
    ext i j
    rw [hC]
    fin_cases i <;> fin_cases j <;> rfl
  rw [hU] at hN
  obtain ⟨pg, hg, -⟩ := exists_pointGroup hN hk
  obtain ⟨out, h1, -, h2⟩ := bruteProgram_text id (fun x y e => decide (|x - y| < e))
    (fun x y => decide (|x - y| < (1e-10 : ℝ))) (fun _ => pg) sampleEnum_text (fun h => absurd h (by decide)) hP hg
    (fun i a b => by
      refine separates_eps _ (by norm_num) i a ?_
      have : (i : ℝ) ≤ 10 := by exact_mod_cast (show i ≤ 10 from b)
      linarith)
  exact ⟨_, out, h1, h2⟩

/-- The file of the repository with other lines for the title, the kind of lattice, the vectors and the site. -/
def enumWith (title kind v1 v2 v3 site : String) : List (List Char) :=
  textLines [title, kind, v1, v2, v3, "2", "1", site, "1 10", "0.00001", "part"]

/-- What is read from it: the kind of lattice, or how it stops. -/
def kindRead (title kind v1 v2 v3 site : String) : Except EnumStop ℕ :=
  (readInput id (fun x y e => decide (|x - y| < e)) (enumWith title kind v1 v2 v3 site)).map fun r => r.1.latDim

/-- C117, files that are refused or accepted although they should not be.  The word `bulk` must be in the first column;
a title that begins with `#` is taken for a comment; coordinates with a tabulator or a comma between them are not read;
a line whose first 50 columns are blank is skipped.  For a surface the message asks for zeros in the first components of
the second and the third vector; the code tests the second and third components of the first one. -/
theorem readInput_surprises :
    kindRead "fcc" "bulk" "0 1 1" "1 0 1" "1 1 0" "0 0 0 0/1" = .ok 3 ∧
    kindRead "fcc" " bulk" "0 1 1" "1 0 1" "1 1 0" "0 0 0 0/1" = .error .kind ∧
    kindRead "# fcc" "bulk" "0 1 1" "1 0 1" "1 1 0" "0 0 0 0/1" = .error .runtime ∧
    kindRead "fcc" "bulk" "0 1 1" "1 0 1" "1 1 0" "0\t0\t0\t0/1" = .error .runtime ∧
    kindRead "fcc" "bulk" "0 1 1" "1 0 1" "1 1 0" "0,0,0 0/1" = .error .runtime ∧
    kindRead "fcc" "bulk" "0 1 1" "1 0 1" ("                                                  1 1 0") "0 0 0 0/1" =
      .error .runtime ∧
    kindRead "fcc" "surf" "1 1 0" "0 1 0" "0 0 1" "0 0 0 0/1" = .error .surface ∧
    kindRead "fcc" "surf" "1 0 0" "1 1 0" "1 0 1" "0 0 0 0/1" = .ok 2 := by
  decide +kernel

/-- Files that are refused: a label that does not exist, a label twice, a label that is not used. -/
example : kindRead "fcc" "bulk" "0 1 1" "1 0 1" "1 1 0" "0 0 0 0/2" = .error .labelValue ∧
    kindRead "fcc" "bulk" "0 1 1" "1 0 1" "1 1 0" "0 0 0 0/0" = .error .labelUnused ∧
    kindRead "fcc" "bulk" "0 1 1" "1 0 1" "1 1 0" "0 0 0 0" = .error .labelUnused := by
  decide +kernel

end AutoGR.Brute
