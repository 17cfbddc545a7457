import Verif.Model.FortranInput
import Verif.Spec.Inputs

/-!
# Lemmas on character values and on one line of `KPGEN`
-/

namespace AutoGR.Fortran

open Spec

theorem dropWhile_replicate (p : Char → Bool) (c : Char) (hc : p c = true) (n : ℕ) (l : List Char) :
    (List.replicate n c ++ l).dropWhile p = l.dropWhile p := by
  induction n with
  | zero => rfl
  | succ n ih => simp [List.replicate_succ, hc, ih]

theorem dropWhile_split (l : List Char) :
    ∃ n, l = List.replicate n ' ' ++ l.dropWhile (· = ' ') := by
  induction l with
  | nil => exact ⟨0, rfl⟩
  | cons a l ih =>
    by_cases h : a = ' '
    · obtain ⟨n, hn⟩ := ih
      refine ⟨n + 1, ?_⟩
      subst h
      rw [List.dropWhile_cons, if_pos (by simp), List.replicate_succ, List.cons_append, ← hn]
    · exact ⟨0, by simp [h]⟩

theorem trim_split (s : List Char) : ∃ n, s = trim s ++ List.replicate n ' ' := by
  obtain ⟨n, hn⟩ := dropWhile_split s.reverse
  refine ⟨n, ?_⟩
  have := congrArg List.reverse hn
  rw [List.reverse_reverse, List.reverse_append, List.reverse_replicate] at this
  exact this

theorem trim_append (s : List Char) (n : ℕ) : trim (s ++ List.replicate n ' ') = trim s := by
  unfold trim
  rw [List.reverse_append, List.reverse_replicate, dropWhile_replicate _ _ (by simp)]

theorem adjustl_split (s : List Char) : ∃ n, s = List.replicate n ' ' ++ adjustl s := dropWhile_split s

/-- Words that neither begin nor end with a blank. -/
def Solid (w : List Char) : Prop := trim w = w ∧ adjustl w = w ∧ w ≠ []

instance (w : List Char) : Decidable (Solid w) := by unfold Solid; infer_instance

theorem trim_blanks_append {w : List Char} (hw : Solid w) (a : ℕ) :
    trim (List.replicate a ' ' ++ w) = List.replicate a ' ' ++ w := by
  obtain ⟨h1, h2, h3⟩ := hw
  unfold trim at h1 ⊢
  rw [List.reverse_append]
  obtain ⟨c, l, hl⟩ := List.exists_cons_of_ne_nil (l := w.reverse) (by simpa using h3)
  have hc : c ≠ ' ' := by
    rintro rfl
    have hlen := congrArg List.length h1
    rw [List.length_reverse, hl, List.dropWhile_cons, if_pos (by simp)] at hlen
    have h4 : (l.dropWhile (fun x => decide (x = ' '))).length ≤ l.length :=
      (List.dropWhile_sublist _).length_le
    have h5 := congrArg List.length hl
    rw [List.length_reverse, List.length_cons] at h5
    omega
  rw [hl, List.cons_append, List.dropWhile_cons, if_neg (by simpa using hc), List.reverse_cons,
    List.reverse_append, List.reverse_reverse, List.append_assoc, ← List.reverse_cons, ← hl, List.reverse_reverse]

theorem sameStr_word {w : List Char} (hw : Solid w) (v : List Char) :
    sameStr w (adjustl (trim v)) = true ↔ IsWord v w := by
  unfold sameStr
  rw [decide_eq_true_eq, hw.1]
  constructor
  · intro h
    obtain ⟨b, hb⟩ := trim_split v
    obtain ⟨a, ha⟩ := adjustl_split (trim v)
    obtain ⟨n, hn⟩ := trim_split (adjustl (trim v))
    rw [← h] at hn
    refine ⟨a, n + b, ?_⟩
    rw [hn] at ha
    rw [ha] at hb
    rw [hb]
    simp only [List.append_assoc, List.replicate_append_replicate]
  · rintro ⟨a, b, rfl⟩
    rw [trim_append, trim_blanks_append hw]
    unfold adjustl
    rw [dropWhile_replicate _ _ (by simp)]
    have : w.dropWhile (fun x => decide (x = ' ')) = w := hw.2.1
    rw [this, hw.1]

theorem Key.solid (k : Key) : Solid k.name := by cases k <;> decide
theorem Key.no_eq (k : Key) : '=' ∉ k.name := by cases k <;> decide
theorem Key.name_injective {k k' : Key} (h : k.name = k'.name) : k = k' := by
  revert h
  cases k <;> cases k' <;> decide

theorem splitLabel_sets {k : Key} {b : ℕ} {v : List Char} :
    splitLabel (k.name ++ List.replicate b ' ' ++ '=' :: v) = (k.name ++ List.replicate b ' ', v) := by
  have hno : ∀ x ∈ k.name ++ List.replicate b ' ', x ≠ '=' := by
    intro x hx
    rcases List.mem_append.1 hx with hx | hx
    · rintro rfl
      exact Key.no_eq k hx
    · rw [List.eq_of_mem_replicate hx]
      decide
  unfold splitLabel
  rw [if_pos (by simp)]
  rw [List.takeWhile_append_of_pos (by simpa using hno), List.dropWhile_append_of_pos (by simpa using hno)]
  simp

theorem sameStr_key (k : Key) (b : ℕ) (k' : Key) :
    sameStr (k.name ++ List.replicate b ' ') k'.name = decide (k = k') := by
  unfold sameStr
  rw [trim_append, (Key.solid k).1, (Key.solid k').1]
  by_cases h : k = k'
  · simp [h]
  · have : k.name ≠ k'.name := fun e => h (Key.name_injective e)
    simp [h, this]

theorem sets_of_sameStr {line : List Char} {k : Key}
    (h : sameStr (splitLabel (line.take 100)).1 k.name = true) : ∃ v, Sets line k v := by
  unfold sameStr at h
  rw [decide_eq_true_eq, (Key.solid k).1] at h
  obtain ⟨b, hb⟩ := trim_split (splitLabel (line.take 100)).1
  rw [h] at hb
  unfold splitLabel at hb h
  by_cases he : '=' ∈ line.take 100
  · rw [if_pos he] at hb
    dsimp only at hb
    have hs := List.takeWhile_append_dropWhile (p := fun x => decide (x ≠ '=')) (l := line.take 100)
    cases hd : (line.take 100).dropWhile (fun x => decide (x ≠ '=')) with
    | nil =>
      exfalso
      rw [hd, List.append_nil] at hs
      rw [← hs] at he
      have := List.all_takeWhile (p := fun x => decide (x ≠ '=')) (l := line.take 100)
      rw [List.all_eq_true] at this
      simpa using this _ he
    | cons a v =>
      have ha : a = '=' := by
        have := List.head?_dropWhile_not (fun x => decide (x ≠ '=')) (line.take 100)
        rw [hd] at this
        simpa using this
      refine ⟨v, b, ?_⟩
      subst ha
      rw [← hb, ← hd, hs]
  · rw [if_neg he] at h
    exfalso
    have h' : trim [] = k.name := h
    revert h'
    cases k <;> decide

theorem inputCase_other (rd : Reader) (rt2 : ℚ) (c : Crystal) (s : Inputs) (is val : String → Bool)
    (buffer : List Char) (e1 : is "SHIFT" = false) (e2 : is "NKPTS" = false) (e3 : is "KPDENSITY" = false)
    (e4 : is "KSPACING" = false) (e5 : is "KPPRA" = false) (e6 : is "RMIN" = false)
    (e7 : is "USE_SYMMETRY" = false) (e8 : is "MIN_IRR_KPTS" = false) (e9 : is "EPS" = false) :
    inputCase rd rt2 c s is val buffer = (s, true) := by
  unfold inputCase
  rw [e1, e2, e3, e4, e5, e6, e7, e8, e9]
  rfl

/-- A line that sets nothing changes nothing. -/
theorem inputLine_other (rd : Reader) (rt2 : ℚ) (c : Crystal) (s : Inputs) {line : List Char}
    (h : ∀ k v, ¬ Sets line k v) : inputLine rd rt2 c s line = (s, true) := by
  have hk : ∀ k : Key, sameStr (splitLabel (line.take 100)).1 k.name = false := fun k => by
    by_contra hs
    obtain ⟨v, hv⟩ := sets_of_sameStr (k := k) (by simpa using hs)
    exact h k v hv
  unfold inputLine
  exact inputCase_other rd rt2 c s _ _ _ (hk .shift) (hk .nkpts) (hk .kpdensity) (hk .kspacing) (hk .kppra)
    (hk .rmin) (hk .useSymmetry) (hk .minIrrKpts) (hk .eps)

/-- The effect of a setting. -/
def applySetting (rd : Reader) (rt2 : ℚ) (c : Crystal) (s : Inputs) (val : String → Bool) (k : Key)
    (v : List Char) : Inputs × Bool :=
  match k with
  | .shift => ({ s with offset := rd.real3 v, find_offset := false }, (rd.real3 v).isSome)
  | .nkpts => ({ s with nkpts := rd.int v, nkpts_set := true }, (rd.int v).isSome)
  | .kpdensity =>
    ({ s with nkpts := (rd.real v).bind fun kpd => int32 (nint (kpd * c.r_vol)), nkpts_set := true },
      (rd.real v).isSome)
  | .kspacing =>
    ({ s with
        nkpts := (rd.real v).bind fun lkpd =>
          (divide 1 (2 * piLit * lkpd)).bind fun q => int32 (nint (q ^ 3 * c.r_vol)),
        nkpts_set := true }, (rd.real v).isSome)
  | .kppra =>
    ({ s with nkpts := (rd.int v).bind fun kppra => int32 (c.natoms * kppra), nkpts_set := true },
      (rd.int v).isSome)
  | .rmin =>
    ({ s with
        nkpts := (rd.real v).bind fun rmin => (divide (rmin ^ 3) (c.vol * rt2)).bind fun q => int32 (nint q),
        nkpts_set := true }, (rd.real v).isSome)
  | .useSymmetry =>
    if val "NONE" then ({ s with symm_flag := 3 }, true)
    else if val "TIME_REVERSAL" then ({ s with symm_flag := 2 }, true)
    else if val "STRUCTURAL" then ({ s with symm_flag := 1 }, true)
    else if val "ALL" then ({ s with symm_flag := 0 }, true)
    else (s, true)
  | .minIrrKpts => if val "TRUE" then ({ s with min_kpts := true }, true) else (s, true)
  | .eps => ({ s with eps := rd.real v, def_eps := false }, (rd.real v).isSome)

theorem inputCase_key (rd : Reader) (rt2 : ℚ) (c : Crystal) (s : Inputs) (is val : String → Bool)
    (buffer : List Char) (k : Key) (e1 : is "SHIFT" = decide (k = .shift)) (e2 : is "NKPTS" = decide (k = .nkpts))
    (e3 : is "KPDENSITY" = decide (k = .kpdensity)) (e4 : is "KSPACING" = decide (k = .kspacing))
    (e5 : is "KPPRA" = decide (k = .kppra)) (e6 : is "RMIN" = decide (k = .rmin))
    (e7 : is "USE_SYMMETRY" = decide (k = .useSymmetry)) (e8 : is "MIN_IRR_KPTS" = decide (k = .minIrrKpts))
    (e9 : is "EPS" = decide (k = .eps)) :
    inputCase rd rt2 c s is val buffer = applySetting rd rt2 c s val k buffer := by
  unfold inputCase applySetting
  rw [e1, e2, e3, e4, e5, e6, e7, e8, e9]
  cases k <;> rfl

/-- The words that `USE_SYMMETRY` and `MIN_IRR_KPTS` are compared with. -/
def wordIs (v : List Char) : String → Bool := fun w => sameStr w.toList (adjustl (trim v))

theorem inputLine_sets (rd : Reader) (rt2 : ℚ) (c : Crystal) (s : Inputs) {line : List Char} {k : Key}
    {v : List Char} (h : Sets line k v) :
    inputLine rd rt2 c s line = applySetting rd rt2 c s (wordIs v) k v := by
  obtain ⟨b, hb⟩ := h
  unfold inputLine
  rw [hb, splitLabel_sets]
  exact inputCase_key rd rt2 c s _ _ _ k (sameStr_key k b .shift) (sameStr_key k b .nkpts)
    (sameStr_key k b .kpdensity) (sameStr_key k b .kspacing) (sameStr_key k b .kppra) (sameStr_key k b .rmin)
    (sameStr_key k b .useSymmetry) (sameStr_key k b .minIrrKpts) (sameStr_key k b .eps)

/-- The settings applied one after the other. -/
def applyAll (rd : Reader) (rt2 : ℚ) (c : Crystal) (s : Inputs) (settings : List (Key × List Char)) : Inputs :=
  settings.foldl (fun s p => (applySetting rd rt2 c s (wordIs p.2) p.1 p.2).1) s

theorem applySetting_ok {rd : Reader} (rt2 : ℚ) (c : Crystal) (s : Inputs) {p : Key × List Char}
    (h : Readable rd p) : (applySetting rd rt2 c s (wordIs p.2) p.1 p.2).2 = true := by
  obtain ⟨k, v⟩ := p
  cases k <;> simp only [Readable] at h <;> unfold applySetting <;> dsimp only
  case useSymmetry => split_ifs <;> rfl
  case minIrrKpts => split_ifs <;> rfl
  case kspacing => obtain ⟨x, hx, -⟩ := h; rw [hx]; rfl
  all_goals
    obtain ⟨x, hx⟩ := h
    rw [hx]
    rfl

theorem inputLoop_says {rd : Reader} (rt2 : ℚ) (c : Crystal) {file : List (List Char)}
    {settings : List (Key × List Char)} (h : FileSays file settings) :
    ∀ (s : Inputs), (∀ p ∈ settings, Readable rd p) →
      inputLoop rd rt2 c s file = applyAll rd rt2 c s settings := by
  induction h with
  | nil => intro s _; rfl
  | @sets line k v rest settings hl _ ih =>
    intro s hr
    have h1 := inputLine_sets rd rt2 c s hl
    have h2 := applySetting_ok rt2 c s (hr (k, v) List.mem_cons_self)
    rw [inputLoop, h1]
    rw [show applySetting rd rt2 c s (wordIs v) k v = ((applySetting rd rt2 c s (wordIs v) k v).1, true) from
      Prod.ext rfl h2]
    exact ih _ fun p hp => hr p (List.mem_cons_of_mem _ hp)
  | @other line rest settings hl _ ih =>
    intro s hr
    rw [inputLoop, inputLine_other rd rt2 c s hl]
    exact ih s hr

theorem wordIs_iff {w : String} (hw : Solid w.toList) (v : List Char) :
    wordIs v w = true ↔ IsWord v w.toList := sameStr_word hw v

theorem nint_spec (x : ℚ) : |x - nint x| ≤ 1 / 2 := by
  unfold nint
  rw [abs_le]
  split
  · have h1 := Int.floor_le (x + 1 / 2)
    have h2 := Int.lt_floor_add_one (x + 1 / 2)
    constructor <;> linarith
  · have h1 := Int.le_ceil (x - 1 / 2)
    have h2 := Int.ceil_lt_add_one (x - 1 / 2)
    constructor <;> linarith

end AutoGR.Fortran
