import Verif.Lemmas.FortranInput
import Verif.Spec.Inputs
import Mathlib.Tactic.FieldSimp
import Mathlib.LinearAlgebra.Matrix.NonsingularInverse

/-!
# Properties of the program's input file `KPGEN`
-/

namespace AutoGR.Fortran

open Spec

/-- The volume of the reciprocal cell that the code computes is `(2π)³ / vol`. -/
theorem crystalOf_r_vol (natoms : ℤ) (lat_param : ℚ) (lattice : Matrix (Fin 3) (Fin 3) ℚ) :
    (crystalOf natoms lat_param lattice).r_vol = (2 * piLit) ^ 3 / (crystalOf natoms lat_param lattice).vol := by
  unfold crystalOf
  dsimp only
  rw [Matrix.det_smul, Fintype.card_fin, Matrix.det_nonsing_inv, Ring.inverse_eq_inv', Matrix.det_transpose,
    abs_mul, abs_inv, abs_of_pos (by unfold piLit; norm_num : (0 : ℚ) < (2 * piLit) ^ 3), div_eq_mul_inv]

/-- What `get_inputs` has found out after the settings. -/
structure Found (rd : Reader) (rt2 : ℚ) (natoms : ℤ) (vol : ℚ) (settings : List (Key × List Char)) (s : Inputs) :
    Prop where
  offset : s.offset = lastOf (shiftValue rd) settings
  find_offset : s.find_offset = true ↔ ∀ p ∈ settings, p.1 ≠ .shift
  nkpts_set : s.nkpts_set = true ↔ lastOf densitySetting settings ≠ none
  nkpts : ∀ k v, lastOf densitySetting settings = some (k, v) →
    ∃ n, s.nkpts = some n ∧ Asks rd piLit rt2 natoms vol k v n
  symm_flag : lastOf symmetryLevel settings = some s.symm_flag ∨
    lastOf symmetryLevel settings = none ∧ s.symm_flag = 0
  min_kpts : s.min_kpts = true ↔ ∃ p ∈ settings, p.1 = .minIrrKpts ∧ IsWord p.2 "TRUE".toList
  eps : s.eps = lastOf (epsValue rd) settings
  def_eps : s.def_eps = true ↔ ∀ p ∈ settings, p.1 ≠ .eps

theorem lastOf_append {α : Type} (f : Key × List Char → Option α) (l : List (Key × List Char))
    (p : Key × List Char) : lastOf f (l ++ [p]) = (f p).or (lastOf f l) := by
  unfold lastOf
  rw [List.filterMap_append, List.getLast?_append]
  cases h : f p <;> simp [h]

theorem Found.start (rd : Reader) (rt2 : ℚ) (natoms : ℤ) (vol : ℚ) :
    Found rd rt2 natoms vol [] Inputs.start where
  offset := rfl
  find_offset := by simp [Inputs.start]
  nkpts_set := by simp [Inputs.start, lastOf]
  nkpts := by simp [lastOf]
  symm_flag := .inr ⟨rfl, rfl⟩
  min_kpts := by simp [Inputs.start]
  eps := rfl
  def_eps := by simp [Inputs.start]

theorem int32_fits {z : ℤ} (h : -2147483648 ≤ z ∧ z ≤ 2147483647) : int32 z = some z := if_pos h

theorem IsWord.unique {v a b : List Char} (ha : Solid a) (hb : Solid b) (h1 : IsWord v a) (h2 : IsWord v b) :
    a = b := by
  have e1 := (sameStr_word ha v).2 h1
  have e2 := (sameStr_word hb v).2 h2
  unfold sameStr at e1 e2
  rw [decide_eq_true_eq, ha.1] at e1
  rw [decide_eq_true_eq, hb.1] at e2
  rw [e1, e2]

instance (w : List Char) : Decidable (Solid w) := by unfold Solid; infer_instance

theorem Found.setting {rd : Reader} {rt2 : ℚ} {natoms : ℤ} {lat_param : ℚ} {lattice : Matrix (Fin 3) (Fin 3) ℚ}
    (hvol : (lat_param • lattice).det ≠ 0) (hrt : rt2 ≠ 0) {settings : List (Key × List Char)} {s : Inputs}
    (hs : Found rd rt2 natoms |(lat_param • lattice).det| settings s) {k : Key} {v : List Char}
    (hr : Readable rd (k, v))
    (hf : ∀ n, Asks rd piLit rt2 natoms |(lat_param • lattice).det| k v n → -2147483648 ≤ n ∧ n ≤ 2147483647) :
    Found rd rt2 natoms |(lat_param • lattice).det| (settings ++ [(k, v)])
      (applySetting rd rt2 (crystalOf natoms lat_param lattice) s (wordIs v) k v).1 := by
  have hv0 : |(lat_param • lattice).det| ≠ 0 := abs_ne_zero.2 hvol
  have hcv : (crystalOf natoms lat_param lattice).vol = |(lat_param • lattice).det| := rfl
  have hcr := crystalOf_r_vol natoms lat_param lattice
  rw [hcv] at hcr
  generalize |(lat_param • lattice).det| = vol at *
  have hcn : (crystalOf natoms lat_param lattice).natoms = natoms := rfl
  generalize crystalOf natoms lat_param lattice = c at *
  have dens : ∀ n, (applySetting rd rt2 c s (wordIs v) k v).1 = { s with nkpts := some n, nkpts_set := true } →
      Asks rd piLit rt2 natoms vol k v n → (densitySetting (k, v) = some (k, v)) →
      (shiftValue rd (k, v) = none) → symmetryLevel (k, v) = none → epsValue rd (k, v) = none →
      k ≠ .shift → k ≠ .minIrrKpts → k ≠ .eps →
      Found rd rt2 natoms vol (settings ++ [(k, v)]) (applySetting rd rt2 c s (wordIs v) k v).1 := by
    intro n e ha h1 h2 h3 h4 h5 h6 h7
    rw [e]
    refine ⟨?_, ?_, ?_, ?_, ?_, ?_, ?_, ?_⟩
    · rw [lastOf_append, h2]; exact hs.offset
    · simpa [or_imp, forall_and, h5] using hs.find_offset
    · rw [lastOf_append, h1]; simp
    · intro k' v' h
      rw [lastOf_append, h1] at h
      simp only [Option.some_or, Option.some.injEq, Prod.mk.injEq] at h
      obtain ⟨rfl, rfl⟩ := h
      exact ⟨n, rfl, ha⟩
    · rw [lastOf_append, h3]; exact hs.symm_flag
    · rw [hs.min_kpts]
      simp only [List.mem_append, List.mem_singleton]
      constructor
      · rintro ⟨p, hp, h⟩
        exact ⟨p, .inl hp, h⟩
      · rintro ⟨p, hp | rfl, h⟩
        · exact ⟨p, hp, h⟩
        · exact absurd h.1 h6
    · rw [lastOf_append, h4]; exact hs.eps
    · simpa [or_imp, forall_and, h7] using hs.def_eps
  have keepMin : k ≠ .minIrrKpts → (s.min_kpts = true ↔
      ∃ p ∈ settings ++ [(k, v)], p.1 = .minIrrKpts ∧ IsWord p.2 "TRUE".toList) := by
    intro h6
    rw [hs.min_kpts]
    simp only [List.mem_append, List.mem_singleton]
    constructor
    · rintro ⟨p, hp, h⟩
      exact ⟨p, .inl hp, h⟩
    · rintro ⟨p, hp | rfl, h⟩
      · exact ⟨p, hp, h⟩
      · exact absurd h.1 h6
  cases k with
  | shift =>
    obtain ⟨x, hx⟩ := hr
    have e : (applySetting rd rt2 c s (wordIs v) .shift v).1 =
        { s with offset := some x, find_offset := false } := by simp only [applySetting, hx]
    rw [e]
    refine ⟨?_, ?_, ?_, ?_, ?_, ?_, ?_, ?_⟩
    · rw [lastOf_append, shiftValue, hx]; rfl
    · simp
    · rw [lastOf_append]; exact hs.nkpts_set
    · intro k' v' h
      rw [lastOf_append] at h
      exact hs.nkpts k' v' h
    · rw [lastOf_append]; exact hs.symm_flag
    · exact keepMin (by decide)
    · rw [lastOf_append]; exact hs.eps
    · simpa [or_imp, forall_and] using hs.def_eps
  | nkpts =>
    obtain ⟨n, hn⟩ := hr
    exact dens n (by simp only [applySetting, hn]) hn rfl rfl rfl rfl (by decide) (by decide) (by decide)
  | kpdensity =>
    obtain ⟨d, hd⟩ := hr
    have ha : Asks rd piLit rt2 natoms vol .kpdensity v (nint (d * c.r_vol)) :=
      ⟨d, hd, by rw [← hcr]; exact nint_spec _⟩
    exact dens _ (by simp only [applySetting, hd, Option.bind_some, int32_fits (hf _ ha)]) ha rfl rfl rfl rfl
      (by decide) (by decide) (by decide)
  | kspacing =>
    obtain ⟨x, hx, hx0⟩ := hr
    have hpi : piLit ≠ 0 := by unfold piLit; norm_num
    have hq : (1 / (2 * piLit * x)) ^ 3 * c.r_vol = 1 / vol / x ^ 3 := by
      rw [hcr]
      field_simp
    have hne : 2 * piLit * x ≠ 0 := mul_ne_zero (mul_ne_zero two_ne_zero hpi) hx0
    have ha : Asks rd piLit rt2 natoms vol .kspacing v (nint ((1 / (2 * piLit * x)) ^ 3 * c.r_vol)) :=
      ⟨x, hx, by rw [← hq]; exact nint_spec _⟩
    exact dens _ (by simp only [applySetting, hx, Option.bind_some, divide, if_neg hne, int32_fits (hf _ ha)]) ha
      rfl rfl rfl rfl (by decide) (by decide) (by decide)
  | kppra =>
    obtain ⟨n, hn⟩ := hr
    have ha : Asks rd piLit rt2 natoms vol .kppra v (c.natoms * n) := ⟨n, hn, by rw [hcn, mul_comm]⟩
    exact dens _ (by simp only [applySetting, hn, Option.bind_some, int32_fits (hf _ ha)]) ha rfl rfl rfl rfl
      (by decide) (by decide) (by decide)
  | rmin =>
    obtain ⟨r, hr⟩ := hr
    have hq : r ^ 3 / (c.vol * rt2) = r ^ 3 / rt2 / vol := by
      rw [hcv]
      field_simp
    have hne : c.vol * rt2 ≠ 0 := by rw [hcv]; exact mul_ne_zero hv0 hrt
    have ha : Asks rd piLit rt2 natoms vol .rmin v (nint (r ^ 3 / (c.vol * rt2))) :=
      ⟨r, hr, by rw [← hq]; exact nint_spec _⟩
    exact dens _ (by simp only [applySetting, hr, Option.bind_some, divide, if_neg hne, int32_fits (hf _ ha)]) ha
      rfl rfl rfl rfl (by decide) (by decide) (by decide)
  | useSymmetry =>
    have wN := wordIs_iff (w := "NONE") (by decide) v
    have wT := wordIs_iff (w := "TIME_REVERSAL") (by decide) v
    have wS := wordIs_iff (w := "STRUCTURAL") (by decide) v
    have wA := wordIs_iff (w := "ALL") (by decide) v
    have ex : ∀ {a b : List Char}, Solid a → Solid b → a ≠ b → IsWord v a → ¬ IsWord v b :=
      fun ha hb hab h1 h2 => hab (IsWord.unique ha hb h1 h2)
    have key : (applySetting rd rt2 c s (wordIs v) .useSymmetry v).1 =
        { s with symm_flag := (symmetryLevel (.useSymmetry, v)).getD s.symm_flag } := by
      unfold applySetting symmetryLevel
      dsimp only
      by_cases hN : IsWord v "NONE".toList
      · rw [if_pos (wN.2 hN), if_neg (ex (by decide) (by decide) (by decide) hN),
          if_neg (ex (by decide) (by decide) (by decide) hN), if_neg (ex (by decide) (by decide) (by decide) hN),
          if_pos hN]
        rfl
      by_cases hT : IsWord v "TIME_REVERSAL".toList
      · rw [if_neg (fun h => hN (wN.1 h)), if_pos (wT.2 hT), if_neg (ex (by decide) (by decide) (by decide) hT),
          if_neg (ex (by decide) (by decide) (by decide) hT), if_pos hT]
        rfl
      by_cases hS : IsWord v "STRUCTURAL".toList
      · rw [if_neg (fun h => hN (wN.1 h)), if_neg (fun h => hT (wT.1 h)), if_pos (wS.2 hS),
          if_neg (ex (by decide) (by decide) (by decide) hS), if_pos hS]
        rfl
      by_cases hA : IsWord v "ALL".toList
      · rw [if_neg (fun h => hN (wN.1 h)), if_neg (fun h => hT (wT.1 h)), if_neg (fun h => hS (wS.1 h)),
          if_pos (wA.2 hA), if_pos hA]
        rfl
      · rw [if_neg (fun h => hN (wN.1 h)), if_neg (fun h => hT (wT.1 h)), if_neg (fun h => hS (wS.1 h)),
          if_neg (fun h => hA (wA.1 h)), if_neg hA, if_neg hS, if_neg hT, if_neg hN]
        rfl
    rw [key]
    refine ⟨?_, ?_, ?_, ?_, ?_, ?_, ?_, ?_⟩
    · rw [lastOf_append]; exact hs.offset
    · simpa [or_imp, forall_and] using hs.find_offset
    · rw [lastOf_append]; exact hs.nkpts_set
    · intro k' v' h
      rw [lastOf_append] at h
      exact hs.nkpts k' v' h
    · rw [lastOf_append]
      cases h : symmetryLevel (.useSymmetry, v) with
      | none => exact hs.symm_flag
      | some n => exact .inl rfl
    · exact keepMin (by decide)
    · rw [lastOf_append]; exact hs.eps
    · simpa [or_imp, forall_and] using hs.def_eps
  | minIrrKpts =>
    have w := wordIs_iff (w := "TRUE") (by decide) v
    have key : (applySetting rd rt2 c s (wordIs v) .minIrrKpts v).1 =
        { s with min_kpts := s.min_kpts || wordIs v "TRUE" } := by
      unfold applySetting
      cases h : wordIs v "TRUE" <;> simp
    rw [key]
    refine ⟨?_, ?_, ?_, ?_, ?_, ?_, ?_, ?_⟩
    · rw [lastOf_append]; exact hs.offset
    · simpa [or_imp, forall_and] using hs.find_offset
    · rw [lastOf_append]; exact hs.nkpts_set
    · intro k' v' h
      rw [lastOf_append] at h
      exact hs.nkpts k' v' h
    · rw [lastOf_append]; exact hs.symm_flag
    · simp only [Bool.or_eq_true, hs.min_kpts, w, List.mem_append, List.mem_singleton]
      constructor
      · rintro (⟨p, hp, h⟩ | h)
        · exact ⟨p, .inl hp, h⟩
        · exact ⟨_, .inr rfl, rfl, h⟩
      · rintro ⟨p, hp | rfl, h⟩
        · exact .inl ⟨p, hp, h⟩
        · exact .inr h.2
    · rw [lastOf_append]; exact hs.eps
    · simpa [or_imp, forall_and] using hs.def_eps
  | eps =>
    obtain ⟨x, hx⟩ := hr
    have e : (applySetting rd rt2 c s (wordIs v) .eps v).1 =
        { s with eps := some x, def_eps := false } := by simp only [applySetting, hx]
    rw [e]
    refine ⟨?_, ?_, ?_, ?_, ?_, ?_, ?_, ?_⟩
    · rw [lastOf_append]; exact hs.offset
    · simpa [or_imp, forall_and] using hs.find_offset
    · rw [lastOf_append]; exact hs.nkpts_set
    · intro k' v' h
      rw [lastOf_append] at h
      exact hs.nkpts k' v' h
    · rw [lastOf_append]; exact hs.symm_flag
    · exact keepMin (by decide)
    · rw [lastOf_append, epsValue, hx]; rfl
    · simp

theorem Found.all {rd : Reader} {rt2 : ℚ} {natoms : ℤ} {lat_param : ℚ} {lattice : Matrix (Fin 3) (Fin 3) ℚ}
    (hvol : (lat_param • lattice).det ≠ 0) (hrt : rt2 ≠ 0) (settings : List (Key × List Char))
    (hr : ∀ p ∈ settings, Readable rd p)
    (hf : ∀ p ∈ settings, ∀ n, Asks rd piLit rt2 natoms |(lat_param • lattice).det| p.1 p.2 n →
      -2147483648 ≤ n ∧ n ≤ 2147483647) :
    Found rd rt2 natoms |(lat_param • lattice).det| settings
      (applyAll rd rt2 (crystalOf natoms lat_param lattice) .start settings) := by
  induction settings using List.reverseRecOn with
  | nil => exact Found.start ..
  | append_singleton l p ih =>
    have h1 := ih (fun q hq => hr q (List.mem_append_left _ hq)) fun q hq => hf q (List.mem_append_left _ hq)
    have hp : p ∈ l ++ [p] := by simp
    unfold applyAll
    rw [List.foldl_append]
    exact h1.setting hvol hrt (hr p hp) (hf p hp)

/-- **C82.**  A `KPGEN` file whose values can be read and whose numbers of points fit an integer means what it
says.  Lines that are not settings do not count.  The program stops exactly if no line says how many points are
wanted.  Otherwise the last such line decides, and the shift, the tolerance (by default the single-precision
number `1E-3`) and the level of symmetry (by default all) are those given last. -/
theorem get_inputs_correct {rd : Reader} {rt2 : ℚ} {natoms : ℤ} {lat_param : ℚ}
    {lattice : Matrix (Fin 3) (Fin 3) ℚ} (hvol : (lat_param • lattice).det ≠ 0) (hrt : rt2 ≠ 0)
    {file : List (List Char)} {settings : List (Key × List Char)} (h : FileSays file settings)
    (hr : ∀ p ∈ settings, Readable rd p)
    (hf : ∀ p ∈ settings, ∀ n, Asks rd piLit rt2 natoms |(lat_param • lattice).det| p.1 p.2 n →
      -2147483648 ≤ n ∧ n ≤ 2147483647) :
    (lastOf densitySetting settings = none →
      get_inputs rd rt2 (crystalOf natoms lat_param lattice) file = none) ∧
    ∀ k v, lastOf densitySetting settings = some (k, v) →
      ∃ s, get_inputs rd rt2 (crystalOf natoms lat_param lattice) file = some s ∧
        (∃ n, s.nkpts = some n ∧ Asks rd piLit rt2 natoms |(lat_param • lattice).det| k v n) ∧
        s.offset = lastOf (shiftValue rd) settings ∧
        (s.find_offset = true ↔ ∀ p ∈ settings, p.1 ≠ .shift) ∧
        (lastOf symmetryLevel settings = some s.symm_flag ∨
          lastOf symmetryLevel settings = none ∧ s.symm_flag = 0) ∧
        (s.min_kpts = true ↔ ∃ p ∈ settings, p.1 = .minIrrKpts ∧ IsWord p.2 "TRUE".toList) ∧
        s.eps = (lastOf (epsValue rd) settings).or (some (8589935 / 2 ^ 33)) := by
  have F := Found.all hvol hrt settings hr hf
  unfold get_inputs
  rw [inputLoop_says rt2 _ h .start hr]
  generalize applyAll rd rt2 (crystalOf natoms lat_param lattice) .start settings = s at F
  dsimp only
  refine ⟨fun hn => ?_, fun k v hk => ?_⟩
  · have h1 : s.nkpts_set = false := by
      by_contra hc
      exact F.nkpts_set.1 (by simpa using hc) hn
    split_ifs <;> simp_all
  · have h1 : s.nkpts_set = true := F.nkpts_set.2 (by rw [hk]; simp)
    have he : (if s.def_eps = true then { s with eps := some defaultEps } else s) =
        { s with eps := (lastOf (epsValue rd) settings).or (some (8589935 / 2 ^ 33)) } := by
      by_cases hd : s.def_eps = true
      · have hnone : lastOf (epsValue rd) settings = none := by
          unfold lastOf
          rw [List.getLast?_eq_none_iff, List.filterMap_eq_nil_iff]
          rintro ⟨k', v'⟩ hp
          have := F.def_eps.1 hd _ hp
          cases k' <;> first | rfl | exact absurd rfl this
        rw [if_pos hd, hnone]
        rfl
      · have hsome : ∃ x, lastOf (epsValue rd) settings = some x := by
          by_contra hc
          rw [F.def_eps] at hd
          push Not at hd
          obtain ⟨⟨k', v'⟩, hp, rfl⟩ := hd
          obtain ⟨x, hx⟩ := hr _ hp
          have : lastOf (epsValue rd) settings = none := by
            cases h : lastOf (epsValue rd) settings with
            | none => rfl
            | some y => exact absurd ⟨y, h⟩ hc
          unfold lastOf at this
          rw [List.getLast?_eq_none_iff, List.filterMap_eq_nil_iff] at this
          have := this _ hp
          rw [epsValue, hx] at this
          cases this
        obtain ⟨x, hx⟩ := hsome
        rw [if_neg hd, hx, Option.some_or, ← hx, ← F.eps]
    rw [he]
    refine ⟨_, if_pos h1, F.nkpts k v hk, F.offset, F.find_offset, F.symm_flag, F.min_kpts, rfl⟩

/-- The value of the setting cannot be read. -/
def Unreadable (rd : Reader) : Key × List Char → Prop
  | (.shift, v) => rd.real3 v = none
  | (.nkpts, v) | (.kppra, v) => rd.int v = none
  | (.kpdensity, v) | (.kspacing, v) | (.rmin, v) | (.eps, v) => rd.real v = none
  | (.useSymmetry, _) | (.minIrrKpts, _) => False

theorem applySetting_bad {rd : Reader} (rt2 : ℚ) (c : Crystal) (s : Inputs) {k : Key} {v : List Char}
    (h : Unreadable rd (k, v)) : (applySetting rd rt2 c s (wordIs v) k v).2 = false := by
  cases k <;> simp only [Unreadable] at h <;> simp only [applySetting, h] <;> rfl

theorem inputLoop_append (rd : Reader) (rt2 : ℚ) (c : Crystal) (tail tail' : List (List Char))
    (h : ∀ s, inputLoop rd rt2 c s tail = inputLoop rd rt2 c s tail') (pre : List (List Char)) :
    ∀ s, inputLoop rd rt2 c s (pre ++ tail) = inputLoop rd rt2 c s (pre ++ tail') := by
  induction pre with
  | nil => exact h
  | cons line rest ih =>
    intro s
    simp only [List.cons_append, inputLoop]
    split
    · exact ih _
    · rfl

/-- **C83.**  A value that cannot be read ends the reading of the file: nothing after it counts, and there is no
message. -/
theorem get_inputs_unreadable_ends (rd : Reader) (rt2 : ℚ) (c : Crystal) (pre post : List (List Char))
    {bad : List Char} {k : Key} {v : List Char} (hb : Sets bad k v) (hu : Unreadable rd (k, v)) :
    get_inputs rd rt2 c (pre ++ bad :: post) = get_inputs rd rt2 c (pre ++ [bad]) := by
  unfold get_inputs
  rw [inputLoop_append rd rt2 c (bad :: post) [bad] (fun s => ?_) pre]
  have h2 := applySetting_bad rt2 c s hu
  simp only [inputLoop]
  rw [inputLine_sets rd rt2 c s hb, show applySetting rd rt2 c s (wordIs v) k v =
    ((applySetting rd rt2 c s (wordIs v) k v).1, false) from Prod.ext rfl h2]

/-- **C83.**  If the value that cannot be read is a number of points, the program goes on although the number of
points is undefined: it does not stop with "Number of kpoints not set". -/
theorem get_inputs_unreadable_nkpts (rd : Reader) (rt2 : ℚ) (c : Crystal) {pre : List (List Char)}
    {settings : List (Key × List Char)} (hp : FileSays pre settings) (hr : ∀ p ∈ settings, Readable rd p)
    (post : List (List Char)) {bad : List Char} {k : Key} {v : List Char} (hb : Sets bad k v)
    (hk : densitySetting (k, v) = some (k, v)) (hu : Unreadable rd (k, v)) :
    ∃ s, get_inputs rd rt2 c (pre ++ bad :: post) = some s ∧ s.nkpts = none := by
  have h0 : ∀ s, inputLoop rd rt2 c s (bad :: post) = (applySetting rd rt2 c s (wordIs v) k v).1 := by
    intro s
    have h2 := applySetting_bad rt2 c s hu
    simp only [inputLoop]
    rw [inputLine_sets rd rt2 c s hb, show applySetting rd rt2 c s (wordIs v) k v =
      ((applySetting rd rt2 c s (wordIs v) k v).1, false) from Prod.ext rfl h2]
  have h1 : ∀ s, inputLoop rd rt2 c s (pre ++ bad :: post) =
      (applySetting rd rt2 c (applyAll rd rt2 c s settings) (wordIs v) k v).1 := by
    induction hp with
    | nil => exact h0
    | @sets line k' v' rest settings hl _ ih =>
      intro s
      have h2 := applySetting_ok rt2 c s (hr (k', v') List.mem_cons_self)
      rw [List.cons_append, inputLoop, inputLine_sets rd rt2 c s hl,
        show applySetting rd rt2 c s (wordIs v') k' v' = ((applySetting rd rt2 c s (wordIs v') k' v').1, true) from
          Prod.ext rfl h2]
      exact ih (fun p hp => hr p (List.mem_cons_of_mem _ hp)) _
    | @other line rest settings hl _ ih =>
      intro s
      rw [List.cons_append, inputLoop, inputLine_other rd rt2 c s hl]
      exact ih hr s
  unfold get_inputs
  rw [h1]
  generalize applyAll rd rt2 c .start settings = s
  have h3 : (applySetting rd rt2 c s (wordIs v) k v).1 = { s with nkpts := none, nkpts_set := true } := by
    cases k <;> simp only [densitySetting, Unreadable, reduceCtorEq] at hk hu <;>
      simp only [applySetting, hu, Option.bind_none]
  rw [h3]
  dsimp only
  by_cases hd : s.def_eps = true
  · rw [if_pos hd]
    exact ⟨_, if_pos rfl, rfl⟩
  · rw [if_neg hd]
    exact ⟨_, if_pos rfl, rfl⟩

/-! ## Examples -/

/-- A simple reader: natural numbers without blanks. -/
def digits (l : List Char) : Option ℕ :=
  if l ≠ [] ∧ l.all Char.isDigit then some (l.foldl (fun n c => 10 * n + (c.toNat - 48)) 0) else none

/-- Reads natural numbers, and one number for all three. -/
def plainReader : Reader where
  int l := (digits (trim (adjustl l))).map fun n => (n : ℤ)
  real l := (digits (trim (adjustl l))).map fun n => (n : ℚ)
  real3 l := (digits (trim (adjustl l))).map fun n => ((n : ℚ), (n : ℚ), (n : ℚ))

theorem not_sets {line : List Char} (h : '=' ∉ line.take 100) (k : Key) (v : List Char) : ¬ Sets line k v := by
  rintro ⟨b, hb⟩
  rw [hb] at h
  simp at h

/-- A file with a comment, two numbers of points and a level of symmetry. -/
def sampleFile : List (List Char) :=
  ["KPPRA=5000".toList, "! denser".toList, "NKPTS  = 300".toList, "USE_SYMMETRY= NONE ".toList]

def sampleSettings : List (Key × List Char) :=
  [(.kppra, "5000".toList), (.nkpts, " 300".toList), (.useSymmetry, " NONE ".toList)]

theorem sample_says : FileSays sampleFile sampleSettings :=
  .sets ⟨0, by decide⟩ (.other (not_sets (by decide)) (.sets ⟨2, by decide⟩ (.sets ⟨0, by decide⟩ .nil)))

-- the hypotheses of `get_inputs_correct` hold for this file and a cubic cell with two atoms
example : ∃ s, get_inputs plainReader (7 / 5) (crystalOf 2 3 1) sampleFile = some s ∧ s.nkpts = some 300 ∧
    s.symm_flag = 3 := by
  have hd : ((3 : ℚ) • (1 : Matrix (Fin 3) (Fin 3) ℚ)).det ≠ 0 := by
    rw [Matrix.det_smul, Matrix.det_one]; norm_num
  have h := (get_inputs_correct (rd := plainReader) (rt2 := 7 / 5) (natoms := 2) hd (by norm_num) sample_says
    (by
      intro p hp
      simp only [sampleSettings, List.mem_cons, List.not_mem_nil, or_false] at hp
      rcases hp with rfl | rfl | rfl
      · exact ⟨5000, by decide⟩
      · exact ⟨300, by decide⟩
      · trivial)
    (by
      intro p hp n hn
      simp only [sampleSettings, List.mem_cons, List.not_mem_nil, or_false] at hp
      rcases hp with rfl | rfl | rfl
      · obtain ⟨m, hm, rfl⟩ := hn
        have : m = 5000 := Option.some.inj (hm.symm.trans (by decide))
        subst this
        norm_num
      · have : n = 300 := Option.some.inj ((show plainReader.int _ = some n from hn).symm.trans (by decide))
        subst this
        norm_num
      · exact hn.elim)).2 .nkpts " 300".toList rfl
  obtain ⟨s, h1, ⟨n, h2, h3⟩, -, -, h4, -⟩ := h
  have hn : n = 300 := Option.some.inj ((show plainReader.int _ = some n from h3).symm.trans (by decide))
  refine ⟨s, h1, hn ▸ h2, ?_⟩
  have hw : IsWord " NONE ".toList "NONE".toList := ⟨1, 1, by decide⟩
  have hl : lastOf symmetryLevel sampleSettings = some 3 := by
    have e : symmetryLevel (.useSymmetry, " NONE ".toList) = some 3 := by
      unfold symmetryLevel
      dsimp only
      rw [if_neg fun h => absurd (IsWord.unique (by decide) (by decide) h hw) (by decide),
        if_neg fun h => absurd (IsWord.unique (by decide) (by decide) h hw) (by decide),
        if_neg fun h => absurd (IsWord.unique (by decide) (by decide) h hw) (by decide), if_pos hw]
    unfold lastOf sampleSettings
    rw [List.filterMap_cons, List.filterMap_cons, List.filterMap_cons, e]
    rfl
  rcases h4 with h4 | h4
  · exact (Option.some.inj (hl.symm.trans h4)).symm
  · rw [hl] at h4
    exact absurd h4.1 (by simp)

-- `NKPTS=3O0` with the letter O: the shift after it is ignored and the number of points is undefined
example (rt2 : ℚ) (c : Crystal) :
    get_inputs plainReader rt2 c ["NKPTS=3O0".toList, "SHIFT=0".toList] =
      get_inputs plainReader rt2 c ["NKPTS=3O0".toList] ∧
    ∃ s, get_inputs plainReader rt2 c ["NKPTS=3O0".toList, "SHIFT=0".toList] = some s ∧ s.nkpts = none :=
  ⟨get_inputs_unreadable_ends plainReader rt2 c [] ["SHIFT=0".toList] (k := .nkpts) (v := "3O0".toList)
    ⟨0, by decide⟩ (show plainReader.int _ = none by decide),
   get_inputs_unreadable_nkpts plainReader rt2 c .nil (by simp) ["SHIFT=0".toList] (k := .nkpts)
    (v := "3O0".toList) ⟨0, by decide⟩ rfl (show plainReader.int _ = none by decide)⟩

end AutoGR.Fortran
