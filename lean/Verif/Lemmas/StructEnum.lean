import Verif.Model.StructEnum
import Verif.Spec.StructEnum
import Verif.Lemmas.ListRead
import Mathlib.Data.List.TakeWhile

/-!
# Lemmas on the reading of `struct_enum.in`
-/

namespace AutoGR.Brute

open Fortran Spec

/-! ## Comment lines -/

theorem commentLine_iff (line : List Char) : commentLine line = true ↔ Comment line := by
  unfold commentLine Comment
  generalize line.take 50 = p
  dsimp only
  induction p with
  | nil => simp [List.replicate_eq_nil_iff]
  | cons c t ih =>
    by_cases hc : c = ' '
    · subst hc
      have e1 : (∃ n, ' ' :: t = List.replicate n ' ') ↔ ∃ n, t = List.replicate n ' ' := by
        constructor
        · rintro ⟨n, h⟩
          cases n with
          | zero => simp at h
          | succ n => exact ⟨n, by simpa [List.replicate_succ] using h⟩
        · rintro ⟨n, h⟩
          exact ⟨n + 1, by rw [h, List.replicate_succ]⟩
      have e2 : (∃ n u, ' ' :: t = List.replicate n ' ' ++ '#' :: u) ↔ ∃ n u, t = List.replicate n ' ' ++ '#' :: u := by
        constructor
        · rintro ⟨n, u, h⟩
          cases n with
          | zero => simp at h
          | succ n => exact ⟨n, u, by simpa [List.replicate_succ] using h⟩
        · rintro ⟨n, u, h⟩
          exact ⟨n + 1, u, by rw [h, List.replicate_succ]; rfl⟩
      rw [e1, e2, ← ih]
      cases t with
      | nil => simp
      | cons d u =>
        by_cases hd : d = '#'
        · subst hd
          simp
        · simp [hd, Ne.symm hd]
    · have e1 : ¬ ∃ n, c :: t = List.replicate n ' ' := by
        rintro ⟨n, h⟩
        cases n with
        | zero => simp at h
        | succ n =>
          rw [List.replicate_succ] at h
          exact hc (List.cons.inj h).1
      by_cases hd : c = '#'
      · subst hd
        simp only [e1, false_or]
        simp only [List.any_cons, List.contains_cons, List.head?_cons]
        simp
        exact ⟨0, t, rfl⟩
      · have e2 : ¬ ∃ n u, c :: t = List.replicate n ' ' ++ '#' :: u := by
          rintro ⟨n, u, h⟩
          cases n with
          | zero => exact hd (List.cons.inj h).1
          | succ n =>
            rw [List.replicate_succ] at h
            exact hc (List.cons.inj h).1
        simp only [e1, e2, or_self, iff_false]
        simp [hc, hd]

/-- The significant lines. -/
def sig (f : List (List Char)) : List (List Char) := f.filter fun l => !commentLine l

theorem significant_sig {f s : List (List Char)} (h : Significant f s) : sig f = s ∧ ∀ l ∈ s, commentLine l = false := by
  induction h with
  | nil => exact ⟨rfl, by simp⟩
  | comment hc _ ih =>
    refine ⟨?_, ih.2⟩
    unfold sig
    rw [List.filter_cons_of_neg (by rw [(commentLine_iff _).2 hc]; simp)]
    exact ih.1
  | line hc _ ih =>
    have hf : commentLine _ = false := Bool.eq_false_iff.2 (fun h => hc ((commentLine_iff _).1 h))
    refine ⟨?_, ?_⟩
    · unfold sig
      rw [List.filter_cons_of_pos (by rw [hf]; rfl)]
      exact congrArg _ ih.1
    · intro l hl
      rcases List.mem_cons.1 hl with rfl | hl
      · exact hf
      · exact ih.2 l hl

/-- The result, with the significant lines that are left. -/
def forget {α : Type} : Except EnumStop (α × List (List Char)) → Except EnumStop (α × List (List Char))
  | .ok (a, f) => .ok (a, sig f)
  | .error e => .error e

/-- Comment lines make no difference. -/
def Clean {α : Type} (m : Rd α) : Prop := ∀ f, m (sig f) = forget (m f)

theorem bind_run {α β : Type} (m : Rd α) (k : α → Rd β) (f : List (List Char)) :
    (m >>= k) f = match m f with
      | .ok (a, f') => k a f'
      | .error e => .error e := rfl

theorem clean_pure {α : Type} (a : α) : Clean (pure a : Rd α) := fun _ => rfl
theorem clean_stop {α : Type} (e : EnumStop) : Clean (stop e : Rd α) := fun _ => rfl

theorem clean_bind {α β : Type} {m : Rd α} {k : α → Rd β} (hm : Clean m) (hk : ∀ a, Clean (k a)) : Clean (m >>= k) := by
  intro f
  rw [bind_run, bind_run, hm f]
  cases h : m f with
  | error e => rfl
  | ok x => exact hk x.1 x.2

theorem dropWhile_sig (f : List (List Char)) : (sig f).dropWhile commentLine = sig (f.dropWhile commentLine) := by
  induction f with
  | nil => rfl
  | cons l t ih =>
    cases hl : commentLine l with
    | true =>
      have : sig (l :: t) = sig t := List.filter_cons_of_neg (by rw [hl]; simp)
      rw [this, ih, List.dropWhile_cons_of_pos hl]
    | false =>
      have : sig (l :: t) = l :: sig t := List.filter_cons_of_pos (by rw [hl]; rfl)
      rw [List.dropWhile_cons_of_neg (by rw [hl]; simp), this, List.dropWhile_cons_of_neg (by rw [hl]; simp)]

theorem clean_nextLine? : Clean nextLine? := by
  intro f
  unfold nextLine?
  rw [dropWhile_sig]
  cases h : f.dropWhile commentLine with
  | nil => rfl
  | cons l t =>
    have hl : commentLine l = false := by
      have := List.head_dropWhile_not commentLine (by rw [h]; simp)
      simpa [h] using this
    have : sig (l :: t) = l :: sig t := List.filter_cons_of_pos (by rw [hl]; rfl)
    rw [this]
    rfl

theorem clean_nextLine : Clean nextLine := by
  unfold nextLine
  refine clean_bind clean_nextLine? fun a => ?_
  cases a with
  | none => exact clean_stop _
  | some l => exact clean_pure l

theorem clean_orStop {α : Type} (o : Option α) : Clean (orStop o) := by
  cases o with
  | none => exact clean_stop _
  | some a => exact clean_pure a

theorem clean_check (o : Option EnumStop) : Clean (check o) := by
  cases o with
  | some e => exact clean_stop _
  | none => exact clean_pure _

theorem clean_readSites (fl : ℚ → ℚ) (k : ℤ) : ∀ n, Clean (readSites fl k n)
  | 0 => clean_pure _
  | n + 1 => by
    unfold readSites
    refine clean_bind clean_nextLine fun line => ?_
    cases siteOf fl k line with
    | error e => exact clean_stop e
    | ok s => exact clean_bind (clean_readSites fl k n) fun _ => clean_pure _

theorem clean_readConc : ∀ n, Clean (readConc n)
  | 0 => clean_pure _
  | n + 1 => by
    unfold readConc
    refine clean_bind clean_nextLine? fun line => ?_
    cases line with
    | none => exact clean_pure _
    | some line =>
      dsimp only
      cases int3 line with
      | none => exact clean_pure _
      | some c =>
        refine clean_bind (clean_readConc n) fun r => ?_
        cases r with
        | none => exact clean_pure _
        | some cs => exact clean_pure _

/-- `nextLine` gives a line that is not a comment. -/
theorem nextLine_run (f : List (List Char)) :
    nextLine f = match f.dropWhile commentLine with
      | [] => .error .runtime
      | l :: t => .ok (l, t) := by
  unfold nextLine
  rw [bind_run]
  unfold nextLine?
  cases f.dropWhile commentLine <;> rfl

theorem clean_readEq (nD : ℤ) : Clean (readEq nD) := by
  intro f
  unfold readEq
  rw [bind_run, bind_run, clean_nextLine f, nextLine_run]
  cases h : f.dropWhile commentLine with
  | nil => rfl
  | cons l t =>
    have hl : commentLine l = false := by
      have := List.head_dropWhile_not commentLine (by rw [h]; simp)
      simpa [h] using this
    have hs : sig (l :: t) = l :: sig t := List.filter_cons_of_pos (by rw [hl]; rfl)
    dsimp only [forget]
    split
    · exact clean_bind clean_nextLine (fun _ => clean_orStop _) t
    · rw [bind_run, bind_run]
      unfold backspace
      dsimp only
      show Except.ok (_, l :: sig t) = Except.ok (_, sig (l :: t))
      rw [hs]

theorem clean_latDimOf (equal : ℚ → ℚ → ℚ → Bool) (p : List Char) (v : ℚ × ℚ × ℚ) (eps : ℚ) :
    Clean (latDimOf equal p v eps) := by
  unfold latDimOf
  split
  · split
    · exact clean_pure _
    · exact clean_stop _
  · split
    · exact clean_pure _
    · exact clean_stop _

theorem clean_fullOf (p : List Char) : Clean (fullOf p) := by
  unfold fullOf
  split
  · exact clean_pure _
  · split
    · exact clean_pure _
    · exact clean_stop _

theorem clean_readInput (fl : ℚ → ℚ) (equal : ℚ → ℚ → ℚ → Bool) : Clean (readInput fl equal) := by
  unfold readInput
  refine clean_bind clean_nextLine fun title => clean_bind clean_nextLine fun kind => ?_
  refine clean_bind clean_nextLine fun _ => clean_bind (clean_orStop _) fun v1 => ?_
  refine clean_bind clean_nextLine fun _ => clean_bind (clean_orStop _) fun v2 => ?_
  refine clean_bind clean_nextLine fun _ => clean_bind (clean_orStop _) fun v3 => ?_
  refine clean_bind clean_nextLine fun _ => clean_bind (clean_orStop _) fun k => ?_
  refine clean_bind clean_nextLine fun _ => clean_bind (clean_orStop _) fun nD => ?_
  refine clean_bind (clean_readSites _ _ _) fun sites => clean_bind (clean_check _) fun _ => ?_
  refine clean_bind (clean_readEq _) fun eq => ?_
  refine clean_bind clean_nextLine fun _ => clean_bind (clean_orStop _) fun n => ?_
  refine clean_bind clean_nextLine fun _ => clean_bind (clean_orStop _) fun eps => ?_
  refine clean_bind clean_nextLine fun _ => clean_bind (clean_latDimOf _ _ _ _) fun latDim => ?_
  refine clean_bind (clean_fullOf _) fun full => ?_
  exact clean_bind (clean_readConc _) fun conc => clean_bind (clean_check _) fun _ => clean_pure _

end AutoGR.Brute
