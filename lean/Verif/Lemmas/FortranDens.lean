import Verif.Model.FortranGrid
import Mathlib.Data.List.Sort
import Mathlib.Tactic.Linarith
import Mathlib.Tactic.IntervalCases

/-! # Lemmas on the densities tried by `find_grid` -/

namespace AutoGR.Fortran

/-- The entries of `densities` for the sorted list `l`: filled up with zeros. -/
def padded (l : List ℤ) : List ℤ := l ++ List.replicate (10 - l.length) 0

theorem bump_append (B : List ℤ) (Z : List ℤ) (x : ℤ) (hB : B ≠ []) :
    bump B.length (B ++ Z) x = (x :: (B.dropLast ++ Z), B.getLast hB) := by
  induction B generalizing x with
  | nil => exact absurd rfl hB
  | cons b B ih =>
    cases B with
    | nil => simp [bump]
    | cons c B =>
      have := ih b (by simp)
      rw [List.length_cons, List.cons_append, bump, this]
      simp

theorem min?_sorted (b : ℤ) (B : List ℤ) (h : (b :: B).Pairwise (· ≤ ·)) : (b :: B).min? = some b := by
  rw [List.min?_eq_some_iff]
  refine ⟨by simp, fun x hx => ?_⟩
  rcases List.mem_cons.1 hx with rfl | hx
  · rfl
  · exact List.rel_of_pairwise_cons h hx

theorem set_append_replicate (l : List ℤ) (k : ℕ) (x : ℤ) (hk : 0 < k) :
    (l ++ List.replicate k 0).set l.length x = l ++ [x] ++ List.replicate (k - 1) 0 := by
  obtain ⟨k, rfl⟩ := Nat.exists_eq_succ_of_ne_zero hk.ne'
  rw [List.set_append_right _ _ le_rfl]
  simp [List.replicate_succ]

/-- One step of `get_kpd_cubic`: insertion into the sorted list of the ten smallest. -/
theorem addDensity_padded {kpd x : ℤ} (h1 : 1 ≤ kpd) (hx : kpd ≤ x) (A B : List ℤ)
    (hs : (A ++ B).Pairwise (· ≤ ·)) (hlen : (A ++ B).length ≤ 10)
    (hA : ∀ a ∈ A, a ≤ x) (hB : ∀ b ∈ B, x < b) :
    addDensity kpd ⟨padded (A ++ B), (A ++ B).length⟩ x =
      ⟨padded ((A ++ x :: B).take 10), ((A ++ x :: B).take 10).length⟩ := by
  have hZ : ∀ k : ℕ, ∀ z ∈ List.replicate k (0 : ℤ), ¬x < z := by
    intro k z hz
    rw [List.eq_of_mem_replicate hz]
    omega
  have hfil : (padded (A ++ B)).filter (fun y => decide (x < y)) = B := by
    unfold padded
    rw [List.filter_append, List.filter_append,
      List.filter_eq_nil_iff.2 (fun a ha => by simpa using hA a ha),
      List.filter_eq_self.2 (fun b hb => by simpa using hB b hb),
      List.filter_eq_nil_iff.2 (fun z hz => by simpa using hZ _ z hz)]
    simp
  unfold addDensity
  rw [if_pos hx]
  cases B with
  | nil =>
    have hany : ¬((padded (A ++ [])).any fun y => decide (x < y)) = true := by
      intro h
      obtain ⟨y, hy, hy'⟩ := List.any_eq_true.1 h
      have : y ∈ (padded (A ++ [])).filter (fun y => decide (x < y)) := List.mem_filter.2 ⟨hy, hy'⟩
      rw [hfil] at this
      simp at this
    simp only [if_neg hany]
    simp only [List.append_nil] at hlen ⊢
    by_cases hl : A.length < 10
    · rw [if_pos hl]
      unfold padded
      rw [set_append_replicate _ _ _ (by omega), List.take_of_length_le (by simp; omega)]
      simp [Nat.sub_sub]
    · rw [if_neg hl]
      have h10 : A.length = 10 := by omega
      rw [List.take_append_of_le_length (by omega), List.take_of_length_le (by omega)]
  | cons b B =>
    have hany : ((padded (A ++ b :: B)).any fun y => decide (x < y)) = true := by
      rw [List.any_eq_true]
      exact ⟨b, by simp [padded], by simpa using hB b (by simp)⟩
    have hloc : minloc (fun y => decide (x < y)) (padded (A ++ b :: B)) = A.length + 1 := by
      unfold minloc
      rw [hfil, min?_sorted b B (List.pairwise_append.1 hs).2.1]
      have : b ∉ A := fun h => by
        have := hA b h
        have := hB b (by simp)
        omega
      simp only [padded, List.append_assoc]
      rw [List.idxOf_append_of_notMem this]
      simp
    simp only [if_pos hany, hloc]
    have hpad : padded (A ++ b :: B) = A ++ ((b :: B) ++ List.replicate (10 - (A ++ b :: B).length) 0) := by
      simp [padded]
    have hn : (A ++ b :: B).length + 1 - (A.length + 1) = (b :: B).length := by simp
    rw [hn, Nat.add_sub_cancel]
    have hdrop : (padded (A ++ b :: B)).drop A.length =
        (b :: B) ++ List.replicate (10 - (A ++ b :: B).length) 0 := by
      rw [hpad, List.drop_left]
    have htake : (padded (A ++ b :: B)).take A.length = A := by
      rw [hpad, List.take_left]
    rw [hdrop, htake, bump_append (b :: B) _ x (by simp)]
    simp only
    have hdl : (b :: B).dropLast ++ [(b :: B).getLast (by simp)] = b :: B :=
      List.dropLast_append_getLast (by simp)
    have hlast : (A ++ x :: (b :: B).dropLast).length = (A ++ b :: B).length := by simp
    by_cases hl : (A ++ b :: B).length < 10
    · rw [if_pos hl]
      have e1 : A ++ x :: ((b :: B).dropLast ++ List.replicate (10 - (A ++ b :: B).length) 0) =
          (A ++ x :: (b :: B).dropLast) ++ List.replicate (10 - (A ++ b :: B).length) 0 := by simp
      rw [e1]
      have e2 : (A ++ b :: B).length = (A ++ x :: (b :: B).dropLast).length := hlast.symm
      conv_lhs => rw [show (A ++ b :: B).length = (A ++ x :: (b :: B).dropLast).length from e2]
      rw [set_append_replicate _ _ _ (by omega)]
      have e3 : A ++ x :: (b :: B).dropLast ++ [(b :: B).getLast (by simp)] = A ++ x :: b :: B := by
        rw [List.append_assoc, List.cons_append, hdl]
      rw [e3, List.take_of_length_le (by simp at hl ⊢; omega)]
      unfold padded
      have e5 : (A ++ x :: (b :: B).dropLast).length + 1 = (A ++ x :: b :: B).length := by simp; omega
      rw [← e5, hlast, Nat.sub_sub]
    · rw [if_neg hl]
      have h10 : (A ++ b :: B).length = 10 := by omega
      have e4 : (A ++ x :: b :: B).take 10 = A ++ x :: (b :: B).dropLast := by
        conv_lhs => rw [← hdl]
        rw [← List.cons_append, ← List.append_assoc, List.take_append_of_le_length (by omega),
          List.take_of_length_le (by omega)]
      rw [e4]
      unfold padded
      rw [hlast, h10]
      simp

/-- A sorted list splits at `x`. -/
theorem sorted_split (l : List ℤ) (hs : l.Pairwise (· ≤ ·)) (x : ℤ) :
    ∃ A B, l = A ++ B ∧ (∀ a ∈ A, a ≤ x) ∧ ∀ b ∈ B, x < b := by
  induction l with
  | nil => exact ⟨[], [], rfl, by simp, by simp⟩
  | cons y l ih =>
    by_cases hy : y ≤ x
    · obtain ⟨A, B, rfl, hA, hB⟩ := ih hs.of_cons
      exact ⟨y :: A, B, rfl, by simpa [hy] using hA, hB⟩
    · refine ⟨[], y :: l, rfl, by simp, fun b hb => ?_⟩
      rcases List.mem_cons.1 hb with rfl | hb
      · omega
      · have := List.rel_of_pairwise_cons hs hb
        omega

/-- The sorted list `l` holds the ten smallest members of the list `T` (all of them, if there are fewer). -/
structure TenSmallest (T l : List ℤ) : Prop where
  sorted : l.Pairwise (· ≤ ·)
  rest : ∃ R, (l ++ R).Perm T ∧ (∀ a ∈ l, ∀ r ∈ R, a ≤ r)
  len : l.length = min 10 T.length

theorem foldl_addDensity {kpd : ℤ} (h1 : 1 ≤ kpd) (L : List ℤ) : ∀ (T l : List ℤ), TenSmallest T l →
    ∃ l', TenSmallest (T ++ L.filter (fun x => decide (kpd ≤ x))) l' ∧
      L.foldl (addDensity kpd) ⟨padded l, l.length⟩ = ⟨padded l', l'.length⟩ := by
  induction L with
  | nil => intro T l h; exact ⟨l, by simpa using h, rfl⟩
  | cons x L ih =>
    intro T l h
    by_cases hx : kpd ≤ x
    · obtain ⟨A, B, rfl, hA, hB⟩ := sorted_split l h.sorted x
      have hlen : (A ++ B).length ≤ 10 := by rw [h.len]; omega
      have hsort : (A ++ x :: B).Pairwise (· ≤ ·) := by
        have := List.pairwise_append.1 h.sorted
        refine List.pairwise_append.2 ⟨this.1, List.pairwise_cons.2 ⟨fun b hb => (hB b hb).le, this.2.1⟩, ?_⟩
        intro a ha b hb
        rcases List.mem_cons.1 hb with rfl | hb
        · exact hA a ha
        · exact this.2.2 a ha b hb
      have hperm : (A ++ x :: B).Perm (x :: (A ++ B)) := List.perm_middle
      obtain ⟨R, hR, hR'⟩ := h.rest
      have key : TenSmallest (T ++ [x]) ((A ++ x :: B).take 10) := by
        refine ⟨hsort.sublist (List.take_sublist _ _), ⟨(A ++ x :: B).drop 10 ++ R, ?_, ?_⟩, ?_⟩
        · rw [← List.append_assoc, List.take_append_drop]
          refine (hperm.append_right R).trans ?_
          refine List.Perm.trans ?_ (List.perm_append_singleton x T).symm
          exact List.Perm.cons x hR
        · intro a ha r hr
          rcases List.mem_append.1 hr with hr2 | hr2
          · have := hsort
            rw [← List.take_append_drop 10 (A ++ x :: B)] at this
            exact (List.pairwise_append.1 this).2.2 a ha r hr2
          · have ha' := List.mem_of_mem_take ha
            -- `R` is not empty, so there were ten entries
            have hTlen : (A ++ B).length = 10 := by
              have e1 := hR.length_eq
              have : 0 < R.length := List.length_pos_of_mem hr2
              rw [List.length_append] at e1
              have := h.len
              omega
            have hin : a ∈ A ++ B ∨ (a = x ∧ B ≠ []) := by
              by_cases hne : B = []
              · subst hne
                have hA10 : A.length = 10 := by simpa using hTlen
                rw [List.take_append_of_le_length (by omega), List.take_of_length_le (by omega)] at ha
                exact .inl (List.mem_append_left _ ha)
              · rcases List.mem_append.1 ha' with ha' | ha'
                · exact .inl (List.mem_append_left _ ha')
                · rcases List.mem_cons.1 ha' with ha' | ha'
                  · exact .inr ⟨ha', hne⟩
                  · exact .inl (List.mem_append_right _ ha')
            rcases hin with hin | ⟨rfl, hne⟩
            · exact hR' a hin r hr2
            · obtain ⟨b, hb⟩ := List.exists_mem_of_ne_nil _ hne
              exact (hB b hb).le.trans (hR' b (List.mem_append_right _ hb) r hr2)
        · rw [List.length_take, hperm.length_eq, List.length_cons, h.len, List.length_append]
          simp
          omega
      obtain ⟨l', hl', hfold⟩ := ih _ _ key
      refine ⟨l', ?_, ?_⟩
      · rw [List.filter_cons, if_pos (by simpa using hx)]
        simpa using hl'
      · rw [List.foldl_cons, addDensity_padded h1 hx A B h.sorted hlen hA hB]
        exact hfold
    · obtain ⟨l', hl', hfold⟩ := ih T l h
      refine ⟨l', ?_, ?_⟩
      · rw [List.filter_cons, if_neg (by simpa using hx)]
        exact hl'
      · rw [List.foldl_cons]
        unfold addDensity
        rw [if_neg hx]
        exact hfold

end AutoGR.Fortran
