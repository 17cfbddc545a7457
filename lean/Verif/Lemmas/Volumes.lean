import Verif.Lemmas.Cubic
import Verif.Model.Universal
import Mathlib.Tactic.IntervalCases

/-! # The loops of `find_volumes` -/

namespace AutoGR

open Spec

theorem mem_cubicLoop {ms : List ℤ} {kpd nmax : ℤ} (nb v : ℤ) :
    v ∈ cubicLoop ms kpd nmax nb ↔ ∃ j m : ℤ, nb ≤ j ∧ j ^ 3 < nmax ∧ m ∈ ms ∧ v = m * j ^ 3 ∧
      kpd ≤ v := by
  have mono : ∀ i j : ℤ, i ≤ j → i ^ 3 ≤ j ^ 3 := fun i j h => Odd.pow_le_pow (by decide) |>.2 h
  fun_induction cubicLoop with
  | case1 nb h nc ih =>
    refine List.mem_append.trans ((or_congr Iff.rfl ih).trans ?_)
    rw [List.mem_filter, List.mem_map]
    simp only [decide_eq_true_eq]
    constructor
    · rintro (⟨⟨m, hm, rfl⟩, hk⟩ | ⟨j, m, hj, h1, h2, h3, h4⟩)
      · exact ⟨nb, m, le_refl _, h, hm, rfl, hk⟩
      · exact ⟨j, m, by omega, h1, h2, h3, h4⟩
    · rintro ⟨j, m, hj, h1, h2, rfl, h4⟩
      rcases eq_or_lt_of_le hj with rfl | hlt
      · exact .inl ⟨⟨m, h2, rfl⟩, h4⟩
      · exact .inr ⟨j, m, by omega, h1, h2, rfl, h4⟩
  | case2 nb h =>
    simp only [List.not_mem_nil, false_iff]
    rintro ⟨j, m, hj, h1, -⟩
    exact h (lt_of_le_of_lt (mono _ _ hj) h1)

theorem nodup_cubicLoop {ms : List ℤ} (hms : ms.Nodup) {kpd nmax : ℤ} (hk : 1 ≤ kpd)
    (hu : ∀ m ∈ ms, ∀ m' ∈ ms, ∀ j j' : ℤ, 1 ≤ j → 1 ≤ j' → m * j ^ 3 = m' * j' ^ 3 → j = j')
    (hpos : ∀ m ∈ ms, 0 < m) (nb : ℤ) : (cubicLoop ms kpd nmax nb).Nodup := by
  have pos : ∀ m ∈ ms, ∀ j : ℤ, kpd ≤ m * j ^ 3 → 1 ≤ j := by
    intro m hm j h
    by_contra hj
    have : j ^ 3 ≤ 0 := Odd.pow_nonpos (by decide) (by omega)
    have := hpos m hm
    nlinarith
  fun_induction cubicLoop with
  | case1 nb h nc ih =>
    rw [List.nodup_append]
    refine ⟨?_, ih, ?_⟩
    · rw [List.filter_map]
      refine List.Nodup.map_on ?_ (hms.filter _)
      intro x hx y hy hxy
      rw [List.mem_filter] at hx hy
      have h1 := pos x hx.1 nb (by simpa using hx.2)
      have : (0 : ℤ) < nc := by positivity
      exact mul_right_cancel₀ this.ne' hxy
    · intro v hv w hw hvw
      subst hvw
      rw [List.mem_filter, List.mem_map] at hv
      obtain ⟨⟨m, hm, rfl⟩, hk'⟩ := hv
      simp only [decide_eq_true_eq] at hk'
      obtain ⟨j, m', hj, h1, hm', h3, h4⟩ := (mem_cubicLoop _ _).1 hw
      have := hu m hm m' hm' nb j (pos m hm nb hk') (pos m' hm' j (by omega)) h3
      omega
  | case2 nb h => exact List.nodup_nil

theorem sc_volume_unique : ∀ m ∈ [(1 : ℤ), 2, 4], ∀ m' ∈ [(1 : ℤ), 2, 4], ∀ j j' : ℤ, 1 ≤ j → 1 ≤ j' →
    m * j ^ 3 = m' * j' ^ 3 → j = j' := by
  have key : ∀ m ∈ [(1 : ℤ), 2, 4], ∀ j : ℤ, 1 ≤ j → ∃ H ∈ sc_3 id (m * j ^ 3), H 0 0 = j := by
    intro m hm j hj
    simp only [List.mem_cons, List.not_mem_nil, or_false] at hm
    rcases hm with rfl | rfl | rfl
    · exact ⟨_, sc_3_forms.2 ⟨j, hj, .inl ⟨by ring, rfl⟩⟩, by simp [hnf]⟩
    · exact ⟨_, sc_3_forms.2 ⟨j, hj, .inr (.inl ⟨by ring, rfl⟩)⟩, by simp [hnf]⟩
    · exact ⟨_, sc_3_forms.2 ⟨j, hj, .inr (.inr ⟨by ring, rfl⟩)⟩, by simp [hnf]⟩
  intro m hm m' hm' j j' hj hj' h
  obtain ⟨H, h1, h2⟩ := key m hm j hj
  obtain ⟨H', h1', h2'⟩ := key m' hm' j' hj'
  rw [← h] at h1'
  rw [← h2, ← h2', sc_3_unique h1 h1']

theorem fcc_volume_unique : ∀ m ∈ [(1 : ℤ), 4, 16], ∀ m' ∈ [(1 : ℤ), 4, 16], ∀ j j' : ℤ, 1 ≤ j →
    1 ≤ j' → m * j ^ 3 = m' * j' ^ 3 → j = j' := by
  have key : ∀ m ∈ [(1 : ℤ), 4, 16], ∀ j : ℤ, 1 ≤ j → ∃ H ∈ fcc_1 id (m * j ^ 3), H 0 0 = j := by
    intro m hm j hj
    simp only [List.mem_cons, List.not_mem_nil, or_false] at hm
    rcases hm with rfl | rfl | rfl
    · exact ⟨_, fcc_1_forms.2 ⟨j, hj, .inl ⟨by ring, rfl⟩⟩, by simp [hnf]⟩
    · exact ⟨_, fcc_1_forms.2 ⟨j, hj, .inr (.inl ⟨by ring, rfl⟩)⟩, by simp [hnf]⟩
    · exact ⟨_, fcc_1_forms.2 ⟨j, hj, .inr (.inr ⟨by ring, rfl⟩)⟩, by simp [hnf]⟩
  intro m hm m' hm' j j' hj hj' h
  obtain ⟨H, h1, h2⟩ := key m hm j hj
  obtain ⟨H', h1', h2'⟩ := key m' hm' j' hj'
  rw [← h] at h1'
  rw [← h2, ← h2', fcc_1_unique h1 h1']

/-- Sorting a duplicate free list that has at least three elements and keeping three gives the three
smallest, in increasing order. -/
theorem take_three {l : List ℤ} (hl : l.Nodup) {p q r : ℤ} (hp : p ∈ l) (hq : q ∈ l) (hr : r ∈ l)
    (hpq : p ≠ q) (hpr : p ≠ r) (hqr : q ≠ r) :
    ∃ x y z, (l.insertionSort (· ≤ ·)).take 3 = [x, y, z] ∧ x < y ∧ y < z ∧ x ∈ l ∧ y ∈ l ∧ z ∈ l ∧
      ∀ v ∈ l, v = x ∨ v = y ∨ v = z ∨ z < v := by
  have hperm := List.perm_insertionSort (· ≤ ·) l
  have hs : (l.insertionSort (· ≤ ·)).Pairwise (· ≤ ·) := List.pairwise_insertionSort _ _
  have hn : (l.insertionSort (· ≤ ·)).Nodup := hperm.nodup_iff.2 hl
  have hmem : ∀ v, v ∈ l.insertionSort (· ≤ ·) ↔ v ∈ l := fun v => hperm.mem_iff
  rw [← hmem] at hp hq hr
  generalize l.insertionSort (· ≤ ·) = s at *
  match s with
  | [] => simp at hp
  | [a] =>
    simp only [List.mem_singleton] at hp hq
    exact absurd (hp.trans hq.symm) hpq
  | [a, b] =>
    simp only [List.mem_cons, List.not_mem_nil, or_false] at hp hq hr
    omega
  | x :: y :: z :: rest =>
    simp only [List.pairwise_cons, List.nodup_cons, List.mem_cons, not_or] at hs hn
    refine ⟨x, y, z, rfl, ?_, ?_, ?_, ?_, ?_, ?_⟩
    · exact lt_of_le_of_ne (hs.1 y (.inl rfl)) hn.1.1
    · exact lt_of_le_of_ne (hs.2.1 z (.inl rfl)) hn.2.1.1
    · rw [← hmem]; simp
    · rw [← hmem]; simp
    · rw [← hmem]; simp
    · intro v hv
      rw [← hmem] at hv
      simp only [List.mem_cons] at hv
      rcases hv with h | h | h | h
      · exact .inl h
      · exact .inr (.inl h)
      · exact .inr (.inr (.inl h))
      · refine .inr (.inr (.inr (lt_of_le_of_ne (hs.2.2.1 v h) ?_)))
        rintro rfl
        exact hn.2.2.1 h

end AutoGR
