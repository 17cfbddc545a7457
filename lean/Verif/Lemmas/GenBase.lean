import Verif.Lemmas.PyArith

/-! # The common frame of the generator proofs -/

namespace AutoGR

open Spec

/-- A generator that loops over the factor triples lists exactly the HNFs of determinant `n` with
the property `Q`, provided its loop body does so for each triple. -/
theorem gen_mem {body : ℤ × ℤ × ℤ → List Mat3} {Q : IntMat → Prop}
    (h : ∀ a c f : ℤ, 0 < a → 0 < c → 0 < f → ∀ H, H ∈ body (a, c, f) ↔ ∃ b d e : ℤ,
      (0 ≤ b ∧ b < c) ∧ (0 ≤ d ∧ d < f) ∧ (0 ≤ e ∧ e < f) ∧ Q (hnf a b c d e f) ∧
        hnf a b c d e f = H) {n : ℤ} {H : IntMat} :
    H ∈ (getHNFDiagonals n).flatMap body ↔ (IsHNF H ∧ H.det = n) ∧ Q H := by
  rw [isHNF_det_iff, List.mem_flatMap]
  constructor
  · rintro ⟨⟨a, c, f⟩, hd, hH⟩
    have hd' := mem_getHNFDiagonals.1 hd
    obtain ⟨b, d, e, hb, hd, he, hQ, rfl⟩ := (h a c f hd'.1 hd'.2.1 hd'.2.2.1 H).1 hH
    exact ⟨⟨a, c, f, hd', b, d, e, hb, hd, he, rfl⟩, hQ⟩
  · rintro ⟨⟨a, c, f, hd', b, d, e, hb, hd, he, rfl⟩, hQ⟩
    exact ⟨(a, c, f), mem_getHNFDiagonals.2 hd',
      (h a c f hd'.1 hd'.2.1 hd'.2.2.1 _).2 ⟨b, d, e, hb, hd, he, hQ, rfl⟩⟩

theorem nodup_flatMap_key {α β γ : Type*} {l : List α} {f : α → List β} (key : β → γ) (g : α → γ)
    (hg : Function.Injective g) (hl : l.Nodup) (hf : ∀ x ∈ l, (f x).Nodup)
    (hk : ∀ x ∈ l, ∀ y ∈ f x, key y = g x) : (l.flatMap f).Nodup := by
  induction l with
  | nil => simp
  | cons x t ih =>
    rw [List.flatMap_cons, List.nodup_append]
    rw [List.nodup_cons] at hl
    refine ⟨hf x (by simp), ih hl.2 (fun y hy => hf y (by simp [hy]))
      (fun y hy => hk y (by simp [hy])), ?_⟩
    intro y hy z hz hyz
    subst hyz
    obtain ⟨w, hw, hyw⟩ := List.mem_flatMap.1 hz
    have h1 := hk x (by simp) y hy
    have h2 := hk w (by simp [hw]) y hyw
    have : x = w := hg (h1.symm.trans h2)
    subst this
    exact hl.1 hw

theorem nodup_getHNFDiagonals (n : ℤ) : (getHNFDiagonals n).Nodup := by
  unfold getHNFDiagonals
  refine nodup_flatMap_key (fun t : ℤ × ℤ × ℤ => t.1) id Function.injective_id
    (nodup_pyRange _ _) ?_ ?_
  · intro i _
    dsimp only
    split_ifs
    · refine nodup_flatMap_key (fun t : ℤ × ℤ × ℤ => t.2.1) id Function.injective_id
        (nodup_pyRange _ _) ?_ ?_
      · intro j _
        split_ifs <;> simp
      · intro j _ y hy
        rw [List.mem_ite_nil_right, List.mem_singleton] at hy
        rw [hy.2]; rfl
    · simp
  · intro i _ y hy
    simp only [List.mem_ite_nil_right, List.mem_flatMap, List.mem_singleton] at hy
    obtain ⟨_, j, _, _, rfl⟩ := hy
    rfl

theorem nodup_ite {α : Type*} {p : Prop} [Decidable p] {l : List α} (h : p → l.Nodup) :
    (if p then l else []).Nodup := by
  split_ifs with hp
  · exact h hp
  · simp

theorem nodup_diag {body : ℤ × ℤ × ℤ → List Mat3} {n : ℤ}
    (h1 : ∀ a c f : ℤ, 0 < a → 0 < c → 0 < f → (body (a, c, f)).Nodup)
    (h2 : ∀ a c f : ℤ, ∀ H ∈ body (a, c, f), H 0 0 = a ∧ H 1 1 = c ∧ H 2 2 = f) :
    ((getHNFDiagonals n).flatMap body).Nodup := by
  refine nodup_flatMap_key (fun H : Mat3 => (H 0 0, H 1 1, H 2 2)) id Function.injective_id
    (nodup_getHNFDiagonals n) ?_ ?_
  · rintro ⟨a, c, f⟩ hx
    have := mem_getHNFDiagonals.1 hx
    exact h1 a c f this.1 this.2.1 this.2.2.1
  · rintro ⟨a, c, f⟩ _ H hH
    obtain ⟨e1, e2, e3⟩ := h2 a c f H hH
    simp [e1, e2, e3]

theorem nodup_loopB {l : List ℤ} {body : ℤ → List Mat3} (hl : l.Nodup)
    (h1 : ∀ b ∈ l, (body b).Nodup) (h2 : ∀ b ∈ l, ∀ H ∈ body b, H 1 0 = b) :
    (l.flatMap body).Nodup :=
  nodup_flatMap_key (fun H : Mat3 => H 1 0) id Function.injective_id hl h1 h2

theorem nodup_loopD {l : List ℤ} {body : ℤ → List Mat3} (hl : l.Nodup)
    (h1 : ∀ b ∈ l, (body b).Nodup) (h2 : ∀ b ∈ l, ∀ H ∈ body b, H 2 0 = b) :
    (l.flatMap body).Nodup :=
  nodup_flatMap_key (fun H : Mat3 => H 2 0) id Function.injective_id hl h1 h2

theorem nodup_loopE {l : List ℤ} {body : ℤ → List Mat3} (hl : l.Nodup)
    (h1 : ∀ b ∈ l, (body b).Nodup) (h2 : ∀ b ∈ l, ∀ H ∈ body b, H 2 1 = b) :
    (l.flatMap body).Nodup :=
  nodup_flatMap_key (fun H : Mat3 => H 2 1) id Function.injective_id hl h1 h2

theorem all_flatMap {α β : Type*} {l : List α} {f : α → List β} {P : β → Prop}
    (h : ∀ x ∈ l, ∀ y ∈ f x, P y) : ∀ y ∈ l.flatMap f, P y := by
  intro y hy
  obtain ⟨x, hx, hy⟩ := List.mem_flatMap.1 hy
  exact h x hx y hy

theorem all_ite {α : Type*} {p : Prop} [Decidable p] {l : List α} {P : α → Prop}
    (h : ∀ y ∈ l, P y) : ∀ y ∈ (if p then l else []), P y := by
  intro y hy
  exact h y (List.mem_ite_nil_right.1 hy).2

theorem all_singleton {α : Type*} {x : α} {P : α → Prop} (h : P x) : ∀ y ∈ [x], P y := by
  simpa using h

/-- Closes `∀ H ∈ nested loops, entry of H = loop variable`. -/
macro "gen_entry" : tactic => `(tactic| (
  repeat' first
    | refine all_flatMap (fun _ _ => ?_)
    | refine all_ite ?_
    | refine all_singleton ?_
    | (simp [hnf]; done)
  done))

/-- Proves that nested generator loops list no matrix twice. -/
macro "gen_nodup" : tactic => `(tactic| (
  refine nodup_diag ?_ (by intro a c f; dsimp only; gen_entry)
  intro a c f ha hc hf
  dsimp only
  repeat' first
    | exact List.nodup_singleton _
    | (refine nodup_ite (fun _ => ?_))
    | (refine nodup_loopB ?_ ?_ ?_
       rotate_left 2
       focus (intro _ _; gen_entry)
       focus (first | exact nodup_pyRange _ _ | exact nodup_halves ‹_› | exact nodup_pyRangeStep ‹_› | exact List.nodup_reverse.2 (nodup_halves ‹_›))
       intro _ _)
    | (refine nodup_loopD ?_ ?_ ?_
       rotate_left 2
       focus (intro _ _; gen_entry)
       focus (first | exact nodup_pyRange _ _ | exact nodup_halves ‹_› | exact nodup_pyRangeStep ‹_› | exact List.nodup_reverse.2 (nodup_halves ‹_›))
       intro _ _)
    | (refine nodup_loopE ?_ ?_ ?_
       rotate_left 2
       focus (intro _ _; gen_entry)
       focus (first | exact nodup_pyRange _ _ | exact nodup_halves ‹_› | exact nodup_pyRangeStep ‹_› | exact List.nodup_reverse.2 (nodup_halves ‹_›))
       intro _ _)))

theorem hex_12_nodup (fl : ℚ → ℚ) (n : ℤ) : (hex_12 fl n).Nodup := by
  unfold hex_12
  gen_nodup

end AutoGR
