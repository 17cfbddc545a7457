import Verif.Lemmas.FortranFind

/-! # The loops of `find_grid` stop if grids are found again and again -/

namespace AutoGR.Fortran

variable {G Off : Type}

/-- One pass of the loop. -/
theorem generalLoop_step (tryN : ℤ → Except GridErr (Tried G Off)) {s_range : ℕ} (hs : 5 ≤ s_range) {kpd a : ℤ}
    (hok : ∃ t, tryN a = .ok t) {found : List (Entry G Off)} (hlen : (found.length : ℤ) ≤ a - kpd)
    (hc : found.length < 5 ∨ (5 ≤ found.length ∧ a - kpd < s_range)) :
    ∃ found', (∀ fuel, generalLoop tryN s_range kpd (fuel + 1) a found = generalLoop tryN s_range kpd fuel (a + 1) found')
      ∧ found.length ≤ found'.length ∧ (found'.length : ℤ) ≤ a + 1 - kpd ∧
      ((∃ b, Accepted tryN a b) → found.length + 1 ≤ found'.length) := by
  obtain ⟨⟨m, best⟩, ht⟩ := hok
  cases best with
  | none =>
    refine ⟨found, fun fuel => ?_, le_rfl, by omega, ?_⟩
    · conv_lhs => unfold generalLoop
      rw [if_pos hc, ht]
    · rintro ⟨b, m', -, h⟩
      rw [ht] at h
      cases h
  | some b0 =>
    by_cases hm : 1 < m
    · refine ⟨found ++ [⟨b0, a⟩], fun fuel => ?_, by simp, by simp; omega, by simp⟩
      conv_lhs => unfold generalLoop
      rw [if_pos hc, ht]
      dsimp only
      rw [if_pos hm, if_pos (by omega)]
    · refine ⟨found, fun fuel => ?_, le_rfl, by omega, ?_⟩
      · conv_lhs => unfold generalLoop
        rw [if_pos hc, ht]
        dsimp only
        rw [if_neg hm]
      · rintro ⟨b, m', h', h⟩
        rw [ht] at h
        cases h
        exact absurd h' hm

/-- The loop stops. -/
def Stops (tryN : ℤ → Except GridErr (Tried G Off)) (s_range : ℕ) (kpd a : ℤ) (found : List (Entry G Off)) : Prop :=
  ∃ N found', ∀ fuel, N ≤ fuel → generalLoop tryN s_range kpd fuel a found = .ok found'

theorem stops_step {tryN : ℤ → Except GridErr (Tried G Off)} {s_range : ℕ} {kpd a : ℤ}
    {found found' : List (Entry G Off)}
    (h : ∀ fuel, generalLoop tryN s_range kpd (fuel + 1) a found = generalLoop tryN s_range kpd fuel (a + 1) found')
    (hst : Stops tryN s_range kpd (a + 1) found') : Stops tryN s_range kpd a found := by
  obtain ⟨N, f, hN⟩ := hst
  refine ⟨N + 1, f, fun fuel hf => ?_⟩
  obtain ⟨fuel, rfl⟩ : ∃ x, fuel = x + 1 := ⟨fuel - 1, by omega⟩
  rw [h, hN fuel (by omega)]

theorem stops_end {tryN : ℤ → Except GridErr (Tried G Off)} {s_range : ℕ} {kpd a : ℤ}
    {found : List (Entry G Off)} (hc : ¬(found.length < 5 ∨ (5 ≤ found.length ∧ a - kpd < s_range))) :
    Stops tryN s_range kpd a found := by
  refine ⟨1, found, fun fuel hf => ?_⟩
  obtain ⟨fuel, rfl⟩ : ∃ x, fuel = x + 1 := ⟨fuel - 1, by omega⟩
  unfold generalLoop
  rw [if_neg hc]

theorem stops_five {tryN : ℤ → Except GridErr (Tried G Off)} {s_range : ℕ} (hs : 5 ≤ s_range) {kpd : ℤ}
    (hok : ∀ n, kpd ≤ n → ∃ t, tryN n = .ok t) (d : ℕ) : ∀ (a : ℤ) (found : List (Entry G Off)), kpd ≤ a →
      5 ≤ found.length → (found.length : ℤ) ≤ a - kpd → s_range ≤ a - kpd + d → Stops tryN s_range kpd a found := by
  induction d with
  | zero =>
    intro a found ha h5 hlen hd
    exact stops_end (by push_cast at hd; omega)
  | succ d ih =>
    intro a found ha h5 hlen hd
    by_cases hc : found.length < 5 ∨ (5 ≤ found.length ∧ a - kpd < s_range)
    · obtain ⟨f, h1, h2, h3, -⟩ := generalLoop_step tryN hs (hok a ha) hlen hc
      exact stops_step h1 (ih (a + 1) f (by omega) (by omega) h3 (by push_cast at hd; omega))
    · exact stops_end hc

/-- If grids are accepted for arbitrarily large numbers of points, the loop stops. -/
theorem generalLoop_stops {tryN : ℤ → Except GridErr (Tried G Off)} {s_range : ℕ} (hs : 5 ≤ s_range) {kpd : ℤ}
    (hok : ∀ n, kpd ≤ n → ∃ t, tryN n = .ok t) (hacc : ∀ N, ∃ n, N ≤ n ∧ ∃ b, Accepted tryN n b) (j : ℕ) :
    ∀ (a : ℤ) (found : List (Entry G Off)), kpd ≤ a → 5 ≤ found.length + j → (found.length : ℤ) ≤ a - kpd →
      Stops tryN s_range kpd a found := by
  induction j with
  | zero =>
    intro a found ha h5 hlen
    exact stops_five hs hok s_range a found ha h5 hlen (by omega)
  | succ j ih =>
    intro a found ha h5 hlen
    obtain ⟨n, hn, hb⟩ := hacc a
    obtain ⟨d, hd⟩ : ∃ d : ℕ, n ≤ a + d := ⟨(n - a).toNat, by omega⟩
    induction d generalizing a found with
    | zero =>
      by_cases hc : found.length < 5 ∨ (5 ≤ found.length ∧ a - kpd < s_range)
      · obtain rfl : n = a := by push_cast at hd; omega
        obtain ⟨f, h1, h2, h3, h4⟩ := generalLoop_step tryN hs (hok n ha) hlen hc
        exact stops_step h1 (ih (n + 1) f (by omega) (by have := h4 hb; omega) h3)
      · exact stops_end hc
    | succ d ihd =>
      by_cases hc : found.length < 5 ∨ (5 ≤ found.length ∧ a - kpd < s_range)
      · obtain ⟨f, h1, h2, h3, h4⟩ := generalLoop_step tryN hs (hok a ha) hlen hc
        rcases eq_or_lt_of_le hn with rfl | hlt
        · exact stops_step h1 (ih (a + 1) f (by omega) (by have := h4 hb; omega) h3)
        · exact stops_step h1 (ihd (a + 1) f (by omega) (by omega) h3 (by omega) (by push_cast at hd; omega))
      · exact stops_end hc

/-- The loop for the triclinic lattices stops. -/
theorem tricLoop_stops {tryN : ℤ → Except GridErr (Tried G Off)} (mult : ℤ) (d : ℕ) : ∀ a : ℤ,
    (∀ n, a ≤ n → ∃ t, tryN n = .ok t) → (∃ n, a ≤ n ∧ n ≤ a + d ∧ ∃ b m, 0 < m ∧
      tryN n = .ok ⟨m, some b⟩) →
      ∃ N e, ∀ fuel, N ≤ fuel → tricLoop tryN mult fuel a = .ok e := by
  induction d with
  | zero =>
    rintro a hok ⟨n, h1, h2, b, m, hm, hb⟩
    obtain rfl : n = a := by push_cast at h2; omega
    refine ⟨1, ⟨b, n * mult⟩, fun fuel hf => ?_⟩
    obtain ⟨fuel, rfl⟩ : ∃ x, fuel = x + 1 := ⟨fuel - 1, by omega⟩
    unfold tricLoop
    rw [hb]
    dsimp only
    rw [if_pos hm]
  | succ d ih =>
    rintro a hok ⟨n, h1, h2, b, hb⟩
    obtain ⟨⟨m, best⟩, ht⟩ := hok a le_rfl
    by_cases hend : ∃ b, best = some b ∧ 0 < m
    · obtain ⟨b', rfl, hm⟩ := hend
      refine ⟨1, ⟨b', a * mult⟩, fun fuel hf => ?_⟩
      obtain ⟨fuel, rfl⟩ : ∃ x, fuel = x + 1 := ⟨fuel - 1, by omega⟩
      unfold tricLoop
      rw [ht]
      dsimp only
      rw [if_pos hm]
    · have hna : n ≠ a := by
        rintro rfl
        obtain ⟨m', h, h'⟩ := hb
        rw [ht] at h'
        cases h'
        exact hend ⟨b, rfl, h⟩
      obtain ⟨N, e, hN⟩ := ih (a + 1) (fun n hn => hok n (by omega)) ⟨n, by omega, by push_cast at h2; omega, b, hb⟩
      refine ⟨N + 1, e, fun fuel hf => ?_⟩
      obtain ⟨fuel, rfl⟩ : ∃ x, fuel = x + 1 := ⟨fuel - 1, by omega⟩
      have : tricLoop tryN mult (fuel + 1) a = tricLoop tryN mult fuel (a + 1) := by
        conv_lhs => unfold tricLoop
        rw [ht]
        dsimp only
        cases best with
        | none => rfl
        | some b' =>
          dsimp only
          rw [if_neg fun hm => hend ⟨b', rfl, hm⟩]
      rw [this, hN fuel (by omega)]

end AutoGR.Fortran
