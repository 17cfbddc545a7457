import Verif.Props.FortranCompare
import Verif.Props.FortranSelect
import Verif.Lemmas.FortranGood

/-! # Lemmas on `find_grid` -/

namespace AutoGR.Fortran

open Spec

variable {G Off : Type}

/-! ## The matrices in the lists of `compare_grids` -/

theorem bestStep_mem (equal : ℚ → ℚ → Bool) (eps : ℚ) (geom : Mat3 → Geom G) (s : Best G) (H : Mat3)
    (g : G × Mat3) (h : g ∈ (bestStep equal eps geom s H).list1 ∨ g ∈ (bestStep equal eps geom s H).list2) :
    (g ∈ s.list1 ∨ g ∈ s.list2) ∨ (g = ((geom H).grid, H) ∧ (geom H).packed = true) := by
  unfold bestStep at h
  split_ifs at h with hp
  all_goals
    try simp only [List.mem_append, List.mem_cons, List.not_mem_nil, or_false] at h
    tauto

theorem foldl_bestStep_mem (equal : ℚ → ℚ → Bool) (eps : ℚ) (geom : Mat3 → Geom G) (Hs : List Mat3) :
    ∀ (s : Best G) (g : G × Mat3), (g ∈ (Hs.foldl (bestStep equal eps geom) s).list1 ∨
        g ∈ (Hs.foldl (bestStep equal eps geom) s).list2) →
      (g ∈ s.list1 ∨ g ∈ s.list2) ∨ ∃ H ∈ Hs, g = ((geom H).grid, H) ∧ (geom H).packed = true := by
  induction Hs with
  | nil => intro s g h; exact .inl h
  | cons H Hs ih =>
    intro s g h
    rcases ih _ g h with h | ⟨H', hH', h⟩
    · rcases bestStep_mem equal eps geom s H g h with h | h
      · exact .inl h
      · exact .inr ⟨H, by simp, h⟩
    · exact .inr ⟨H', by simp [hH'], h⟩

theorem bestStep_list1 (equal : ℚ → ℚ → Bool) (eps : ℚ) (geom : Mat3 → Geom G) (s : Best G) (H : Mat3)
    (h : s.list1 ≠ []) : (bestStep equal eps geom s H).list1 ≠ [] := by
  unfold bestStep
  split_ifs <;> simp [h]

theorem foldl_bestStep_list1 (equal : ℚ → ℚ → Bool) (eps : ℚ) (geom : Mat3 → Geom G) (Hs : List Mat3) :
    ∀ s : Best G, s.list1 ≠ [] → (Hs.foldl (bestStep equal eps geom) s).list1 ≠ [] := by
  induction Hs with
  | nil => intro s h; exact h
  | cons H Hs ih => intro s h; exact ih _ (bestStep_list1 equal eps geom s H h)

theorem bestStep_start (equal : ℚ → ℚ → Bool) (eps : ℚ) (geom : Mat3 → Geom G) (s : Best G) (H : Mat3)
    (h : s.rmin1 = 0) : (bestStep equal eps geom s H).list1 ≠ [] ∨
      (bestStep equal eps geom s H).rmin1 = 0 := by
  unfold bestStep
  split_ifs <;> simp [h]

/-- The first list is not empty if one of the matrices is packed densely enough and has a length above 0. -/
theorem foldl_bestStep_ne_nil (equal : ℚ → ℚ → Bool) (eps : ℚ) (geom : Mat3 → Geom G) (Hs : List Mat3)
    (H : Mat3) (hH : H ∈ Hs) (hp : (geom H).packed = true) (hr : (geom H).rmin * eps < (geom H).rmin) :
    ∀ s : Best G, s.rmin1 = 0 → (Hs.foldl (bestStep equal eps geom) s).list1 ≠ [] := by
  induction Hs with
  | nil => simp at hH
  | cons H' Hs ih =>
    intro s hs
    rw [List.foldl_cons]
    rcases List.mem_cons.1 hH with rfl | hH
    · refine foldl_bestStep_list1 equal eps geom Hs _ ?_
      unfold bestStep
      rw [if_pos hp]
      by_cases h0 : equal (geom H).rmin 0 = true
      · rw [if_neg (by rw [hs, h0]; simp), if_neg (by rw [hs, h0]; simp), if_pos (by rw [hs, h0])]
        simp
      · rw [if_pos ⟨by rw [hs]; simpa using hr, by rw [hs]; simpa using h0⟩]
        simp
    · rcases bestStep_start equal eps geom s H' hs with h | h
      · exact foldl_bestStep_list1 equal eps geom Hs _ h
      · exact ih hH _ h

/-! ## One density -/

/-- What is known about a grid that was selected from the matrices `Hs`. -/
structure Chosen (lib : Lib G Off) (offsets : List Off) (Hs : List Mat3) (b : Selected G Off) : Prop where
  mem : b.HNF ∈ Hs
  grid : b.grid = (lib.geom b.HNF).grid
  packed : (lib.geom b.HNF).packed = true
  offset : b.offset ∈ offsets
  pos : 1 ≤ b.n_irr
  irr : lib.irr b.grid b.offset = some b.n_irr ∨ lib.irrDefault b.grid b.offset = some b.n_irr

theorem tryHNFs_ok (lib : Lib G Off) (hirr : ∀ g o m, lib.irr g o = some m → 1 ≤ m) (eps : ℚ)
    (offsets : List Off) (Hs : List Mat3) (hne : Hs ≠ []) :
    ∃ r, tryHNFs lib.equal eps lib.geom lib.irr lib.irrDefault offsets Hs = .ok ⟨Hs.length, r⟩ ∧
      ∀ b, r = some b → Chosen lib offsets Hs b := by
  obtain ⟨s, h1, -, h3⟩ := compareAll_ok lib.equal eps lib.geom Hs hne
  have hmem : ∀ g : G × Mat3, g ∈ s.list1 ∨ g ∈ s.list2 →
      ∃ H ∈ Hs, g = ((lib.geom H).grid, H) ∧ (lib.geom H).packed = true := by
    intro g hg
    have hg' : g ∈ s.best.list1 ∨ g ∈ s.best.list2 := hg
    rw [h3] at hg'
    rcases foldl_bestStep_mem lib.equal eps lib.geom Hs _ g hg' with h | h
    · simp at h
    · exact h
  unfold tryHNFs
  rw [h1]
  dsimp only
  by_cases hs : 0 < s.list1.length ∨ 0 < s.list2.length
  · rw [if_pos hs]
    obtain ⟨r, k1, k2, -⟩ := gridSelection_partial lib.irr lib.irrDefault hirr s.list1 s.list2 offsets
    rw [k1]
    refine ⟨r, rfl, fun b hb => ?_⟩
    obtain ⟨a1, a2, a3, -⟩ := k2 b hb
    obtain ⟨H, hH, e, hp⟩ := hmem (b.grid, b.HNF) (by tauto)
    obtain ⟨e1, e2⟩ := Prod.mk.inj e
    subst e2
    exact ⟨hH, e1, hp, a1, a2, by tauto⟩
  · rw [if_neg hs]
    exact ⟨none, rfl, by simp⟩

/-- A grid is found if one of the matrices is packed densely enough and has a length above 0, and the library counts
the points. -/
theorem tryHNFs_some (lib : Lib G Off) (hirr : ∀ g o m, lib.irr g o = some m → 1 ≤ m) (eps : ℚ)
    (offsets : List Off) (hoff : offsets ≠ []) (htot : ∀ g, ∀ o ∈ offsets, lib.irr g o ≠ none)
    (Hs : List Mat3) (H : Mat3) (hH : H ∈ Hs) (hp : (lib.geom H).packed = true)
    (hr : (lib.geom H).rmin * eps < (lib.geom H).rmin) :
    ∃ b, tryHNFs lib.equal eps lib.geom lib.irr lib.irrDefault offsets Hs = .ok ⟨Hs.length, some b⟩ := by
  obtain ⟨s, h1, -, h3⟩ := compareAll_ok lib.equal eps lib.geom Hs (List.ne_nil_of_mem hH)
  have hne : s.list1 ≠ [] := by
    have := foldl_bestStep_ne_nil lib.equal eps lib.geom Hs H hH hp hr ⟨0, 0, [], []⟩ rfl
    rw [← h3] at this
    exact this
  unfold tryHNFs
  rw [h1]
  dsimp only
  rw [if_pos (.inl (List.length_pos_of_ne_nil hne))]
  obtain ⟨r, k1, -, k3⟩ := gridSelection_partial lib.irr lib.irrDefault hirr s.list1 s.list2 offsets
  rw [k1]
  cases r with
  | some b => exact ⟨b, rfl⟩
  | none =>
    obtain ⟨g, hg⟩ := List.exists_mem_of_ne_nil _ hne
    obtain ⟨o, ho⟩ := List.exists_mem_of_ne_nil _ hoff
    exact absurd (k3 rfl g hg o ho) (htot g.1 o ho)

/-- No grid is found if none is packed densely enough. -/
theorem tryHNFs_none (lib : Lib G Off) (eps : ℚ) (offsets : List Off) (Hs : List Mat3) (hne : Hs ≠ [])
    (hp : ∀ H ∈ Hs, (lib.geom H).packed = false) :
    tryHNFs lib.equal eps lib.geom lib.irr lib.irrDefault offsets Hs = .ok ⟨Hs.length, none⟩ := by
  obtain ⟨s, h1, -, h3⟩ := compareAll_ok lib.equal eps lib.geom Hs hne
  have hmem : ∀ g : G × Mat3, ¬(g ∈ s.list1 ∨ g ∈ s.list2) := by
    intro g hg
    have hg' : g ∈ s.best.list1 ∨ g ∈ s.best.list2 := hg
    rw [h3] at hg'
    rcases foldl_bestStep_mem lib.equal eps lib.geom Hs _ g hg' with h | ⟨H, hH, -, h⟩
    · simp at h
    · rw [hp H hH] at h
      simp at h
  have e1 : s.list1 = [] := List.eq_nil_iff_forall_not_mem.2 fun g hg => hmem g (.inl hg)
  have e2 : s.list2 = [] := List.eq_nil_iff_forall_not_mem.2 fun g hg => hmem g (.inr hg)
  unfold tryHNFs
  rw [h1]
  dsimp only
  rw [if_neg (by simp [e1, e2])]

/-! ## The loop over the densities -/

/-- The density `n` gives an entry: more than one matrix, and a grid was selected. -/
def Accepted (tryN : ℤ → Except GridErr (Tried G Off)) (n : ℤ) (b : Selected G Off) : Prop :=
  ∃ m, 1 < m ∧ tryN n = .ok ⟨m, some b⟩

/-- The loop of the last branch does not leave its arrays; what it stores are the densities accepted, all of
them up to `s_range`. -/
theorem generalLoop_spec (tryN : ℤ → Except GridErr (Tried G Off)) (s_range : ℕ) (hs : 5 ≤ s_range) (kpd : ℤ)
    (fuel : ℕ) : ∀ (a : ℤ) (found : List (Entry G Off)), kpd ≤ a → (found.length : ℤ) ≤ a - kpd →
      (∀ n, kpd ≤ n → n < a + fuel → ∃ t, tryN n = .ok t) →
      (∀ e ∈ found, kpd ≤ e.nt_kpts ∧ e.nt_kpts < a ∧ Accepted tryN e.nt_kpts e.sel) →
      (∀ n b, kpd ≤ n → n < a → Accepted tryN n b → ⟨b, n⟩ ∈ found) →
      generalLoop tryN s_range kpd fuel a found = .error .running ∨
      ∃ found', generalLoop tryN s_range kpd fuel a found = .ok found' ∧ 5 ≤ found'.length ∧
        (∀ e ∈ found', kpd ≤ e.nt_kpts ∧ e.nt_kpts < a + fuel ∧ Accepted tryN e.nt_kpts e.sel) ∧
        (∀ n b, kpd ≤ n → n < kpd + s_range → Accepted tryN n b → ⟨b, n⟩ ∈ found') := by
  induction fuel with
  | zero => intros; left; rfl
  | succ fuel ih =>
    intro a found ha hlen htot hfound hall
    have hstep : ∀ found' : List (Entry G Off), (found'.length : ℤ) ≤ a + 1 - kpd →
        (∀ e ∈ found', kpd ≤ e.nt_kpts ∧ e.nt_kpts < a + 1 ∧ Accepted tryN e.nt_kpts e.sel) →
        (∀ n b, kpd ≤ n → n < a + 1 → Accepted tryN n b → ⟨b, n⟩ ∈ found') →
        generalLoop tryN s_range kpd fuel (a + 1) found' = .error .running ∨
        ∃ found'', generalLoop tryN s_range kpd fuel (a + 1) found' = .ok found'' ∧ 5 ≤ found''.length ∧
        (∀ e ∈ found'', kpd ≤ e.nt_kpts ∧ e.nt_kpts < a + (fuel + 1 : ℕ) ∧ Accepted tryN e.nt_kpts e.sel) ∧
        (∀ n b, kpd ≤ n → n < kpd + s_range → Accepted tryN n b → ⟨b, n⟩ ∈ found'') := by
      intro found' h1 h2 h3
      have := ih (a + 1) found' (by omega) h1 (fun n hn hn' => htot n hn (by push_cast; omega)) h2 h3
      rcases this with h | ⟨f, h1, h2, h3, h4⟩
      · exact .inl h
      · refine .inr ⟨f, h1, h2, fun e he => ?_, h4⟩
        obtain ⟨x, y, z⟩ := h3 e he
        exact ⟨x, by push_cast; omega, z⟩
    unfold generalLoop
    by_cases hc : found.length < 5 ∨ (5 ≤ found.length ∧ a - kpd < s_range)
    · rw [if_pos hc]
      obtain ⟨⟨m, best⟩, ht⟩ := htot a ha (by push_cast; omega)
      rw [ht]
      dsimp only
      have old : ∀ e ∈ found, kpd ≤ e.nt_kpts ∧ e.nt_kpts < a + 1 ∧ Accepted tryN e.nt_kpts e.sel :=
        fun e he => by obtain ⟨x, y, z⟩ := hfound e he; exact ⟨x, by omega, z⟩
      cases best with
      | none =>
        refine hstep found (by omega) old fun n b hn hn' hb => ?_
        rcases lt_or_eq_of_le (show n ≤ a by omega) with h | rfl
        · exact hall n b hn h hb
        · obtain ⟨m', _, h⟩ := hb
          rw [ht] at h
          cases h
      | some b0 =>
        dsimp only
        by_cases hm : 1 < m
        · rw [if_pos hm, if_pos (by omega)]
          refine hstep _ (by simp; omega) ?_ ?_
          · intro e he
            rcases List.mem_append.1 he with he | he
            · exact old e he
            · rw [List.mem_singleton.1 he]
              exact ⟨ha, by simp, m, hm, ht⟩
          · intro n b hn hn' hb
            rcases lt_or_eq_of_le (show n ≤ a by omega) with h | rfl
            · exact List.mem_append_left _ (hall n b hn h hb)
            · obtain ⟨m', _, h⟩ := hb
              rw [ht] at h
              cases h
              simp
        · rw [if_neg hm]
          refine hstep found (by omega) old fun n b hn hn' hb => ?_
          rcases lt_or_eq_of_le (show n ≤ a by omega) with h | rfl
          · exact hall n b hn h hb
          · obtain ⟨m', h', h⟩ := hb
            rw [ht] at h
            cases h
            exact absurd h' hm
    · rw [if_neg hc]
      refine .inr ⟨found, rfl, by omega, fun e he => ?_, fun n b hn hn' hb => hall n b hn (by omega) hb⟩
      obtain ⟨x, y, z⟩ := hfound e he
      exact ⟨x, by push_cast; omega, z⟩

/-- The loop ends: the entries found are at least as many as the multiples of 8 passed. -/
theorem generalLoop_ends (tryN : ℤ → Except GridErr (Tried G Off)) (s_range : ℕ) (hs : 5 ≤ s_range) (kpd : ℤ)
    (htot : ∀ n, kpd ≤ n → n < kpd + max 40 s_range → ∃ t, tryN n = .ok t)
    (h8 : ∀ t : ℤ, kpd ≤ 8 * t → 8 * t < kpd + max 40 s_range → ∃ b, Accepted tryN (8 * t) b)
    (fuel : ℕ) : ∀ (a : ℤ) (found : List (Entry G Off)), kpd ≤ a → a ≤ kpd + max 40 s_range →
      kpd + max 40 s_range < a + fuel →
      (a - 1) / 8 - (kpd - 1) / 8 ≤ found.length → (found.length : ℤ) ≤ a - kpd →
      (∀ e ∈ found, kpd ≤ e.nt_kpts ∧ e.nt_kpts < a ∧ Accepted tryN e.nt_kpts e.sel) →
      ∃ found', generalLoop tryN s_range kpd fuel a found = .ok found' ∧ 5 ≤ found'.length ∧
        ∀ e ∈ found', kpd ≤ e.nt_kpts ∧ e.nt_kpts < kpd + max 40 s_range ∧
          Accepted tryN e.nt_kpts e.sel := by
  induction fuel with
  | zero => intro a found ha ha' h; simp at h; omega
  | succ fuel ih =>
    intro a found ha ha' hf hlen hlen' hfound
    unfold generalLoop
    by_cases hc : found.length < 5 ∨ (5 ≤ found.length ∧ a - kpd < s_range)
    · rw [if_pos hc]
      have hlt : a < kpd + max 40 s_range := by
        rcases hc with hc | hc
        · have : a < kpd + 40 := by omega
          omega
        · omega
      obtain ⟨⟨m, best⟩, ht⟩ := htot a ha hlt
      have hacc : a % 8 = 0 → 1 < m ∧ ∃ b, best = some b := by
        intro h
        obtain ⟨b, m', h1, h2⟩ := h8 (a / 8) (by omega) (by omega)
        rw [show 8 * (a / 8) = a by omega, ht] at h2
        cases h2
        exact ⟨h1, b, rfl⟩
      have hskip : a % 8 ≠ 0 → (a + 1 - 1) / 8 - (kpd - 1) / 8 ≤ found.length := by
        intro h
        omega
      have old : ∀ e ∈ found, kpd ≤ e.nt_kpts ∧ e.nt_kpts < a + 1 ∧ Accepted tryN e.nt_kpts e.sel :=
        fun e he => by obtain ⟨x, y, z⟩ := hfound e he; exact ⟨x, by omega, z⟩
      have hnext := fun found' h h' h'' => ih (a + 1) found' (by omega) (by omega)
        (by push_cast at hf ⊢; omega) h h' h''
      rw [ht]
      dsimp only
      cases best with
      | none => exact hnext found (hskip fun h => by simpa using (hacc h).2) (by omega) old
      | some b0 =>
        dsimp only
        by_cases hm : 1 < m
        · rw [if_pos hm, if_pos (by omega)]
          refine hnext _ (by simp; omega) (by simp; omega) fun e he => ?_
          rcases List.mem_append.1 he with he | he
          · exact old e he
          · rw [List.mem_singleton.1 he]
            exact ⟨ha, by simp, m, hm, ht⟩
        · rw [if_neg hm]
          exact hnext found (hskip fun h => hm (hacc h).1) (by omega) old
    · rw [if_neg hc]
      refine ⟨found, rfl, by omega, fun e he => ?_⟩
      obtain ⟨x, y, z⟩ := hfound e he
      exact ⟨x, by omega, z⟩

/-- The loop does not end if no grid is ever selected. -/
theorem generalLoop_runs (tryN : ℤ → Except GridErr (Tried G Off)) (s_range : ℕ) (kpd : ℤ)
    (h : ∀ n, kpd ≤ n → ∃ m, tryN n = .ok ⟨m, none⟩) (fuel : ℕ) :
    ∀ a : ℤ, kpd ≤ a → generalLoop tryN s_range kpd fuel a [] = .error .running := by
  induction fuel with
  | zero => intro a _; rfl
  | succ fuel ih =>
    intro a ha
    unfold generalLoop
    obtain ⟨m, hm⟩ := h a ha
    rw [if_pos (.inl (by simp)), hm]
    exact ih (a + 1) (by omega)

end AutoGR.Fortran
