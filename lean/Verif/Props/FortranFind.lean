import Verif.Lemmas.FortranFind
import Verif.Spec.Int32

/-!
# C72, C73: the grid `find_grid` returns for a lattice that is neither cubic nor triclinic

`lib` is the external code: `geom` gives the reduced grid of a supercell, the length of its shortest vector
and whether it is packed densely enough, `irr` counts the irreducible k-points under the user's choice of
symmetries and `irrDefault` under the default choice (`none`: the library reports an error).
-/

namespace AutoGR.Fortran

open Spec

variable {G Off : Type}

theorem intsFit_mono {w : ℤ → ℤ} {m n : ℤ} (h : IntsFit w n) (hmn : m ≤ n) : IntsFit w m := by
  rcases h with h | ⟨h, h'⟩
  · exact .inl h
  · exact .inr ⟨h, by omega⟩

theorem minFirst_spec {α : Type} (f : α → ℚ) (l : List α) (h : l ≠ []) :
    ∃ x, minFirst f l = some x ∧ x ∈ l ∧ ∀ y ∈ l, f x ≤ f y := by
  induction l with
  | nil => exact absurd rfl h
  | cons a l ih =>
    unfold minFirst
    by_cases hl : l = []
    · subst hl
      exact ⟨a, rfl, by simp, by simp⟩
    · obtain ⟨x, h1, h2, h3⟩ := ih hl
      rw [h1]
      dsimp only
      by_cases hlt : f x < f a
      · rw [if_pos hlt]
        refine ⟨x, rfl, by simp [h2], fun y hy => ?_⟩
        rcases List.mem_cons.1 hy with rfl | hy
        · exact hlt.le
        · exact h3 y hy
      · rw [if_neg hlt]
        refine ⟨a, rfl, by simp, fun y hy => ?_⟩
        rcases List.mem_cons.1 hy with rfl | hy
        · exact le_rfl
        · exact (not_lt.1 hlt).trans (h3 y hy)

/-- C76: a lattice that is not cubic has a symmetric supercell for every number of points. -/
theorem symmetric_supercell_exists (k : ℕ) (hk1 : 1 ≤ k) (hk2 : k ≤ 44) (hk : k ∉ [1, 3, 5, 31, 44]) (Co : IMat)
    (hCo : reducedCanonical ℚ k = .ok Co) (n : ℤ) (hn : 1 ≤ n) :
    ∃ H, H ∈ SymmetricHNFs (ClassSym k Co.toMat) n := by
  obtain ⟨gen, -, good⟩ := generatorOf_good id k hk1 hk2 hk hCo
  obtain ⟨H, hH⟩ := List.exists_mem_of_ne_nil _ (good.one n (by omega) (.inl rfl))
  exact ⟨H, ((good.lists n (.inl rfl)).2 H).1 hH⟩

/-- C76: for every number of points that the integers can hold, `find_grid` calls a generator, and the generator
compares at least one grid (so that `ngrids`, which `compare_grids` sets, has a value when it is read); for a
multiple of 8 it compares at least two. -/
theorem generator_compares (w : ℤ → ℤ) (k : ℕ) (hk1 : 1 ≤ k) (hk2 : k ≤ 44) (hk : k ∉ [1, 3, 5, 31, 44]) (n : ℤ)
    (hn : 1 ≤ n) (hf : IntsFit w n) : ∃ gen, generatorOf w k = some gen ∧ 1 ≤ (gen n).length ∧
      (8 ∣ n → 2 ≤ (gen n).length) := by
  have hCo : reducedCanonical ℚ k = .ok (canonC k) := by
    simp only [List.mem_cons, List.not_mem_nil, or_false, not_or] at hk
    interval_cases k <;> first
      | exact reduced_2
      | exact reduced_4
      | exact reduced_6
      | exact reduced_7
      | exact reduced_8
      | exact reduced_9
      | exact reduced_10
      | exact reduced_11
      | exact reduced_12
      | exact reduced_13
      | exact reduced_14
      | exact reduced_15
      | exact reduced_16
      | exact reduced_17
      | exact reduced_18
      | exact reduced_19
      | exact reduced_20
      | exact reduced_21
      | exact reduced_22
      | exact reduced_23
      | exact reduced_24
      | exact reduced_25
      | exact reduced_26
      | exact reduced_27
      | exact reduced_28
      | exact reduced_29
      | exact reduced_30
      | exact reduced_32
      | exact reduced_33
      | exact reduced_34
      | exact reduced_35
      | exact reduced_36
      | exact reduced_37
      | exact reduced_38
      | exact reduced_39
      | exact reduced_40
      | exact reduced_41
      | exact reduced_42
      | exact reduced_43
      | omega
  obtain ⟨gen, h, good⟩ := generatorOf_good w k hk1 hk2 hk hCo
  refine ⟨gen, h, List.length_pos_of_ne_nil (good.one n (by omega) hf), ?_⟩
  rintro ⟨t, rfl⟩
  exact good.two t (by omega) hf

example : ∃ gen, generatorOf wrap32 36 = some gen ∧ (gen 7).length = 3 ∧ (gen 8).length = 21 :=
  ⟨_, rfl, by decide +kernel, by decide +kernel⟩

/-- The rule by which `find_grid` prefers one entry to another: the smaller share of irreducible k-points if
more than 500 are requested and the user did not ask for the smallest number, else the smaller number. -/
def Preferred (min_kpts : Bool) (kpd : ℤ) (n_irr : ℕ) (n : ℤ) (n_irr' : ℕ) (n' : ℤ) : Prop :=
  if min_kpts = false ∧ 500 < kpd then (n_irr : ℤ) * n' ≤ n_irr' * n else n_irr ≤ n_irr'

theorem choose_spec (min_kpts : Bool) (kpd : ℤ) (_ : 1 ≤ kpd) (found : List (Entry G Off)) (hne : found ≠ [])
    (hpos : ∀ e ∈ found, 1 ≤ e.sel.n_irr ∧ kpd ≤ e.nt_kpts) :
    ∃ e, choose min_kpts kpd found = .ok e ∧ e ∈ found ∧
      ∀ e' ∈ found, Preferred min_kpts kpd e.sel.n_irr e.nt_kpts e'.sel.n_irr e'.nt_kpts := by
  unfold choose Preferred
  rw [if_pos (List.length_pos_of_ne_nil hne)]
  by_cases hc : min_kpts = false ∧ 500 < kpd
  · rw [if_pos hc]
    obtain ⟨e, k1, k2, k3⟩ := minFirst_spec ratio found hne
    rw [k1]
    refine ⟨e, rfl, k2, fun e' he' => ?_⟩
    rw [if_pos hc]
    have := k3 e' he'
    have p1 : (0 : ℚ) < e.nt_kpts := by have := (hpos e k2).2; exact_mod_cast (by omega : 0 < e.nt_kpts)
    have p2 : (0 : ℚ) < e'.nt_kpts := by have := (hpos e' he').2; exact_mod_cast (by omega : 0 < e'.nt_kpts)
    unfold ratio at this
    rw [div_le_div_iff₀ p1 p2] at this
    exact_mod_cast this
  · rw [if_neg hc]
    have hf : (found.filter fun e => decide (0 < e.sel.n_irr)) = found :=
      List.filter_eq_self.2 fun e he => by have := (hpos e he).1; simp; omega
    rw [hf]
    obtain ⟨e, k1, k2, k3⟩ := minFirst_spec (fun e : Entry G Off => (e.sel.n_irr : ℚ)) found hne
    rw [k1]
    refine ⟨e, rfl, k2, fun e' he' => ?_⟩
    rw [if_neg hc]
    exact_mod_cast k3 e' he'

theorem tryHNFs_nhnfs {equal : ℚ → ℚ → Bool} {eps : ℚ} {geom : Mat3 → Geom G}
    {irr irrDefault : G → Off → Option ℕ} {offsets : List Off} {Hs : List Mat3} {t : Tried G Off}
    (h : tryHNFs equal eps geom irr irrDefault offsets Hs = .ok t) : t.nhnfs = Hs.length := by
  unfold tryHNFs at h
  split at h
  · cases h
  · cases h
  · split at h
    · split at h
      · cases h
      · cases h
        rfl
    · cases h
      rfl

/-- C72: for a lattice of a class `k` that is neither cubic nor triclinic `find_grid` leaves no array, reads no
variable that was not set and does not give up; as long as it has not been running for ever, it returns a grid
whose supercell has at least the requested number of points, `n`, and all symmetries of the class; the grid is
packed densely enough, the offset is one of those offered, and the number of irreducible k-points is the one
of this grid and offset.  Among the numbers of points below `kpd + s_range` with more than one symmetric
supercell, none is preferable by the program's rule.  The 32-bit integers must hold the numbers tried. -/
theorem findGrid_general (lib : Lib G Off) (hirr : ∀ g o m, lib.irr g o = some m → 1 ≤ m) (w : ℤ → ℤ) (eps : ℚ)
    (offsets : List Off) (min_kpts : Bool) (root : ℤ) (fuel k : ℕ) (hk1 : 1 ≤ k) (hk2 : k ≤ 44)
    (hk : k ∉ [1, 3, 5, 31, 44]) (Co : IMat) (hCo : reducedCanonical ℚ k = .ok Co) (s_range : ℕ)
    (hs : 5 ≤ s_range) (kpd : ℤ) (h1 : 1 ≤ kpd) (hfit : IntsFit w (kpd + fuel)) :
    findGrid lib w eps offsets min_kpts root fuel k s_range kpd = .error .running ∨
    ∃ e, findGrid lib w eps offsets min_kpts root fuel k s_range kpd = .ok e ∧
      kpd ≤ e.nt_kpts ∧
      e.sel.HNF ∈ SymmetricHNFs (ClassSym k Co.toMat) e.nt_kpts ∧
      e.sel.grid = (lib.geom e.sel.HNF).grid ∧ (lib.geom e.sel.HNF).packed = true ∧
      e.sel.offset ∈ offsets ∧
      (lib.irr e.sel.grid e.sel.offset = some e.sel.n_irr ∨
        lib.irrDefault e.sel.grid e.sel.offset = some e.sel.n_irr) ∧
      ∀ n, kpd ≤ n → n < kpd + s_range → ∀ gen, generatorOf w k = some gen → 1 < (gen n).length →
        ∀ m b, tryHNFs lib.equal eps lib.geom lib.irr lib.irrDefault offsets (gen n) = .ok ⟨m, some b⟩ →
          Preferred min_kpts kpd e.sel.n_irr e.nt_kpts b.n_irr n := by
  obtain ⟨gen, hgen, good⟩ := generatorOf_good w k hk1 hk2 hk hCo
  simp only [List.mem_cons, List.not_mem_nil, or_false, not_or] at hk
  have hfg : findGrid lib w eps offsets min_kpts root fuel k s_range kpd =
      match generalLoop (fun n => tryHNFs lib.equal eps lib.geom lib.irr lib.irrDefault offsets (gen n))
          s_range kpd fuel kpd [] with
      | .error e => .error e
      | .ok found => choose min_kpts kpd found := by
    unfold findGrid
    rw [if_neg (by omega), if_neg (by omega), hgen]
    rfl
  rw [hfg]
  have htot : ∀ n, kpd ≤ n → n < kpd + fuel → ∃ r,
      tryHNFs lib.equal eps lib.geom lib.irr lib.irrDefault offsets (gen n) = .ok ⟨(gen n).length, r⟩ ∧
        ∀ b, r = some b → Chosen lib offsets (gen n) b := fun n hn hn' =>
    tryHNFs_ok lib hirr eps offsets (gen n) (good.one n (by omega) (intsFit_mono hfit (by omega)))
  rcases generalLoop_spec (fun n => tryHNFs lib.equal eps lib.geom lib.irr lib.irrDefault offsets (gen n))
      s_range hs kpd fuel kpd [] le_rfl (by simp)
      (fun n hn hn' => by obtain ⟨r, h, -⟩ := htot n hn hn'; exact ⟨_, h⟩) (by simp)
      (fun n b h h' => by omega) with h | ⟨found, k1, k2, k3, k4⟩
  · left
    rw [h]
  · right
    rw [k1]
    dsimp only
    have hch : ∀ e ∈ found, Chosen lib offsets (gen e.nt_kpts) e.sel := by
      intro e he
      obtain ⟨a1, a2, m, -, a3⟩ := k3 e he
      obtain ⟨r, hr, hr'⟩ := htot e.nt_kpts a1 a2
      dsimp only at a3
      rw [hr] at a3
      cases a3
      exact hr' _ rfl
    obtain ⟨e, c1, c2, c3⟩ := choose_spec min_kpts kpd h1 found
      (List.ne_nil_of_length_pos (by omega)) fun e he => ⟨(hch e he).pos, (k3 e he).1⟩
    obtain ⟨a1, a2, -⟩ := k3 e c2
    have hc := hch e c2
    refine ⟨e, c1, a1, ((good.lists e.nt_kpts (intsFit_mono hfit (by omega))).2 _).1 hc.mem, hc.grid, hc.packed,
      hc.offset, hc.irr, ?_⟩
    intro n hn hn' gen' hgen' hlen m b hb
    rw [hgen] at hgen'
    cases hgen'
    have := tryHNFs_nhnfs hb
    dsimp only at this
    exact c3 ⟨b, n⟩ (k4 n b hn hn' ⟨m, by omega, hb⟩)

/-- C73: the search ends.  If for each multiple of 8 among the next `max(40, s_range)` numbers of points some
symmetric supercell is packed densely enough and has a shortest vector of a length above 0,
and the library counts the k-points, then `find_grid` returns a grid with fewer than `kpd + max(40, s_range)`
points, however long it may run. -/
theorem findGrid_ends (lib : Lib G Off) (hirr : ∀ g o m, lib.irr g o = some m → 1 ≤ m) (w : ℤ → ℤ) (eps : ℚ)
    (offsets : List Off) (hoff : offsets ≠ []) (htot : ∀ g, ∀ o ∈ offsets, lib.irr g o ≠ none)
    (min_kpts : Bool) (root : ℤ) (fuel k : ℕ) (hk1 : 1 ≤ k) (hk2 : k ≤ 44)
    (hk : k ∉ [1, 3, 5, 31, 44]) (Co : IMat) (hCo : reducedCanonical ℚ k = .ok Co) (s_range : ℕ)
    (hs : 5 ≤ s_range) (kpd : ℤ) (h1 : 1 ≤ kpd) (hfit : IntsFit w (kpd + max 40 s_range))
    (hfuel : max 40 s_range < fuel)
    (h8 : ∀ n, kpd ≤ n → n < kpd + max 40 s_range → 8 ∣ n → ∃ H ∈ SymmetricHNFs (ClassSym k Co.toMat) n,
      (lib.geom H).packed = true ∧ (lib.geom H).rmin * eps < (lib.geom H).rmin) :
    ∃ e, findGrid lib w eps offsets min_kpts root fuel k s_range kpd = .ok e ∧
      kpd ≤ e.nt_kpts ∧ e.nt_kpts < kpd + max 40 s_range ∧
      e.sel.HNF ∈ SymmetricHNFs (ClassSym k Co.toMat) e.nt_kpts := by
  obtain ⟨gen, hgen, good⟩ := generatorOf_good w k hk1 hk2 hk hCo
  simp only [List.mem_cons, List.not_mem_nil, or_false, not_or] at hk
  have hfg : findGrid lib w eps offsets min_kpts root fuel k s_range kpd =
      match generalLoop (fun n => tryHNFs lib.equal eps lib.geom lib.irr lib.irrDefault offsets (gen n))
          s_range kpd fuel kpd [] with
      | .error e => .error e
      | .ok found => choose min_kpts kpd found := by
    unfold findGrid
    rw [if_neg (by omega), if_neg (by omega), hgen]
    rfl
  rw [hfg]
  have hN : ((max 40 s_range : ℕ) : ℤ) = max 40 (s_range : ℤ) := by simp
  have hok : ∀ n, kpd ≤ n → n < kpd + max 40 s_range → ∃ r,
      tryHNFs lib.equal eps lib.geom lib.irr lib.irrDefault offsets (gen n) = .ok ⟨(gen n).length, r⟩ ∧
        ∀ b, r = some b → Chosen lib offsets (gen n) b := fun n hn hn' =>
    tryHNFs_ok lib hirr eps offsets (gen n) (good.one n (by omega) (intsFit_mono hfit (by omega)))
  obtain ⟨found, k1, k2, k3⟩ := generalLoop_ends
    (fun n => tryHNFs lib.equal eps lib.geom lib.irr lib.irrDefault offsets (gen n)) s_range hs kpd
    (fun n hn hn' => by obtain ⟨r, h, -⟩ := hok n hn hn'; exact ⟨_, h⟩)
    (fun t ht ht' => by
      obtain ⟨H, hH, p1, p2⟩ := h8 (8 * t) ht ht' ⟨t, rfl⟩
      have hf := intsFit_mono hfit (show 8 * t ≤ _ by omega)
      obtain ⟨b, hb⟩ := tryHNFs_some lib hirr eps offsets hoff htot (gen (8 * t)) H
        (((good.lists _ hf).2 H).2 hH) p1 p2
      exact ⟨b, _, good.two t (by omega) hf, hb⟩) fuel kpd [] le_rfl (by omega) (by omega) (by simp) (by simp)
    (by simp)
  rw [k1]
  dsimp only
  have hch : ∀ e ∈ found, Chosen lib offsets (gen e.nt_kpts) e.sel := by
    intro e he
    obtain ⟨a1, a2, m, -, a3⟩ := k3 e he
    obtain ⟨r, hr, hr'⟩ := hok e.nt_kpts a1 a2
    dsimp only at a3
    rw [hr] at a3
    cases a3
    exact hr' _ rfl
  obtain ⟨e, c1, c2, -⟩ := choose_spec min_kpts kpd h1 found
    (List.ne_nil_of_length_pos (by omega)) fun e he => ⟨(hch e he).pos, (k3 e he).1⟩
  obtain ⟨a1, a2, -⟩ := k3 e c2
  exact ⟨e, c1, a1, a2, ((good.lists e.nt_kpts (intsFit_mono hfit (by omega))).2 _).1 (hch e c2).mem⟩

/-- C73, the other side: if no supercell is packed densely enough, the search does not end; nothing in the
program bounds the number of points it tries. -/
theorem findGrid_runs (lib : Lib G Off) (eps : ℚ)
    (offsets : List Off) (min_kpts : Bool) (root : ℤ) (k : ℕ) (hk1 : 1 ≤ k) (hk2 : k ≤ 44)
    (hk : k ∉ [1, 3, 5, 31, 44]) (Co : IMat) (hCo : reducedCanonical ℚ k = .ok Co) (s_range : ℕ)
    (kpd : ℤ) (h1 : 1 ≤ kpd) (hp : ∀ H, (lib.geom H).packed = false) (fuel : ℕ) :
    findGrid lib id eps offsets min_kpts root fuel k s_range kpd = .error .running := by
  obtain ⟨gen, hgen, good⟩ := generatorOf_good id k hk1 hk2 hk hCo
  simp only [List.mem_cons, List.not_mem_nil, or_false, not_or] at hk
  unfold findGrid
  rw [if_neg (by omega), if_neg (by omega), hgen]
  dsimp only
  rw [generalLoop_runs _ s_range kpd (fun n hn => ⟨_, tryHNFs_none lib eps offsets (gen n)
    (good.one n (by omega) (.inl rfl)) fun H _ => hp H⟩) fuel kpd le_rfl]

/-- A library for the examples: every grid is packed densely enough, the length is the first entry of the
matrix, and the number of irreducible k-points the second plus the third on the diagonal, one more with the
second offset. -/
def sampleLib : Lib Mat3 Bool where
  equal := sampleEqual
  geom H := ⟨H, (H 0 0 : ℚ), true⟩
  gridOf := id
  irr g o := some (1 + (g 1 1 + g 2 2).toNat + if o then 1 else 0)
  irrDefault g o := some (1 + (g 1 1 + g 2 2).toNat + if o then 1 else 0)

/-- The hypotheses of C72 and C73 are met: hexagonal lattice (class 12), 10 points requested, 32-bit integers. -/
example : ∃ e, findGrid sampleLib wrap32 (1 / 1000) [true, false] false 2 41 12 10 10 = .ok e ∧
    10 ≤ e.nt_kpts ∧ e.nt_kpts < 10 + max 40 (10 : ℕ) ∧
    e.sel.HNF ∈ SymmetricHNFs (ClassSym 12 (canonC 12).toMat) e.nt_kpts := by
  refine findGrid_ends sampleLib (fun g o m h => ?_) wrap32 (1 / 1000) [true, false] (by simp)
    (fun g o _ => by simp [sampleLib]) false 2 41 12 (by norm_num) (by norm_num) (by decide) (canonC 12)
    reduced_12 10 (by norm_num) 10 (by norm_num) (.inr ⟨wrap32_int32, by norm_num⟩) (by norm_num) ?_
  · simp only [sampleLib, Option.some.injEq] at h
    omega
  · intro n hn hn' _
    obtain ⟨gen, -, good⟩ := generatorOf_good wrap32 12 (by norm_num) (by norm_num) (by decide) reduced_12
    have hf : IntsFit wrap32 n := .inr ⟨wrap32_int32, by push_cast at hn'; omega⟩
    obtain ⟨H, hH⟩ := List.exists_mem_of_ne_nil _ (good.one n (by omega) hf)
    have hH' := ((good.lists n hf).2 H).1 hH
    have hpos : (1 : ℤ) ≤ H 0 0 := by have := hH'.1.pos0; omega
    have hq : (1 : ℚ) ≤ (H 0 0 : ℚ) := by exact_mod_cast hpos
    refine ⟨H, hH', rfl, ?_⟩
    simp only [sampleLib]
    linarith

/-- There the program takes 12 points: the supercell `2 0 2 0 0 3` with the second offset has the fewest. -/
example : (match findGrid sampleLib wrap32 (1 / 1000) [true, false] false 2 41 12 10 10 with
    | .ok e => some (e.nt_kpts, e.sel.HNF, e.sel.offset, e.sel.n_irr)
    | .error _ => none) = some (12, hnf 2 0 2 0 0 3, false, 6) := by decide +kernel

end AutoGR.Fortran
