import Verif.Model.RoundedFind
import Verif.Props.RoundedCompare
import Verif.Props.RoundedChoice

/-!
# C129: the search for a grid with every number rounded

The comparison of lengths (C128) and the choice by ratio (C127) together: what `find_grid` returns when both are carried out in
binary64.
-/

namespace AutoGR.Fortran

open Spec Arith

variable {K G Off : Type} [Arith K] {fl : ℚ → ℚ}

/-- The symmetric supercells with `n` points whose grids the program counts as packed densely enough. -/
def Candidates (lib : LibK K G Off) (k : ℕ) (Co : IntMat) (n : ℤ) : Set Mat3 :=
  {H | H ∈ SymmetricHNFs (ClassSym k Co) n ∧ (lib.geom H).packed = true}

omit [Arith K] in
theorem longest_iff {α : Type} {len : α → ℝ} {l : List α} {S : Set α} (h : ∀ x, x ∈ l ↔ x ∈ S) (x : α) :
    Longest len l x ↔ LongestIn len S x := by
  unfold Longest LongestIn
  simp only [h]

omit [Arith K] in
theorem secondLongest_iff {α : Type} {len : α → ℝ} {l : List α} {S : Set α} (h : ∀ x, x ∈ l ↔ x ∈ S) (x : α) :
    SecondLongest len l x ↔ SecondLongestIn len S x := by
  unfold SecondLongest SecondLongestIn
  simp only [h, longest_iff h]

/-- C129 for the lattices that are neither cubic nor triclinic: as long as it has not been running for ever, the search returns
a grid with at least the requested number of points whose smallest distance is the largest or the second largest among the
symmetric grids with this number of points that are packed densely enough, an offset that was offered, and the number of
irreducible k-points of this grid and offset.  By the rule of the program it is at least as good as every grid with the largest
smallest distance, with every offset, for every number of points in the range that has several symmetric grids. -/
theorem findGridR_general (hb : Binary64 fl) (lib : LibK (Rounded fl) G Off) (hirr : ∀ g o m, lib.irr g o = some m → 1 ≤ m)
    (w : ℤ → ℤ) (eps : Rounded fl) (offsets : List Off) (min_kpts : Bool) (root : ℤ) (fuel k : ℕ) (hk1 : 1 ≤ k) (hk2 : k ≤ 44)
    (hk : k ∉ [1, 3, 5, 31, 44]) (Co : IMat) (hCo : reducedCanonical ℚ k = .ok Co) (s_range : ℕ) (hs : 5 ≤ s_range)
    (hsf : s_range ≤ fuel) (kpd : ℤ) (h1 : 1 ≤ kpd) (hfit : IntsFit w (kpd + fuel)) (hlim : kpd + fuel ≤ 2 ^ 26)
    (hle : ∀ n, kpd ≤ n → n < kpd + fuel → ∀ H ∈ Candidates lib k Co.toMat n, ∀ o (m : ℕ),
      lib.irr (lib.geom H).grid o = some m ∨ lib.irrDefault (lib.geom H).grid o = some m → (m : ℤ) ≤ n)
    (len : Mat3 → ℝ) (hT : ∀ n, kpd ≤ n → n < kpd + fuel → ∀ l : List Mat3, (∀ H ∈ l, H ∈ Candidates lib k Co.toMat n) →
      Told (aboveK eps) lib.equal (ofInt 0) (fun H => (lib.geom H).rmin) len l) :
    findGridR lib w eps offsets min_kpts root fuel k s_range kpd = .error .running ∨
    ∃ e, findGridR lib w eps offsets min_kpts root fuel k s_range kpd = .ok e ∧ kpd ≤ e.nt_kpts ∧ e.nt_kpts < kpd + fuel ∧
      (LongestIn len (Candidates lib k Co.toMat e.nt_kpts) e.sel.HNF ∨
        SecondLongestIn len (Candidates lib k Co.toMat e.nt_kpts) e.sel.HNF) ∧
      e.sel.grid = (lib.geom e.sel.HNF).grid ∧ e.sel.offset ∈ offsets ∧
      (lib.irr e.sel.grid e.sel.offset = some e.sel.n_irr ∨ lib.irrDefault e.sel.grid e.sel.offset = some e.sel.n_irr) ∧
      ∀ n, kpd ≤ n → n < kpd + s_range →
        (∃ H ∈ SymmetricHNFs (ClassSym k Co.toMat) n, ∃ H' ∈ SymmetricHNFs (ClassSym k Co.toMat) n, H ≠ H') →
        ∀ H, LongestIn len (Candidates lib k Co.toMat n) H → ∀ o ∈ offsets, ∀ m, lib.irr (lib.geom H).grid o = some m →
          Preferred min_kpts kpd e.sel.n_irr e.nt_kpts m n := by
  obtain ⟨gen, hgen, good⟩ := generatorOf_good w k hk1 hk2 hk hCo
  simp only [List.mem_cons, List.not_mem_nil, or_false, not_or] at hk
  have hfg : findGridR lib w eps offsets min_kpts root fuel k s_range kpd =
      match generalLoop (fun n => tryHNFsK lib.equal eps lib.geom lib.irr lib.irrDefault offsets (gen n))
          s_range kpd fuel kpd [] with
      | .error e => .error e
      | .ok found => chooseK (Rounded fl) min_kpts kpd found := by
    unfold findGridR
    rw [if_neg (by omega), if_neg (by omega), hgen]
    rfl
  rw [hfg]
  have hmem : ∀ n, kpd ≤ n → n < kpd + fuel → ∀ H, H ∈ packedOf lib.geom (gen n) ↔ H ∈ Candidates lib k Co.toMat n := by
    intro n hn hn' H
    unfold packedOf Candidates
    rw [List.mem_filter, Set.mem_ofPred_eq, (good.lists n (intsFit_mono hfit (by omega))).2 H]
  have htot : ∀ n, kpd ≤ n → n < kpd + fuel → _ := fun n hn hn' =>
    tryHNFsK_longest (irr := lib.irr) (irrDefault := lib.irrDefault) (offsets := offsets)
      (good.one n (by omega) (intsFit_mono hfit (by omega)))
      (hT n hn hn' (packedOf lib.geom (gen n)) fun H hH => (hmem n hn hn' H).1 hH) hirr
  rcases generalLoop_spec (fun n => tryHNFsK lib.equal eps lib.geom lib.irr lib.irrDefault offsets (gen n))
      s_range hs kpd fuel kpd [] le_rfl (by simp)
      (fun n hn hn' => by obtain ⟨r, h, -⟩ := htot n hn hn'; exact ⟨_, h⟩) (by simp)
      (fun n b h h' => by omega) with h | ⟨found, c1, c2, c3, c4⟩
  · left
    rw [h]
  · right
    rw [c1]
    dsimp only
    have hch : ∀ e ∈ found, e.sel.offset ∈ offsets ∧ e.sel.grid = (lib.geom e.sel.HNF).grid ∧ 1 ≤ e.sel.n_irr ∧
        (lib.irr e.sel.grid e.sel.offset = some e.sel.n_irr ∨ lib.irrDefault e.sel.grid e.sel.offset = some e.sel.n_irr) ∧
        (Longest len (packedOf lib.geom (gen e.nt_kpts)) e.sel.HNF ∨
          SecondLongest len (packedOf lib.geom (gen e.nt_kpts)) e.sel.HNF) := by
      intro e he
      obtain ⟨a1, a2, m, -, a3⟩ := c3 e he
      obtain ⟨r, hr, hr', -⟩ := htot e.nt_kpts a1 a2
      dsimp only at a3
      rw [hr] at a3
      cases a3
      obtain ⟨b1, b2, b3, b4, b5, -⟩ := hr' _ rfl
      exact ⟨b1, b2, b3, b4, b5⟩
    have hmod : ∀ e ∈ found, Moderate e := by
      intro e he
      obtain ⟨a1, a2, -⟩ := c3 e he
      obtain ⟨-, b2, -, b4, b5⟩ := hch e he
      have hc : e.sel.HNF ∈ Candidates lib k Co.toMat e.nt_kpts :=
        (hmem _ a1 a2 _).1 (b5.elim And.left And.left)
      rw [b2] at b4
      exact ⟨hle _ a1 a2 _ hc _ _ b4, by omega, by omega⟩
    rw [chooseK_eq hb min_kpts kpd hmod]
    obtain ⟨e, d1, d2, d3⟩ := choose_spec min_kpts kpd h1 found
      (List.ne_nil_of_length_pos (by omega)) fun e he => ⟨(hch e he).2.2.1, (c3 e he).1⟩
    obtain ⟨a1, a2, -⟩ := c3 e d2
    obtain ⟨b1, b2, -, b4, b5⟩ := hch e d2
    refine ⟨e, d1, a1, a2, ?_, b2, b1, b4, ?_⟩
    · rw [← longest_iff (hmem _ a1 a2), ← secondLongest_iff (hmem _ a1 a2)]
      exact b5
    · intro n hn hn' hsev H hH o ho m hm
      have hn2 : n < kpd + fuel := by omega
      obtain ⟨r, hr, hr', hr''⟩ := htot n hn hn2
      rw [← longest_iff (hmem n hn hn2)] at hH
      cases r with
      | none =>
        have := hr'' rfl H hH o ho
        rw [hm] at this
        cases this
      | some b =>
        have hbm : b.n_irr ≤ m := by
          obtain ⟨-, -, -, -, -, q⟩ := hr' b rfl
          exact q H hH o ho m hm
        have hlen : 1 < (gen n).length := by
          obtain ⟨H1, m1, H2, m2, hne⟩ := hsev
          rw [← (good.lists n (intsFit_mono hfit (by omega))).2] at m1 m2
          by_contra hn
          match hg : gen n, m1, m2 with
          | [], m1, _ => simp at m1
          | [x], m1, m2 => exact hne ((List.mem_singleton.1 m1).trans (List.mem_singleton.1 m2).symm)
          | x :: y :: t, _, _ => rw [hg] at hn; simp at hn
        have hp := d3 ⟨b, n⟩ (c4 n b hn hn' ⟨_, hlen, hr⟩)
        unfold Preferred at hp ⊢
        by_cases hc : min_kpts = false ∧ 500 < kpd
        · rw [if_pos hc] at hp ⊢
          refine le_trans hp ?_
          have : (b.n_irr : ℤ) ≤ m := by exact_mod_cast hbm
          exact mul_le_mul_of_nonneg_right this (by omega)
        · rw [if_neg hc] at hp ⊢
          exact le_trans hp hbm

theorem tricLoop_within (tryN : ℤ → Except GridErr (Tried G Off)) (mult : ℤ) (fuel : ℕ) :
    ∀ a : ℤ, (∀ n, a ≤ n → n < a + fuel → ∃ t, tryN n = .ok t) → tricLoop tryN mult fuel a = .error .running ∨
      ∃ b n m, a ≤ n ∧ n < a + fuel ∧ tricLoop tryN mult fuel a = .ok ⟨b, n * mult⟩ ∧ tryN n = .ok ⟨m, some b⟩ := by
  induction fuel with
  | zero => intro a _; exact .inl rfl
  | succ fuel ih =>
    intro a h
    obtain ⟨⟨m, best⟩, ht⟩ := h a le_rfl (by push_cast; omega)
    have hnext : tricLoop tryN mult fuel (a + 1) = .error .running ∨
      ∃ b n m, a ≤ n ∧ n < a + (fuel + 1 : ℕ) ∧ tricLoop tryN mult fuel (a + 1) = .ok ⟨b, n * mult⟩ ∧
        tryN n = .ok ⟨m, some b⟩ := by
      rcases ih (a + 1) fun n hn hn' => h n (by omega) (by push_cast; omega) with h | ⟨b, n, m0, h1, h2, h3, h4⟩
      · exact .inl h
      · exact .inr ⟨b, n, m0, by omega, by push_cast; omega, h3, h4⟩
    unfold tricLoop
    rw [ht]
    dsimp only
    cases best with
    | none => exact hnext
    | some b =>
      dsimp only
      by_cases hm : 0 < m
      · rw [if_pos hm]
        exact .inr ⟨b, a, m, le_rfl, by push_cast; omega, rfl, ht⟩
      · rw [if_neg hm]
        exact hnext

/-- C129 for the triclinic lattices.  The candidates are the Hermite normal forms of determinant `n`, scaled by `m`. -/
theorem findGridR_tric (lib : LibK K G Off) (hirr : ∀ g o m, lib.irr g o = some m → 1 ≤ m) (w : ℤ → ℤ) (eps : K)
    (offsets : List Off) (min_kpts : Bool) (root : ℤ) (fuel k : ℕ) (hk : k ∈ [31, 44]) (s_range : ℕ) (kpd : ℤ) (h1 : 1 ≤ kpd)
    (len : Mat3 → ℝ)
    (hT : ∀ n m : ℤ, 1 ≤ n → 1 ≤ m → m ^ 3 ≤ kpd → kpd - m ^ 3 < n * m ^ 3 → n * m ^ 3 < kpd + fuel * m ^ 3 → ∀ l : List Mat3, (∀ X ∈ l, (∃ H, IsHNF H ∧ H.det = n ∧ X = m • H) ∧ (lib.geom X).packed = true) →
      Told (aboveK eps) lib.equal (ofInt 0) (fun H => (lib.geom H).rmin) len l) :
    findGridR lib w eps offsets min_kpts root fuel k s_range kpd = .error .running ∨
    ∃ e, findGridR lib w eps offsets min_kpts root fuel k s_range kpd = .ok e ∧
      ∃ (n m : ℤ), 1 ≤ n ∧ 1 ≤ m ∧ e.nt_kpts = n * m ∧ m ^ 3 ≤ kpd ∧ kpd - m ^ 3 < n * m ^ 3 ∧ n * m ^ 3 < kpd + fuel * m ^ 3 ∧
        (LongestIn len {X | (∃ H, IsHNF H ∧ H.det = n ∧ X = m • H) ∧ (lib.geom X).packed = true} e.sel.HNF ∨
          SecondLongestIn len {X | (∃ H, IsHNF H ∧ H.det = n ∧ X = m • H) ∧ (lib.geom X).packed = true} e.sel.HNF) ∧
        e.sel.grid = (lib.geom e.sel.HNF).grid ∧ e.sel.offset ∈ offsets ∧
        (lib.irr e.sel.grid e.sel.offset = some e.sel.n_irr ∨ lib.irrDefault e.sel.grid e.sel.offset = some e.sel.n_irr) ∧
        ∀ X, LongestIn len {X | (∃ H, IsHNF H ∧ H.det = n ∧ X = m • H) ∧ (lib.geom X).packed = true} X →
          ∀ o ∈ offsets, ∀ c, lib.irr (lib.geom X).grid o = some c → e.sel.n_irr ≤ c := by
  obtain ⟨n0, mult, g1, g2, g5, g3, g6, g4, -⟩ := get_kpd_tric_partial kpd h1
  have hm3 : 0 < mult ^ 3 := by positivity
  have hfg : findGridR lib w eps offsets min_kpts root fuel k s_range kpd =
      tricLoop (fun n => tryHNFsK lib.equal eps lib.geom lib.irr lib.irrDefault offsets
        ((tric_31_44 n).map (mult • ·))) mult fuel n0 := by
    unfold findGridR
    have hk' := hk
    simp only [List.mem_cons, List.not_mem_nil, or_false] at hk'
    rw [if_neg (by omega), if_pos (by omega), g1]
  rw [hfg]
  have hmem : ∀ n, n0 ≤ n → ∀ X, X ∈ packedOf lib.geom ((tric_31_44 n).map (mult • ·)) ↔
      X ∈ {X | (∃ H, IsHNF H ∧ H.det = n ∧ X = mult • H) ∧ (lib.geom X).packed = true} := by
    intro n hn X
    have q1 := (tric_31_44_correct k hk n 1 (by simp)).2.1
    unfold packedOf
    rw [List.mem_filter, List.mem_map, Set.mem_ofPred_eq]
    refine and_congr_left fun _ => exists_congr fun H => ?_
    rw [q1, and_assoc, eq_comm (a := X)]
  have hok : ∀ n, n0 ≤ n → n < n0 + fuel → _ := fun n hn hn' =>
    tryHNFsK_longest (irr := lib.irr) (irrDefault := lib.irrDefault) (offsets := offsets) (eps := eps) (equal := lib.equal)
      (geom := lib.geom) (len := len) (Hs := (tric_31_44 n).map (mult • ·)) (by simpa using tric_ne_nil (by omega))
      (hT n mult (by omega) g3 (by nlinarith) (by nlinarith) (by nlinarith) _ fun X hX => (hmem n hn X).1 hX) hirr
  rcases tricLoop_within (fun n => tryHNFsK lib.equal eps lib.geom lib.irr lib.irrDefault offsets
      ((tric_31_44 n).map (mult • ·))) mult fuel n0
      (fun n hn hn' => by obtain ⟨r, h, -⟩ := hok n hn hn'; exact ⟨_, h⟩) with h | ⟨b, n, m, a1, a0, a2, a3⟩
  · exact .inl h
  · right
    obtain ⟨r, hr, hr', -⟩ := hok n a1 a0
    rw [hr] at a3
    cases a3
    obtain ⟨b1, b2, -, b4, b5, b6⟩ := hr' b rfl
    refine ⟨_, a2, n, mult, by omega, g3, rfl, by nlinarith, by nlinarith, by nlinarith, ?_, b2, b1, b4, ?_⟩
    · rw [← longest_iff (hmem n a1), ← secondLongest_iff (hmem n a1)]
      exact b5
    · intro X hX o ho c hc
      rw [← longest_iff (hmem n a1)] at hX
      exact b6 X hX o ho c hc

/-- C129 for the cubic lattices: no lengths are compared, and the search returns what it returns with exact ratios. -/
theorem findGridR_cubic (hb : Binary64 fl) (lib : LibK (Rounded fl) G Off) (hirr : ∀ g o m, lib.irr g o = some m → 1 ≤ m)
    (w : ℤ → ℤ) (hw : w = id ∨ Int32 w) (eps : Rounded fl) (offsets : List Off) (min_kpts : Bool) (fuel k : ℕ)
    (hk : k ∈ [1, 3, 5]) (Co : IMat) (hCo : reducedCanonical ℚ k = .ok Co)
    (hle : ∀ n H, 1 ≤ n → H ∈ SymmetricHNFs (ClassSym k Co.toMat) n → ∀ o (m : ℕ),
      lib.irr (lib.gridOf H) o = some m ∨ lib.irrDefault (lib.gridOf H) o = some m → (m : ℤ) ≤ n) (s_range : ℕ)
    (kpd root : ℤ) (h1 : 1 ≤ kpd) (hr : 0 ≤ root) (hr' : root ≤ 281) (exact : Lib G Off) (eps' : ℚ)
    (hg : exact.gridOf = lib.gridOf) (hi : exact.irr = lib.irr) (hd : exact.irrDefault = lib.irrDefault) :
    findGridR lib w eps offsets min_kpts root fuel k s_range kpd =
      findGrid exact w eps' offsets min_kpts root fuel k s_range kpd := by
  have hk' := hk
  simp only [List.mem_cons, List.not_mem_nil, or_false] at hk'
  have hc : k = 3 ∨ k = 5 ∨ k = 1 := by omega
  let other : Lib G Off := ⟨fun _ _ => false, fun H => ⟨lib.gridOf H, 0, false⟩, lib.gridOf, lib.irr, lib.irrDefault⟩
  have e1 : findGridR lib w eps offsets min_kpts root fuel k s_range kpd =
      findGridK (Rounded fl) other w eps' offsets min_kpts root fuel k s_range kpd := by
    unfold findGridR findGridK
    rw [if_pos hc, if_pos hc]
    rfl
  have e2 : findGrid other w eps' offsets min_kpts root fuel k s_range kpd =
      findGrid exact w eps' offsets min_kpts root fuel k s_range kpd := by
    unfold findGrid
    rw [if_pos hc, if_pos hc, hg, hi, hd]
  rw [e1, ← e2]
  exact choice_rounded_cubic hb other hirr w hw eps' offsets min_kpts fuel k hk Co hCo
    ⟨hle, fun n H hn hH o m hm => hle n H hn hH o m (.inl hm)⟩ s_range kpd root h1 hr hr'

/-- The smallest distances computed from bases with small errors are told apart, for any list of grids. -/
theorem told_list {val : K → ℝ} {u φ ψ t₁ t₂ γ s ℓ σ : ℝ} {equal : K → K → Bool} {eps : K} {sqrt : K → K}
    {B : Mat3 → Matrix (Fin 3) (Fin 3) K} {B0 : Mat3 → Matrix (Fin 3) (Fin 3) ℝ} {len : Mat3 → ℝ} {S : Set Mat3}
    (hS : ∀ H ∈ S, packedK sqrt (B H) = true)
    (hu : RelativeOps K val u) (hc : Compares K val) (hlt : ComparesLt K val) (hr : RootRight val u sqrt)
    (hB : ∀ H ∈ S, CloseTo val (B H) (B0 H) γ s ∧ HasShortest (B0 H) ∧ SmallestDistance (B0 H) (len H) ∧ ℓ ≤ len H)
    (hℓ : 0 < ℓ) (hσ : 1 ≤ σ) (hlen : LengthRight γ ℓ σ) (hφ : φ = (1 / (1 - u)) ^ 3 * σ)
    (hF : FactorsRight u φ ψ (val eps)) (hE : EqualRight val equal t₁ t₂)
    (hL : ∀ l : List Mat3, (∀ H ∈ l, H ∈ S) → FactorsApart φ ψ t₁ t₂ len l) (l : List Mat3) (hl : ∀ H ∈ l, H ∈ S) :
    Told (aboveK eps) equal (ofInt 0) (fun H => tempRminK sqrt (B H)) len l := by
  have hp : packedOf (fun H => compareGeomK sqrt (B H)) l = l := List.filter_eq_self.2 fun H hH => hS H (hl H hH)
  have := told_rounded (Hs := l) hu hc hlt hr (fun H hH => hB H (hl H hH)) hℓ hσ hlen hφ hF hE (by rw [hp]; exact hL l hl)
  rwa [hp] at this

/-- C129, with the errors of the bases: `B H` is the reduced basis computed for the supercell `H`, and close to a basis `B0 H` of
its grid, whose smallest distance is `len H`. -/
theorem findGridR_rounded (hb : Binary64 fl) (lib : LibK (Rounded fl) (Matrix (Fin 3) (Fin 3) (Rounded fl)) Off)
    (hirr : ∀ g o m, lib.irr g o = some m → 1 ≤ m)
    (w : ℤ → ℤ) (eps : Rounded fl) (offsets : List Off) (min_kpts : Bool) (root : ℤ) (fuel k : ℕ) (hk1 : 1 ≤ k) (hk2 : k ≤ 44)
    (hk : k ∉ [1, 3, 5, 31, 44]) (Co : IMat) (hCo : reducedCanonical ℚ k = .ok Co) (s_range : ℕ) (hs : 5 ≤ s_range)
    (hsf : s_range ≤ fuel) (kpd : ℤ) (h1 : 1 ≤ kpd) (hfit : IntsFit w (kpd + fuel)) (hlim : kpd + fuel ≤ 2 ^ 26)
    (hle : ∀ n, kpd ≤ n → n < kpd + fuel → ∀ H ∈ Candidates lib k Co.toMat n, ∀ o (m : ℕ),
      lib.irr (lib.geom H).grid o = some m ∨ lib.irrDefault (lib.geom H).grid o = some m → (m : ℤ) ≤ n)
    {φ ψ t₁ t₂ γ s ℓ σ : ℝ} {sqrt : Rounded fl → Rounded fl}
    {B : Mat3 → Matrix (Fin 3) (Fin 3) (Rounded fl)} {B0 : Mat3 → Matrix (Fin 3) (Fin 3) ℝ} {len : Mat3 → ℝ}
    (hgeom : lib.geom = fun H => compareGeomK sqrt (B H))
    (hr : RootRight (fun x : Rounded fl => (x.q : ℝ)) (1 / 2 ^ 53) sqrt)
    (hB : ∀ n, kpd ≤ n → n < kpd + fuel → ∀ H ∈ Candidates lib k Co.toMat n,
      CloseTo (fun x : Rounded fl => (x.q : ℝ)) (B H) (B0 H) γ s ∧ HasShortest (B0 H) ∧ SmallestDistance (B0 H) (len H) ∧ ℓ ≤ len H)
    (hℓ : 0 < ℓ) (hσ : 1 ≤ σ) (hlen : LengthRight γ ℓ σ) (hφ : φ = (1 / (1 - 1 / 2 ^ 53)) ^ 3 * σ)
    (hF : FactorsRight (1 / 2 ^ 53) φ ψ eps.q) (hE : EqualRight (fun x : Rounded fl => (x.q : ℝ)) lib.equal t₁ t₂)
    (hL : ∀ n, kpd ≤ n → n < kpd + fuel → ∀ l : List Mat3, (∀ H ∈ l, H ∈ Candidates lib k Co.toMat n) →
      FactorsApart φ ψ t₁ t₂ len l) :
    findGridR lib w eps offsets min_kpts root fuel k s_range kpd = .error .running ∨
    ∃ e, findGridR lib w eps offsets min_kpts root fuel k s_range kpd = .ok e ∧ kpd ≤ e.nt_kpts ∧ e.nt_kpts < kpd + fuel ∧
      (LongestIn len (Candidates lib k Co.toMat e.nt_kpts) e.sel.HNF ∨
        SecondLongestIn len (Candidates lib k Co.toMat e.nt_kpts) e.sel.HNF) ∧
      e.sel.grid = B e.sel.HNF ∧ e.sel.offset ∈ offsets ∧
      (lib.irr e.sel.grid e.sel.offset = some e.sel.n_irr ∨ lib.irrDefault e.sel.grid e.sel.offset = some e.sel.n_irr) ∧
      ∀ n, kpd ≤ n → n < kpd + s_range →
        (∃ H ∈ SymmetricHNFs (ClassSym k Co.toMat) n, ∃ H' ∈ SymmetricHNFs (ClassSym k Co.toMat) n, H ≠ H') →
        ∀ H, LongestIn len (Candidates lib k Co.toMat n) H → ∀ o ∈ offsets, ∀ m, lib.irr (B H) o = some m →
          Preferred min_kpts kpd e.sel.n_irr e.nt_kpts m n := by
  have := findGridR_general hb lib hirr w eps offsets min_kpts root fuel k hk1 hk2 hk Co hCo s_range hs hsf kpd h1 hfit hlim hle len
    fun n hn hn' l hl => by
      have hS : ∀ H ∈ Candidates lib k Co.toMat n, packedK sqrt (B H) = true := fun H hH => by
        have := hH.2
        rw [hgeom] at this
        exact this
      have := told_list hS (relativeOps_rounded hb) compares_rounded comparesLt_rounded hr (hB n hn hn') hℓ hσ hlen hφ hF hE
        (hL n hn hn') l hl
      rw [hgeom]
      exact this
  simp only [hgeom] at this ⊢
  exact this

/-! ## An example -/

/-- A library for the example: the length of the grid of a supercell is an entry of the matrix. -/
def entryLib : LibK (Rounded roundNearest) Mat3 Bool where
  equal := nearEqual
  geom H := ⟨H, ⟨(H 0 0 : ℚ)⟩, true⟩
  gridOf := id
  irr g _ := some (g.det.toNat / 2 + 1)
  irrDefault g _ := some (g.det.toNat / 2 + 1)

theorem entryLib_finds : (match findGridR entryLib wrap32 ⟨1 / 1000⟩ [true, false] false 7 41 12 5 501 with
    | .ok _ => true
    | .error _ => false) = true := by decide +kernel

theorem nearEqual_right : EqualRight (fun x : Rounded roundNearest => (x.q : ℝ)) nearEqual (1 / 1000) (1 / 1000) := by
  refine ⟨fun a b h => ?_, fun a b h => ?_⟩
  · have := (Rat.cast_le (K := ℝ) (p := |a.q - b.q|) (q := 1 / 1000)).1 (by push_cast; exact h)
    exact decide_eq_true this
  · have := (Rat.cast_le (K := ℝ)).2 (of_decide_eq_true h)
    push_cast at this
    exact this

theorem hnf_entry_le {H : IntMat} (h : IsHNF H) : 1 ≤ H 0 0 ∧ H 0 0 ≤ H.det := by
  have h1 := h.pos0
  have h2 := h.pos1
  have h3 := h.pos2
  rw [Matrix.det_fin_three, h.upper01, h.upper02, h.upper12]
  have h4 : 1 ≤ H 1 1 * H 2 2 := Int.mul_pos h2 h3
  exact ⟨by omega, by nlinarith⟩

/-- The hypotheses are met: hexagonal lattice (class 12), 501 points requested, 32-bit integers. -/
example : ∃ e, findGridR entryLib wrap32 ⟨1 / 1000⟩ [true, false] false 7 41 12 5 501 = .ok e ∧ 501 ≤ e.nt_kpts ∧
    (LongestIn (fun H => (H 0 0 : ℝ)) (Candidates entryLib 12 (canonC 12).toMat e.nt_kpts) e.sel.HNF ∨
      SecondLongestIn (fun H => (H 0 0 : ℝ)) (Candidates entryLib 12 (canonC 12).toMat e.nt_kpts) e.sel.HNF) := by
  have hfit : IntsFit wrap32 (501 + (41 : ℕ)) := .inr ⟨wrap32_int32, by norm_num⟩
  have hE := nearEqual_right
  have hH : ∀ n : ℤ, 501 ≤ n → n < 501 + (41 : ℕ) → ∀ H ∈ Candidates entryLib 12 (canonC 12).toMat n,
      (1 : ℤ) ≤ H 0 0 ∧ H 0 0 ≤ 542 := by
    intro n hn hn' H hH
    have h1 := hnf_entry_le hH.1.1
    have hd := hH.1.2.1
    exact ⟨by omega, by push_cast at hn'; omega⟩
  rcases findGridR_general roundNearest_binary64 entryLib (fun g o m h => by
      simp only [entryLib, Option.some.injEq] at h; omega) wrap32 ⟨1 / 1000⟩ [true, false] false 7 41 12 (by norm_num)
      (by norm_num) (by decide) (canonC 12) reduced_12 5 (by norm_num) (by norm_num) 501 (by norm_num) hfit (by norm_num)
      (fun n hn _ H hH o m hm => by
        simp only [entryLib, Option.some.injEq, or_self] at hm
        rw [hH.1.2.1] at hm
        omega) (fun H => (H 0 0 : ℝ))
      (fun n hn hn' l hl => by
        refine told_of_factors (val := fun x : Rounded roundNearest => (x.q : ℝ)) (u := 1 / 2 ^ 53) (φ := 1) (ψ := 543 / 542)
          (t₁ := 1 / 1000) (t₂ := 1 / 1000) (relativeOps_rounded roundNearest_binary64).toRelative (by norm_num)
          comparesLt_rounded ⟨by norm_num, by norm_num, by norm_num, by norm_num⟩ hE ⟨fun x hx => by norm_num, fun x hx => ?_,
            fun x hx y hy h => ?_⟩ fun x hx => ?_
        · have : (1 : ℝ) ≤ x 0 0 := by exact_mod_cast (hH n hn hn' x (hl x hx)).1
          norm_num
          linarith
        · have h0 : (y 0 0 : ℤ) + 1 ≤ x 0 0 := by exact_mod_cast h
          have h1 : (y 0 0 : ℝ) + 1 ≤ x 0 0 := by exact_mod_cast h0
          have h2 : (y 0 0 : ℝ) ≤ 542 := by exact_mod_cast (hH n hn hn' y (hl y hy)).2
          constructor
          · linarith
          · norm_num
            linarith
        · have : (1 : ℝ) ≤ x 0 0 := by exact_mod_cast (hH n hn hn' x (hl x hx)).1
          refine ⟨by linarith, le_rfl, ?_, ?_⟩
          · simp [entryLib]
          · simp [entryLib]) with h | ⟨e, h1, h2, -, h3, -⟩
  · have := entryLib_finds
    rw [h] at this
    cases this
  · exact ⟨e, h1, h2, h3⟩

theorem entryLib_finds_tric : (match findGridR entryLib wrap32 ⟨1 / 1000⟩ [true, false] false 7 3 31 10 3 with
    | .ok _ => true
    | .error _ => false) = true := by decide +kernel

/-- The same for a triclinic lattice (class 31), 3 points requested. -/
example : ∃ e, findGridR entryLib wrap32 ⟨1 / 1000⟩ [true, false] false 7 3 31 10 3 = .ok e ∧ 0 < e.sel.n_irr := by
  rcases findGridR_tric entryLib (fun g o m h => by
      simp only [entryLib, Option.some.injEq] at h; omega) wrap32 ⟨1 / 1000⟩ [true, false] false 7 3 31 (by simp) 10 3
      (by norm_num) (fun H => (H 0 0 : ℝ))
      (fun n m hn hm hm' _ hup l hl => by
        have hm3 : 1 ≤ m ^ 3 := one_le_pow₀ hm
        have hn' : n ≤ 103 := by
          by_contra hcon
          have : 104 * m ^ 3 ≤ n * m ^ 3 := mul_le_mul_of_nonneg_right (by omega) (by omega)
          push_cast at hup
          omega
        have key : ∀ x ∈ l, ∃ a : ℤ, 1 ≤ a ∧ a ≤ 103 ∧ x 0 0 = m * a := by
          intro x hx
          obtain ⟨⟨H, h1, h2, rfl⟩, -⟩ := hl x hx
          have := hnf_entry_le h1
          exact ⟨H 0 0, this.1, by omega, by simp⟩
        have hm1 : (1 : ℝ) ≤ m := by exact_mod_cast hm
        have pos : ∀ x ∈ l, (1 : ℝ) ≤ x 0 0 := by
          intro x hx
          obtain ⟨a, h1, -, h3⟩ := key x hx
          have : 1 ≤ x 0 0 := by rw [h3]; nlinarith
          exact_mod_cast this
        refine told_of_factors (val := fun x : Rounded roundNearest => (x.q : ℝ)) (u := 1 / 2 ^ 53) (φ := 1) (ψ := 104 / 103)
          (t₁ := 1 / 1000) (t₂ := 1 / 1000) (relativeOps_rounded roundNearest_binary64).toRelative (by norm_num)
          comparesLt_rounded ⟨by norm_num, by norm_num, by norm_num, by norm_num⟩ nearEqual_right ⟨fun x hx => by norm_num,
            fun x hx => ?_, fun x hx y hy h => ?_⟩ fun x hx => ?_
        · have := pos x hx
          norm_num
          linarith
        · obtain ⟨a, -, -, h3⟩ := key x hx
          obtain ⟨b, -, h5, h6⟩ := key y hy
          have h0 : y 0 0 < x 0 0 := by exact_mod_cast h
          rw [h3, h6] at h0 ⊢
          have hab : b + 1 ≤ a := by
            have := lt_of_mul_lt_mul_left h0 (by omega)
            omega
          have hab' : (b : ℝ) + 1 ≤ a := by exact_mod_cast hab
          have hb' : (b : ℝ) ≤ 103 := by exact_mod_cast h5
          push_cast
          constructor
          · nlinarith
          · norm_num
            nlinarith
        · have := pos x hx
          refine ⟨by linarith, le_rfl, ?_, ?_⟩
          · simp [entryLib]
          · simp [entryLib]) with h | ⟨e, h1, n, m, -, -, -, -, -, -, -, -, -, h2, -⟩
  · have := entryLib_finds_tric
    rw [h] at this
    cases this
  · refine ⟨e, h1, ?_⟩
    simp only [entryLib, Option.some.injEq, or_self] at h2
    omega

/-- The same for a cubic lattice (class 3), 4000 points requested. -/
example : findGridR entryLib wrap32 ⟨1 / 1000⟩ [true, false] false 15 0 3 10 4000 =
    findGrid halfLib wrap32 (1 / 1000) [true, false] false 15 0 3 10 4000 :=
  findGridR_cubic roundNearest_binary64 entryLib (fun g o m h => by simp only [entryLib, Option.some.injEq] at h; omega) wrap32
    (.inr wrap32_int32) ⟨1 / 1000⟩ [true, false] false 0 3 (by simp) (canonC 3)
    (reduced_canonC 3 (by norm_num) (by norm_num) (by decide))
    (fun n H hn hH o m hm => by
      simp only [entryLib, Option.some.injEq, or_self, id] at hm
      rw [hH.2.1] at hm
      omega) 10 4000 15 (by norm_num) (by norm_num) (by norm_num) halfLib (1 / 1000) rfl rfl rfl

end AutoGR.Fortran
