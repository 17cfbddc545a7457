import Verif.Model.RoundedSearch
import Verif.Spec.NearlyWidest
import Verif.Props.RoundedProgram
import Verif.Props.RoundedAllGrids
import Verif.Props.RoundedFind
import Verif.Props.WidestGrid

/-!
# C130: which grid `find_grid` returns when everything is computed in floating point

From the cell as it was typed in to the grid that is returned, in terms of the crystal that is meant: C121 (the cell is
recognised), C125 (no symmetric grid is missed), C126 (the packing fraction) and C129 (the comparison and the choice).
-/

namespace AutoGR.Fortran

open Spec Arith Matrix

variable {fl : ℚ → ℚ} {U : RMat (Rounded fl)}
  {U0 : Matrix (Fin 3) (Fin 3) ℝ} {eps : Rounded fl} {M δ c L ℓ g a : ℝ} {A B C D E F : ℝ} {k : ℕ} {r : IdCell}

section
variable {G : Type} {w : ℝ}

/-- `find_grid` searches, if the library counts the point symmetries of the crystal that is meant. -/
theorem find_gridR_searches (env : EnvR (Rounded fl) G) (h : RecognisedIn env.equal U U0 eps r M δ c L ℓ w)
    (hpg : env.pgSize U eps = (PointSym U0).ncard) (kpd : ℤ)
    (base : List (Fin 3 → Rounded fl)) (types : List ℕ) (offset : Option Offset) (find_offset : Bool)
    (ho : find_offset = false → offset ≠ none) (flag : ℕ) (min_kpts : Bool) :
    ∃ offsets s_range, r.s_range = some s_range ∧ offsets ≠ [] ∧
      offsetsTriedK env.toEnvK U r.id eps offset find_offset = some offsets ∧
      ∀ fuel, find_gridR env fuel U kpd base types offset find_offset flag min_kpts eps =
        match findGridR (env.libR U base types flag eps r) env.wrap eps offsets min_kpts (env.root kpd) fuel r.id
          s_range kpd with
        | .error e => .error (.grid e)
        | .ok e => .ok e := by
  obtain ⟨offsets, s, h1, h2, h3, -⟩ := find_gridK_searches env.toEnvK h hpg kpd base types offset find_offset ho flag min_kpts
  have hcs : check_sym (env.pgSize U eps) r.id = some true := by
    obtain ⟨A, B, C, D, E, F, a1, a2⟩ := h.right
    rw [hpg]
    exact check_sym_right a1 a2
  refine ⟨offsets, s, h1, h2, h3, fun fuel => ?_⟩
  unfold find_gridR
  rw [h.found]
  dsimp only
  rw [hcs]
  dsimp only
  rw [h3, h1]
  rfl

end

variable {inverse : Matrix (Fin 3) (Fin 3) (Rounded fl) → Matrix (Fin 3) (Fin 3) (Rounded fl)}

/-- What the libraries do for the symmetric supercells with up to `N` points.  `S H` is the supercell computed for `H`.  If it is, up to
`σ H`, the supercell `U0 T` of the crystal that is meant, then a right-handed basis of the grid that belongs to `U0 T` is found
up to `γ`, with entries up to `s` and a shortest vector of the grid in it.  The k-points are counted for the grid that is
meant. -/
structure LibReduces {Off : Type} (S : IntMat → Matrix (Fin 3) (Fin 3) (Rounded fl)) (U0 : Matrix (Fin 3) (Fin 3) ℝ)
    (lib : LibK (Rounded fl) (Matrix (Fin 3) (Fin 3) (Rounded fl)) Off) (sqrt : Rounded fl → Rounded fl)
    (count countDefault : Set (Fin 3 → ℝ) → Off → Option ℕ) (N : ℤ) (σ : IntMat → ℝ) (γ s : ℝ) : Prop where
  geom : ∀ H, lib.geom H = compareGeomK sqrt (lib.geom H).grid
  reduced : ∀ H T : IntMat, IsHNF H → H.det ≤ N → T.det = H.det → (∀ X ∈ PointSym U0, Keeps X T) →
    (∀ i j, |((S H i j).q : ℝ) - (U0 * toReal T) i j| ≤ σ H) →
    ∃ W : IntMat, IsUnit W.det ∧ 0 < (((U0 * toReal T)ᵀ)⁻¹ * toReal W).det ∧
      CloseTo (fun x : Rounded fl => (x.q : ℝ)) (lib.geom H).grid (((U0 * toReal T)ᵀ)⁻¹ * toReal W) γ s ∧
      HasShortest (((U0 * toReal T)ᵀ)⁻¹ * toReal W) ∧
      ∀ o, lib.irr (lib.geom H).grid o = count (gridPoints ((U0 * toReal T)ᵀ)⁻¹) o ∧
        lib.irrDefault (lib.geom H).grid o = countDefault (gridPoints ((U0 * toReal T)ᵀ)⁻¹) o

/-- The machine and the libraries compute what they are documented to compute. -/
structure EnvReduces (inverse : Matrix (Fin 3) (Fin 3) (Rounded fl) → Matrix (Fin 3) (Fin 3) (Rounded fl))
    (env : EnvR (Rounded fl) (Matrix (Fin 3) (Fin 3) (Rounded fl))) (U : RMat (Rounded fl))
    (U0 : Matrix (Fin 3) (Fin 3) ℝ) (eps : Rounded fl) (base : List (Fin 3 → Rounded fl)) (types : List ℕ) (flag : ℕ)
    (sqrt : Rounded fl → Rounded fl) (count countDefault : Set (Fin 3 → ℝ) → Offset → Option ℕ) (N : ℤ)
    (M δ c ℓ γ s t₁ t₂ : ℝ) : Prop where
  pgSize : env.pgSize U eps = (PointSym U0).ncard
  inv : ∀ r, idCell env.equal U (some eps) = .ok r → InverseStored inverse r
  reduces : ∀ r, idCell env.equal U (some eps) = .ok r →
    LibReduces (supercellK inverse (fun x => nint x.q) U r) U0 (env.libR U base types flag eps r) sqrt count countDefault N
      (fun H => supercellErr M δ c ℓ 1 H.det) γ s
  irr : ∀ r, idCell env.equal U (some eps) = .ok r →
    ∀ g o m, (env.libR U base types flag eps r).irr g o = some m → 1 ≤ m
  equal : ∀ r, idCell env.equal U (some eps) = .ok r →
    EqualRight (fun x : Rounded fl => (x.q : ℝ)) (env.libR U base types flag eps r).equal t₁ t₂
  root : RootRight (fun x : Rounded fl => (x.q : ℝ)) (1 / 2 ^ 53) sqrt

theorem HasShortest.distance {K : Matrix (Fin 3) (Fin 3) ℝ} (h : HasShortest K) : ∃ l, SmallestDistance K l := by
  obtain ⟨j, hj⟩ := h
  exact ⟨_, ⟨Pi.single j 1, by simp, rfl⟩, hj⟩

/-- The grids that are meant by the Hermite normal forms. -/
theorem grids_meant (hfl : Binary64 fl) {equal : Rounded fl → Rounded fl → Rounded fl → Bool} {w : ℝ}
    (h : RecognisedIn equal U U0 eps r M δ c L ℓ w) (hk : r.id ∉ [1, 3, 5, 31, 44])
    (hi : InverseStored inverse r) {Off : Type} {lib : LibK (Rounded fl) (Matrix (Fin 3) (Fin 3) (Rounded fl)) Off}
    {sqrt : Rounded fl → Rounded fl} {count countDefault : Set (Fin 3 → ℝ) → Off → Option ℕ} {N : ℤ} {γ s : ℝ}
    (hl : LibReduces (supercellK inverse (fun x => nint x.q) U r) U0 lib sqrt count countDefault N
      (fun H => supercellErr M δ c ℓ w H.det) γ s) (hN : N ≤ 10 ^ 6) {wr : ℤ → ℤ} (hfit : IntsFit wr N) :
    ∃ (B0 : IntMat → Matrix (Fin 3) (Fin 3) ℝ) (len : IntMat → ℝ), ∀ n : ℤ, 1 ≤ n → n ≤ N →
      (∀ H ∈ SymmetricHNFs (ClassSym r.id (canonC r.id).toMat) n, SymmetricGrid U0 (B0 H) n ∧ 0 < (B0 H).det ∧
        CloseTo (fun x : Rounded fl => (x.q : ℝ)) (lib.geom H).grid (B0 H) γ s ∧ HasShortest (B0 H) ∧
        SmallestDistance (B0 H) (len H) ∧
        ∀ o, lib.irr (lib.geom H).grid o = count (gridPoints (B0 H)) o ∧
          lib.irrDefault (lib.geom H).grid o = countDefault (gridPoints (B0 H)) o) ∧
      ∀ K, SymmetricGrid U0 K n → ∃ H ∈ SymmetricHNFs (ClassSym r.id (canonC r.id).toMat) n,
        gridPoints (B0 H) = gridPoints K := by
  obtain ⟨k1, k2⟩ := h.id_range
  have hk' : r.id ∉ [31, 44] := fun hm => hk (by simp at hm ⊢; omega)
  obtain ⟨gen, hgen, good⟩ := generatorOf_good wr r.id k1 k2 hk (reduced_canonC r.id k1 k2 hk')
  obtain ⟨P, Q, hPQ⟩ := supercells_change hfl h hk' hi
  have key : ∀ H : IntMat, ∃ (K : Matrix (Fin 3) (Fin 3) ℝ) (l : ℝ), ∀ n : ℤ, 1 ≤ n → n ≤ N →
      H ∈ SymmetricHNFs (ClassSym r.id (canonC r.id).toMat) n → SymmetricGrid U0 K n ∧ 0 < K.det ∧
        CloseTo (fun x : Rounded fl => (x.q : ℝ)) (lib.geom H).grid K γ s ∧ HasShortest K ∧ SmallestDistance K l ∧
        (∀ o, lib.irr (lib.geom H).grid o = count (gridPoints K) o ∧
          lib.irrDefault (lib.geom H).grid o = countDefault (gridPoints K) o) ∧
        gridPoints K = gridPoints ((U0 * toReal (P * H * Q))ᵀ)⁻¹ := by
    intro H
    by_cases hH : ∃ n : ℤ, 1 ≤ n ∧ n ≤ N ∧ H ∈ SymmetricHNFs (ClassSym r.id (canonC r.id).toMat) n
    · obtain ⟨n, n1, n2, hn⟩ := hH
      have hlist := good.lists n (intsFit_mono hfit n2)
      obtain ⟨q1, q2⟩ := hPQ n n1 (n2.trans hN) (gen n) hlist
      have hm := (hlist.2 H).2 hn
      obtain ⟨d1, d2⟩ := q1.sound _ (List.mem_map_of_mem hm)
      obtain ⟨W, w1, w2, w3, w4, w5⟩ := hl.reduced H (P * H * Q) hn.1 (by rw [hn.2.1]; exact n2) (by rw [d1, hn.2.1]) d2
        (fun i j => by
          rw [hn.2.1]
          exact q2 H hm i j)
      obtain ⟨l, hlen⟩ := HasShortest.distance w4
      have hsym := symmetricGrid h.ideal_det (M := P * H * Q) (W := W) (by omega) w1 d2
      rw [d1, abs_of_pos (by omega)] at hsym
      have hp := gridPoints_mul ((U0 * toReal (P * H * Q))ᵀ)⁻¹ w1
      refine ⟨((U0 * toReal (P * H * Q))ᵀ)⁻¹ * toReal W, l, fun n' _ _ hn' => ?_⟩
      have e : n' = n := by rw [← hn'.2.1, hn.2.1]
      rw [e]
      exact ⟨hsym, w2, w3, w4, hlen, fun o => by rw [hp]; exact w5 o, hp⟩
    · exact ⟨0, 0, fun n n1 n2 hn => absurd ⟨n, n1, n2, hn⟩ hH⟩
  choose B0 len hB using key
  refine ⟨B0, len, fun n n1 n2 => ⟨fun H hH => ?_, fun K hK => ?_⟩⟩
  · obtain ⟨a1, a2, a3, a4, a5, a6, -⟩ := hB H n n1 n2 hH
    exact ⟨a1, a2, a3, a4, a5, a6⟩
  · have hlist := good.lists n (intsFit_mono hfit n2)
    obtain ⟨q1, -⟩ := hPQ n n1 (n2.trans hN) (gen n) hlist
    obtain ⟨i, hi, -⟩ := (listsGrids h.ideal_det n1 q1).complete K hK
    have hmem := List.get_mem _ i
    obtain ⟨M', hM', e⟩ := List.mem_map.1 hmem
    obtain ⟨H, hH, rfl⟩ := List.mem_map.1 hM'
    have hs := (hlist.2 H).1 hH
    refine ⟨H, hs, ?_⟩
    rw [(hB H n n1 n2 hs).2.2.2.2.2.2, ← hi]
    exact congrArg gridPoints e

variable {env : EnvR (Rounded fl) (Matrix (Fin 3) (Fin 3) (Rounded fl))} {base : List (Fin 3 → Rounded fl)}
  {types : List ℕ} {flag : ℕ} {sqrt : Rounded fl → Rounded fl}
  {count countDefault : Set (Fin 3 → ℝ) → Offset → Option ℕ}

/-- C130, for the crystals that are neither cubic nor triclinic.  `U` is the Niggli cell of the crystal `U0` as it was typed in
(`TypedCell`), and everything is computed in binary64.  As long as the search ends within `fuel` numbers of points, up to a
million, `find_grid` returns, up to the error `γ` of the reduction, a symmetric grid of the crystal with at least the requested
number of points whose points are farthest apart or come right after these, among the symmetric grids with this number of points
that are packed densely enough, and an offset that was tried, with the number of irreducible k-points.  By the rule of the
program it is at least as good as every widest symmetric grid in the range, with every offset. -/
theorem find_grid_widest_float (hfl : Binary64 fl) (h : TypedCell env.equal U U0 eps k M δ c L ℓ g a A B C D E F)
    (hk : k ∉ [1, 3, 5, 31, 44]) (fuel : ℕ) (kpd : ℤ) (h1 : 1 ≤ kpd) (hmil : kpd + fuel ≤ 10 ^ 6)
    (hfit : IntsFit env.wrap (kpd + fuel)) {γ s t₁ t₂ least ρ σ φ ψ : ℝ}
    (hE : EnvReduces inverse env U U0 eps base types flag sqrt count countDefault (kpd + fuel) M δ c ℓ γ s t₁ t₂)
    (hcount : ∀ n K, kpd ≤ n → n < kpd + fuel → SymmetricGrid U0 K n → ∀ o (m : ℕ),
      count (gridPoints K) o = some m ∨ countDefault (gridPoints K) o = some m → (m : ℤ) ≤ n)
    (hleast : 0 < least) (hσ : 1 ≤ σ) (hlen : LengthRight γ least σ) (hρ : 1 ≤ ρ)
    (hcell : CellRight (1 / 2 ^ 53) γ s (1 / (|U0.det| * (kpd + fuel))) ρ) (hφ : φ = (1 / (1 - 1 / 2 ^ 53)) ^ 3 * σ)
    (hF : FactorsRight (1 / 2 ^ 53) φ ψ eps.q)
    (hG : ∀ n, kpd ≤ n → n < kpd + fuel → GridsApart U0 n least φ ψ t₁ t₂) (s_range : ℕ) (hs : sRange k = some s_range)
    (hsf : s_range ≤ fuel) (offset : Option Offset) (find_offset : Bool) (ho : find_offset = false → offset ≠ none)
    (min_kpts : Bool) :
    find_gridR env fuel U kpd base types offset find_offset flag min_kpts eps = .error (.grid .running) ∨
    ∃ e offsets K, find_gridR env fuel U kpd base types offset find_offset flag min_kpts eps = .ok e ∧
      offsetsTriedK env.toEnvK U k eps offset find_offset = some offsets ∧ e.sel.offset ∈ offsets ∧ kpd ≤ e.nt_kpts ∧
      NearlyWidest U0 e.nt_kpts (3 / 10 / packFactor (1 / 2 ^ 53) ρ σ) (3 / 10 * packFactor (1 / 2 ^ 53) ρ σ) K ∧
      (∀ i j, |((e.sel.grid i j).q : ℝ) - K i j| ≤ γ) ∧
      (count (gridPoints K) e.sel.offset = some e.sel.n_irr ∨ countDefault (gridPoints K) e.sel.offset = some e.sel.n_irr) ∧
      ∀ n, kpd ≤ n → n < kpd + s_range → SeveralGrids U0 n → ∀ K',
        WidestBetween U0 n (3 / 10 / packFactor (1 / 2 ^ 53) ρ σ) (3 / 10 * packFactor (1 / 2 ^ 53) ρ σ) K' →
        ∀ o ∈ offsets, ∀ m, count (gridPoints K') o = some m →
          Preferred min_kpts kpd e.sel.n_irr e.nt_kpts m n := by
  obtain ⟨Co, h2, h3⟩ := idCell_returns hfl h
  obtain ⟨k1, k2⟩ := h3.id_range
  have hk' : k ∉ [31, 44] := fun hm => hk (by simp at hm ⊢; omega)
  obtain ⟨offsets, s', s1, -, s3, s4⟩ := find_gridR_searches env h3 hE.pgSize kpd base types offset find_offset ho flag
    min_kpts
  dsimp only at s1 s3 s4
  rw [hs] at s1
  cases s1
  rw [s4 fuel]
  obtain ⟨s'', q1, q2⟩ := sRange_le k k1 k2 hk
  rw [hs] at q1
  cases q1
  have hred := hE.reduces _ h2
  set lib := env.libR U base types flag eps ⟨IMat.one, Co, k, sRange k⟩ with hlib
  obtain ⟨B0, len, hB⟩ := grids_meant hfl h3 hk (hE.inv _ h2) hred hmil hfit
  dsimp only at hB
  have hdet := h3.ideal_det
  have meaning : ∀ n, kpd ≤ n → n < kpd + fuel → ∀ H ∈ SymmetricHNFs (ClassSym k (canonC k).toMat) n,
      least ≤ len H ∧ (PackedAtLeast (3 / 10 * packFactor (1 / 2 ^ 53) ρ σ) (B0 H) → (lib.geom H).packed = true) ∧
        ((lib.geom H).packed = true → PackedAtLeast (3 / 10 / packFactor (1 / 2 ^ 53) ρ σ) (B0 H)) := by
    intro n hn hn' H hH
    obtain ⟨b1, b2, b3, b4, b5, -⟩ := (hB n (by omega) (by omega)).1 H hH
    have hl := (hG n hn hn').least _ _ b1 b5
    have hv := (symmetricGrid_det hdet (by omega) b1).1
    rw [abs_of_pos b2] at hv
    have hge : 1 / (|U0.det| * (kpd + fuel)) ≤ (B0 H).det := by
      rw [hv]
      have hU := abs_pos.2 hdet
      have hn0 : (0 : ℝ) < n := by exact_mod_cast (by omega : 0 < n)
      have hnn : (n : ℝ) ≤ kpd + fuel := by exact_mod_cast hn'.le
      exact one_div_le_one_div_of_le (by positivity) (mul_le_mul_of_nonneg_left hnn hU.le)
    have hc' : CellRight (1 / 2 ^ 53) γ s (B0 H).det ρ := by
      refine le_trans hcell (mul_le_mul_of_nonneg_right hge ?_)
      have : 1 / ρ ≤ 1 := by rw [div_le_one (by linarith)]; exact hρ
      linarith
    have hp := packed_rounded (relativeOps_rounded hfl) (by norm_num) compares_rounded hE.root b3 b2 b4 hleast
      (fun v hv => hl.trans (b5.2 v hv)) hσ hlen hρ hc'
    have e : (lib.geom H).packed = packedK sqrt (lib.geom H).grid := by
      conv_lhs => rw [hred.geom H]
      rfl
    rw [e]
    exact ⟨hl, hp.1, hp.2⟩
  have found := findGridR_rounded hfl lib (hE.irr _ h2) env.wrap eps offsets min_kpts (env.root kpd) fuel k k1 k2 hk _
    (reduced_canonC k k1 k2 hk') s_range q2 hsf kpd h1 hfit (by omega)
    (fun n hn hn' H hH o m hm => by
      obtain ⟨b1, -, -, -, -, b6⟩ := (hB n (by omega) (by omega)).1 H hH.1
      rw [(b6 o).1, (b6 o).2] at hm
      exact hcount n _ hn hn' b1 o m hm)
    (B := fun H => (lib.geom H).grid) (B0 := B0) (len := len) (funext hred.geom) hE.root
    (fun n hn hn' H hH => by
      obtain ⟨b1, -, b3, b4, b5, -⟩ := (hB n (by omega) (by omega)).1 H hH.1
      exact ⟨b3, b4, b5, (meaning n hn hn' H hH.1).1⟩) hleast hσ hlen hφ hF (hE.equal _ h2)
    (fun n hn hn' l hl => by
      have hb : ∀ H ∈ l, SymmetricGrid U0 (B0 H) n ∧ SmallestDistance (B0 H) (len H) := fun H hH => by
        obtain ⟨b1, -, -, -, b5, -⟩ := (hB n (by omega) (by omega)).1 H (hl H hH).1
        exact ⟨b1, b5⟩
      have hA := hG n hn hn'
      exact ⟨fun H hH => hA.near _ _ (hb H hH).1 (hb H hH).2, fun H hH => hA.zero _ _ (hb H hH).1 (hb H hH).2,
        fun H hH H' hH' hlt => hA.gap _ _ _ _ (hb H hH).1 (hb H' hH').1 (hb H hH).2 (hb H' hH').2 hlt⟩)
  have candidate : ∀ n, kpd ≤ n → n < kpd + fuel → ∀ K l, SymmetricGrid U0 K n → SmallestDistance K l →
      PackedAtLeast (3 / 10 * packFactor (1 / 2 ^ 53) ρ σ) K →
      ∃ H ∈ Candidates lib k (canonC k).toMat n, len H = l ∧ gridPoints (B0 H) = gridPoints K := by
    intro n hn hn' K l hK hl hp
    obtain ⟨H, hH, e⟩ := (hB n (by omega) (by omega)).2 K hK
    obtain ⟨b1, b2, b3, b4, b5, -⟩ := (hB n (by omega) (by omega)).1 H hH
    have hKd := symmetricGrid_det_ne hdet (by omega) hK
    have hd : |K.det| = |(B0 H).det| := by
      rw [(symmetricGrid_det hdet (by omega) hK).1, (symmetricGrid_det hdet (by omega) b1).1]
    refine ⟨H, ⟨hH, (meaning n hn hn' H hH).2.1 (packed_points b2.ne' e.symm hd hp)⟩, ?_, e⟩
    exact smallestDistance_unique b5 (smallestDistance_points hKd b2.ne' e.symm hl)
  rcases found with hr | ⟨e, he, e1, hlt, e2, e3, e4, e5, e6⟩
  · left
    rw [hr]
  · right
    have hc : e.sel.HNF ∈ Candidates lib k (canonC k).toMat e.nt_kpts := e2.elim And.left And.left
    obtain ⟨b1, b2, b3, b4, b5, b6⟩ := (hB e.nt_kpts (by omega) (by omega)).1 e.sel.HNF hc.1
    refine ⟨e, offsets, B0 e.sel.HNF, by rw [he], s3, e4, e1, ⟨b1, (meaning _ e1 hlt _ hc.1).2.2 hc.2, len e.sel.HNF, b5, ?_⟩,
      fun i j => by rw [e3]; exact b3.err i j, ?_, ?_⟩
    · intro K₁ l₁ K₂ l₂ s₁ s₂ p₁ p₂ d₁ d₂ g₁ g₂
      obtain ⟨H₁, c₁, rfl, -⟩ := candidate _ e1 hlt K₁ l₁ s₁ d₁ p₁
      obtain ⟨H₂, c₂, rfl, -⟩ := candidate _ e1 hlt K₂ l₂ s₂ d₂ p₂
      rcases e2 with hL | ⟨-, -, hL⟩
      · exact absurd (hL.2 _ c₁) (not_le.2 g₁)
      · have f : ∀ H ∈ Candidates lib k (canonC k).toMat e.nt_kpts, len e.sel.HNF < len H →
            LongestIn len (Candidates lib k (canonC k).toMat e.nt_kpts) H := fun H hH hlt => by
          by_contra hn
          exact absurd (hL H hH hn) (not_le.2 hlt)
        exact le_antisymm ((f _ c₂ g₂).2 _ c₁) ((f _ c₁ g₁).2 _ c₂)
    · rw [e3, (b6 _).1, (b6 _).2] at e5
      exact e5
    · intro n hn hn' hsev K' hK' o hoff m hm
      have hn2 : n < kpd + fuel := by omega
      obtain ⟨l, hl, hw⟩ := hK'.widest
      obtain ⟨H, cH, hlenH, hpts⟩ := candidate n hn hn2 K' l hK'.grid hl hK'.packed
      refine e6 n hn hn' ?_ H ⟨cH, fun H' cH' => ?_⟩ o hoff m ?_
      · obtain ⟨K₁, K₂, g₁, g₂, hne⟩ := hsev
        obtain ⟨H₁, m₁, f₁⟩ := (hB n (by omega) (by omega)).2 K₁ g₁
        obtain ⟨H₂, m₂, f₂⟩ := (hB n (by omega) (by omega)).2 K₂ g₂
        refine ⟨H₁, m₁, H₂, m₂, fun heq => hne ?_⟩
        rw [← f₁, ← f₂, heq]
      · obtain ⟨x1, -, -, -, x5, -⟩ := (hB n (by omega) (by omega)).1 H' cH'.1
        rw [hlenH]
        exact hw _ _ x1 ((meaning n hn hn2 H' cH'.1).2.2 cH'.2) x5
      · rw [((((hB n (by omega) (by omega)).1 H cH.1).2.2.2.2.2) o).1, hpts]
        exact hm

/-! ## The hypotheses are met: a tetragonal crystal -/

/-- A tetragonal crystal with the axes 1, 1 and 2. -/
def tallTyped : RMat (Rounded roundNearest) := ⟨⟨1⟩, ⟨0⟩, ⟨0⟩, ⟨0⟩, ⟨1⟩, ⟨0⟩, ⟨0⟩, ⟨0⟩, ⟨2⟩⟩

def tallInt : IntMat := !![1, 0, 0; 0, 1, 0; 0, 0, 2]

def tallFound : IdCell := ⟨IMat.one, IMat.one, 11, some 25⟩

theorem tall_found : idCell cmpRounded tallTyped (some ⟨1 / 8192⟩) = .ok tallFound := by decide +kernel

theorem tall_det : (toReal tallInt).det = 2 := by
  rw [toReal_det, show tallInt.det = 2 by decide]
  norm_num

theorem tall_metric : (toReal tallInt)ᵀ * toReal tallInt = metric 1 1 4 0 0 0 := by
  ext i j
  fin_cases i <;> fin_cases j <;> simp [metric, toReal, tallInt, mul_apply, Fin.sum_univ_three]
  norm_num

theorem tallTyped_typed : TypedCell cmpRounded tallTyped (toReal tallInt) ⟨1 / 8192⟩ 11 10000 0 1 2 2 (1 / 5) 1 1 1 4 0 0 0 where
  close := by
    constructor
    · intro i j
      fin_cases i <;> fin_cases j <;> simp [tallTyped, RMat.toMatrix, toReal, tallInt]
    · intro i j
      fin_cases i <;> fin_cases j <;> simp [toReal, tallInt]
  tol := by
    rw [tall_det]
    constructor <;> norm_num [sumErr, dotErr, cellErr, prodErr, detErr, tripleErr, opErr]
    · exact ⟨12 / 10, by norm_num, by norm_num, by norm_num⟩
    · exact ⟨13 / 10, by norm_num, by norm_num, by norm_num⟩
  metric := tall_metric
  niggli := by constructor <;> norm_num [TypeI, TypeII]
  cls := ⟨by decide, by norm_num [NiggliClass, TypeII], by
    norm_num [classTable, NiggliClass, TypeI, TypeII, List.takeWhile]⟩
  short := le_rfl
  long := by norm_num
  gap := by constructor <;> norm_num [Gap, abs_of_pos, abs_of_neg]
  volume := by rw [tall_det]; norm_num
  range := by norm_num
  eps_ge := by norm_num
  eps_le := by norm_num
  six := by decide
  crit := by simp [criticalTol]
  nonzero := by decide +kernel
  equal_ok := cmpRounded_ok

theorem cofInverse_tall : InverseStored cofInverse tallFound where
  basis := by
    intro O O' hO hO' i j
    have key : ∀ i j : Fin 3, |roundNearest (cof (fun i j => (O'.toMatrix i j).q) i j / det3 fun i j =>
        (O'.toMatrix i j).q) - cof O.toMatrix i j / det3 O.toMatrix| ≤ 1 / 10 ^ 12 := by
      cases hO
      cases hO'
      decide +kernel
    rw [← realMat_inv (by rw [← rdet_eq]; exact fBasis_det hO)]
    have := (Rat.cast_le (K := ℝ)).2 (key i j)
    rw [← inv_cof] at this
    push_cast at this
    exact this
  reduced := by
    intro O O' hO hO' i j
    have key : ∀ i j : Fin 3, |roundNearest (cof (fun i j => ((matmulI O' tallFound.Co).toMatrix i j).q) i j / det3 fun i j =>
        ((matmulI O' tallFound.Co).toMatrix i j).q) - cof (matmulI O tallFound.Co).toMatrix i j /
          det3 (matmulI O tallFound.Co).toMatrix| ≤ 1 / 10 ^ 12 := by
      cases hO
      cases hO'
      decide +kernel
    have hd : (matmulI O tallFound.Co).toMatrix.det ≠ 0 := by
      rw [← rdet_eq]
      cases hO
      decide +kernel
    rw [← realMat_castMat, ← realMat_mul, ← matmulI_exact, ← realMat_inv hd]
    have := (Rat.cast_le (K := ℝ)).2 (key i j)
    rw [← inv_cof] at this
    push_cast at this
    exact this
  factor := by
    intro i j
    have key : ∀ i j : Fin 3, (cofInverse (intMat tallFound.Cu.toMat) i j).q = (if i = j then 1 else 0) := by
      decide +kernel
    rw [key, show tallFound.Cu.toMat = 1 by decide, toReal_one, inv_one, Matrix.one_apply]
    split_ifs <;> norm_num

theorem tall_inv : ((toReal tallInt)ᵀ)⁻¹ = !![1, 0, 0; 0, 1, 0; 0, 0, 1 / 2] := by
  apply inv_eq_right_inv
  ext i j
  fin_cases i <;> fin_cases j <;> simp [toReal, tallInt, mul_apply, Fin.sum_univ_three]

/-- The smallest distance of a symmetric grid with `n` points is the root of an integer, divided by `2 n`, and at most 1/2. -/
theorem tall_length {K : Matrix (Fin 3) (Fin 3) ℝ} {n : ℤ} {l : ℝ} (hn : 1 ≤ n) (h : SymmetricGrid (toReal tallInt) K n)
    (hl : SmallestDistance K l) : 0 < l ∧ l ≤ 1 / 2 ∧ ∃ m : ℤ, 1 ≤ m ∧ l ^ 2 = m / (2 * n) ^ 2 := by
  have hU : (toReal tallInt).det ≠ 0 := by rw [tall_det]; norm_num
  have hKd := symmetricGrid_det_ne hU hn h
  obtain ⟨N, h1, h2⟩ := h.reciprocal
  have hNd : N.det ≠ 0 := by
    intro h0
    rw [h0] at h2
    simp at h2
    omega
  have hn0 : (0 : ℝ) < n := by exact_mod_cast (by omega : 0 < n)
  obtain ⟨⟨v, hv, hvl⟩, hmin⟩ := hl
  have hpos : 0 < l := by
    rw [← hvl]
    refine Real.sqrt_pos.2 (lt_of_le_of_ne (Finset.sum_nonneg fun i _ => sq_nonneg _) fun h0 => ?_)
    have hz : K *ᵥ (fun j => (v j : ℝ)) = 0 := by
      funext i
      have := (Finset.sum_eq_zero_iff_of_nonneg (fun i _ => sq_nonneg _)).1 h0.symm i (Finset.mem_univ i)
      exact pow_eq_zero_iff (two_ne_zero) |>.1 this
    have := Matrix.eq_zero_of_mulVec_eq_zero hKd hz
    exact hv (funext fun j => by simpa using congrFun this j)
  refine ⟨hpos, ?_, ?_⟩
  · have hw : N *ᵥ (Pi.single 2 1 : Fin 3 → ℤ) ≠ 0 := by
      intro h0
      have := Matrix.eq_zero_of_mulVec_eq_zero hNd h0
      have := congrFun this 2
      simp at this
    refine (hmin _ hw).trans (le_of_eq ?_)
    have e : (K *ᵥ fun j => ((N *ᵥ (Pi.single 2 1 : Fin 3 → ℤ)) j : ℝ)) =
        !![1, 0, 0; 0, 1, 0; 0, 0, 1 / 2] *ᵥ (Pi.single 2 1 : Fin 3 → ℝ) := by
      rw [← tall_inv, h1, ← mulVec_mulVec]
      congr 1
      funext j
      simp [toReal]
    unfold gridLength
    rw [e]
    simp [Fin.sum_univ_three]
  · have hNr : toReal N * toReal N.adjugate = (N.det : ℝ) • 1 := by
      rw [← toReal_mul, mul_adjugate]
      ext i j
      simp only [toReal, Matrix.map_apply, Matrix.smul_apply, smul_eq_mul, Matrix.one_apply]
      split_ifs <;> simp
    have e1 : (N.det : ℝ) • K = !![1, 0, 0; 0, 1, 0; 0, 0, 1 / 2] * toReal N.adjugate := by
      rw [← tall_inv, h1, Matrix.mul_assoc, hNr, Matrix.mul_smul, Matrix.mul_one]
    set z : Fin 3 → ℤ := N.adjugate *ᵥ v with hz
    have e2 : (N.det : ℝ) • (K *ᵥ fun j => (v j : ℝ)) = !![1, 0, 0; 0, 1, 0; 0, 0, 1 / 2] *ᵥ fun j => (z j : ℝ) := by
      rw [← smul_mulVec, e1, ← mulVec_mulVec]
      congr 1
      funext j
      simp [hz, mulVec, dotProduct, toReal]
    have e3 : (N.det : ℝ) ^ 2 = (n : ℝ) ^ 2 := by
      rw [← h2]
      push_cast
      rw [sq_abs]
    have c0 := congrFun e2 0
    have c1 := congrFun e2 1
    have c2 := congrFun e2 2
    simp [mulVec, dotProduct, Fin.sum_univ_three] at c0 c1 c2
    have hsq : l ^ 2 = ∑ i, (K *ᵥ fun j => (v j : ℝ)) i ^ 2 := by
      rw [← hvl]
      exact Real.sq_sqrt (Finset.sum_nonneg fun i _ => sq_nonneg _)
    have key : l ^ 2 * (2 * n) ^ 2 = ((4 * z 0 ^ 2 + 4 * z 1 ^ 2 + z 2 ^ 2 : ℤ) : ℝ) := by
      rw [hsq, Fin.sum_univ_three]
      simp only [mulVec, dotProduct, Fin.sum_univ_three]
      rw [mul_pow, ← e3]
      simp only [Int.cast_add, Int.cast_mul, Int.cast_pow, Int.cast_ofNat]
      rw [← c0, ← c1, show (z 2 : ℝ) = 2 * (2⁻¹ * z 2) by ring, ← c2]
      ring
    refine ⟨4 * z 0 ^ 2 + 4 * z 1 ^ 2 + z 2 ^ 2, ?_, ?_⟩
    · have : (0 : ℝ) < ((4 * z 0 ^ 2 + 4 * z 1 ^ 2 + z 2 ^ 2 : ℤ) : ℝ) := by
        rw [← key]
        positivity
      have := Int.cast_pos.1 this
      omega
    · rw [← key]
      field_simp

theorem tall_apart {φ : ℝ} (h1 : 1 ≤ φ) (h2 : φ ≤ 1 + 1 / 10 ^ 9) {n : ℤ} (hn : 1 ≤ n) (hn' : n ≤ 25) :
    GridsApart (toReal tallInt) n (1 / 50) φ (1 + 1 / 1250) (1 / 10 ^ 5) (1 / 10 ^ 5) := by
  have hn0 : (0 : ℝ) < n := by exact_mod_cast (by omega : 0 < n)
  have hn1 : (n : ℝ) ≤ 25 := by exact_mod_cast hn'
  have hsq : (2 * (n : ℝ)) ^ 2 ≤ 2500 := by nlinarith
  have hφ : 1 - 1 / 10 ^ 9 ≤ 1 / φ := by
    rw [le_div_iff₀ (by linarith)]
    nlinarith
  have hφ' : 1 / φ ≤ 1 := by
    rw [div_le_one (by linarith)]
    exact h1
  have low : ∀ K l, SymmetricGrid (toReal tallInt) K n → SmallestDistance K l → 1 / 50 ≤ l ∧ l ≤ 1 / 2 := by
    intro K l hK hl
    obtain ⟨a, b, m, c, d⟩ := tall_length hn hK hl
    refine ⟨?_, b⟩
    have hm : (1 : ℝ) ≤ m := by exact_mod_cast c
    have : (1 / 50 : ℝ) ^ 2 ≤ l ^ 2 := by
      rw [d, le_div_iff₀ (by positivity)]
      nlinarith
    exact le_of_sq_le_sq this a.le
  have div (l : ℝ) : l / φ = l * (1 / φ) := by ring
  refine ⟨fun K l hK hl => (low K l hK hl).1, fun K l hK hl => ?_, fun K l hK hl => ?_, fun K l K' l' hK hK' hl hl' hlt => ?_⟩
  · obtain ⟨a, b⟩ := low K l hK hl
    nlinarith
  · obtain ⟨a, b⟩ := low K l hK hl
    rw [div]
    nlinarith
  · obtain ⟨a, b⟩ := low K l hK hl
    obtain ⟨a', b'⟩ := low K' l' hK' hl'
    obtain ⟨-, -, m, -, d⟩ := tall_length hn hK hl
    obtain ⟨-, -, m', -, d'⟩ := tall_length hn hK' hl'
    have hlt2 : l' ^ 2 < l ^ 2 := by nlinarith
    have hm : m' + 1 ≤ m := by
      rw [d, d', div_lt_div_iff_of_pos_right (by positivity)] at hlt2
      exact_mod_cast hlt2
    have hm' : (m' : ℝ) + 1 ≤ m := by exact_mod_cast hm
    have hg : 1 / 2500 ≤ l ^ 2 - l' ^ 2 := by
      rw [d, d', ← sub_div, le_div_iff₀ (by positivity)]
      nlinarith
    have hg2 : 1 / 2500 ≤ l - l' := by nlinarith
    refine ⟨by nlinarith, ?_⟩
    rw [div]
    nlinarith

/-- The grid of a supercell has a right-handed basis of rational numbers, with a shortest vector in it and with small entries. -/
theorem tall_reduced {T : IntMat} (h1 : 1 ≤ T.det) (h2 : T.det ≤ 26) (hk : ∀ X ∈ PointSym (toReal tallInt), Keeps X T) :
    ∃ (W : IntMat) (Q : Matrix (Fin 3) (Fin 3) ℚ), IsUnit W.det ∧
      realMat Q = ((toReal tallInt * toReal T)ᵀ)⁻¹ * toReal W ∧ 0 < (realMat Q).det ∧ HasShortest (realMat Q) ∧
      ∀ i j, |realMat Q i j| ≤ 100 := by
  have hTd : (castMat (tallInt * T) : Matrix (Fin 3) (Fin 3) ℚ)ᵀ.det = 2 * T.det := by
    have e : (castMat (tallInt * T) : Matrix (Fin 3) (Fin 3) ℚ).det = ((tallInt * T).det : ℚ) := by
      have := RingHom.map_det (Int.castRingHom ℚ) (tallInt * T)
      simpa [castMat, RingHom.mapMatrix_apply] using this.symm
    rw [det_transpose, e, det_mul, show tallInt.det = 2 by decide]
    push_cast
    ring
  have hT1 : (1 : ℚ) ≤ T.det := by exact_mod_cast h1
  set Y : Matrix (Fin 3) (Fin 3) ℚ := ((castMat (tallInt * T) : Matrix (Fin 3) (Fin 3) ℚ)ᵀ)⁻¹ with hY
  have hYd : Y.det = 1 / (2 * T.det) := by
    rw [hY, det_nonsing_inv, hTd, Ring.inverse_eq_inv', one_div]
  have hYp : 0 < Y.det := by
    rw [hYd]
    positivity
  have hYr : realMat Y = ((toReal tallInt * toReal T)ᵀ)⁻¹ := by
    rw [hY, realMat_inv (by rw [hTd]; positivity), realMat_transpose, realMat_castMat, toReal_mul]
  obtain ⟨Co, A, B, C, D, E, F, -, hc, -⟩ := niggli_realMat hYp.ne'
  obtain ⟨W, w1, w2⟩ : ∃ W : IntMat, W.det = 1 ∧
      (realMat Y * toReal W)ᵀ * (realMat Y * toReal W) = metric A B C D E F := by
    rcases Int.isUnit_iff.1 hc.unit with h | h
    · exact ⟨Co, h, hc.cell⟩
    · refine ⟨-Co, by rw [det_neg, Fintype.card_fin, h]; norm_num, ?_⟩
      have e : toReal (-Co) = -toReal Co := by
        ext i j
        simp [toReal]
      rw [e, Matrix.mul_neg, transpose_neg, Matrix.neg_mul, Matrix.mul_neg, neg_neg]
      exact hc.cell
  have hred := hc.red
  have hwu : IsUnit W.det := by rw [w1]; exact isUnit_one
  have hsh := hasShortest_of_reduced w2 hred
  have hR : realMat (Y * castMat W) = realMat Y * toReal W := by rw [realMat_mul, realMat_castMat]
  have hdet : (realMat Y).det = 1 / (2 * T.det) := by
    have := RingHom.map_det (Rat.castHom ℝ) Y
    have e : (realMat Y).det = ((Y.det : ℚ) : ℝ) := by
      simpa [realMat, RingHom.mapMatrix_apply] using this.symm
    rw [e, hYd]
    push_cast
    rfl
  have hT1' : (1 : ℝ) ≤ T.det := by exact_mod_cast h1
  have hT2' : (T.det : ℝ) ≤ 26 := by exact_mod_cast h2
  have hU : (toReal tallInt).det ≠ 0 := by rw [tall_det]; norm_num
  have hsym := symmetricGrid hU (M := T) (W := W) (by omega) hwu hk
  rw [abs_of_pos (by omega), ← hYr] at hsym
  obtain ⟨l, hl⟩ := HasShortest.distance hsh
  obtain ⟨l0, -, m, m1, hlm⟩ := tall_length h1 hsym hl
  have hAl : l ^ 2 ≤ A := by
    have := hl.2 (Pi.single 0 1) (by simp)
    rw [gridLength_metric w2] at this
    have e : sqLen A B C D E F ((Pi.single 0 1 : Fin 3 → ℤ) 0) ((Pi.single 0 1 : Fin 3 → ℤ) 1)
        ((Pi.single 0 1 : Fin 3 → ℤ) 2) = A := by simp [sqLen]
    rw [e] at this
    have hA := hred.pos
    calc l ^ 2 ≤ √A ^ 2 := pow_le_pow_left₀ l0.le this 2
      _ = A := Real.sq_sqrt hA.le
  have hl2 : 1 / (2 * T.det : ℝ) ^ 2 ≤ A := by
    refine le_trans ?_ hAl
    rw [hlm]
    have : (1 : ℝ) ≤ m := by exact_mod_cast m1
    gcongr
  have hprod := hc.product
  rw [hdet] at hprod
  have hab := hred.ab
  have hbc := hred.bc
  set t : ℝ := 1 / (2 * T.det : ℝ) ^ 2 with ht
  have ht0 : 1 / 2704 ≤ t := by
    rw [ht]
    exact one_div_le_one_div_of_le (by positivity) (by nlinarith)
  have e : (1 / (2 * T.det : ℝ)) ^ 2 = t := by rw [ht, div_pow, one_pow]
  rw [e] at hprod
  have hC : C ≤ 10 ^ 4 := by
    have h3 : t * t ≤ A * B := mul_le_mul hl2 (hl2.trans hab) (by linarith) (by linarith)
    have h4 : t * t * C ≤ 2 * t := le_trans (mul_le_mul_of_nonneg_right h3 (by linarith)) hprod
    have h5 : t * C ≤ 2 := by nlinarith
    nlinarith
  refine ⟨W, Y * castMat W, hwu, by rw [hR, hYr], ?_, by rw [hR]; exact hsh, fun i j => ?_⟩
  · rw [hR, det_mul, toReal_det, w1, hdet]
    positivity
  · rw [hR]
    exact entry_le w2 (by norm_num) (by nlinarith) (by nlinarith) (by nlinarith) i j

/-- `Q` is a reduced basis of the grid of the supercell that is meant by `S H`. -/
def TallBasis (S : IntMat → Matrix (Fin 3) (Fin 3) (Rounded roundNearest)) (H T W : IntMat) (Q : Matrix (Fin 3) (Fin 3) ℚ) : Prop :=
  (∀ i j, |((S H i j).q : ℝ) - (toReal tallInt * toReal T) i j| ≤ supercellErr 10000 0 1 2 1 H.det) ∧ IsUnit W.det ∧
    realMat Q = ((toReal tallInt * toReal T)ᵀ)⁻¹ * toReal W ∧ 0 < (realMat Q).det ∧ HasShortest (realMat Q) ∧
    ∀ i j, |realMat Q i j| ≤ 100

open Classical in
noncomputable def tallGrid (S : IntMat → Matrix (Fin 3) (Fin 3) (Rounded roundNearest)) (H : IntMat) :
    Matrix (Fin 3) (Fin 3) (Rounded roundNearest) :=
  if h : ∃ Q, ∃ T W, TallBasis S H T W Q then fun i j => ⟨h.choose i j⟩ else fun _ _ => ⟨0⟩

noncomputable def tallEnv (sqrt : Rounded roundNearest → Rounded roundNearest) :
    EnvR (Rounded roundNearest) (Matrix (Fin 3) (Fin 3) (Rounded roundNearest)) where
  toEnvK := cofEnv (toReal tallInt)
  libR := fun U _ _ _ _ r =>
    { equal := fun a b => decide (|a.q - b.q| ≤ 1 / 10 ^ 5)
      geom := fun H => compareGeomK sqrt (tallGrid (supercellK cofInverse (fun x => nint x.q) U r) H)
      gridOf := fun H => tallGrid (supercellK cofInverse (fun x => nint x.q) U r) H
      irr := fun _ _ => some 1
      irrDefault := fun _ _ => some 1 }

/-- The supercell that is meant is determined. -/
theorem tall_unique {S : IntMat → Matrix (Fin 3) (Fin 3) (Rounded roundNearest)} {H T T' : IntMat} (h0 : 1 ≤ H.det)
    (h26 : H.det ≤ 26)
    (h : ∀ i j, |((S H i j).q : ℝ) - (toReal tallInt * toReal T) i j| ≤ supercellErr 10000 0 1 2 1 H.det)
    (h' : ∀ i j, |((S H i j).q : ℝ) - (toReal tallInt * toReal T') i j| ≤ supercellErr 10000 0 1 2 1 H.det) : T = T' := by
  have hσ : supercellErr 10000 0 1 2 1 H.det < 1 / 2 := by
    generalize H.det = d at h0 h26
    interval_cases d <;> norm_num [supercellErr, backErr, cellErr, opErr]
  have hU : tallInt * T = tallInt * T' := by
    ext i j
    have a := abs_le.1 (h i j)
    have b := abs_le.1 (h' i j)
    rw [← toReal_mul] at a b
    simp only [toReal, Matrix.map_apply] at a b
    have c1 : (((tallInt * T) i j : ℤ) : ℝ) < (((tallInt * T') i j + 1 : ℤ) : ℝ) := by
      push_cast
      linarith [a.1, b.2]
    have c2 : (((tallInt * T') i j : ℤ) : ℝ) < (((tallInt * T) i j + 1 : ℤ) : ℝ) := by
      push_cast
      linarith [a.2, b.1]
    have := Int.cast_lt.1 c1
    have := Int.cast_lt.1 c2
    omega
  have hd : tallInt.det ≠ 0 := by decide
  have e := congrArg (tallInt.adjugate * ·) hU
  simp only [← Matrix.mul_assoc, adjugate_mul, Matrix.smul_mul, Matrix.one_mul] at e
  exact smul_right_injective _ hd e

theorem tallEnv_reduces {sqrt : Rounded roundNearest → Rounded roundNearest}
    (hr : RootRight (fun x : Rounded roundNearest => (x.q : ℝ)) (1 / 2 ^ 53) sqrt) :
    EnvReduces cofInverse (tallEnv sqrt) tallTyped (toReal tallInt) ⟨1 / 8192⟩ [] [] 0 sqrt (fun _ _ => some 1)
      (fun _ _ => some 1) (1 + (25 : ℕ)) 10000 0 1 2 0 100 (1 / 10 ^ 5) (1 / 10 ^ 5) where
  pgSize := rfl
  inv := fun r h => by
    rw [← Except.ok.inj (tall_found.symm.trans h)]
    exact cofInverse_tall
  reduces := fun r _ => by
    refine ⟨fun H => rfl, fun H T hH h26 hT hk hc => ?_⟩
    have hH1 : 1 ≤ H.det := by
      rw [det_fin_three, hH.upper01, hH.upper02, hH.upper12]
      have := mul_pos (mul_pos hH.pos0 hH.pos1) hH.pos2
      linarith
    have h26' : H.det ≤ 26 := by
      push_cast at h26
      omega
    obtain ⟨W, Q, q⟩ := tall_reduced (T := T) (by omega) (by omega) hk
    have hex : ∃ Q, ∃ T W, TallBasis (supercellK cofInverse (fun x => nint x.q) tallTyped r) H T W Q := ⟨Q, T, W, hc, q⟩
    obtain ⟨T', W', t1, t2, t3, t4, t5, t6⟩ := hex.choose_spec
    have e := tall_unique hH1 h26' hc t1
    subst e
    have hg : tallGrid (supercellK cofInverse (fun x => nint x.q) tallTyped r) H = fun i j => ⟨hex.choose i j⟩ := by
      unfold tallGrid
      exact dif_pos hex
    refine ⟨W', t2, by rw [← t3]; exact t4, ?_, by rw [← t3]; exact t5, fun o => ⟨rfl, rfl⟩⟩
    rw [← t3]
    refine ⟨fun i j => ?_, t6⟩
    show |((tallGrid (supercellK cofInverse (fun x => nint x.q) tallTyped r) H i j).q : ℝ) - _| ≤ 0
    rw [hg]
    simp [realMat]
  irr := fun r _ g o m h => by
    cases h
    exact le_rfl
  equal := fun r _ => by
    refine ⟨fun a b h => ?_, fun a b h => ?_⟩
    · have := (Rat.cast_le (K := ℝ) (p := |a.q - b.q|) (q := 1 / 10 ^ 5)).1 (by push_cast; exact h)
      exact decide_eq_true this
    · have := (Rat.cast_le (K := ℝ)).2 (of_decide_eq_true h)
      push_cast at this
      exact this
  root := hr

/-- The hypotheses of `find_grid_widest_float` are met: a tetragonal crystal, at least one point, 32-bit integers. -/
example : ∃ sqrt : Rounded roundNearest → Rounded roundNearest,
    find_gridR (tallEnv sqrt) 25 tallTyped 1 [] [] none true 0 false ⟨1 / 8192⟩ = .error (.grid .running) ∨
    ∃ e K, find_gridR (tallEnv sqrt) 25 tallTyped 1 [] [] none true 0 false ⟨1 / 8192⟩ = .ok e ∧ 1 ≤ e.nt_kpts ∧
      NearlyWidest (toReal tallInt) e.nt_kpts (29 / 100) (31 / 100) K ∧ ∀ i j, ((e.sel.grid i j).q : ℝ) = K i j := by
  obtain ⟨sqrt, hr⟩ := root_exists roundNearest
  refine ⟨sqrt, ?_⟩
  have hf : packFactor (1 / 2 ^ 53) (1 + 1 / 10 ^ 6) 1 ≤ 1 + 1 / 10 ^ 5 := by norm_num [packFactor]
  have hf1 : 1 ≤ packFactor (1 / 2 ^ 53) (1 + 1 / 10 ^ 6) 1 := by norm_num [packFactor]
  rcases find_grid_widest_float (env := tallEnv sqrt) (inverse := cofInverse) (base := []) (types := []) (flag := 0)
      (sqrt := sqrt) (count := fun _ _ => some 1) (countDefault := fun _ _ => some 1) (γ := 0) (s := 100) (t₁ := 1 / 10 ^ 5)
      (t₂ := 1 / 10 ^ 5) (least := 1 / 50) (ρ := 1 + 1 / 10 ^ 6) (σ := 1) (φ := (1 / (1 - 1 / 2 ^ 53)) ^ 3 * 1)
      (ψ := 1 + 1 / 1250) roundNearest_binary64 tallTyped_typed (by decide) 25 1 le_rfl (by norm_num)
      (.inr ⟨wrap32_int32, by norm_num⟩) (tallEnv_reduces hr)
      (fun n K hn _ _ o m hm => by
        simp only [Option.some.injEq, or_self] at hm
        omega)
      (by norm_num) le_rfl (by norm_num [LengthRight]) (by norm_num) (by rw [tall_det]; norm_num [CellRight]) rfl
      ⟨by norm_num, by norm_num, by norm_num, by norm_num⟩
      (fun n hn hn' => tall_apart (by norm_num) (by norm_num) hn (by push_cast at hn'; omega)) 25 rfl le_rfl none true
      (by decide) false with h | ⟨e, offsets, K, h1, -, -, h4, h5, h6, -⟩
  · exact .inl h
  · refine .inr ⟨e, K, h1, h4, ⟨h5.grid, fun v hv => le_trans ?_ (h5.packed v hv), ?_⟩, fun i j => ?_⟩
    · refine mul_le_mul_of_nonneg_right ?_ (abs_nonneg _)
      rw [le_div_iff₀ (by linarith)]
      linarith
    · obtain ⟨l, l1, l2⟩ := h5.second
      refine ⟨l, l1, fun K₁ l₁ K₂ l₂ a b p₁ p₂ => l2 K₁ l₁ K₂ l₂ a b (fun v hv => le_trans ?_ (p₁ v hv)) fun v hv =>
        le_trans ?_ (p₂ v hv)⟩
      · exact mul_le_mul_of_nonneg_right (by linarith) (abs_nonneg _)
      · exact mul_le_mul_of_nonneg_right (by linarith) (abs_nonneg _)
    · exact sub_eq_zero.1 (abs_nonpos_iff.1 (h6 i j))

end AutoGR.Fortran
