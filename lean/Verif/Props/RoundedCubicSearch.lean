import Verif.Props.RoundedSearch
import Verif.Props.BestGrid
import Verif.Lemmas.FortranSize

/-!
# C130 for the cubic crystals: which grid `find_grid` returns in floating point

No lengths are compared for these, so that nothing needs to be told apart: the grid is the best one by the rule of the program.
-/

namespace AutoGR.Fortran

open Spec Arith Matrix

variable {fl : ℚ → ℚ} {U : RMat (Rounded fl)}
  {U0 : Matrix (Fin 3) (Fin 3) ℝ} {eps : Rounded fl} {M δ c L ℓ g a : ℝ} {A B C D E F : ℝ} {k : ℕ} {r : IdCell}
  {inverse : Matrix (Fin 3) (Fin 3) (Rounded fl) → Matrix (Fin 3) (Fin 3) (Rounded fl)}

/-- What the libraries do for a cubic crystal.  `S H` is the supercell computed for `H`.  If it is, up to `σ H`, the symmetric
supercell `U0 T` of the crystal that is meant, then the grid of `U0 T` is found up to `ε H`, and its k-points are counted as those
of the grid that is meant.  There are no more irreducible k-points than points, and at least one. -/
structure LibCubic {Off : Type} (S : IntMat → Matrix (Fin 3) (Fin 3) (Rounded fl)) (U0 : Matrix (Fin 3) (Fin 3) ℝ)
    (lib : LibK (Rounded fl) (Matrix (Fin 3) (Fin 3) (Rounded fl)) Off) (count : Set (Fin 3 → ℝ) → Off → Option ℕ)
    (σ ε : IntMat → ℝ) : Prop where
  grid : ∀ H T : IntMat, IsHNF H → T.det = H.det → (∀ X ∈ PointSym U0, Keeps X T) →
    (∀ i j, |((S H i j).q : ℝ) - (U0 * toReal T) i j| ≤ σ H) →
    (∀ i j, |((lib.gridOf H i j).q : ℝ) - ((U0 * toReal T)ᵀ)⁻¹ i j| ≤ ε H) ∧
      ∀ o, lib.irr (lib.gridOf H) o = count (gridPoints ((U0 * toReal T)ᵀ)⁻¹) o
  irr : ∀ g o m, lib.irr g o = some m → 1 ≤ m
  points : ∀ H : IntMat, IsHNF H → ∀ o (m : ℕ),
    lib.irr (lib.gridOf H) o = some m ∨ lib.irrDefault (lib.gridOf H) o = some m → (m : ℤ) ≤ H.det

/-- Only the numbers up to `N` matter for the first numbers up to `N`. -/
theorem amongFirst_below {k : ℕ} {lo N : ℤ} {P Q : ℤ → Prop} (h : ∀ u, lo ≤ u → u ≤ N → (P u ↔ Q u)) {v : ℤ} (hv : v ≤ N) :
    AmongFirst k lo P v ↔ AmongFirst k lo Q v := by
  unfold AmongFirst
  have : {u | lo ≤ u ∧ u < v ∧ P u} = {u | lo ≤ u ∧ u < v ∧ Q u} := by
    ext u
    exact and_congr_right fun a => and_congr_right fun b => h u a (by omega)
  rw [this]
  exact and_congr_right fun a => and_congr_left fun _ => h v a hv

/-- The symmetric grids of a cubic crystal and the Hermite normal forms. -/
theorem grids_meant_cubic (hfl : Binary64 fl) {equal : Rounded fl → Rounded fl → Rounded fl → Bool} {w : ℝ}
    (h : RecognisedIn equal U U0 eps r M δ c L ℓ w) (hk : r.id ∈ [1, 3, 5])
    (hi : InverseStored inverse r) {Off : Type} {lib : LibK (Rounded fl) (Matrix (Fin 3) (Fin 3) (Rounded fl)) Off}
    {count : Set (Fin 3 → ℝ) → Off → Option ℕ} {ε : IntMat → ℝ}
    (hl : LibCubic (supercellK inverse (fun x => nint x.q) U r) U0 lib count (fun H => supercellErr M δ c ℓ w H.det) ε)
    (n : ℤ) (h1 : 1 ≤ n) (h2 : n ≤ 10 ^ 6) :
    (∀ H ∈ SymmetricHNFs (ClassSym r.id (canonC r.id).toMat) n, ∃ K, SymmetricGrid U0 K n ∧
      (∀ i j, |((lib.gridOf H i j).q : ℝ) - K i j| ≤ ε H) ∧ ∀ o, lib.irr (lib.gridOf H) o = count (gridPoints K) o) ∧
    ∀ K, SymmetricGrid U0 K n → ∃ H ∈ SymmetricHNFs (ClassSym r.id (canonC r.id).toMat) n,
      ∀ o, lib.irr (lib.gridOf H) o = count (gridPoints K) o := by
  obtain ⟨k1, k2⟩ := h.id_range
  have hk' : r.id ∉ [31, 44] := fun hm => by simp at hm hk; omega
  have hred := reduced_canonC r.id k1 k2 hk'
  have hlist : ∃ Hs : List IntMat, Hs.Nodup ∧ ∀ H : IntMat,
      H ∈ Hs ↔ H ∈ SymmetricHNFs (ClassSym r.id (canonC r.id).toMat) n := by
    simp only [List.mem_cons, List.not_mem_nil, or_false] at hk
    rcases hk with e | e | e <;> rw [e] at hred ⊢
    · exact ⟨_, fcc_1_correct n _ hred⟩
    · exact ⟨_, sc_3_correct n _ hred⟩
    · exact ⟨_, bcc_5_correct n (w := id) (.inl rfl) _ hred⟩
  obtain ⟨Hs, hHs⟩ := hlist
  obtain ⟨P, Q, hPQ⟩ := supercells_change hfl h hk' hi
  obtain ⟨q1, q2⟩ := hPQ n h1 h2 Hs hHs
  have key : ∀ H ∈ SymmetricHNFs (ClassSym r.id (canonC r.id).toMat) n,
      SymmetricGrid U0 ((U0 * toReal (P * H * Q))ᵀ)⁻¹ n ∧
      (∀ i j, |((lib.gridOf H i j).q : ℝ) - ((U0 * toReal (P * H * Q))ᵀ)⁻¹ i j| ≤ ε H) ∧
      ∀ o, lib.irr (lib.gridOf H) o = count (gridPoints ((U0 * toReal (P * H * Q))ᵀ)⁻¹) o := by
    intro H hH
    have hm := (hHs.2 H).2 hH
    obtain ⟨d1, d2⟩ := q1.sound _ (List.mem_map_of_mem hm)
    have hsym := symmetricGrid h.ideal_det (M := P * H * Q) (W := 1) (by omega) (by simp) d2
    rw [d1, abs_of_pos (by omega), toReal_one, Matrix.mul_one] at hsym
    obtain ⟨a1, a2⟩ := hl.grid H (P * H * Q) hH.1 (by rw [d1, hH.2.1]) d2 fun i j => by
      rw [hH.2.1]
      exact q2 H hm i j
    exact ⟨hsym, a1, a2⟩
  refine ⟨fun H hH => ⟨_, key H hH⟩, fun K hK => ?_⟩
  obtain ⟨i, hi, -⟩ := (listsGrids h.ideal_det h1 q1).complete K hK
  obtain ⟨M', hM', e⟩ := List.mem_map.1 (List.get_mem _ i)
  obtain ⟨H, hH, rfl⟩ := List.mem_map.1 hM'
  have hs := (hHs.2 H).1 hH
  refine ⟨H, hs, fun o => ?_⟩
  rw [(key H hs).2.2 o, ← hi, ← e]

variable {env : EnvR (Rounded fl) (Matrix (Fin 3) (Fin 3) (Rounded fl))} {base : List (Fin 3 → Rounded fl)}
  {types : List ℕ} {flag : ℕ} {count : Set (Fin 3 → ℝ) → Offset → Option ℕ} {ε : IntMat → ℝ}

/-- C130, for the cubic crystals.  `U` is the Niggli cell of the crystal `U0` as it was typed in (`TypedCell`), and everything is
computed in binary64.  If the k-points of every grid can be counted with one of the offsets, `find_grid` returns, up to the error
`ε` of the library, a symmetric grid of the crystal with one of the five smallest numbers of points, not below the requested one,
for which there are symmetric grids, and an offset that was tried, with the number of irreducible k-points.  By the rule of the
program it is at least as good as every symmetric grid with one of these numbers of points, with every offset. -/
theorem find_grid_best_float_cubic (hfl : Binary64 fl) (h : TypedCell env.equal U U0 eps k M δ c L ℓ g a A B C D E F)
    (hk : k ∈ [1, 3, 5]) (hpg : env.pgSize U eps = (PointSym U0).ncard) (hw : env.wrap = id ∨ Int32 env.wrap)
    (hinv : ∀ r, idCell env.equal U (some eps) = .ok r → InverseStored inverse r)
    (hl : ∀ r, idCell env.equal U (some eps) = .ok r →
      LibCubic (supercellK inverse (fun x => nint x.q) U r) U0 (env.libR U base types flag eps r) count
        (fun H => supercellErr M δ c ℓ 1 H.det) ε) (fuel : ℕ) (kpd : ℤ) (h1 : 1 ≤ kpd) (hkpd : kpd ≤ 96 ^ 3)
    (hroot : env.root kpd ^ 3 ≤ kpd ∧ kpd < (env.root kpd + 2) ^ 3) (hr : 0 ≤ env.root kpd) (offset : Option Offset)
    (find_offset : Bool) (ho : find_offset = false → offset ≠ none) (min_kpts : Bool)
    (htot : ∀ r offsets, idCell env.equal U (some eps) = .ok r →
      offsetsTriedK env.toEnvK U k eps offset find_offset = some offsets → ∀ H, IsHNF H →
      ∃ o ∈ offsets, (env.libR U base types flag eps r).irr ((env.libR U base types flag eps r).gridOf H) o ≠ none) :
    ∃ e offsets K, find_gridR env fuel U kpd base types offset find_offset flag min_kpts eps = .ok e ∧
      offsetsTriedK env.toEnvK U k eps offset find_offset = some offsets ∧ e.sel.offset ∈ offsets ∧
      Candidate U0 kpd K e.nt_kpts ∧ (∀ i j, |((e.sel.grid i j).q : ℝ) - K i j| ≤ ε e.sel.HNF) ∧
      count (gridPoints K) e.sel.offset = some e.sel.n_irr ∧
      ∀ n K', Candidate U0 kpd K' n → ∀ o ∈ offsets, ∀ m, count (gridPoints K') o = some m →
        Preferred min_kpts kpd e.sel.n_irr e.nt_kpts m n := by
  obtain ⟨Co, h2, h3⟩ := idCell_returns hfl h
  obtain ⟨k1, k2⟩ := h3.id_range
  have hk' : k ∉ [31, 44] := fun hm => by simp at hm hk; omega
  obtain ⟨offsets, s, s1, -, s3, s4⟩ := find_gridR_searches env h3 hpg kpd base types offset find_offset ho flag
    min_kpts
  dsimp only at s1 s3 s4
  have hC := hl _ h2
  have hm := grids_meant_cubic hfl h3 hk (hinv _ h2) hC
  dsimp only at hm
  generalize hlib : env.libR U base types flag eps ⟨IMat.one, Co, k, sRange k⟩ = lib at hC hm
  have hred := reduced_canonC k k1 k2 hk'
  have hr281 : env.root kpd ≤ 281 := by
    by_contra hcon
    have : (282 : ℤ) ^ 3 ≤ env.root kpd ^ 3 := pow_le_pow_left₀ (by norm_num) (by omega) 3
    omega
  let exact : Lib (Matrix (Fin 3) (Fin 3) (Rounded fl)) Offset :=
    ⟨fun _ _ => false, fun H => ⟨lib.gridOf H, 0, false⟩, lib.gridOf, lib.irr, lib.irrDefault⟩
  have hcub := findGridR_cubic hfl lib hC.irr env.wrap hw eps offsets min_kpts fuel k hk _ hred
    (fun n H hn hH o m hm => by
      have := hC.points H hH.1 o m hm
      rwa [hH.2.1] at this) s kpd (env.root kpd) h1 hr hr281 exact 0 rfl rfl rfl
  obtain ⟨e, e1, e2, e3, e4, e5, e6, e7⟩ := findGrid_cubic_counted_partial exact hC.irr env.wrap hw 0 offsets min_kpts fuel k hk _
    hred (fun v _ H hH => by
      have := htot _ offsets h2 s3 H hH.1
      rwa [hlib] at this) s kpd (env.root kpd) h1 (by split_ifs <;> omega) hroot hr
  have hle : ∀ v, AmongFirst 5 kpd (fun v => ∃ H, H ∈ SymmetricHNFs (ClassSym k (canonC k).toMat) v) v → v ≤ 10 ^ 6 := by
    intro v hv
    have := amongFirst_le (D := 1) (m := 96) le_rfl (by norm_num) hv (by rwa [one_mul]) fun j hj => ⟨j • 1, ?_⟩
    · norm_num at this ⊢
      exact this
    · refine symmetricHNFs_smul ⟨?_, Matrix.det_one, fun X _ => ⟨X, by rw [Matrix.mul_one, Matrix.one_mul]⟩⟩ hj
      constructor <;> simp
  have hiff : ∀ u, kpd ≤ u → u ≤ 10 ^ 6 → ((∃ H, H ∈ SymmetricHNFs (ClassSym k (canonC k).toMat) u) ↔
      ∃ K, SymmetricGrid U0 K u) := by
    intro u hu hu'
    obtain ⟨m1, m2⟩ := hm u (by omega) hu'
    constructor
    · rintro ⟨H, hH⟩
      obtain ⟨K, hK, -⟩ := m1 H hH
      exact ⟨K, hK⟩
    · rintro ⟨K, hK⟩
      obtain ⟨H, hH, -⟩ := m2 K hK
      exact ⟨H, hH⟩
  have hN := hle _ e2
  obtain ⟨K, a1, a2, a3⟩ := (hm e.nt_kpts (h1.trans e2.1) hN).1 _ e3
  refine ⟨e, offsets, K, ?_, s3, e5, ⟨a1, (amongFirst_below hiff hN).1 e2⟩, fun i j => ?_, ?_, ?_⟩
  · rw [s4 fuel, hlib, hcub, e1]
  · rw [e4]
    exact a2 i j
  · rw [← a3, ← e6, e4]
  · intro n K' hK' o hoo m hcount
    have hn : n ≤ 10 ^ 6 := by
      have := amongFirst_le (D := 1) (m := 96) le_rfl (by norm_num) hK'.first (by rwa [one_mul]) fun j hj => ?_
      · norm_num at this ⊢
        exact this
      · have hd : (j • (1 : IntMat)).det = j ^ 3 := by
          rw [det_smul, Matrix.det_one, Fintype.card_fin, mul_one]
        have hj3 : 0 < j ^ 3 := by positivity
        have := symmetricGrid h.volume (M := j • 1) (W := 1) (by omega) (by simp) fun X _ => ⟨X, by
          rw [Matrix.mul_smul, Matrix.smul_mul, Matrix.one_mul, Matrix.mul_one]⟩
        rw [hd, abs_of_pos hj3] at this
        rw [one_mul]
        exact ⟨_, this⟩
    obtain ⟨H, hH, hcnt⟩ := (hm n (h1.trans hK'.first.1) hn).2 K' hK'.grid
    exact e7 n ((amongFirst_below hiff hn).2 hK'.first) H hH o hoo m (by rw [← hcount]; exact hcnt o)

/-- The environment of `cofEnv`, with the lengths in binary64. -/
noncomputable def cofEnvR (U0 : Matrix (Fin 3) (Fin 3) ℝ) :
    EnvR (Rounded roundNearest) (Matrix (Fin 3) (Fin 3) (Rounded roundNearest)) where
  toEnvK := cofEnv U0
  libR := fun U _ _ _ _ r =>
    { equal := fun a b => decide (a.q = b.q)
      geom := fun H => ⟨cofInverse (supercellK cofInverse (fun x => nint x.q) U r H)ᵀ, ⟨1⟩, true⟩
      gridOf := fun H => cofInverse (supercellK cofInverse (fun x => nint x.q) U r H)ᵀ
      irr := fun _ _ => some 1
      irrDefault := fun _ _ => some 1 }

/-- The hypotheses of `find_grid_best_float_cubic` are met: a simple cubic crystal, 100 points, and the program finds the
offset. -/
example : ∃ ε e K, find_gridR (cofEnvR 1) 60 cubicTyped 100 [] [] none true 0 false ⟨1 / 1024⟩ = .ok e ∧
    Candidate 1 100 K e.nt_kpts ∧ ∀ i j, |((e.sel.grid i j).q : ℝ) - K i j| ≤ ε := by
  have hf : idCell cmpRounded cubicTyped (some ⟨1 / 1024⟩) = .ok cubicFound := by decide +kernel
  have found {r} (h : idCell (cofEnvR 1).equal cubicTyped (some ⟨1 / 1024⟩) = .ok r) : r = cubicFound :=
    (Except.ok.inj (hf.symm.trans h)).symm
  obtain ⟨ε, hε⟩ := libClose_exists (supercellK cofInverse (fun x => nint x.q) cubicTyped cubicFound)
    cubicTyped_typed.volume ((cofEnv 1).lib cubicTyped [] [] 0 ⟨1 / 1024⟩ cubicFound)
    (fun H => supercellErr 10000 0 1 1 1 H.det)
  have pos {H : IntMat} (hH : IsHNF H) : 1 ≤ H.det := by
    rw [det_fin_three, hH.upper01, hH.upper02, hH.upper12]
    have := mul_pos (mul_pos hH.pos0 hH.pos1) hH.pos2
    linarith
  obtain ⟨e, offsets, K, e1, -, -, e4, e5, -⟩ := find_grid_best_float_cubic (env := cofEnvR 1) (inverse := cofInverse) (ε := ε)
    (base := []) (types := []) (flag := 0) (count := fun _ _ => some 1) roundNearest_binary64 cubicTyped_typed (by decide) rfl
    (.inr wrap32_int32) (fun r h => by rw [found h]; exact cofInverse_cubic)
    (fun r h => by
      rw [found h]
      refine ⟨fun H T hH hT _ hc => ⟨hε.grid H T (by have := pos hH; omega) hc, fun o => rfl⟩, fun g o m hm => ?_, fun H hH o m hm => ?_⟩
      · cases hm
        exact le_rfl
      · have := pos hH
        rcases hm with hm | hm <;> cases hm <;> exact this)
    60 100 (by norm_num) (by norm_num) (by norm_num [cofEnvR, cofEnv]) (by norm_num [cofEnvR, cofEnv])
    none true (by decide) false (fun r offsets _ ho H _ => by
      have h0 := offsets_zero_first 3 (cmpRounded ⟨1⟩ ⟨1⟩ ⟨1 / 1024⟩) (cmpRounded ⟨1⟩ ⟨1⟩ ⟨1 / 1024⟩)
        (cmpRounded ⟨1⟩ ⟨1⟩ ⟨1 / 1024⟩) 1 1 1
      cases ho
      exact ⟨(0, 0, 0), List.mem_of_mem_head? h0, by simp [cofEnvR]⟩)
  exact ⟨_, e, K, e1, e4, e5⟩

end AutoGR.Fortran
