import Verif.Props.RoundedSearch
import Verif.Props.TriclinicGrid

/-!
# C130 for the triclinic crystals: which grid `find_grid` returns in floating point

The program lists the supercells with `n` points and multiplies them by `m`.  Their grids are the symmetric grids with `n` points
of the crystal `m • U0`, the crystal that is meant with all lengths multiplied by `m`.
-/

namespace AutoGR.Fortran

open Spec Arith Matrix

variable {fl : ℚ → ℚ} {U : RMat (Rounded fl)}
  {U0 : Matrix (Fin 3) (Fin 3) ℝ} {eps : Rounded fl} {M δ c L ℓ g a : ℝ} {A B C D E F : ℝ} {k : ℕ} {r : IdCell}
  {inverse : Matrix (Fin 3) (Fin 3) (Rounded fl) → Matrix (Fin 3) (Fin 3) (Rounded fl)}

/-- What the libraries do for the supercells that are tried, as `LibReduces`. -/
structure LibReducesTric {Off : Type} (S : IntMat → Matrix (Fin 3) (Fin 3) (Rounded fl)) (U0 : Matrix (Fin 3) (Fin 3) ℝ)
    (lib : LibK (Rounded fl) (Matrix (Fin 3) (Fin 3) (Rounded fl)) Off) (sqrt : Rounded fl → Rounded fl)
    (count countDefault : Set (Fin 3 → ℝ) → Off → Option ℕ) (N : ℤ) (σ : IntMat → ℝ) (γ s : ℝ) : Prop where
  geom : ∀ X, lib.geom X = compareGeomK sqrt (lib.geom X).grid
  reduced : ∀ X : IntMat, 1 ≤ X.det → X.det ≤ N → (∀ i j, |((S X i j).q : ℝ) - (U0 * toReal X) i j| ≤ σ X) →
    ∃ W : IntMat, IsUnit W.det ∧ 0 < (((U0 * toReal X)ᵀ)⁻¹ * toReal W).det ∧
      CloseTo (fun x : Rounded fl => (x.q : ℝ)) (lib.geom X).grid (((U0 * toReal X)ᵀ)⁻¹ * toReal W) γ s ∧
      HasShortest (((U0 * toReal X)ᵀ)⁻¹ * toReal W) ∧
      ∀ o, lib.irr (lib.geom X).grid o = count (gridPoints ((U0 * toReal X)ᵀ)⁻¹) o ∧
        lib.irrDefault (lib.geom X).grid o = countDefault (gridPoints ((U0 * toReal X)ᵀ)⁻¹) o

/-- The machine and the libraries compute what they are documented to compute: the inverses that enter the change of basis have
errors `ι`, `κ` and `ω`. -/
structure EnvReducesTric (inverse : Matrix (Fin 3) (Fin 3) (Rounded fl) → Matrix (Fin 3) (Fin 3) (Rounded fl))
    (env : EnvR (Rounded fl) (Matrix (Fin 3) (Fin 3) (Rounded fl))) (U : RMat (Rounded fl))
    (U0 : Matrix (Fin 3) (Fin 3) ℝ) (eps : Rounded fl) (base : List (Fin 3 → Rounded fl)) (types : List ℕ) (flag : ℕ)
    (sqrt : Rounded fl → Rounded fl) (count countDefault : Set (Fin 3 → ℝ) → Offset → Option ℕ) (N : ℤ)
    (M δ c ℓ ι κ ω l m γ s t₁ t₂ : ℝ) : Prop where
  pgSize : env.pgSize U eps = (PointSym U0).ncard
  inv : CloseTo (fun x : Rounded fl => (x.q : ℝ)) (inverse U.toMatrix) U0⁻¹ ι l
  inv' : CloseTo (fun x : Rounded fl => (x.q : ℝ)) (inverse (matmulI U IMat.one).toMatrix) U0⁻¹ κ m
  one : ∀ i j, |((inverse (intMat 1) i j).q : ℝ) - (1 : Matrix (Fin 3) (Fin 3) ℝ) i j| ≤ ω
  reduces : ∀ r, idCell env.equal U (some eps) = .ok r →
    LibReducesTric (supercellK inverse (fun x => nint x.q) U r) U0 (env.libR U base types flag eps r) sqrt count countDefault N
      (fun X => backErr (1 / 2 ^ 53) (cellErr (opErr M) δ c) ω ℓ (9 * X.det : ℤ) 1) γ s
  irr : ∀ r, idCell env.equal U (some eps) = .ok r →
    ∀ g o m, (env.libR U base types flag eps r).irr g o = some m → 1 ≤ m
  equal : ∀ r, idCell env.equal U (some eps) = .ok r →
    EqualRight (fun x : Rounded fl => (x.q : ℝ)) (env.libR U base types flag eps r).equal t₁ t₂
  root : RootRight (fun x : Rounded fl => (x.q : ℝ)) (1 / 2 ^ 53) sqrt

/-- The supercell computed for `X` is `U0 X` up to rounding, for a triclinic lattice. -/
theorem supercell_tric (hfl : Binary64 fl) {equal : Rounded fl → Rounded fl → Rounded fl → Bool} {Co : IMat}
    (h : RecognisedIn equal U U0 eps ⟨IMat.one, Co, k, sRange k⟩ M δ c L ℓ 1) (hk : k ∈ [31, 44])
    {ι κ ω l m : ℝ} {N : ℤ} (hN : 9 * N ≤ 2 ^ 53) (hc : c ≤ 2 ^ 53)
    (hOi : CloseTo (fun x : Rounded fl => (x.q : ℝ)) (inverse U.toMatrix) U0⁻¹ ι l)
    (hNi : CloseTo (fun x : Rounded fl => (x.q : ℝ)) (inverse (matmulI U IMat.one).toMatrix) U0⁻¹ κ m)
    (hCi : ∀ i j, |((inverse (intMat 1) i j).q : ℝ) - (1 : Matrix (Fin 3) (Fin 3) ℝ) i j| ≤ ω)
    (herr : changeErr (1 / 2 ^ 53) δ ι κ L l m c N < 1 / 2) (H : IntMat) (hH : IsHNF H) (f : ℤ) (hf : 1 ≤ f)
    (hle : (f • H).det ≤ N) (i j : Fin 3) :
    |((supercellK inverse (fun x => nint x.q) U ⟨IMat.one, Co, k, sRange k⟩ (f • H) i j).q : ℝ) -
        (U0 * toReal (f • H)) i j| ≤
      backErr (1 / 2 ^ 53) (cellErr (opErr M) δ c) ω ℓ (9 * (f • H).det : ℤ) 1 := by
  have e1 : IMat.one.toMat = 1 := by decide
  have hb : (fBasis k : Option (RMat (Rounded fl))) = none := by
    simp only [List.mem_cons, List.not_mem_nil, or_false] at hk
    rcases hk with hk | hk <;> rw [hk] <;> rfl
  have hco : Co = IMat.one := by
    obtain ⟨a, b, -⟩ := h.parts
    dsimp only at a b
    rw [hb, Option.getD_none, a] at b
    exact (Except.ok.inj b).symm
  have hd0 : 1 ≤ H.det := by
    rw [det_fin_three, hH.upper01, hH.upper02, hH.upper12]
    have := mul_pos (mul_pos hH.pos0 hH.pos1) hH.pos2
    linarith
  have hfd : (f • H).det = f ^ 3 * H.det := by rw [det_smul, Fintype.card_fin]
  have ent (i j : Fin 3) : |(f • H) i j| ≤ (f • H).det := by
    have := hnf_entries hH i j
    rw [hfd, Matrix.smul_apply, smul_eq_mul, abs_mul, abs_of_pos (by omega)]
    have h3 : f ≤ f ^ 3 := le_self_pow₀ hf (by norm_num)
    exact mul_le_mul h3 this (abs_nonneg _) (by positivity)
  have hpos : 0 ≤ (f • H).det := by
    rw [hfd]
    positivity
  have hu : IMat.one.toMat * (1 : IntMat) = 1 := by rw [e1, Matrix.mul_one]
  have cI : CloseTo (fun x : Rounded fl => (x.q : ℝ)) (inverse (intMat IMat.one.toMat)) (toReal IMat.one.toMat)⁻¹
      ω 1 := by
    rw [e1, toReal_one, inv_one]
    refine ⟨hCi, fun i j => ?_⟩
    fin_cases i <;> fin_cases j <;> simp
  have hfac := h.factor
  have hcell := h.cell hfl
  dsimp only at hfac hcell
  obtain ⟨T, t1, -, t3⟩ := transform_close (relative_rounded hfl) (nint := fun x => nint x.q) (fun x => by
      have := (Rat.cast_le (K := ℝ)).2 (nint_spec x.q)
      push_cast at this
      exact this) hu hu h.ideal_det h.close hOi (by rw [e1, toReal_one, Matrix.mul_one]; exact hNi) (N := N)
      (by exact_mod_cast (by omega : N ≤ 2 ^ 53))
      (fun i j => by exact_mod_cast (ent i j).trans hle) hc hfac herr hcell cI
      (f := ((9 * (f • H).det : ℤ) : ℝ)) (by exact_mod_cast (by omega : 9 * (f • H).det ≤ 2 ^ 53))
      (fun i j => by
        rw [e1, Matrix.one_mul, Matrix.mul_one]
        have := (ent i j).trans (by omega : (f • H).det ≤ 9 * (f • H).det)
        exact_mod_cast this)
  have eT : T = f • H := by
    rw [t1, e1]
    simp only [Matrix.one_mul, Matrix.mul_one]
  have := t3 i j
  unfold supercellK
  dsimp only
  rw [hb, Option.getD_none, hco]
  rw [eT] at this
  exact this

/-- The grids that are meant by the multiples of the Hermite normal forms. -/
theorem grids_meant_tric (hfl : Binary64 fl) {equal : Rounded fl → Rounded fl → Rounded fl → Bool} {Co : IMat}
    (h : RecognisedIn equal U U0 eps ⟨IMat.one, Co, k, sRange k⟩ M δ c L ℓ 1) (hk : k ∈ [31, 44])
    {ι κ ω l m γ s : ℝ} {N : ℤ} (hN : 9 * N ≤ 2 ^ 53) (hc : c ≤ 2 ^ 53)
    (hOi : CloseTo (fun x : Rounded fl => (x.q : ℝ)) (inverse U.toMatrix) U0⁻¹ ι l)
    (hNi : CloseTo (fun x : Rounded fl => (x.q : ℝ)) (inverse (matmulI U IMat.one).toMatrix) U0⁻¹ κ m)
    (hCi : ∀ i j, |((inverse (intMat 1) i j).q : ℝ) - (1 : Matrix (Fin 3) (Fin 3) ℝ) i j| ≤ ω)
    (herr : changeErr (1 / 2 ^ 53) δ ι κ L l m c N < 1 / 2)
    {Off : Type} {lib : LibK (Rounded fl) (Matrix (Fin 3) (Fin 3) (Rounded fl)) Off}
    {sqrt : Rounded fl → Rounded fl} {count countDefault : Set (Fin 3 → ℝ) → Off → Option ℕ}
    (hl : LibReducesTric (supercellK inverse (fun x => nint x.q) U ⟨IMat.one, Co, k, sRange k⟩) U0 lib sqrt count countDefault N
      (fun X => backErr (1 / 2 ^ 53) (cellErr (opErr M) δ c) ω ℓ (9 * X.det : ℤ) 1) γ s) :
    ∃ (B0 : IntMat → Matrix (Fin 3) (Fin 3) ℝ) (len : IntMat → ℝ), ∀ n f : ℤ, 1 ≤ n → 1 ≤ f → n * f ^ 3 ≤ N →
      (∀ H : IntMat, IsHNF H → H.det = n → SymmetricGrid ((f : ℝ) • U0) (B0 (f • H)) n ∧ 0 < (B0 (f • H)).det ∧
        CloseTo (fun x : Rounded fl => (x.q : ℝ)) (lib.geom (f • H)).grid (B0 (f • H)) γ s ∧ HasShortest (B0 (f • H)) ∧
        SmallestDistance (B0 (f • H)) (len (f • H)) ∧
        ∀ o, lib.irr (lib.geom (f • H)).grid o = count (gridPoints (B0 (f • H))) o ∧
          lib.irrDefault (lib.geom (f • H)).grid o = countDefault (gridPoints (B0 (f • H))) o) ∧
      ∀ K, SymmetricGrid ((f : ℝ) • U0) K n → ∃ H : IntMat, IsHNF H ∧ H.det = n ∧ gridPoints (B0 (f • H)) = gridPoints K := by
  have e1 : IMat.one.toMat = 1 := by decide
  have lists : ∀ n : ℤ, 1 ≤ n → ListsSublattices (PointSym U0) n (tric_31_44 n) := by
    intro n hn
    obtain ⟨t1, -, t2⟩ := AutoGR.tric_31_44_correct k hk n IMat.one.toMat (.inl (by decide))
    have hl : Lists k IMat.one n (tric_31_44 n) := by
      rw [tric_31_44_eq]
      exact ⟨t1, t2⟩
    have hS := lists_change (k := k) (P := 1) (Q := 1) (Cu := IMat.one) (by simp) (by simp) (by simp) hn hl
    have hp := h.pointSym
    dsimp only at hp
    rw [← hp] at hS
    simpa using hS
  have mem : ∀ (n : ℤ) (H : IntMat), H ∈ tric_31_44 n ↔ IsHNF H ∧ H.det = n := fun n H =>
    (tric_31_44_correct k hk n 1 (by simp)).2.1 H
  have scaled : ∀ (f : ℤ) (H : IntMat), 1 ≤ f → H.det ≠ 0 →
      ((U0 * toReal (f • H))ᵀ)⁻¹ = (f : ℝ)⁻¹ • ((U0 * toReal H)ᵀ)⁻¹ := by
    intro f H hf hH
    have hf0 : (f : ℝ) ≠ 0 := by exact_mod_cast (by omega : f ≠ 0)
    have e : toReal (f • H) = (f : ℝ) • toReal H := by
      ext i j
      simp only [toReal, Matrix.map_apply, Matrix.smul_apply, smul_eq_mul, Int.cast_mul]
    have hd : ((U0 * toReal H)ᵀ).det ≠ 0 := by
      rw [det_transpose, det_mul, toReal_det]
      exact mul_ne_zero h.ideal_det (by exact_mod_cast hH)
    rw [e, Matrix.mul_smul, transpose_smul]
    let _ := invertibleOfNonzero hf0
    rw [Matrix.inv_smul _ (f : ℝ) (isUnit_iff_ne_zero.2 hd), invOf_eq_inv]
  have key : ∀ X : IntMat, ∃ (K : Matrix (Fin 3) (Fin 3) ℝ) (len : ℝ), ∀ (n f : ℤ) (H : IntMat), 1 ≤ n → 1 ≤ f →
      n * f ^ 3 ≤ N → IsHNF H → H.det = n → X = f • H → SymmetricGrid ((f : ℝ) • U0) K n ∧ 0 < K.det ∧
        CloseTo (fun x : Rounded fl => (x.q : ℝ)) (lib.geom X).grid K γ s ∧ HasShortest K ∧ SmallestDistance K len ∧
        (∀ o, lib.irr (lib.geom X).grid o = count (gridPoints K) o ∧
          lib.irrDefault (lib.geom X).grid o = countDefault (gridPoints K) o) ∧
        gridPoints K = gridPoints ((U0 * toReal X)ᵀ)⁻¹ := by
    intro X
    by_cases hX : ∃ (f : ℤ) (H : IntMat), 1 ≤ H.det ∧ 1 ≤ f ∧ H.det * f ^ 3 ≤ N ∧ IsHNF H ∧ X = f • H
    · obtain ⟨f, H, n1, f1, hle, hH, rfl⟩ := hX
      have hd : (f • H).det = H.det * f ^ 3 := by rw [det_smul, Fintype.card_fin, mul_comm]
      have hpos : 0 < H.det * f ^ 3 := by positivity
      obtain ⟨W, w1, w2, w3, w4, w5⟩ := hl.reduced (f • H) (by omega) (by omega) fun i j =>
        supercell_tric hfl h hk hN hc hOi hNi hCi herr H hH f f1 (by omega) i j
      obtain ⟨len, hlen⟩ := HasShortest.distance w4
      have hp := gridPoints_mul ((U0 * toReal (f • H))ᵀ)⁻¹ w1
      refine ⟨((U0 * toReal (f • H))ᵀ)⁻¹ * toReal W, len, fun n' f' H' n1' f1' hle' hH' hd' hX' => ?_⟩
      refine ⟨?_, w2, w3, w4, hlen, fun o => by rw [hp]; exact w5 o, hp⟩
      have d2 := ((lists n' n1').sound H' ((mem n' H').2 ⟨hH', hd'⟩)).2
      have hsym := symmetricGrid h.ideal_det (M := H') (W := W) (by omega) w1 d2
      rw [hd', abs_of_pos (by omega)] at hsym
      have := symmetricGrid_scale hsym (s := (f' : ℝ)) (by exact_mod_cast (by omega : f' ≠ 0))
      rw [hX', scaled f' H' f1' (by omega), Matrix.smul_mul]
      exact this
    · refine ⟨0, 0, fun n f H n1 f1 hle hH hd hX' => absurd ⟨f, H, by omega, f1, by rw [hd]; exact hle, hH, hX'⟩ hX⟩
  choose B0 len hB using key
  refine ⟨B0, len, fun n f n1 f1 hle => ⟨fun H hH hd => ?_, fun K hK => ?_⟩⟩
  · obtain ⟨a1, a2, a3, a4, a5, a6, -⟩ := hB (f • H) n f H n1 f1 hle hH hd rfl
    exact ⟨a1, a2, a3, a4, a5, a6⟩
  · have hf0 : (f : ℝ) ≠ 0 := by exact_mod_cast (by omega : f ≠ 0)
    obtain ⟨i, hi, -⟩ := (listsGrids_smul (listsGrids h.ideal_det n1 (lists n n1)) hf0).complete K hK
    obtain ⟨K1, hK1, e⟩ := List.mem_map.1 (List.get_mem _ i)
    obtain ⟨H, hH, rfl⟩ := List.mem_map.1 hK1
    obtain ⟨hh, hd⟩ := (mem n H).1 hH
    refine ⟨H, hh, hd, ?_⟩
    rw [(hB (f • H) n f H n1 f1 hle hh hd rfl).2.2.2.2.2.2, ← hi, ← e, scaled f H f1 (by omega)]

variable {env : EnvR (Rounded fl) (Matrix (Fin 3) (Fin 3) (Rounded fl))} {base : List (Fin 3 → Rounded fl)}
  {types : List ℕ} {flag : ℕ} {sqrt : Rounded fl → Rounded fl}
  {count countDefault : Set (Fin 3 → ℝ) → Offset → Option ℕ}

/-- C130, for the triclinic crystals.  `U` is the Niggli cell of the crystal `U0` as it was typed in (`TypedCell`), and everything
is computed in binary64.  As long as the search ends, `find_grid` returns, up to the error `γ` of the reduction, a grid `K` that
is, for some `n` and `m`, a symmetric grid with `n` points of the crystal multiplied by `m`, where `n m³` falls short of the
requested number by less than `m³`; its points are farthest apart or come right after these, among the symmetric grids with `n` points of
this crystal that are packed densely enough.  The offset is one that was tried, with the number of irreducible k-points, and no
widest grid has fewer with any offset.

The number of points that is reported is `n m`, not `n m³` (C75). -/
theorem find_grid_widest_float_tric (hfl : Binary64 fl) (h : TypedCell env.equal U U0 eps k M δ c L ℓ g a A B C D E F)
    (hk : k ∈ [31, 44]) (fuel : ℕ) (kpd N : ℤ) (h1 : 1 ≤ kpd) (hN : kpd * (fuel + 1) ≤ N) (hmil : 9 * N ≤ 2 ^ 53) (hc : c ≤ 2 ^ 53)
    {ι κ ω l m' γ s t₁ t₂ least ρ σ φ ψ : ℝ} (herr : changeErr (1 / 2 ^ 53) δ ι κ L l m' c N < 1 / 2)
    (hE : EnvReducesTric inverse env U U0 eps base types flag sqrt count countDefault N M δ c ℓ ι κ ω l m' γ s t₁ t₂)
    (hleast : 0 < least) (hσ : 1 ≤ σ) (hlen : LengthRight γ least σ) (hρ : 1 ≤ ρ)
    (hcell : CellRight (1 / 2 ^ 53) γ s (1 / (|U0.det| * N)) ρ) (hφ : φ = (1 / (1 - 1 / 2 ^ 53)) ^ 3 * σ)
    (hF : FactorsRight (1 / 2 ^ 53) φ ψ eps.q)
    (hG : ∀ n m : ℤ, 1 ≤ n → 1 ≤ m → m ^ 3 ≤ kpd → kpd - m ^ 3 < n * m ^ 3 → n * m ^ 3 < kpd + fuel * m ^ 3 →
      GridsApart ((m : ℝ) • U0) n least φ ψ t₁ t₂) (offset : Option Offset) (find_offset : Bool)
    (ho : find_offset = false → offset ≠ none) (min_kpts : Bool) :
    find_gridR env fuel U kpd base types offset find_offset flag min_kpts eps = .error (.grid .running) ∨
    ∃ e offsets K, find_gridR env fuel U kpd base types offset find_offset flag min_kpts eps = .ok e ∧
      offsetsTriedK env.toEnvK U k eps offset find_offset = some offsets ∧ e.sel.offset ∈ offsets ∧
      (∀ i j, |((e.sel.grid i j).q : ℝ) - K i j| ≤ γ) ∧
      (count (gridPoints K) e.sel.offset = some e.sel.n_irr ∨ countDefault (gridPoints K) e.sel.offset = some e.sel.n_irr) ∧
      ∃ n m : ℤ, 1 ≤ n ∧ 1 ≤ m ∧ e.nt_kpts = n * m ∧ kpd - m ^ 3 < n * m ^ 3 ∧
        NearlyWidest ((m : ℝ) • U0) n (3 / 10 / packFactor (1 / 2 ^ 53) ρ σ) (3 / 10 * packFactor (1 / 2 ^ 53) ρ σ) K ∧
        ∀ K', WidestBetween ((m : ℝ) • U0) n (3 / 10 / packFactor (1 / 2 ^ 53) ρ σ) (3 / 10 * packFactor (1 / 2 ^ 53) ρ σ) K' →
          ∀ o ∈ offsets, ∀ c, count (gridPoints K') o = some c → e.sel.n_irr ≤ c := by
  obtain ⟨Co, h2, h3⟩ := idCell_returns hfl h
  obtain ⟨offsets, s', s1, -, s3, s4⟩ := find_gridR_searches env h3 hE.pgSize kpd base types offset find_offset ho flag
    min_kpts
  dsimp only at s1 s3 s4
  rw [s4 fuel]
  have hred := hE.reduces _ h2
  set lib := env.libR U base types flag eps ⟨IMat.one, Co, k, sRange k⟩ with hlib
  obtain ⟨B0, len, hB⟩ := grids_meant_tric hfl h3 hk hmil hc hE.inv hE.inv' hE.one herr hred
  have hdet := h3.ideal_det
  have bound : ∀ n m : ℤ, 1 ≤ m → m ^ 3 ≤ kpd → n * m ^ 3 < kpd + fuel * m ^ 3 → n * m ^ 3 ≤ N := by
    intro n m hm hm' hn
    have : (fuel : ℤ) * m ^ 3 ≤ fuel * kpd := mul_le_mul_of_nonneg_left hm' (by omega)
    nlinarith
  have hdet' : ∀ m : ℤ, 1 ≤ m → ((m : ℝ) • U0).det ≠ 0 := by
    intro m hm
    rw [det_smul]
    have : (m : ℝ) ≠ 0 := by exact_mod_cast (by omega : m ≠ 0)
    exact mul_ne_zero (pow_ne_zero _ this) hdet
  have meaning : ∀ n m : ℤ, 1 ≤ n → 1 ≤ m → m ^ 3 ≤ kpd → kpd - m ^ 3 < n * m ^ 3 → n * m ^ 3 < kpd + fuel * m ^ 3 →
      ∀ H : IntMat, IsHNF H → H.det = n →
      least ≤ len (m • H) ∧
        (PackedAtLeast (3 / 10 * packFactor (1 / 2 ^ 53) ρ σ) (B0 (m • H)) → (lib.geom (m • H)).packed = true) ∧
        ((lib.geom (m • H)).packed = true → PackedAtLeast (3 / 10 / packFactor (1 / 2 ^ 53) ρ σ) (B0 (m • H))) := by
    intro n m hn hm hm' ha hb H hH hd
    have hle := bound n m hm hm' hb
    obtain ⟨b1, b2, b3, b4, b5, -⟩ := (hB n m hn hm hle).1 H hH hd
    have hl := (hG n m hn hm hm' ha hb).least _ _ b1 b5
    have hv := (symmetricGrid_det (hdet' m hm) (by omega) b1).1
    rw [abs_of_pos b2, det_smul, Fintype.card_fin] at hv
    have hge : 1 / (|U0.det| * N) ≤ (B0 (m • H)).det := by
      rw [hv]
      have hU := abs_pos.2 hdet
      have hn0 : (0 : ℝ) < n := by exact_mod_cast (by omega : 0 < n)
      have hm0 : (0 : ℝ) < m := by exact_mod_cast (by omega : 0 < m)
      have hnn : (n : ℝ) * m ^ 3 ≤ N := by exact_mod_cast hle
      rw [abs_mul, abs_of_pos (by positivity : (0 : ℝ) < (m : ℝ) ^ 3)]
      refine one_div_le_one_div_of_le (by positivity) ?_
      nlinarith
    have hc' : CellRight (1 / 2 ^ 53) γ s (B0 (m • H)).det ρ := by
      refine le_trans hcell (mul_le_mul_of_nonneg_right hge ?_)
      have : 1 / ρ ≤ 1 := by rw [div_le_one (by linarith)]; exact hρ
      linarith
    have hp := packed_rounded (relativeOps_rounded hfl) (by norm_num) compares_rounded hE.root b3 b2 b4 hleast
      (fun v hv => hl.trans (b5.2 v hv)) hσ hlen hρ hc'
    have e : (lib.geom (m • H)).packed = packedK sqrt (lib.geom (m • H)).grid := by
      conv_lhs => rw [hred.geom (m • H)]
      rfl
    rw [e]
    exact ⟨hl, hp.1, hp.2⟩
  have found := findGridR_tric lib (hE.irr _ h2) env.wrap eps offsets min_kpts (env.root kpd) fuel k hk s' kpd h1 len
    (fun n m hn hm hm' ha hb l hl => by
      have hle := bound n m hm hm' hb
      have hS : ∀ X ∈ {X | (∃ H, IsHNF H ∧ H.det = n ∧ X = m • H) ∧ (lib.geom X).packed = true},
          packedK sqrt (lib.geom X).grid = true := fun X hX => by
        have := hX.2
        rw [hred.geom X] at this
        exact this
      have := told_list (len := len) (B0 := B0) (ℓ := least) (γ := γ) (s := s) (σ := σ) (φ := φ) (ψ := ψ) (t₁ := t₁) (t₂ := t₂)
        (equal := lib.equal) (eps := eps) hS (relativeOps_rounded hfl) compares_rounded comparesLt_rounded hE.root
        (fun X hX => by
          obtain ⟨⟨H, hH, hd, rfl⟩, -⟩ := hX
          obtain ⟨b1, -, b3, b4, b5, -⟩ := (hB n m hn hm hle).1 H hH hd
          exact ⟨b3, b4, b5, (meaning n m hn hm hm' ha hb H hH hd).1⟩) hleast hσ hlen hφ hF (hE.equal _ h2)
        (fun l hl => by
          have hb' : ∀ X ∈ l, SymmetricGrid ((m : ℝ) • U0) (B0 X) n ∧ SmallestDistance (B0 X) (len X) := fun X hX => by
            obtain ⟨⟨H, hH, hd, rfl⟩, -⟩ := hl X hX
            obtain ⟨b1, -, -, -, b5, -⟩ := (hB n m hn hm hle).1 H hH hd
            exact ⟨b1, b5⟩
          have hA := hG n m hn hm hm' ha hb
          exact ⟨fun H hH => hA.near _ _ (hb' H hH).1 (hb' H hH).2, fun H hH => hA.zero _ _ (hb' H hH).1 (hb' H hH).2,
            fun H hH H' hH' hlt => hA.gap _ _ _ _ (hb' H hH).1 (hb' H' hH').1 (hb' H hH).2 (hb' H' hH').2 hlt⟩) l hl
      have eg : (fun X => (lib.geom X).rmin) = fun X => tempRminK sqrt (lib.geom X).grid := by
        funext X
        conv_lhs => rw [hred.geom X]
        rfl
      rw [eg]
      exact this)
  rcases found with hr | ⟨e, he, n, m, n1, m1, e1, m3, e2, e2', e3, e4, e5, e6, e7⟩
  · left
    rw [hr]
  · right
    have hle := bound n m m1 m3 e2'
    have candidate : ∀ K l, SymmetricGrid ((m : ℝ) • U0) K n → SmallestDistance K l →
        PackedAtLeast (3 / 10 * packFactor (1 / 2 ^ 53) ρ σ) K →
        ∃ X ∈ {X | (∃ H, IsHNF H ∧ H.det = n ∧ X = m • H) ∧ (lib.geom X).packed = true}, len X = l ∧
          gridPoints (B0 X) = gridPoints K := by
      intro K l hK hl hp
      obtain ⟨H, hH, hd, e⟩ := (hB n m n1 m1 hle).2 K hK
      obtain ⟨b1, b2, b3, b4, b5, -⟩ := (hB n m n1 m1 hle).1 H hH hd
      have hKd := symmetricGrid_det_ne (hdet' m m1) (by omega) hK
      have hd' : |K.det| = |(B0 (m • H)).det| := by
        rw [(symmetricGrid_det (hdet' m m1) (by omega) hK).1, (symmetricGrid_det (hdet' m m1) (by omega) b1).1]
      refine ⟨m • H, ⟨⟨H, hH, hd, rfl⟩, (meaning n m n1 m1 m3 e2 e2' H hH hd).2.1 (packed_points b2.ne' e.symm hd' hp)⟩, ?_, e⟩
      exact smallestDistance_unique b5 (smallestDistance_points hKd b2.ne' e.symm hl)
    obtain ⟨⟨H, hH, hd, hX⟩, hpk⟩ := e3.elim And.left And.left
    obtain ⟨b1, b2, b3, b4, b5, b6⟩ := (hB n m n1 m1 hle).1 H hH hd
    have hmean := meaning n m n1 m1 m3 e2 e2' H hH hd
    rw [← hX] at b1 b2 b3 b4 b5 b6 hmean
    refine ⟨e, offsets, B0 e.sel.HNF, by rw [he], s3, e5, fun i j => by rw [e4]; exact b3.err i j, ?_, n, m, n1, m1, e1, e2,
      ⟨b1, hmean.2.2 hpk, len e.sel.HNF, b5, ?_⟩, ?_⟩
    · rw [e4, (b6 _).1, (b6 _).2] at e6
      exact e6
    · intro K₁ l₁ K₂ l₂ s₁ s₂ p₁ p₂ d₁ d₂ g₁ g₂
      obtain ⟨H₁, c₁, rfl, -⟩ := candidate K₁ l₁ s₁ d₁ p₁
      obtain ⟨H₂, c₂, rfl, -⟩ := candidate K₂ l₂ s₂ d₂ p₂
      rcases e3 with hL | ⟨-, -, hL⟩
      · exact absurd (hL.2 _ c₁) (not_le.2 g₁)
      · have f : ∀ X ∈ {X | (∃ H, IsHNF H ∧ H.det = n ∧ X = m • H) ∧ (lib.geom X).packed = true}, len e.sel.HNF < len X →
            LongestIn len {X | (∃ H, IsHNF H ∧ H.det = n ∧ X = m • H) ∧ (lib.geom X).packed = true} X := fun X hX hlt => by
          by_contra hn
          exact absurd (hL X hX hn) (not_le.2 hlt)
        exact le_antisymm ((f _ c₂ g₂).2 _ c₁) ((f _ c₁ g₁).2 _ c₂)
    · intro K' hK' o hoff c hcnt
      obtain ⟨l, hl, hw⟩ := hK'.widest
      obtain ⟨X, cX, hlenX, hpts⟩ := candidate K' l hK'.grid hl hK'.packed
      refine e7 X ⟨cX, fun X' cX' => ?_⟩ o hoff c ?_
      · obtain ⟨⟨H', hH', hd', rfl⟩, hp'⟩ := cX'
        obtain ⟨x1, -, -, -, x5, -⟩ := (hB n m n1 m1 hle).1 H' hH' hd'
        rw [hlenX]
        exact hw _ _ x1 ((meaning n m n1 m1 m3 e2 e2' H' hH' hd').2.2 hp') x5
      · obtain ⟨⟨H', hH', hd', rfl⟩, -⟩ := cX
        rw [((hB n m n1 m1 hle).1 H' hH' hd').2.2.2.2.2 o |>.1, hpts]
        exact hcnt

/-! ## The hypotheses are met: a triclinic crystal -/

theorem tric_det : (realMat tricRat.toMatrix).det = 15 := by
  rw [tricRat_real, det_fin_three]
  simp
  norm_num

/-- The triclinic crystal of the other examples, with a smaller tolerance. -/
theorem tricTyped_fine : TypedCell cmpRounded tricTyped (realMat tricRat.toMatrix) ⟨1 / 16384⟩ 31 10000 0 1 3 (16 / 5)
    (1 / 5) 4 4 (13 / 2) (77 / 8) 2 (1 / 2) 1 where
  close := tricTyped_typed.close
  tol := by
    rw [tric_det]
    constructor <;> norm_num [sumErr, dotErr, cellErr, prodErr, detErr, tripleErr, opErr]
    · exact ⟨24 / 10, by norm_num, by norm_num, by norm_num⟩
    · exact ⟨25 / 10, by norm_num, by norm_num, by norm_num⟩
  metric := tricTyped_typed.metric
  niggli := tricTyped_typed.niggli
  cls := tricTyped_typed.cls
  short := le_rfl
  long := by norm_num
  gap := by constructor <;> norm_num [Gap, abs_of_pos, abs_of_neg]
  volume := tricTyped_typed.volume
  range := by norm_num
  eps_ge := by norm_num
  eps_le := by norm_num
  six := by decide
  crit := by simp [criticalTol]
  nonzero := by decide +kernel
  equal_ok := cmpRounded_ok

theorem tric_inv : ((realMat tricRat.toMatrix)ᵀ)⁻¹ = !![1 / 2, 0, 0; -1 / 10, 2 / 5, 0; -1 / 60, -1 / 10, 1 / 3] := by
  apply inv_eq_right_inv
  rw [tricRat_real]
  ext i j
  fin_cases i <;> fin_cases j <;> simp [mul_apply, Fin.sum_univ_three] <;> norm_num

/-- The smallest distance of a grid with `n` points is the root of an integer, divided by `60 n`, and at most 1/3. -/
theorem tric_length {K : Matrix (Fin 3) (Fin 3) ℝ} {N : IntMat} {n : ℤ} {l : ℝ} (hn : 1 ≤ n)
    (h1 : ((realMat tricRat.toMatrix)ᵀ)⁻¹ = K * toReal N) (h2 : |N.det| = n)
    (hl : SmallestDistance K l) : 0 < l ∧ l ≤ 1 / 3 ∧ ∃ m : ℤ, 1 ≤ m ∧ l ^ 2 = m / (60 * n) ^ 2 := by
  have hKd : K.det ≠ 0 := by
    intro h0
    have := congrArg Matrix.det h1
    rw [det_mul, h0, zero_mul, det_nonsing_inv, det_transpose, tric_det, Ring.inverse_eq_inv'] at this
    norm_num at this
  have hNd : N.det ≠ 0 := by
    intro h0
    rw [h0] at h2
    simp at h2
    omega
  have hn0 : (0 : ℝ) < n := by exact_mod_cast (by omega : 0 < n)
  obtain ⟨⟨v, hv, hvl⟩, hmin⟩ := hl
  have hpos : 0 < l := by
    rw [← hvl]
    refine Real.sqrt_pos.2 (lt_of_le_of_ne (Finset.sum_nonneg fun i _ => sq_nonneg _) fun h0 => ?_)
    have hz : K *ᵥ (fun j => (v j : ℝ)) = 0 := by
      funext i
      have := (Finset.sum_eq_zero_iff_of_nonneg (fun i _ => sq_nonneg _)).1 h0.symm i (Finset.mem_univ i)
      exact pow_eq_zero_iff (two_ne_zero) |>.1 this
    have := Matrix.eq_zero_of_mulVec_eq_zero hKd hz
    exact hv (funext fun j => by simpa using congrFun this j)
  refine ⟨hpos, ?_, ?_⟩
  · have hw : N *ᵥ (Pi.single 2 1 : Fin 3 → ℤ) ≠ 0 := by
      intro h0
      have := Matrix.eq_zero_of_mulVec_eq_zero hNd h0
      have := congrFun this 2
      simp at this
    refine (hmin _ hw).trans (le_of_eq ?_)
    have e : (K *ᵥ fun j => ((N *ᵥ (Pi.single 2 1 : Fin 3 → ℤ)) j : ℝ)) =
        !![1 / 2, 0, 0; -1 / 10, 2 / 5, 0; -1 / 60, -1 / 10, 1 / 3] *ᵥ (Pi.single 2 1 : Fin 3 → ℝ) := by
      rw [← tric_inv, h1, ← mulVec_mulVec]
      congr 1
      funext j
      simp [toReal]
    unfold gridLength
    rw [e]
    simp [Fin.sum_univ_three]
  · have hNr : toReal N * toReal N.adjugate = (N.det : ℝ) • 1 := by
      rw [← toReal_mul, mul_adjugate]
      ext i j
      simp only [toReal, Matrix.map_apply, Matrix.smul_apply, smul_eq_mul, Matrix.one_apply]
      split_ifs <;> simp
    have e1 : (N.det : ℝ) • K = !![1 / 2, 0, 0; -1 / 10, 2 / 5, 0; -1 / 60, -1 / 10, 1 / 3] * toReal N.adjugate := by
      rw [← tric_inv, h1, Matrix.mul_assoc, hNr, Matrix.mul_smul, Matrix.mul_one]
    set z : Fin 3 → ℤ := N.adjugate *ᵥ v with hz
    have e2 : (N.det : ℝ) • (K *ᵥ fun j => (v j : ℝ)) =
        !![1 / 2, 0, 0; -1 / 10, 2 / 5, 0; -1 / 60, -1 / 10, 1 / 3] *ᵥ fun j => (z j : ℝ) := by
      rw [← smul_mulVec, e1, ← mulVec_mulVec]
      congr 1
      funext j
      simp [hz, mulVec, dotProduct, toReal]
    have e3 : (N.det : ℝ) ^ 2 = (n : ℝ) ^ 2 := by
      rw [← h2]
      push_cast
      rw [sq_abs]
    have hsq : l ^ 2 = ∑ i, (K *ᵥ fun j => (v j : ℝ)) i ^ 2 := by
      rw [← hvl]
      exact Real.sq_sqrt (Finset.sum_nonneg fun i _ => sq_nonneg _)
    have hsq' : l ^ 2 * (N.det : ℝ) ^ 2 = ∑ i, ((N.det : ℝ) • (K *ᵥ fun j => (v j : ℝ))) i ^ 2 := by
      rw [hsq, Finset.sum_mul]
      refine Finset.sum_congr rfl fun i _ => ?_
      rw [Pi.smul_apply, smul_eq_mul]
      ring
    have key : l ^ 2 * (60 * n) ^ 2 =
        (((30 * z 0) ^ 2 + (-6 * z 0 + 24 * z 1) ^ 2 + (-z 0 - 6 * z 1 + 20 * z 2) ^ 2 : ℤ) : ℝ) := by
      rw [mul_pow, ← e3, mul_left_comm, hsq', e2, Fin.sum_univ_three]
      simp only [mulVec, dotProduct, Fin.sum_univ_three]
      simp only [Int.cast_add, Int.cast_mul, Int.cast_pow, Int.cast_ofNat, Int.cast_sub, Int.cast_neg]
      simp
      ring
    refine ⟨(30 * z 0) ^ 2 + (-6 * z 0 + 24 * z 1) ^ 2 + (-z 0 - 6 * z 1 + 20 * z 2) ^ 2, ?_, ?_⟩
    · have : (0 : ℝ) < (((30 * z 0) ^ 2 + (-6 * z 0 + 24 * z 1) ^ 2 + (-z 0 - 6 * z 1 + 20 * z 2) ^ 2 : ℤ) : ℝ) := by
        rw [← key]
        positivity
      have := Int.cast_pos.1 this
      omega
    · rw [← key]
      field_simp

theorem tric_apart {φ : ℝ} (h1 : 1 ≤ φ) (h2 : φ ≤ 1 + 1 / 10 ^ 9) {n : ℤ} (hn : 1 ≤ n) (hn' : n ≤ 4) :
    GridsApart (((1 : ℤ) : ℝ) • realMat tricRat.toMatrix) n (1 / 240) φ (1 + 1 / 13000) (1 / 10 ^ 5) (1 / 10 ^ 5) := by
  rw [Int.cast_one, one_smul]
  have hn0 : (0 : ℝ) < n := by exact_mod_cast (by omega : 0 < n)
  have hn1 : (n : ℝ) ≤ 4 := by exact_mod_cast hn'
  have hsq : (60 * (n : ℝ)) ^ 2 ≤ 57600 := by nlinarith
  have hφ : 1 - 1 / 10 ^ 9 ≤ 1 / φ := by
    rw [le_div_iff₀ (by linarith)]
    nlinarith
  have hφ' : 1 / φ ≤ 1 := by
    rw [div_le_one (by linarith)]
    exact h1
  have len : ∀ K l, SymmetricGrid (realMat tricRat.toMatrix) K n → SmallestDistance K l →
      0 < l ∧ l ≤ 1 / 3 ∧ ∃ m : ℤ, 1 ≤ m ∧ l ^ 2 = m / (60 * n) ^ 2 := by
    intro K l hK hl
    obtain ⟨N, a, b⟩ := hK.reciprocal
    exact tric_length hn a b hl
  have low : ∀ K l, SymmetricGrid (realMat tricRat.toMatrix) K n → SmallestDistance K l → 1 / 240 ≤ l ∧ l ≤ 1 / 3 := by
    intro K l hK hl
    obtain ⟨a, b, m, c, d⟩ := len K l hK hl
    refine ⟨?_, b⟩
    have hm : (1 : ℝ) ≤ m := by exact_mod_cast c
    have : (1 / 240 : ℝ) ^ 2 ≤ l ^ 2 := by
      rw [d, le_div_iff₀ (by positivity)]
      nlinarith
    exact le_of_sq_le_sq this a.le
  have div (l : ℝ) : l / φ = l * (1 / φ) := by ring
  refine ⟨fun K l hK hl => (low K l hK hl).1, fun K l hK hl => ?_, fun K l hK hl => ?_, fun K l K' l' hK hK' hl hl' hlt => ?_⟩
  · obtain ⟨a, b⟩ := low K l hK hl
    nlinarith
  · obtain ⟨a, b⟩ := low K l hK hl
    rw [div]
    nlinarith
  · obtain ⟨a, b⟩ := low K l hK hl
    obtain ⟨a', b'⟩ := low K' l' hK' hl'
    obtain ⟨-, -, m, -, d⟩ := len K l hK hl
    obtain ⟨-, -, m', -, d'⟩ := len K' l' hK' hl'
    have hlt2 : l' ^ 2 < l ^ 2 := by nlinarith
    have hm : m' + 1 ≤ m := by
      rw [d, d', div_lt_div_iff_of_pos_right (by positivity)] at hlt2
      exact_mod_cast hlt2
    have hm' : (m' : ℝ) + 1 ≤ m := by exact_mod_cast hm
    have hg : 1 / 57600 ≤ l ^ 2 - l' ^ 2 := by
      rw [d, d', ← sub_div, le_div_iff₀ (by positivity)]
      nlinarith
    have hg2 : 1 / 38400 ≤ l - l' := by nlinarith
    refine ⟨by nlinarith, ?_⟩
    rw [div]
    nlinarith

/-- The grid of a supercell has a right-handed basis of rational numbers, with a shortest vector in it and with small entries. -/
theorem tric_reduced {T : IntMat} (h1 : 1 ≤ T.det) (h2 : T.det ≤ 8) :
    ∃ (W : IntMat) (Q : Matrix (Fin 3) (Fin 3) ℚ), IsUnit W.det ∧
      realMat Q = ((realMat tricRat.toMatrix * toReal T)ᵀ)⁻¹ * toReal W ∧ 0 < (realMat Q).det ∧ HasShortest (realMat Q) ∧
      ∀ i j, |realMat Q i j| ≤ 3000 := by
  have hr : tricRat.toMatrix.det = 15 := by
    rw [← rdet_eq]
    decide +kernel
  have hTd : (tricRat.toMatrix * castMat T : Matrix (Fin 3) (Fin 3) ℚ)ᵀ.det = 15 * T.det := by
    have e : (castMat T : Matrix (Fin 3) (Fin 3) ℚ).det = (T.det : ℚ) := by
      have := RingHom.map_det (Int.castRingHom ℚ) T
      simpa [castMat, RingHom.mapMatrix_apply] using this.symm
    rw [det_transpose, det_mul, e, hr]
  have hT1 : (1 : ℚ) ≤ T.det := by exact_mod_cast h1
  set Y : Matrix (Fin 3) (Fin 3) ℚ := ((tricRat.toMatrix * castMat T : Matrix (Fin 3) (Fin 3) ℚ)ᵀ)⁻¹ with hY
  have hYd : Y.det = 1 / (15 * T.det) := by
    rw [hY, det_nonsing_inv, hTd, Ring.inverse_eq_inv', one_div]
  have hYp : 0 < Y.det := by
    rw [hYd]
    positivity
  have hYr : realMat Y = ((realMat tricRat.toMatrix * toReal T)ᵀ)⁻¹ := by
    rw [hY, realMat_inv (by rw [hTd]; positivity), realMat_transpose, realMat_mul, realMat_castMat]
  obtain ⟨Co, A, B, C, D, E, F, -, hc, -⟩ := niggli_realMat hYp.ne'
  obtain ⟨W, w1, w2⟩ : ∃ W : IntMat, W.det = 1 ∧
      (realMat Y * toReal W)ᵀ * (realMat Y * toReal W) = metric A B C D E F := by
    rcases Int.isUnit_iff.1 hc.unit with h | h
    · exact ⟨Co, h, hc.cell⟩
    · refine ⟨-Co, by rw [det_neg, Fintype.card_fin, h]; norm_num, ?_⟩
      have e : toReal (-Co) = -toReal Co := by
        ext i j
        simp [toReal]
      rw [e, Matrix.mul_neg, transpose_neg, Matrix.neg_mul, Matrix.mul_neg, neg_neg]
      exact hc.cell
  have hred := hc.red
  have hwu : IsUnit W.det := by rw [w1]; exact isUnit_one
  have hsh := hasShortest_of_reduced w2 hred
  have hR : realMat (Y * castMat W) = realMat Y * toReal W := by rw [realMat_mul, realMat_castMat]
  have hdet : (realMat Y).det = 1 / (15 * T.det) := by
    have := RingHom.map_det (Rat.castHom ℝ) Y
    have e : (realMat Y).det = ((Y.det : ℚ) : ℝ) := by
      simpa [realMat, RingHom.mapMatrix_apply] using this.symm
    rw [e, hYd]
    push_cast
    rfl
  have hT1' : (1 : ℝ) ≤ T.det := by exact_mod_cast h1
  have hT2' : (T.det : ℝ) ≤ 8 := by exact_mod_cast h2
  obtain ⟨l, hl⟩ := HasShortest.distance hsh
  have hWi : W * W⁻¹ = 1 := mul_nonsing_inv _ hwu
  have hrec : ((realMat tricRat.toMatrix)ᵀ)⁻¹ = realMat Y * toReal W * toReal (W⁻¹ * Tᵀ) := by
    have hTT : IsUnit ((toReal T)ᵀ).det := by
      rw [det_transpose, toReal_det]
      exact isUnit_iff_ne_zero.2 (by linarith)
    rw [toReal_mul, ← Matrix.mul_assoc, Matrix.mul_assoc (realMat Y), ← toReal_mul, hWi, toReal_one, Matrix.mul_one, hYr,
      transpose_mul, Matrix.mul_inv_rev, Matrix.mul_assoc, show toReal Tᵀ = (toReal T)ᵀ from rfl, nonsing_inv_mul _ hTT,
      Matrix.mul_one]
  have hwd : (W⁻¹).det = 1 := by
    have := congrArg Matrix.det hWi
    rw [det_mul, w1, one_mul, Matrix.det_one] at this
    exact this
  obtain ⟨l0, -, m, m1, hlm⟩ := tric_length h1 hrec
    (by rw [det_mul, hwd, one_mul, det_transpose, abs_of_pos (by omega)]) hl
  have hAl : l ^ 2 ≤ A := by
    have := hl.2 (Pi.single 0 1) (by simp)
    rw [gridLength_metric w2] at this
    have e : sqLen A B C D E F ((Pi.single 0 1 : Fin 3 → ℤ) 0) ((Pi.single 0 1 : Fin 3 → ℤ) 1)
        ((Pi.single 0 1 : Fin 3 → ℤ) 2) = A := by simp [sqLen]
    rw [e] at this
    have hA := hred.pos
    calc l ^ 2 ≤ √A ^ 2 := pow_le_pow_left₀ l0.le this 2
      _ = A := Real.sq_sqrt hA.le
  have hl2 : 1 / (60 * T.det : ℝ) ^ 2 ≤ A := by
    refine le_trans ?_ hAl
    rw [hlm]
    have : (1 : ℝ) ≤ m := by exact_mod_cast m1
    gcongr
  have hprod := hc.product
  rw [hdet] at hprod
  have hab := hred.ab
  have hbc := hred.bc
  set t : ℝ := 1 / (60 * T.det : ℝ) ^ 2 with ht
  have ht0 : 1 / 230400 ≤ t := by
    rw [ht]
    exact one_div_le_one_div_of_le (by positivity) (by nlinarith)
  have e : (1 / (15 * T.det : ℝ)) ^ 2 = 16 * t := by
    rw [ht]
    field_simp
    norm_num
  rw [e] at hprod
  have hC : C ≤ 9 * 10 ^ 6 := by
    have h3 : t * t ≤ A * B := mul_le_mul hl2 (hl2.trans hab) (by linarith) (by linarith)
    have h4 : t * t * C ≤ 2 * (16 * t) := le_trans (mul_le_mul_of_nonneg_right h3 (by linarith)) hprod
    have h5 : t * C ≤ 32 := by nlinarith
    nlinarith
  refine ⟨W, Y * castMat W, hwu, by rw [hR, hYr], ?_, by rw [hR]; exact hsh, fun i j => ?_⟩
  · rw [hR, det_mul, toReal_det, w1, hdet]
    positivity
  · rw [hR]
    exact entry_le w2 (by norm_num) (by nlinarith) (by nlinarith) (by nlinarith) i j

open Classical in
/-- A reduced basis of the grid of the supercell `X`. -/
noncomputable def tricGrid (X : IntMat) : Matrix (Fin 3) (Fin 3) (Rounded roundNearest) :=
  if h : ∃ Q, ∃ W : IntMat, IsUnit W.det ∧
      realMat Q = ((realMat tricRat.toMatrix * toReal X)ᵀ)⁻¹ * toReal W ∧ 0 < (realMat Q).det ∧ HasShortest (realMat Q) ∧
      ∀ i j, |realMat Q i j| ≤ 3000 then fun i j => ⟨h.choose i j⟩ else fun _ _ => ⟨0⟩

noncomputable def tricEnv (sqrt : Rounded roundNearest → Rounded roundNearest) :
    EnvR (Rounded roundNearest) (Matrix (Fin 3) (Fin 3) (Rounded roundNearest)) where
  toEnvK := cofEnv (realMat tricRat.toMatrix)
  libR := fun _ _ _ _ _ _ =>
    { equal := fun a b => decide (|a.q - b.q| ≤ 1 / 10 ^ 5)
      geom := fun H => compareGeomK sqrt (tricGrid H)
      gridOf := tricGrid
      irr := fun _ _ => some 1
      irrDefault := fun _ _ => some 1 }

theorem tricEnv_reduces {sqrt : Rounded roundNearest → Rounded roundNearest}
    (hr : RootRight (fun x : Rounded roundNearest => (x.q : ℝ)) (1 / 2 ^ 53) sqrt) :
    EnvReducesTric cofInverse (tricEnv sqrt) tricTyped (realMat tricRat.toMatrix) ⟨1 / 16384⟩ [] [] 0 sqrt
      (fun _ _ => some 1) (fun _ _ => some 1) 8 10000 0 1 (16 / 5) (1 / 10 ^ 15) (1 / 10 ^ 15) 0 1 1 0 3000 (1 / 10 ^ 5)
      (1 / 10 ^ 5) where
  pgSize := rfl
  inv := tricTyped_inverse
  inv' := by
    have e : ∀ i j, (cofInverse (matmulI tricTyped IMat.one).toMatrix i j).q = (cofInverse tricTyped.toMatrix i j).q := by
      decide +kernel
    exact ⟨fun i j => by rw [e]; exact tricTyped_inverse.err i j, tricTyped_inverse.size⟩
  one := by
    intro i j
    have key : ∀ i j : Fin 3, (cofInverse (intMat 1) i j).q = (if i = j then 1 else 0) := by decide +kernel
    rw [key, Matrix.one_apply]
    split_ifs <;> norm_num
  reduces := fun r _ => by
    refine ⟨fun H => rfl, fun X h1 h8 _ => ?_⟩
    obtain ⟨W, Q, q⟩ := tric_reduced h1 h8
    have hex : ∃ Q, ∃ W : IntMat, IsUnit W.det ∧
      realMat Q = ((realMat tricRat.toMatrix * toReal X)ᵀ)⁻¹ * toReal W ∧ 0 < (realMat Q).det ∧ HasShortest (realMat Q) ∧
      ∀ i j, |realMat Q i j| ≤ 3000 := ⟨Q, W, q⟩
    obtain ⟨W', t2, t3, t4, t5, t6⟩ := hex.choose_spec
    have hg : tricGrid X = fun i j => ⟨hex.choose i j⟩ := by
      unfold tricGrid
      exact dif_pos hex
    refine ⟨W', t2, by rw [← t3]; exact t4, ?_, by rw [← t3]; exact t5, fun o => ⟨rfl, rfl⟩⟩
    rw [← t3]
    refine ⟨fun i j => ?_, t6⟩
    show |((tricGrid X i j).q : ℝ) - _| ≤ 0
    rw [hg]
    show |((hex.choose i j : ℚ) : ℝ) - ((hex.choose i j : ℚ) : ℝ)| ≤ 0
    rw [sub_self, abs_zero]
  irr := fun r _ g o m h => by
    cases h
    exact le_rfl
  equal := fun r _ => by
    refine ⟨fun a b h => ?_, fun a b h => ?_⟩
    · have := (Rat.cast_le (K := ℝ) (p := |a.q - b.q|) (q := 1 / 10 ^ 5)).1 (by push_cast; exact h)
      exact decide_eq_true this
    · have := (Rat.cast_le (K := ℝ)).2 (of_decide_eq_true h)
      push_cast at this
      exact this
  root := hr

/-- The hypotheses of `find_grid_widest_float_tric` are met: a triclinic crystal, at least two points. -/
example : ∃ sqrt : Rounded roundNearest → Rounded roundNearest,
    find_gridR (tricEnv sqrt) 3 tricTyped 2 [] [] none true 0 false ⟨1 / 16384⟩ = .error (.grid .running) ∨
    ∃ e K, find_gridR (tricEnv sqrt) 3 tricTyped 2 [] [] none true 0 false ⟨1 / 16384⟩ = .ok e ∧
      (∀ i j, ((e.sel.grid i j).q : ℝ) = K i j) ∧ ∃ n m : ℤ, 1 ≤ n ∧ 1 ≤ m ∧ e.nt_kpts = n * m ∧ 2 - m ^ 3 < n * m ^ 3 ∧
      NearlyWidest ((m : ℝ) • realMat tricRat.toMatrix) n (28 / 100) (32 / 100) K := by
  obtain ⟨sqrt, hr⟩ := root_exists roundNearest
  refine ⟨sqrt, ?_⟩
  have hf : packFactor (1 / 2 ^ 53) (1 + 1 / 20) 1 ≤ 1 + 6 / 100 := by norm_num [packFactor]
  have hf1 : 1 ≤ packFactor (1 / 2 ^ 53) (1 + 1 / 20) 1 := by norm_num [packFactor]
  rcases find_grid_widest_float_tric (env := tricEnv sqrt) (inverse := cofInverse) (base := []) (types := []) (flag := 0)
      (sqrt := sqrt) (count := fun _ _ => some 1) (countDefault := fun _ _ => some 1) (γ := 0) (s := 3000) (t₁ := 1 / 10 ^ 5)
      (t₂ := 1 / 10 ^ 5) (least := 1 / 240) (ρ := 1 + 1 / 20) (σ := 1) (φ := (1 / (1 - 1 / 2 ^ 53)) ^ 3 * 1)
      (ψ := 1 + 1 / 13000) roundNearest_binary64 tricTyped_fine (by decide) 3 2 8 (by norm_num) (by norm_num) (by norm_num)
      (by norm_num) (by norm_num [changeErr]) (tricEnv_reduces hr)
      (by norm_num) le_rfl (by norm_num [LengthRight]) (by norm_num) (by rw [tric_det]; norm_num [CellRight]) rfl
      ⟨by norm_num, by norm_num, by norm_num, by norm_num⟩
      (fun n m hn hm hm' ha hb => by
        have e : m = 1 := by
          have : m ≤ m ^ 3 := by nlinarith [mul_pos (by omega : 0 < m) (by omega : 0 < m)]
          rcases (by omega : m = 1 ∨ m = 2) with h | h
          · exact h
          · rw [h] at hm'
            norm_num at hm'
        subst e
        push_cast at hb
        exact tric_apart (by norm_num) (by norm_num) hn (by omega)) none true
      (by decide) false with h | ⟨e, offsets, K, h1, -, -, h6, -, n, m, a1, a2, a3, a4, h5, -⟩
  · exact .inl h
  · refine .inr ⟨e, K, h1, fun i j => ?_, n, m, a1, a2, a3, a4, h5.grid, fun v hv => le_trans ?_ (h5.packed v hv), ?_⟩
    · exact sub_eq_zero.1 (abs_nonpos_iff.1 (h6 i j))
    · refine mul_le_mul_of_nonneg_right ?_ (abs_nonneg _)
      rw [le_div_iff₀ (by linarith)]
      linarith
    · obtain ⟨l, l1, l2⟩ := h5.second
      refine ⟨l, l1, fun K₁ l₁ K₂ l₂ a b p₁ p₂ => l2 K₁ l₁ K₂ l₂ a b (fun v hv => le_trans ?_ (p₁ v hv)) fun v hv =>
        le_trans ?_ (p₂ v hv)⟩
      · exact mul_le_mul_of_nonneg_right (by linarith) (abs_nonneg _)
      · exact mul_le_mul_of_nonneg_right (by linarith) (abs_nonneg _)

end AutoGR.Fortran
