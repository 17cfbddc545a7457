import Verif.Props.BestGrid
import Verif.Spec.Widest

/-!
# C107: which of the symmetric grids is chosen, for the lattices that are neither cubic nor triclinic

For each number of points the grids whose packing fraction is below 0.3 are dropped, and of the others those compete
whose points are farthest apart.
-/

namespace AutoGR.Fortran

open Spec Matrix

variable {rd : Reader} {junk : ℤ} {rt2 : ℚ} {poscar kpgen : List (List Char)} {d : PoscarData}
  {settings : List (Key × List Char)} {env : Env (Matrix (Fin 3) (Fin 3) ℚ)} {eps rho : ℚ} {r : IdCell}
  {fuel : ℕ} {k : Key} {v : List Char} {mink : Matrix (Fin 3) (Fin 3) ℚ → Matrix (Fin 3) (Fin 3) ℚ} {sqrt : ℚ → ℚ}
  {G Off : Type}

/-- The entry that `find_grid` returns is the one that was selected for its own number of points. -/
theorem findGrid_own (lib : Lib G Off) (hirr : ∀ g o m, lib.irr g o = some m → 1 ≤ m) (w : ℤ → ℤ) (eps : ℚ)
    (offsets : List Off) (min_kpts : Bool) (root : ℤ) (fuel k : ℕ) (hk1 : 1 ≤ k) (hk2 : k ≤ 44)
    (hk : k ∉ [1, 3, 5, 31, 44]) (Co : IMat) (hCo : reducedCanonical ℚ k = .ok Co) (s_range : ℕ)
    (hs : 5 ≤ s_range) (kpd : ℤ) (h1 : 1 ≤ kpd) (hfit : IntsFit w (kpd + fuel)) (e : Entry G Off)
    (he : findGrid lib w eps offsets min_kpts root fuel k s_range kpd = .ok e) (gen : ℤ → List Mat3)
    (hgen : generatorOf w k = some gen) :
    IntsFit w e.nt_kpts ∧
    ∃ m, tryHNFs lib.equal eps lib.geom lib.irr lib.irrDefault offsets (gen e.nt_kpts) = .ok ⟨m, some e.sel⟩ := by
  obtain ⟨gen', hgen', good⟩ := generatorOf_good w k hk1 hk2 hk hCo
  rw [hgen] at hgen'
  cases hgen'
  simp only [List.mem_cons, List.not_mem_nil, or_false, not_or] at hk
  have hfg : findGrid lib w eps offsets min_kpts root fuel k s_range kpd =
      match generalLoop (fun n => tryHNFs lib.equal eps lib.geom lib.irr lib.irrDefault offsets (gen n))
          s_range kpd fuel kpd [] with
      | .error e => .error e
      | .ok found => choose min_kpts kpd found := by
    unfold findGrid
    rw [if_neg (by omega), if_neg (by omega), hgen]
    rfl
  rw [hfg] at he
  have htot : ∀ n, kpd ≤ n → n < kpd + fuel → ∃ r,
      tryHNFs lib.equal eps lib.geom lib.irr lib.irrDefault offsets (gen n) = .ok ⟨(gen n).length, r⟩ ∧
        ∀ b, r = some b → Chosen lib offsets (gen n) b := fun n hn hn' =>
    tryHNFs_ok lib hirr eps offsets (gen n) (good.one n (by omega) (intsFit_mono hfit (by omega)))
  rcases generalLoop_spec (fun n => tryHNFs lib.equal eps lib.geom lib.irr lib.irrDefault offsets (gen n))
      s_range hs kpd fuel kpd [] le_rfl (by simp)
      (fun n hn hn' => by obtain ⟨r, h, -⟩ := htot n hn hn'; exact ⟨_, h⟩) (by simp)
      (fun n b h h' => by omega) with h | ⟨found, c1, c2, c3, c4⟩
  · rw [h] at he
    cases he
  · rw [c1] at he
    dsimp only at he
    have hpos : ∀ e ∈ found, 1 ≤ e.sel.n_irr ∧ kpd ≤ e.nt_kpts := by
      intro e he
      obtain ⟨a1, a2, m, -, a3⟩ := c3 e he
      obtain ⟨r, hr, hr'⟩ := htot e.nt_kpts a1 a2
      dsimp only at a3
      rw [hr] at a3
      cases a3
      exact ⟨(hr' _ rfl).pos, a1⟩
    obtain ⟨e', d1, d2, -⟩ := choose_spec min_kpts kpd h1 found (List.ne_nil_of_length_pos (by omega)) hpos
    rw [d1] at he
    cases he
    obtain ⟨a1, a2, m, -, a3⟩ := c3 e d2
    exact ⟨intsFit_mono hfit (by omega), m, a3⟩

/-- Two bases of the same grid have the same smallest distance. -/
theorem smallestDistance_points {K K' : Matrix (Fin 3) (Fin 3) ℝ} (hK : K.det ≠ 0) (hK' : K'.det ≠ 0)
    (h : gridPoints K = gridPoints K') {l : ℝ} (hl : SmallestDistance K l) : SmallestDistance K' l := by
  have key : ∀ {A B : Matrix (Fin 3) (Fin 3) ℝ}, A.det ≠ 0 → gridPoints A = gridPoints B → ∀ v : Fin 3 → ℤ, v ≠ 0 →
      ∃ u : Fin 3 → ℤ, u ≠ 0 ∧ gridLength B u = gridLength A v := by
    intro A B hA hAB v hv
    have hm : A *ᵥ intVec v ∈ gridPoints B := by rw [← hAB]; exact ⟨v, rfl⟩
    obtain ⟨u, hu⟩ := hm
    refine ⟨u, ?_, ?_⟩
    · rintro rfl
      rw [intVec_zero, mulVec_zero] at hu
      have := Matrix.eq_zero_of_mulVec_eq_zero hA hu
      refine hv (funext fun i => ?_)
      have hi := congrFun this i
      simpa [intVec] using hi
    · unfold gridLength
      change √(∑ i, (B *ᵥ intVec u) i ^ 2) = √(∑ i, (A *ᵥ intVec v) i ^ 2)
      rw [hu]
  obtain ⟨⟨w, hw, hwl⟩, hmin⟩ := hl
  refine ⟨?_, fun u hu => ?_⟩
  · obtain ⟨u, hu, e⟩ := key hK h w hw
    exact ⟨u, hu, e.trans hwl⟩
  · obtain ⟨w', hw', e⟩ := key hK' h.symm u hu
    rw [← e]
    exact hmin w' hw'

theorem packed_points {K K' : Matrix (Fin 3) (Fin 3) ℝ} (hK' : K'.det ≠ 0)
    (h : gridPoints K = gridPoints K') (hd : |K.det| = |K'.det|) {c : ℝ} (hp : PackedAtLeast c K) : PackedAtLeast c K' := by
  intro v hv
  have hm : K' *ᵥ intVec v ∈ gridPoints K := by rw [h]; exact ⟨v, rfl⟩
  obtain ⟨u, hu⟩ := hm
  have hu0 : u ≠ 0 := by
    rintro rfl
    rw [intVec_zero, mulVec_zero] at hu
    have := Matrix.eq_zero_of_mulVec_eq_zero hK' hu
    refine hv (funext fun i => ?_)
    have hi := congrFun this i
    simpa [intVec] using hi
  have := hp u hu0
  rw [hd] at this
  refine this.trans (le_of_eq ?_)
  unfold gridLength
  change _ * √(∑ i, (K *ᵥ intVec u) i ^ 2) ^ 3 = _ * √(∑ i, (K' *ᵥ intVec v) i ^ 2) ^ 3
  rw [hu]

theorem symmetricGrid_det_ne {U K : Matrix (Fin 3) (Fin 3) ℝ} {N : ℤ} (hU : U.det ≠ 0) (hN : 1 ≤ N)
    (h : SymmetricGrid U K N) : K.det ≠ 0 := by
  intro h0
  have := (symmetricGrid_det hU hN h).1
  rw [h0, abs_zero] at this
  have hU' := abs_pos.2 hU
  have hN' : (0 : ℝ) < N := by exact_mod_cast (by omega : 0 < N)
  have h1 : 0 < 1 / (|U.det| * N) := by positivity
  rw [← this] at h1
  exact lt_irrefl _ h1

/-- Another basis of the same grid. -/
theorem symmetricGrid_basis {U K : Matrix (Fin 3) (Fin 3) ℝ} {N : ℤ} (h : SymmetricGrid U K N) {W : IntMat}
    (hW : IsUnit W.det) : SymmetricGrid U (K * toReal W) N := by
  have e1 : toReal W * toReal W⁻¹ = 1 := toReal_inv_mul hW
  obtain ⟨M, m1, m2⟩ := h.reciprocal
  refine ⟨⟨W⁻¹ * M, ?_, ?_⟩, fun Q h1 h2 => ?_⟩
  · rw [m1, toReal_mul, Matrix.mul_assoc, ← Matrix.mul_assoc (toReal W), e1, Matrix.one_mul]
  · rw [det_mul, det_nonsing_inv, abs_mul, ← m2]
    have hu : IsUnit (Ring.inverse W.det) := hW.ringInverse
    rw [Int.isUnit_iff_abs_eq.1 hu, one_mul]
  · obtain ⟨Y, hY⟩ := h.symmetric Q h1 h2
    refine ⟨W⁻¹ * Y * W, ?_⟩
    rw [← Matrix.mul_assoc, hY, toReal_mul, toReal_mul]
    calc K * toReal Y * toReal W = K * (toReal W * toReal W⁻¹) * toReal Y * toReal W := by rw [e1, Matrix.mul_one]
      _ = _ := by simp only [Matrix.mul_assoc]

/-- What `compare_grids` computes for a supercell: a basis of the grid, the smallest distance, and how densely the grid is
packed. -/
theorem geom_meaning (hm : Minkowski mink) (hs : SqrtOk sqrt)
    (hmono : ∀ x y : ℚ, 0 ≤ x → x ≤ y → sqrt x ≤ sqrt y) {K : Matrix (Fin 3) (Fin 3) ℚ} (hK : K.det ≠ 0) :
    gridPoints (realMat (mink K)) = gridPoints (realMat K) ∧ (compareGeom sqrt (mink K)).grid = mink K ∧
      (mink K).det ≠ 0 ∧
      (∃ x : ℚ, 0 ≤ x ∧ (compareGeom sqrt (mink K)).rmin = sqrt x ∧ SmallestDistance (realMat (mink K)) √(x : ℝ)) ∧
      (PackedAtLeast (31 / 100) (realMat (mink K)) → (compareGeom sqrt (mink K)).packed = true) ∧
      ((compareGeom sqrt (mink K)).packed = true → PackedAtLeast (29 / 100) (realMat (mink K))) := by
  obtain ⟨⟨W, hW, h1⟩, h2, h3⟩ := hm K hK
  obtain ⟨x, x0, x1, x2, x3⟩ := rmin_eq hmono h3
  obtain ⟨p1, p2⟩ := compareGeom_packed hs h2 h3
  refine ⟨?_, rfl, h2.ne', ⟨x, x0, x1, x2, x3⟩, p1, p2⟩
  rw [h1, realMat_mul, realMat_castMat]
  ext p
  constructor
  · rintro ⟨z, rfl⟩
    exact ⟨W *ᵥ z, by rw [← mulVec_mulVec, intVec_mulVec]⟩
  · rintro ⟨z, rfl⟩
    refine ⟨W⁻¹ *ᵥ z, ?_⟩
    rw [← intVec_mulVec, mulVec_mulVec, Matrix.mul_assoc, toReal_inv_mul hW, Matrix.mul_one]

/-- The grids that `compare_grids` makes of the supercells of a list. -/
theorem listed_mean {U : RMat ℚ} {lib : Lib (Matrix (Fin 3) (Fin 3) ℚ) Offset} {V : Matrix (Fin 3) (Fin 3) ℝ}
    (hV : V.det ≠ 0) (hm : Minkowski mink) (hs : SqrtOk sqrt)
    (hmono : ∀ x y : ℚ, 0 ≤ x → x ≤ y → sqrt x ≤ sqrt y) (hb : BuiltFrom mink sqrt U r lib)
    {N : ℤ} (hN : 1 ≤ N) {L : List Mat3} (hl : ListsGrids V N (L.map fun H => realMat (gridOf U r H))) :
    ∀ H ∈ L, gridPoints (realMat (lib.geom H).grid) = gridPoints (realMat (gridOf U r H)) ∧
      SymmetricGrid V (realMat (lib.geom H).grid) N ∧ (realMat (lib.geom H).grid).det ≠ 0 ∧
      (∃ x : ℚ, 0 ≤ x ∧ (lib.geom H).rmin = sqrt x ∧ SmallestDistance (realMat (lib.geom H).grid) √(x : ℝ)) ∧
      (PackedAtLeast (31 / 100) (realMat (lib.geom H).grid) → (lib.geom H).packed = true) ∧
      ((lib.geom H).packed = true → PackedAtLeast (29 / 100) (realMat (lib.geom H).grid)) := by
  intro H hH
  have hgrid := hl.sound _ (List.mem_map_of_mem hH)
  have hdet : (gridOf U r H).det ≠ 0 := by
    intro h0
    refine symmetricGrid_det_ne hV hN hgrid ?_
    rw [realMat_det, h0, Rat.cast_zero]
  obtain ⟨g1, g2, g3, g4, g5, g6⟩ := geom_meaning hm hs hmono hdet
  have hd : (realMat (lib.geom H).grid).det ≠ 0 := by
    rw [realMat_det, hb.geom, g2]
    exact_mod_cast g3
  rw [hb.geom, g2] at *
  obtain ⟨⟨W, hW, hW'⟩, -⟩ := hm _ hdet
  refine ⟨g1, ?_, hd, g4, g5, g6⟩
  rw [hW', realMat_mul, realMat_castMat]
  exact symmetricGrid_basis hgrid hW

/-- The search over a list of all the symmetric grids with `N` points of the cell `V`, the lattice itself or a multiple of
it, with a list of offsets: a basis of each of the widest grids is tried with every offset. -/
theorem widest_list_offsets {U : RMat ℚ} {lib : Lib (Matrix (Fin 3) (Fin 3) ℚ) Offset} {V : Matrix (Fin 3) (Fin 3) ℝ}
    (hV : V.det ≠ 0) (hm : Minkowski mink) (hs : SqrtOk sqrt)
    (hmono : ∀ x y : ℚ, 0 ≤ x → x ≤ y → sqrt x ≤ sqrt y) (hb : BuiltFrom mink sqrt U r lib)
    (hirr : ∀ g o m, lib.irr g o = some m → 1 ≤ m) {N : ℤ} (hN : 1 ≤ N) {L : List Mat3}
    (hl : ListsGrids V N (L.map fun H => realMat (gridOf U r H)))
    (ht : TellsApart lib.equal eps sqrt V N) {K : Matrix (Fin 3) (Fin 3) ℝ} (hK : Widest V N K) (offsets : List Offset) :
    ∃ K₂ : Matrix (Fin 3) (Fin 3) ℚ, gridPoints K = gridPoints (realMat K₂) ∧ SymmetricGrid V (realMat K₂) N ∧
      ∀ o ∈ offsets, ∀ c, lib.irr K₂ o = some c →
        ∃ b, tryHNFs lib.equal eps lib.geom lib.irr lib.irrDefault offsets L = .ok ⟨L.length, some b⟩ ∧ b.n_irr ≤ c := by
  have hmean := listed_mean hV hm hs hmono hb hN hl
  have hKd := symmetricGrid_det_ne hV hN hK.grid
  -- the supercell of the grid `K`
  obtain ⟨i, hi, -⟩ := hl.complete K hK.grid
  obtain ⟨H, hH, hHe⟩ := List.mem_map.1 (List.get_mem _ i)
  rw [← hHe] at hi
  obtain ⟨g1, g2, g3, ⟨x, x0, x1, x2⟩, g5, g6⟩ := hmean H hH
  have hpt : gridPoints K = gridPoints (realMat (lib.geom H).grid) := by rw [g1, hi]
  have habs : |K.det| = |(realMat (lib.geom H).grid).det| := by
    rw [(symmetricGrid_det hV hN hK.grid).1, (symmetricGrid_det hV hN g2).1]
  have hpacked := g5 (packed_points g3 hpt habs hK.packed)
  obtain ⟨l, hl1, hl2⟩ := hK.widest
  have hlx : l = √(x : ℝ) := by
    obtain ⟨⟨u, hu, hul⟩, hu'⟩ := smallestDistance_points hKd g3 hpt hl1
    obtain ⟨⟨u2, hu2, hul2⟩, hu2'⟩ := x2
    exact le_antisymm (hul2 ▸ hu' u2 hu2) (hul ▸ hu2' u hu)
  have hlen : ∀ y ∈ lengthsOf lib.geom L, ∃ H' ∈ L, (lib.geom H').packed = true ∧ (lib.geom H').rmin = y := by
    intro y hy
    obtain ⟨H', hH', e⟩ := List.mem_map.1 hy
    rw [packedHNFs, List.mem_filter] at hH'
    exact ⟨H', hH'.1, hH'.2, e⟩
  have hlargest : Largest (lengthsOf lib.geom L) (lib.geom H).rmin := by
    refine ⟨List.mem_map.2 ⟨H, List.mem_filter.2 ⟨hH, hpacked⟩, rfl⟩, fun y hy => ?_⟩
    obtain ⟨H', hH', hp', rfl⟩ := hlen y hy
    obtain ⟨-, q2, -, ⟨x', x0', x1', x2'⟩, -, q6⟩ := hmean H' hH'
    have := hl2 _ _ q2 (q6 hp') x2'
    rw [hlx, Real.sqrt_le_sqrt_iff (by exact_mod_cast x0)] at this
    rw [x1, x1']
    exact hmono _ _ x0' (by exact_mod_cast this)
  have happ : LengthsApart lib.equal eps (lengthsOf lib.geom L) := by
    have h0 := ht _ _ x x g2 g2 x0 x0 x2 x2
    refine ⟨h0.nonneg, ?_, ?_, ?_⟩
    · intro y hy
      obtain ⟨H', hH', hp', rfl⟩ := hlen y hy
      obtain ⟨-, q2, -, ⟨x', x0', x1', x2'⟩, -, -⟩ := hmean H' hH'
      rw [x1']
      exact (ht _ _ x' x' q2 q2 x0' x0' x2' x2').zero _ (by simp)
    · intro y hy
      obtain ⟨H', hH', hp', rfl⟩ := hlen y hy
      obtain ⟨-, q2, -, ⟨x', x0', x1', x2'⟩, -, -⟩ := hmean H' hH'
      rw [x1']
      exact (ht _ _ x' x' q2 q2 x0' x0' x2' x2').same _ (by simp)
    · intro y hy z hz
      obtain ⟨H', hH', hp', rfl⟩ := hlen y hy
      obtain ⟨-, q2, -, ⟨x', x0', x1', x2'⟩, -, -⟩ := hmean H' hH'
      obtain ⟨H'', hH'', hp'', rfl⟩ := hlen z hz
      obtain ⟨-, t2, -, ⟨x'', x0'', x1'', x2''⟩, -, -⟩ := hmean H'' hH''
      rw [x1', x1'']
      exact (ht _ _ x' x'' q2 t2 x0' x0'' x2' x2'').apart _ (by simp) _ (by simp)
  obtain ⟨s, s1, s2, -⟩ := compareAll_lists_partial lib.equal eps lib.geom L (List.ne_nil_of_mem hH) happ
  have hmem : ((lib.geom H).grid, H) ∈ s.list1 := by
    rw [s2 _ hlargest, entriesOf]
    exact List.mem_map.2 ⟨H, List.mem_filter.2 ⟨List.mem_filter.2 ⟨hH, hpacked⟩, by simp⟩, rfl⟩
  refine ⟨(lib.geom H).grid, hpt, g2, fun o ho c hi' => ?_⟩
  obtain ⟨b, b1, b2, b3⟩ := gridSelection_partial lib.irr lib.irrDefault hirr s.list1 s.list2 offsets
  cases b with
  | none =>
    have := b3 rfl _ hmem o ho
    rw [hi'] at this
    cases this
  | some b =>
    refine ⟨b, ?_, (b2 b rfl).2.2.2 _ hmem o ho _ hi'⟩
    unfold tryHNFs
    rw [s1]
    dsimp only
    rw [if_pos (.inl (List.length_pos_of_mem hmem)), b1]

/-- The search over a list of all the symmetric grids with `N` points of the cell `V`: the lattice itself, or a multiple of
it. -/
theorem widest_list {U : RMat ℚ} {lib : Lib (Matrix (Fin 3) (Fin 3) ℚ) Offset} {V : Matrix (Fin 3) (Fin 3) ℝ}
    (hV : V.det ≠ 0) (hm : Minkowski mink) (hs : SqrtOk sqrt)
    (hmono : ∀ x y : ℚ, 0 ≤ x → x ≤ y → sqrt x ≤ sqrt y) (hb : BuiltFrom mink sqrt U r lib)
    (hirr : ∀ g o m, lib.irr g o = some m → 1 ≤ m) {ops ops0 : Set (Matrix (Fin 3) (Fin 3) ℝ)}
    (hc : Counts (realCell U) ops ops0 lib) {N : ℤ} (hN : 1 ≤ N) {L : List Mat3}
    (hl : ListsGrids V N (L.map fun H => realMat (gridOf U r H)))
    (hVU : ∀ K, SymmetricGrid V K N → ∃ n, SymmetricGrid (realCell U) K n)
    (ht : TellsApart lib.equal eps sqrt V N) {K : Matrix (Fin 3) (Fin 3) ℝ} (hK : Widest V N K)
    {pts : List ((Fin 3 → ℝ) × ℤ)} (hpts : IrreduciblePoints ((realCell U)ᵀ)⁻¹ K 0 ops pts) :
    ∃ b, tryHNFs lib.equal eps lib.geom lib.irr lib.irrDefault [(0, 0, 0)] L = .ok ⟨L.length, some b⟩ ∧
      b.n_irr ≤ pts.length := by
  obtain ⟨K₂, g1, g2, g3⟩ := widest_list_offsets hV hm hs hmono hb hirr hN hl ht hK [(0, 0, 0)]
  obtain ⟨n', hn'⟩ := hVU _ g2
  exact g3 (0, 0, 0) (by simp) _ (hc.irr _ _ _ hn' (hpts.points g1))

theorem widest_bound {equal : ℚ → ℚ → ℚ → Bool} {U : RMat ℚ} {lib : Lib (Matrix (Fin 3) (Fin 3) ℚ) Offset}
    (h : Recognised equal U eps rho r) (hid : r.id ∉ [1, 3, 5, 31, 44]) (hm : Minkowski mink) (hs : SqrtOk sqrt)
    (hmono : ∀ x y : ℚ, 0 ≤ x → x ≤ y → sqrt x ≤ sqrt y) (hb : BuiltFrom mink sqrt U r lib)
    (hirr : ∀ g o m, lib.irr g o = some m → 1 ≤ m) {ops ops0 : Set (Matrix (Fin 3) (Fin 3) ℝ)}
    (hc : Counts (realCell U) ops ops0 lib) (w : ℤ → ℤ) {N : ℤ} (hN : 1 ≤ N) (hf : IntsFit w N)
    (ht : TellsApart lib.equal eps sqrt (realCell U) N) {K : Matrix (Fin 3) (Fin 3) ℝ} (hK : Widest (realCell U) N K)
    {pts : List ((Fin 3 → ℝ) × ℤ)} (hpts : IrreduciblePoints ((realCell U)ᵀ)⁻¹ K 0 ops pts) {gen : ℤ → List Mat3}
    (hgen : generatorOf w r.id = some gen) :
    ∃ b, tryHNFs lib.equal eps lib.geom lib.irr lib.irrDefault [(0, 0, 0)] (gen N) = .ok ⟨(gen N).length, some b⟩ ∧
      b.n_irr ≤ pts.length := by
  obtain ⟨gen', hgen', hl⟩ := grids_general h hid w hN hf
  rw [hgen] at hgen'
  cases hgen'
  exact widest_list h.real_det hm hs hmono hb hirr hc hN hl (fun K hK => ⟨_, hK⟩) ht hK hpts

theorem smallestDistance_smul {K : Matrix (Fin 3) (Fin 3) ℝ} {l s : ℝ} (h : SmallestDistance K l) :
    SmallestDistance (s • K) (|s| * l) := by
  obtain ⟨⟨v, hv, hl⟩, h'⟩ := h
  refine ⟨⟨v, hv, by rw [gridLength_smul, hl]⟩, fun u hu => ?_⟩
  rw [gridLength_smul]
  exact mul_le_mul_of_nonneg_left (h' u hu) (abs_nonneg s)

theorem widest_unscaled (hdet : (d.scale • d.columns).det ≠ 0) {K : Matrix (Fin 3) (Fin 3) ℝ} {n : ℤ}
    (h : Widest (realMat (d.scale • d.columns)) n K) :
    Widest (realCell (cellOf d.columns)) n ((d.scale : ℝ) • K) := by
  have hs : (d.scale : ℝ) ≠ 0 := by exact_mod_cast scale_ne hdet
  obtain ⟨l, l1, l2⟩ := h.widest
  refine ⟨(symmetricGrid_unscaled hdet).1 h.grid, packedAtLeast_smul h.packed, _, smallestDistance_smul l1, ?_⟩
  intro K' l' k1 k2 k3
  have e : K' = (d.scale : ℝ) • ((d.scale : ℝ)⁻¹ • K') := by rw [smul_smul, mul_inv_cancel₀ hs, one_smul]
  have := l2 ((d.scale : ℝ)⁻¹ • K') (|(d.scale : ℝ)⁻¹| * l') ((symmetricGrid_unscaled hdet).2 (e ▸ k1)) (packedAtLeast_smul k2)
    (smallestDistance_smul k3)
  rwa [abs_inv, inv_mul_le_iff₀ (abs_pos.2 hs)] at this

theorem several_unscaled (hdet : (d.scale • d.columns).det ≠ 0) {n : ℤ}
    (h : SeveralGrids (realMat (d.scale • d.columns)) n) : SeveralGrids (realCell (cellOf d.columns)) n := by
  have hs : (d.scale : ℝ) ≠ 0 := by exact_mod_cast scale_ne hdet
  obtain ⟨K, K', k1, k2, k3⟩ := h
  refine ⟨_, _, (symmetricGrid_unscaled hdet).1 k1, (symmetricGrid_unscaled hdet).1 k2, fun he => k3 ?_⟩
  have key : ∀ (A : Matrix (Fin 3) (Fin 3) ℝ) x, x ∈ gridPoints A ↔ (d.scale : ℝ) • x ∈ gridPoints ((d.scale : ℝ) • A) := by
    intro A x
    refine exists_congr fun z => ?_
    rw [smul_mulVec, (smul_right_injective (Fin 3 → ℝ) hs).eq_iff]
  ext x
  rw [key, he, ← key]

/-- C107.  `n` points are asked for, without a shift, for a lattice that is neither cubic nor triclinic; `ops` are the
symmetries that the library works with by the level of symmetry that the user asks for, `ops0` those by default.  If the
program returns a grid, it has the symmetries of the lattice and at least `n` points and a packing fraction of at least
0.3 (0.29, with rounding).  Take a number `N` of points, the one of this grid or one from `n` up to the range of the lattice
for which there is more than one symmetric grid, and of the densely packed symmetric grids with `N` points one whose
points are farthest apart.  With `MIN_IRR_KPTS=TRUE`, or if at most 500 points are asked for, it has at least as many
irreducible points as the grid returned; otherwise its ratio of irreducible points to all points is at least as large. -/
theorem program_best_general (hp : PoscarSays rd poscar d) (hdet : (d.scale • d.columns).det ≠ 0) (hrt : rt2 ≠ 0)
    (hf : FileSays kpgen settings) (hu : Usable rd rt2 d.counts.sum |(d.scale • d.columns).det| settings)
    (hk : lastOf densitySetting settings = some (k, v)) (he : Tolerance rd settings eps)
    (hshift : lastOf (shiftValue rd) settings = some (0, 0, 0))
    (h : Recognised env.equal (cellOf d.columns) eps rho r) (hb : EnvBuilt env mink sqrt (cellOf d.columns) eps r)
    (hmono : ∀ x y : ℚ, 0 ≤ x → x ≤ y → sqrt x ≤ sqrt y)
    {ops ops0 : List (Fin 3 → ℚ) → List ℕ → ℕ → Set (Matrix (Fin 3) (Fin 3) ℝ)}
    (hG : ∀ base types flag, LatticeGroup (realCell (cellOf d.columns)) (ops base types flag))
    (hG0 : ∀ base types flag, LatticeGroup (realCell (cellOf d.columns)) (ops0 base types flag))
    (hc : ∀ base types flag, Counts (realCell (cellOf d.columns)) (ops base types flag) (ops0 base types flag)
      (env.lib (cellOf d.columns) base types flag eps r))
    (hasks : ∀ n, Asks rd piLit rt2 d.counts.sum |(d.scale • d.columns).det| k v n →
      1 ≤ n ∧ ∀ s_range, r.s_range = some s_range → IntsFit env.wrap (n + (max fuel s_range : ℕ)))
    (hid : r.id ∉ [1, 3, 5, 31, 44]) :
    program env rd junk rt2 fuel poscar kpgen = .error (.grid .running) ∨
    ∃ e n base types flag syms pts s_range, program env rd junk rt2 fuel poscar kpgen = .ok e ∧
      Asks rd piLit rt2 d.counts.sum |(d.scale • d.columns).det| k v n ∧
      (lastOf symmetryLevel settings = some flag ∨ lastOf symmetryLevel settings = none ∧ flag = 0) ∧
      r.s_range = some s_range ∧ 5 ≤ s_range ∧ n ≤ e.nt_kpts ∧
      SymmetricGrid (realMat (d.scale • d.columns)) (realMat (d.scale⁻¹ • e.sel.grid)) e.nt_kpts ∧
      PackedAtLeast (29 / 100) (realMat (d.scale⁻¹ • e.sel.grid)) ∧
      (syms = ops base types flag ∨ syms = ops0 base types flag) ∧
      IrreduciblePoints ((realMat (d.scale • d.columns))ᵀ)⁻¹ (realMat (d.scale⁻¹ • e.sel.grid)) 0 syms pts ∧
      ∀ K N pts', (N = e.nt_kpts ∨ n ≤ N ∧ N < n + s_range ∧ SeveralGrids (realMat (d.scale • d.columns)) N) →
        TellsApart (env.lib (cellOf d.columns) base types flag eps r).equal eps sqrt (realCell (cellOf d.columns)) N →
        Widest (realMat (d.scale • d.columns)) N K →
        IrreduciblePoints ((realMat (d.scale • d.columns))ᵀ)⁻¹ K 0 (ops base types flag) pts' →
        ((∃ p ∈ settings, p.1 = .minIrrKpts ∧ IsWord p.2 "TRUE".toList) ∨ n ≤ 500 → pts.length ≤ pts'.length) ∧
        ((∀ p ∈ settings, p.1 = .minIrrKpts → ¬ IsWord p.2 "TRUE".toList) → 500 < n →
          (pts.length : ℚ) / e.nt_kpts ≤ pts'.length / N) := by
  have hl := hb.right h
  obtain ⟨n, base, types, s, p1, p2, p3, p4, p5, p6⟩ := program_reads_choice (junk := junk) env hp hdet hrt hf hu hk he
  obtain ⟨offsets, s_range, q1, q2, q3, q4⟩ := find_grid_searches env h hl.pgSize n base types s.offset
    s.find_offset (offset_ne_none p3 p4 hu.readable) s.symm_flag s.min_kpts
  have hoff : offsets = [(0, 0, 0)] := by
    have e1 : s.find_offset = false := by
      rw [Bool.eq_false_iff]
      intro hcon
      have := p4.1 hcon
      have hnone : lastOf (shiftValue rd) settings = none := by
        unfold lastOf
        rw [List.getLast?_eq_none_iff, List.filterMap_eq_nil_iff]
        rintro ⟨k', v'⟩ hmem
        have := this _ hmem
        cases k' <;> first | rfl | exact absurd rfl this
      rw [hnone] at hshift
      cases hshift
    rw [e1, p3, hshift] at q3
    exact (Option.some.inj q3).symm
  subst hoff
  obtain ⟨h1, hfit'⟩ := hasks n p2
  have hfit'' := hfit' s_range q1
  have hfit : IntsFit env.wrap (n + fuel) := intsFit_mono hfit'' (by push_cast; have := le_max_left (fuel : ℤ) s_range; omega)
  obtain ⟨k1, k2⟩ := h.id_range
  obtain ⟨s', hs1, hs2⟩ := sRange_le r.id k1 k2 hid
  have hs3 : s_range = s' := by
    rw [h.s_range, hs1] at q1
    exact (Option.some.inj q1).symm
  have hk' : r.id ∉ [31, 44] := fun hm => hid (by simp at hm ⊢; omega)
  have hred := reduced_canonC r.id k1 k2 hk'
  rw [p1 fuel, q4 fuel]
  rcases findGrid_general (env.lib (cellOf d.columns) base types s.symm_flag eps r)
    (hl.irr base types s.symm_flag) env.wrap eps [(0, 0, 0)] s.min_kpts (env.root n) fuel r.id k1 k2 hid _
    hred s_range (by omega) n h1 hfit with
    hr | ⟨e, he', a1, a2, a3, a4, a5, a6, a7⟩
  · left
    rw [hr]
  right
  obtain ⟨b1, b2⟩ := find_grid_symmetric_general h hid (hl.reduces base types s.symm_flag)
    (hl.irr base types s.symm_flag) env.wrap [(0, 0, 0)] s.min_kpts (env.root n) fuel s_range q1 n h1 hfit e he'
  have hN1 : 1 ≤ e.nt_kpts := h1.trans a1
  have hUd := h.real_det
  have hs : (d.scale : ℝ) ≠ 0 := by exact_mod_cast scale_ne hdet
  have hU : realCell (cellOf d.columns) = realMat d.columns := by
    unfold realCell
    rw [cellOf_toMatrix]
    rfl
  have hrec : ((realMat (d.scale • d.columns))ᵀ)⁻¹ = (d.scale : ℝ)⁻¹ • ((realCell (cellOf d.columns))ᵀ)⁻¹ := by
    rw [realMat_smul, ← hU, transpose_smul]
    let _ := invertibleOfNonzero hs
    rw [Matrix.inv_smul _ (d.scale : ℝ) (by rw [det_transpose]; exact isUnit_iff_ne_zero.2 hUd), invOf_eq_inv]
  have ho : e.sel.offset = (0, 0, 0) := by simpa using a5
  -- the number of irreducible points of the grid
  have hsyms : ∃ syms pts, (syms = ops base types s.symm_flag ∨ syms = ops0 base types s.symm_flag) ∧
      IrreduciblePoints ((realMat (d.scale • d.columns))ᵀ)⁻¹ (realMat (d.scale⁻¹ • e.sel.grid)) 0 syms pts ∧
      pts.length = e.sel.n_irr := by
    have hscale : ∀ {syms ps}, IrreduciblePoints ((realCell (cellOf d.columns))ᵀ)⁻¹ (realMat e.sel.grid) 0 syms ps →
        ∃ ps', IrreduciblePoints ((realMat (d.scale • d.columns))ᵀ)⁻¹ (realMat (d.scale⁻¹ • e.sel.grid)) 0 syms ps' ∧
          ps'.length = ps.length := by
      intro syms ps hps
      have := hps.smul (inv_ne_zero hs)
      rw [smul_zero, ← hrec] at this
      have e1 : realMat (d.scale⁻¹ • e.sel.grid) = (d.scale : ℝ)⁻¹ • realMat e.sel.grid := by
        rw [realMat_smul, Rat.cast_inv]
      rw [e1]
      exact ⟨_, this, List.length_map _⟩
    have hpts : ∀ {syms}, LatticeGroup (realCell (cellOf d.columns)) syms →
        ∃ pts, IrreduciblePoints ((realCell (cellOf d.columns))ᵀ)⁻¹ (realMat e.sel.grid) 0 syms pts := by
      intro syms hG'
      obtain ⟨M, m1, m2⟩ := b1.reciprocal
      refine irreducible_exists hG'.one hG'.mul hG'.inv (hG'.reciprocal hUd) (symmetricGrid_det_ne hUd hN1 b1) m1 ?_
      rintro h0
      rw [h0] at m2
      simp at m2
      omega
    rcases a6 with a6 | a6
    · obtain ⟨pts, hpt⟩ := hpts (hG base types s.symm_flag)
      have := (hc base types s.symm_flag).irr _ _ _ b1 hpt
      rw [ho, this] at a6
      obtain ⟨ps, c1, c2⟩ := hscale hpt
      exact ⟨_, ps, .inl rfl, c1, c2.trans (Option.some.inj a6)⟩
    · obtain ⟨pts, hpt⟩ := hpts (hG0 base types s.symm_flag)
      have := (hc base types s.symm_flag).irrDefault _ _ _ b1 hpt
      rw [ho, this] at a6
      obtain ⟨ps, c1, c2⟩ := hscale hpt
      exact ⟨_, ps, .inr rfl, c1, c2.trans (Option.some.inj a6)⟩
  obtain ⟨syms, pts, c1, c2, c3⟩ := hsyms
  refine ⟨e, n, base, types, s.symm_flag, syms, pts, s_range, by rw [he'], p2, p5, q1, by omega, a1, real_scaled hdet b1,
    ?_, c1, c2, ?_⟩
  · have hd : e.sel.HNF.det ≠ 0 := by have := a2.2.1; omega
    rw [realMat_smul, a3]
    exact packedAtLeast_smul (hb.packed h hd a4).1
  intro K N pts' hN ht hK hpts'
  obtain ⟨gen, hgen, -⟩ := generatorOf_good env.wrap r.id k1 k2 hid hred
  have hn1 : 1 ≤ N := by
    rcases hN with hN | ⟨hN, -⟩ <;> omega
  have hfN : IntsFit env.wrap N := by
    rcases hN with hN | ⟨-, hN, -⟩
    · rw [hN]
      exact (findGrid_own _ (hl.irr base types s.symm_flag) env.wrap eps [(0, 0, 0)] s.min_kpts (env.root n) fuel r.id k1 k2 hid
        _ hred s_range (by omega) n h1 hfit e he' gen hgen).1
    · exact intsFit_mono hfit'' (by push_cast; have := le_max_right (fuel : ℤ) s_range; omega)
  have hb' : IrreduciblePoints ((realCell (cellOf d.columns))ᵀ)⁻¹ ((d.scale : ℝ) • K) 0
      (ops base types s.symm_flag) (pts'.map fun p => ((d.scale : ℝ) • p.1, p.2)) := by
    have := hpts'.smul hs
    rwa [smul_zero, hrec, smul_smul, mul_inv_cancel₀ hs, one_smul] at this
  obtain ⟨b, t1, t2⟩ := widest_bound h hid hb.reduction hb.root hmono (hb.built base types s.symm_flag)
    (hl.irr base types s.symm_flag) (hc base types s.symm_flag) env.wrap hn1 hfN ht (widest_unscaled hdet hK) hb' hgen
  rw [List.length_map] at t2
  have hpref : Preferred s.min_kpts n e.sel.n_irr e.nt_kpts b.n_irr N := by
    rcases hN with hN | ⟨hN, hN', hN''⟩
    · obtain ⟨-, m, t3⟩ := findGrid_own _ (hl.irr base types s.symm_flag) env.wrap eps [(0, 0, 0)] s.min_kpts (env.root n) fuel
        r.id k1 k2 hid _ hred s_range (by omega) n h1 hfit e he' gen hgen
      rw [← hN, t1] at t3
      cases t3
      rw [hN]
      unfold Preferred
      split <;> exact le_rfl
    · refine a7 N hN hN' gen hgen ?_ _ b t1
      obtain ⟨gen', hgen', hls⟩ := grids_general h hid env.wrap hn1 hfN
      rw [hgen] at hgen'
      cases hgen'
      obtain ⟨A, B, i1, i2, i3⟩ := several_unscaled hdet hN''
      obtain ⟨i, j1, -⟩ := hls.complete A i1
      obtain ⟨j, j2, -⟩ := hls.complete B i2
      have hij : i ≠ j := by
        rintro rfl
        exact i3 (j1.symm.trans j2)
      have hi := i.isLt.trans_eq (List.length_map _)
      have hj := j.isLt.trans_eq (List.length_map _)
      have : i.val ≠ j.val := fun h0 => hij (Fin.ext h0)
      omega
  rw [c3]
  have hn0 : 0 < e.nt_kpts := by omega
  unfold Preferred at hpref
  constructor
  · intro hx
    rw [if_neg] at hpref
    · exact hpref.trans t2
    · rintro ⟨y1, y2⟩
      rcases hx with hx | hx
      · rw [p6.2 hx] at y1
        cases y1
      · omega
  · intro hx hx'
    have : s.min_kpts = false := by
      rw [Bool.eq_false_iff]
      intro hy
      obtain ⟨p, w1, w2, w3⟩ := p6.1 hy
      exact hx p w1 w2 w3
    rw [if_pos ⟨this, hx'⟩] at hpref
    rw [div_le_div_iff₀ (by exact_mod_cast hn0) (by exact_mod_cast (by omega : 0 < N))]
    have t3 : (b.n_irr : ℤ) * e.nt_kpts ≤ pts'.length * e.nt_kpts :=
      mul_le_mul_of_nonneg_right (by exact_mod_cast t2) hn0.le
    exact_mod_cast hpref.trans t3

/-! ## The hypotheses are met

A tetragonal lattice with the sides 4, 4 and 5, before the factor 2 of `POSCAR`.  There are three symmetric grids with 2
points, whose smallest distances are 1/10, √(1/32) and 1/5; the first is not packed densely. -/

def tetPoscar : List (List Char) := mainPoscar "4 0 0".toList "0 4 0".toList "0 0 5".toList

def tetData : PoscarData := mainData (4, 0, 0) (0, 4, 0) (0, 0, 5)

def tetId : IdCell := ⟨⟨1, 0, 0, 0, 1, 0, 0, 0, 1⟩, ⟨1, 0, 0, 0, 1, 0, 0, 0, 1⟩, 11, some 25⟩

theorem tet_says : PoscarSays wordsReader tetPoscar tetData := mainPoscar_says (by decide) (by decide) (by decide)

theorem tet_det : (tetData.scale • tetData.columns).det ≠ 0 := main_det (by decide +kernel)

theorem tet_recognised : Recognised cmpEqual (cellOf tetData.columns) (8589935 / 2 ^ 33) (8589935 / 2 ^ 33) tetId :=
  recognised_of (A := 16) (B := 16) (C := 25) (D := 0) (E := 0) (F := 0) (by decide +kernel) (by decide +kernel)
    (by decide +kernel) (by constructor <;> norm_num [TypeI, TypeII]) (by constructor <;> decide +kernel)
    (by norm_num) (by decide)

theorem tet_realCell : realCell (cellOf tetData.columns) = !![4, 0, 0; 0, 4, 0; 0, 0, 5] := by
  have h5 : realCell (cellOf tetData.columns) = realMat tetData.columns := by
    unfold realCell
    rw [cellOf_toMatrix]
    rfl
  rw [h5]
  ext i j
  fin_cases i <;> fin_cases j <;> simp [realMat, tetData, mainData, PoscarData.columns, Spec.vec]

theorem gridLength_sq (K : Matrix (Fin 3) (Fin 3) ℝ) (v : Fin 3 → ℤ) {x : ℝ}
    (h : ∑ i, (K *ᵥ fun j => (v j : ℝ)) i ^ 2 = x) : gridLength K v = √x := by
  unfold gridLength
  rw [h]

/-- A smallest distance from the squares of the lengths. -/
theorem smallestDistance_of {K : Matrix (Fin 3) (Fin 3) ℝ} {x : ℝ} (q : ℤ → ℤ → ℤ → ℝ)
    (hq : ∀ v : Fin 3 → ℤ, ∑ i, (K *ᵥ fun j => (v j : ℝ)) i ^ 2 = q (v 0) (v 1) (v 2)) (w : Fin 3 → ℤ) (hw : w ≠ 0)
    (hx : q (w 0) (w 1) (w 2) = x) (hmin : ∀ a b c : ℤ, a ≠ 0 ∨ b ≠ 0 ∨ c ≠ 0 → x ≤ q a b c) : SmallestDistance K √x := by
  refine ⟨⟨w, hw, gridLength_sq K w ((hq w).trans hx)⟩, fun v hv => ?_⟩
  rw [gridLength_sq K v (hq v)]
  refine Real.sqrt_le_sqrt (hmin _ _ _ ?_)
  by_contra hcon
  push Not at hcon
  refine hv (funext fun i => ?_)
  fin_cases i
  · exact hcon.1
  · exact hcon.2.1
  · exact hcon.2.2

theorem sq_one_le {a : ℤ} (h : a ≠ 0) : (1 : ℝ) ≤ (a : ℝ) ^ 2 := by
  have : (1 : ℤ) ≤ a ^ 2 := by
    have := sq_nonneg a
    have : a ^ 2 ≠ 0 := pow_ne_zero 2 h
    omega
  exact_mod_cast this

theorem tet_gridOf {H : IntMat} (hH : H.det ≠ 0) {K : Matrix (Fin 3) (Fin 3) ℝ}
    (hK : K * (!![4, 0, 0; 0, 4, 0; 0, 0, 5] * toReal H)ᵀ = 1) : realMat (gridOf (cellOf tetData.columns) tetId H) = K := by
  have h := gridOf_real tet_recognised H hH 1
  have e : tetId.Cu.toMat = 1 := by decide
  have e' : tetId.Co.toMat = 1 := by decide
  rw [castMat_one, Matrix.mul_one, toReal_one, Matrix.mul_one, e, e', inv_one, Matrix.mul_one, Matrix.one_mul, Matrix.mul_one,
    tet_realCell] at h
  rw [h]
  exact inv_eq_left_inv hK

theorem tet_list : st_11 id 2 = [hnf 1 0 1 0 0 2, hnf 1 0 1 1 1 2, hnf 1 1 2 0 0 1] := by decide +kernel

theorem tet_body : SmallestDistance !![1 / 4, 0, -1 / 8; 0, 1 / 4, -1 / 8; 0, 0, 1 / 10] √(1 / 25) := by
  refine smallestDistance_of (fun a b c => (2 * (a : ℝ) - c) ^ 2 / 64 + (2 * (b : ℝ) - c) ^ 2 / 64 + (c : ℝ) ^ 2 / 100) ?_
    ![1, 1, 2] (by decide) ?_ ?_
  · intro v
    simp [mulVec, dotProduct, Fin.sum_univ_three]
    ring
  · simp; norm_num
  · intro a b c h
    have ha := sq_nonneg (2 * (a : ℝ) - c)
    have hb := sq_nonneg (2 * (b : ℝ) - c)
    rcases Int.even_or_odd c with ⟨m, hm⟩ | ⟨m, hm⟩
    · subst hm
      push_cast at ha hb ⊢
      by_cases hm0 : m = 0
      · subst hm0
        have : a ≠ 0 ∨ b ≠ 0 := by omega
        rcases this with h | h <;> have := sq_one_le h <;> push_cast <;> nlinarith
      · have := sq_one_le hm0
        nlinarith
    · have h1 := sq_one_le (a := 2 * a - c) (by omega)
      have h2 := sq_one_le (a := 2 * b - c) (by omega)
      have h3 := sq_one_le (a := c) (by omega)
      push_cast at h1 h2
      linarith

/-- The smallest distances of the symmetric grids with 2 points. -/
theorem tet_distances {K : Matrix (Fin 3) (Fin 3) ℝ} (hK : SymmetricGrid (realCell (cellOf tetData.columns)) K 2) :
    SmallestDistance K √(1 / 100) ∨ SmallestDistance K √(1 / 25) ∨ SmallestDistance K √(1 / 32) := by
  have hU := tet_recognised.real_det
  obtain ⟨gen, hgen, hl⟩ := grids_general tet_recognised (by decide) id (n := 2) (by norm_num) (.inl rfl)
  have hgen' : gen = st_11 id := (Option.some.inj hgen).symm
  rw [hgen'] at hl
  obtain ⟨i, hi, -⟩ := hl.complete K hK
  obtain ⟨H, hH, hHe⟩ := List.mem_map.1 (List.get_mem _ i)
  rw [← hHe] at hi
  have hg := hl.sound _ (List.mem_map_of_mem hH)
  have tr : ∀ {l}, SmallestDistance (realMat (gridOf (cellOf tetData.columns) tetId H)) l → SmallestDistance K l :=
    smallestDistance_points (symmetricGrid_det_ne hU (by norm_num) hg) (symmetricGrid_det_ne hU (by norm_num) hK) hi
  rw [tet_list] at hH
  simp only [List.mem_cons, List.not_mem_nil, or_false] at hH
  rcases hH with e | e | e
  · left
    apply tr
    rw [tet_gridOf (K := !![1 / 4, 0, 0; 0, 1 / 4, 0; 0, 0, 1 / 10]) (by rw [e]; decide) (by
      rw [e]
      ext i j
      fin_cases i <;> fin_cases j <;> simp [toReal, hnf, Matrix.mul_apply, vecMul, dotProduct, Fin.sum_univ_three] <;> norm_num)]
    refine smallestDistance_of (fun a b c => (a : ℝ) ^ 2 / 16 + (b : ℝ) ^ 2 / 16 + (c : ℝ) ^ 2 / 100) ?_ ![0, 0, 1] (by decide) ?_ ?_
    · intro v
      simp [mulVec, dotProduct, Fin.sum_univ_three]
      ring
    · simp
    · intro a b c h
      have ha := sq_nonneg (a : ℝ)
      have hb := sq_nonneg (b : ℝ)
      have hc := sq_nonneg (c : ℝ)
      rcases h with h | h | h <;> have := sq_one_le h <;> linarith
  · right; left
    apply tr
    rw [tet_gridOf (K := !![1 / 4, 0, -1 / 8; 0, 1 / 4, -1 / 8; 0, 0, 1 / 10]) (by rw [e]; decide) (by
      rw [e]
      ext i j
      fin_cases i <;> fin_cases j <;> simp [toReal, hnf, Matrix.mul_apply, vecMul, dotProduct, Fin.sum_univ_three] <;> norm_num)]
    exact tet_body
  · right; right
    apply tr
    rw [tet_gridOf (K := !![1 / 4, -1 / 8, 0; 0, 1 / 8, 0; 0, 0, 1 / 5]) (by rw [e]; decide) (by
      rw [e]
      ext i j
      fin_cases i <;> fin_cases j <;> simp [toReal, hnf, Matrix.mul_apply, vecMul, dotProduct, Fin.sum_univ_three] <;> norm_num)]
    refine smallestDistance_of (fun a b c => (2 * (a : ℝ) - b) ^ 2 / 64 + (b : ℝ) ^ 2 / 64 + (c : ℝ) ^ 2 / 25) ?_
      ![0, 1, 0] (by decide) ?_ ?_
    · intro v
      simp [mulVec, dotProduct, Fin.sum_univ_three]
      ring
    · simp; norm_num
    · intro a b c h
      have ha := sq_nonneg (2 * (a : ℝ) - b)
      have hb := sq_nonneg (b : ℝ)
      have hc := sq_nonneg (c : ℝ)
      by_cases hc0 : c = 0
      · rcases Int.even_or_odd b with ⟨m, hm⟩ | ⟨m, hm⟩
        · by_cases hm0 : m = 0
          · have := sq_one_le (a := a) (by omega)
            subst hm hm0
            push_cast
            nlinarith
          · have := sq_one_le hm0
            subst hm
            push_cast at *
            nlinarith
        · have h1 := sq_one_le (a := 2 * a - b) (by omega)
          have h2 := sq_one_le (a := b) (by omega)
          push_cast at h1
          linarith
      · have := sq_one_le hc0
        linarith

/-- The body centred grid with 2 points. -/
noncomputable def tetGrid : Matrix (Fin 3) (Fin 3) ℝ := !![1 / 8, 0, -1 / 16; 0, 1 / 8, -1 / 16; 0, 0, 1 / 20]

theorem tet_grid_unscaled : SymmetricGrid (realCell (cellOf tetData.columns)) ((2 : ℝ) • tetGrid) 2 ∧
    (2 : ℝ) • tetGrid = !![1 / 4, 0, -1 / 8; 0, 1 / 4, -1 / 8; 0, 0, 1 / 10] := by
  have e2 : (2 : ℝ) • tetGrid = !![1 / 4, 0, -1 / 8; 0, 1 / 4, -1 / 8; 0, 0, 1 / 10] := by
    ext i j
    fin_cases i <;> fin_cases j <;> simp [tetGrid] <;> norm_num
  refine ⟨?_, e2⟩
  obtain ⟨gen, hgen, hl⟩ := grids_general tet_recognised (by decide) id (n := 2) (by norm_num) (.inl rfl)
  have hgen' : gen = st_11 id := (Option.some.inj hgen).symm
  have hm : hnf 1 0 1 1 1 2 ∈ gen 2 := by
    rw [hgen', tet_list]
    simp
  have := hl.sound _ (List.mem_map_of_mem hm)
  rw [tet_gridOf (K := !![1 / 4, 0, -1 / 8; 0, 1 / 4, -1 / 8; 0, 0, 1 / 10]) (by decide) (by
      ext i j
      fin_cases i <;> fin_cases j <;> simp [toReal, hnf, Matrix.mul_apply, vecMul, dotProduct, Fin.sum_univ_three] <;> norm_num)]
    at this
  rw [e2]
  exact this

theorem smallestDistance_unique {K : Matrix (Fin 3) (Fin 3) ℝ} {l l' : ℝ} (h : SmallestDistance K l) (h' : SmallestDistance K l') :
    l = l' := by
  obtain ⟨⟨u, hu, e⟩, m⟩ := h
  obtain ⟨⟨u', hu', e'⟩, m'⟩ := h'
  exact le_antisymm (e' ▸ m u' hu') (e ▸ m' u hu)

theorem tet_several : SeveralGrids (realMat (tetData.scale • tetData.columns)) 2 := by
  have hs : (tetData.scale : ℝ) = 2 := by norm_num [tetData, mainData]
  obtain ⟨gen, hgen, hl⟩ := grids_general tet_recognised (by decide) id (n := 2) (by norm_num) (.inl rfl)
  have hgen' : gen = st_11 id := (Option.some.inj hgen).symm
  have hlen : ((gen 2).map fun H => realMat (gridOf (cellOf tetData.columns) tetId H)).length = 3 := by
    rw [List.length_map, hgen', tet_list]
    rfl
  generalize ((gen 2).map fun H => realMat (gridOf (cellOf tetData.columns) tetId H)) = L at hl hlen
  let i : Fin L.length := ⟨0, by omega⟩
  let j : Fin L.length := ⟨1, by omega⟩
  have hc : ∀ K : Matrix (Fin 3) (Fin 3) ℝ, (tetData.scale : ℝ) • ((1 / 2 : ℝ) • K) = K := by
    intro K
    rw [hs, smul_smul]
    norm_num
  refine ⟨(1 / 2 : ℝ) • L.get i, (1 / 2 : ℝ) • L.get j, (symmetricGrid_unscaled tet_det).2 ?_,
    (symmetricGrid_unscaled tet_det).2 ?_, fun he => ?_⟩
  · rw [hc]
    exact hl.sound _ (List.get_mem _ _)
  · rw [hc]
    exact hl.sound _ (List.get_mem _ _)
  · have he' : gridPoints (L.get i) = gridPoints (L.get j) := by
      have key : ∀ (A : Matrix (Fin 3) (Fin 3) ℝ) x, x ∈ gridPoints A ↔ (1 / 2 : ℝ) • x ∈ gridPoints ((1 / 2 : ℝ) • A) := by
        intro A x
        refine exists_congr fun z => ?_
        rw [smul_mulVec, (smul_right_injective (Fin 3 → ℝ) (by norm_num : (1 / 2 : ℝ) ≠ 0)).eq_iff]
      ext x
      rw [key, he, ← key]
    obtain ⟨l, -, hu⟩ := hl.complete _ (hl.sound _ (List.get_mem L j))
    have h1 := hu i he'
    have h2 := hu j rfl
    have := congrArg Fin.val (h1.trans h2.symm)
    simp [i, j] at this

theorem tet_roots : √(1 / 25 : ℝ) = 1 / 5 ∧ √(1 / 100 : ℝ) = 1 / 10 ∧ 1767 / 10000 ≤ √(1 / 32 : ℝ) ∧ √(1 / 32 : ℝ) ≤ 1768 / 10000 := by
  refine ⟨?_, ?_, ?_, ?_⟩
  · rw [show (1 / 25 : ℝ) = (1 / 5) ^ 2 by norm_num, Real.sqrt_sq (by norm_num)]
  · rw [show (1 / 100 : ℝ) = (1 / 10) ^ 2 by norm_num, Real.sqrt_sq (by norm_num)]
  · exact Real.le_sqrt_of_sq_le (by norm_num)
  · rw [Real.sqrt_le_left (by norm_num)]
    norm_num

/-- Of the densely packed symmetric grids with 2 points it is the one whose points are farthest apart. -/
theorem tet_widest : Widest (realMat (tetData.scale • tetData.columns)) 2 tetGrid := by
  have hs : (tetData.scale : ℝ) = 2 := by norm_num [tetData, mainData]
  obtain ⟨g1, g2⟩ := tet_grid_unscaled
  obtain ⟨t1, t2, -, t4⟩ := tet_roots
  have hd : SmallestDistance ((2 : ℝ) • tetGrid) √(1 / 25) := by
    rw [g2]
    exact tet_body
  have hback : ∀ K : Matrix (Fin 3) (Fin 3) ℝ, (1 / 2 : ℝ) • ((2 : ℝ) • K) = K := by
    intro K
    rw [smul_smul]
    norm_num
  refine ⟨(symmetricGrid_unscaled tet_det).2 (by rw [hs]; exact g1), ?_, |1 / 2| * √(1 / 25), ?_, ?_⟩
  · rw [← hback tetGrid]
    refine packedAtLeast_smul fun v hv => ?_
    have h1 := hd.2 v hv
    rw [t1] at h1
    have h2 : ((2 : ℝ) • tetGrid).det = 1 / 160 := by
      rw [g2, det_fin_three]
      simp
      norm_num
    rw [h2]
    have h3 := pow_le_pow_left₀ (by norm_num) h1 3
    have := Real.pi_gt_three
    rw [abs_of_pos (by norm_num)]
    nlinarith
  · have := smallestDistance_smul (s := 1 / 2) hd
    rwa [hback] at this
  · intro K' l' k1 _ k3
    have k1' := (symmetricGrid_unscaled tet_det).1 k1
    rw [hs] at k1'
    have k3' := smallestDistance_smul (s := 2) k3
    rw [t1, abs_of_pos (by norm_num : (0 : ℝ) < 1 / 2)]
    rw [abs_of_pos (by norm_num : (0 : ℝ) < 2)] at k3'
    rcases tet_distances k1' with h | h | h <;> have := smallestDistance_unique k3' h <;> linarith

theorem tet_apart (hs : SqrtOk sqrt) : TellsApart sampleEqual (8589935 / 2 ^ 33) sqrt (realCell (cellOf tetData.columns)) 2 := by
  obtain ⟨t1, t2, t3, t4⟩ := tet_roots
  have hx : ∀ {K : Matrix (Fin 3) (Fin 3) ℝ} {x : ℚ}, SymmetricGrid (realCell (cellOf tetData.columns)) K 2 → 0 ≤ x →
      SmallestDistance K √(x : ℝ) → x = 1 / 100 ∧ (99 / 1000 ≤ sqrt x ∧ sqrt x ≤ 101 / 1000) ∨
        x = 1 / 25 ∧ (199 / 1000 ≤ sqrt x ∧ sqrt x ≤ 201 / 1000) ∨
        x = 1 / 32 ∧ (176 / 1000 ≤ sqrt x ∧ sqrt x ≤ 178 / 1000) := by
    intro K x hK hx hd
    have h1 := abs_le.1 (hs x hx)
    have h0 : (0 : ℝ) ≤ x := by exact_mod_cast hx
    have key : ∀ {y lo hi : ℚ}, 0 ≤ y → SmallestDistance K √(y : ℝ) → (lo : ℝ) ≤ √(y : ℝ) - 1 / 1000 * √(y : ℝ) →
        √(y : ℝ) + 1 / 1000 * √(y : ℝ) ≤ hi → x = y ∧ (lo ≤ sqrt x ∧ sqrt x ≤ hi) := by
      intro y lo hi hy h k1 k2
      have hu := smallestDistance_unique hd h
      rw [hu] at h1
      refine ⟨?_, ?_, ?_⟩
      · have := (Real.sqrt_inj h0 (by exact_mod_cast hy)).1 hu
        exact_mod_cast this
      · have : (lo : ℝ) ≤ sqrt x := by linarith [h1.1]
        exact_mod_cast this
      · have : (sqrt x : ℝ) ≤ hi := by linarith [h1.2]
        exact_mod_cast this
    rcases tet_distances hK with h | h | h
    · left
      refine key (by norm_num) (by push_cast; exact h) ?_ ?_ <;> push_cast <;> rw [t2] <;> norm_num
    · right; left
      refine key (by norm_num) (by push_cast; exact h) ?_ ?_ <;> push_cast <;> rw [t1] <;> norm_num
    · right; right
      refine key (by norm_num) (by push_cast; exact h) ?_ ?_ <;> push_cast <;> linarith
  have hone : ∀ r : ℚ, 99 / 1000 ≤ r → 0 < r ∧ r * (8589935 / 2 ^ 33) < r ∧ sampleEqual r 0 = false := by
    intro r hr
    refine ⟨by linarith, by linarith, ?_⟩
    unfold sampleEqual
    rw [decide_eq_false_iff_not, sub_zero, abs_of_pos (by linarith)]
    linarith
  have hself : ∀ r : ℚ, sampleEqual r r = true := by
    intro r
    unfold sampleEqual
    rw [decide_eq_true_iff, sub_self, abs_zero]
    norm_num
  have htwo : ∀ r r' : ℚ, r' + 1 / 100 ≤ r → r ≤ 1 → r' + r * (8589935 / 2 ^ 33) < r ∧ sampleEqual r r' = false ∧ sampleEqual r' r = false := by
    intro r r' h1 h2
    refine ⟨by linarith, ?_, ?_⟩ <;> unfold sampleEqual <;> rw [decide_eq_false_iff_not]
    · rw [abs_of_pos (by linarith)]
      linarith
    · rw [abs_of_neg (by linarith)]
      linarith
  intro K K' x x' hK hK' h0 h0' hd hd'
  have a := hx hK h0 hd
  have b := hx hK' h0' hd'
  have ha : 99 / 1000 ≤ sqrt x := by rcases a with ⟨-, a⟩ | ⟨-, a⟩ | ⟨-, a⟩ <;> linarith [a.1]
  have hb : 99 / 1000 ≤ sqrt x' := by rcases b with ⟨-, b⟩ | ⟨-, b⟩ | ⟨-, b⟩ <;> linarith [b.1]
  refine ⟨by norm_num, ?_, ?_, ?_⟩
  · intro r hr
    simp only [List.mem_cons, List.not_mem_nil, or_false] at hr
    rcases hr with rfl | rfl
    · exact hone _ ha
    · exact hone _ hb
  · intro r _
    exact hself r
  · intro r hr r' hr' hlt
    have hup : x = x' ∨ (sqrt x ≤ 1 ∧ sqrt x' ≤ 1 ∧ (sqrt x' + 1 / 100 ≤ sqrt x ∨ sqrt x + 1 / 100 ≤ sqrt x')) := by
      rcases a with ⟨rfl, a1, a2⟩ | ⟨rfl, a1, a2⟩ | ⟨rfl, a1, a2⟩ <;> rcases b with ⟨rfl, b1, b2⟩ | ⟨rfl, b1, b2⟩ | ⟨rfl, b1, b2⟩ <;>
        first
          | exact .inl rfl
          | (right; refine ⟨by linarith, by linarith, .inl (by linarith)⟩)
          | (right; refine ⟨by linarith, by linarith, .inr (by linarith)⟩)
    simp only [List.mem_cons, List.not_mem_nil, or_false] at hr hr'
    rcases hup with rfl | ⟨u1, u2, u3⟩
    · rcases hr with rfl | rfl <;> rcases hr' with rfl | rfl <;> exact absurd hlt (lt_irrefl _)
    · rcases hr with rfl | rfl <;> rcases hr' with rfl | rfl
      · exact absurd hlt (lt_irrefl _)
      · exact htwo _ _ (by rcases u3 with u3 | u3 <;> linarith) u1
      · exact htwo _ _ (by rcases u3 with u3 | u3 <;> linarith) u2
      · exact absurd hlt (lt_irrefl _)

def twoKpgen : List (List Char) := ["NKPTS=2".toList, "SHIFT=0 0 0".toList]

def twoSettings : List (Key × List Char) := [(.nkpts, "2".toList), (.shift, "0 0 0".toList)]

theorem twoKpgen_says : FileSays twoKpgen twoSettings :=
  .sets ⟨0, by decide⟩ (.sets ⟨0, by decide⟩ .nil)

theorem two_asks {vol : ℚ} {natoms n : ℤ} (h : Asks wordsReader piLit rt2Double natoms vol .nkpts "2".toList n) : n = 2 :=
  Option.some.inj (Eq.trans (Eq.symm h) (by decide))

/-- C107 for this crystal and at least 2 points: the grid returned does not have more irreducible points than the body centred
grid with 2 points. -/
example (hm : Minkowski mink) (hs : SqrtOk sqrt) (hmono : ∀ x y : ℚ, 0 ≤ x → x ≤ y → sqrt x ≤ sqrt y) (junk : ℤ) (fuel : ℕ) :
    program (totalEnv mink sqrt) wordsReader junk rt2Double fuel tetPoscar twoKpgen = .error (.grid .running) ∨
    ∃ e pts, program (totalEnv mink sqrt) wordsReader junk rt2Double fuel tetPoscar twoKpgen = .ok e ∧
      IrreduciblePoints ((realMat (tetData.scale • tetData.columns))ᵀ)⁻¹ (realMat (tetData.scale⁻¹ • e.sel.grid)) 0
        (allOps (realCell (cellOf tetData.columns))) pts ∧
      ∀ pts', IrreduciblePoints ((realMat (tetData.scale • tetData.columns))ᵀ)⁻¹ tetGrid 0
          (allOps (realCell (cellOf tetData.columns))) pts' → pts.length ≤ pts'.length := by
  obtain ⟨r1, r2, r3, r4⟩ := rt2Double_bounds
  rcases program_best_general (env := totalEnv mink sqrt) (mink := mink) (sqrt := sqrt)
    (junk := junk) (fuel := fuel) tet_says tet_det (by linarith) twoKpgen_says
    ⟨by
      intro p hp
      simp only [twoSettings, List.mem_cons, List.not_mem_nil, or_false] at hp
      rcases hp with rfl | rfl
      · exact ⟨2, by decide⟩
      · exact ⟨(0, 0, 0), by decide⟩, by
      intro p hp n hn
      simp only [twoSettings, List.mem_cons, List.not_mem_nil, or_false] at hp
      rcases hp with rfl | rfl
      · rw [two_asks hn]
        norm_num
      · exact absurd hn (by simp [Asks])⟩ (k := .nkpts)
    (v := "2".toList) rfl rfl (by decide) tet_recognised (totalEnv_built hm hs _ _ _) hmono
    (ops := fun _ _ _ => allOps (realCell (cellOf tetData.columns)))
    (ops0 := fun _ _ _ => allOps (realCell (cellOf tetData.columns)))
    (fun _ _ _ => latticeGroup_all tet_recognised.real_det) (fun _ _ _ => latticeGroup_all tet_recognised.real_det)
    (fun _ _ _ => totalEnv_counts tet_recognised.real_det ..)
    (fun n hn => by
      rw [two_asks hn]
      exact ⟨by norm_num, fun _ _ => .inl rfl⟩) (by decide) with h | h
  · exact .inl h
  · right
    obtain ⟨e, n, base, types, flag, syms, pts, s_range, a1, a2, -, a3, -, -, -, -, a4, a5, a6⟩ := h
    have hn := two_asks a2
    subst hn
    have hsr : s_range = 25 := (Option.some.inj a3).symm
    have hsy : syms = allOps (realCell (cellOf tetData.columns)) := a4.elim id id
    rw [hsy] at a5
    refine ⟨e, pts, a1, a5, fun pts' hp => ?_⟩
    exact (a6 tetGrid 2 pts' (.inr ⟨le_rfl, by rw [hsr]; norm_num, tet_several⟩) (tet_apart hs) tet_widest hp).1 (.inr (by norm_num))

end AutoGR.Fortran
