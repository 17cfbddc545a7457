import Verif.Props.TriclinicGrid

/-!
# C102 for the triclinic lattices

The supercells of a triclinic lattice are listed in the basis of the user, so that of several grids that are equally good the
one that is found first may be another one for another cell.  What is the same is the number of points, the number of
irreducible points and the smallest distance.
-/

namespace AutoGR.Fortran

open Spec Matrix

variable {G Off : Type}

theorem Alike.symm {lib lib' : Lib G Off} {o : Off} {H H' : Mat3} (h : Alike lib lib' o H H') : Alike lib' lib o H' H :=
  ⟨h.rmin.symm, h.packed.symm, h.irr.symm, h.irrDefault.symm⟩

/-- If nothing is found in one list, nothing is found in the other one that holds the same grids. -/
theorem tryHNFs_none_alike {lib lib' : Lib G Off} (eps : ℚ) (o : Off)
    (hirr : ∀ g o m, lib.irr g o = some m → 1 ≤ m) (hirr' : ∀ g o m, lib'.irr g o = some m → 1 ≤ m)
    {Hs Hs' : List Mat3} (h2 : ∀ H' ∈ Hs', ∃ H ∈ Hs, Alike lib lib' o H H') (hne : Hs' ≠ [])
    (hcount : ∀ H ∈ Hs, lib.irr (lib.geom H).grid o ≠ none)
    (hpos : ∀ H ∈ Hs, (lib.geom H).packed = true → (lib.geom H).rmin * eps < (lib.geom H).rmin) {n : ℕ}
    (hb : tryHNFs lib.equal eps lib.geom lib.irr lib.irrDefault [o] Hs = .ok ⟨n, none⟩) :
    tryHNFs lib'.equal eps lib'.geom lib'.irr lib'.irrDefault [o] Hs' = .ok ⟨Hs'.length, none⟩ := by
  obtain ⟨q, q1, q2⟩ := tryHNFs_ok lib' hirr' eps [o] Hs' hne
  cases q with
  | none => exact q1
  | some b' =>
    exfalso
    have hch := q2 b' rfl
    obtain ⟨H, hH, e⟩ := h2 _ hch.mem
    have hp : (lib.geom H).packed = true := by rw [← e.packed, hch.packed]
    obtain ⟨b, hb'⟩ := tryHNFs_some_on lib hirr eps o Hs hcount H hH hp (hpos H hH hp)
    rw [hb] at hb'
    cases hb'

theorem sameCrystal_symm {R U U' : Matrix (Fin 3) (Fin 3) ℝ} (h : SameCrystal 1 R U U') : SameCrystal 1 Rᵀ U' U := by
  obtain ⟨-, hR, W, hW, e⟩ := h
  rw [one_smul] at e
  refine ⟨one_pos, by rw [transpose_transpose]; exact mul_eq_one_comm.1 hR, W⁻¹, ?_, ?_⟩
  · rw [det_nonsing_inv]
    exact hW.ringInverse
  · have hWW : toReal W * toReal W⁻¹ = 1 := toReal_inv_mul hW
    rw [one_smul, e]
    calc U = (Rᵀ * R) * U * (toReal W * toReal W⁻¹) := by rw [hR, hWW, Matrix.one_mul, Matrix.mul_one]
      _ = _ := by simp only [Matrix.mul_assoc]

theorem sameGrid_symm {R K K' : Matrix (Fin 3) (Fin 3) ℝ} (hR : Rᵀ * R = 1) (h : SameGrid 1 R K K') : SameGrid 1 Rᵀ K' K :=
  (sameCrystal_symm ⟨one_pos, hR, h⟩).2.2

theorem sameCrystal_multiple {R U U' : Matrix (Fin 3) (Fin 3) ℝ} (h : SameCrystal 1 R U U') (s : ℝ) :
    SameCrystal 1 R (s • U) (s • U') := by
  obtain ⟨h0, hR, W, hW, e⟩ := h
  refine ⟨h0, hR, W, hW, ?_⟩
  rw [one_smul] at e ⊢
  rw [e, Matrix.mul_smul, Matrix.smul_mul]

/-- Two bases of the same points. -/
theorem sameGrid_of_points {R K K' : Matrix (Fin 3) (Fin 3) ℝ} (hK : K'.det ≠ 0) (h : gridPoints K' = gridPoints (R * K)) :
    SameGrid 1 R K K' := by
  obtain ⟨Y, hY⟩ := gridPoints_sub h.subset
  obtain ⟨Z, hZ⟩ := gridPoints_sub h.symm.subset
  refine ⟨Y, ?_, by rw [one_smul]; exact hY⟩
  have e : K' * (toReal Z * toReal Y) = K' * 1 := by rw [← Matrix.mul_assoc, ← hZ, ← hY, Matrix.mul_one]
  have e' : toReal Z * toReal Y = 1 := by
    have := congrArg (K'⁻¹ * ·) e
    simp only [← Matrix.mul_assoc] at this
    rwa [nonsing_inv_mul _ (isUnit_iff_ne_zero.2 hK), Matrix.one_mul, Matrix.mul_one] at this
  have hd := congrArg Matrix.det e'
  rw [det_mul, toReal_det, toReal_det, Matrix.det_one] at hd
  exact IsUnit.of_mul_eq_one Z.det (by rw [mul_comm]; exact_mod_cast hd)

/-- Every grid of one list is in the other list. -/
theorem listed_same {R V V' : Matrix (Fin 3) (Fin 3) ℝ} {n : ℤ} {Ks Ks' : List (Matrix (Fin 3) (Fin 3) ℝ)} (hn : 1 ≤ n)
    (hV' : V'.det ≠ 0) (hs : SameCrystal 1 R V V') (h : ListsGrids V n Ks) (h' : ListsGrids V' n Ks') :
    ∀ K ∈ Ks, ∃ K' ∈ Ks', SameGrid 1 R K K' := by
  intro K hK
  have h1 : SymmetricGrid V' (R * K) n := symmetricGrid_same hs ⟨1, by simp, by rw [one_smul, toReal_one, Matrix.mul_one]⟩
    (h.sound K hK)
  obtain ⟨i, hi, -⟩ := h'.complete _ h1
  exact ⟨_, List.get_mem _ i, sameGrid_of_points (symmetricGrid_det_ne hV' hn (h'.sound _ (List.get_mem _ i))) hi⟩

variable {R : Matrix (Fin 3) (Fin 3) ℝ} {equal : ℚ → ℚ → ℚ → Bool} {U U' : RMat ℚ} {eps rho rho' : ℚ} {r r' : IdCell}
  {env : Env (Matrix (Fin 3) (Fin 3) ℚ)} {mink : Matrix (Fin 3) (Fin 3) ℚ → Matrix (Fin 3) (Fin 3) ℚ}
  {sqrt : ℚ → ℚ} {ops ops0 : Set (Matrix (Fin 3) (Fin 3) ℝ)} {lib lib' : Lib (Matrix (Fin 3) (Fin 3) ℚ) Offset}

/-- What is known about the grids of the supercells of a list, without assumptions on the square root. -/
theorem listed_grid {V : Matrix (Fin 3) (Fin 3) ℝ} (hV : V.det ≠ 0) (hm : Minkowski mink) (hb : BuiltFrom mink sqrt U r lib)
    {n : ℤ} (hn : 1 ≤ n) {L : List Mat3} (hl : ListsGrids V n (L.map fun H => realMat (gridOf U r H))) :
    ∀ H ∈ L, (gridOf U r H).det ≠ 0 ∧ (lib.geom H).grid = mink (gridOf U r H) ∧
      SymmetricGrid V (realMat (lib.geom H).grid) n := by
  intro H hH
  have hgrid := hl.sound _ (List.mem_map_of_mem hH)
  have hdet : (gridOf U r H).det ≠ 0 := by
    intro h0
    refine symmetricGrid_det_ne hV hn hgrid ?_
    rw [realMat_det, h0, Rat.cast_zero]
  have e : (lib.geom H).grid = mink (gridOf U r H) := by rw [hb.geom]; rfl
  refine ⟨hdet, e, ?_⟩
  obtain ⟨⟨W, hW, hW'⟩, -⟩ := hm _ hdet
  rw [e, hW', realMat_mul, realMat_castMat]
  exact symmetricGrid_basis hgrid hW

theorem lengthsApart_listed {V : Matrix (Fin 3) (Fin 3) ℝ} (hV : V.det ≠ 0) (hm : Minkowski mink)
    (hmono : ∀ x y : ℚ, 0 ≤ x → x ≤ y → sqrt x ≤ sqrt y) (hb : BuiltFrom mink sqrt U r lib)
    {n : ℤ} (hn : 1 ≤ n) {L : List Mat3} (hL : L ≠ []) (hl : ListsGrids V n (L.map fun H => realMat (gridOf U r H)))
    (ht : TellsApart lib.equal eps sqrt V n) : LengthsApart lib.equal eps (lengthsOf lib.geom L) := by
  have hlen : ∀ H ∈ L, SymmetricGrid V (realMat (lib.geom H).grid) n ∧
      ∃ x : ℚ, 0 ≤ x ∧ (lib.geom H).rmin = sqrt x ∧ SmallestDistance (realMat (lib.geom H).grid) √(x : ℝ) := by
    intro H hH
    obtain ⟨g1, g2, g3⟩ := listed_grid hV hm hb hn hl H hH
    obtain ⟨x, x0, x1, x2, x3⟩ := rmin_eq hmono (hm _ g1).2.2
    refine ⟨g3, x, x0, by rw [hb.geom]; exact x1, ?_⟩
    rw [g2]
    exact ⟨x2, x3⟩
  obtain ⟨H0, hH0⟩ := List.exists_mem_of_ne_nil _ hL
  obtain ⟨g0, y, y0, y1, y2⟩ := hlen H0 hH0
  refine ⟨(ht _ _ y y g0 g0 y0 y0 y2 y2).nonneg, ?_, ?_, ?_⟩
  · intro y hy
    obtain ⟨H', hH', -, rfl⟩ := mem_lengthsOf.1 hy
    obtain ⟨q2, x', x0', x1', x2'⟩ := hlen H' hH'
    rw [x1']
    exact (ht _ _ x' x' q2 q2 x0' x0' x2' x2').zero _ (by simp)
  · intro y hy
    obtain ⟨H', hH', -, rfl⟩ := mem_lengthsOf.1 hy
    obtain ⟨q2, x', x0', x1', x2'⟩ := hlen H' hH'
    rw [x1']
    exact (ht _ _ x' x' q2 q2 x0' x0' x2' x2').same _ (by simp)
  · intro y hy z hz
    obtain ⟨H', hH', -, rfl⟩ := mem_lengthsOf.1 hy
    obtain ⟨q2, x', x0', x1', x2'⟩ := hlen H' hH'
    obtain ⟨H'', hH'', -, rfl⟩ := mem_lengthsOf.1 hz
    obtain ⟨t2, x'', x0'', x1'', x2''⟩ := hlen H'' hH''
    rw [x1', x1'']
    exact (ht _ _ x' x'' q2 t2 x0' x0'' x2' x2'').apart _ (by simp) _ (by simp)

/-- The grids of the two lists of supercells look the same to the program. -/
theorem tric_alike (hs : SameCrystal 1 R (realCell U) (realCell U')) (h : Recognised equal U eps rho r)
    (h' : Recognised equal U' eps rho' r') (hid : r.id ∈ [31, 44]) (hid' : r'.id ∈ [31, 44])
    (hb : BothRight env mink sqrt R ops ops0 U U' r r' eps lib lib') {n m : ℤ} (hn : 1 ≤ n) (hm : 1 ≤ m) :
    (∀ H ∈ (tric_31_44 n).map (m • ·), ∃ H' ∈ (tric_31_44 n).map (m • ·), Alike lib lib' (0, 0, 0) H H') ∧
    (∀ H' ∈ (tric_31_44 n).map (m • ·), ∃ H ∈ (tric_31_44 n).map (m • ·), Alike lib lib' (0, 0, 0) H H') := by
  have hl := grids_tric_multiple h hid hn hm
  have hl' := grids_tric_multiple h' hid' hn hm
  have hV := smul_det_ne h.real_det hm
  have hV' := smul_det_ne h'.real_det hm
  have hsm := sameCrystal_multiple hs (m : ℝ)
  have key : ∀ H ∈ (tric_31_44 n).map (m • ·), ∀ H' ∈ (tric_31_44 n).map (m • ·),
      SameGrid 1 R (realMat (gridOf U r H)) (realMat (gridOf U' r' H')) → Alike lib lib' (0, 0, 0) H H' := by
    intro H hH H' hH' hg
    obtain ⟨g1, g2, g3⟩ := listed_grid hV hb.reduction hb.built hn hl H hH
    obtain ⟨g1', g2', g3'⟩ := listed_grid hV' hb.reduction hb.built' hn hl' H' hH'
    obtain ⟨c1, c2, c3⟩ := compareGeom_same (sqrt := sqrt) hb.reduction hb.root hs.2.1 g1 g1' hg
    rw [← hb.built.geom, ← hb.built'.geom] at c1 c2 c3
    obtain ⟨i1, i2⟩ := irr_same h.real_det hs hb.group hb.group0 hb.counts hb.counts'
      ⟨⟨_, symmetricGrid_multiple h.real_det hm g3⟩, c1⟩
    exact ⟨c2, c3, i1, i2⟩
  constructor
  · intro H hH
    obtain ⟨K', hK', hg⟩ := listed_same hn hV' hsm hl hl' _ (List.mem_map_of_mem hH)
    obtain ⟨H', hH', rfl⟩ := List.mem_map.1 hK'
    exact ⟨H', hH', key H hH H' hH' hg⟩
  · intro H' hH'
    obtain ⟨K, hK, hg⟩ := listed_same hn hV (sameCrystal_symm hsm) hl' hl _ (List.mem_map_of_mem hH')
    obtain ⟨H, hH, rfl⟩ := List.mem_map.1 hK
    refine ⟨H, hH, key H hH H' hH' ?_⟩
    have := sameGrid_symm (by rw [transpose_transpose]; exact mul_eq_one_comm.1 hs.2.1) hg
    rwa [transpose_transpose] at this

variable {base base' : List (Fin 3 → ℚ)} {types types' : List ℕ} {flag : ℕ}

/-- C102, for the triclinic lattices, without a shift: for two descriptions of one crystal `find_grid` fails in the same way, or
it finds grids with the same number of points.  They have the same number of irreducible points and their points are
equally far apart, as far as the computed square root can tell, provided that the comparison with a tolerance tells the smallest
distances of the grids with this number of points apart. -/
theorem find_grid_same_tric_partial (hs : SameCrystal 1 R (realCell U) (realCell U'))
    (h : Recognised env.equal U eps rho r) (h' : Recognised env.equal U' eps rho' r') (hid : r.id ∈ [31, 44])
    (hb : BothRight env mink sqrt R ops ops0 U U' r r' eps (env.lib U base types flag eps r)
      (env.lib U' base' types' flag eps r'))
    (hirr : ∀ g o m, (env.lib U base types flag eps r).irr g o = some m → 1 ≤ m)
    (hdef : ∀ g o m, (env.lib U base types flag eps r).irrDefault g o = some m → 1 ≤ m)
    (hirr' : ∀ g o m, (env.lib U' base' types' flag eps r').irr g o = some m → 1 ≤ m)
    (hdef' : ∀ g o m, (env.lib U' base' types' flag eps r').irrDefault g o = some m → 1 ≤ m)
    (kpd : ℤ) (h1 : 1 ≤ kpd) (fuel : ℕ) (min_kpts : Bool) :
    find_grid env fuel U kpd base types (some (0, 0, 0)) false flag min_kpts eps = .error (.grid .running) ∧
      find_grid env fuel U' kpd base' types' (some (0, 0, 0)) false flag min_kpts eps = .error (.grid .running) ∨
    ∃ e e', ∃ a m : ℤ, find_grid env fuel U kpd base types (some (0, 0, 0)) false flag min_kpts eps = .ok e ∧
      find_grid env fuel U' kpd base' types' (some (0, 0, 0)) false flag min_kpts eps = .ok e' ∧
      1 ≤ a ∧ 1 ≤ m ∧ e.nt_kpts = a * m ∧ e'.nt_kpts = a * m ∧
      SymmetricGrid ((m : ℝ) • realCell U) (realMat e.sel.grid) a ∧
      SymmetricGrid ((m : ℝ) • realCell U') (realMat e'.sel.grid) a ∧
      e.sel.offset = (0, 0, 0) ∧ e'.sel.offset = (0, 0, 0) ∧
      (TellsApart (env.lib U base types flag eps r).equal eps sqrt ((m : ℝ) • realCell U) a →
        e'.sel.n_irr = e.sel.n_irr ∧
        ∃ x x' : ℚ, 0 ≤ x ∧ 0 ≤ x' ∧ SmallestDistance (realMat e.sel.grid) √(x : ℝ) ∧
          SmallestDistance (realMat e'.sel.grid) √(x' : ℝ) ∧ sqrt x' = sqrt x) := by
  obtain ⟨hide, hsr, -⟩ := idCell_unique (q := 1) (by simpa using hs) h h'
  have hid' : r'.id ∈ [31, 44] := hide ▸ hid
  obtain ⟨o1, s1, a1, -, a3, a4⟩ := find_grid_searches env h hb.pgSize kpd base types (some (0, 0, 0)) false
    (by simp) flag min_kpts
  obtain ⟨o2, s2, b1, -, b3, b4⟩ := find_grid_searches env h' hb.pgSize' kpd base' types' (some (0, 0, 0)) false
    (by simp) flag min_kpts
  have ho1 : o1 = [(0, 0, 0)] := by simpa [offsetsTried] using a3.symm
  have ho2 : o2 = [(0, 0, 0)] := by simpa [offsetsTried] using b3.symm
  subst ho1 ho2
  rw [a4, b4]
  clear a4 b4 a3 b3 a1 b1
  generalize env.lib U base types flag eps r = lib at *
  generalize env.lib U' base' types' flag eps r' = lib' at *
  obtain ⟨a0, m, t1, t2, t3, t4, t5, t6, t7⟩ := get_kpd_tric_partial kpd h1
  have hUd := h.real_det
  have hUd' := h'.real_det
  have hV := smul_det_ne hUd t4
  have hV' := smul_det_ne hUd' t4
  -- the two lists for one number of points
  have hcount : ∀ n, 1 ≤ n → ∀ H ∈ (tric_31_44 n).map (m • ·), lib.irr (lib.geom H).grid (0, 0, 0) ≠ none := by
    intro n hn H hH
    have hn3 : 1 ≤ n * m ^ 3 := by
      have : 0 < n * m ^ 3 := by positivity
      omega
    exact counts_some hUd hb.group hb.counts hn3 (symmetricGrid_multiple hUd t4
      (listed_grid hV hb.reduction hb.built hn (grids_tric_multiple h hid hn t4) H hH).2.2)
  have hpos : ∀ n, 1 ≤ n → ∀ H ∈ (tric_31_44 n).map (m • ·), (lib.geom H).packed = true →
      (lib.geom H).rmin * eps < (lib.geom H).rmin := by
    intro n hn H hH hp
    have g := listed_grid hV hb.reduction hb.built hn (grids_tric_multiple h hid hn t4) H hH
    rw [hb.built.geom] at hp ⊢
    exact packed_positive (hb.reduction _ g.1).2.1 (by linarith [h.eps_lt]) hp
  have hcount' : ∀ n, 1 ≤ n → ∀ H ∈ (tric_31_44 n).map (m • ·), lib'.irr (lib'.geom H).grid (0, 0, 0) ≠ none := by
    intro n hn H' hH'
    obtain ⟨H, hH, e⟩ := (tric_alike hs h h' hid hid' hb hn t4).2 H' hH'
    rw [e.irr]
    exact hcount n hn H hH
  have hpos' : ∀ n, 1 ≤ n → ∀ H ∈ (tric_31_44 n).map (m • ·), (lib'.geom H).packed = true →
      (lib'.geom H).rmin * eps < (lib'.geom H).rmin := by
    intro n hn H' hH' hp
    obtain ⟨H, hH, e⟩ := (tric_alike hs h h' hid hid' hb hn t4).2 H' hH'
    rw [e.rmin]
    exact hpos n hn H hH (by rw [← e.packed, hp])
  have hnone : ∀ n, 1 ≤ n → ∀ l,
      tryHNFs lib.equal eps lib.geom lib.irr lib.irrDefault [(0, 0, 0)] ((tric_31_44 n).map (m • ·)) = .ok ⟨l, none⟩ →
      tryHNFs lib'.equal eps lib'.geom lib'.irr lib'.irrDefault [(0, 0, 0)] ((tric_31_44 n).map (m • ·)) =
        .ok ⟨((tric_31_44 n).map (m • ·)).length, none⟩ := fun n hn l hno =>
    tryHNFs_none_alike eps (0, 0, 0) hirr hirr' (tric_alike hs h h' hid hid' hb hn t4).2 (tric_list_ne hn) (hcount n hn)
      (hpos n hn) hno
  have hnone' : ∀ n, 1 ≤ n → ∀ l,
      tryHNFs lib'.equal eps lib'.geom lib'.irr lib'.irrDefault [(0, 0, 0)] ((tric_31_44 n).map (m • ·)) = .ok ⟨l, none⟩ →
      tryHNFs lib.equal eps lib.geom lib.irr lib.irrDefault [(0, 0, 0)] ((tric_31_44 n).map (m • ·)) =
        .ok ⟨((tric_31_44 n).map (m • ·)).length, none⟩ := fun n hn l hno =>
    tryHNFs_none_alike eps (0, 0, 0) hirr' hirr (fun H hH => by
      obtain ⟨H', hH', e⟩ := (tric_alike hs h h' hid hid' hb hn t4).1 H hH
      exact ⟨H', hH', e.symm⟩) (tric_list_ne hn) (hcount' n hn) (hpos' n hn) hno
  have hCo : r.Co.toMat.det = 1 := (reduceCell_same_lattice env.equal _ (some eps) _ h.parts.2).1
  have hCo' : r'.Co.toMat.det = 1 := (reduceCell_same_lattice env.equal _ (some eps) _ h'.parts.2).1
  have hlen : ∀ n : ℤ, 1 ≤ n → 0 < ((tric_31_44 n).map (m • ·)).length := fun n hn =>
    List.length_pos_of_ne_nil (tric_list_ne hn)
  have hloop := findGrid_tric_loop lib env.wrap eps [(0, 0, 0)] min_kpts (env.root kpd) fuel r.id hid s1 kpd a0 m t1
  have hloop' := findGrid_tric_loop lib' env.wrap eps [(0, 0, 0)] min_kpts (env.root kpd) fuel r'.id hid' s2 kpd a0 m t1
  rcases findGrid_tric lib hirr env.wrap eps [(0, 0, 0)] min_kpts (env.root kpd) fuel r.id hid r.Co.toMat (.inl hCo)
    s1 kpd h1 with hr | ⟨e, he, -⟩
  · left
    refine ⟨by rw [hr], ?_⟩
    rcases findGrid_tric lib' hirr' env.wrap eps [(0, 0, 0)] min_kpts (env.root kpd) fuel r'.id hid' r'.Co.toMat (.inl hCo')
      s2 kpd h1 with hr' | ⟨e', he', -⟩
    · rw [hr']
    · exfalso
      obtain ⟨j, j1, j2, j3, j4⟩ := findGrid_tric_own hirr' env.wrap [(0, 0, 0)] min_kpts (env.root kpd) fuel r'.id hid' s2
        kpd a0 m t2 t1 e' he'
      obtain ⟨q, q1, q2⟩ := tryHNFs_ok lib hirr eps [(0, 0, 0)] _ (tric_list_ne (m := m) (by omega : 1 ≤ a0 + j))
      cases q with
      | none =>
        have := hnone (a0 + j) (by omega) _ q1
        rw [j3] at this
        cases this
      | some b =>
        rw [hloop, tricLoop_of m j fuel a0 j1 (fun i hi => ⟨_, hnone' (a0 + i) (by omega) _ (j4 i hi)⟩) b _ q1
          (hlen _ (by omega))] at hr
        cases hr
  · right
    obtain ⟨j, j1, j2, j3, j4⟩ := findGrid_tric_own hirr env.wrap [(0, 0, 0)] min_kpts (env.root kpd) fuel r.id hid s1
      kpd a0 m t2 t1 e he
    have ha : 1 ≤ a0 + j := by omega
    have hl := grids_tric_multiple h hid ha t4
    have hl' := grids_tric_multiple h' hid' ha t4
    obtain ⟨q0, u1, u2⟩ := tryHNFs_ok lib hirr eps [(0, 0, 0)] _ (tric_list_ne (m := m) ha)
    rw [j3] at u1
    cases u1
    have hch := u2 _ rfl
    obtain ⟨q, q1, q2⟩ := tryHNFs_ok lib' hirr' eps [(0, 0, 0)] _ (tric_list_ne (m := m) ha)
    cases q with
    | none =>
      exfalso
      have := hnone' (a0 + j) ha _ q1
      rw [j3] at this
      cases this
    | some b' =>
      have hch' := q2 _ rfl
      have hok := tricLoop_of (tryN := fun n => tryHNFs lib'.equal eps lib'.geom lib'.irr lib'.irrDefault [(0, 0, 0)]
        ((tric_31_44 n).map (m • ·))) m j fuel a0 j1 (fun i hi => ⟨_, hnone (a0 + i) (by omega) _ (j4 i hi)⟩) b' _ q1
        (hlen _ (by omega))
      rw [← hloop'] at hok
      refine ⟨e, ⟨b', (a0 + j) * m⟩, a0 + j, m, by rw [he], by rw [hok], ha, t4, j2, rfl, ?_, ?_, by simpa using hch.offset,
        by simpa using hch'.offset, fun ht => ?_⟩
      · rw [hch.grid]
        exact (listed_grid hV hb.reduction hb.built ha hl _ hch.mem).2.2
      · change SymmetricGrid _ (realMat b'.grid) _
        rw [hch'.grid]
        exact (listed_grid hV' hb.reduction hb.built' ha hl' _ hch'.mem).2.2
      obtain ⟨al1, al2⟩ := tric_alike hs h h' hid hid' hb ha t4
      obtain ⟨b'', w1, w2, w3, w4, w5, w6, w7, w8⟩ := tryHNFs_alike hb.equal eps (0, 0, 0) hirr hdef hirr' hdef' al1 al2
        (lengthsApart_listed hV hb.reduction hb.root hb.built ha (tric_list_ne ha) hl ht) j3
      rw [q1] at w1
      cases w1
      refine ⟨w2, ?_⟩
      obtain ⟨g1, g2, -⟩ := listed_grid hV hb.reduction hb.built ha hl _ w4
      obtain ⟨g1', g2', -⟩ := listed_grid hV' hb.reduction hb.built' ha hl' _ w6
      obtain ⟨x, x0, x1, x2⟩ := rmin_eq hb.root (hb.reduction _ g1).2.2
      obtain ⟨x', x0', x1', x2'⟩ := rmin_eq hb.root (hb.reduction _ g1').2.2
      refine ⟨x, x', x0, x0', ?_, ?_, ?_⟩
      · rw [w5, g2]
        exact x2
      · change SmallestDistance (realMat b'.grid) _
        rw [w7, g2']
        exact x2'
      · rw [← x1, ← x1', ← hb.built.geom, ← hb.built'.geom]
        exact w8

/-! ## The hypotheses are met -/

theorem sameCrystal_tri : SameCrystal 1 !![1, 0, 0; 0, -1, 0; 0, 0, 1]
    (realCell ⟨4, 1, 1, 0, 4, 1, 0, 0, 4⟩) (realCell ⟨4, 5, 1, 0, -4, -1, 0, 0, 4⟩) := by
  refine ⟨by norm_num, ?_, !![1, 1, 0; 0, 1, 0; 0, 0, 1], by decide, ?_⟩
  · ext i j
    fin_cases i <;> fin_cases j <;> simp [Matrix.mul_apply, Fin.sum_univ_three]
  · ext i j
    rw [Matrix.smul_apply, Matrix.mul_apply, Fin.sum_univ_three, Matrix.mul_apply, Matrix.mul_apply,
      Matrix.mul_apply, Fin.sum_univ_three, Fin.sum_univ_three, Fin.sum_univ_three]
    fin_cases i <;> fin_cases j <;> simp [realCell, RMat.toMatrix, toReal]; norm_num

theorem recognised_tri : Recognised cmpEqual ⟨4, 1, 1, 0, 4, 1, 0, 0, 4⟩ (8589935 / 2 ^ 33) (8589935 / 2 ^ 33)
    ⟨⟨1, 0, 0, 0, 1, 0, 0, 0, 1⟩, ⟨1, 0, 0, 0, 1, 0, 0, 0, 1⟩, 31, some 1⟩ :=
  recognised_of (A := 16) (B := 17) (C := 18) (D := 5) (E := 4) (F := 4) (by decide +kernel) (by decide +kernel)
    (by decide +kernel) (by constructor <;> norm_num [TypeI, TypeII]) (by constructor <;> decide +kernel)
    (by norm_num) (by decide)

theorem recognised_tri' : Recognised cmpEqual ⟨4, 5, 1, 0, -4, -1, 0, 0, 4⟩ (8589935 / 2 ^ 33) (8589935 / 2 ^ 33)
    ⟨⟨1, -1, 0, 0, 1, 0, 0, 0, 1⟩, ⟨1, -1, 0, 0, 1, 0, 0, 0, 1⟩, 31, some 1⟩ :=
  recognised_of (A := 16) (B := 17) (C := 18) (D := 5) (E := 4) (F := 4) (by decide +kernel) (by decide +kernel)
    (by decide +kernel) (by constructor <;> norm_num [TypeI, TypeII]) (by constructor <;> decide +kernel)
    (by norm_num) (by decide)

theorem countEnv_pos (U : RMat ℚ) (base : List (Fin 3 → ℚ)) (types : List ℕ) (flag : ℕ) (eps : ℚ) (r : IdCell)
    (K : Matrix (Fin 3) (Fin 3) ℚ) (o : Offset) (m : ℕ)
    (h : ((countEnv mink sqrt).lib U base types flag eps r).irr K o = some m) : 1 ≤ m := by
  simp only [countEnv] at h
  split at h
  · rename_i hex
    have h1 := Option.some.inj h
    obtain ⟨i, -, -⟩ := hex.choose_spec.one 0 ⟨0, by rw [intVec_zero, mulVec_zero, add_zero]⟩
    have := i.isLt
    omega
  · cases h

theorem countEnv_pos' (U : RMat ℚ) (base : List (Fin 3 → ℚ)) (types : List ℕ) (flag : ℕ) (eps : ℚ) (r : IdCell)
    (K : Matrix (Fin 3) (Fin 3) ℚ) (o : Offset) (m : ℕ)
    (h : ((countEnv mink sqrt).lib U base types flag eps r).irrDefault K o = some m) : 1 ≤ m :=
  countEnv_pos (mink := mink) (sqrt := sqrt) U base types flag eps r K o m h

/-- The search for a grid of 801 points or more for the two cells of this lattice. -/
example : ∃ env : Env (Matrix (Fin 3) (Fin 3) ℚ), ∃ sqrt : ℚ → ℚ, ∀ fuel,
    let x := find_grid env fuel ⟨4, 1, 1, 0, 4, 1, 0, 0, 4⟩ 801 [0] [1] (some (0, 0, 0)) false 1 true (8589935 / 2 ^ 33)
    let y := find_grid env fuel ⟨4, 5, 1, 0, -4, -1, 0, 0, 4⟩ 801 [0] [1] (some (0, 0, 0)) false 1 true (8589935 / 2 ^ 33)
    x = .error (.grid .running) ∧ y = .error (.grid .running) ∨ ∃ e e', ∃ a m : ℤ, x = .ok e ∧ y = .ok e' ∧
      e.nt_kpts = a * m ∧ e'.nt_kpts = a * m ∧
      (TellsApart sampleEqual (8589935 / 2 ^ 33) sqrt ((m : ℝ) • realCell ⟨4, 1, 1, 0, 4, 1, 0, 0, 4⟩) a →
        e'.sel.n_irr = e.sel.n_irr) := by
  obtain ⟨mink, hm⟩ := minkowski_exists
  obtain ⟨sqrt, -, hmono⟩ := sqrt_exists
  refine ⟨countEnv mink sqrt, sqrt, fun fuel => ?_⟩
  rcases find_grid_same_tric_partial sameCrystal_tri recognised_tri recognised_tri' (by decide)
    (countEnv_bothRight hm hmono sameCrystal_tri recognised_tri recognised_tri') (countEnv_pos _ _ _ _ _ _)
    (countEnv_pos' _ _ _ _ _ _) (countEnv_pos _ _ _ _ _ _) (countEnv_pos' _ _ _ _ _ _) 801 (by norm_num) fuel true with
    h | ⟨e, e', a, m, h1, h2, -, -, h3, h4, -, -, -, -, h5⟩
  · exact .inl h
  · exact .inr ⟨e, e', a, m, h1, h2, h3, h4, fun ht => (h5 ht).1⟩

end AutoGR.Fortran
