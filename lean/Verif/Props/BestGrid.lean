import Verif.Props.AllGrids
import Verif.Props.FortranDensity
import Verif.Lemmas.IrrScale

/-!
# C105: which of the symmetric grids is chosen

`README.md`: "The code's default behavior is to find multiple candidate grids then select the grid that has the best ratio
of irreducible points to reducible points"; with `MIN_IRR_KPTS=TRUE` it returns the one with the fewest irreducible
points.

The full statement is: by default the ratio decides.  Proved: for the cubic lattices and without a shift the grid is the
best of all symmetric grids with the first five numbers of points, by the ratio if more than 500 points are asked for, by
the number of irreducible points otherwise.  The rest is false (`ratio_ignored`).  The lattices that are neither cubic
nor triclinic are in C107.  The triclinic ones are in C109.  Missing: shifts.
-/

namespace AutoGR.Fortran

open Spec Matrix

variable {rd : Reader} {junk : ℤ} {rt2 : ℚ} {poscar kpgen : List (List Char)} {d : PoscarData}
  {settings : List (Key × List Char)} {env : Env (Matrix (Fin 3) (Fin 3) ℚ)} {eps rho : ℚ} {r : IdCell}
  {fuel : ℕ} {k : Key} {v : List Char}

/-- The program calls `find_grid` with the lattice of `POSCAR` and the values of `KPGEN`, among them the choices of the
user about symmetry and about the fewest points. -/
theorem program_reads_choice (env : Env (Matrix (Fin 3) (Fin 3) ℚ)) (hp : PoscarSays rd poscar d)
    (hdet : (d.scale • d.columns).det ≠ 0) (hrt : rt2 ≠ 0) (hf : FileSays kpgen settings)
    (hu : Usable rd rt2 d.counts.sum |(d.scale • d.columns).det| settings)
    (hk : lastOf densitySetting settings = some (k, v)) (he : Tolerance rd settings eps) :
    ∃ (n : ℤ) (base : List (Fin 3 → ℚ)) (types : List ℕ) (s : Inputs),
      (∀ fuel, program env rd junk rt2 fuel poscar kpgen =
        find_grid env fuel (cellOf d.columns) n base types s.offset s.find_offset s.symm_flag s.min_kpts eps) ∧
      Asks rd piLit rt2 d.counts.sum |(d.scale • d.columns).det| k v n ∧
      s.offset = lastOf (shiftValue rd) settings ∧
      (s.find_offset = true ↔ ∀ p ∈ settings, p.1 ≠ .shift) ∧
      (lastOf symmetryLevel settings = some s.symm_flag ∨ lastOf symmetryLevel settings = none ∧ s.symm_flag = 0) ∧
      (s.min_kpts = true ↔ ∃ p ∈ settings, p.1 = .minIrrKpts ∧ IsWord p.2 "TRUE".toList) := by
  obtain ⟨p, e1, e2, e3, -, e5, -⟩ := read_POSCAR_lattice_types (junk := junk) hp fun _ => hdet
  have hn : ((p.atom_base.length : ℕ) : ℤ) = ((d.counts.sum : ℕ) : ℤ) := by rw [e5]
  obtain ⟨s, g1, ⟨n, g2, g3⟩, g4, g5, g6, g7, g8⟩ :=
    (get_inputs_correct (rd := rd) (natoms := (d.counts.sum : ℕ)) hdet hrt hf hu.readable hu.fits).2 k v hk
  refine ⟨n, p.atom_base, p.atom_type, s, fun fuel => ?_, g3, g4, g5, g6, g7⟩
  unfold program
  rw [e1]
  dsimp only
  rw [e2, e3, hn, if_neg hdet, g1]
  dsimp only
  rw [g2, g8, he]

/-- Every symmetric grid of a cubic crystal is made from one of the supercells. -/
theorem supercell_of_grid {equal : ℚ → ℚ → ℚ → Bool} {U : RMat ℚ} (h : Recognised equal U eps rho r)
    (hid : r.id ∈ [1, 3, 5]) {n : ℤ} (hn : 1 ≤ n) {K : Matrix (Fin 3) (Fin 3) ℝ} (hK : SymmetricGrid (realCell U) K n) :
    ∃ H ∈ SymmetricHNFs (ClassSym r.id (canonC r.id).toMat) n, gridPoints (realMat (gridOf U r H)) = gridPoints K := by
  obtain ⟨k1, k2⟩ := h.id_range
  have hk' : r.id ∉ [31, 44] := fun hm => by simp at hm hid; omega
  have hred := reduced_canonC r.id k1 k2 hk'
  obtain ⟨i, hi, -⟩ := (grids_cubic h hid id hn (.inl rfl)).complete K hK
  obtain ⟨H, hH, e⟩ := List.mem_map.1 (List.get_mem _ i)
  refine ⟨H, ?_, by rw [e]; exact hi⟩
  simp only [List.mem_cons, List.not_mem_nil, or_false] at hid
  rcases hid with e | e | e <;> rw [e] at hred hH ⊢
  · exact ((fcc_1_correct n _ hred).2 H).1 hH
  · exact ((sc_3_correct n _ hred).2 H).1 hH
  · exact ((bcc_5_correct n (.inl rfl) _ hred).2 H).1 hH

theorem grid_of_supercell {equal : ℚ → ℚ → ℚ → Bool} {U : RMat ℚ} (h : Recognised equal U eps rho r)
    (hid : r.id ∈ [1, 3, 5]) {n : ℤ} (hn : 1 ≤ n) {H : IntMat}
    (hH : H ∈ SymmetricHNFs (ClassSym r.id (canonC r.id).toMat) n) :
    SymmetricGrid (realCell U) (realMat (gridOf U r H)) n := by
  have hk' : r.id ∉ [31, 44] := fun hm => by simp at hm hid; omega
  have hd := hH.2.1
  have := gridOf_symmetric h H (by omega) (by rw [h.classSym hk']; exact hH.2.2) 1 (by simp)
  rwa [castMat_one, Matrix.mul_one, hd, abs_of_pos (by omega)] at this

theorem amongFirst_congr {k : ℕ} {lo : ℤ} {P Q : ℤ → Prop} (h : ∀ u, lo ≤ u → (P u ↔ Q u)) {v : ℤ} :
    AmongFirst k lo P v ↔ AmongFirst k lo Q v := by
  unfold AmongFirst
  have : {u | lo ≤ u ∧ u < v ∧ P u} = {u | lo ≤ u ∧ u < v ∧ Q u} := by
    ext u
    constructor
    · rintro ⟨a, b, c⟩
      exact ⟨a, b, (h u a).1 c⟩
    · rintro ⟨a, b, c⟩
      exact ⟨a, b, (h u a).2 c⟩
  rw [this]
  constructor
  · rintro ⟨a, b, c⟩
    exact ⟨a, (h v a).1 b, c⟩
  · rintro ⟨a, b, c⟩
    exact ⟨a, (h v a).2 b, c⟩

/-- The symmetric grids of the cell without the factor of `POSCAR`. -/
theorem symmetricGrid_unscaled (hdet : (d.scale • d.columns).det ≠ 0) {K : Matrix (Fin 3) (Fin 3) ℝ} {n : ℤ} :
    SymmetricGrid (realMat (d.scale • d.columns)) K n ↔
      SymmetricGrid (realCell (cellOf d.columns)) ((d.scale : ℝ) • K) n := by
  have hs : (d.scale : ℝ) ≠ 0 := by exact_mod_cast scale_ne hdet
  have hU : realCell (cellOf d.columns) = realMat d.columns := by
    unfold realCell
    rw [cellOf_toMatrix]
    rfl
  rw [realMat_smul, hU]
  constructor
  · intro h
    have := symmetricGrid_scale h (inv_ne_zero hs)
    rwa [smul_smul, inv_mul_cancel₀ hs, one_smul, inv_inv] at this
  · intro h
    have := symmetricGrid_scale h hs
    rwa [smul_smul, inv_mul_cancel₀ hs, one_smul] at this

/-- C105, for the cubic lattices without a shift.  `n` points are asked for; `ops` are the symmetries that the library
works with.  The grid found has one of the first five numbers of points.  With `MIN_IRR_KPTS=TRUE`, or if at most 500
points are asked for, no symmetric grid with one of these numbers has fewer irreducible points; otherwise none has a
smaller ratio of irreducible points to all points. -/
theorem program_best_cubic_partial (hp : PoscarSays rd poscar d) (hdet : (d.scale • d.columns).det ≠ 0) (hrt : rt2 ≠ 0)
    (hf : FileSays kpgen settings) (hu : Usable rd rt2 d.counts.sum |(d.scale • d.columns).det| settings)
    (hk : lastOf densitySetting settings = some (k, v)) (he : Tolerance rd settings eps)
    (hshift : lastOf (shiftValue rd) settings = some (0, 0, 0))
    (h : Recognised env.equal (cellOf d.columns) eps rho r) (hl : EnvRight env (cellOf d.columns) eps r)
    (htot : ∀ base types flag g o, (env.lib (cellOf d.columns) base types flag eps r).irr g o ≠ none)
    (hw : env.wrap = id ∨ Int32 env.wrap)
    {ops ops0 : List (Fin 3 → ℚ) → List ℕ → ℕ → Set (Matrix (Fin 3) (Fin 3) ℝ)}
    (hG : ∀ base types flag, LatticeGroup (realCell (cellOf d.columns)) (ops base types flag))
    (hc : ∀ base types flag, Counts (realCell (cellOf d.columns)) (ops base types flag) (ops0 base types flag)
      (env.lib (cellOf d.columns) base types flag eps r))
    (hasks : ∀ n, Asks rd piLit rt2 d.counts.sum |(d.scale • d.columns).det| k v n →
      1 ≤ n ∧ n ≤ (if r.id = 1 then 1092727 else 1098500) ∧ 0 ≤ env.root n ∧ env.root n ^ 3 ≤ n ∧
        n < (env.root n + 2) ^ 3)
    (hid : r.id ∈ [1, 3, 5]) :
    ∃ e n base types flag pts, program env rd junk rt2 fuel poscar kpgen = .ok e ∧
      Asks rd piLit rt2 d.counts.sum |(d.scale • d.columns).det| k v n ∧
      (lastOf symmetryLevel settings = some flag ∨ lastOf symmetryLevel settings = none ∧ flag = 0) ∧
      Candidate (realMat (d.scale • d.columns)) n (realMat (d.scale⁻¹ • e.sel.grid)) e.nt_kpts ∧
      IrreduciblePoints ((realMat (d.scale • d.columns))ᵀ)⁻¹ (realMat (d.scale⁻¹ • e.sel.grid)) 0 (ops base types flag) pts ∧
      ∀ K N pts', Candidate (realMat (d.scale • d.columns)) n K N →
        IrreduciblePoints ((realMat (d.scale • d.columns))ᵀ)⁻¹ K 0 (ops base types flag) pts' →
        ((∃ p ∈ settings, p.1 = .minIrrKpts ∧ IsWord p.2 "TRUE".toList) ∨ n ≤ 500 → pts.length ≤ pts'.length) ∧
        ((∀ p ∈ settings, p.1 = .minIrrKpts → ¬ IsWord p.2 "TRUE".toList) → 500 < n →
          (pts.length : ℚ) / e.nt_kpts ≤ pts'.length / N) := by
  obtain ⟨n, base, types, s, p1, p2, p3, p4, p5, p6⟩ := program_reads_choice (junk := junk) env hp hdet hrt hf hu hk he
  obtain ⟨offsets, s_range, q1, q2, q3, q4⟩ := find_grid_searches env h hl.pgSize n base types s.offset
    s.find_offset (offset_ne_none p3 p4 hu.readable) s.symm_flag s.min_kpts
  have hoff : offsets = [(0, 0, 0)] := by
    have e1 : s.find_offset = false := by
      rw [Bool.eq_false_iff]
      intro hcon
      have := p4.1 hcon
      have hnone : lastOf (shiftValue rd) settings = none := by
        unfold lastOf
        rw [List.getLast?_eq_none_iff, List.filterMap_eq_nil_iff]
        rintro ⟨k', v'⟩ hmem
        have := this _ hmem
        cases k' <;> first | rfl | exact absurd rfl this
      rw [hnone] at hshift
      cases hshift
    rw [e1, p3, hshift] at q3
    exact (Option.some.inj q3).symm
  subst hoff
  obtain ⟨h1, hn, r0, r1, r2⟩ := hasks n p2
  obtain ⟨k1, k2⟩ := h.id_range
  have hk' : r.id ∉ [31, 44] := fun hm => by simp at hm hid; omega
  obtain ⟨e, he', a1, a2, a3, a5, a6, a7⟩ := findGrid_cubic_partial (env.lib (cellOf d.columns) base types s.symm_flag eps r)
    (hl.irr base types s.symm_flag) env.wrap hw eps [(0, 0, 0)] q2 (fun g o _ => htot base types s.symm_flag g o)
    s.min_kpts fuel r.id hid _ (reduced_canonC r.id k1 k2 hk') s_range n (env.root n) h1 hn ⟨r1, r2⟩ r0
  have hirr := hl.irr base types s.symm_flag
  have hUd := h.real_det
  have hs : (d.scale : ℝ) ≠ 0 := by exact_mod_cast scale_ne hdet
  have hU : realCell (cellOf d.columns) = realMat d.columns := by
    unfold realCell
    rw [cellOf_toMatrix]
    rfl
  have hrec : ((realMat (d.scale • d.columns))ᵀ)⁻¹ = (d.scale : ℝ)⁻¹ • ((realCell (cellOf d.columns))ᵀ)⁻¹ := by
    rw [realMat_smul, ← hU, transpose_smul]
    let _ := invertibleOfNonzero hs
    rw [Matrix.inv_smul _ (d.scale : ℝ) (by rw [det_transpose]; exact isUnit_iff_ne_zero.2 hUd), invOf_eq_inv]
  have hpts : ∀ {K : Matrix (Fin 3) (Fin 3) ℚ} {N : ℤ}, 1 ≤ N → SymmetricGrid (realCell (cellOf d.columns)) (realMat K) N →
      ∃ pts, IrreduciblePoints ((realCell (cellOf d.columns))ᵀ)⁻¹ (realMat K) 0 (ops base types s.symm_flag) pts := by
    intro K N hN hg
    obtain ⟨M, m1, m2⟩ := hg.reciprocal
    have hG' := hG base types s.symm_flag
    refine irreducible_exists hG'.one hG'.mul hG'.inv (hG'.reciprocal hUd) ?_ m1 ?_
    · intro h0
      have := (symmetricGrid_det hUd hN hg).1
      rw [h0, abs_zero] at this
      have hU' := abs_pos.2 hUd
      have hN' : (0 : ℝ) < N := by exact_mod_cast (by omega : 0 < N)
      have h1 : 0 < 1 / (|(realCell (cellOf d.columns)).det| * N) := by positivity
      rw [← this] at h1
      exact lt_irrefl _ h1
    · rintro h0
      rw [h0] at m2
      simp at m2
      omega
  have hfirst : ∀ N, AmongFirst 5 n (fun u => ∃ K, SymmetricGrid (realMat (d.scale • d.columns)) K u) N ↔
      AmongFirst 5 n (fun v => ∃ H, H ∈ SymmetricHNFs (ClassSym r.id (canonC r.id).toMat) v) N := fun N =>
    amongFirst_congr fun u hu' => by
      constructor
      · rintro ⟨K, hK⟩
        obtain ⟨H, hH, -⟩ := supercell_of_grid h hid (by omega) ((symmetricGrid_unscaled hdet).1 hK)
        exact ⟨H, hH⟩
      · rintro ⟨H, hH⟩
        exact ⟨_, real_scaled hdet (grid_of_supercell h hid (by omega) hH)⟩
  have hgr : (env.lib (cellOf d.columns) base types s.symm_flag eps r).gridOf = gridOf (cellOf d.columns) r :=
    funext (hl.reduces base types s.symm_flag).grid
  have hN1 : 1 ≤ e.nt_kpts := h1.trans a1.1
  have b1 := grid_of_supercell h hid hN1 a2
  rw [hgr] at a3
  rw [← a3] at b1
  have ho : e.sel.offset = (0, 0, 0) := by simpa using a5
  obtain ⟨pts, hpt⟩ := hpts hN1 b1
  have hi := (hc base types s.symm_flag).irr _ _ _ b1 hpt
  rw [ho, hi] at a6
  have hlen := Option.some.inj a6
  have hscale : ∀ {K : Matrix (Fin 3) (Fin 3) ℝ} {ps}, IrreduciblePoints ((realCell (cellOf d.columns))ᵀ)⁻¹ K 0
      (ops base types s.symm_flag) ps → ∃ ps', IrreduciblePoints ((realMat (d.scale • d.columns))ᵀ)⁻¹
        ((d.scale : ℝ)⁻¹ • K) 0 (ops base types s.symm_flag) ps' ∧ ps'.length = ps.length := by
    intro K ps hps
    have := hps.smul (inv_ne_zero hs)
    rw [smul_zero, ← hrec] at this
    exact ⟨_, this, List.length_map _⟩
  obtain ⟨pts1, hpt1, hlen1⟩ := hscale hpt
  refine ⟨e, n, base, types, s.symm_flag, pts1, by rw [p1 fuel, q4 fuel, he'], p2, p5, ⟨real_scaled hdet b1, ?_⟩, ?_, ?_⟩
  · exact (hfirst _).2 a1
  · have e1 : realMat (d.scale⁻¹ • e.sel.grid) = (d.scale : ℝ)⁻¹ • realMat e.sel.grid := by
      rw [realMat_smul, Rat.cast_inv]
    rw [e1]
    exact hpt1
  · intro K N pts' hK hpts'
    have hN : 1 ≤ N := h1.trans hK.first.1
    obtain ⟨H, hH, hHK⟩ := supercell_of_grid h hid hN ((symmetricGrid_unscaled hdet).1 hK.grid)
    have hg := grid_of_supercell h hid hN hH
    have hb : IrreduciblePoints ((realCell (cellOf d.columns))ᵀ)⁻¹ (realMat (gridOf (cellOf d.columns) r H)) 0
        (ops base types s.symm_flag) (pts'.map fun p => ((d.scale : ℝ) • p.1, p.2)) := by
      have := hpts'.smul hs
      rw [smul_zero, hrec, smul_smul, mul_inv_cancel₀ hs, one_smul] at this
      exact this.points hHK.symm
    have hm := (hc base types s.symm_flag).irr _ _ _ hg hb
    have hpref := a7 N ((hfirst N).1 hK.first) H hH (0, 0, 0) (by simp) _ (by rw [hgr]; exact hm)
    rw [List.length_map, ← hlen, ← hlen1] at hpref
    unfold Preferred at hpref
    constructor
    · intro hx
      rw [if_neg] at hpref
      · exact hpref
      · rintro ⟨y1, y2⟩
        rcases hx with hx | hx
        · rw [p6.2 hx] at y1
          cases y1
        · omega
    · intro hx hx'
      have : s.min_kpts = false := by
        rw [Bool.eq_false_iff]
        intro hy
        obtain ⟨p, w1, w2, w3⟩ := p6.1 hy
        exact hx p w1 w2 w3
      rw [if_pos ⟨this, hx'⟩] at hpref
      rw [div_le_div_iff₀ (by exact_mod_cast (by omega : 0 < e.nt_kpts)) (by exact_mod_cast (by omega : 0 < N))]
      exact_mod_cast hpref

/-! ## By default the ratio does not decide -/

/-- If two points of the grid are equivalent and differ by no vector of the reciprocal lattice, there are fewer irreducible
points than points. -/
theorem fewer_irreducible {U K : Matrix (Fin 3) (Fin 3) ℝ} (hU : U.det ≠ 0) {N : ℤ} (hN : 1 ≤ N) (hg : SymmetricGrid U K N)
    {ops : Set (Matrix (Fin 3) (Fin 3) ℝ)} (hG : LatticeGroup U ops) {pts : List ((Fin 3 → ℝ) × ℤ)}
    (h : IrreduciblePoints (Uᵀ)⁻¹ K 0 ops pts) {a b : Fin 3 → ℝ} (ha : GridPoint K 0 a) (hb : GridPoint K 0 b)
    (hab : Equivalent (Uᵀ)⁻¹ ops b a) (hne : translates (Uᵀ)⁻¹ a ≠ translates (Uᵀ)⁻¹ b) : (pts.length : ℤ) < N := by
  obtain ⟨M, m1, m2⟩ := hg.reciprocal
  have hops := hG.reciprocal hU
  have hK : K.det ≠ 0 := by
    intro h0
    have := (symmetricGrid_det hU hN hg).1
    rw [h0, abs_zero] at this
    have hU' := abs_pos.2 hU
    have hN' : (0 : ℝ) < N := by exact_mod_cast (by omega : 0 < N)
    have h1 : 0 < 1 / (|U.det| * N) := by positivity
    rw [← this] at h1
    exact lt_irrefl _ h1
  have hM : M.det ≠ 0 := by
    intro h0
    rw [h0, abs_zero] at m2
    omega
  have hcard := card_grid (off := 0) hK m1 hM
  have hfin : (classes (Uᵀ)⁻¹ K 0).Finite := by
    refine Set.finite_coe_iff.1 (Nat.finite_of_card_ne_zero ?_)
    rw [hcard]
    omega
  have hself : ∀ i : Fin pts.length, Equivalent (Uᵀ)⁻¹ ops (pts.get i).1 (pts.get i).1 := fun i =>
    ⟨1, hG.one, 0, by rw [one_mulVec, intVec_zero, mulVec_zero, add_zero]⟩
  have htr : ∀ {x y : Fin 3 → ℝ}, translates (Uᵀ)⁻¹ x = translates (Uᵀ)⁻¹ y → Equivalent (Uᵀ)⁻¹ ops x y := by
    intro x y hxy
    obtain ⟨m, hm⟩ := translates_eq_iff.1 hxy
    exact ⟨1, hG.one, m, by rw [one_mulVec]; exact hm⟩
  let f : Fin pts.length → Set (Fin 3 → ℝ) := fun i => translates (Uᵀ)⁻¹ (pts.get i).1
  have hf : Function.Injective f := by
    intro i j hij
    obtain ⟨l, -, hl⟩ := h.one _ (h.grid _ (List.get_mem pts i))
    exact (hl i (hself i)).trans (hl j (htr hij)).symm
  have hsub : Set.range f ⊂ classes (Uᵀ)⁻¹ K 0 := by
    rw [Set.ssubset_iff_subset_ne]
    constructor
    · rintro _ ⟨i, rfl⟩
      exact ⟨_, h.grid _ (List.get_mem pts i), rfl⟩
    · intro heq
      have ia : translates (Uᵀ)⁻¹ a ∈ Set.range f := by rw [heq]; exact ⟨a, ha, rfl⟩
      have ib : translates (Uᵀ)⁻¹ b ∈ Set.range f := by rw [heq]; exact ⟨b, hb, rfl⟩
      obtain ⟨i, hi⟩ := ia
      obtain ⟨j, hj⟩ := ib
      obtain ⟨l, -, hl⟩ := h.one b hb
      have e1 := hl j (htr hj.symm)
      have e2 := hl i (by
        obtain ⟨Q, q1, m, q2⟩ := hab
        obtain ⟨m', q3⟩ := translates_eq_iff.1 hi.symm
        refine ⟨Q, q1, m + m', ?_⟩
        rw [q3, q2, intVec_add, mulVec_add, add_assoc])
      rw [e2, ← e1] at hi
      exact hne (hi.symm.trans hj)
  have hlt := Set.ncard_lt_ncard hsub hfin
  rw [← Nat.card_coe_set_eq (classes _ _ _), hcard, Set.ncard_range_of_injective hf, Nat.card_eq_fintype_card, Fintype.card_fin] at hlt
  rw [Int.abs_eq_natAbs] at m2
  omega

/-- The cell of the cube has the sides 4. -/
theorem cube_real : realMat (cubeData.scale • cubeData.columns) = (4 : ℝ) • 1 := by
  ext i j
  fin_cases i <;> fin_cases j <;> simp [realMat, cubeData, mainData, PoscarData.columns, Spec.vec] <;> norm_num

theorem cube_realCell : realCell (cellOf cubeData.columns) = (2 : ℝ) • 1 := by
  have h4 := cube_real
  rw [realMat_smul] at h4
  have : (cubeData.scale : ℝ) = 2 := by norm_num [cubeData, mainData]
  rw [this] at h4
  have h5 : realCell (cellOf cubeData.columns) = realMat cubeData.columns := by
    unfold realCell
    rw [cellOf_toMatrix]
    rfl
  rw [h5]
  apply smul_right_injective _ (by norm_num : (2 : ℝ) ≠ 0)
  dsimp only
  rw [h4, smul_smul]
  norm_num

/-- The grid of 8 points of the cube. -/
theorem cube_eight : SymmetricGrid ((4 : ℝ) • 1) ((1 / 8 : ℝ) • 1) 8 where
  reciprocal := by
    refine ⟨!![2, 0, 0; 0, 2, 0; 0, 0, 2], ?_, by decide⟩
    apply inv_eq_left_inv
    rw [transpose_smul, transpose_one]
    ext i j
    fin_cases i <;> fin_cases j <;> simp [toReal, Matrix.mul_apply, Fin.sum_univ_three] <;> norm_num
  symmetric := by
    rintro Q h1 ⟨X, h2⟩
    refine ⟨X, ?_⟩
    rw [mul_smul_comm, smul_mul_assoc, Matrix.mul_one, Matrix.one_mul] at h2 ⊢
    rw [smul_right_injective _ (by norm_num : (4 : ℝ) ≠ 0) h2]

/-- No symmetric grid of the cube has 3, 5, 6 or 7 points. -/
theorem cube_numbers {u : ℤ} (h1 : 1 ≤ u) (h8 : u < 8) {K : Matrix (Fin 3) (Fin 3) ℝ}
    (hK : SymmetricGrid ((4 : ℝ) • 1) K u) : u = 1 ∨ u = 2 ∨ u = 4 := by
  have hdet : (cubeData.scale • cubeData.columns).det ≠ 0 := by rw [cube_det]; norm_num
  rw [← cube_real] at hK
  obtain ⟨H, hH, -⟩ := supercell_of_grid cube_recognised (by decide) h1 ((symmetricGrid_unscaled hdet).1 hK)
  have hm := ((sc_3_correct u _ (reduced_canonC 3 (by decide) (by decide) (by decide))).2 H).2 hH
  by_contra hne
  have : u = 3 ∨ u = 5 ∨ u = 6 ∨ u = 7 := by omega
  have hz : sc_3 u = [] := by
    rcases this with rfl | rfl | rfl | rfl <;> decide +kernel
  rw [hz] at hm
  cases hm

theorem cube_eight_candidate : Candidate ((4 : ℝ) • 1) 1 ((1 / 8 : ℝ) • 1) 8 where
  grid := cube_eight
  first := by
    refine ⟨by norm_num, ⟨_, cube_eight⟩, ?_⟩
    have hsub : {u : ℤ | 1 ≤ u ∧ u < 8 ∧ ∃ K, SymmetricGrid ((4 : ℝ) • 1) K u} ⊆ ({1, 2, 4} : Finset ℤ) := by
      rintro u ⟨h1, h8, K, hK⟩
      simpa using cube_numbers h1 h8 hK
    have := Set.ncard_le_ncard hsub (Finset.finite_toSet _)
    rw [Set.ncard_coe_finset] at this
    exact lt_of_le_of_lt this (by decide)

/-- The reflection that swaps the first two axes. -/
def swapAxes : Matrix (Fin 3) (Fin 3) ℝ := !![0, 1, 0; 1, 0, 0; 0, 0, 1]

/-- C105, the other side: without `MIN_IRR_KPTS` and for the cube with the side 4 the program takes the grid of one point,
one of one irreducible, although the symmetric grid of 8 points, which is among the candidates, has a better ratio.
All that is assumed of the symmetries is that they are a group and that one of them swaps two axes. -/
theorem ratio_ignored (henv : env.equal = cmpEqual)
    (hl : EnvRight env (cellOf cubeData.columns) (8589935 / 2 ^ 33) cubeId)
    (htot : ∀ base types flag g o, (env.lib (cellOf cubeData.columns) base types flag (8589935 / 2 ^ 33) cubeId).irr g o ≠ none)
    (hw : env.wrap = id ∨ Int32 env.wrap) {ops ops0 : Set (Matrix (Fin 3) (Fin 3) ℝ)}
    (hG : LatticeGroup (realCell (cellOf cubeData.columns)) ops) (hswap : swapAxes ∈ ops)
    (hc : ∀ base types flag, Counts (realCell (cellOf cubeData.columns)) ops ops0
      (env.lib (cellOf cubeData.columns) base types flag (8589935 / 2 ^ 33) cubeId))
    (hroot : 0 ≤ env.root 1 ∧ env.root 1 ^ 3 ≤ 1) (h1 : 14 / 10 ≤ rt2) (h2 : rt2 ≤ 15 / 10) :
    (∀ p ∈ cubeSettings, p.1 ≠ .minIrrKpts) ∧
    ∃ e pts K N pts', program env wordsReader junk rt2 fuel cubePoscar cubeKpgen = .ok e ∧
      IrreduciblePoints ((realMat (cubeData.scale • cubeData.columns))ᵀ)⁻¹ (realMat (cubeData.scale⁻¹ • e.sel.grid)) 0 ops pts ∧
      Candidate (realMat (cubeData.scale • cubeData.columns)) 1 K N ∧
      IrreduciblePoints ((realMat (cubeData.scale • cubeData.columns))ᵀ)⁻¹ K 0 ops pts' ∧
      (pts'.length : ℚ) / N < pts.length / e.nt_kpts := by
  refine ⟨by decide, ?_⟩
  obtain ⟨e, e1, e2, e3, -⟩ := rmin_short (junk := junk) (fuel := fuel) henv hl htot hw hG hc hroot h1 h2
  rw [cube_real] at e3 ⊢
  have hdet : ((4 : ℝ) • (1 : Matrix (Fin 3) (Fin 3) ℝ)).det ≠ 0 := by rw [det_smul]; norm_num
  have hG' : LatticeGroup ((4 : ℝ) • 1) ops := by
    refine ⟨hG.one, hG.mul, hG.inv, fun Q hQ => ?_⟩
    obtain ⟨q1, X, q2⟩ := hG.sym Q hQ
    refine ⟨q1, X, ?_⟩
    rw [cube_realCell] at q2
    rw [mul_smul_comm, smul_mul_assoc, Matrix.mul_one, Matrix.one_mul] at q2 ⊢
    rw [smul_right_injective _ (by norm_num : (2 : ℝ) ≠ 0) q2]
  have hex : ∀ {K : Matrix (Fin 3) (Fin 3) ℝ} {N : ℤ}, 1 ≤ N → SymmetricGrid ((4 : ℝ) • 1) K N →
      ∃ pts, IrreduciblePoints (((4 : ℝ) • (1 : Matrix (Fin 3) (Fin 3) ℝ))ᵀ)⁻¹ K 0 ops pts := by
    intro K N hN hg
    obtain ⟨M, m1, m2⟩ := hg.reciprocal
    refine irreducible_exists hG.one hG.mul hG.inv (hG'.reciprocal hdet) ?_ m1 ?_
    · intro h0
      have := (symmetricGrid_det hdet hN hg).1
      rw [h0, abs_zero] at this
      have hU' := abs_pos.2 hdet
      have hN' : (0 : ℝ) < N := by exact_mod_cast (by omega : 0 < N)
      have h1 : 0 < 1 / (|((4 : ℝ) • (1 : Matrix (Fin 3) (Fin 3) ℝ)).det| * N) := by positivity
      rw [← this] at h1
      exact lt_irrefl _ h1
    · rintro h0
      rw [h0] at m2
      simp at m2
      omega
  obtain ⟨pts, hp⟩ := hex le_rfl e3
  obtain ⟨pts', hp'⟩ := hex (by norm_num) cube_eight
  refine ⟨e, pts, _, 8, pts', e1, hp, cube_eight_candidate, hp', ?_⟩
  have l1 := all_irreducible e3 hG' hp
  have hinv : (((4 : ℝ) • (1 : Matrix (Fin 3) (Fin 3) ℝ))ᵀ)⁻¹ = (1 / 4 : ℝ) • 1 := by
    apply inv_eq_left_inv
    rw [transpose_smul, transpose_one, smul_mul_smul_comm, Matrix.one_mul]
    norm_num
  have l2 : (pts'.length : ℤ) < 8 := by
    refine fewer_irreducible hdet (by norm_num) cube_eight hG' hp' (a := ![1 / 8, 0, 0]) (b := ![0, 1 / 8, 0])
      ⟨![1, 0, 0], ?_⟩ ⟨![0, 1, 0], ?_⟩ ⟨swapAxes, hswap, 0, ?_⟩ ?_
    · ext i
      fin_cases i <;> simp [intVec, smul_mulVec]
    · ext i
      fin_cases i <;> simp [intVec, smul_mulVec]
    · ext i
      fin_cases i <;> simp [intVec_zero, swapAxes]
    · intro heq
      obtain ⟨m, hm⟩ := translates_eq_iff.1 heq
      rw [hinv, smul_mulVec, one_mulVec] at hm
      have h0 := congrFun hm 0
      simp [intVec] at h0
      have h3 : (2 * m 0 : ℝ) = -1 := by linarith
      have h4 : 2 * m 0 = -1 := by exact_mod_cast h3
      omega
  rw [l1, e2]
  have l3 : (pts'.length : ℚ) < 8 := by exact_mod_cast l2
  rw [div_lt_div_iff₀ (by norm_num) (by norm_num)]
  push_cast
  linarith

/-! ## The hypotheses are met -/

variable {mink : Matrix (Fin 3) (Fin 3) ℚ → Matrix (Fin 3) (Fin 3) ℚ} {sqrt : ℚ → ℚ}

/-- `ratio_ignored` for a machine that counts with all symmetries of the lattice. -/
example (hm : Minkowski mink) (hs : SqrtOk sqrt) (junk : ℤ) (fuel : ℕ) :
    ∃ e pts K N pts', program (totalEnv mink sqrt) wordsReader junk rt2Double fuel cubePoscar cubeKpgen = .ok e ∧
      IrreduciblePoints ((realMat (cubeData.scale • cubeData.columns))ᵀ)⁻¹ (realMat (cubeData.scale⁻¹ • e.sel.grid)) 0
        (allOps (realCell (cellOf cubeData.columns))) pts ∧
      Candidate (realMat (cubeData.scale • cubeData.columns)) 1 K N ∧
      IrreduciblePoints ((realMat (cubeData.scale • cubeData.columns))ᵀ)⁻¹ K 0
        (allOps (realCell (cellOf cubeData.columns))) pts' ∧
      (pts'.length : ℚ) / N < pts.length / e.nt_kpts := by
  obtain ⟨r1, r2, r3, r4⟩ := rt2Double_bounds
  have hl := (totalEnv_built hm hs (cellOf cubeData.columns) (8589935 / 2 ^ 33) cubeId).right cube_recognised
  refine (ratio_ignored (env := totalEnv mink sqrt) (junk := junk) (fuel := fuel) rfl hl
    (fun b t f g o => totalEnv_total _ b t f _ _ g o) (.inl rfl) (latticeGroup_all cube_recognised.real_det) ?_
    (fun _ _ _ => totalEnv_counts cube_recognised.real_det ..) (by simp [totalEnv, packEnv]) r3 r4).2
  rw [cube_realCell]
  refine ⟨?_, !![0, 1, 0; 1, 0, 0; 0, 0, 1], ?_⟩
  · ext i j
    fin_cases i <;> fin_cases j <;> simp [swapAxes, Matrix.mul_apply, Fin.sum_univ_three]
  · rw [mul_smul_comm, smul_mul_assoc, Matrix.mul_one, Matrix.one_mul]
    congr 1
    ext i j
    fin_cases i <;> fin_cases j <;> simp [swapAxes, toReal]

/-- C105 for the same crystal: no candidate has fewer irreducible points. -/
example (hm : Minkowski mink) (hs : SqrtOk sqrt) (junk : ℤ) (fuel : ℕ) :
    ∃ e pts, program (totalEnv mink sqrt) wordsReader junk rt2Double fuel cubePoscar cubeKpgen = .ok e ∧
      IrreduciblePoints ((realMat (cubeData.scale • cubeData.columns))ᵀ)⁻¹ (realMat (cubeData.scale⁻¹ • e.sel.grid)) 0
        (allOps (realCell (cellOf cubeData.columns))) pts ∧
      ∀ K N pts', Candidate (realMat (cubeData.scale • cubeData.columns)) 1 K N →
        IrreduciblePoints ((realMat (cubeData.scale • cubeData.columns))ᵀ)⁻¹ K 0
          (allOps (realCell (cellOf cubeData.columns))) pts' → pts.length ≤ pts'.length := by
  have hdet : (cubeData.scale • cubeData.columns).det ≠ 0 := by rw [cube_det]; norm_num
  obtain ⟨r1, r2, r3, r4⟩ := rt2Double_bounds
  have hl := (totalEnv_built hm hs (cellOf cubeData.columns) (8589935 / 2 ^ 33) cubeId).right cube_recognised
  obtain ⟨e, n, base, types, flag, pts, a1, a2, -, -, a3, a4⟩ := program_best_cubic_partial (env := totalEnv mink sqrt)
    (junk := junk) (fuel := fuel) cube_says hdet (by linarith) cubeKpgen_says (cube_usable r3 r4 _) (k := .rmin)
    (v := "5".toList) rfl rfl (by decide) cube_recognised hl (fun b t f g o => totalEnv_total _ b t f _ _ g o) (.inl rfl)
    (ops := fun _ _ _ => allOps (realCell (cellOf cubeData.columns))) (fun _ _ _ => latticeGroup_all cube_recognised.real_det)
    (fun _ _ _ => totalEnv_counts cube_recognised.real_det ..)
    (fun n hn => by
      rw [cube_asks r3 r4 hn]
      simp [totalEnv, packEnv, cubeId]) (by decide)
  have hn := cube_asks r3 r4 a2
  subst hn
  exact ⟨e, pts, a1, a3, fun K N pts' hK hp => (a4 K N pts' hK hp).1 (.inr (by norm_num))⟩

def manyKpgen : List (List Char) := ["NKPTS=750".toList, "SHIFT=0 0 0".toList]

def manySettings : List (Key × List Char) := [(.nkpts, "750".toList), (.shift, "0 0 0".toList)]

theorem manyKpgen_says : FileSays manyKpgen manySettings :=
  .sets ⟨0, by decide⟩ (.sets ⟨0, by decide⟩ .nil)

theorem many_asks {vol : ℚ} {natoms n : ℤ} (h : Asks wordsReader piLit rt2Double natoms vol .nkpts "750".toList n) : n = 750 :=
  Option.some.inj (Eq.trans (Eq.symm h) (by decide))

/-- C105 for the same crystal and 750 points: no candidate has a smaller ratio. -/
example (hm : Minkowski mink) (hs : SqrtOk sqrt) (junk : ℤ) (fuel : ℕ) :
    ∃ e pts, program (totalEnv mink sqrt) wordsReader junk rt2Double fuel cubePoscar manyKpgen = .ok e ∧
      IrreduciblePoints ((realMat (cubeData.scale • cubeData.columns))ᵀ)⁻¹ (realMat (cubeData.scale⁻¹ • e.sel.grid)) 0
        (allOps (realCell (cellOf cubeData.columns))) pts ∧
      ∀ K N pts', Candidate (realMat (cubeData.scale • cubeData.columns)) 750 K N →
        IrreduciblePoints ((realMat (cubeData.scale • cubeData.columns))ᵀ)⁻¹ K 0
          (allOps (realCell (cellOf cubeData.columns))) pts' → (pts.length : ℚ) / e.nt_kpts ≤ pts'.length / N := by
  have hdet : (cubeData.scale • cubeData.columns).det ≠ 0 := by rw [cube_det]; norm_num
  obtain ⟨r1, r2, r3, r4⟩ := rt2Double_bounds
  have hl := (totalEnv_built hm hs (cellOf cubeData.columns) (8589935 / 2 ^ 33) cubeId).right cube_recognised
  obtain ⟨e, n, base, types, flag, pts, a1, a2, -, -, a3, a4⟩ := program_best_cubic_partial (env := totalEnv mink sqrt)
    (junk := junk) (fuel := fuel) cube_says hdet (by linarith) manyKpgen_says
    ⟨by
      intro p hp
      simp only [manySettings, List.mem_cons, List.not_mem_nil, or_false] at hp
      rcases hp with rfl | rfl
      · exact ⟨750, by decide⟩
      · exact ⟨(0, 0, 0), by decide⟩, by
      intro p hp n hn
      simp only [manySettings, List.mem_cons, List.not_mem_nil, or_false] at hp
      rcases hp with rfl | rfl
      · rw [many_asks hn]
        norm_num
      · exact absurd hn (by simp [Asks])⟩ (k := .nkpts)
    (v := "750".toList) rfl rfl (by decide) cube_recognised hl (fun b t f g o => totalEnv_total _ b t f _ _ g o) (.inl rfl)
    (ops := fun _ _ _ => allOps (realCell (cellOf cubeData.columns))) (fun _ _ _ => latticeGroup_all cube_recognised.real_det)
    (fun _ _ _ => totalEnv_counts cube_recognised.real_det ..)
    (fun n hn => by
      rw [many_asks hn]
      simp [totalEnv, packEnv, cubeId]) (by decide)
  have hn := many_asks a2
  subst hn
  exact ⟨e, pts, a1, a3, fun K N pts' hK hp => (a4 K N pts' hK hp).2 (by simp [manySettings]) (by norm_num)⟩

end AutoGR.Fortran
