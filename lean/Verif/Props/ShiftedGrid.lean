import Verif.Props.TriclinicGrid
import Verif.Props.ShiftSymmetry
import Verif.Spec.HalfShift

/-!
# C110: no shift that the program tries is better than the one it returns
-/

namespace AutoGR.Fortran

open Spec Matrix

/-- The library counts the irreducible points of the shifted grids: `ops` are the symmetries of the crystal that it finds
with the level of symmetry and the tolerance the user asks for, `ops0` those it finds by default.  If a shifted grid does not
have the symmetries it may count the points or report an error. -/
structure CountsShifted (U : Matrix (Fin 3) (Fin 3) ℝ) (ops ops0 : Set (Matrix (Fin 3) (Fin 3) ℝ))
    (lib : Lib (Matrix (Fin 3) (Fin 3) ℚ) Offset) : Prop where
  irr : ∀ K n o c, SymmetricGrid U (realMat K) n → lib.irr K o = some c →
    ∃ pts, IrreduciblePoints (Uᵀ)⁻¹ (realMat K) (realMat K *ᵥ offsetVec o) ops pts ∧ pts.length = c
  kept : ∀ K n o, SymmetricGrid U (realMat K) n → (∀ Q ∈ ops, KeepsShifted Q (realMat K) o) → lib.irr K o ≠ none
  irrDefault : ∀ K n o c, SymmetricGrid U (realMat K) n → lib.irrDefault K o = some c →
    ∃ pts, IrreduciblePoints (Uᵀ)⁻¹ (realMat K) (realMat K *ᵥ offsetVec o) ops0 pts ∧ pts.length = c

/-- The offsets that are tried: the one of the last line `SHIFT`, or, without such a line, a list with the offset 0. -/
structure Tries (env : Env (Matrix (Fin 3) (Fin 3) ℚ)) (rd : Reader) (settings : List (Key × List Char)) (U : RMat ℚ) (id : ℕ)
    (eps : ℚ) (offsets : List Offset) : Prop where
  given : ∀ o, lastOf (shiftValue rd) settings = some o → offsets = [o]
  found : (∀ p ∈ settings, p.1 ≠ .shift) → (0, 0, 0) ∈ offsets ∧ offsetsTried env U id eps none true = some offsets

theorem keepsShifted_unshifted {U K : Matrix (Fin 3) (Fin 3) ℝ} {n : ℤ} (h : SymmetricGrid U K n)
    {ops : Set (Matrix (Fin 3) (Fin 3) ℝ)} (hG : LatticeGroup U ops) : ∀ Q ∈ ops, KeepsShifted Q K (0, 0, 0) := by
  intro Q hQ z
  obtain ⟨Y, hY⟩ := h.symmetric Q (hG.sym Q hQ).1 (hG.sym Q hQ).2
  refine ⟨Y *ᵥ z, ?_⟩
  rw [offsetVec_zero, zero_add, zero_add]
  change Q *ᵥ (K *ᵥ intVec z) = K *ᵥ intVec (Y *ᵥ z)
  rw [mulVec_mulVec, hY, ← mulVec_mulVec, intVec_mulVec]

theorem keepsShifted_smul {Q K : Matrix (Fin 3) (Fin 3) ℝ} {o : Offset} (s : ℝ) (h : KeepsShifted Q K o) :
    KeepsShifted Q (s • K) o := by
  intro z
  obtain ⟨z', hz⟩ := h z
  refine ⟨z', ?_⟩
  rw [smul_mulVec, smul_mulVec, mulVec_smul, hz]

theorem zero_mem_get_offsets (id : ℕ) (e12 e13 e23 : Bool) (n1 n2 n3 : ℚ) :
    ((0, 0, 0) : Offset) ∈ get_offsets id e12 e13 e23 n1 n2 n3 := by
  unfold get_offsets
  split_ifs <;> simp

variable {rd : Reader} {junk : ℤ} {rt2 : ℚ} {poscar kpgen : List (List Char)} {d : PoscarData}
  {settings : List (Key × List Char)} {env : Env (Matrix (Fin 3) (Fin 3) ℚ)} {fuel : ℕ} {k : Key} {v : List Char}
  {eps rho : ℚ} {r : IdCell}
  {mink : Matrix (Fin 3) (Fin 3) ℚ → Matrix (Fin 3) (Fin 3) ℚ} {sqrt : ℚ → ℚ}

theorem lastOf_shift_none (h : ∀ p ∈ settings, p.1 ≠ .shift) : lastOf (shiftValue rd) settings = none := by
  unfold lastOf
  rw [List.getLast?_eq_none_iff, List.filterMap_eq_nil_iff]
  rintro ⟨k', v'⟩ hmem
  have := h _ hmem
  cases k' <;> first | rfl | exact absurd rfl this

theorem tries_of {U : RMat ℚ} {id : ℕ} {s : Inputs} {offsets : List Offset}
    (h1 : s.offset = lastOf (shiftValue rd) settings) (h2 : s.find_offset = true ↔ ∀ p ∈ settings, p.1 ≠ .shift)
    (h : offsetsTried env U id eps s.offset s.find_offset = some offsets) : Tries env rd settings U id eps offsets := by
  constructor
  · intro o ho
    have e1 : s.find_offset = false := by
      rw [Bool.eq_false_iff]
      intro hcon
      rw [lastOf_shift_none (h2.1 hcon)] at ho
      cases ho
    rw [e1, h1, ho] at h
    exact (Option.some.inj h).symm
  · intro hn
    rw [h2.2 hn] at h
    have h3 : offsetsTried env U id eps none true = some offsets := h
    refine ⟨?_, h3⟩
    have := Option.some.inj h3
    rw [← this]
    exact zero_mem_get_offsets ..

theorem realCell_columns : realCell (cellOf d.columns) = realMat d.columns := by
  unfold realCell
  rw [cellOf_toMatrix]
  rfl

theorem reciprocal_scaled (hdet : (d.scale • d.columns).det ≠ 0) (hU : (realCell (cellOf d.columns)).det ≠ 0) :
    ((realMat (d.scale • d.columns))ᵀ)⁻¹ = (d.scale : ℝ)⁻¹ • ((realCell (cellOf d.columns))ᵀ)⁻¹ := by
  have hs : (d.scale : ℝ) ≠ 0 := by exact_mod_cast scale_ne hdet
  rw [realMat_smul, ← realCell_columns, transpose_smul]
  let _ := invertibleOfNonzero hs
  rw [Matrix.inv_smul _ (d.scale : ℝ) (by rw [det_transpose]; exact isUnit_iff_ne_zero.2 hU), invOf_eq_inv]

/-- The irreducible points of a shifted grid, for the cell of `POSCAR`. -/
theorem irreducible_scaled (hdet : (d.scale • d.columns).det ≠ 0) (hU : (realCell (cellOf d.columns)).det ≠ 0)
    {K : Matrix (Fin 3) (Fin 3) ℝ} {o : Offset}
    {syms : Set (Matrix (Fin 3) (Fin 3) ℝ)} {ps : List ((Fin 3 → ℝ) × ℤ)}
    (h : IrreduciblePoints ((realCell (cellOf d.columns))ᵀ)⁻¹ K (K *ᵥ offsetVec o) syms ps) :
    ∃ ps', IrreduciblePoints ((realMat (d.scale • d.columns))ᵀ)⁻¹ ((d.scale : ℝ)⁻¹ • K) (((d.scale : ℝ)⁻¹ • K) *ᵥ offsetVec o)
      syms ps' ∧ ps'.length = ps.length := by
  have hs : (d.scale : ℝ) ≠ 0 := by exact_mod_cast scale_ne hdet
  have := h.smul (inv_ne_zero hs)
  rw [← smul_mulVec, ← reciprocal_scaled hdet hU] at this
  exact ⟨_, this, List.length_map _⟩

/-- The library's number of points of a grid with a shift that keeps the symmetries. -/
theorem counts_shifted (hdet : (d.scale • d.columns).det ≠ 0) (hU : (realCell (cellOf d.columns)).det ≠ 0)
    {ops ops0 : Set (Matrix (Fin 3) (Fin 3) ℝ)} {lib : Lib (Matrix (Fin 3) (Fin 3) ℚ) Offset}
    (hG : LatticeGroup (realCell (cellOf d.columns)) ops) (hc : CountsShifted (realCell (cellOf d.columns)) ops ops0 lib)
    {K : Matrix (Fin 3) (Fin 3) ℚ} {n : ℤ} (h : SymmetricGrid (realCell (cellOf d.columns)) (realMat K) n) {o : Offset}
    (hk : ∀ Q ∈ ops, KeepsShifted Q ((d.scale : ℝ)⁻¹ • realMat K) o) {pts : List ((Fin 3 → ℝ) × ℤ)}
    (hp : IrreduciblePoints ((realMat (d.scale • d.columns))ᵀ)⁻¹ ((d.scale : ℝ)⁻¹ • realMat K)
      (((d.scale : ℝ)⁻¹ • realMat K) *ᵥ offsetVec o) ops pts) :
    lib.irr K o = some pts.length := by
  have hs : (d.scale : ℝ) ≠ 0 := by exact_mod_cast scale_ne hdet
  have hk' : ∀ Q ∈ ops, KeepsShifted Q (realMat K) o := fun Q hQ => by
    have := keepsShifted_smul (d.scale : ℝ) (hk Q hQ)
    rwa [smul_smul, mul_inv_cancel₀ hs, one_smul] at this
  obtain ⟨c, hc'⟩ := Option.ne_none_iff_exists'.1 (hc.kept K n o h hk')
  obtain ⟨ps, h1, h2⟩ := hc.irr K n o c h hc'
  have := hp.smul hs
  rw [reciprocal_scaled hdet hU, ← smul_mulVec, smul_smul, smul_smul, mul_inv_cancel₀ hs, one_smul, one_smul] at this
  rw [hc', ← h2, irreducible_length hU hG h1 this, List.length_map]

/-- What the program's preference means. -/
theorem preferred_means {min_kpts : Bool} {n a N : ℤ} {c b c' : ℕ}
    (hm : min_kpts = true ↔ ∃ p ∈ settings, p.1 = .minIrrKpts ∧ IsWord p.2 "TRUE".toList) (ha : 0 < a) (hN : 0 < N)
    (hpref : Preferred min_kpts n c a b N) (hb : b ≤ c') :
    ((∃ p ∈ settings, p.1 = .minIrrKpts ∧ IsWord p.2 "TRUE".toList) ∨ n ≤ 500 → c ≤ c') ∧
    ((∀ p ∈ settings, p.1 = .minIrrKpts → ¬ IsWord p.2 "TRUE".toList) → 500 < n → (c : ℚ) / a ≤ c' / N) := by
  unfold Preferred at hpref
  constructor
  · intro hx
    rw [if_neg] at hpref
    · exact hpref.trans hb
    · rintro ⟨y1, y2⟩
      rcases hx with hx | hx
      · rw [hm.2 hx] at y1
        cases y1
      · omega
  · intro hx hx'
    have : min_kpts = false := by
      rw [Bool.eq_false_iff]
      intro hy
      obtain ⟨p, w1, w2, w3⟩ := hm.1 hy
      exact hx p w1 w2 w3
    rw [if_pos ⟨this, hx'⟩] at hpref
    rw [div_le_div_iff₀ (by exact_mod_cast ha) (by exact_mod_cast hN)]
    have t3 : (b : ℤ) * a ≤ c' * a := mul_le_mul_of_nonneg_right (by exact_mod_cast hb) ha.le
    exact_mod_cast hpref.trans t3

/-- C110, for the lattices that are neither cubic nor triclinic.  `n` points are asked for, with a shift (the line `SHIFT`) or
without one; `ops` are the symmetries that the library works with by the level of symmetry that the user asks for, `ops0`
those by default.  If the program returns a grid, it has the symmetries of the lattice and at least `n` points and a
packing fraction of at least 0.3 (0.29, with rounding), and its shift is one of the `offsets`: the one the user gives, or one of
a list that contains 0.  Take a number `N` of points, the one of this grid or one from `n` up to the range of the lattice
for which there is more than one symmetric grid, and of the densely packed symmetric grids with `N` points one whose
points are farthest apart.  It has a basis such that with each of the `offsets`, in this basis, that keeps the symmetries, it
has at least as many irreducible points as the grid returned, with `MIN_IRR_KPTS=TRUE` or if at most 500 points are asked for;
otherwise its ratio of irreducible points to all points is at least as large. -/
theorem program_best_shifted (hp : PoscarSays rd poscar d) (hdet : (d.scale • d.columns).det ≠ 0) (hrt : rt2 ≠ 0)
    (hf : FileSays kpgen settings) (hu : Usable rd rt2 d.counts.sum |(d.scale • d.columns).det| settings)
    (hk : lastOf densitySetting settings = some (k, v)) (he : Tolerance rd settings eps)
    (h : Recognised env.equal (cellOf d.columns) eps rho r) (hb : EnvBuilt env mink sqrt (cellOf d.columns) eps r)
    (hmono : ∀ x y : ℚ, 0 ≤ x → x ≤ y → sqrt x ≤ sqrt y)
    {ops ops0 : List (Fin 3 → ℚ) → List ℕ → ℕ → Set (Matrix (Fin 3) (Fin 3) ℝ)}
    (hG : ∀ base types flag, LatticeGroup (realCell (cellOf d.columns)) (ops base types flag))
    (hc : ∀ base types flag, CountsShifted (realCell (cellOf d.columns)) (ops base types flag) (ops0 base types flag)
      (env.lib (cellOf d.columns) base types flag eps r))
    (hasks : ∀ n, Asks rd piLit rt2 d.counts.sum |(d.scale • d.columns).det| k v n →
      1 ≤ n ∧ ∀ s_range, r.s_range = some s_range → IntsFit env.wrap (n + (max fuel s_range : ℕ)))
    (hid : r.id ∉ [1, 3, 5, 31, 44]) :
    program env rd junk rt2 fuel poscar kpgen = .error (.grid .running) ∨
    ∃ e n base types flag syms pts s_range offsets, program env rd junk rt2 fuel poscar kpgen = .ok e ∧
      Asks rd piLit rt2 d.counts.sum |(d.scale • d.columns).det| k v n ∧
      (lastOf symmetryLevel settings = some flag ∨ lastOf symmetryLevel settings = none ∧ flag = 0) ∧
      r.s_range = some s_range ∧ 5 ≤ s_range ∧ n ≤ e.nt_kpts ∧
      Tries env rd settings (cellOf d.columns) r.id eps offsets ∧ e.sel.offset ∈ offsets ∧
      SymmetricGrid (realMat (d.scale • d.columns)) (realMat (d.scale⁻¹ • e.sel.grid)) e.nt_kpts ∧
      PackedAtLeast (29 / 100) (realMat (d.scale⁻¹ • e.sel.grid)) ∧
      (syms = ops base types flag ∨ syms = ops0 base types flag) ∧
      IrreduciblePoints ((realMat (d.scale • d.columns))ᵀ)⁻¹ (realMat (d.scale⁻¹ • e.sel.grid))
        (realMat (d.scale⁻¹ • e.sel.grid) *ᵥ offsetVec e.sel.offset) syms pts ∧
      ∀ K N, (N = e.nt_kpts ∨ n ≤ N ∧ N < n + s_range ∧ SeveralGrids (realMat (d.scale • d.columns)) N) →
        TellsApart (env.lib (cellOf d.columns) base types flag eps r).equal eps sqrt (realCell (cellOf d.columns)) N →
        Widest (realMat (d.scale • d.columns)) N K →
        ∃ K₂, gridPoints K₂ = gridPoints K ∧ SymmetricGrid (realMat (d.scale • d.columns)) K₂ N ∧
          ∀ o ∈ offsets, ∀ pts', (∀ Q ∈ ops base types flag, KeepsShifted Q K₂ o) →
            IrreduciblePoints ((realMat (d.scale • d.columns))ᵀ)⁻¹ K₂ (K₂ *ᵥ offsetVec o) (ops base types flag) pts' →
            ((∃ p ∈ settings, p.1 = .minIrrKpts ∧ IsWord p.2 "TRUE".toList) ∨ n ≤ 500 → pts.length ≤ pts'.length) ∧
            ((∀ p ∈ settings, p.1 = .minIrrKpts → ¬ IsWord p.2 "TRUE".toList) → 500 < n →
              (pts.length : ℚ) / e.nt_kpts ≤ pts'.length / N) := by
  have hl := hb.right h
  obtain ⟨n, base, types, s, p1, p2, p3, p4, p5, p6⟩ := program_reads_choice (junk := junk) env hp hdet hrt hf hu hk he
  obtain ⟨offsets, s_range, q1, q2, q3, q4⟩ := find_grid_searches env h hl.pgSize n base types s.offset
    s.find_offset (offset_ne_none p3 p4 hu.readable) s.symm_flag s.min_kpts
  obtain ⟨h1, hfit'⟩ := hasks n p2
  have hfit'' := hfit' s_range q1
  have hfit : IntsFit env.wrap (n + fuel) := intsFit_mono hfit'' (by push_cast; have := le_max_left (fuel : ℤ) s_range; omega)
  obtain ⟨k1, k2⟩ := h.id_range
  obtain ⟨s', hs1, hs2⟩ := sRange_le r.id k1 k2 hid
  have hs3 : s_range = s' := by
    rw [h.s_range, hs1] at q1
    exact (Option.some.inj q1).symm
  have hk' : r.id ∉ [31, 44] := fun hm => hid (by simp at hm ⊢; omega)
  have hred := reduced_canonC r.id k1 k2 hk'
  rw [p1 fuel, q4 fuel]
  rcases findGrid_general (env.lib (cellOf d.columns) base types s.symm_flag eps r)
    (hl.irr base types s.symm_flag) env.wrap eps offsets s.min_kpts (env.root n) fuel r.id k1 k2 hid _
    hred s_range (by omega) n h1 hfit with
    hr | ⟨e, he', a1, a2, a3, a4, a5, a6, a7⟩
  · left
    rw [hr]
  right
  obtain ⟨b1, b2⟩ := find_grid_symmetric_general h hid (hl.reduces base types s.symm_flag)
    (hl.irr base types s.symm_flag) env.wrap offsets s.min_kpts (env.root n) fuel s_range q1 n h1 hfit e he'
  have hN1 : 1 ≤ e.nt_kpts := h1.trans a1
  have hUd := h.real_det
  have e1 : ∀ K : Matrix (Fin 3) (Fin 3) ℚ, realMat (d.scale⁻¹ • K) = (d.scale : ℝ)⁻¹ • realMat K := fun K => by
    rw [realMat_smul, Rat.cast_inv]
  have hs : (d.scale : ℝ) ≠ 0 := by exact_mod_cast scale_ne hdet
  -- the number of irreducible points of the grid
  have hsyms : ∃ syms pts, (syms = ops base types s.symm_flag ∨ syms = ops0 base types s.symm_flag) ∧
      IrreduciblePoints ((realMat (d.scale • d.columns))ᵀ)⁻¹ (realMat (d.scale⁻¹ • e.sel.grid))
        (realMat (d.scale⁻¹ • e.sel.grid) *ᵥ offsetVec e.sel.offset) syms pts ∧ pts.length = e.sel.n_irr := by
    rw [e1]
    rcases a6 with a6 | a6
    · obtain ⟨pts, c1, c2⟩ := (hc base types s.symm_flag).irr _ _ _ _ b1 a6
      obtain ⟨ps, c3, c4⟩ := irreducible_scaled hdet hUd c1
      exact ⟨_, ps, .inl rfl, c3, c4.trans c2⟩
    · obtain ⟨pts, c1, c2⟩ := (hc base types s.symm_flag).irrDefault _ _ _ _ b1 a6
      obtain ⟨ps, c3, c4⟩ := irreducible_scaled hdet hUd c1
      exact ⟨_, ps, .inr rfl, c3, c4.trans c2⟩
  obtain ⟨syms, pts, c1, c2, c3⟩ := hsyms
  refine ⟨e, n, base, types, s.symm_flag, syms, pts, s_range, offsets, by rw [he'], p2, p5, q1, by omega, a1, tries_of p3 p4 q3,
    a5, real_scaled hdet b1, ?_, c1, c2, ?_⟩
  · have hd : e.sel.HNF.det ≠ 0 := by have := a2.2.1; omega
    rw [realMat_smul, a3]
    exact packedAtLeast_smul (hb.packed h hd a4).1
  intro K N hN ht hK
  obtain ⟨gen, hgen, -⟩ := generatorOf_good env.wrap r.id k1 k2 hid hred
  have hn1 : 1 ≤ N := by
    rcases hN with hN | ⟨hN, -⟩ <;> omega
  have hfN : IntsFit env.wrap N := by
    rcases hN with hN | ⟨-, hN, -⟩
    · rw [hN]
      exact (findGrid_own _ (hl.irr base types s.symm_flag) env.wrap eps offsets s.min_kpts (env.root n) fuel r.id k1 k2 hid
        _ hred s_range (by omega) n h1 hfit e he' gen hgen).1
    · exact intsFit_mono hfit'' (by push_cast; have := le_max_right (fuel : ℤ) s_range; omega)
  obtain ⟨gen', hgen', hls⟩ := grids_general h hid env.wrap hn1 hfN
  rw [hgen] at hgen'
  cases hgen'
  obtain ⟨K₂, g1, g2, g3⟩ := widest_list_offsets hUd hb.reduction hb.root hmono (hb.built base types s.symm_flag)
    (hl.irr base types s.symm_flag) hn1 hls ht (widest_unscaled hdet hK) offsets
  have hpts : gridPoints ((d.scale : ℝ)⁻¹ • realMat K₂) = gridPoints K := by
    rw [← gridPoints_smul_inj hs, smul_smul, mul_inv_cancel₀ hs, one_smul, g1]
  refine ⟨(d.scale : ℝ)⁻¹ • realMat K₂, hpts, by rw [← e1]; exact real_scaled hdet g2, fun o ho pts' hkeep hpts' => ?_⟩
  obtain ⟨b, t1, t2⟩ := g3 o ho _ (counts_shifted hdet hUd (hG base types s.symm_flag) (hc base types s.symm_flag) g2 hkeep hpts')
  have hpref : Preferred s.min_kpts n e.sel.n_irr e.nt_kpts b.n_irr N := by
    rcases hN with hN | ⟨hN, hN', hN''⟩
    · obtain ⟨-, m, t3⟩ := findGrid_own _ (hl.irr base types s.symm_flag) env.wrap eps offsets s.min_kpts (env.root n) fuel
        r.id k1 k2 hid _ hred s_range (by omega) n h1 hfit e he' gen hgen
      rw [← hN, t1] at t3
      cases t3
      rw [hN]
      unfold Preferred
      split <;> exact le_rfl
    · refine a7 N hN hN' gen hgen ?_ _ b t1
      obtain ⟨A, B, i1, i2, i3⟩ := several_unscaled hdet hN''
      obtain ⟨i, j1, -⟩ := hls.complete A i1
      obtain ⟨j, j2, -⟩ := hls.complete B i2
      have hij : i ≠ j := by
        rintro rfl
        exact i3 (j1.symm.trans j2)
      have hi := i.isLt.trans_eq (List.length_map _)
      have hj := j.isLt.trans_eq (List.length_map _)
      have : i.val ≠ j.val := fun h0 => hij (Fin.ext h0)
      omega
  rw [c3]
  exact preferred_means p6 (by omega) (by omega) hpref t2

/-- C110, without a line `SHIFT`: the grid returned is, by the program's preference, at least as good as every widest grid
without a shift. -/
theorem program_best_automatic (hp : PoscarSays rd poscar d) (hdet : (d.scale • d.columns).det ≠ 0) (hrt : rt2 ≠ 0)
    (hf : FileSays kpgen settings) (hu : Usable rd rt2 d.counts.sum |(d.scale • d.columns).det| settings)
    (hk : lastOf densitySetting settings = some (k, v)) (he : Tolerance rd settings eps)
    (hshift : ∀ p ∈ settings, p.1 ≠ .shift)
    (h : Recognised env.equal (cellOf d.columns) eps rho r) (hb : EnvBuilt env mink sqrt (cellOf d.columns) eps r)
    (hmono : ∀ x y : ℚ, 0 ≤ x → x ≤ y → sqrt x ≤ sqrt y)
    {ops ops0 : List (Fin 3 → ℚ) → List ℕ → ℕ → Set (Matrix (Fin 3) (Fin 3) ℝ)}
    (hG : ∀ base types flag, LatticeGroup (realCell (cellOf d.columns)) (ops base types flag))
    (hc : ∀ base types flag, CountsShifted (realCell (cellOf d.columns)) (ops base types flag) (ops0 base types flag)
      (env.lib (cellOf d.columns) base types flag eps r))
    (hasks : ∀ n, Asks rd piLit rt2 d.counts.sum |(d.scale • d.columns).det| k v n →
      1 ≤ n ∧ ∀ s_range, r.s_range = some s_range → IntsFit env.wrap (n + (max fuel s_range : ℕ)))
    (hid : r.id ∉ [1, 3, 5, 31, 44]) :
    program env rd junk rt2 fuel poscar kpgen = .error (.grid .running) ∨
    ∃ e n base types flag syms pts s_range, program env rd junk rt2 fuel poscar kpgen = .ok e ∧
      Asks rd piLit rt2 d.counts.sum |(d.scale • d.columns).det| k v n ∧
      (lastOf symmetryLevel settings = some flag ∨ lastOf symmetryLevel settings = none ∧ flag = 0) ∧
      r.s_range = some s_range ∧ 5 ≤ s_range ∧
      (syms = ops base types flag ∨ syms = ops0 base types flag) ∧
      IrreduciblePoints ((realMat (d.scale • d.columns))ᵀ)⁻¹ (realMat (d.scale⁻¹ • e.sel.grid))
        (realMat (d.scale⁻¹ • e.sel.grid) *ᵥ offsetVec e.sel.offset) syms pts ∧
      ∀ K N pts', (N = e.nt_kpts ∨ n ≤ N ∧ N < n + s_range ∧ SeveralGrids (realMat (d.scale • d.columns)) N) →
        TellsApart (env.lib (cellOf d.columns) base types flag eps r).equal eps sqrt (realCell (cellOf d.columns)) N →
        Widest (realMat (d.scale • d.columns)) N K →
        IrreduciblePoints ((realMat (d.scale • d.columns))ᵀ)⁻¹ K 0 (ops base types flag) pts' →
        ((∃ p ∈ settings, p.1 = .minIrrKpts ∧ IsWord p.2 "TRUE".toList) ∨ n ≤ 500 → pts.length ≤ pts'.length) ∧
        ((∀ p ∈ settings, p.1 = .minIrrKpts → ¬ IsWord p.2 "TRUE".toList) → 500 < n →
          (pts.length : ℚ) / e.nt_kpts ≤ pts'.length / N) := by
  rcases program_best_shifted (junk := junk) hp hdet hrt hf hu hk he h hb hmono hG hc hasks hid with h' |
    ⟨e, n, base, types, flag, syms, pts, s_range, offsets, a1, a2, a3, a4, a5, -, a6, -, -, -, a7, a8, a9⟩
  · exact .inl h'
  refine .inr ⟨e, n, base, types, flag, syms, pts, s_range, a1, a2, a3, a4, a5, a7, a8, fun K N pts' b1 b2 b3 b4 => ?_⟩
  obtain ⟨K₂, c1, c2, c3⟩ := a9 K N b1 b2 b3
  refine c3 _ (a6.found hshift).1 pts' ?_ ?_
  · have hG' : LatticeGroup (realMat (d.scale • d.columns)) (ops base types flag) := by
      refine ⟨(hG ..).one, (hG ..).mul, (hG ..).inv, fun Q hQ => ?_⟩
      obtain ⟨s1, X, s2⟩ := (hG base types flag).sym Q hQ
      refine ⟨s1, X, ?_⟩
      rw [realMat_smul, ← realCell_columns, Matrix.mul_smul, s2, Matrix.smul_mul]
    exact keepsShifted_unshifted c2 hG'
  · rw [offsetVec_zero, mulVec_zero]
    exact b4.points c1.symm

/-! ## The cubic lattices -/

/-- C110, for the cubic lattices.  The grid found has one of the first five numbers of points, and its shift is one of the
`offsets`: the one the user gives, or one of a list.  Every symmetric grid with one of these numbers of points has a basis such that
with each of the `offsets`, in this basis, that keeps the symmetries, it has at least as many irreducible points as the grid
returned, with `MIN_IRR_KPTS=TRUE` or if at most 500 points are asked for; otherwise its ratio of irreducible points to all points is
at least as large. -/
theorem program_best_cubic_shifted_partial (hp : PoscarSays rd poscar d) (hdet : (d.scale • d.columns).det ≠ 0) (hrt : rt2 ≠ 0)
    (hf : FileSays kpgen settings) (hu : Usable rd rt2 d.counts.sum |(d.scale • d.columns).det| settings)
    (hk : lastOf densitySetting settings = some (k, v)) (he : Tolerance rd settings eps)
    (h : Recognised env.equal (cellOf d.columns) eps rho r) (hl : EnvRight env (cellOf d.columns) eps r)
    (hw : env.wrap = id ∨ Int32 env.wrap)
    {ops ops0 : List (Fin 3 → ℚ) → List ℕ → ℕ → Set (Matrix (Fin 3) (Fin 3) ℝ)}
    (hG : ∀ base types flag, LatticeGroup (realCell (cellOf d.columns)) (ops base types flag))
    (hc : ∀ base types flag, CountsShifted (realCell (cellOf d.columns)) (ops base types flag) (ops0 base types flag)
      (env.lib (cellOf d.columns) base types flag eps r))
    (htot : ∀ o, lastOf (shiftValue rd) settings = some o → ∀ base types flag K n,
      SymmetricGrid (realCell (cellOf d.columns)) (realMat K) n → (env.lib (cellOf d.columns) base types flag eps r).irr K o ≠ none)
    (hasks : ∀ n, Asks rd piLit rt2 d.counts.sum |(d.scale • d.columns).det| k v n →
      1 ≤ n ∧ n ≤ (if r.id = 1 then 1092727 else 1098500) ∧ 0 ≤ env.root n ∧ env.root n ^ 3 ≤ n ∧
        n < (env.root n + 2) ^ 3)
    (hid : r.id ∈ [1, 3, 5]) :
    ∃ e n base types flag pts offsets, program env rd junk rt2 fuel poscar kpgen = .ok e ∧
      Asks rd piLit rt2 d.counts.sum |(d.scale • d.columns).det| k v n ∧
      (lastOf symmetryLevel settings = some flag ∨ lastOf symmetryLevel settings = none ∧ flag = 0) ∧
      Tries env rd settings (cellOf d.columns) r.id eps offsets ∧ e.sel.offset ∈ offsets ∧
      Candidate (realMat (d.scale • d.columns)) n (realMat (d.scale⁻¹ • e.sel.grid)) e.nt_kpts ∧
      IrreduciblePoints ((realMat (d.scale • d.columns))ᵀ)⁻¹ (realMat (d.scale⁻¹ • e.sel.grid))
        (realMat (d.scale⁻¹ • e.sel.grid) *ᵥ offsetVec e.sel.offset) (ops base types flag) pts ∧
      ∀ K N, Candidate (realMat (d.scale • d.columns)) n K N →
        ∃ K₂, gridPoints K₂ = gridPoints K ∧ SymmetricGrid (realMat (d.scale • d.columns)) K₂ N ∧
          ∀ o ∈ offsets, ∀ pts', (∀ Q ∈ ops base types flag, KeepsShifted Q K₂ o) →
            IrreduciblePoints ((realMat (d.scale • d.columns))ᵀ)⁻¹ K₂ (K₂ *ᵥ offsetVec o) (ops base types flag) pts' →
            ((∃ p ∈ settings, p.1 = .minIrrKpts ∧ IsWord p.2 "TRUE".toList) ∨ n ≤ 500 → pts.length ≤ pts'.length) ∧
            ((∀ p ∈ settings, p.1 = .minIrrKpts → ¬ IsWord p.2 "TRUE".toList) → 500 < n →
              (pts.length : ℚ) / e.nt_kpts ≤ pts'.length / N) := by
  obtain ⟨n, base, types, s, p1, p2, p3, p4, p5, p6⟩ := program_reads_choice (junk := junk) env hp hdet hrt hf hu hk he
  obtain ⟨offsets, s_range, q1, q2, q3, q4⟩ := find_grid_searches env h hl.pgSize n base types s.offset
    s.find_offset (offset_ne_none p3 p4 hu.readable) s.symm_flag s.min_kpts
  have htr := tries_of (rd := rd) p3 p4 q3
  obtain ⟨h1, hn, r0, r1, r2⟩ := hasks n p2
  obtain ⟨k1, k2⟩ := h.id_range
  have hk' : r.id ∉ [31, 44] := fun hm => by simp at hm hid; omega
  have hgr : (env.lib (cellOf d.columns) base types s.symm_flag eps r).gridOf = gridOf (cellOf d.columns) r :=
    funext (hl.reduces base types s.symm_flag).grid
  obtain ⟨e, he', a1, a2, a3, a5, a6, a7⟩ := findGrid_cubic_counted_partial
    (env.lib (cellOf d.columns) base types s.symm_flag eps r)
    (hl.irr base types s.symm_flag) env.wrap hw eps offsets
    s.min_kpts fuel r.id hid _ (reduced_canonC r.id k1 k2 hk') (fun N hN H hH => by
      have hg := grid_of_supercell h hid hN hH
      rw [hgr]
      by_cases hsh : ∀ p ∈ settings, p.1 ≠ .shift
      · exact ⟨_, (htr.found hsh).1, (hc base types s.symm_flag).kept _ _ _ hg (keepsShifted_unshifted hg (hG ..))⟩
      · obtain ⟨o, ho⟩ := lastOf_shift_some hu.readable hsh
        exact ⟨o, by rw [htr.given o ho]; simp, htot o ho _ _ _ _ _ hg⟩)
    s_range n (env.root n) h1 hn ⟨r1, r2⟩ r0
  have hUd := h.real_det
  have hs : (d.scale : ℝ) ≠ 0 := by exact_mod_cast scale_ne hdet
  have e1 : ∀ K : Matrix (Fin 3) (Fin 3) ℚ, realMat (d.scale⁻¹ • K) = (d.scale : ℝ)⁻¹ • realMat K := fun K => by
    rw [realMat_smul, Rat.cast_inv]
  have hfirst : ∀ N, AmongFirst 5 n (fun u => ∃ K, SymmetricGrid (realMat (d.scale • d.columns)) K u) N ↔
      AmongFirst 5 n (fun v => ∃ H, H ∈ SymmetricHNFs (ClassSym r.id (canonC r.id).toMat) v) N := fun N =>
    amongFirst_congr fun u hu' => by
      constructor
      · rintro ⟨K, hK⟩
        obtain ⟨H, hH, -⟩ := supercell_of_grid h hid (by omega) ((symmetricGrid_unscaled hdet).1 hK)
        exact ⟨H, hH⟩
      · rintro ⟨H, hH⟩
        exact ⟨_, real_scaled hdet (grid_of_supercell h hid (by omega) hH)⟩
  have hN1 : 1 ≤ e.nt_kpts := h1.trans a1.1
  have b1 := grid_of_supercell h hid hN1 a2
  rw [hgr] at a3
  rw [← a3] at b1
  obtain ⟨pts0, c1, c2⟩ := (hc base types s.symm_flag).irr _ _ _ _ b1 a6
  obtain ⟨pts, c3, c4⟩ := irreducible_scaled hdet hUd c1
  refine ⟨e, n, base, types, s.symm_flag, pts, offsets, by rw [p1 fuel, q4 fuel, he'], p2, p5, htr, a5,
    ⟨real_scaled hdet b1, (hfirst _).2 a1⟩, by rw [e1]; exact c3, ?_⟩
  intro K N hK
  have hN : 1 ≤ N := h1.trans hK.first.1
  obtain ⟨H, hH, hHK⟩ := supercell_of_grid h hid hN ((symmetricGrid_unscaled hdet).1 hK.grid)
  have hg := grid_of_supercell h hid hN hH
  have hpts : gridPoints ((d.scale : ℝ)⁻¹ • realMat (gridOf (cellOf d.columns) r H)) = gridPoints K := by
    rw [← gridPoints_smul_inj hs, smul_smul, mul_inv_cancel₀ hs, one_smul, hHK]
  refine ⟨_, hpts, by rw [← e1]; exact real_scaled hdet hg, fun o ho pts' hkeep hpts' => ?_⟩
  have hm := counts_shifted hdet hUd (hG base types s.symm_flag) (hc base types s.symm_flag) hg hkeep hpts'
  have hpref := a7 N ((hfirst N).1 hK.first) H hH o ho _ (by rw [hgr]; exact hm)
  rw [← c2, ← c4] at hpref
  exact preferred_means p6 (by omega) (by omega) hpref le_rfl

/-! ### Half shifts in another basis -/

theorem half_iff_vec {o : Offset} : Half o ↔ ∃ x : Fin 3 → ℤ, (∀ i, x i = 0 ∨ x i = 1) ∧ offsetVec o = (2 : ℝ)⁻¹ • intVec x := by
  obtain ⟨a, b, c⟩ := o
  constructor
  · rintro ⟨h1, h2, h3⟩
    have key : ∀ q : ℚ, q = 0 ∨ q = 1 / 2 → ∃ z : ℤ, (z = 0 ∨ z = 1) ∧ (q : ℝ) = 2⁻¹ * (z : ℝ) := by
      rintro q (rfl | rfl)
      · exact ⟨0, .inl rfl, by norm_num⟩
      · exact ⟨1, .inr rfl, by norm_num⟩
    obtain ⟨x, x1, x2⟩ := key _ h1
    obtain ⟨y, y1, y2⟩ := key _ h2
    obtain ⟨z, z1, z2⟩ := key _ h3
    refine ⟨![x, y, z], ?_, ?_⟩
    · intro i
      fin_cases i <;> assumption
    · funext i
      fin_cases i
      · exact x2
      · exact y2
      · exact z2
  · rintro ⟨x, x1, x2⟩
    have key : ∀ (q : ℚ) (z : ℤ), z = 0 ∨ z = 1 → (q : ℝ) = 2⁻¹ * (z : ℝ) → q = 0 ∨ q = 1 / 2 := by
      rintro q _ (rfl | rfl) hq
      · left
        have : (q : ℝ) = (0 : ℚ) := by rw [hq]; norm_num
        exact_mod_cast this
      · right
        have : (q : ℝ) = (1 / 2 : ℚ) := by rw [hq]; norm_num
        exact_mod_cast this
    exact ⟨key _ _ (x1 0) (congrFun x2 0), key _ _ (x1 1) (congrFun x2 1), key _ _ (x1 2) (congrFun x2 2)⟩

/-- A half shift is a half shift in every basis of the grid. -/
theorem half_basis {K K₂ : Matrix (Fin 3) (Fin 3) ℝ} (h : gridPoints K₂ = gridPoints K) {o : Offset} (ho : Half o) :
    ∃ o₂, Half o₂ ∧ ∀ k, GridPoint K (K *ᵥ offsetVec o) k ↔ GridPoint K₂ (K₂ *ᵥ offsetVec o₂) k := by
  obtain ⟨W, hW⟩ := gridPoints_sub h.ge
  obtain ⟨x, -, hx⟩ := half_iff_vec.1 ho
  let y := W *ᵥ x
  have hhalf : Half ((((y 0 % 2 : ℤ) : ℚ) / 2, ((y 1 % 2 : ℤ) : ℚ) / 2, ((y 2 % 2 : ℤ) : ℚ) / 2) : Offset) := by
    have key : ∀ z : ℤ, ((z % 2 : ℤ) : ℚ) / 2 = 0 ∨ ((z % 2 : ℤ) : ℚ) / 2 = 1 / 2 := by
      intro z
      rcases Int.emod_two_eq_zero_or_one z with e | e <;> rw [e] <;> norm_num
    exact ⟨key _, key _, key _⟩
  refine ⟨_, hhalf, fun k => ?_⟩
  have e : K *ᵥ offsetVec o = K₂ *ᵥ offsetVec ((((y 0 % 2 : ℤ) : ℚ) / 2, ((y 1 % 2 : ℤ) : ℚ) / 2, ((y 2 % 2 : ℤ) : ℚ) / 2) : Offset) +
      K₂ *ᵥ intVec fun i => y i / 2 := by
    rw [hx, hW, ← mulVec_mulVec, mulVec_smul, intVec_mulVec, ← mulVec_add]
    congr 1
    funext i
    have key : ∀ z : ℤ, (2 : ℝ)⁻¹ * (z : ℝ) = (((z % 2 : ℤ) : ℚ) / 2 : ℚ) + ((z / 2 : ℤ) : ℝ) := by
      intro z
      have := Int.emod_add_mul_ediv z 2
      have h2 : (z : ℝ) = ((z % 2 : ℤ) : ℝ) + 2 * ((z / 2 : ℤ) : ℝ) := by exact_mod_cast this.symm
      rw [h2]
      push_cast
      ring
    fin_cases i
    · exact key (y 0)
    · exact key (y 1)
    · exact key (y 2)
  have e2 : ∀ off, GridPoint K off k ↔ GridPoint K₂ off k := by
    intro off
    have e1 : ∀ K, GridPoint K off k ↔ k - off ∈ gridPoints K := fun K =>
      exists_congr fun z => by rw [sub_eq_iff_eq_add, add_comm]
    rw [e1, e1, h]
  rw [e2, e]
  constructor
  · rintro ⟨z, rfl⟩
    exact ⟨(fun i => y i / 2) + z, by rw [intVec_add, mulVec_add, add_assoc]⟩
  · rintro ⟨z, rfl⟩
    refine ⟨z - fun i => y i / 2, ?_⟩
    have : intVec (z - fun i => y i / 2) = intVec z - intVec fun i => y i / 2 := by
      funext i
      simp [intVec]
    rw [this, mulVec_sub]
    abel

theorem keepsShifted_points {Q K : Matrix (Fin 3) (Fin 3) ℝ} {o : Offset} :
    KeepsShifted Q K o ↔ ∀ k, GridPoint K (K *ᵥ offsetVec o) k → GridPoint K (K *ᵥ offsetVec o) (Q *ᵥ k) := by
  constructor
  · rintro h _ ⟨z, rfl⟩
    obtain ⟨z', hz⟩ := h z
    refine ⟨z', ?_⟩
    rw [← mulVec_add, ← mulVec_add]
    exact hz
  · intro h z
    obtain ⟨z', hz⟩ := h _ ⟨z, rfl⟩
    refine ⟨z', ?_⟩
    rw [← mulVec_add, ← mulVec_add] at hz
    exact hz

/-- The irreducible points depend on the points of the shifted grid only. -/
theorem irreducible_congr {B K K₂ : Matrix (Fin 3) (Fin 3) ℝ} {off off₂ : Fin 3 → ℝ} {ops : Set (Matrix (Fin 3) (Fin 3) ℝ)}
    {pts : List ((Fin 3 → ℝ) × ℤ)} (h : IrreduciblePoints B K off ops pts)
    (e : ∀ k, GridPoint K off k ↔ GridPoint K₂ off₂ k) : IrreduciblePoints B K₂ off₂ ops pts := by
  refine ⟨fun p hp => (e _).1 (h.grid p hp), fun k hk => h.one k ((e _).2 hk), fun i => ?_⟩
  rw [h.weight i]
  simp only [e]

/-- C110, for the cubic lattices without a line `SHIFT`: no half shift, with components 0 and 1/2 in any basis, that keeps the symmetries,
of any symmetric grid with one of the first five numbers of points, is better than the grid and the shift returned. -/
theorem program_best_cubic_automatic_partial (hp : PoscarSays rd poscar d) (hdet : (d.scale • d.columns).det ≠ 0) (hrt : rt2 ≠ 0)
    (hf : FileSays kpgen settings) (hu : Usable rd rt2 d.counts.sum |(d.scale • d.columns).det| settings)
    (hk : lastOf densitySetting settings = some (k, v)) (he : Tolerance rd settings eps)
    (hshift : ∀ p ∈ settings, p.1 ≠ .shift)
    (h : Recognised env.equal (cellOf d.columns) eps rho r) (hl : EnvRight env (cellOf d.columns) eps r)
    (hw : env.wrap = id ∨ Int32 env.wrap)
    {ops ops0 : List (Fin 3 → ℚ) → List ℕ → ℕ → Set (Matrix (Fin 3) (Fin 3) ℝ)}
    (hG : ∀ base types flag, LatticeGroup (realCell (cellOf d.columns)) (ops base types flag))
    (hc : ∀ base types flag, CountsShifted (realCell (cellOf d.columns)) (ops base types flag) (ops0 base types flag)
      (env.lib (cellOf d.columns) base types flag eps r))
    (hasks : ∀ n, Asks rd piLit rt2 d.counts.sum |(d.scale • d.columns).det| k v n →
      1 ≤ n ∧ n ≤ (if r.id = 1 then 1092727 else 1098500) ∧ 0 ≤ env.root n ∧ env.root n ^ 3 ≤ n ∧
        n < (env.root n + 2) ^ 3)
    (hid : r.id ∈ [1, 3, 5]) :
    ∃ e n base types flag pts, program env rd junk rt2 fuel poscar kpgen = .ok e ∧
      Asks rd piLit rt2 d.counts.sum |(d.scale • d.columns).det| k v n ∧
      (lastOf symmetryLevel settings = some flag ∨ lastOf symmetryLevel settings = none ∧ flag = 0) ∧
      Candidate (realMat (d.scale • d.columns)) n (realMat (d.scale⁻¹ • e.sel.grid)) e.nt_kpts ∧ Half e.sel.offset ∧
      IrreduciblePoints ((realMat (d.scale • d.columns))ᵀ)⁻¹ (realMat (d.scale⁻¹ • e.sel.grid))
        (realMat (d.scale⁻¹ • e.sel.grid) *ᵥ offsetVec e.sel.offset) (ops base types flag) pts ∧
      ∀ K N o pts', Candidate (realMat (d.scale • d.columns)) n K N → Half o →
        (∀ Q ∈ ops base types flag, KeepsShifted Q K o) →
        IrreduciblePoints ((realMat (d.scale • d.columns))ᵀ)⁻¹ K (K *ᵥ offsetVec o) (ops base types flag) pts' →
        ((∃ p ∈ settings, p.1 = .minIrrKpts ∧ IsWord p.2 "TRUE".toList) ∨ n ≤ 500 → pts.length ≤ pts'.length) ∧
        ((∀ p ∈ settings, p.1 = .minIrrKpts → ¬ IsWord p.2 "TRUE".toList) → 500 < n →
          (pts.length : ℚ) / e.nt_kpts ≤ pts'.length / N) := by
  obtain ⟨e, n, base, types, flag, pts, offsets, a1, a2, a3, a4, a5, a6, a7, a8⟩ := program_best_cubic_shifted_partial (junk := junk)
    (fuel := fuel) hp hdet hrt hf hu hk he h hl hw hG hc (fun o ho => by
      rw [lastOf_shift_none hshift] at ho
      cases ho) hasks hid
  have hmem : ∀ o, o ∈ offsets ↔ Half o := by
    have := Option.some.inj (a4.found hshift).2
    intro o
    rw [← this]
    unfold get_offsets
    rw [if_pos (by simp at hid ⊢; omega)]
    obtain ⟨x, y, z⟩ := o
    simp only [Half, List.mem_cons, List.not_mem_nil, or_false, Prod.mk.injEq]
    constructor
    · rintro (⟨rfl, rfl, rfl⟩ | ⟨rfl, rfl, rfl⟩ | ⟨rfl, rfl, rfl⟩ | ⟨rfl, rfl, rfl⟩ | ⟨rfl, rfl, rfl⟩ | ⟨rfl, rfl, rfl⟩ |
        ⟨rfl, rfl, rfl⟩ | ⟨rfl, rfl, rfl⟩) <;> norm_num
    · rintro ⟨rfl | rfl, rfl | rfl, rfl | rfl⟩ <;> norm_num
  refine ⟨e, n, base, types, flag, pts, a1, a2, a3, a6, (hmem _).1 a5, a7, fun K N o pts' b1 b2 b3 b4 => ?_⟩
  obtain ⟨K₂, c1, c2, c3⟩ := a8 K N b1
  obtain ⟨o₂, d1, d2⟩ := half_basis c1 b2
  refine c3 o₂ ((hmem _).2 d1) pts' (fun Q hQ => ?_) (irreducible_congr b4 d2)
  rw [keepsShifted_points]
  intro k hk
  exact (d2 _).1 (keepsShifted_points.1 (b3 Q hQ) k ((d2 k).2 hk))

/-! ## Triclinic lattices -/

/-- C110, for the triclinic lattices: as `program_best_tric`, with a shift.  `offsets` are the shifts that are tried: the one of the
line `SHIFT`, or, without such a line, a list with the offset 0. -/
theorem program_best_tric_shifted (hp : PoscarSays rd poscar d) (hdet : (d.scale • d.columns).det ≠ 0) (hrt : rt2 ≠ 0)
    (hf : FileSays kpgen settings) (hu : Usable rd rt2 d.counts.sum |(d.scale • d.columns).det| settings)
    (hk : lastOf densitySetting settings = some (k, v)) (he : Tolerance rd settings eps)
    (h : Recognised env.equal (cellOf d.columns) eps rho r) (hb : EnvBuilt env mink sqrt (cellOf d.columns) eps r)
    (hmono : ∀ x y : ℚ, 0 ≤ x → x ≤ y → sqrt x ≤ sqrt y)
    {ops ops0 : List (Fin 3 → ℚ) → List ℕ → ℕ → Set (Matrix (Fin 3) (Fin 3) ℝ)}
    (hG : ∀ base types flag, LatticeGroup (realCell (cellOf d.columns)) (ops base types flag))
    (hc : ∀ base types flag, CountsShifted (realCell (cellOf d.columns)) (ops base types flag) (ops0 base types flag)
      (env.lib (cellOf d.columns) base types flag eps r))
    (htot : ∀ o, lastOf (shiftValue rd) settings = some o → ∀ base types flag K n,
      SymmetricGrid (realCell (cellOf d.columns)) (realMat K) n → (env.lib (cellOf d.columns) base types flag eps r).irr K o ≠ none)
    (hasks : ∀ n, Asks rd piLit rt2 d.counts.sum |(d.scale • d.columns).det| k v n → 1 ≤ n)
    (hid : r.id ∈ [31, 44]) :
    ∃ n base types flag offsets, ∃ m : ℤ, Asks rd piLit rt2 d.counts.sum |(d.scale • d.columns).det| k v n ∧
      (lastOf symmetryLevel settings = some flag ∨ lastOf symmetryLevel settings = none ∧ flag = 0) ∧
      Tries env rd settings (cellOf d.columns) r.id eps offsets ∧
      1 ≤ m ∧ n / m ^ 3 ≤ 100 ∧ (∀ s, 1 ≤ s → s < m → 100 < n / s ^ 3) ∧
      (program env rd junk rt2 fuel poscar kpgen = .error (.grid .running) ∧
        (∀ a K, n / m ^ 3 ≤ a → a < n / m ^ 3 + fuel → SymmetricGrid ((m : ℝ) • realMat (d.scale • d.columns)) K a →
          ¬ PackedAtLeast (31 / 100) K) ∨
      ∃ e syms pts, ∃ a : ℤ, program env rd junk rt2 fuel poscar kpgen = .ok e ∧ n / m ^ 3 ≤ a ∧ e.nt_kpts = a * m ∧
        e.sel.offset ∈ offsets ∧
        SymmetricGrid ((m : ℝ) • realMat (d.scale • d.columns)) (realMat (d.scale⁻¹ • e.sel.grid)) a ∧
        PackedAtLeast (29 / 100) (realMat (d.scale⁻¹ • e.sel.grid)) ∧
        (syms = ops base types flag ∨ syms = ops0 base types flag) ∧
        IrreduciblePoints ((realMat (d.scale • d.columns))ᵀ)⁻¹ (realMat (d.scale⁻¹ • e.sel.grid))
          (realMat (d.scale⁻¹ • e.sel.grid) *ᵥ offsetVec e.sel.offset) syms pts ∧
        (∀ a' K, n / m ^ 3 ≤ a' → a' < a → SymmetricGrid ((m : ℝ) • realMat (d.scale • d.columns)) K a' →
          ¬ PackedAtLeast (31 / 100) K) ∧
        ∀ K,
          TellsApart (env.lib (cellOf d.columns) base types flag eps r).equal eps sqrt ((m : ℝ) • realCell (cellOf d.columns)) a →
          Widest ((m : ℝ) • realMat (d.scale • d.columns)) a K →
          ∃ K₂, gridPoints K₂ = gridPoints K ∧ SymmetricGrid ((m : ℝ) • realMat (d.scale • d.columns)) K₂ a ∧
            ∀ o ∈ offsets, ∀ pts', (∀ Q ∈ ops base types flag, KeepsShifted Q K₂ o) →
              IrreduciblePoints ((realMat (d.scale • d.columns))ᵀ)⁻¹ K₂ (K₂ *ᵥ offsetVec o) (ops base types flag) pts' →
              pts.length ≤ pts'.length) := by
  have hl := hb.right h
  obtain ⟨n, base, types, s, p1, p2, p3, p4, p5, p6⟩ := program_reads_choice (junk := junk) env hp hdet hrt hf hu hk he
  obtain ⟨offsets, s_range, q1, q2, q3, q4⟩ := find_grid_searches env h hl.pgSize n base types s.offset
    s.find_offset (offset_ne_none p3 p4 hu.readable) s.symm_flag s.min_kpts
  have htr := tries_of (rd := rd) p3 p4 q3
  have h1 := hasks n p2
  have hCo : r.Co.toMat.det = 1 := (reduceCell_same_lattice env.equal _ (some eps) _ h.parts.2).1
  obtain ⟨a0, m, t1, t2, t3, t4, t5, t6, t7⟩ := get_kpd_tric_partial n h1
  have hm3 : 0 < m ^ 3 := by positivity
  have ha0 : n / m ^ 3 = a0 :=
    le_antisymm (Int.lt_add_one_iff.1 ((Int.ediv_lt_iff_lt_mul hm3).2 t6)) ((Int.le_ediv_iff_mul_le hm3).2 t5)
  have hUd := h.real_det
  have hs : (d.scale : ℝ) ≠ 0 := by exact_mod_cast scale_ne hdet
  have hcell : (m : ℝ) • realMat (d.scale • d.columns) = (d.scale : ℝ) • ((m : ℝ) • realCell (cellOf d.columns)) := by
    rw [realMat_smul, ← realCell_columns, smul_comm]
  have hback : ∀ {K : Matrix (Fin 3) (Fin 3) ℝ} {N : ℤ}, SymmetricGrid ((m : ℝ) • realMat (d.scale • d.columns)) K N →
      SymmetricGrid ((m : ℝ) • realCell (cellOf d.columns)) ((d.scale : ℝ) • K) N := by
    intro K N hK
    rw [hcell] at hK
    have := symmetricGrid_scale hK (inv_ne_zero hs)
    rwa [smul_smul, inv_mul_cancel₀ hs, one_smul, inv_inv] at this
  have hforth : ∀ {K : Matrix (Fin 3) (Fin 3) ℝ} {N : ℤ}, SymmetricGrid ((m : ℝ) • realCell (cellOf d.columns)) K N →
      SymmetricGrid ((m : ℝ) • realMat (d.scale • d.columns)) ((d.scale : ℝ)⁻¹ • K) N := by
    intro K N hK
    rw [hcell]
    exact symmetricGrid_scale hK hs
  have hsome : ∀ K N, 1 ≤ N → SymmetricGrid (realCell (cellOf d.columns)) (realMat K) N →
      ∃ o ∈ offsets, (env.lib (cellOf d.columns) base types s.symm_flag eps r).irr K o ≠ none := by
    intro K N _ hg
    by_cases hsh : ∀ p ∈ settings, p.1 ≠ .shift
    · exact ⟨_, (htr.found hsh).1, (hc base types s.symm_flag).kept _ _ _ hg (keepsShifted_unshifted hg (hG ..))⟩
    · obtain ⟨o, ho⟩ := lastOf_shift_some hu.readable hsh
      exact ⟨o, by rw [htr.given o ho]; simp, htot o ho _ _ _ _ _ hg⟩
  have hunpacked : ∀ a', 1 ≤ a' → ∀ l, tryHNFs (env.lib (cellOf d.columns) base types s.symm_flag eps r).equal eps
      (env.lib (cellOf d.columns) base types s.symm_flag eps r).geom (env.lib (cellOf d.columns) base types s.symm_flag eps r).irr
      (env.lib (cellOf d.columns) base types s.symm_flag eps r).irrDefault offsets ((tric_31_44 a').map (m • ·)) =
        .ok ⟨l, none⟩ →
      ∀ K, SymmetricGrid ((m : ℝ) • realMat (d.scale • d.columns)) K a' → ¬ PackedAtLeast (31 / 100) K := by
    intro a' h1' l hno K k3 k4
    exact tric_none_unpacked_offsets h hid hb.reduction hb.root hmono (hb.built base types s.symm_flag)
      (hl.irr base types s.symm_flag) offsets hsome h1' t4 hno (hback k3) (packedAtLeast_smul k4)
  refine ⟨n, base, types, s.symm_flag, offsets, m, p2, p5, htr, t4, by omega, t7, ?_⟩
  rw [p1 fuel, q4 fuel]
  rcases findGrid_tric (env.lib (cellOf d.columns) base types s.symm_flag eps r)
    (hl.irr base types s.symm_flag) env.wrap eps offsets s.min_kpts (env.root n) fuel r.id hid r.Co.toMat (.inl hCo)
    s_range n h1 with
    hr | ⟨e, he', -, -, -, -, -, -⟩
  · left
    refine ⟨by rw [hr], fun a K k1 k2 k3 => ?_⟩
    have k5 := findGrid_tric_running (hl.irr base types s.symm_flag) env.wrap offsets s.min_kpts (env.root n) fuel r.id hid
      s_range n a0 m t2 t1 hr (a - a0).toNat (by omega)
    have k6 : a0 + ((a - a0).toNat : ℤ) = a := by omega
    rw [k6] at k5
    exact hunpacked a (by omega) _ k5 K k3
  right
  obtain ⟨j, j1, j2, j3, j4⟩ := findGrid_tric_own (lib := env.lib (cellOf d.columns) base types s.symm_flag eps r)
    (hl.irr base types s.symm_flag) env.wrap offsets s.min_kpts (env.root n) fuel r.id hid s_range n a0 m t2 t1 e he'
  have ha : 1 ≤ a0 + j := by omega
  have hV := smul_det_ne hUd t4
  have hlist := grids_tric_multiple h hid ha t4
  have hmean := listed_mean hV hb.reduction hb.root hmono (hb.built base types s.symm_flag) ha hlist
  obtain ⟨r', c1, c2⟩ := tryHNFs_ok (env.lib (cellOf d.columns) base types s.symm_flag eps r)
    (hl.irr base types s.symm_flag) eps offsets _ (tric_list_ne (m := m) ha)
  rw [j3] at c1
  cases c1
  have hch := c2 _ rfl
  obtain ⟨-, g2, g3, -, -, g6⟩ := hmean _ hch.mem
  rw [← hch.grid] at g2 g3 g6
  have e1 : ∀ K : Matrix (Fin 3) (Fin 3) ℚ, realMat (d.scale⁻¹ • K) = (d.scale : ℝ)⁻¹ • realMat K := fun K => by
    rw [realMat_smul, Rat.cast_inv]
  have hgU := symmetricGrid_multiple hUd t4 g2
  -- the number of irreducible points of the grid
  have hsyms : ∃ syms pts, (syms = ops base types s.symm_flag ∨ syms = ops0 base types s.symm_flag) ∧
      IrreduciblePoints ((realMat (d.scale • d.columns))ᵀ)⁻¹ (realMat (d.scale⁻¹ • e.sel.grid))
        (realMat (d.scale⁻¹ • e.sel.grid) *ᵥ offsetVec e.sel.offset) syms pts ∧ pts.length = e.sel.n_irr := by
    rw [e1]
    rcases hch.irr with a6 | a6
    · obtain ⟨pts, c1, c2⟩ := (hc base types s.symm_flag).irr _ _ _ _ hgU a6
      obtain ⟨ps, c3, c4⟩ := irreducible_scaled hdet hUd c1
      exact ⟨_, ps, .inl rfl, c3, c4.trans c2⟩
    · obtain ⟨pts, c1, c2⟩ := (hc base types s.symm_flag).irrDefault _ _ _ _ hgU a6
      obtain ⟨ps, c3, c4⟩ := irreducible_scaled hdet hUd c1
      exact ⟨_, ps, .inr rfl, c3, c4.trans c2⟩
  obtain ⟨syms, pts, d1, d2, d3⟩ := hsyms
  refine ⟨e, syms, pts, a0 + j, by rw [he'], by omega, j2, hch.offset, by rw [e1]; exact hforth g2, ?_, d1, d2, ?_, ?_⟩
  · rw [e1]
    exact packedAtLeast_smul (g6 hch.packed)
  · intro a' K k1 k2 k3
    have k5 := j4 (a' - a0).toNat (by omega)
    have k6 : a0 + ((a' - a0).toNat : ℤ) = a' := by omega
    rw [k6] at k5
    exact hunpacked a' (by omega) _ k5 K k3
  · intro K ht hK
    rw [d3]
    have hw : Widest ((m : ℝ) • realCell (cellOf d.columns)) (a0 + j) ((d.scale : ℝ) • K) := by
      obtain ⟨l, l1, l2⟩ := hK.widest
      refine ⟨hback hK.grid, packedAtLeast_smul hK.packed, _, smallestDistance_smul l1, ?_⟩
      intro K' l' k1 k2 k3
      have := l2 ((d.scale : ℝ)⁻¹ • K') (|(d.scale : ℝ)⁻¹| * l') (hforth k1) (packedAtLeast_smul k2) (smallestDistance_smul k3)
      rwa [abs_inv, inv_mul_le_iff₀ (abs_pos.2 hs)] at this
    obtain ⟨K₂, i1, i2, i3⟩ := widest_list_offsets hV hb.reduction hb.root hmono (hb.built base types s.symm_flag)
      (hl.irr base types s.symm_flag) ha hlist ht hw offsets
    have hpts : gridPoints ((d.scale : ℝ)⁻¹ • realMat K₂) = gridPoints K := by
      rw [← gridPoints_smul_inj hs, smul_smul, mul_inv_cancel₀ hs, one_smul, i1]
    refine ⟨(d.scale : ℝ)⁻¹ • realMat K₂, hpts, hforth i2, fun o ho pts' hkeep hpts' => ?_⟩
    obtain ⟨b, u1, u2⟩ := i3 o ho _ (counts_shifted hdet hUd (hG base types s.symm_flag) (hc base types s.symm_flag)
      (symmetricGrid_multiple hUd t4 i2) hkeep hpts')
    rw [j3] at u1
    cases u1
    exact u2

/-! ## The hypotheses are met -/

open Classical in
/-- A machine that counts the irreducible points of the shifted grids, with all symmetries of the lattice. -/
noncomputable def shiftEnv (mink : Matrix (Fin 3) (Fin 3) ℚ → Matrix (Fin 3) (Fin 3) ℚ) (sqrt : ℚ → ℚ) :
    Env (Matrix (Fin 3) (Fin 3) ℚ) :=
  let count (U : RMat ℚ) (K : Matrix (Fin 3) (Fin 3) ℚ) (o : Offset) : Option ℕ :=
    if h : ∃ pts, IrreduciblePoints ((realCell U)ᵀ)⁻¹ (realMat K) (realMat K *ᵥ offsetVec o) (allOps (realCell U)) pts then
      some h.choose.length
    else none
  { packEnv mink sqrt with
    lib := fun U _ _ _ _ r => ⟨sampleEqual, fun H => compareGeom sqrt (mink (gridOf U r H)), gridOf U r, count U, count U⟩ }

theorem shiftEnv_counts {U : RMat ℚ} (hU : (realCell U).det ≠ 0) (base : List (Fin 3 → ℚ)) (types : List ℕ) (flag : ℕ)
    (eps : ℚ) (r : IdCell) :
    CountsShifted (realCell U) (allOps (realCell U)) (allOps (realCell U)) ((shiftEnv mink sqrt).lib U base types flag eps r) := by
  have hirr : ∀ (K : Matrix (Fin 3) (Fin 3) ℚ) (o : Offset) c, ((shiftEnv mink sqrt).lib U base types flag eps r).irr K o = some c →
      ∃ pts, IrreduciblePoints ((realCell U)ᵀ)⁻¹ (realMat K) (realMat K *ᵥ offsetVec o) (allOps (realCell U)) pts ∧
        pts.length = c := by
    intro K o c h
    simp only [shiftEnv] at h
    split at h
    · rename_i hex
      exact ⟨_, hex.choose_spec, Option.some.inj h⟩
    · cases h
  refine ⟨fun K _ o c _ h => hirr K o c h, fun K n o hK _ => ?_, fun K _ o c _ h => hirr K o c h⟩
  obtain ⟨N, h1, h2⟩ := hK.reciprocal
  have hRd : (((realCell U)ᵀ)⁻¹).det ≠ 0 := by
    rw [det_nonsing_inv, det_transpose, Ring.inverse_eq_inv']
    exact inv_ne_zero hU
  have hKd : (realMat K).det ≠ 0 := by
    intro h0
    rw [h1, det_mul, h0, zero_mul] at hRd
    exact hRd rfl
  have hNd : N.det ≠ 0 := by
    intro h0
    rw [h1, det_mul, det_toReal, h0, Int.cast_zero, mul_zero] at hRd
    exact hRd rfl
  have hG : LatticeGroup (realCell U) (allOps (realCell U)) := latticeGroup_all hU
  have hex := irreducible_exists (off := realMat K *ᵥ offsetVec o) hG.one hG.mul hG.inv (hG.reciprocal hU) hKd h1 hNd
  simp only [shiftEnv]
  rw [dif_pos hex]
  simp

theorem shiftEnv_built (hm : Minkowski mink) (hs : SqrtOk sqrt) (U : RMat ℚ) (eps : ℚ) (r : IdCell) :
    EnvBuilt (shiftEnv mink sqrt) mink sqrt U eps r where
  reduction := hm
  root := hs
  pgSize := rfl
  built _ _ _ := ⟨fun _ => rfl, fun _ => rfl⟩
  irr base types flag K o m h := by
    simp only [shiftEnv] at h
    split at h
    · rename_i hex
      have h1 := Option.some.inj h
      obtain ⟨i, -, -⟩ := hex.choose_spec.one _ ⟨0, by rw [intVec_zero, mulVec_zero, add_zero]⟩
      have := i.isLt
      omega
    · cases h

def autoKpgen : List (List Char) := ["NKPTS=2".toList]

def autoSettings : List (Key × List Char) := [(.nkpts, "2".toList)]

theorem autoKpgen_says : FileSays autoKpgen autoSettings :=
  .sets ⟨0, by decide⟩ .nil

theorem auto_usable {vol : ℚ} {natoms : ℤ} : Usable wordsReader rt2Double natoms vol autoSettings where
  readable := by
    intro p hp
    simp only [autoSettings, List.mem_cons, List.not_mem_nil, or_false] at hp
    subst hp
    exact ⟨2, by decide⟩
  fits := by
    intro p hp n hn
    simp only [autoSettings, List.mem_cons, List.not_mem_nil, or_false] at hp
    subst hp
    rw [two_asks hn]
    norm_num

/-- The tetragonal lattice of C107, now without a line `SHIFT`: the answer has at most as many irreducible points as the widest grid
of 2 points without a shift. -/
example (hm : Minkowski mink) (hs : SqrtOk sqrt) (hmono : ∀ x y : ℚ, 0 ≤ x → x ≤ y → sqrt x ≤ sqrt y) (junk : ℤ) (fuel : ℕ) :
    program (shiftEnv mink sqrt) wordsReader junk rt2Double fuel tetPoscar autoKpgen = .error (.grid .running) ∨
    ∃ e pts, program (shiftEnv mink sqrt) wordsReader junk rt2Double fuel tetPoscar autoKpgen = .ok e ∧
      IrreduciblePoints ((realMat (tetData.scale • tetData.columns))ᵀ)⁻¹ (realMat (tetData.scale⁻¹ • e.sel.grid))
        (realMat (tetData.scale⁻¹ • e.sel.grid) *ᵥ offsetVec e.sel.offset) (allOps (realCell (cellOf tetData.columns))) pts ∧
      ∀ pts', IrreduciblePoints ((realMat (tetData.scale • tetData.columns))ᵀ)⁻¹ tetGrid 0
          (allOps (realCell (cellOf tetData.columns))) pts' → pts.length ≤ pts'.length := by
  obtain ⟨r1, r2, r3, r4⟩ := rt2Double_bounds
  rcases program_best_automatic (env := shiftEnv mink sqrt) (mink := mink) (sqrt := sqrt)
    (junk := junk) (fuel := fuel) tet_says tet_det (by linarith) autoKpgen_says auto_usable (k := .nkpts)
    (v := "2".toList) rfl rfl (by simp [autoSettings]) tet_recognised (shiftEnv_built hm hs _ _ _) hmono
    (ops := fun _ _ _ => allOps (realCell (cellOf tetData.columns)))
    (ops0 := fun _ _ _ => allOps (realCell (cellOf tetData.columns)))
    (fun _ _ _ => latticeGroup_all tet_recognised.real_det)
    (fun _ _ _ => shiftEnv_counts tet_recognised.real_det ..)
    (fun n hn => by
      rw [two_asks hn]
      exact ⟨by norm_num, fun _ _ => .inl rfl⟩) (by decide) with h | h
  · exact .inl h
  · right
    obtain ⟨e, n, base, types, flag, syms, pts, s_range, a1, a2, -, a3, -, a4, a5, a6⟩ := h
    have hn := two_asks a2
    subst hn
    have hsr : s_range = 25 := (Option.some.inj a3).symm
    have hsy : syms = allOps (realCell (cellOf tetData.columns)) := a4.elim id id
    rw [hsy] at a5
    refine ⟨e, pts, a1, a5, fun pts' hp => ?_⟩
    exact (a6 tetGrid 2 pts' (.inr ⟨le_rfl, by rw [hsr]; norm_num, tet_several⟩) (tet_apart hs) tet_widest hp).1 (.inr (by norm_num))

/-- The grid of 8 points of the cube, shifted by half a step in every direction, keeps all symmetries of the cube. -/
theorem cube_eight_shifted : ∀ Q ∈ allOps (realCell (cellOf cubeData.columns)),
    KeepsShifted Q ((1 / 8 : ℝ) • 1) (1 / 2, 1 / 2, 1 / 2) := by
  rintro Q ⟨h1, X, h2⟩
  have hQ : Q = toReal X := by
    rw [cube_realCell, mul_smul_comm, smul_mul_assoc, Matrix.mul_one, Matrix.one_mul] at h2
    exact smul_right_injective _ (by norm_num : (2 : ℝ) ≠ 0) h2
  have hXX : Xᵀ * X = 1 := by
    apply toReal_injective
    rw [toReal_mul, toReal_one, ← h1, hQ]
    congr 1
  have hXX' : X * Xᵀ = 1 := mul_eq_one_comm.1 hXX
  rw [keepsShifted_iff (by
    rw [det_smul, Matrix.det_one]
    norm_num) (Y := X) (by rw [hQ, mul_smul_comm, smul_mul_assoc, Matrix.mul_one, Matrix.one_mul])]
  have hodd : ∀ i, (X i 0 + X i 1 + X i 2) % 2 = 1 := by
    intro i
    have := congrFun (congrFun hXX' i) i
    rw [Matrix.mul_apply, Fin.sum_univ_three, Matrix.one_apply_eq] at this
    simp only [transpose_apply] at this
    have e : (X i 0 + X i 1 + X i 2) ^ 2 % 2 = 1 := by
      have : (X i 0 + X i 1 + X i 2) ^ 2 = 1 + 2 * (X i 0 * X i 1 + X i 0 * X i 2 + X i 1 * X i 2) := by nlinarith
      omega
    rcases Int.emod_two_eq_zero_or_one (X i 0 + X i 1 + X i 2) with h | h
    · rw [sq, Int.mul_emod, h] at e
      norm_num at e
    · exact h
  refine ⟨fun i => (X i 0 + X i 1 + X i 2) / 2, ?_⟩
  funext i
  have hd : X i 0 + X i 1 + X i 2 = 1 + 2 * ((X i 0 + X i 1 + X i 2) / 2) := by have := hodd i; omega
  have hd' : (X i 0 : ℝ) + X i 1 + X i 2 = 1 + 2 * (((X i 0 + X i 1 + X i 2) / 2 : ℤ) : ℝ) := by exact_mod_cast hd
  have hv : ∀ j, offsetVec (1 / 2, 1 / 2, 1 / 2) j = 1 / 2 := by
    intro j
    fin_cases j <;> simp [offsetVec]
  rw [mulVec, dotProduct, Fin.sum_univ_three, Pi.add_apply, hv, hv, hv, hv]
  simp only [toReal, Matrix.map_apply]
  linarith

/-- The cube with the side 4, at least 2 points and no line `SHIFT`: the answer has at most as many irreducible points as the grid
of 8 points that is shifted by half a step in every direction. -/
example (hm : Minkowski mink) (hs : SqrtOk sqrt) (junk : ℤ) (fuel : ℕ) :
    ∃ e pts, program (shiftEnv mink sqrt) wordsReader junk rt2Double fuel cubePoscar autoKpgen = .ok e ∧ Half e.sel.offset ∧
      IrreduciblePoints ((realMat (cubeData.scale • cubeData.columns))ᵀ)⁻¹ (realMat (cubeData.scale⁻¹ • e.sel.grid))
        (realMat (cubeData.scale⁻¹ • e.sel.grid) *ᵥ offsetVec e.sel.offset) (allOps (realCell (cellOf cubeData.columns))) pts ∧
      ∀ pts', IrreduciblePoints ((realMat (cubeData.scale • cubeData.columns))ᵀ)⁻¹ ((1 / 8 : ℝ) • 1)
          (((1 / 8 : ℝ) • (1 : Matrix (Fin 3) (Fin 3) ℝ)) *ᵥ offsetVec (1 / 2, 1 / 2, 1 / 2))
          (allOps (realCell (cellOf cubeData.columns))) pts' → pts.length ≤ pts'.length := by
  have hdet : (cubeData.scale • cubeData.columns).det ≠ 0 := by rw [cube_det]; norm_num
  obtain ⟨r1, r2, r3, r4⟩ := rt2Double_bounds
  have hl := (shiftEnv_built hm hs (cellOf cubeData.columns) (8589935 / 2 ^ 33) cubeId).right cube_recognised
  obtain ⟨e, n, base, types, flag, pts, a1, a2, -, -, a3, a4, a5⟩ := program_best_cubic_automatic_partial (env := shiftEnv mink sqrt)
    (junk := junk) (fuel := fuel) cube_says hdet (by linarith) autoKpgen_says auto_usable (k := .nkpts)
    (v := "2".toList) rfl rfl (by simp [autoSettings]) cube_recognised hl (.inl rfl)
    (ops := fun _ _ _ => allOps (realCell (cellOf cubeData.columns)))
    (ops0 := fun _ _ _ => allOps (realCell (cellOf cubeData.columns))) (fun _ _ _ => latticeGroup_all cube_recognised.real_det)
    (fun _ _ _ => shiftEnv_counts cube_recognised.real_det ..)
    (fun n hn => by
      rw [two_asks hn]
      simp [shiftEnv, packEnv, cubeId]) (by decide)
  have hn := two_asks a2
  subst hn
  refine ⟨e, pts, a1, a3, a4, fun pts' hp => ?_⟩
  refine (a5 _ 8 _ pts' ⟨by rw [cube_real]; exact cube_eight, by norm_num, ⟨_, by rw [cube_real]; exact cube_eight⟩, ?_⟩
    ⟨.inr rfl, .inr rfl, .inr rfl⟩ cube_eight_shifted hp).1 (.inr (by norm_num))
  rw [cube_real]
  have hsub : {u : ℤ | 2 ≤ u ∧ u < 8 ∧ ∃ K, SymmetricGrid ((4 : ℝ) • 1) K u} ⊆ ({1, 2, 4} : Finset ℤ) := by
    rintro u ⟨h1, h8, K, hK⟩
    simpa using cube_numbers (by omega) h8 hK
  have := Set.ncard_le_ncard hsub (Finset.finite_toSet _)
  rw [Set.ncard_coe_finset] at this
  exact lt_of_le_of_lt this (by decide)

def loneKpgen : List (List Char) := ["NKPTS=1".toList]

def loneSettings : List (Key × List Char) := [(.nkpts, "1".toList)]

/-- The triclinic lattice of C109 without a line `SHIFT`. -/
example (hm : Minkowski mink) (hs : SqrtOk sqrt) (hmono : ∀ x y : ℚ, 0 ≤ x → x ≤ y → sqrt x ≤ sqrt y) (junk : ℤ) (fuel : ℕ) :
    ∃ e pts K₂, program (shiftEnv mink sqrt) wordsReader junk rt2Double (fuel + 1) triPoscar loneKpgen = .ok e ∧ e.nt_kpts = 1 ∧
      IrreduciblePoints ((realMat (triData.scale • triData.columns))ᵀ)⁻¹ (realMat (triData.scale⁻¹ • e.sel.grid))
        (realMat (triData.scale⁻¹ • e.sel.grid) *ᵥ offsetVec e.sel.offset) (allOps (realCell (cellOf triData.columns))) pts ∧
      gridPoints K₂ = gridPoints ((2 : ℝ)⁻¹ • triGrid) ∧
      ∀ o ∈ [((0, 0, 0) : Offset), (1 / 2, 1 / 2, 1 / 2)], ∀ pts', (∀ Q ∈ allOps (realCell (cellOf triData.columns)), KeepsShifted Q K₂ o) →
        IrreduciblePoints ((realMat (triData.scale • triData.columns))ᵀ)⁻¹ K₂ (K₂ *ᵥ offsetVec o)
          (allOps (realCell (cellOf triData.columns))) pts' → pts.length ≤ pts'.length := by
  obtain ⟨-, -, hrt, -⟩ := rt2Double_bounds
  have hsh : ∀ p ∈ loneSettings, p.1 ≠ .shift := by simp [loneSettings]
  obtain ⟨n, base, types, flag, offsets, m, a1, a2, a7, a3, a4, a5, a6⟩ := program_best_tric_shifted (env := shiftEnv mink sqrt) (mink := mink)
    (sqrt := sqrt) (junk := junk) (fuel := fuel + 1) (kpgen := loneKpgen) (settings := loneSettings) tri_says tri_det (by linarith)
    (.sets ⟨0, by decide⟩ .nil)
    ⟨by
      intro p hp
      simp only [loneSettings, List.mem_cons, List.not_mem_nil, or_false] at hp
      subst hp
      exact ⟨1, by decide⟩, by
      intro p hp n hn
      simp only [loneSettings, List.mem_cons, List.not_mem_nil, or_false] at hp
      subst hp
      rw [one_asks hn]
      norm_num⟩ (k := .nkpts)
    (v := "1".toList) rfl rfl tri_recognised (shiftEnv_built hm hs _ _ _) hmono
    (ops := fun _ _ _ => allOps (realCell (cellOf triData.columns)))
    (ops0 := fun _ _ _ => allOps (realCell (cellOf triData.columns)))
    (fun _ _ _ => latticeGroup_all tri_recognised.real_det)
    (fun _ _ _ => shiftEnv_counts tri_recognised.real_det ..)
    (fun o ho => by rw [lastOf_shift_none hsh] at ho; cases ho)
    (fun n hn => by rw [one_asks hn]) (by decide)
  have hn := one_asks a1
  subst hn
  have hm1 : m = 1 := by
    by_contra hne
    have := a5 1 le_rfl (by omega)
    norm_num at this
  subst hm1
  rcases a6 with ⟨-, b⟩ | ⟨e, syms, pts, a, b1, b2, b3, -, b4, b5, b6, b7, b8, b9⟩
  · exact absurd (packedAtLeast_smul tri_packed) (b 1 _ (by norm_num) (by push_cast; norm_num) tri_scaled_grid)
  · have ha : a = 1 := by
      by_contra hne
      exact absurd (packedAtLeast_smul tri_packed) (b8 1 _ (by norm_num) (by norm_num at b2; omega) tri_scaled_grid)
    subst ha
    have hsy : syms = allOps (realCell (cellOf triData.columns)) := b6.elim id id
    rw [hsy] at b7
    obtain ⟨K₂, c1, -, c3⟩ := b9 _ (tri_apart hs) tri_widest
    have hoff : [((0, 0, 0) : Offset), (1 / 2, 1 / 2, 1 / 2)] = offsets := Option.some.inj (a7.found hsh).2
    exact ⟨e, pts, K₂, b1, b3, b7, c1, by rw [hoff]; exact c3⟩

end AutoGR.Fortran
