import Verif.Model.FortranMain
import Verif.Props.FortranPoscar
import Verif.Props.FortranOffsets

/-!
# C88, C89: the whole program, from the files to the grid
-/

namespace AutoGR.Fortran

open Spec Matrix

theorem cellOf_toMatrix (M : Matrix (Fin 3) (Fin 3) ℚ) : (cellOf M).toMatrix = M := by
  ext i j
  fin_cases i <;> fin_cases j <;> rfl

/-- A grid for a lattice is, divided by `s`, a grid for the lattice multiplied by `s`: in fractions of the
reciprocal vectors, the points are the same. -/
theorem symmetricGrid_scale {U K : Matrix (Fin 3) (Fin 3) ℝ} {n : ℤ} (h : SymmetricGrid U K n) {s : ℝ}
    (hs : s ≠ 0) : SymmetricGrid (s • U) (s⁻¹ • K) n where
  reciprocal := by
    obtain ⟨N, h1, h2⟩ := h.reciprocal
    refine ⟨N, ?_, h2⟩
    rw [transpose_smul, smul_mul_assoc, ← h1]
    by_cases hU : IsUnit Uᵀ.det
    · let _ := invertibleOfNonzero hs
      rw [Matrix.inv_smul _ s hU, invOf_eq_inv]
    · have hU' : ¬ IsUnit (s • Uᵀ).det := by
        rw [det_smul]
        intro hc
        exact hU (isUnit_of_mul_isUnit_right hc)
      rw [nonsing_inv_apply_not_isUnit _ hU, nonsing_inv_apply_not_isUnit _ hU', smul_zero]
  symmetric := by
    rintro Q hQ ⟨X, hX⟩
    have : Q * U = U * toReal X := by
      rw [mul_smul_comm, smul_mul_assoc] at hX
      exact smul_right_injective _ hs hX
    obtain ⟨Y, hY⟩ := h.symmetric Q hQ ⟨X, this⟩
    exact ⟨Y, by rw [mul_smul_comm, smul_mul_assoc, hY]⟩

/-! ## What is read -/

/-- The settings of a `KPGEN` file that the program can use with a crystal of `natoms` atoms and volume `vol`. -/
structure Usable (rd : Reader) (rt2 : ℚ) (natoms : ℤ) (vol : ℚ) (settings : List (Key × List Char)) : Prop where
  /-- every value can be read -/
  readable : ∀ p ∈ settings, Readable rd p
  /-- every number of points fits an integer -/
  fits : ∀ p ∈ settings, ∀ n, Asks rd piLit rt2 natoms vol p.1 p.2 n → -2147483648 ≤ n ∧ n ≤ 2147483647

/-- The tolerance that the settings ask for: the last one given, or the single-precision number `1E-3`. -/
def Tolerance (rd : Reader) (settings : List (Key × List Char)) (eps : ℚ) : Prop :=
  (lastOf (epsValue rd) settings).or (some (8589935 / 2 ^ 33)) = some eps

variable {G : Type} {rd : Reader} {junk : ℤ} {rt2 : ℚ} {poscar kpgen : List (List Char)} {d : PoscarData}
  {settings : List (Key × List Char)}

/-- The program calls `find_grid` with the lattice of `POSCAR` and the values of `KPGEN`. -/
theorem program_reads (env : Env G) (hp : PoscarSays rd poscar d)
    (hdet : (d.scale • d.columns).det ≠ 0) (hrt : rt2 ≠ 0) (hf : FileSays kpgen settings)
    (hu : Usable rd rt2 d.counts.sum |(d.scale • d.columns).det| settings) {k : Key} {v : List Char}
    (hk : lastOf densitySetting settings = some (k, v)) {eps : ℚ} (he : Tolerance rd settings eps) :
    ∃ (n : ℤ) (base : List (Fin 3 → ℚ)) (types : List ℕ) (s : Inputs),
      (∀ fuel, program env rd junk rt2 fuel poscar kpgen =
        find_grid env fuel (cellOf d.columns) n base types s.offset s.find_offset s.symm_flag s.min_kpts eps) ∧
      Asks rd piLit rt2 d.counts.sum |(d.scale • d.columns).det| k v n ∧
      s.offset = lastOf (shiftValue rd) settings ∧
      (s.find_offset = true ↔ ∀ p ∈ settings, p.1 ≠ .shift) := by
  obtain ⟨p, e1, e2, e3, -, e5, -⟩ := read_POSCAR_lattice_types (junk := junk) hp fun _ => hdet
  have hn : ((p.atom_base.length : ℕ) : ℤ) = ((d.counts.sum : ℕ) : ℤ) := by rw [e5]
  obtain ⟨s, g1, ⟨n, g2, g3⟩, g4, g5, -, -, g8⟩ :=
    (get_inputs_correct (rd := rd) (natoms := (d.counts.sum : ℕ)) hdet hrt hf hu.readable hu.fits).2 k v hk
  refine ⟨n, p.atom_base, p.atom_type, s, fun fuel => ?_, g3, g4, g5⟩
  unfold program
  rw [e1]
  dsimp only
  rw [e2, e3, hn, if_neg hdet, g1]
  dsimp only
  rw [g2, g8, he]

/-! ## What is returned -/

/-- The last line with a shift decides. -/
theorem lastOf_shift_some (hr : ∀ p ∈ settings, Readable rd p) (h : ¬ ∀ p ∈ settings, p.1 ≠ .shift) :
    ∃ o, lastOf (shiftValue rd) settings = some o := by
  push Not at h
  obtain ⟨⟨k, v⟩, hp, rfl⟩ := h
  obtain ⟨x, hx⟩ := hr _ hp
  cases hl : lastOf (shiftValue rd) settings with
  | some y => exact ⟨y, rfl⟩
  | none =>
    exfalso
    unfold lastOf at hl
    rw [List.getLast?_eq_none_iff, List.filterMap_eq_nil_iff] at hl
    have := hl _ hp
    rw [shiftValue, hx] at this
    cases this

/-- For a lattice that `id_cell` has recognised, the check of the point group passes if the library has found the
right number of operations: `find_grid` searches, with the user's shift if there is one. -/
theorem find_grid_searches (env : Env G) {U : RMat ℚ} {eps rho : ℚ} {r : IdCell}
    (h : Recognised env.equal U eps rho r) (hpg : env.pgSize U eps = (PointSym (realCell U)).ncard) (kpd : ℤ)
    (base : List (Fin 3 → ℚ)) (types : List ℕ) (offset : Option Offset) (find_offset : Bool)
    (ho : find_offset = false → offset ≠ none) (flag : ℕ) (min_kpts : Bool) :
    ∃ offsets s_range, r.s_range = some s_range ∧ offsets ≠ [] ∧
      offsetsTried env U r.id eps offset find_offset = some offsets ∧
      ∀ fuel, find_grid env fuel U kpd base types offset find_offset flag min_kpts eps =
        match findGrid (env.lib U base types flag eps r) env.wrap eps offsets min_kpts (env.root kpd) fuel r.id
          s_range kpd with
        | .error e => .error (.grid e)
        | .ok e => .ok e := by
  have he : (0 : ℚ) ≤ eps := le_trans (by norm_num) h.eps_ge
  have sep := h.apart.separated (r := 1 / 100000) (by norm_num) (h.eps_ge.trans h.eps_le)
  have hc := idCell_exact env.equal U eps r h.found rho he (h.eps_ge.trans h.eps_le) h.eps_le h.apart
    (sepTol_type sep.d_zero sep.e_zero sep.f_zero h.red.type)
  have hd : r.Cu.toMat.det = 1 := (reduceCell_same_lattice env.equal U (some eps) _ h.parts.1).1
  have hcs : check_sym (env.pgSize U eps) r.id = some true := by
    rw [hpg]
    exact check_sym_right ⟨by rw [hd]; exact isUnit_one, realCell_metric U r.Cu, h.red⟩ hc
  have hs : ∃ s, r.s_range = some s := by
    rw [h.s_range]
    obtain ⟨k1, k2⟩ := h.id_range
    generalize r.id = k at k1 k2
    interval_cases k <;> exact ⟨_, rfl⟩
  obtain ⟨s_range, hs⟩ := hs
  have hoff : ∃ offsets, offsetsTried env U r.id eps offset find_offset = some offsets ∧ offsets ≠ [] := by
    cases find_offset with
    | false =>
      cases offset with
      | none => exact absurd rfl (ho rfl)
      | some o => exact ⟨[o], rfl, by simp⟩
    | true =>
      have h0 := offsets_zero_first r.id (env.equal (env.norms U).1 (env.norms U).2.1 eps)
        (env.equal (env.norms U).1 (env.norms U).2.2 eps) (env.equal (env.norms U).2.1 (env.norms U).2.2 eps)
        (env.norms U).1 (env.norms U).2.1 (env.norms U).2.2
      refine ⟨_, rfl, ?_⟩
      intro hnil
      rw [hnil] at h0
      cases h0
  obtain ⟨offsets, o1, o2⟩ := hoff
  refine ⟨offsets, s_range, hs, o2, o1, fun fuel => ?_⟩
  unfold find_grid
  rw [h.found]
  dsimp only
  rw [hcs]
  dsimp only
  rw [o1, hs]
  rfl


/-- The offset returned is the user's, if the settings have one, and otherwise among those of `get_offsets` (C81). -/
def OffsetRight (rd : Reader) (env : Env G) (settings : List (Key × List Char)) (U : RMat ℚ) (lat_id : ℕ) (eps : ℚ)
    (o : Offset) : Prop :=
  (∀ x, lastOf (shiftValue rd) settings = some x → o = x) ∧
    (lastOf (shiftValue rd) settings = none → ∃ l, offsetsTried env U lat_id eps none true = some l ∧ o ∈ l)

theorem offsetRight_of {env : Env G} {U : RMat ℚ} {lat_id : ℕ} {eps : ℚ} {offset : Option Offset}
    {find_offset : Bool} (h1 : offset = lastOf (shiftValue rd) settings)
    (h2 : find_offset = true ↔ ∀ p ∈ settings, p.1 ≠ .shift) (hr : ∀ p ∈ settings, Readable rd p)
    {offsets : List Offset} (h3 : offsetsTried env U lat_id eps offset find_offset = some offsets) {o : Offset}
    (ho : o ∈ offsets) : OffsetRight rd env settings U lat_id eps o := by
  constructor
  · intro x hx
    have hf : find_offset = false := by
      by_contra hc
      have hne := h2.1 (by simpa using hc)
      unfold lastOf at hx
      have hm := List.mem_of_getLast? hx
      rw [List.mem_filterMap] at hm
      obtain ⟨⟨k, v⟩, hp, hv⟩ := hm
      cases k <;> first | cases hv | exact hne _ hp rfl
    rw [hf, h1, hx] at h3
    simp only [offsetsTried, if_true, Option.map_some, Option.some.injEq] at h3
    rw [← h3] at ho
    simpa using ho
  · intro hn
    have hf : find_offset = true := by
      rw [h2]
      by_contra hc
      obtain ⟨x, hx⟩ := lastOf_shift_some hr hc
      rw [hn] at hx
      cases hx
    rw [hf] at h3
    exact ⟨offsets, h3, ho⟩

/-- The library computes what it is documented to compute for the cell `U`: the number of point symmetries of
the lattice, a reduced basis of each grid, and at least one irreducible k-point. -/
structure EnvRight (env : Env (Matrix (Fin 3) (Fin 3) ℚ)) (U : RMat ℚ) (eps : ℚ) (r : IdCell) : Prop where
  pgSize : env.pgSize U eps = (PointSym (realCell U)).ncard
  reduces : ∀ base types flag, Reduces U r (env.lib U base types flag eps r)
  irr : ∀ base types flag g o m, (env.lib U base types flag eps r).irr g o = some m → 1 ≤ m

variable {env : Env (Matrix (Fin 3) (Fin 3) ℚ)} {fuel : ℕ} {k : Key} {v : List Char} {eps rho : ℚ} {r : IdCell}

theorem realMat_smul (s : ℚ) (M : Matrix (Fin 3) (Fin 3) ℚ) : realMat (s • M) = (s : ℝ) • realMat M := by
  ext i j
  simp [realMat]

theorem real_scaled (hdet : (d.scale • d.columns).det ≠ 0) {K : Matrix (Fin 3) (Fin 3) ℚ} {n : ℤ}
    (h : SymmetricGrid (realCell (cellOf d.columns)) (realMat K) n) :
    SymmetricGrid (realMat (d.scale • d.columns)) (realMat (d.scale⁻¹ • K)) n := by
  have hs : d.scale ≠ 0 := by
    rintro h0
    rw [h0, zero_smul, det_zero] at hdet
    exact hdet rfl
  have hU : realCell (cellOf d.columns) = realMat d.columns := by
    unfold realCell
    rw [cellOf_toMatrix]
    rfl
  rw [realMat_smul, realMat_smul, ← hU, Rat.cast_inv]
  exact symmetricGrid_scale h (by exact_mod_cast hs)

theorem offset_ne_none {s : Inputs} (h1 : s.offset = lastOf (shiftValue rd) settings)
    (h2 : s.find_offset = true ↔ ∀ p ∈ settings, p.1 ≠ .shift) (hr : ∀ p ∈ settings, Readable rd p) :
    s.find_offset = false → s.offset ≠ none := by
  intro hf
  have : ¬ ∀ p ∈ settings, p.1 ≠ .shift := fun h => by
    rw [h2.2 h] at hf
    cases hf
  obtain ⟨x, hx⟩ := lastOf_shift_some hr this
  rw [h1, hx]
  simp

/-- C88, for the lattices that are neither cubic nor triclinic.  Given files that say `d` and `settings`, and a
lattice that is recognised, the program finds a grid (or is still searching): for the crystal of `POSCAR` (vectors
times scale) it is commensurate, has all symmetries of the lattice and at least the number of points that the last
setting about it asks for, and the offset is the one of the last `SHIFT`, if there is one. -/
theorem program_general (hp : PoscarSays rd poscar d) (hdet : (d.scale • d.columns).det ≠ 0) (hrt : rt2 ≠ 0)
    (hf : FileSays kpgen settings) (hu : Usable rd rt2 d.counts.sum |(d.scale • d.columns).det| settings)
    (hk : lastOf densitySetting settings = some (k, v)) (he : Tolerance rd settings eps)
    (h : Recognised env.equal (cellOf d.columns) eps rho r) (hl : EnvRight env (cellOf d.columns) eps r)
    (hasks : ∀ n, Asks rd piLit rt2 d.counts.sum |(d.scale • d.columns).det| k v n →
      1 ≤ n ∧ IntsFit env.wrap (n + fuel))
    (hid : r.id ∉ [1, 3, 5, 31, 44]) :
    program env rd junk rt2 fuel poscar kpgen = .error (.grid .running) ∨
    ∃ e n, program env rd junk rt2 fuel poscar kpgen = .ok e ∧
      Asks rd piLit rt2 d.counts.sum |(d.scale • d.columns).det| k v n ∧ n ≤ e.nt_kpts ∧
      SymmetricGrid (realMat (d.scale • d.columns)) (realMat (d.scale⁻¹ • e.sel.grid)) e.nt_kpts ∧
      OffsetRight rd env settings (cellOf d.columns) r.id eps e.sel.offset := by
  obtain ⟨n, base, types, s, p1, p2, p3, p4⟩ := program_reads (junk := junk) env hp hdet hrt hf hu hk he
  obtain ⟨offsets, s_range, q1, q2, q3, q4⟩ := find_grid_searches env h hl.pgSize n base types s.offset
    s.find_offset (offset_ne_none p3 p4 hu.readable) s.symm_flag s.min_kpts
  obtain ⟨h1, hfit⟩ := hasks n p2
  obtain ⟨k1, k2⟩ := h.id_range
  obtain ⟨s', hs1, hs2⟩ := sRange_le r.id k1 k2 hid
  have hs3 : s_range = s' := by
    rw [h.s_range, hs1] at q1
    exact (Option.some.inj q1).symm
  rw [p1 fuel, q4 fuel]
  rcases findGrid_general (env.lib (cellOf d.columns) base types s.symm_flag eps r)
    (hl.irr base types s.symm_flag) env.wrap eps offsets s.min_kpts (env.root n) fuel r.id k1 k2 hid _
    (reduced_canonC r.id k1 k2 fun hm => hid (by simp at hm ⊢; omega)) s_range (by omega) n h1 hfit with
    hr | ⟨e, he', -, -, -, -, a5, -⟩
  · left
    rw [hr]
  · right
    obtain ⟨b1, b2⟩ := find_grid_symmetric_general h hid (hl.reduces base types s.symm_flag)
      (hl.irr base types s.symm_flag) env.wrap offsets s.min_kpts (env.root n) fuel s_range q1 n h1 hfit e he'
    exact ⟨e, n, by rw [he'], p2, b2, real_scaled hdet b1, offsetRight_of p3 p4 hu.readable q3 a5⟩

/-- C88, for the cubic lattices: a grid that is returned is right.  `env.root n` may miss the cube root of `n` by one. -/
theorem program_cubic (hp : PoscarSays rd poscar d) (hdet : (d.scale • d.columns).det ≠ 0) (hrt : rt2 ≠ 0)
    (hf : FileSays kpgen settings) (hu : Usable rd rt2 d.counts.sum |(d.scale • d.columns).det| settings)
    (hk : lastOf densitySetting settings = some (k, v)) (he : Tolerance rd settings eps)
    (h : Recognised env.equal (cellOf d.columns) eps rho r) (hl : EnvRight env (cellOf d.columns) eps r)
    (hw : env.wrap = id ∨ Int32 env.wrap)
    (hasks : ∀ n, Asks rd piLit rt2 d.counts.sum |(d.scale • d.columns).det| k v n →
      1 ≤ n ∧ 0 ≤ env.root n ∧ env.root n ^ 3 ≤ n ∧ n < (env.root n + 2) ^ 3)
    (hid : r.id ∈ [1, 3, 5]) {e : Entry (Matrix (Fin 3) (Fin 3) ℚ) Offset}
    (hok : program env rd junk rt2 fuel poscar kpgen = .ok e) :
    ∃ n, Asks rd piLit rt2 d.counts.sum |(d.scale • d.columns).det| k v n ∧ n ≤ e.nt_kpts ∧
      SymmetricGrid (realMat (d.scale • d.columns)) (realMat (d.scale⁻¹ • e.sel.grid)) e.nt_kpts ∧
      OffsetRight rd env settings (cellOf d.columns) r.id eps e.sel.offset := by
  obtain ⟨n, base, types, s, p1, p2, p3, p4⟩ := program_reads (junk := junk) env hp hdet hrt hf hu hk he
  obtain ⟨offsets, s_range, q1, q2, q3, q4⟩ := find_grid_searches env h hl.pgSize n base types s.offset
    s.find_offset (offset_ne_none p3 p4 hu.readable) s.symm_flag s.min_kpts
  obtain ⟨h1, r0, r1, r2⟩ := hasks n p2
  rw [p1 fuel, q4 fuel] at hok
  split at hok
  · cases hok
  · rename_i e' he'
    cases hok
    obtain ⟨b1, b2, a5⟩ := find_grid_symmetric_cubic h hid (hl.reduces base types s.symm_flag)
      (hl.irr base types s.symm_flag) env.wrap hw offsets s.min_kpts (env.root n) fuel s_range n h1 ⟨r1, r2⟩ r0 eps e he'
    exact ⟨n, p2, b2, real_scaled hdet b1, offsetRight_of p3 p4 hu.readable q3 a5⟩

/-- C88, for the cubic lattices: a grid is returned, if the number of points asked for is not above `cubicLimit`.

Missing: larger numbers, for which no grid is returned (`program_cubic_fails`). -/
theorem program_cubic_partial (hp : PoscarSays rd poscar d) (hdet : (d.scale • d.columns).det ≠ 0) (hrt : rt2 ≠ 0)
    (hf : FileSays kpgen settings) (hu : Usable rd rt2 d.counts.sum |(d.scale • d.columns).det| settings)
    (hk : lastOf densitySetting settings = some (k, v)) (he : Tolerance rd settings eps)
    (h : Recognised env.equal (cellOf d.columns) eps rho r) (hl : EnvRight env (cellOf d.columns) eps r)
    (htot : ∀ base types flag g o, (env.lib (cellOf d.columns) base types flag eps r).irr g o ≠ none)
    (hw : env.wrap = id ∨ Int32 env.wrap)
    (hasks : ∀ n, Asks rd piLit rt2 d.counts.sum |(d.scale • d.columns).det| k v n →
      1 ≤ n ∧ n ≤ cubicLimit r.id ∧ 0 ≤ env.root n ∧ env.root n ^ 3 ≤ n ∧
        n < (env.root n + 2) ^ 3)
    (hid : r.id ∈ [1, 3, 5]) :
    ∃ e n, program env rd junk rt2 fuel poscar kpgen = .ok e ∧
      Asks rd piLit rt2 d.counts.sum |(d.scale • d.columns).det| k v n ∧ n ≤ e.nt_kpts ∧
      SymmetricGrid (realMat (d.scale • d.columns)) (realMat (d.scale⁻¹ • e.sel.grid)) e.nt_kpts ∧
      OffsetRight rd env settings (cellOf d.columns) r.id eps e.sel.offset := by
  obtain ⟨n, base, types, s, p1, p2, p3, p4⟩ := program_reads (junk := junk) env hp hdet hrt hf hu hk he
  obtain ⟨offsets, s_range, q1, q2, q3, q4⟩ := find_grid_searches env h hl.pgSize n base types s.offset
    s.find_offset (offset_ne_none p3 p4 hu.readable) s.symm_flag s.min_kpts
  obtain ⟨h1, hn, r0, r1, r2⟩ := hasks n p2
  obtain ⟨e, he', -⟩ := find_grid_symmetric_cubic_partial h hid (hl.reduces base types s.symm_flag)
    (hl.irr base types s.symm_flag) env.wrap hw offsets q2 (fun g o _ => htot base types s.symm_flag g o) s.min_kpts
    (env.root n) fuel s_range n h1 hn ⟨r1, r2⟩ r0 eps
  have hok : program env rd junk rt2 fuel poscar kpgen = .ok e := by rw [p1 fuel, q4 fuel, he']
  obtain ⟨n', c⟩ := program_cubic hp hdet hrt hf hu hk he h hl hw
    (fun n hn => ⟨(hasks n hn).1, (hasks n hn).2.2⟩) hid hok
  exact ⟨e, n', hok, c⟩

/-- C88 fails for the cubic lattices, whatever the libraries do, if the number of points asked for is above 21882096 (face
centred) or 4499456 (simple and body centred): the program stops because it inverts the zero matrix. -/
theorem program_cubic_fails (hp : PoscarSays rd poscar d) (hdet : (d.scale • d.columns).det ≠ 0) (hrt : rt2 ≠ 0)
    (hf : FileSays kpgen settings) (hu : Usable rd rt2 d.counts.sum |(d.scale • d.columns).det| settings)
    (hk : lastOf densitySetting settings = some (k, v)) (he : Tolerance rd settings eps)
    (h : Recognised env.equal (cellOf d.columns) eps rho r) (hl : EnvRight env (cellOf d.columns) eps r)
    (hw : env.wrap = id ∨ Int32 env.wrap)
    (hasks : ∀ n, Asks rd piLit rt2 d.counts.sum |(d.scale • d.columns).det| k v n →
      cubicLimit r.id < n ∧ 0 ≤ env.root n ∧ env.root n ^ 3 ≤ n)
    (hid : r.id ∈ [1, 3, 5]) :
    program env rd junk rt2 fuel poscar kpgen = .error (.grid .singular) := by
  obtain ⟨n, base, types, s, p1, p2, p3, p4⟩ := program_reads (junk := junk) env hp hdet hrt hf hu hk he
  obtain ⟨offsets, s_range, q1, q2, q3, q4⟩ := find_grid_searches env h hl.pgSize n base types s.offset
    s.find_offset (offset_ne_none p3 p4 hu.readable) s.symm_flag s.min_kpts
  obtain ⟨hn, r0, r1⟩ := hasks n p2
  rw [p1 fuel, q4 fuel, findGrid_cubic_large _ (hl.irr base types s.symm_flag) env.wrap hw eps offsets s.min_kpts fuel r.id hid
    s_range n (env.root n) hn r1 r0]

/-- C88, for the triclinic lattices.  The number of points, `q m³`, may be smaller than asked for (C75). -/
theorem program_tric (hp : PoscarSays rd poscar d) (hdet : (d.scale • d.columns).det ≠ 0) (hrt : rt2 ≠ 0)
    (hf : FileSays kpgen settings) (hu : Usable rd rt2 d.counts.sum |(d.scale • d.columns).det| settings)
    (hk : lastOf densitySetting settings = some (k, v)) (he : Tolerance rd settings eps)
    (h : Recognised env.equal (cellOf d.columns) eps rho r) (hl : EnvRight env (cellOf d.columns) eps r)
    (hasks : ∀ n, Asks rd piLit rt2 d.counts.sum |(d.scale • d.columns).det| k v n → 1 ≤ n)
    (hid : r.id ∈ [31, 44]) :
    program env rd junk rt2 fuel poscar kpgen = .error (.grid .running) ∨
    ∃ e n q m, program env rd junk rt2 fuel poscar kpgen = .ok e ∧
      Asks rd piLit rt2 d.counts.sum |(d.scale • d.columns).det| k v n ∧ 1 ≤ q ∧ 1 ≤ m ∧ n - m ^ 3 < q * m ^ 3 ∧
      SymmetricGrid (realMat (d.scale • d.columns)) (realMat (d.scale⁻¹ • e.sel.grid)) (q * m ^ 3) ∧
      OffsetRight rd env settings (cellOf d.columns) r.id eps e.sel.offset := by
  obtain ⟨n, base, types, s, p1, p2, p3, p4⟩ := program_reads (junk := junk) env hp hdet hrt hf hu hk he
  obtain ⟨offsets, s_range, q1, q2, q3, q4⟩ := find_grid_searches env h hl.pgSize n base types s.offset
    s.find_offset (offset_ne_none p3 p4 hu.readable) s.symm_flag s.min_kpts
  have h1 := hasks n p2
  rw [p1 fuel, q4 fuel]
  have hCo : r.Co.toMat.det = 1 := (reduceCell_same_lattice env.equal _ (some eps) _ h.parts.2).1
  rcases findGrid_tric (env.lib (cellOf d.columns) base types s.symm_flag eps r) (hl.irr base types s.symm_flag)
    env.wrap eps offsets s.min_kpts (env.root n) fuel r.id hid r.Co.toMat (.inl hCo) s_range n h1 with
    hr | ⟨e, he', -, -, -, -, a5, -⟩
  · left
    rw [hr]
  · right
    obtain ⟨q, m, b1, b2, b3, b4⟩ := find_grid_symmetric_tric h hid (hl.reduces base types s.symm_flag)
      (hl.irr base types s.symm_flag) env.wrap offsets s.min_kpts (env.root n) fuel s_range n h1 e he'
    exact ⟨e, n, q, m, by rw [he'], p2, b2, b3, b4, real_scaled hdet b1, offsetRight_of p3 p4 hu.readable q3 a5⟩

/-! ## C89: a wrong class is refused -/

/-- C89: whatever `id_cell` answers for the lattice of `POSCAR`, if the library counts the point symmetries of the
lattice correctly, the program never stops with the message that no lattice has that number of symmetries, and it
returns a grid only if the class found is one whose lattices have as many symmetries as the user's.  For any other
class it stops with the message that the point group does not match. -/
theorem program_refuses {G : Type} (env : Env G) (hp : PoscarSays rd poscar d)
    (hdet : (d.scale • d.columns).det ≠ 0) (hrt : rt2 ≠ 0)
    (hf : FileSays kpgen settings) (hu : Usable rd rt2 d.counts.sum |(d.scale • d.columns).det| settings)
    (hk : lastOf densitySetting settings = some (k, v)) (he : Tolerance rd settings eps)
    (hpg : env.pgSize (cellOf d.columns) eps = (PointSym (realCell (cellOf d.columns))).ncard) :
    program env rd junk rt2 fuel poscar kpgen ≠ .error .order ∧
    ∀ r, idCell env.equal (cellOf d.columns) (some eps) = .ok r →
      (bravais r.id).map holohedryOrder ≠ some (PointSym (realMat (d.scale • d.columns))).ncard →
      program env rd junk rt2 fuel poscar kpgen = .error .mismatch := by
  obtain ⟨n, base, types, s, p1, p2, p3, p4⟩ := program_reads (junk := junk) env hp hdet hrt hf hu hk he
  have hs : d.scale ≠ 0 := by
    rintro h0
    rw [h0, zero_smul, det_zero] at hdet
    exact hdet rfl
  have hU : (cellOf d.columns).toMatrix.det ≠ 0 := by
    rw [cellOf_toMatrix]
    rw [det_smul] at hdet
    exact right_ne_zero_of_mul hdet
  have hsym : PointSym (realMat (d.scale • d.columns)) = PointSym (realCell (cellOf d.columns)) := by
    have hU : realCell (cellOf d.columns) = realMat d.columns := by
      unfold realCell
      rw [cellOf_toMatrix]
      rfl
    rw [hU, realMat_smul]
    have hs' : (d.scale : ℝ) ≠ 0 := by exact_mod_cast hs
    ext X
    constructor
    · rintro ⟨R, h1, h2⟩
      refine ⟨R, h1, ?_⟩
      rw [mul_smul_comm, smul_mul_assoc] at h2
      exact smul_right_injective _ hs' h2
    · rintro ⟨R, h1, h2⟩
      exact ⟨R, h1, by rw [mul_smul_comm, smul_mul_assoc, h2]⟩
  rw [p1 fuel, hsym]
  have hc := fun j => check_sym_never_stops (cellOf d.columns) hU j
  constructor
  · unfold find_grid
    split
    · simp
    · rw [hpg, hc]
      split
      · simp_all
      · simp
      · split
        · split <;> simp
        · simp
  · intro r hr hne
    unfold find_grid
    rw [hr]
    dsimp only
    rw [hpg, hc, decide_eq_false hne]

/-! ## The hypotheses are met -/

/-- A library that leaves each basis as it is, counts one irreducible k-point, and the point symmetries of the
lattice. -/
noncomputable def plainEnv : Env (Matrix (Fin 3) (Fin 3) ℚ) where
  equal := cmpEqual
  norms _ := (1, 2, 3)
  pgSize U _ := (PointSym (realCell U)).ncard
  lib U _ _ _ _ r := ⟨sampleEqual, fun H => ⟨gridOf U r H, 1, true⟩, gridOf U r, fun _ _ => some 1, fun _ _ => some 1⟩
  root n := if n < 1000 then 9 - 9 * (if n < 729 then 1 else 0) else 10
  wrap := wrap32

theorem plainEnv_right (U : RMat ℚ) (eps : ℚ) (r : IdCell) : EnvRight plainEnv U eps r where
  pgSize := rfl
  reduces _ _ _ := ⟨fun H _ => ⟨1, by simp, by rw [castMat_one, Matrix.mul_one]; rfl⟩, fun _ => rfl⟩
  irr _ _ _ _ _ m h := by
    simp only [plainEnv, Option.some.injEq] at h
    omega

/-- A file `KPGEN`. -/
def mainKpgen : List (List Char) := ["NKPTS=801".toList, "SHIFT=0 0 1".toList]

def mainSettings : List (Key × List Char) := [(.nkpts, "801".toList), (.shift, "0 0 1".toList)]

theorem mainKpgen_says : FileSays mainKpgen mainSettings :=
  .sets ⟨0, by decide⟩ (.sets ⟨0, by decide⟩ .nil)

theorem main_asks {rt2 : ℚ} {natoms : ℤ} {vol : ℚ} {n : ℤ}
    (h : Asks wordsReader piLit rt2 natoms vol .nkpts "801".toList n) : n = 801 :=
  Option.some.inj (h.symm.trans (by decide))

theorem main_usable (rt2 : ℚ) (natoms : ℤ) (vol : ℚ) : Usable wordsReader rt2 natoms vol mainSettings where
  readable := by
    intro p hp
    simp only [mainSettings, List.mem_cons, List.not_mem_nil, or_false] at hp
    rcases hp with rfl | rfl
    · exact ⟨801, by decide⟩
    · exact ⟨(0, 0, 1), by decide⟩
  fits := by
    intro p hp n hn
    simp only [mainSettings, List.mem_cons, List.not_mem_nil, or_false] at hp
    rcases hp with rfl | rfl
    · rw [main_asks hn]
      norm_num
    · exact absurd hn (by simp [Asks])

theorem main_tolerance : Tolerance wordsReader mainSettings (8589935 / 2 ^ 33) := rfl

/-- A file `POSCAR` with one atom and scale 2. -/
def mainPoscar (l1 l2 l3 : List Char) : List (List Char) :=
  ["A".toList, "2".toList, l1, l2, l3, "1".toList, "Direct".toList, "0 0 0".toList]

def mainData (v1 v2 v3 : ℚ × ℚ × ℚ) : PoscarData := ⟨2, v1, v2, v3, [1], .direct, [(0, 0, 0)]⟩

theorem mainPoscar_says {l1 l2 l3 : List Char} {v1 v2 v3 : ℚ × ℚ × ℚ} (h1 : wordsReader.real3 l1 = some v1)
    (h2 : wordsReader.real3 l2 = some v2) (h3 : wordsReader.real3 l3 = some v3) :
    PoscarSays wordsReader (mainPoscar l1 l2 l3) (mainData v1 v2 v3) :=
  ⟨"A".toList, "2".toList, l1, l2, l3, [], "1".toList, "Direct".toList, ["0 0 0".toList], [], rfl,
    show wordsReader.real "2".toList = some 2 by decide, h1, h2, h3, .inl rfl, by simp [mainData],
    ⟨["1".toList], ⟨Words.cons (word := "1".toList) (rest := []) 0 (by decide) (.inl rfl) (.none 0), by decide⟩,
      show ["1".toList].map wordsReader.int = [1].map fun n : ℕ => some (n : ℤ) by decide⟩,
    ⟨0, 'D', "irect".toList, rfl, by decide,
      show Mode.direct = .cartesian ↔ 'D' = 'c' ∨ 'D' = 'C' ∨ 'D' = 'k' ∨ 'D' = 'K' by decide⟩, by decide,
    show ["0 0 0".toList].map wordsReader.real3 = [((0 : ℚ), (0 : ℚ), (0 : ℚ))].map some by decide, rfl⟩

theorem main_det {v1 v2 v3 : ℚ × ℚ × ℚ} (h : rdet (cellOf (mainData v1 v2 v3).columns) ≠ 0) :
    ((mainData v1 v2 v3).scale • (mainData v1 v2 v3).columns).det ≠ 0 := by
  rw [rdet_eq, cellOf_toMatrix] at h
  rw [det_smul]
  exact mul_ne_zero (by norm_num [mainData]) h

/-- `Recognised` from a computation. -/
theorem recognised_of {U : RMat ℚ} {eps : ℚ} {r : IdCell} {A B C D E F : ℚ}
    (h1 : idCell cmpEqual U (some eps) = .ok r) (h2 : rdet U ≠ 0) (h3 : cellMetric U r.Cu = (A, B, C, D, E, F))
    (h4 : NiggliReduced (A : ℝ) B C D E F) (h5 : ClassApart eps eps A B C D E F)
    (h6 : 1 / 100000 ≤ eps ∧ eps < 1 / 10) (h7 : r.id ≠ 6) : Recognised cmpEqual U eps eps r := by
  rw [cellMetric_metric] at h3
  simp only [Prod.mk.injEq] at h3
  obtain ⟨e1, e2, e3, e4, e5, e6⟩ := h3
  refine ⟨h1, by rwa [← rdet_eq], ?_, ?_, h6.1, h6.2, le_rfl, fun h => absurd h h7⟩
  · rw [e1, e2, e3, e4, e5, e6]
    exact h4
  · rw [e1, e2, e3, e4, e5, e6]
    exact h5

/-- The orthorhombic lattice of C77. -/
theorem main_ortho : Recognised cmpEqual (cellOf (mainData (1, 0, 0) (0, 2, 0) (3, 1, 5)).columns) (8589935 / 2 ^ 33)
    (8589935 / 2 ^ 33) ⟨⟨-1, 0, -3, 0, -1, 0, 0, 0, 1⟩, ⟨1, 0, 0, 0, 1, 0, 0, 0, 1⟩, 40, some 15⟩ :=
  recognised_of (A := 1) (B := 4) (C := 26) (D := -2) (E := 0) (F := 0) (by decide +kernel) (by decide +kernel)
    (by decide +kernel) (by constructor <;> norm_num [TypeI, TypeII]) (by constructor <;> decide +kernel)
    (by norm_num) (by decide)

/-- C88 for this lattice: 801 points and the shift (0, 0, 1). -/
example (junk : ℤ) (fuel : ℕ) (hfuel : fuel ≤ 1000) :
    program plainEnv wordsReader junk (7 / 5) fuel (mainPoscar "1 0 0".toList "0 2 0".toList "3 1 5".toList)
      mainKpgen = .error (.grid .running) ∨
    ∃ e, program plainEnv wordsReader junk (7 / 5) fuel (mainPoscar "1 0 0".toList "0 2 0".toList "3 1 5".toList)
        mainKpgen = .ok e ∧ 801 ≤ e.nt_kpts ∧ e.sel.offset = (0, 0, 1) ∧
      SymmetricGrid (realMat ((2 : ℚ) • (mainData (1, 0, 0) (0, 2, 0) (3, 1, 5)).columns))
        (realMat ((2 : ℚ)⁻¹ • e.sel.grid)) e.nt_kpts := by
  rcases program_general (junk := junk) (fuel := fuel) (rt2 := 7 / 5) (mainPoscar_says (l1 := "1 0 0".toList) (l2 := "0 2 0".toList)
      (l3 := "3 1 5".toList) (by decide) (by decide) (by decide))
    (main_det (by decide +kernel)) (by norm_num) mainKpgen_says (main_usable _ _ _) rfl main_tolerance
    (env := plainEnv) main_ortho (plainEnv_right _ _ _)
    (fun n hn => by
      rw [main_asks hn]
      exact ⟨by norm_num, .inr ⟨wrap32_int32, by omega⟩⟩) (by decide) with h | ⟨e, n, h1, h2, h3, h4, h5⟩
  · exact .inl h
  · rw [main_asks h2] at h3
    exact .inr ⟨e, h1, h3, h5.1 _ (by decide), h4⟩

/-- C88 for a cubic lattice. -/
theorem main_cubic : Recognised cmpEqual (cellOf (mainData (1, 0, 0) (1, 1, 0) (0, 0, 1)).columns) (8589935 / 2 ^ 33)
    (8589935 / 2 ^ 33) ⟨⟨-1, 0, -1, 0, 0, 1, 0, 1, 0⟩, ⟨1, 0, 0, 0, 1, 0, 0, 0, 1⟩, 3, some 1⟩ :=
  recognised_of (A := 1) (B := 1) (C := 1) (D := 0) (E := 0) (F := 0) (by decide +kernel) (by decide +kernel)
    (by decide +kernel) (by constructor <;> norm_num [TypeI, TypeII]) (by constructor <;> decide +kernel)
    (by norm_num) (by decide)

example (junk : ℤ) (fuel : ℕ) :
    ∃ e, program plainEnv wordsReader junk (7 / 5) fuel (mainPoscar "1 0 0".toList "1 1 0".toList "0 0 1".toList)
        mainKpgen = .ok e ∧ 801 ≤ e.nt_kpts ∧ e.sel.offset = (0, 0, 1) := by
  obtain ⟨e, n, h1, h2, h3, h4, h5⟩ := program_cubic_partial (junk := junk) (fuel := fuel) (rt2 := 7 / 5)
    (mainPoscar_says (l1 := "1 0 0".toList) (l2 := "1 1 0".toList)
      (l3 := "0 0 1".toList) (by decide) (by decide) (by decide))
    (main_det (by decide +kernel)) (by norm_num) mainKpgen_says (main_usable _ _ _) rfl main_tolerance
    (env := plainEnv) main_cubic (plainEnv_right _ _ _) (by simp [plainEnv]) (.inr wrap32_int32)
    (fun n hn => by
      rw [main_asks hn]
      simp only [plainEnv]
      norm_num [cubicLimit]) (by decide)
  rw [main_asks h2] at h3
  exact ⟨e, h1, h3, h5.1 _ (by decide)⟩

/-- Five million points of a simple cubic lattice are too many. -/
example (junk : ℤ) (fuel : ℕ) :
    program plainEnv wordsReader junk (7 / 5) fuel (mainPoscar "1 0 0".toList "1 1 0".toList "0 0 1".toList)
      ["NKPTS=5000000".toList] = .error (.grid .singular) := by
  refine program_cubic_fails (junk := junk) (fuel := fuel) (rt2 := 7 / 5) (settings := [(.nkpts, "5000000".toList)])
    (mainPoscar_says (l1 := "1 0 0".toList) (l2 := "1 1 0".toList)
      (l3 := "0 0 1".toList) (by decide) (by decide) (by decide))
    (main_det (by decide +kernel)) (by norm_num) (.sets ⟨0, by decide⟩ .nil) ⟨?_, ?_⟩ rfl rfl
    (env := plainEnv) main_cubic (plainEnv_right _ _ _) (.inr wrap32_int32) (fun n hn => ?_) (by decide)
  · intro p hp
    cases List.mem_singleton.1 hp
    exact ⟨5000000, by decide⟩
  · intro p hp n hn
    cases List.mem_singleton.1 hp
    have : n = 5000000 := Option.some.inj (hn.symm.trans (by decide))
    omega
  · have : n = 5000000 := Option.some.inj (hn.symm.trans (by decide))
    rw [this]
    simp only [plainEnv]
    norm_num [cubicLimit]

/-- C88 for a triclinic lattice. -/
theorem main_tric : Recognised cmpEqual (cellOf (mainData (3, 0, 0) (1, 4, 0) (1, 1, 5)).columns) (8589935 / 2 ^ 33)
    (8589935 / 2 ^ 33) ⟨⟨1, 0, 0, 0, 1, 0, 0, 0, 1⟩, ⟨1, 0, 0, 0, 1, 0, 0, 0, 1⟩, 31, some 1⟩ :=
  recognised_of (A := 9) (B := 17) (C := 27) (D := 5) (E := 3) (F := 3) (by decide +kernel) (by decide +kernel)
    (by decide +kernel) (by constructor <;> norm_num [TypeI, TypeII]) (by constructor <;> decide +kernel)
    (by norm_num) (by decide)

example (junk : ℤ) (fuel : ℕ) :
    program plainEnv wordsReader junk (7 / 5) fuel (mainPoscar "3 0 0".toList "1 4 0".toList "1 1 5".toList)
      mainKpgen = .error (.grid .running) ∨
    ∃ e, program plainEnv wordsReader junk (7 / 5) fuel (mainPoscar "3 0 0".toList "1 4 0".toList "1 1 5".toList)
        mainKpgen = .ok e ∧ e.sel.offset = (0, 0, 1) := by
  rcases program_tric (junk := junk) (fuel := fuel) (rt2 := 7 / 5)
    (mainPoscar_says (l1 := "3 0 0".toList) (l2 := "1 4 0".toList)
      (l3 := "1 1 5".toList) (by decide) (by decide) (by decide))
    (main_det (by decide +kernel)) (by norm_num) mainKpgen_says (main_usable _ _ _) rfl main_tolerance
    (env := plainEnv) main_tric (plainEnv_right _ _ _)
    (fun n hn => by rw [main_asks hn]; norm_num) (by decide) with h | ⟨e, n, q, m, h1, -, -, -, -, -, h5⟩
  · exact .inl h
  · exact .inr ⟨e, h1, h5.1 _ (by decide)⟩

/-- C89 for an orthorhombic lattice that is nearly tetragonal (lengths 1000000, 1000001, 2000000): it is taken for
a tetragonal one, and refused. -/
example (junk : ℤ) (fuel : ℕ) :
    program plainEnv wordsReader junk (7 / 5) fuel
      (mainPoscar "1000000 0 0".toList "0 1000001 0".toList "0 0 2000000".toList) mainKpgen = .error .mismatch := by
  refine (program_refuses (junk := junk) (fuel := fuel) (rt2 := 7 / 5) plainEnv
    (mainPoscar_says (l1 := "1000000 0 0".toList) (l2 := "0 1000001 0".toList) (l3 := "0 0 2000000".toList)
      (v1 := (1000000, 0, 0)) (v2 := (0, 1000001, 0)) (v3 := (0, 0, 2000000)) (by decide) (by decide) (by decide))
    (main_det (by decide +kernel)) (by norm_num) mainKpgen_says (main_usable _ _ _) rfl main_tolerance rfl).2
    ⟨⟨1, 0, 0, 0, 1, 0, 0, 0, 1⟩, ⟨1, 0, 0, 0, 1, 0, 0, 0, 1⟩, 11, some 25⟩ (by decide +kernel) ?_
  have h : NiggliCellOf (realMat ((mainData (1000000, 0, 0) (0, 1000001, 0) (0, 0, 2000000)).scale •
      (mainData (1000000, 0, 0) (0, 1000001, 0) (0, 0, 2000000)).columns)) 1
      (2000000 ^ 2) (2000002 ^ 2) (4000000 ^ 2) 0 0 0 := by
    refine ⟨by simp, ?_, by constructor <;> norm_num [TypeI, TypeII]⟩
    ext i j
    fin_cases i <;> fin_cases j <;>
      simp [realMat, mainData, PoscarData.columns, vec, toReal_one, metric, Matrix.mul_apply, Fin.sum_univ_three,
        Matrix.transpose] <;> norm_num
  have hc : IsClass 32 (2000000 ^ 2) (2000002 ^ 2) (4000000 ^ 2) 0 0 0 := by
    refine ⟨by decide, by norm_num [NiggliClass, TypeII], ?_⟩
    have : classTable.takeWhile (· ≠ 32) = [1, 2, 3, 5, 4, 6, 7, 8, 9, 10, 11, 12, 13, 15, 16, 14, 17, 18, 19, 20,
      21, 22, 23, 24, 25, 26, 27, 28, 29, 30, 31] := by decide
    rw [this]
    simp only [List.forall_mem_cons, List.not_mem_nil, false_imp_iff, implies_true, and_true]
    norm_num [NiggliClass, TypeI, TypeII]
  obtain ⟨b, hb, hn⟩ := pointSym_order h hc
  cases hb
  rw [hn]
  decide

end AutoGR.Fortran
