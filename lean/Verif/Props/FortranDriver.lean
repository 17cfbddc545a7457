import Verif.Model.FortranDriver
import Verif.Lemmas.IrreducibleGroup
import Verif.Props.FortranZone
import Verif.Spec.KpointsList

/-!
# C99: from the input files to `KPOINTS`
-/

namespace AutoGR.Fortran

open Spec Matrix

/-- A rational vector. -/
def realVec (v : Fin 3 → ℚ) : Fin 3 → ℝ := fun i => (v i : ℝ)

/-- The libraries do, for the tolerance `eps`, what they are documented to do.  `place K o` is the point where the grid with
basis `K` and offset `o` begins; `ops` are the symmetries that the library finds for a crystal (lattice vectors, positions
and types of the atoms) and a level of symmetry. -/
structure OutRight (out : OutLib) (place : Matrix (Fin 3) (Fin 3) ℚ → Offset → Fin 3 → ℚ)
    (ops : Matrix (Fin 3) (Fin 3) ℚ → List (Fin 3 → ℚ) → List ℕ → ℕ → Set (Matrix (Fin 3) (Fin 3) ℝ)) (eps : ℚ) :
    Prop where
  /-- the symmetries of a crystal are a group of symmetries of its lattice -/
  group : ∀ lat base types flag, lat.det ≠ 0 → LatticeGroup (realMat lat) (ops lat base types flag)
  /-- the reduced reciprocal basis spans the same lattice -/
  reduce : ∀ R : Matrix (Fin 3) (Fin 3) ℚ, R.det ≠ 0 → ∃ W : IntMat, IsUnit W.det ∧ out.reduceR R eps = R * castMat W
  /-- the irreducible points of a grid that is commensurate and symmetric, for any basis of the reciprocal lattice -/
  irred : ∀ lat base types flag K W o n, lat.det ≠ 0 → IsUnit (W : IntMat).det →
    SymmetricGrid (realMat lat) (realMat K) n →
    IrreduciblePoints ((realMat lat)ᵀ)⁻¹ (realMat K) (realVec (place K o)) (ops lat base types flag)
      ((out.irred lat base types K ((latᵀ)⁻¹ * castMat W) o eps flag).map fun p => (realVec p.1, p.2))
  /-- a translate of the point in the first zone -/
  zone : ∀ (R : Matrix (Fin 3) (Fin 3) ℚ) (k : Fin 3 → ℚ), R.det ≠ 0 →
    (∃ m : Fin 3 → ℤ, realVec (out.toZone R eps k) = realVec k + realMat R *ᵥ intVec m) ∧
    InFirstZone (realMat R) (realVec (out.toZone R eps k))

/-- The atoms of the file: the positions in the basis of the lattice vectors, and types in the order of the counts. -/
def AtomsOf (d : PoscarData) (base : List (Fin 3 → ℚ)) (types : List ℕ) : Prop :=
  (base = d.positions.map fun x => match d.mode with
    | .direct => vec x
    | .cartesian => (d.scale • d.columns)⁻¹.mulVec (vec x)) ∧
  types.Pairwise (· ≤ ·) ∧ (∀ t ∈ types, t < d.counts.length) ∧
  ∀ (j : ℕ) (hj : j < d.counts.length), types.count j = d.counts[j]

/-- The level of symmetry that the settings ask for. -/
def LevelOf (settings : List (Key × List Char)) (flag : ℕ) : Prop :=
  lastOf symmetryLevel settings = some flag ∨ lastOf symmetryLevel settings = none ∧ flag = 0

variable {env : Env (Matrix (Fin 3) (Fin 3) ℚ)} {out : OutLib} {rd : Reader} {junk : ℤ} {rt2 : ℚ}
  {poscar kpgen : List (List Char)} {d : PoscarData} {settings : List (Key × List Char)} {rnd : ℚ → ℕ} {pad fuel : ℕ}
  {k : Key} {v : List Char} {eps rho : ℚ} {r : IdCell}
  {place : Matrix (Fin 3) (Fin 3) ℚ → Offset → Fin 3 → ℚ}
  {ops : Matrix (Fin 3) (Fin 3) ℚ → List (Fin 3 → ℚ) → List ℕ → ℕ → Set (Matrix (Fin 3) (Fin 3) ℝ)}

/-- The driver writes the points that the library gives for the grid that is found. -/
theorem driver_reads (env : Env (Matrix (Fin 3) (Fin 3) ℚ)) (out : OutLib) (hp : PoscarSays rd poscar d)
    (hdet : (d.scale • d.columns).det ≠ 0) (hrt : rt2 ≠ 0) (hf : FileSays kpgen settings)
    (hu : Usable rd rt2 d.counts.sum |(d.scale • d.columns).det| settings)
    (hk : lastOf densitySetting settings = some (k, v)) (he : Tolerance rd settings eps) :
    ∃ base types flag, AtomsOf d base types ∧ LevelOf settings flag ∧ ∀ e,
      program env rd junk rt2 fuel poscar kpgen = .ok e →
      driver env out rd junk rt2 rnd pad fuel poscar kpgen = .ok (kpointsFile rnd pad (d.columnsᵀ)⁻¹
        ((out.irred d.columns base types e.sel.grid (out.reduceR (d.columnsᵀ)⁻¹ eps) e.sel.offset eps flag).map
          fun k => (out.toZone (d.columnsᵀ)⁻¹ eps k.1, k.2))) := by
  obtain ⟨p, e1, e2, e3, -, e5, e6, e7, e8⟩ := read_POSCAR_lattice_types (junk := junk) hp fun _ => hdet
  have hn : ((p.atom_base.length : ℕ) : ℤ) = ((d.counts.sum : ℕ) : ℤ) := by rw [e5]
  obtain ⟨s, g1, ⟨n, g2, g3⟩, g4, g5, g6, -, g8⟩ :=
    (get_inputs_correct (rd := rd) (natoms := (d.counts.sum : ℕ)) hdet hrt hf hu.readable hu.fits).2 k v hk
  refine ⟨p.atom_base, p.atom_type, s.symm_flag, ⟨?_, e6, e7, e8⟩, g6, fun e hprog => ?_⟩
  · have := read_POSCAR_says (junk := junk) hp fun _ => hdet
    rw [e1] at this
    cases this
    rfl
  · unfold program at hprog
    unfold driver
    rw [e1] at hprog ⊢
    dsimp only at hprog ⊢
    rw [e2, e3, hn, if_neg hdet, g1] at hprog ⊢
    dsimp only at hprog ⊢
    rw [g2, g8, he] at hprog ⊢
    dsimp only at hprog ⊢
    rw [hprog]

/-- The output depends only on the grid that is found. -/
theorem driver_fuel {e : Entry (Matrix (Fin 3) (Fin 3) ℚ) Offset} {f1 f2 : ℕ}
    (h1 : program env rd junk rt2 f1 poscar kpgen = .ok e) (h2 : program env rd junk rt2 f2 poscar kpgen = .ok e) :
    driver env out rd junk rt2 rnd pad f2 poscar kpgen = driver env out rd junk rt2 rnd pad f1 poscar kpgen := by
  unfold program at h1 h2
  unfold driver
  cases hp : read_POSCAR rd junk poscar with
  | error e => rfl
  | ok p =>
    rw [hp] at h1 h2
    dsimp only at h1 h2 ⊢
    split_ifs with hd
    · rfl
    · rw [if_neg hd] at h1 h2
      cases hg : get_inputs rd rt2 (crystalOf p.atom_base.length p.lat_param p.lattice) kpgen with
      | none => rfl
      | some s =>
        rw [hg] at h1 h2
        dsimp only at h1 h2 ⊢
        cases hn : s.nkpts with
        | none => rfl
        | some n =>
          cases hs : s.eps with
          | none => rfl
          | some eps =>
            rw [hn, hs] at h1 h2
            dsimp only at h1 h2 ⊢
            rw [h1, h2]

/-- A lattice with rational vectors has at most 48 point symmetries. -/
theorem pointSym_le (lat : Matrix (Fin 3) (Fin 3) ℚ) (h : lat.det ≠ 0) :
    (PointSym (realMat lat)).Finite ∧ (PointSym (realMat lat)).ncard ≤ 48 := by
  have hU : realCell (cellOf lat) = realMat lat := by
    unfold realCell
    rw [cellOf_toMatrix]
    rfl
  obtain ⟨Co, A, B, C, D, E, F, k, h1, h2⟩ := niggliCell_exists (cellOf lat) (by rwa [cellOf_toMatrix])
  obtain ⟨b, -, h3⟩ := pointSym_order h1 h2
  rw [hU] at h3
  constructor
  · refine Set.finite_of_ncard_pos ?_
    rw [h3]
    cases b <;> simp [holohedryOrder]
  · rw [h3]
    cases b <;> simp [holohedryOrder]

theorem realVec_mulVec (M : Matrix (Fin 3) (Fin 3) ℚ) (v : Fin 3 → ℚ) : realVec (M *ᵥ v) = realMat M *ᵥ realVec v := by
  funext i
  simp [realVec, realMat, mulVec, dotProduct]

theorem realVec_injective : Function.Injective realVec := by
  intro a b h
  funext i
  have := congrFun h i
  simpa [realVec] using this

open Classical in
/-- `toZone` as a function of real points. -/
theorem zone_fun (ho : OutRight out place ops eps) {R : Matrix (Fin 3) (Fin 3) ℚ} (hR : R.det ≠ 0) :
    ∃ f : (Fin 3 → ℝ) → (Fin 3 → ℝ), (∀ k, f (realVec k) = realVec (out.toZone R eps k)) ∧
      ∀ k, ∃ m : Fin 3 → ℤ, f k = k + realMat R *ᵥ intVec m := by
  refine ⟨fun x => if h : ∃ k, realVec k = x then realVec (out.toZone R eps h.choose) else x, fun k => ?_, fun x => ?_⟩
  · have h : ∃ k', realVec k' = realVec k := ⟨k, rfl⟩
    dsimp only
    rw [dif_pos h, realVec_injective h.choose_spec]
  · dsimp only
    split_ifs with h
    · obtain ⟨m, hm⟩ := (ho.zone R h.choose hR).1
      exact ⟨m, by rw [hm, h.choose_spec]⟩
    · exact ⟨0, by rw [intVec_zero, mulVec_zero, add_zero]⟩

/-- C99: if the program finds a commensurate and symmetric grid, and the lattice vectors of `POSCAR` are Niggli reduced,
then it writes a `KPOINTS` file that lists the irreducible points of this grid for the crystal of `POSCAR` (vectors times
scale), with the offset that was chosen, and the weights add up to the number of points of the grid. -/
theorem driver_writes (hr : Rounds rnd) (hp : PoscarSays rd poscar d) (hdet : (d.scale • d.columns).det ≠ 0)
    (hrt : rt2 ≠ 0) (hf : FileSays kpgen settings)
    (hu : Usable rd rt2 d.counts.sum |(d.scale • d.columns).det| settings)
    (hk : lastOf densitySetting settings = some (k, v)) (he : Tolerance rd settings eps)
    (ho : OutRight out place ops eps) {A B C D E F : ℝ} (hN : NiggliReduced A B C D E F)
    (hU : (realMat d.columns)ᵀ * realMat d.columns = metric A B C D E F)
    {e : Entry (Matrix (Fin 3) (Fin 3) ℚ) Offset} {n : ℤ} (hprog : program env rd junk rt2 fuel poscar kpgen = .ok e)
    (hsym : SymmetricGrid (realMat (d.scale • d.columns)) (realMat (d.scale⁻¹ • e.sel.grid)) n) :
    ∃ file base types flag, driver env out rd junk rt2 rnd pad fuel poscar kpgen = .ok file ∧ AtomsOf d base types ∧
      LevelOf settings flag ∧
      ListsIrreducible file (realMat (d.scale • d.columns)) (realMat (d.scale⁻¹ • e.sel.grid))
        (realVec (d.scale⁻¹ • place e.sel.grid e.sel.offset)) (ops d.columns base types flag) n := by
  obtain ⟨base, types, flag, h1, h2, h3⟩ := driver_reads (junk := junk) (rnd := rnd) (pad := pad) (fuel := fuel) env out hp
    hdet hrt hf hu hk he
  refine ⟨_, base, types, flag, h3 e hprog, h1, h2, ?_⟩
  have hs : d.scale ≠ 0 := by
    rintro h0
    rw [h0, zero_smul, det_zero] at hdet
    exact hdet rfl
  have hsR : ((d.scale : ℚ) : ℝ) ≠ 0 := by exact_mod_cast hs
  have hlat : d.columns.det ≠ 0 := by
    intro h0
    rw [det_smul, h0, mul_zero] at hdet
    exact hdet rfl
  have hlatT : d.columnsᵀ.det ≠ 0 := by rwa [det_transpose]
  have hlatR : (realMat d.columns).det ≠ 0 := by
    rw [realMat_det]
    exact_mod_cast hlat
  have hRdet : ((d.columnsᵀ)⁻¹).det ≠ 0 := by
    rw [det_nonsing_inv, Ring.inverse_eq_inv']
    exact inv_ne_zero hlatT
  have hRreal : realMat (d.columnsᵀ)⁻¹ = ((realMat d.columns)ᵀ)⁻¹ := by rw [realMat_inv hlatT, realMat_transpose]
  -- the grid for the vectors without the scale
  have hsym' : SymmetricGrid (realMat d.columns) (realMat e.sel.grid) n := by
    have := symmetricGrid_scale hsym (s := (d.scale : ℝ)⁻¹) (inv_ne_zero hsR)
    rwa [realMat_smul, realMat_smul, smul_smul, inv_mul_cancel₀ hsR, one_smul, inv_inv, Rat.cast_inv, smul_smul,
      mul_inv_cancel₀ hsR, one_smul] at this
  obtain ⟨N, hN1, hN2⟩ := hsym'.reciprocal
  have hprod : (realMat e.sel.grid).det * (toReal N).det ≠ 0 := by
    rw [← det_mul, ← hN1, det_nonsing_inv, Ring.inverse_eq_inv', det_transpose]
    exact inv_ne_zero hlatR
  have hK := left_ne_zero_of_mul hprod
  have hNdet : N.det ≠ 0 := by
    have := right_ne_zero_of_mul hprod
    rw [toReal_det] at this
    exact_mod_cast this
  have hG := ho.group d.columns base types flag hlat
  have hops := hG.reciprocal hlatR
  obtain ⟨W, hW, hWR⟩ := ho.reduce _ hRdet
  have hI := ho.irred d.columns base types flag e.sel.grid W e.sel.offset n hlat hW hsym'
  rw [← hWR] at hI
  obtain ⟨IR, hIR⟩ : ∃ IR, IR = out.irred d.columns base types e.sel.grid (out.reduceR (d.columnsᵀ)⁻¹ eps) e.sel.offset eps
    flag := ⟨_, rfl⟩
  rw [← hIR] at hI ⊢
  obtain ⟨IRz, hIRz⟩ : ∃ IRz, IRz = IR.map fun k => (out.toZone (d.columnsᵀ)⁻¹ eps k.1, k.2) := ⟨_, rfl⟩
  rw [← hIRz]
  -- the points that are written
  have hIz : IrreduciblePoints ((realMat d.columns)ᵀ)⁻¹ (realMat e.sel.grid) (realVec (place e.sel.grid e.sel.offset))
      (ops d.columns base types flag) (IRz.map fun p => (realVec p.1, p.2)) := by
    obtain ⟨f, hf1, hf2⟩ := zone_fun ho hRdet
    rw [hRreal] at hf2
    have := hI.move hN1 hf2
    rw [List.map_map] at this
    rw [hIRz, List.map_map]
    have e1 : ((fun p : (Fin 3 → ℚ) × ℤ => (realVec p.1, p.2)) ∘ fun k : (Fin 3 → ℚ) × ℤ => (out.toZone (d.columnsᵀ)⁻¹ eps k.1, k.2)) =
        ((fun p : (Fin 3 → ℝ) × ℤ => (f p.1, p.2)) ∘ fun p : (Fin 3 → ℚ) × ℤ => (realVec p.1, p.2)) := by
      funext x
      simp only [Function.comp_apply, hf1]
    rw [e1]
    exact this
  obtain ⟨hfin, hcard⟩ := hG.ncard_le hlatR (pointSym_le _ hlat).1
  have hw := hIz.weight_le hG.inv hops hfin
  have hsum := hIz.sum_weights hops hK hN1 hNdet
  obtain ⟨q, hq1, hq2⟩ := kpoints_reduced_partial (pad := pad) hr hN hU IRz (by
    intro p hp
    refine ⟨?_, ?_⟩
    · rw [hIRz] at hp
      obtain ⟨x, -, rfl⟩ := List.mem_map.1 hp
      have := (ho.zone _ x.1 hRdet).2
      rwa [hRreal] at this
    · obtain ⟨w1, w2⟩ := hw _ (List.mem_map.2 ⟨p, hp, rfl⟩)
      have := (pointSym_le _ hlat).2
      dsimp only at w1 w2
      exact ⟨w1, by omega⟩)
  have hmetric : ((realMat (d.scale • d.columns))ᵀ)⁻¹ = (d.scale : ℝ)⁻¹ • ((realMat d.columns)ᵀ)⁻¹ := by
    let _ := invertibleOfNonzero hsR
    rw [realMat_smul, transpose_smul, Matrix.inv_smul _ (d.scale : ℝ) (by
      rw [det_transpose]
      exact isUnit_iff_ne_zero.2 hlatR), invOf_eq_inv]
  refine ⟨(IRz.map fun p => (realVec p.1, p.2)).map fun p => ((d.scale : ℝ)⁻¹ • p.1, p.2), q, ?_, hq1, ?_, ?_⟩
  · have := hIz.scale (c := ((d.scale : ℝ))⁻¹) (inv_ne_zero hsR)
    rw [hmetric, realMat_smul, Rat.cast_inv]
    have e1 : realVec (d.scale⁻¹ • place e.sel.grid e.sel.offset) =
        (d.scale : ℝ)⁻¹ • realVec (place e.sel.grid e.sel.offset) := by
      funext i
      simp [realVec]
    rw [e1]
    exact this
  · rw [List.map_map, List.forall₂_map_left_iff]
    refine hq2.imp fun p q' hpq => ⟨hpq.1, fun i => ?_⟩
    have e1 : ((realMat (d.scale • d.columns))ᵀ *ᵥ ((d.scale : ℝ)⁻¹ • realVec p.1)) i = ((d.columnsᵀ *ᵥ p.1) i : ℚ) := by
      rw [realMat_smul, transpose_smul, smul_mulVec, mulVec_smul, smul_smul, mul_inv_cancel₀ hsR, one_smul,
        ← realMat_transpose, ← realVec_mulVec]
      rfl
    dsimp only [Function.comp_apply]
    rw [e1]
    have h := (Rat.cast_le (K := ℝ)).2 (hpq.2 i)
    push_cast at h
    exact h
  · rw [← hN2, ← hsum, List.map_map]
    have : List.Forall₂ (fun a b : ℤ => a = b) (q.map Prod.snd) (IRz.map (Prod.snd ∘ fun p => (realVec p.1, p.2))) := by
      rw [List.forall₂_map_left_iff, List.forall₂_map_right_iff]
      exact hq2.flip.imp fun a b hab => hab.1
    rw [List.forall₂_eq_eq_eq] at this
    rw [this]

/-- C99, for the lattices that are neither cubic nor triclinic: for every crystal with a reduced cell that is recognised and
every request, the program ends and writes the `KPOINTS` file of a symmetric grid with at least the requested number of
points.  (The integers are exact.) -/
theorem driver_general (hr : Rounds rnd) (hp : PoscarSays rd poscar d) (hdet : (d.scale • d.columns).det ≠ 0)
    (hrt : rt2 ≠ 0) (hf : FileSays kpgen settings)
    (hu : Usable rd rt2 d.counts.sum |(d.scale • d.columns).det| settings)
    (hk : lastOf densitySetting settings = some (k, v)) (he : Tolerance rd settings eps)
    (h : Recognised env.equal (cellOf d.columns) eps rho r) (hl : EnvRight env (cellOf d.columns) eps r)
    (hg : ∀ base types flag, GeomRight (env.lib (cellOf d.columns) base types flag eps r))
    (htot : ∀ base types flag g o, (env.lib (cellOf d.columns) base types flag eps r).irr g o ≠ none)
    (hw : env.wrap = id)
    (hasks : ∀ n, Asks rd piLit rt2 d.counts.sum |(d.scale • d.columns).det| k v n → 1 ≤ n)
    (hid : r.id ∉ [1, 3, 5, 31, 44]) (ho : OutRight out place ops eps) {A B C D E F : ℝ}
    (hN : NiggliReduced A B C D E F) (hU : (realMat d.columns)ᵀ * realMat d.columns = metric A B C D E F) :
    ∃ M file base types flag K o n n', (∀ fuel, M ≤ fuel → driver env out rd junk rt2 rnd pad fuel poscar kpgen = .ok file) ∧
      AtomsOf d base types ∧ LevelOf settings flag ∧
      Asks rd piLit rt2 d.counts.sum |(d.scale • d.columns).det| k v n ∧ n ≤ n' ∧
      SymmetricGrid (realMat (d.scale • d.columns)) (realMat (d.scale⁻¹ • K)) n' ∧
      OffsetRight rd env settings (cellOf d.columns) r.id eps o ∧
      ListsIrreducible file (realMat (d.scale • d.columns)) (realMat (d.scale⁻¹ • K)) (realVec (d.scale⁻¹ • place K o))
        (ops d.columns base types flag) n' := by
  obtain ⟨M, e, n, h1, h2, h3, h4, h5⟩ := program_stops_general (junk := junk) hp hdet hrt hf hu hk he h hl hg htot hw
    hasks hid
  obtain ⟨file, base, types, flag, g1, g2, g3, g4⟩ := driver_writes (pad := pad) hr hp hdet hrt hf hu hk he ho hN hU
    (h1 M le_rfl) h4
  refine ⟨M, file, base, types, flag, e.sel.grid, e.sel.offset, n, e.nt_kpts, fun fuel hM => ?_, g2, g3, h2, h3, h4, h5, g4⟩
  rw [driver_fuel (h1 M le_rfl) (h1 fuel hM), g1]

/-- C99, for the triclinic lattices.  The number of points, `q m³`, may be smaller than asked for (C75). -/
theorem driver_tric (hr : Rounds rnd) (hp : PoscarSays rd poscar d) (hdet : (d.scale • d.columns).det ≠ 0)
    (hrt : rt2 ≠ 0) (hf : FileSays kpgen settings)
    (hu : Usable rd rt2 d.counts.sum |(d.scale • d.columns).det| settings)
    (hk : lastOf densitySetting settings = some (k, v)) (he : Tolerance rd settings eps)
    (h : Recognised env.equal (cellOf d.columns) eps rho r) (hl : EnvRight env (cellOf d.columns) eps r)
    (hg : ∀ base types flag, GeomRight (env.lib (cellOf d.columns) base types flag eps r))
    (htot : ∀ base types flag g o, (env.lib (cellOf d.columns) base types flag eps r).irr g o ≠ none)
    (hasks : ∀ n, Asks rd piLit rt2 d.counts.sum |(d.scale • d.columns).det| k v n → 1 ≤ n)
    (hid : r.id ∈ [31, 44]) (ho : OutRight out place ops eps) {A B C D E F : ℝ}
    (hN : NiggliReduced A B C D E F) (hU : (realMat d.columns)ᵀ * realMat d.columns = metric A B C D E F) :
    ∃ M file base types flag K o n q m,
      (∀ fuel, M ≤ fuel → driver env out rd junk rt2 rnd pad fuel poscar kpgen = .ok file) ∧
      AtomsOf d base types ∧ LevelOf settings flag ∧
      Asks rd piLit rt2 d.counts.sum |(d.scale • d.columns).det| k v n ∧ 1 ≤ q ∧ 1 ≤ m ∧ n - m ^ 3 < q * m ^ 3 ∧
      SymmetricGrid (realMat (d.scale • d.columns)) (realMat (d.scale⁻¹ • K)) (q * m ^ 3) ∧
      OffsetRight rd env settings (cellOf d.columns) r.id eps o ∧
      ListsIrreducible file (realMat (d.scale • d.columns)) (realMat (d.scale⁻¹ • K)) (realVec (d.scale⁻¹ • place K o))
        (ops d.columns base types flag) (q * m ^ 3) := by
  obtain ⟨M, e, n, q, m, h1, h2, h3, h3', h3'', h4, h5⟩ := program_stops_tric (junk := junk) hp hdet hrt hf hu hk he h hl hg
    htot hasks hid
  obtain ⟨file, base, types, flag, g1, g2, g3, g4⟩ := driver_writes (pad := pad) hr hp hdet hrt hf hu hk he ho hN hU
    (h1 M le_rfl) h4
  refine ⟨M, file, base, types, flag, e.sel.grid, e.sel.offset, n, q, m, fun fuel hM => ?_, g2, g3, h2, h3, h3', h3'', h4,
    h5, g4⟩
  rw [driver_fuel (h1 M le_rfl) (h1 fuel hM), g1]

/-- C99, for the cubic lattices, up to `cubicLimit` points; beyond it no grid is found (`program_cubic_fails`). -/
theorem driver_cubic_partial (hr : Rounds rnd) (hp : PoscarSays rd poscar d) (hdet : (d.scale • d.columns).det ≠ 0)
    (hrt : rt2 ≠ 0) (hf : FileSays kpgen settings)
    (hu : Usable rd rt2 d.counts.sum |(d.scale • d.columns).det| settings)
    (hk : lastOf densitySetting settings = some (k, v)) (he : Tolerance rd settings eps)
    (h : Recognised env.equal (cellOf d.columns) eps rho r) (hl : EnvRight env (cellOf d.columns) eps r)
    (htot : ∀ base types flag g o, (env.lib (cellOf d.columns) base types flag eps r).irr g o ≠ none)
    (hw : env.wrap = id ∨ Int32 env.wrap)
    (hasks : ∀ n, Asks rd piLit rt2 d.counts.sum |(d.scale • d.columns).det| k v n →
      1 ≤ n ∧ n ≤ cubicLimit r.id ∧ 0 ≤ env.root n ∧ env.root n ^ 3 ≤ n ∧
        n < (env.root n + 2) ^ 3)
    (hid : r.id ∈ [1, 3, 5]) (ho : OutRight out place ops eps) {A B C D E F : ℝ}
    (hN : NiggliReduced A B C D E F) (hU : (realMat d.columns)ᵀ * realMat d.columns = metric A B C D E F) :
    ∃ file base types flag K o n n', driver env out rd junk rt2 rnd pad fuel poscar kpgen = .ok file ∧
      AtomsOf d base types ∧ LevelOf settings flag ∧
      Asks rd piLit rt2 d.counts.sum |(d.scale • d.columns).det| k v n ∧ n ≤ n' ∧
      SymmetricGrid (realMat (d.scale • d.columns)) (realMat (d.scale⁻¹ • K)) n' ∧
      OffsetRight rd env settings (cellOf d.columns) r.id eps o ∧
      ListsIrreducible file (realMat (d.scale • d.columns)) (realMat (d.scale⁻¹ • K)) (realVec (d.scale⁻¹ • place K o))
        (ops d.columns base types flag) n' := by
  obtain ⟨e, n, h1, h2, h3, h4, h5⟩ := program_cubic_partial (junk := junk) (fuel := fuel) hp hdet hrt hf hu hk he h hl htot hw
    hasks hid
  obtain ⟨file, base, types, flag, g1, g2, g3, g4⟩ := driver_writes (pad := pad) hr hp hdet hrt hf hu hk he ho hN hU h1 h4
  exact ⟨file, base, types, flag, e.sel.grid, e.sel.offset, n, e.nt_kpts, g1, g2, g3, h2, h3, h4, h5, g4⟩

/-! ## The hypotheses are met -/

/-- Every rational point has a translate in the first zone. -/
theorem zone_exists (R : Matrix (Fin 3) (Fin 3) ℚ) (k : Fin 3 → ℚ) : ∃ m : Fin 3 → ℤ,
    InFirstZone (realMat R) (realVec (k + R *ᵥ fun j => (m j : ℚ))) := by
  obtain ⟨D, hD, kz, Rz, h1, h2⟩ : ∃ D : ℤ, 0 < D ∧ ∃ (kz : Fin 3 → ℤ) (Rz : IntMat), (∀ i, (D : ℚ) * k i = kz i) ∧
      ∀ i j, (D : ℚ) * R i j = Rz i j := by
    refine ⟨((∏ i, (k i).den) * ∏ i, ∏ j, (R i j).den : ℕ), ?_, ?_⟩
    · exact_mod_cast Nat.mul_pos (Finset.prod_pos fun i _ => (k i).den_pos)
        (Finset.prod_pos fun i _ => Finset.prod_pos fun j _ => (R i j).den_pos)
    · have hdiv : ∀ (x : ℚ) (n : ℕ), x.den ∣ n → ∃ z : ℤ, ((n : ℤ) : ℚ) * x = z := by
        rintro x _ ⟨c, rfl⟩
        refine ⟨c * x.num, ?_⟩
        have := Rat.den_mul_eq_num x
        push_cast
        rw [mul_comm (x.den : ℚ), mul_assoc, this]
      choose kz hkz using fun i => hdiv (k i) ((∏ i, (k i).den) * ∏ i, ∏ j, (R i j).den)
        ((Finset.dvd_prod_of_mem _ (Finset.mem_univ i)).mul_right _)
      choose Rz hRz using fun i j => hdiv (R i j) ((∏ i, (k i).den) * ∏ i, ∏ j, (R i j).den)
        (Dvd.dvd.mul_left ((Finset.dvd_prod_of_mem (fun j => (R i j).den) (Finset.mem_univ j)).trans
          (Finset.dvd_prod_of_mem (fun i => ∏ j, (R i j).den) (Finset.mem_univ i))) _)
      exact ⟨kz, Rz, hkz, hRz⟩
  obtain ⟨m, -, hm⟩ := (measure fun m : Fin 3 → ℤ => (∑ i, (kz i + (Rz *ᵥ m) i) ^ 2).toNat).wf.has_min Set.univ
    ⟨0, trivial⟩
  have hm' : ∀ m' : Fin 3 → ℤ, ∑ i, (kz i + (Rz *ᵥ m) i) ^ 2 ≤ ∑ i, (kz i + (Rz *ᵥ m') i) ^ 2 := by
    intro m'
    have h3 : ¬ (∑ i, (kz i + (Rz *ᵥ m') i) ^ 2).toNat < (∑ i, (kz i + (Rz *ᵥ m) i) ^ 2).toNat := hm m' trivial
    have h4 : 0 ≤ ∑ i, (kz i + (Rz *ᵥ m') i) ^ 2 := Finset.sum_nonneg fun _ _ => sq_nonneg _
    omega
  refine ⟨m, fun m' => ?_⟩
  have h5 := hm' (m - m')
  have hDR : (0 : ℝ) < (D : ℝ) := by exact_mod_cast hD
  have e1 : ∀ i, ((kz i + (Rz *ᵥ m) i : ℤ) : ℝ) = D * realVec (k + R *ᵥ fun j => (m j : ℚ)) i := by
    intro i
    have : ((kz i + (Rz *ᵥ m) i : ℤ) : ℚ) = D * (k + R *ᵥ fun j => (m j : ℚ)) i := by
      simp only [mulVec, dotProduct, Fin.sum_univ_three, Pi.add_apply]
      push_cast
      rw [← h1, ← h2, ← h2, ← h2]
      ring
    have := congrArg ((↑) : ℚ → ℝ) this
    push_cast at this ⊢
    exact this
  have e2 : ∀ i, ((kz i + (Rz *ᵥ (m - m')) i : ℤ) : ℝ) =
      D * (realVec (k + R *ᵥ fun j => (m j : ℚ)) i - ∑ j, realMat R i j * m' j) := by
    intro i
    have e3 : ((kz i + (Rz *ᵥ (m - m')) i : ℤ) : ℚ) =
        D * ((k + R *ᵥ fun j => (m j : ℚ)) i - ∑ j, R i j * m' j) := by
      simp only [mulVec, dotProduct, Fin.sum_univ_three, Pi.add_apply, Pi.sub_apply]
      push_cast
      rw [← h1, ← h2, ← h2, ← h2]
      ring
    have := congrArg ((↑) : ℚ → ℝ) e3
    simp only [Fin.sum_univ_three] at this ⊢
    push_cast at this ⊢
    exact this
  have h6 : ((∑ i, (kz i + (Rz *ᵥ m) i) ^ 2 : ℤ) : ℝ) ≤ ((∑ i, (kz i + (Rz *ᵥ (m - m')) i) ^ 2 : ℤ) : ℝ) := by
    exact_mod_cast h5
  rw [Int.cast_sum, Int.cast_sum] at h6
  simp only [Int.cast_pow, e1, e2, mul_pow, ← Finset.mul_sum] at h6
  exact le_of_mul_le_mul_left h6 (by positivity)

/-- Points of a rational grid are rational. -/
theorem gridPoint_rat {K : Matrix (Fin 3) (Fin 3) ℚ} {o : Fin 3 → ℚ} {x : Fin 3 → ℝ}
    (h : GridPoint (realMat K) (realVec o) x) : ∃ q, realVec q = x := by
  obtain ⟨z, rfl⟩ := h
  refine ⟨o + K *ᵥ fun j => (z j : ℚ), ?_⟩
  have e : realVec (K *ᵥ fun j => (z j : ℚ)) = realMat K *ᵥ intVec z := by
    rw [realVec_mulVec]
    rfl
  rw [← e]
  funext i
  simp [realVec]

/-- Libraries as required exist, for every choice of `place` and of groups of symmetries. -/
theorem outLib_exists (place : Matrix (Fin 3) (Fin 3) ℚ → Offset → Fin 3 → ℚ)
    (ops : Matrix (Fin 3) (Fin 3) ℚ → List (Fin 3 → ℚ) → List ℕ → ℕ → Set (Matrix (Fin 3) (Fin 3) ℝ))
    (hg : ∀ lat base types flag, lat.det ≠ 0 → LatticeGroup (realMat lat) (ops lat base types flag)) (eps : ℚ) :
    ∃ out, OutRight out place ops eps := by
  have hI : ∀ (lat : Matrix (Fin 3) (Fin 3) ℚ) (base : List (Fin 3 → ℚ)) (types : List ℕ)
      (K R : Matrix (Fin 3) (Fin 3) ℚ) (o : Offset) (eps : ℚ) (flag : ℕ), ∃ l : List ((Fin 3 → ℚ) × ℤ), ∀ n, lat.det ≠ 0 →
      SymmetricGrid (realMat lat) (realMat K) n → IrreduciblePoints ((realMat lat)ᵀ)⁻¹ (realMat K) (realVec (place K o))
        (ops lat base types flag) (l.map fun p => (realVec p.1, p.2)) := by
    intro lat base types K R o _ flag
    by_cases hc : lat.det ≠ 0 ∧ ∃ n, SymmetricGrid (realMat lat) (realMat K) n
    swap
    · exact ⟨[], fun n h1 h2 => absurd ⟨h1, n, h2⟩ hc⟩
    obtain ⟨hlat, n, hs⟩ := hc
    obtain ⟨N, hN1, -⟩ := hs.reciprocal
    have hlatR : (realMat lat).det ≠ 0 := by
      rw [realMat_det]
      exact_mod_cast hlat
    have hprod : (realMat K).det * (toReal N).det ≠ 0 := by
      rw [← det_mul, ← hN1, det_nonsing_inv, Ring.inverse_eq_inv', det_transpose]
      exact inv_ne_zero hlatR
    have hNdet : N.det ≠ 0 := by
      have := right_ne_zero_of_mul hprod
      rw [toReal_det] at this
      exact_mod_cast this
    have hG := hg lat base types flag hlat
    obtain ⟨pts, hpts⟩ := irreducible_exists (off := realVec (place K o)) hG.one hG.mul hG.inv (hG.reciprocal hlatR)
      (left_ne_zero_of_mul hprod) hN1 hNdet
    have hq : ∃ l : List ((Fin 3 → ℚ) × ℤ), l.map (fun p => (realVec p.1, p.2)) = pts := by
      have hgrid := hpts.grid
      clear hpts
      induction pts with
      | nil => exact ⟨[], rfl⟩
      | cons a t ih =>
        obtain ⟨q, hq⟩ := gridPoint_rat (hgrid a (by simp))
        obtain ⟨l, hl⟩ := ih fun p hp => hgrid p (by simp [hp])
        exact ⟨(q, a.2) :: l, by rw [List.map_cons, hl, hq]⟩
    obtain ⟨l, rfl⟩ := hq
    exact ⟨l, fun _ _ _ => hpts⟩
  choose irred hirred using hI
  choose zm hzm using zone_exists
  refine ⟨⟨fun R _ => R, irred, fun R _ k => k + R *ᵥ fun j => (zm R k j : ℚ)⟩, hg, ?_, ?_, ?_⟩
  · intro R _
    exact ⟨1, by simp, by rw [castMat_one, Matrix.mul_one]⟩
  · intro lat base types flag K W o n h1 _ h3
    exact hirred lat base types K _ o eps flag n h1 h3
  · intro R k _
    refine ⟨⟨zm R k, ?_⟩, hzm R k⟩
    dsimp only
    have e : realVec (R *ᵥ fun j => (zm R k j : ℚ)) = realMat R *ᵥ intVec (zm R k) := by
      rw [realVec_mulVec]
      rfl
    rw [← e]
    funext i
    simp [realVec]

/-- All rotations and reflections that map the lattice to itself are a group. -/
theorem latticeGroup_all {U : Matrix (Fin 3) (Fin 3) ℝ} (hU : U.det ≠ 0) :
    LatticeGroup U {Q | Qᵀ * Q = 1 ∧ ∃ X : IntMat, Q * U = U * toReal X} where
  one := ⟨by simp, 1, by rw [toReal_one, Matrix.one_mul, Matrix.mul_one]⟩
  mul := by
    rintro P ⟨p1, X, p2⟩ Q ⟨q1, Y, q2⟩
    refine ⟨?_, X * Y, ?_⟩
    · rw [transpose_mul, Matrix.mul_assoc, ← Matrix.mul_assoc Pᵀ, p1, Matrix.one_mul, q1]
    · rw [Matrix.mul_assoc, q2, ← Matrix.mul_assoc, p2, toReal_mul, Matrix.mul_assoc]
  inv := by
    rintro Q ⟨q1, X, q2⟩
    refine ⟨Qᵀ, ⟨by rw [transpose_transpose]; exact mul_eq_one_comm.1 q1, X⁻¹, ?_⟩, q1⟩
    have hd : Q.det * Q.det = 1 := by
      have := congrArg Matrix.det q1
      rwa [det_mul, det_transpose, Matrix.det_one] at this
    have hX : IsUnit X.det := by
      have h1 := congrArg Matrix.det q2
      rw [det_mul, det_mul, toReal_det, mul_comm] at h1
      have h2 := mul_left_cancel₀ hU h1
      rw [h2] at hd
      exact IsUnit.of_mul_eq_one X.det (by exact_mod_cast hd)
    have h3 : toReal X * toReal X⁻¹ = 1 := by rw [← toReal_mul, mul_nonsing_inv _ hX, toReal_one]
    calc Qᵀ * U = Qᵀ * (U * toReal X) * toReal X⁻¹ := by rw [Matrix.mul_assoc, Matrix.mul_assoc, h3, Matrix.mul_one]
      _ = U * toReal X⁻¹ := by rw [← q2, ← Matrix.mul_assoc Qᵀ, q1, Matrix.one_mul]
  sym := fun _ h => h

theorem main_box : Recognised cmpEqual (cellOf (mainData (2, 0, 0) (0, 3, 0) (0, 0, 5)).columns) (8589935 / 2 ^ 33)
    (8589935 / 2 ^ 33) ⟨⟨1, 0, 0, 0, 1, 0, 0, 0, 1⟩, ⟨1, 0, 0, 0, 1, 0, 0, 0, 1⟩, 32, some 15⟩ :=
  recognised_of (A := 4) (B := 9) (C := 25) (D := 0) (E := 0) (F := 0) (by decide +kernel) (by decide +kernel)
    (by decide +kernel) (by constructor <;> norm_num [TypeI, TypeII]) (by constructor <;> decide +kernel)
    (by norm_num) (by decide)

variable {mink : Matrix (Fin 3) (Fin 3) ℚ → Matrix (Fin 3) (Fin 3) ℚ} {sqrt : ℚ → ℚ}

/-- C99 for a box with sides 2, 3, 5 (times 2): the program writes a `KPOINTS` file for a grid of at least 801 points, with
all symmetries of the lattice.  Reductions, square roots and rounding as required exist (`minkowski_exists`,
`sqrtOk_exists`, `rounds_floor`). -/
example (hm : Minkowski mink) (hs : SqrtOk sqrt) (hr : Rounds rnd) (junk : ℤ) : ∃ out M file K o n,
    (∀ fuel, M ≤ fuel → driver (packEnv mink sqrt) out wordsReader junk (7 / 5) rnd 11 fuel
      (mainPoscar "2 0 0".toList "0 3 0".toList "0 0 5".toList) mainKpgen = .ok file) ∧ 801 ≤ n ∧
    ListsIrreducible file (realMat ((2 : ℚ) • (mainData (2, 0, 0) (0, 3, 0) (0, 0, 5)).columns)) K o
      {Q | Qᵀ * Q = 1 ∧ ∃ X : IntMat, Q * realMat (mainData (2, 0, 0) (0, 3, 0) (0, 0, 5)).columns =
        realMat (mainData (2, 0, 0) (0, 3, 0) (0, 0, 5)).columns * toReal X} n := by
  obtain ⟨out, hout⟩ := outLib_exists (fun K o => K *ᵥ ![o.1, o.2.1, o.2.2])
    (fun lat _ _ _ => {Q | Qᵀ * Q = 1 ∧ ∃ X : IntMat, Q * realMat lat = realMat lat * toReal X})
    (fun lat _ _ _ h => latticeGroup_all (by rw [realMat_det]; exact_mod_cast h)) (8589935 / 2 ^ 33)
  obtain ⟨M, file, base, types, flag, K, o, n, n', h1, -, -, h2, h3, -, -, h4⟩ := driver_general (junk := junk)
    (rt2 := 7 / 5) (pad := 11) hr
    (mainPoscar_says (l1 := "2 0 0".toList) (l2 := "0 3 0".toList) (l3 := "0 0 5".toList) (by decide) (by decide)
      (by decide)) (main_det (by decide +kernel)) (by norm_num) mainKpgen_says (main_usable _ _ _) rfl main_tolerance
    (env := packEnv mink sqrt) main_box (packEnv_right hm hs main_box).1
    (packEnv_right hm hs main_box).2 (by simp [packEnv]) rfl
    (fun n hn => by rw [main_asks hn]; norm_num) (by decide) hout (A := 4) (B := 9) (C := 25) (D := 0) (E := 0) (F := 0)
    (by constructor <;> norm_num [TypeII]) (by
      ext i j
      fin_cases i <;> fin_cases j <;>
        simp [realMat, metric, Matrix.mul_apply, Fin.sum_univ_three, mainData, PoscarData.columns, Spec.vec] <;> norm_num)
  rw [main_asks h2] at h3
  exact ⟨out, M, file, _, _, n', h1, h3, h4⟩

end AutoGR.Fortran
