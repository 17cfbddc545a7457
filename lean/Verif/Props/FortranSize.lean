import Verif.Lemmas.FortranSize
import Verif.Props.FortranStops

/-!
# C100: the grid does not have many more points than asked for

The search goes on until grids are found (C95); so the number of points of the answer could be far above the number
asked for.  It is not: if the lattice is neither cubic nor triclinic the ratio of the two numbers tends to 1 as the
number asked for grows; for the cubic lattices the bound is explicit; for the triclinic lattices the ratio is bounded.
-/

namespace AutoGR.Fortran

open Spec Matrix

variable {equal : ℚ → ℚ → ℚ → Bool} {U : RMat ℚ} {eps rho : ℚ} {r : IdCell} {Off : Type}

/-- C100: there is a number `D` such that the search never goes beyond `D (m+4)³` points (or the range that it always
looks at) if at most `D m³` points are asked for.  `D` depends on the lattice only. -/
theorem findGrid_size_general (h : Recognised equal U eps rho r) (hk : r.id ∉ [1, 3, 5, 31, 44]) :
    ∃ D : ℤ, 1 ≤ D ∧ ∀ (Off : Type) (lib : Lib (Matrix (Fin 3) (Fin 3) ℚ) Off), Reduces U r lib → GeomRight lib →
      (∀ g o m, lib.irr g o = some m → 1 ≤ m) →
      ∀ (w : ℤ → ℤ) (offsets : List Off), offsets ≠ [] → (∀ g, ∀ o ∈ offsets, lib.irr g o ≠ none) →
      ∀ (min_kpts : Bool) (root : ℤ) (fuel s_range : ℕ) (kpd m : ℤ), 1 ≤ m → kpd ≤ D * m ^ 3 →
      IntsFit w (D * (m + 4) ^ 3) →
      ∀ e, findGrid lib w eps offsets min_kpts root fuel r.id s_range kpd = .ok e →
        e.nt_kpts ≤ max (D * (m + 4) ^ 3) (kpd + s_range - 1) := by
  obtain ⟨k1, k2⟩ := h.id_range
  have hk' : r.id ∉ [31, 44] := fun hm => hk (by simp at hm ⊢; omega)
  have hCo := reduced_canonC r.id k1 k2 hk'
  have heps : eps < 1 := h.eps_lt.trans (by norm_num)
  obtain ⟨H, a1, ⟨t, a2⟩, a3, a4⟩ := packed_supercell_exists h 1
  rw [h.classSym hk'] at a3
  refine ⟨H.det, a1, fun Off lib hl hg hirr w offsets hoff htot min_kpts root fuel s_range kpd m hm hkpd hfit e he => ?_⟩
  obtain ⟨gen, hgen, good⟩ := generatorOf_good w r.id k1 k2 hk hCo
  have hacc : ∀ j : ℤ, 1 ≤ j → H.det * j ^ 3 ≤ H.det * (m + 4) ^ 3 → ∃ b,
      Accepted (fun n => tryHNFs lib.equal eps lib.geom lib.irr lib.irrDefault offsets (gen n)) (H.det * j ^ 3) b := by
    intro j hj hle
    have hfit' : IntsFit w (H.det * j ^ 3) := hfit.imp id fun hf => ⟨hf.1, hle.trans hf.2⟩
    have hpos : 0 < H.det * j ^ 3 := mul_pos (by omega) (by positivity)
    have hs := symmetricHNFs_smul a3 hj
    have hne : (j • H).det ≠ 0 := by rw [hs.2.1]; exact hpos.ne'
    obtain ⟨W, hW, hgr⟩ := hl.geom (j • H) hne
    have hp := hg.packed (j • H) hne (by rw [hgr]; exact a4 j (by omega) W hW)
    have hr := hg.rmin (j • H) hne
    obtain ⟨b, hb⟩ := tryHNFs_some lib hirr eps offsets hoff htot (gen (H.det * j ^ 3)) (j • H)
      (((good.lists _ hfit').2 (j • H)).2 hs) hp (by nlinarith)
    refine ⟨b, _, ?_, hb⟩
    have e8 : H.det * j ^ 3 = 8 * (t * j ^ 3) := by rw [a2]; ring
    have ht : 0 < t := by omega
    have := good.two (t * j ^ 3) (mul_pos ht (by positivity)) (by rw [← e8]; exact hfit')
    rwa [← e8] at this
  obtain ⟨S, s1, s2⟩ := five_cubes a1 hm
  have hfg : ∃ found, generalLoop (fun n => tryHNFs lib.equal eps lib.geom lib.irr lib.irrDefault offsets (gen n))
      s_range kpd fuel kpd [] = .ok found ∧ choose min_kpts kpd found = .ok e := by
    simp only [List.mem_cons, List.not_mem_nil, or_false, not_or] at hk
    unfold findGrid at he
    rw [if_neg (by omega), if_neg (by omega), hgen] at he
    dsimp only at he
    split at he
    · cases he
    · exact ⟨_, by assumption, he⟩
  obtain ⟨found, f1, f2⟩ := hfg
  refine generalLoop_le S s1.ge (fun n hn => ?_) (by omega) fuel kpd [] found ?_ (by simp) ?_ f1 e (choose_mem f2)
  · obtain ⟨-, h2, j, hj, rfl⟩ := s2 n hn
    exact ⟨h2.trans (le_max_left _ _), hacc j hj h2⟩
  · have : 0 ≤ (s_range : ℤ) := by positivity
    omega
  · rw [Finset.filter_eq_empty_iff.2 fun n hn => by
      have := (s2 n hn).1
      omega]
    simp

/-- C100: the ratio of the number of points found and the number asked for tends to 1.  (Exact integers.) -/
theorem findGrid_ratio_general (h : Recognised equal U eps rho r) (hk : r.id ∉ [1, 3, 5, 31, 44]) (s_range : ℕ) {δ : ℚ}
    (hδ : 0 < δ) :
    ∃ n0 : ℤ, ∀ (Off : Type) (lib : Lib (Matrix (Fin 3) (Fin 3) ℚ) Off), Reduces U r lib → GeomRight lib →
      (∀ g o m, lib.irr g o = some m → 1 ≤ m) →
      ∀ offsets : List Off, offsets ≠ [] → (∀ g, ∀ o ∈ offsets, lib.irr g o ≠ none) →
      ∀ (min_kpts : Bool) (root : ℤ) (fuel : ℕ) (kpd : ℤ), n0 ≤ kpd →
      ∀ e, findGrid lib id eps offsets min_kpts root fuel r.id s_range kpd = .ok e →
        (e.nt_kpts : ℚ) ≤ (1 + δ) * kpd := by
  obtain ⟨D, hD, hsize⟩ := findGrid_size_general h hk
  obtain ⟨n0, hn0⟩ := next_cube hD s_range hδ
  refine ⟨n0, fun Off lib hl hg hirr offsets hoff htot min_kpts root fuel kpd hkpd e he => ?_⟩
  obtain ⟨m, m1, m2, m3⟩ := hn0 kpd hkpd
  have := hsize Off lib hl hg hirr id offsets hoff htot min_kpts root fuel s_range kpd m m1 m2 (.inl rfl) e he
  exact le_trans (by exact_mod_cast this) m3

/-- C100 for the triclinic lattices: the number of points of the grid is at most `D` times the number asked for. -/
theorem findGrid_size_tric (h : Recognised equal U eps rho r) (hk : r.id ∈ [31, 44]) :
    ∃ D : ℤ, 1 ≤ D ∧ ∀ (Off : Type) (lib : Lib (Matrix (Fin 3) (Fin 3) ℚ) Off), Reduces U r lib → GeomRight lib →
      (∀ g o m, lib.irr g o = some m → 1 ≤ m) →
      ∀ (w : ℤ → ℤ) (offsets : List Off), offsets ≠ [] → (∀ g, ∀ o ∈ offsets, lib.irr g o ≠ none) →
      ∀ (min_kpts : Bool) (root : ℤ) (fuel s_range : ℕ) (kpd : ℤ), 1 ≤ kpd →
      ∀ e, findGrid lib w eps offsets min_kpts root fuel r.id s_range kpd = .ok e →
        |e.sel.HNF.det| ≤ D * kpd := by
  have heps : eps < 1 := h.eps_lt.trans (by norm_num)
  have hCo : r.Co.toMat.det = 1 := (reduceCell_same_lattice equal _ (some eps) _ h.parts.2).1
  obtain ⟨H, a1, -, a3, a4⟩ := packed_supercell_exists h 100
  have hpos : 0 < H.det := isHNF_det_pos a3.1
  refine ⟨H.det, by omega, fun Off lib hl hg hirr w offsets hoff htot min_kpts root fuel s_range kpd h1 e he => ?_⟩
  obtain ⟨n0, mult, g1, g2, g100, g3, g4, -, -⟩ := get_kpd_tric_partial kpd h1
  have hmH : (mult • H).det ≠ 0 := by
    rw [det_smul]
    exact mul_ne_zero (pow_ne_zero _ (by omega)) hpos.ne'
  obtain ⟨W, hW, hgr⟩ := hl.geom _ hmH
  have hp := hg.packed _ hmH (by rw [hgr]; exact a4 mult (by omega) W hW)
  have hr := hg.rmin _ hmH
  have hH : H ∈ tric_31_44 H.det := ((tric_31_44_correct r.id hk H.det _ (.inl hCo)).2.1 H).2 ⟨a3.1, rfl⟩
  obtain ⟨b, hb⟩ := tryHNFs_some lib hirr eps offsets hoff htot ((tric_31_44 H.det).map (mult • ·)) (mult • H)
    (List.mem_map.2 ⟨H, hH, rfl⟩) hp (by nlinarith)
  have hfg : findGrid lib w eps offsets min_kpts root fuel r.id s_range kpd =
      tricLoop (fun n => tryHNFs lib.equal eps lib.geom lib.irr lib.irrDefault offsets
        ((tric_31_44 n).map (mult • ·))) mult fuel n0 := by
    unfold findGrid
    simp only [List.mem_cons, List.not_mem_nil, or_false] at hk
    rw [if_neg (by omega), if_pos (by omega), g1]
  rw [hfg] at he
  have hok : ∀ n, n0 ≤ n → ∃ r, tryHNFs lib.equal eps lib.geom lib.irr lib.irrDefault offsets
      ((tric_31_44 n).map (mult • ·)) = .ok ⟨((tric_31_44 n).map (mult • ·)).length, r⟩ ∧
        ∀ b, r = some b → Chosen lib offsets ((tric_31_44 n).map (mult • ·)) b := fun n hn =>
    tryHNFs_ok lib hirr eps offsets _ (by simpa using tric_ne_nil (by omega))
  rcases tricLoop_spec (fun n => tryHNFs lib.equal eps lib.geom lib.irr lib.irrDefault offsets
      ((tric_31_44 n).map (mult • ·))) mult fuel n0
      (fun n hn => by obtain ⟨r, h, -⟩ := hok n hn; exact ⟨_, h⟩) with h' | ⟨b', n, m, c1, c2, c3, c4⟩
  · rw [h'] at he
    cases he
  · rw [c2] at he
    cases he
    have hn : n ≤ H.det := by
      by_contra hlt
      have := c4 H.det (by omega) (by omega) _ _ hb
      rw [List.length_map] at this
      exact absurd (List.length_pos_of_mem hH) (by omega)
    obtain ⟨r', d1, d2⟩ := hok n c1
    rw [c3] at d1
    cases d1
    obtain ⟨H', hH', hHb⟩ := List.mem_map.1 (d2 b' rfl).mem
    have i := ((tric_31_44_correct r.id hk n _ (.inl hCo)).2.1 H').1 hH'
    have hdet : b'.HNF.det = n * mult ^ 3 := by
      rw [← hHb, det_smul, i.2, Fintype.card_fin, mul_comm]
    have hm3 : 0 < mult ^ 3 := by positivity
    have hle : mult ^ 3 ≤ kpd := by nlinarith
    dsimp only
    rw [hdet, abs_of_nonneg (by nlinarith)]
    exact mul_le_mul hn hle hm3.le hpos.le

/-- C100 for the cubic lattices. -/
theorem findGrid_size_cubic {G : Type} (lib : Lib G Off) (hirr : ∀ g o m, lib.irr g o = some m → 1 ≤ m)
    (w : ℤ → ℤ) (hw : w = id ∨ Int32 w) (eps : ℚ) (offsets : List Off) (min_kpts : Bool) (fuel : ℕ) (k : ℕ) (hk : k ∈ [1, 3, 5])
    (s_range : ℕ) (kpd root : ℤ) (h1 : 1 ≤ kpd) (hroot : root ^ 3 ≤ kpd ∧ kpd < (root + 2) ^ 3) (hr : 0 ≤ root) (m : ℤ)
    (hm : 0 ≤ m) (hle : kpd ≤ m ^ 3) (e : Entry G Off)
    (he : findGrid lib w eps offsets min_kpts root fuel k s_range kpd = .ok e) :
    kpd ≤ e.nt_kpts ∧ e.nt_kpts ≤ (m + if k = 1 then 13 else 8) ^ 3 := by
  have hk' : k ∉ [31, 44] := by simp at hk ⊢; omega
  obtain ⟨-, h2, h3, -⟩ := findGrid_cubic_sound lib hirr w hw eps offsets min_kpts fuel k hk (canonC k)
    (reduced_canonC k (by simp at hk; omega) (by simp at hk; omega) hk') s_range kpd root h1 hroot hr e he
  exact ⟨h2, h3 m hm hle⟩

/-- A closer bound for the cubic lattices, up to about a million points (as far as C74 goes). -/
theorem findGrid_size_cubic_partial {G : Type} (lib : Lib G Off) (hirr : ∀ g o m, lib.irr g o = some m → 1 ≤ m)
    (w : ℤ → ℤ) (hw : w = id ∨ Int32 w) (eps : ℚ) (offsets : List Off) (hoff : offsets ≠ [])
    (htot : ∀ g, ∀ o ∈ offsets, lib.irr g o ≠ none) (min_kpts : Bool) (fuel : ℕ) (k : ℕ) (hk : k ∈ [1, 3, 5])
    (s_range : ℕ) (kpd root : ℤ) (h1 : 1 ≤ kpd) (hkpd : kpd ≤ if k = 1 then 1092727 else 1098500)
    (hroot : root ^ 3 ≤ kpd ∧ kpd < (root + 2) ^ 3) (hr : 0 ≤ root) (m : ℤ) (hm : 1 ≤ m) (hle : kpd ≤ m ^ 3) :
    ∃ e, findGrid lib w eps offsets min_kpts root fuel k s_range kpd = .ok e ∧ kpd ≤ e.nt_kpts ∧
      e.nt_kpts ≤ (m + 4) ^ 3 := by
  have hk' : k ∉ [31, 44] := by simp at hk ⊢; omega
  obtain ⟨e, he, h2, -⟩ := findGrid_cubic_partial lib hirr w hw eps offsets hoff htot min_kpts fuel k hk (canonC k)
    (reduced_canonC k (by simp at hk; omega) (by simp at hk; omega) hk') s_range kpd root h1 hkpd hroot hr
  refine ⟨e, he, h2.1, ?_⟩
  have := amongFirst_le (D := 1) le_rfl hm h2 (by rwa [one_mul]) fun j hj => ⟨j • 1, ?_⟩
  · rwa [one_mul] at this
  · refine symmetricHNFs_smul ⟨?_, Matrix.det_one, fun X _ => ⟨X, by rw [Matrix.mul_one, Matrix.one_mul]⟩⟩ hj
    constructor <;> simp

/-! ## The program -/

/-- C100, from the input files: the program ends with a grid that has at least as many points as asked for, `n`, and not
many more: at most `D (m+4)³`, or fewer than `n + s`, if `n ≤ D m³`.  `D` depends on the lattice only; `s` is the number
of the range that `find_grid` always looks at. -/
theorem program_size_general {d : PoscarData} (h : Recognised equal (cellOf d.columns) eps rho r)
    (hid : r.id ∉ [1, 3, 5, 31, 44]) :
    ∃ (D : ℤ) (s : ℕ), 1 ≤ D ∧ sRange r.id = some s ∧
      ∀ (rd : Reader) (junk : ℤ) (rt2 : ℚ) (poscar kpgen : List (List Char)) (settings : List (Key × List Char))
      (env : Env (Matrix (Fin 3) (Fin 3) ℚ)) (k : Key) (v : List Char), env.equal = equal → env.wrap = id →
      PoscarSays rd poscar d → (d.scale • d.columns).det ≠ 0 → rt2 ≠ 0 → FileSays kpgen settings →
      Usable rd rt2 d.counts.sum |(d.scale • d.columns).det| settings →
      lastOf densitySetting settings = some (k, v) → Tolerance rd settings eps →
      EnvRight env (cellOf d.columns) eps r →
      (∀ base types flag, GeomRight (env.lib (cellOf d.columns) base types flag eps r)) →
      (∀ base types flag g o, (env.lib (cellOf d.columns) base types flag eps r).irr g o ≠ none) →
      (∀ n, Asks rd piLit rt2 d.counts.sum |(d.scale • d.columns).det| k v n → 1 ≤ n) →
      ∃ N e n, (∀ fuel, N ≤ fuel → program env rd junk rt2 fuel poscar kpgen = .ok e) ∧
        Asks rd piLit rt2 d.counts.sum |(d.scale • d.columns).det| k v n ∧ n ≤ e.nt_kpts ∧
        (∀ m, 1 ≤ m → n ≤ D * m ^ 3 → e.nt_kpts ≤ D * (m + 4) ^ 3 ∨ e.nt_kpts < n + s) ∧
        SymmetricGrid (realMat (d.scale • d.columns)) (realMat (d.scale⁻¹ • e.sel.grid)) e.nt_kpts := by
  obtain ⟨k1, k2⟩ := h.id_range
  obtain ⟨s', hs1, -⟩ := sRange_le r.id k1 k2 hid
  obtain ⟨D, hD, hsize⟩ := findGrid_size_general h hid
  refine ⟨D, s', hD, hs1, fun rd junk rt2 poscar kpgen settings env k v heq hw hp hdet hrt hf hu hk he hl hg htot hasks => ?_⟩
  subst heq
  obtain ⟨n, base, types, s, p1, p2, p3, p4⟩ := program_reads (junk := junk) env hp hdet hrt hf hu hk he
  obtain ⟨offsets, s_range, q1, q2, -, q4⟩ := find_grid_searches env h hl.pgSize n base types s.offset
    s.find_offset (offset_ne_none p3 p4 hu.readable) s.symm_flag s.min_kpts
  have hs3 : s_range = s' := by
    rw [h.s_range, hs1] at q1
    exact (Option.some.inj q1).symm
  subst hs3
  have hn := hasks n p2
  obtain ⟨N, e, hN⟩ := findGrid_stops_general h hid (hl.reduces base types s.symm_flag) (hg base types s.symm_flag)
    (hl.irr base types s.symm_flag) offsets q2 (fun g o _ => htot base types s.symm_flag g o) s.min_kpts
    (env.root n) s_range q1 n hn
  have hrun : ∀ fuel, N ≤ fuel → program env rd junk rt2 fuel poscar kpgen = .ok e := fun fuel hf => by
    rw [p1 fuel, q4 fuel, hw, hN fuel hf]
  obtain ⟨a2, a1⟩ := find_grid_symmetric_general h hid (hl.reduces base types s.symm_flag)
    (hl.irr base types s.symm_flag) id offsets s.min_kpts (env.root n) N s_range q1 n hn (.inl rfl) e (hN N le_rfl)
  refine ⟨N, e, n, hrun, p2, a1, fun m hm hnm => ?_, real_scaled hdet a2⟩
  have := hsize _ _ (hl.reduces base types s.symm_flag) (hg base types s.symm_flag) (hl.irr base types s.symm_flag) id
    offsets q2 (fun g o _ => htot base types s.symm_flag g o) s.min_kpts (env.root n) N s_range n m hm hnm (.inl rfl) e
    (hN N le_rfl)
  omega

/-- C100, from the input files, for the triclinic lattices. -/
theorem program_size_tric {d : PoscarData} (h : Recognised equal (cellOf d.columns) eps rho r)
    (hid : r.id ∈ [31, 44]) :
    ∃ D : ℤ, 1 ≤ D ∧
      ∀ (rd : Reader) (junk : ℤ) (rt2 : ℚ) (poscar kpgen : List (List Char)) (settings : List (Key × List Char))
      (env : Env (Matrix (Fin 3) (Fin 3) ℚ)) (k : Key) (v : List Char), env.equal = equal →
      PoscarSays rd poscar d → (d.scale • d.columns).det ≠ 0 → rt2 ≠ 0 → FileSays kpgen settings →
      Usable rd rt2 d.counts.sum |(d.scale • d.columns).det| settings →
      lastOf densitySetting settings = some (k, v) → Tolerance rd settings eps →
      EnvRight env (cellOf d.columns) eps r →
      (∀ base types flag, GeomRight (env.lib (cellOf d.columns) base types flag eps r)) →
      (∀ base types flag g o, (env.lib (cellOf d.columns) base types flag eps r).irr g o ≠ none) →
      (∀ n, Asks rd piLit rt2 d.counts.sum |(d.scale • d.columns).det| k v n → 1 ≤ n) →
      ∃ N e n q, (∀ fuel, N ≤ fuel → program env rd junk rt2 fuel poscar kpgen = .ok e) ∧
        Asks rd piLit rt2 d.counts.sum |(d.scale • d.columns).det| k v n ∧ q ≤ D * n ∧
        SymmetricGrid (realMat (d.scale • d.columns)) (realMat (d.scale⁻¹ • e.sel.grid)) q := by
  obtain ⟨D, hD, hsize⟩ := findGrid_size_tric h hid
  refine ⟨D, hD, fun rd junk rt2 poscar kpgen settings env k v heq hp hdet hrt hf hu hk he hl hg htot hasks => ?_⟩
  subst heq
  obtain ⟨n, base, types, s, p1, p2, p3, p4⟩ := program_reads (junk := junk) env hp hdet hrt hf hu hk he
  obtain ⟨offsets, s_range, q1, q2, -, q4⟩ := find_grid_searches env h hl.pgSize n base types s.offset
    s.find_offset (offset_ne_none p3 p4 hu.readable) s.symm_flag s.min_kpts
  have hn := hasks n p2
  obtain ⟨N, e, hN⟩ := findGrid_stops_tric h hid (hl.reduces base types s.symm_flag) (hg base types s.symm_flag)
    (hl.irr base types s.symm_flag) env.wrap offsets q2 (fun g o _ => htot base types s.symm_flag g o) s.min_kpts
    (env.root n) s_range n hn
  have hrun : ∀ fuel, N ≤ fuel → program env rd junk rt2 fuel poscar kpgen = .ok e := fun fuel hf => by
    rw [p1 fuel, q4 fuel, hN fuel hf]
  have hsz := hsize _ _ (hl.reduces base types s.symm_flag) (hg base types s.symm_flag) (hl.irr base types s.symm_flag)
    env.wrap offsets q2 (fun g o _ => htot base types s.symm_flag g o) s.min_kpts (env.root n) N s_range n hn e
    (hN N le_rfl)
  have hCo : r.Co.toMat.det = 1 := (reduceCell_same_lattice env.equal _ (some eps) _ h.parts.2).1
  rcases findGrid_tric _ (hl.irr base types s.symm_flag) env.wrap eps offsets s.min_kpts (env.root n) N r.id hid
    r.Co.toMat (.inl hCo) s_range n hn with hr | ⟨e', he', ⟨q, m, H, b1, b2, -, -, -, b3, -⟩, a2, a3, -⟩
  · rw [hN N le_rfl] at hr
    cases hr
  · rw [hN N le_rfl] at he'
    cases he'
    have hpos : 0 < q * m ^ 3 := mul_pos (by omega) (pow_pos (by omega) 3)
    obtain ⟨W, hW, hgr⟩ := (hl.reduces base types s.symm_flag).geom e.sel.HNF (by rw [b3]; omega)
    have := gridOf_symmetric h e.sel.HNF (by rw [b3]; omega) a2 W hW
    rw [← hgr, ← a3] at this
    exact ⟨N, e, n, _, hrun, p2, hsz, real_scaled hdet this⟩

/-! ## The hypotheses are met -/

variable {mink : Matrix (Fin 3) (Fin 3) ℚ → Matrix (Fin 3) (Fin 3) ℚ} {sqrt : ℚ → ℚ}

/-- C100 for the orthorhombic lattice of C88, with 801 points asked for. -/
example : ∃ D : ℤ, 1 ≤ D ∧ ∀ (_ : Minkowski mink) (_ : SqrtOk sqrt) (junk : ℤ), ∃ N e,
    (∀ fuel, N ≤ fuel → program (packEnv mink sqrt) wordsReader junk (7 / 5) fuel
      (mainPoscar "1 0 0".toList "0 2 0".toList "3 1 5".toList) mainKpgen = .ok e) ∧ 801 ≤ e.nt_kpts ∧
      ∀ m, 1 ≤ m → 801 ≤ D * m ^ 3 → e.nt_kpts ≤ D * (m + 4) ^ 3 ∨ e.nt_kpts < 801 + 15 := by
  obtain ⟨D, s, hD, hs, hsize⟩ := program_size_general main_ortho (by decide)
  refine ⟨D, hD, fun hm hs' junk => ?_⟩
  obtain ⟨N, e, n, h1, h2, h3, h4, -⟩ := hsize wordsReader junk (7 / 5) _ _ _ (packEnv mink sqrt) _ _ rfl rfl
    (mainPoscar_says (l1 := "1 0 0".toList) (l2 := "0 2 0".toList) (l3 := "3 1 5".toList) (by decide) (by decide)
      (by decide)) (main_det (by decide +kernel)) (by norm_num) mainKpgen_says (main_usable _ _ _) rfl main_tolerance
    (packEnv_right hm hs' main_ortho).1 (packEnv_right hm hs' main_ortho).2 (by simp [packEnv])
    (fun n hn => by rw [main_asks hn]; norm_num)
  rw [main_asks h2] at h3 h4
  have hs15 : s = 15 := Option.some.inj (hs.symm.trans (by decide))
  rw [hs15] at h4
  exact ⟨N, e, h1, h3, h4⟩

/-- The ratio for the same lattice. -/
example (hm : Minkowski mink) (hs : SqrtOk sqrt) : ∃ n0 : ℤ, ∀ kpd, n0 ≤ kpd → 1 ≤ kpd → ∃ N e,
    (∀ fuel, N ≤ fuel → findGrid ((packEnv mink sqrt).lib (cellOf (mainData (1, 0, 0) (0, 2, 0) (3, 1, 5)).columns) [] [] 0
      (8589935 / 2 ^ 33) ⟨⟨-1, 0, -3, 0, -1, 0, 0, 0, 1⟩, ⟨1, 0, 0, 0, 1, 0, 0, 0, 1⟩, 40, some 15⟩) id (8589935 / 2 ^ 33)
      [(0, 0, 0)] true 0 fuel 40 15 kpd = .ok e) ∧ (e.nt_kpts : ℚ) ≤ 101 / 100 * kpd := by
  obtain ⟨n0, hn0⟩ := findGrid_ratio_general main_ortho (by decide) 15 (δ := 1 / 100) (by norm_num)
  have hR := packEnv_right hm hs main_ortho
  refine ⟨n0, fun kpd hk h1 => ?_⟩
  obtain ⟨N, e, hN⟩ := findGrid_stops_general main_ortho (by decide) (hR.1.reduces [] [] 0) (hR.2 [] [] 0)
    (hR.1.irr [] [] 0) [(0, 0, 0)] (by simp) (by simp [packEnv]) true 0 15 rfl kpd h1
  have := hn0 _ _ (hR.1.reduces [] [] 0) (hR.2 [] [] 0) (hR.1.irr [] [] 0) [(0, 0, 0)] (by simp) (by simp [packEnv]) true 0
    N kpd hk e (hN N le_rfl)
  exact ⟨N, e, hN, by norm_num at this ⊢; exact this⟩

/-- C100 for a triclinic lattice. -/
example : ∃ D : ℤ, 1 ≤ D ∧ ∀ (_ : Minkowski mink) (_ : SqrtOk sqrt) (junk : ℤ), ∃ N e q,
    (∀ fuel, N ≤ fuel → program (packEnv mink sqrt) wordsReader junk (7 / 5) fuel
      (mainPoscar "3 0 0".toList "1 4 0".toList "1 1 5".toList) mainKpgen = .ok e) ∧ q ≤ D * 801 ∧
      SymmetricGrid (realMat ((2 : ℚ) • (mainData (3, 0, 0) (1, 4, 0) (1, 1, 5)).columns))
        (realMat ((2 : ℚ)⁻¹ • e.sel.grid)) q := by
  obtain ⟨D, hD, hsize⟩ := program_size_tric main_tric (by decide)
  refine ⟨D, hD, fun hm hs' junk => ?_⟩
  obtain ⟨N, e, n, q, h1, h2, h3, h4⟩ := hsize wordsReader junk (7 / 5) _ _ _ (packEnv mink sqrt) _ _ rfl
    (mainPoscar_says (l1 := "3 0 0".toList) (l2 := "1 4 0".toList) (l3 := "1 1 5".toList) (by decide) (by decide)
      (by decide)) (main_det (by decide +kernel)) (by norm_num) mainKpgen_says (main_usable _ _ _) rfl main_tolerance
    (packEnv_right hm hs' main_tric).1 (packEnv_right hm hs' main_tric).2 (by simp [packEnv])
    (fun n hn => by rw [main_asks hn]; norm_num)
  rw [main_asks h2] at h3
  exact ⟨N, e, q, h1, h3, h4⟩

end AutoGR.Fortran
