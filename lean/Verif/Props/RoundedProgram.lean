import Verif.Model.RoundedMain
import Verif.Props.RoundedEnds
import Verif.Props.RoundedGrid
import Verif.Props.NiggliUnique

/-!
# C121: `find_grid` in floating point, called with the Niggli cell of a crystal

No hypothesis here says that a part of the program succeeds: the cell of the crystal is recognised, the stored basis is
reduced (C120), the check of the point group is passed, and the grid found is right (C119).
-/

namespace AutoGR.Fortran

open Spec Arith Matrix

section
variable {fl : ℚ → ℚ} {equal : Rounded fl → Rounded fl → Rounded fl → Bool} {U : RMat (Rounded fl)}
  {U0 : Matrix (Fin 3) (Fin 3) ℝ} {eps : Rounded fl} {M δ c L ℓ g a : ℝ} {A B C D E F : ℝ} {k : ℕ}

/-- The crystal `U0` is given by its Niggli cell; `U` are its coordinates as typed in, wrong by at most `δ`.  The
tolerance is above the errors and below the gap of the metric, and it is not one of those for which the program stops on its
own basis of the class (C118, C120). -/
structure TypedCell (equal : Rounded fl → Rounded fl → Rounded fl → Bool) (U : RMat (Rounded fl))
    (U0 : Matrix (Fin 3) (Fin 3) ℝ) (eps : Rounded fl) (k : ℕ) (M δ c L ℓ g a A B C D E F : ℝ) : Prop where
  close : CloseTo (fun x : Rounded fl => (x.q : ℝ)) U.toMatrix U0 δ L
  tol : Tolerated M (opErr M) δ c L ℓ |U0.det| (eps.q : ℝ) g a
  metric : U0ᵀ * U0 = metric A B C D E F
  niggli : NiggliReduced A B C D E F
  cls : IsClass k A B C D E F
  short : a ≤ A
  long : C ≤ ℓ ^ 2
  gap : CellGap g A B C D E F
  volume : U0.det ≠ 0
  range : 1 ≤ M ∧ M ≤ 2 ^ 53
  eps_ge : 99 / 10000000 ≤ eps.q
  eps_le : eps.q ≤ 1 / 10
  six : k = 6 → eps.q ≤ 27 / 2500000 ∨ 123 / 10000000 ≤ eps.q
  crit : ∀ w ∈ criticalTol k, eps.q ≤ w.1 ∨ w.2 ≤ eps.q
  nonzero : equal (rdet U) (ofInt 0) (ofRat (1 / 1000000)) = false
  equal_ok : ∀ x : Rounded fl, 1 / 10 ≤ |x.q| → equal x (ofInt 0) (ofRat (1 / 1000000)) = false

/-- C121: `id_cell` returns a result for the cell, with the class of the crystal. -/
theorem idCell_returns (hfl : Binary64 fl) (h : TypedCell equal U U0 eps k M δ c L ℓ g a A B C D E F) :
    ∃ Co, idCell equal U (some eps) = .ok ⟨IMat.one, Co, k, sRange k⟩ ∧
      RecognisedIn equal U U0 eps ⟨IMat.one, Co, k, sRange k⟩ M δ c L ℓ 1 := by
  have hK := accurate_rounded hfl h.range.1 h.range.2
  obtain ⟨h1, k', h2, h3⟩ := idCell_finds hK h.close h.tol h.nonzero h.metric h.niggli h.short h.long h.gap
  obtain rfl := isClass_unique h.cls h2
  obtain ⟨Co, hCo⟩ : ∃ Co, reduceCell equal ((fBasis k).getD U) (some eps) = .ok Co := by
    cases hb : (fBasis k : Option (RMat (Rounded fl))) with
    | none => exact ⟨_, h1⟩
    | some O => exact canonical_reduced_binary64_partial hfl equal h.equal_ok k O hb eps h.eps_ge h.eps_le h.crit
  have hf := h3 Co hCo
  have e1 : IMat.one.toMat = 1 := by decide
  have hone (i j : Fin 3) : |((1 : IntMat) i j : ℝ)| ≤ 1 := by
    fin_cases i <;> fin_cases j <;> simp
  refine ⟨Co, hf, recognisedIn_close hfl (A := A) (B := B) (C := C) (D := D) (E := E) (F := F) h.range.1 h.range.2
    h.close h.tol hf (fun i j => ?_) (fun i j => ?_) ?_ h.short ?_ ?_ h.long h.gap h.volume h.eps_ge h.eps_le h.six⟩
  · dsimp only
    rw [e1]
    exact (hone i j).trans h.tol.factor
  · dsimp only
    rw [e1, inv_one]
    exact hone i j
  · dsimp only
    rw [e1, toReal_one, Matrix.mul_one]
    exact h.metric
  · exact h.niggli.ab.trans (h.niggli.bc.trans h.long)
  · exact h.niggli.bc.trans h.long

variable {G : Type} {w : ℝ} {r : IdCell}

/-- `find_grid` searches, if the library counts the point symmetries of the crystal that is meant. -/
theorem find_gridK_searches (env : EnvK (Rounded fl) G) (h : RecognisedIn env.equal U U0 eps r M δ c L ℓ w)
    (hpg : env.pgSize U eps = (PointSym U0).ncard) (kpd : ℤ)
    (base : List (Fin 3 → Rounded fl)) (types : List ℕ) (offset : Option Offset) (find_offset : Bool)
    (ho : find_offset = false → offset ≠ none) (flag : ℕ) (min_kpts : Bool) :
    ∃ offsets s_range, r.s_range = some s_range ∧ offsets ≠ [] ∧
      offsetsTriedK env U r.id eps offset find_offset = some offsets ∧
      ∀ fuel, find_gridK env fuel U kpd base types offset find_offset flag min_kpts eps =
        match findGrid (env.lib U base types flag eps r) env.wrap (env.value eps) offsets min_kpts (env.root kpd) fuel r.id
          s_range kpd with
        | .error e => .error (.grid e)
        | .ok e => .ok e := by
  have hcs : check_sym (env.pgSize U eps) r.id = some true := by
    obtain ⟨A, B, C, D, E, F, a1, a2⟩ := h.right
    rw [hpg]
    exact check_sym_right a1 a2
  have hs : ∃ s, r.s_range = some s := by
    rw [h.parts.2.2]
    obtain ⟨k1, k2⟩ := h.id_range
    generalize r.id = k at k1 k2
    interval_cases k <;> exact ⟨_, rfl⟩
  obtain ⟨s_range, hs⟩ := hs
  have hoff : ∃ offsets, offsetsTriedK env U r.id eps offset find_offset = some offsets ∧ offsets ≠ [] := by
    cases find_offset with
    | false =>
      cases offset with
      | none => exact absurd rfl (ho rfl)
      | some o => exact ⟨[o], rfl, by simp⟩
    | true =>
      have h0 := offsets_zero_first r.id (env.equal (env.norms U).1 (env.norms U).2.1 eps)
        (env.equal (env.norms U).1 (env.norms U).2.2 eps) (env.equal (env.norms U).2.1 (env.norms U).2.2 eps)
        (env.value (env.norms U).1) (env.value (env.norms U).2.1) (env.value (env.norms U).2.2)
      refine ⟨_, rfl, ?_⟩
      intro hnil
      rw [hnil] at h0
      cases h0
  obtain ⟨offsets, o1, o2⟩ := hoff
  refine ⟨offsets, s_range, hs, o2, o1, fun fuel => ?_⟩
  unfold find_gridK
  rw [h.found]
  dsimp only
  rw [hcs]
  dsimp only
  rw [o1, hs]
  rfl

variable {inverse : Matrix (Fin 3) (Fin 3) (Rounded fl) → Matrix (Fin 3) (Fin 3) (Rounded fl)} {ε : IntMat → ℝ}

/-- The library computes what it is documented to compute: the number of point symmetries of the crystal, the inverses of
the integer matrices, a reduced basis of each grid within `ε`, and at least one irreducible k-point. -/
structure EnvClose (inverse : Matrix (Fin 3) (Fin 3) (Rounded fl) → Matrix (Fin 3) (Fin 3) (Rounded fl))
    (env : EnvK (Rounded fl) (Matrix (Fin 3) (Fin 3) (Rounded fl))) (U : RMat (Rounded fl))
    (U0 : Matrix (Fin 3) (Fin 3) ℝ) (eps : Rounded fl) (base : List (Fin 3 → Rounded fl)) (types : List ℕ) (flag : ℕ)
    (M δ c ℓ : ℝ) (ε : IntMat → ℝ) : Prop where
  pgSize : env.pgSize U eps = (PointSym U0).ncard
  inv : ∀ r, idCell env.equal U (some eps) = .ok r → InverseStored inverse r
  geom : ∀ r, idCell env.equal U (some eps) = .ok r →
    LibClose (supercellK inverse (fun x => nint x.q) U r) U0 (env.lib U base types flag eps r)
      (fun H => supercellErr M δ c ℓ 1 H.det) ε
  irr : ∀ r, idCell env.equal U (some eps) = .ok r →
    ∀ g o m, (env.lib U base types flag eps r).irr g o = some m → 1 ≤ m

variable {env : EnvK (Rounded fl) (Matrix (Fin 3) (Fin 3) (Rounded fl))} {base : List (Fin 3 → Rounded fl)}
  {types : List ℕ} {flag : ℕ}

/-- What `find_grid` returns: a grid within `ε` of one that has the symmetries of the crystal and at least the number of
points asked for, with an offset that was tried. -/
def GridNear (U0 : Matrix (Fin 3) (Fin 3) ℝ) (kpd : ℤ) (ε : IntMat → ℝ) (tried : Option (List Offset))
    (e : Entry (Matrix (Fin 3) (Fin 3) (Rounded fl)) Offset) : Prop :=
  ∃ G : Matrix (Fin 3) (Fin 3) ℝ, SymmetricGrid U0 G e.nt_kpts ∧ kpd ≤ e.nt_kpts ∧
    (∀ i j, |((e.sel.grid i j).q : ℝ) - G i j| ≤ ε e.sel.HNF) ∧ ∃ offsets, tried = some offsets ∧ e.sel.offset ∈ offsets

/-- C121, for the crystals that are neither cubic nor triclinic: `find_grid` finds a right grid, or it is still searching. -/
theorem find_grid_float_general (hfl : Binary64 fl) (h : TypedCell env.equal U U0 eps k M δ c L ℓ g a A B C D E F)
    (hE : EnvClose inverse env U U0 eps base types flag M δ c ℓ ε) (hk : k ∉ [1, 3, 5, 31, 44]) (fuel : ℕ) (kpd : ℤ)
    (h1 : 1 ≤ kpd) (hfit : IntsFit env.wrap (kpd + fuel)) (offset : Option Offset) (find_offset : Bool)
    (ho : find_offset = false → offset ≠ none) (min_kpts : Bool) :
    find_gridK env fuel U kpd base types offset find_offset flag min_kpts eps = .error (.grid .running) ∨
    ∃ e, find_gridK env fuel U kpd base types offset find_offset flag min_kpts eps = .ok e ∧
      (e.nt_kpts ≤ 10 ^ 6 → GridNear U0 kpd ε (offsetsTriedK env U k eps offset find_offset) e) := by
  obtain ⟨Co, h2, h3⟩ := idCell_returns hfl h
  obtain ⟨k1, k2⟩ := h3.id_range
  obtain ⟨offsets, s, s1, -, s3, s4⟩ := find_gridK_searches env h3 hE.pgSize kpd base types offset find_offset ho flag
    min_kpts
  rw [s4 fuel]
  obtain ⟨s', q1, q2⟩ := sRange_le k k1 k2 hk
  rw [q1] at s1
  cases s1
  have hk' : k ∉ [31, 44] := fun hm => hk (by simp at hm ⊢; omega)
  rcases findGrid_general (env.lib U base types flag eps ⟨IMat.one, Co, k, sRange k⟩) (hE.irr _ h2) env.wrap
    (env.value eps) offsets min_kpts (env.root kpd) fuel k k1 k2 hk _ (reduced_canonC k k1 k2 hk') s q2 kpd h1 hfit with
    hr | ⟨e, he, -⟩
  · left
    dsimp only
    rw [hr]
  · right
    dsimp only
    rw [he]
    refine ⟨e, rfl, fun hmil => ?_⟩
    obtain ⟨G, g1, g2, g3, g4⟩ := find_grid_rounded_general hfl h3 hk (hE.inv _ h2) (hE.geom _ h2) (hE.irr _ h2)
      env.wrap (env.value eps) offsets min_kpts (env.root kpd) fuel s q1 kpd h1 hfit e he hmil
    exact ⟨G, g1, g2, g3, offsets, s3, g4⟩

/-- C121, for the cubic crystals: `find_grid` returns a right grid, if the library counts the points of every grid for one of
the offsets. -/
theorem find_grid_float_cubic (hfl : Binary64 fl) (h : TypedCell env.equal U U0 eps k M δ c L ℓ g a A B C D E F)
    (hE : EnvClose inverse env U U0 eps base types flag M δ c ℓ ε) (hk : k ∈ [1, 3, 5])
    (hw : env.wrap = id ∨ Int32 env.wrap) (fuel : ℕ) (kpd : ℤ)
    (h1 : 1 ≤ kpd) (hkpd : kpd ≤ cubicLimit k) (hroot : env.root kpd ^ 3 ≤ kpd ∧ kpd < (env.root kpd + 2) ^ 3)
    (hr : 0 ≤ env.root kpd) (offset : Option Offset) (find_offset : Bool)
    (ho : find_offset = false → offset ≠ none) (min_kpts : Bool)
    (htot : ∀ r offsets, idCell env.equal U (some eps) = .ok r →
      offsetsTriedK env U k eps offset find_offset = some offsets → ∀ H, IsHNF H →
      ∃ o ∈ offsets, (env.lib U base types flag eps r).irr ((env.lib U base types flag eps r).gridOf H) o ≠ none) :
    ∃ e, find_gridK env fuel U kpd base types offset find_offset flag min_kpts eps = .ok e ∧
      (∀ m, 0 ≤ m → kpd ≤ m ^ 3 → e.nt_kpts ≤ (m + if k = 1 then 13 else 8) ^ 3) ∧
      (e.nt_kpts ≤ 10 ^ 6 → GridNear U0 kpd ε (offsetsTriedK env U k eps offset find_offset) e) := by
  obtain ⟨Co, h2, h3⟩ := idCell_returns hfl h
  obtain ⟨k1, k2⟩ := h3.id_range
  obtain ⟨offsets, s, s1, -, s3, s4⟩ := find_gridK_searches env h3 hE.pgSize kpd base types offset find_offset ho flag
    min_kpts
  have hk' : k ∉ [31, 44] := fun hm => by simp at hm hk; omega
  obtain ⟨e, he, -, e3, -⟩ := findGrid_cubic_answers (env.lib U base types flag eps ⟨IMat.one, Co, k, sRange k⟩)
    (hE.irr _ h2) env.wrap hw (env.value eps) offsets min_kpts fuel k hk _ (reduced_canonC k k1 k2 hk')
    (fun v _ H hH => htot _ offsets h2 s3 H hH.1) s kpd (env.root kpd) h1 hkpd hroot hr
  rw [s4 fuel]
  dsimp only
  rw [he]
  refine ⟨e, rfl, e3, fun hmil => ?_⟩
  obtain ⟨G, g1, g2, g3, g4⟩ := find_grid_rounded_cubic hfl h3 hk (hE.inv _ h2) (hE.geom _ h2) (hE.irr _ h2)
    env.wrap hw (env.value eps) offsets min_kpts (env.root kpd) fuel s kpd h1 hroot hr e he hmil
  exact ⟨G, g1, g2, g3, offsets, s3, g4⟩

/-- C121, for the triclinic crystals: `find_grid` finds a right grid, or it is still searching.  `N` bounds the entries of
the HNFs for which the error in the change of basis is below one half, as in C119. -/
theorem find_grid_float_tric (hfl : Binary64 fl) (h : TypedCell env.equal U U0 eps k M δ c L ℓ g a A B C D E F)
    (hk : k ∈ [31, 44]) (hpg : env.pgSize U eps = (PointSym U0).ncard) {ι κ ω l m' : ℝ} {N : ℤ} (hc : c ≤ 2 ^ 53)
    (hOi : CloseTo (fun x : Rounded fl => (x.q : ℝ)) (inverse U.toMatrix) U0⁻¹ ι l)
    (hNi : CloseTo (fun x : Rounded fl => (x.q : ℝ)) (inverse (matmulI U IMat.one).toMatrix) U0⁻¹ κ m')
    (hCi : ∀ i j, |((inverse (intMat 1) i j).q : ℝ) - (1 : Matrix (Fin 3) (Fin 3) ℝ) i j| ≤ ω)
    (herr : changeErr (1 / 2 ^ 53) δ ι κ L l m' c N < 1 / 2) (hN : 9 * N ≤ 2 ^ 53) (hN0 : 0 ≤ N)
    (hl : ∀ r, idCell env.equal U (some eps) = .ok r →
      LibClose (supercellK inverse (fun x => nint x.q) U r) U0 (env.lib U base types flag eps r)
        (fun H => backErr (1 / 2 ^ 53) (cellErr (opErr M) δ c) ω ℓ (9 * H.det : ℤ) 1) ε)
    (hirr : ∀ r, idCell env.equal U (some eps) = .ok r →
      ∀ g o m, (env.lib U base types flag eps r).irr g o = some m → 1 ≤ m) (fuel : ℕ) (kpd : ℤ) (h1 : 1 ≤ kpd)
    (offset : Option Offset) (find_offset : Bool) (ho : find_offset = false → offset ≠ none) (min_kpts : Bool) :
    find_gridK env fuel U kpd base types offset find_offset flag min_kpts eps = .error (.grid .running) ∨
    ∃ e, find_gridK env fuel U kpd base types offset find_offset flag min_kpts eps = .ok e ∧
      (e.sel.HNF.det ≤ N → ∃ (n m : ℤ) (G : Matrix (Fin 3) (Fin 3) ℝ), SymmetricGrid U0 G (n * m ^ 3) ∧ 1 ≤ n ∧ 1 ≤ m ∧
        kpd - m ^ 3 < n * m ^ 3 ∧ (∀ i j, |((e.sel.grid i j).q : ℝ) - G i j| ≤ ε e.sel.HNF) ∧
        ∃ offsets, offsetsTriedK env U k eps offset find_offset = some offsets ∧ e.sel.offset ∈ offsets) := by
  obtain ⟨Co, h2, h3⟩ := idCell_returns hfl h
  obtain ⟨offsets, s, s1, -, s3, s4⟩ := find_gridK_searches env h3 hpg kpd base types offset find_offset ho flag min_kpts
  rw [s4 fuel]
  have e1 : IMat.one.toMat = 1 := by decide
  have hCo : Co.toMat.det = 1 ∨ Co.toMat.det = -1 := by
    have hb : (fBasis k : Option (RMat (Rounded fl))) = none := by
      simp only [List.mem_cons, List.not_mem_nil, or_false] at hk
      rcases hk with hk | hk <;> rw [hk] <;> rfl
    obtain ⟨a, b, -⟩ := h3.parts
    dsimp only at a b
    rw [hb, Option.getD_none, a] at b
    rw [← Except.ok.inj b]
    left
    decide
  rcases findGrid_tric (env.lib U base types flag eps ⟨IMat.one, Co, k, sRange k⟩) (hirr _ h2) env.wrap (env.value eps)
    offsets min_kpts (env.root kpd) fuel k hk Co.toMat hCo s kpd h1 with hr | ⟨e, he, -⟩
  · left
    dsimp only
    rw [hr]
  · right
    dsimp only
    rw [he]
    refine ⟨e, rfl, fun hmil => ?_⟩
    have hone (i j : Fin 3) : |(1 : IntMat) i j| ≤ 1 := by
      fin_cases i <;> fin_cases j <;> simp
    obtain ⟨n, m, G, g1, g2, g3, g4, g5, g6⟩ := find_grid_rounded_tric (cu := 1) (cw := 1) hfl h3 hk hc hOi
      (by dsimp only; rw [e1, toReal_one, Matrix.mul_one]; exact hNi)
      (by dsimp only; rw [e1, toReal_one, inv_one]; exact hCi) herr
      (by dsimp only; rw [e1]; exact hone) (by dsimp only; rw [e1, inv_one]; exact hone) (by omega) (by omega)
      (by simpa only [mul_one] using hl _ h2) (hirr _ h2)
      env.wrap (env.value eps) offsets min_kpts (env.root kpd) fuel s kpd h1 e he hmil
    exact ⟨n, m, G, g1, g2, g3, g4, g5, offsets, s3, g6⟩

/-- In exact arithmetic `find_gridK` is the `find_grid` of the other theorems. -/
theorem find_gridK_exact (env : Env G) (fuel : ℕ) (U : RMat ℚ) (kpd : ℤ) (base : List (Fin 3 → ℚ)) (types : List ℕ)
    (offset : Option Offset) (find_offset : Bool) (flag : ℕ) (min_kpts : Bool) (eps : ℚ) :
    find_gridK ⟨id, env.equal, env.norms, env.pgSize, env.lib, env.root, env.wrap⟩ fuel U kpd base types offset find_offset
      flag min_kpts eps = find_grid env fuel U kpd base types offset find_offset flag min_kpts eps := rfl

end

/-! ## The hypotheses are met -/

theorem cmpRounded_ok (x : Rounded roundNearest) (h : 1 / 10 ≤ |x.q|) :
    cmpRounded x (ofInt 0) (ofRat (1 / 1000000)) = false := by
  have h0 : (ofInt 0 : Rounded roundNearest).q = 0 := by decide +kernel
  have h1 : (ofRat (1 / 1000000) : Rounded roundNearest).q ≤ 1 / 100 := by decide +kernel
  unfold cmpRounded
  rw [h0, sub_zero]
  exact decide_eq_false (by linarith)

/-- The hexagonal crystal of C113, typed with seven decimals. -/
theorem hexTyped_typed : TypedCell cmpRounded hexTyped hexIdeal (ofRat (1 / 1000)) 12 10000 (5 / 10 ^ 8) 2 3 (8 / 5)
    (6 / 25) 1 1 1 (64 / 25) 0 0 (-1 / 2) := by
  have hK := accurate_rounded roundNearest_binary64 (M := 10000) (by norm_num) (by norm_num)
  have hη : (10000 / 2 ^ 53 + 1 / 10 ^ 15 : ℝ) ≤ 1 / 10 ^ 10 := by norm_num
  have he : |(((ofRat (1 / 1000) : Rounded roundNearest).q : ℚ) : ℝ) - 1 / 1000| ≤ 10000 / 2 ^ 53 + 1 / 10 ^ 15 := by
    have := hK.ofRat (1 / 1000) (by norm_num)
    push_cast at this
    exact this
  exact ⟨hexTyped_close hK hη, hexTyped_tolerated hK.nonneg hη (he.trans hη), hexIdeal_metric, hexIdeal_reduced,
    ⟨by decide, by norm_num [NiggliClass, TypeII], by norm_num [classTable, NiggliClass, TypeI, TypeII, List.takeWhile]⟩,
    le_rfl, by norm_num, hexIdeal_gap, by rw [hexIdeal_det]; positivity, by norm_num, by decide +kernel, by decide +kernel,
    by decide, by simp [criticalTol], by decide +kernel, cmpRounded_ok⟩

/-- A simple cubic crystal. -/
theorem cubicTyped_typed : TypedCell cmpRounded cubicTyped 1 ⟨1 / 1024⟩ 3 10000 0 1 1 1 (1 / 5) 1 1 1 1 0 0 0 where
  close := cubicTyped_recognised.close
  tol := by
    constructor <;> norm_num [sumErr, dotErr, cellErr, prodErr, detErr, tripleErr, opErr]
    · exact ⟨9 / 10, by norm_num, by norm_num, by norm_num⟩
    · exact ⟨11 / 10, by norm_num, by norm_num, by norm_num⟩
  metric := by
    ext i j
    fin_cases i <;> fin_cases j <;> simp [metric]
  niggli := by constructor <;> norm_num [TypeI, TypeII]
  cls := ⟨by decide, by norm_num [NiggliClass, TypeII], by
    norm_num [classTable, NiggliClass, TypeI, TypeII, List.takeWhile]⟩
  short := le_rfl
  long := by norm_num
  gap := by constructor <;> norm_num [Gap, abs_of_pos, abs_of_neg]
  volume := by simp
  range := by norm_num
  eps_ge := by norm_num
  eps_le := by norm_num
  six := by decide
  crit := by simp [criticalTol]
  nonzero := by decide +kernel
  equal_ok := cmpRounded_ok

/-- A triclinic crystal. -/
theorem tricTyped_typed : TypedCell cmpRounded tricTyped (realMat tricRat.toMatrix) ⟨1 / 1024⟩ 31 10000 0 1 3 (16 / 5)
    (1 / 5) 4 4 (13 / 2) (77 / 8) 2 (1 / 2) 1 where
  close := tricTyped_recognised.close
  tol := by
    have hd : (realMat tricRat.toMatrix).det = 15 := by
      rw [tricRat_real, det_fin_three]
      simp
      norm_num
    rw [hd]
    constructor <;> norm_num [sumErr, dotErr, cellErr, prodErr, detErr, tripleErr, opErr]
    · exact ⟨24 / 10, by norm_num, by norm_num, by norm_num⟩
    · exact ⟨25 / 10, by norm_num, by norm_num, by norm_num⟩
  metric := by
    rw [tricRat_real]
    ext i j
    fin_cases i <;> fin_cases j <;> simp [metric, mul_apply, Fin.sum_univ_three] <;> norm_num
  niggli := by constructor <;> norm_num [TypeI, TypeII, abs_of_pos]
  cls := ⟨by decide, by norm_num [NiggliClass, TypeI], by
    norm_num [classTable, NiggliClass, TypeI, TypeII, List.takeWhile]⟩
  short := le_rfl
  long := by norm_num
  gap := by constructor <;> norm_num [Gap, abs_of_pos, abs_of_neg]
  volume := tricTyped_recognised.ideal_det
  range := by norm_num
  eps_ge := by norm_num
  eps_le := by norm_num
  six := by decide
  crit := by simp [criticalTol]
  nonzero := by decide +kernel
  equal_ok := cmpRounded_ok

/-- An environment for the examples: it counts the point symmetries of `U0`, and it inverts by cofactors. -/
noncomputable def cofEnv (U0 : Matrix (Fin 3) (Fin 3) ℝ) :
    EnvK (Rounded roundNearest) (Matrix (Fin 3) (Fin 3) (Rounded roundNearest)) where
  value := fun x => x.q
  equal := cmpRounded
  norms := fun _ => (⟨1⟩, ⟨1⟩, ⟨1⟩)
  pgSize := fun _ _ => (PointSym U0).ncard
  lib := fun U _ _ _ _ r =>
    { equal := fun a b => decide (a = b)
      geom := fun H => ⟨cofInverse (supercellK cofInverse (fun x => nint x.q) U r H)ᵀ, 1, true⟩
      gridOf := fun H => cofInverse (supercellK cofInverse (fun x => nint x.q) U r H)ᵀ
      irr := fun _ _ => some 1
      irrDefault := fun _ _ => some 1 }
  root := fun _ => 4
  wrap := wrap32

/-- The hypotheses of `find_grid_float_cubic` are met: 100 points, and the program finds the offset. -/
example : ∃ ε e, find_gridK (cofEnv 1) 60 cubicTyped 100 [] [] none true 0 false ⟨1 / 1024⟩ = .ok e ∧
    (e.nt_kpts ≤ 10 ^ 6 → GridNear 1 100 ε (offsetsTriedK (cofEnv 1) cubicTyped 3 ⟨1 / 1024⟩ none true) e) := by
  have hf : idCell cmpRounded cubicTyped (some ⟨1 / 1024⟩) = .ok cubicFound := by decide +kernel
  obtain ⟨ε, hε⟩ := libClose_exists (supercellK cofInverse (fun x => nint x.q) cubicTyped cubicFound)
    cubicTyped_typed.volume ((cofEnv 1).lib cubicTyped [] [] 0 ⟨1 / 1024⟩ cubicFound)
    (fun H => supercellErr 10000 0 1 1 1 H.det)
  have found {r} (h : idCell (cofEnv 1).equal cubicTyped (some ⟨1 / 1024⟩) = .ok r) : r = cubicFound :=
    (Except.ok.inj (hf.symm.trans h)).symm
  obtain ⟨e, e1, -, e2⟩ := find_grid_float_cubic (env := cofEnv 1) (inverse := cofInverse) (ε := ε) (base := []) (types := [])
    (flag := 0) roundNearest_binary64 cubicTyped_typed
    ⟨rfl, fun r h => by rw [found h]; exact cofInverse_cubic, fun r h => by rw [found h]; exact hε,
      fun r _ g o m h => by cases h; exact le_rfl⟩
    (by decide) (.inr wrap32_int32) 60 100 (by norm_num) (by norm_num [cubicLimit]) (by norm_num [cofEnv]) (by norm_num [cofEnv])
    none true (by decide) false (fun r offsets _ ho H _ => by
      have h0 := offsets_zero_first 3 (cmpRounded ⟨1⟩ ⟨1⟩ ⟨1 / 1024⟩) (cmpRounded ⟨1⟩ ⟨1⟩ ⟨1 / 1024⟩)
        (cmpRounded ⟨1⟩ ⟨1⟩ ⟨1 / 1024⟩) 1 1 1
      cases ho
      exact ⟨(0, 0, 0), List.mem_of_mem_head? h0, by simp [cofEnv]⟩)
  exact ⟨ε, e, e1, e2⟩

/-- The hypotheses of `find_grid_float_general` are met: 100 points, and the search ends. -/
example : ∃ ε e, find_gridK (cofEnv hexIdeal) 60 hexTyped 100 [] [] (some (0, 0, 0)) false 0 false (ofRat (1 / 1000)) =
    .ok e ∧ (e.nt_kpts ≤ 10 ^ 6 → GridNear hexIdeal 100 ε (some [(0, 0, 0)]) e) := by
  have hf : idCell cmpRounded hexTyped (some (ofRat (1 / 1000))) = .ok hexFound := by decide +kernel
  obtain ⟨ε, hε⟩ := libClose_exists (supercellK cofInverse (fun x => nint x.q) hexTyped hexFound)
    hexTyped_typed.volume ((cofEnv hexIdeal).lib hexTyped [] [] 0 (ofRat (1 / 1000)) hexFound)
    (fun H => supercellErr 10000 (5 / 10 ^ 8) 2 (8 / 5) 1 H.det)
  have found {r} (h : idCell (cofEnv hexIdeal).equal hexTyped (some (ofRat (1 / 1000))) = .ok r) : r = hexFound :=
    (Except.ok.inj (hf.symm.trans h)).symm
  have hE : EnvClose cofInverse (cofEnv hexIdeal) hexTyped hexIdeal (ofRat (1 / 1000)) [] [] 0 10000 (5 / 10 ^ 8) 2 (8 / 5)
      ε := ⟨rfl, fun r h => by rw [found h]; exact cofInverse_stored, fun r h => by rw [found h]; exact hε,
      fun r _ g o m h => by cases h; exact le_rfl⟩
  rcases find_grid_float_general (env := cofEnv hexIdeal) roundNearest_binary64 hexTyped_typed hE (by decide) 60 100
    (by norm_num) (.inr ⟨wrap32_int32, by norm_num⟩) (some (0, 0, 0)) false (by decide) false with hr | ⟨e, e1, e2⟩
  · obtain ⟨offsets, s, s1, -, s3, s4⟩ := find_gridK_searches (cofEnv hexIdeal) hexTyped_recognised rfl 100 [] []
      (some (0, 0, 0)) false (by decide) 0 false
    cases s1
    cases s3
    rw [s4 60] at hr
    have hd : (match findGrid { hexLib with irr := fun _ (_ : Offset) => some 1, irrDefault := fun _ _ => some 1 } wrap32
        (ofRat (1 / 1000) : Rounded roundNearest).q [(0, 0, 0)] false 4 60 12 25 100 with
      | .ok _ => true
      | .error _ => false) = true := by decide +kernel
    cases he : findGrid { hexLib with irr := fun _ (_ : Offset) => some 1, irrDefault := fun _ _ => some 1 } wrap32
        (ofRat (1 / 1000) : Rounded roundNearest).q [(0, 0, 0)] false 4 60 12 25 100 with
    | error _ =>
      rw [he] at hd
      cases hd
    | ok e =>
      have : findGrid ((cofEnv hexIdeal).lib hexTyped [] [] 0 (ofRat (1 / 1000)) hexFound) (cofEnv hexIdeal).wrap
        ((cofEnv hexIdeal).value (ofRat (1 / 1000))) [(0, 0, 0)] false ((cofEnv hexIdeal).root 100) 60
        hexFound.id 25 100 = .ok e := he
      dsimp only at hr
      rw [this] at hr
      cases hr
  · exact ⟨ε, e, e1, e2⟩

theorem tricTyped_inverse : CloseTo (fun x : Rounded roundNearest => (x.q : ℝ)) (cofInverse tricTyped.toMatrix)
    (realMat tricRat.toMatrix)⁻¹ (1 / 10 ^ 15) 1 := by
  have hd : tricRat.toMatrix.det ≠ 0 := by
    rw [← rdet_eq]
    decide +kernel
  have key : ∀ i j : Fin 3, |(cofInverse tricTyped.toMatrix i j).q - cof tricRat.toMatrix i j / det3 tricRat.toMatrix| ≤
    1 / 10 ^ 15 := by decide +kernel
  have size : ∀ i j : Fin 3, |cof tricRat.toMatrix i j / det3 tricRat.toMatrix| ≤ 1 := by decide +kernel
  refine ⟨fun i j => ?_, fun i j => ?_⟩
  · have := (Rat.cast_le (K := ℝ)).2 (key i j)
    rw [← realMat_inv hd]
    rw [← inv_cof] at this
    push_cast at this
    exact this
  · have := (Rat.cast_le (K := ℝ)).2 (size i j)
    rw [← realMat_inv hd]
    rw [← inv_cof] at this
    push_cast at this
    exact this

/-- The hypotheses of `find_grid_float_tric` are met, for HNFs with entries up to a million. -/
example : ∃ ε : IntMat → ℝ, find_gridK (cofEnv (realMat tricRat.toMatrix)) 60 tricTyped 3 [] [] none true 0 false ⟨1 / 1024⟩ =
      .error (.grid .running) ∨
    ∃ e, find_gridK (cofEnv (realMat tricRat.toMatrix)) 60 tricTyped 3 [] [] none true 0 false ⟨1 / 1024⟩ = .ok e ∧
      (e.sel.HNF.det ≤ 10 ^ 6 → ∃ (n m : ℤ) (G : Matrix (Fin 3) (Fin 3) ℝ),
        SymmetricGrid (realMat tricRat.toMatrix) G (n * m ^ 3) ∧ 1 ≤ n ∧ 1 ≤ m ∧ 3 - m ^ 3 < n * m ^ 3 ∧
        (∀ i j, |((e.sel.grid i j).q : ℝ) - G i j| ≤ ε e.sel.HNF) ∧
        ∃ offsets, offsetsTriedK (cofEnv (realMat tricRat.toMatrix)) tricTyped 31 ⟨1 / 1024⟩ none true = some offsets ∧
          e.sel.offset ∈ offsets) := by
  have hf : idCell cmpRounded tricTyped (some ⟨1 / 1024⟩) = .ok tricFound := by decide +kernel
  obtain ⟨ε, hε⟩ := libClose_exists (supercellK cofInverse (fun x => nint x.q) tricTyped tricFound)
    tricTyped_typed.volume ((cofEnv (realMat tricRat.toMatrix)).lib tricTyped [] [] 0 ⟨1 / 1024⟩ tricFound)
    (fun H => backErr (1 / 2 ^ 53) (cellErr (opErr 10000) 0 1) 0 (16 / 5) (9 * H.det : ℤ) 1)
  refine ⟨ε, find_grid_float_tric (env := cofEnv (realMat tricRat.toMatrix)) (inverse := cofInverse) (ω := 0)
    (N := 10 ^ 6) roundNearest_binary64
    tricTyped_typed (by decide) rfl (by norm_num) tricTyped_inverse (κ := 1 / 10 ^ 15) (m' := 1) ?_ ?_
    (by norm_num [changeErr]) (by norm_num)
    (by norm_num) (fun r h => ?_) (fun r _ g o m h => by cases h; exact le_rfl) 60 3 (by norm_num) none true (by decide)
    false⟩
  · have e : ∀ i j, (cofInverse (matmulI tricTyped IMat.one).toMatrix i j).q = (cofInverse tricTyped.toMatrix i j).q := by
      decide +kernel
    exact ⟨fun i j => by rw [e]; exact tricTyped_inverse.err i j, tricTyped_inverse.size⟩
  · intro i j
    have key : ∀ i j : Fin 3, (cofInverse (intMat 1) i j).q = (if i = j then 1 else 0) := by decide +kernel
    rw [key, Matrix.one_apply]
    split_ifs <;> norm_num
  · rw [(Except.ok.inj (hf.symm.trans h)).symm]
    exact hε

end AutoGR.Fortran
