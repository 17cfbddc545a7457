import Verif.Props.RoundedSupercells
import Verif.Props.AllGrids

/-!
# C125: no symmetric grid is missed in floating point

The supercells that the Fortran program makes for `n` points, with the identification of the lattice, both reductions and
the change of basis in binary64, are all the symmetric supercells with `n` points of the crystal that is meant, each once,
up to rounding.
-/

namespace AutoGR.Fortran

open Spec Matrix Arith

variable {fl : ℚ → ℚ} {equal : Rounded fl → Rounded fl → Rounded fl → Bool} {U : RMat (Rounded fl)}
  {U0 : Matrix (Fin 3) (Fin 3) ℝ} {eps : Rounded fl} {r : IdCell} {M δ c L ℓ w : ℝ}
  {inverse : Matrix (Fin 3) (Fin 3) (Rounded fl) → Matrix (Fin 3) (Fin 3) (Rounded fl)}

/-- One change of basis `P H Q` turns a complete list of the symmetric Hermite normal forms, for a lattice with a stored
basis, into a list of the symmetric supercells, and these are the ones that are computed, up to rounding. -/
theorem supercells_change (hfl : Binary64 fl) (h : RecognisedIn equal U U0 eps r M δ c L ℓ w) (hk : r.id ∉ [31, 44])
    (hi : InverseStored inverse r) :
    ∃ P Q : IntMat, ∀ n : ℤ, 1 ≤ n → n ≤ 10 ^ 6 → ∀ Hs : List IntMat,
      (Hs.Nodup ∧ ∀ H : IntMat, H ∈ Hs ↔ H ∈ SymmetricHNFs (ClassSym r.id (canonC r.id).toMat) n) →
      ListsSublattices (PointSym U0) n (Hs.map fun H => P * H * Q) ∧
        ∀ H ∈ Hs, ∀ i j, |((supercellK inverse (fun x => nint x.q) U r H i j).q : ℝ) - (U0 * toReal (P * H * Q)) i j| ≤
          supercellErr M δ c ℓ w n := by
  obtain ⟨k1, k2⟩ := h.id_range
  obtain ⟨O, hO⟩ := fBasis_some (K := ℚ) k1 k2 hk
  obtain ⟨O', hO'⟩ := fBasis_some (K := Rounded fl) k1 k2 hk
  have hg := h.stored hfl hk
  obtain ⟨-, Do, d1, d2, d3⟩ := storedGood_small k1 k2 hg
  have hu : r.Cu.toMat * r.Cu.toMat⁻¹ = 1 := mul_nonsing_inv _ h.unit
  have hu' := mul_eq_one_comm.1 hu
  have cI : CloseTo (fun x : Rounded fl => (x.q : ℝ)) (inverse (intMat r.Cu.toMat)) (toReal r.Cu.toMat)⁻¹
      (1 / 10 ^ 12) w := ⟨hi.factor, fun i j => by rw [toReal_inv h.unit]; exact h.factor_inv i j⟩
  have hQP : (r.Co.toMat * r.Cu.toMat⁻¹) * (r.Cu.toMat * Do) = 1 := by
    calc (r.Co.toMat * r.Cu.toMat⁻¹) * (r.Cu.toMat * Do)
        = r.Co.toMat * (r.Cu.toMat⁻¹ * r.Cu.toMat) * Do := by simp only [Matrix.mul_assoc]
      _ = 1 := by rw [hu', Matrix.mul_one, d1]
  have hPQ := mul_eq_one_comm.1 hQP
  have hC : (r.Co.toMat * r.Cu.toMat⁻¹) * r.Cu.toMat = r.Co.toMat := by
    rw [Matrix.mul_assoc, hu', Matrix.mul_one]
  refine ⟨r.Cu.toMat * Do, r.Co.toMat * r.Cu.toMat⁻¹, fun n h1 h2 Hs hH => ?_⟩
  have hl := hH
  rw [← storedGood_sym hg] at hl
  have hS := lists_change hQP hPQ hC h1 hl
  rw [← h.pointSym] at hS
  refine ⟨hS, fun H hm i j => ?_⟩
  obtain ⟨a, b, -⟩ := (hH.2 H).1 hm
  have ent (i j : Fin 3) : |H i j| ≤ n := by
    have := hnf_entries a i j
    rwa [b] at this
  have hE := supercell_stored hfl hO hO' d1 (hi.basis O O' hO hO') (hi.reduced O O' hO hO') d2 d3 fun i j =>
    (ent i j).trans h2
  obtain ⟨T, t1, -, t3⟩ := transform_of_exact (relative_rounded hfl) d1 hu hE (h.cell hfl) cI (f := 144 * n)
    (by
      have : ((144 * n : ℤ) : ℝ) ≤ ((2 ^ 53 : ℤ) : ℝ) := by
        rw [Int.cast_le]
        omega
      push_cast at this
      norm_num at this ⊢
      exact this)
    (fun i j => by
      have := product_size d3 ent d2 i j
      have e : (9 : ℤ) * 4 * n * 4 = 144 * n := by ring
      rw [e] at this
      exact_mod_cast this)
  have := t3 i j
  unfold supercellK supercellErr
  rw [hO', Option.getD_some]
  rw [t1] at this
  simpa only [Matrix.mul_assoc] using this

/-- The supercells of a complete list of the symmetric Hermite normal forms, for a lattice with a stored basis. -/
theorem supercells_stored (hfl : Binary64 fl) (h : RecognisedIn equal U U0 eps r M δ c L ℓ w) (hk : r.id ∉ [31, 44])
    (hi : InverseStored inverse r) {n : ℤ} (h1 : 1 ≤ n) (h2 : n ≤ 10 ^ 6) {Hs : List IntMat}
    (hH : Hs.Nodup ∧ ∀ H : IntMat, H ∈ Hs ↔ H ∈ SymmetricHNFs (ClassSym r.id (canonC r.id).toMat) n) :
    ∃ Ts, ListsSublattices (PointSym U0) n Ts ∧
      SupercellsOf U0 (fun _ => supercellErr M δ c ℓ w n) (Hs.map (supercellK inverse (fun x => nint x.q) U r)) Ts := by
  obtain ⟨P, Q, hPQ⟩ := supercells_change hfl h hk hi
  obtain ⟨a, b⟩ := hPQ n h1 h2 Hs hH
  exact ⟨_, a, supercellsOf_map Hs _ _ b⟩

/-- **C125, for the lattices that are neither cubic nor triclinic.**  The supercells that `find_grid` makes in floating
point for the number `n` of points are, up to rounding, all the supercells of the crystal that is meant with `n` points that
are kept by its point symmetries, each once; their grids are all its symmetric grids. -/
theorem grids_rounded_general (hfl : Binary64 fl) (h : RecognisedIn equal U U0 eps r M δ c L ℓ w)
    (hk : r.id ∉ [1, 3, 5, 31, 44]) (hi : InverseStored inverse r) (wr : ℤ → ℤ) {n : ℤ} (h1 : 1 ≤ n) (h2 : n ≤ 10 ^ 6)
    (hf : IntsFit wr n) :
    ∃ gen Ts, generatorOf wr r.id = some gen ∧ ListsSublattices (PointSym U0) n Ts ∧
      ListsGrids U0 n (Ts.map fun T => ((U0 * toReal T)ᵀ)⁻¹) ∧
      SupercellsOf U0 (fun _ => supercellErr M δ c ℓ w n) ((gen n).map (supercellK inverse (fun x => nint x.q) U r)) Ts := by
  obtain ⟨k1, k2⟩ := h.id_range
  have hk' : r.id ∉ [31, 44] := fun hm => hk (by simp at hm ⊢; omega)
  obtain ⟨gen, hgen, good⟩ := generatorOf_good wr r.id k1 k2 hk (reduced_canonC r.id k1 k2 hk')
  obtain ⟨Ts, t1, t2⟩ := supercells_stored hfl h hk' hi h1 h2 (good.lists n hf)
  exact ⟨gen, Ts, hgen, t1, listsGrids h.ideal_det h1 t1, t2⟩

/-- **C125, for the cubic lattices.** -/
theorem grids_rounded_cubic (hfl : Binary64 fl) (h : RecognisedIn equal U U0 eps r M δ c L ℓ w)
    (hk : r.id ∈ [1, 3, 5]) (hi : InverseStored inverse r) (wr : ℤ → ℤ) {n : ℤ} (h1 : 1 ≤ n) (h2 : n ≤ 10 ^ 6)
    (hf : IntsFit wr n) :
    ∃ Ts, ListsSublattices (PointSym U0) n Ts ∧ ListsGrids U0 n (Ts.map fun T => ((U0 * toReal T)ᵀ)⁻¹) ∧
      SupercellsOf U0 (fun _ => supercellErr M δ c ℓ w n)
        (((if r.id = 3 then sc_3 else if r.id = 5 then bcc_5 wr else fcc_1) n).map
          (supercellK inverse (fun x => nint x.q) U r)) Ts := by
  obtain ⟨k1, k2⟩ := h.id_range
  have hk' : r.id ∉ [31, 44] := fun hm => by simp at hm hk; omega
  have hred := reduced_canonC r.id k1 k2 hk'
  have hl : ((if r.id = 3 then sc_3 else if r.id = 5 then bcc_5 wr else fcc_1) n).Nodup ∧ ∀ H : IntMat,
      H ∈ (if r.id = 3 then sc_3 else if r.id = 5 then bcc_5 wr else fcc_1) n ↔
        H ∈ SymmetricHNFs (ClassSym r.id (canonC r.id).toMat) n := by
    simp only [List.mem_cons, List.not_mem_nil, or_false] at hk
    rcases hk with e | e | e <;> rw [e] at hred ⊢
    · exact fcc_1_correct n _ hred
    · exact sc_3_correct n _ hred
    · exact bcc_5_correct n hf _ hred
  obtain ⟨Ts, t1, t2⟩ := supercells_stored hfl h hk' hi h1 h2 hl
  exact ⟨Ts, t1, listsGrids h.ideal_det h1 t1, t2⟩

/-- **C125, for the triclinic lattices**: all sublattices with `n` points, if the bound on the error in the change of basis
is below one half. -/
theorem grids_rounded_tric (hfl : Binary64 fl) (h : RecognisedIn equal U U0 eps r M δ c L ℓ w) (hk : r.id ∈ [31, 44])
    {ι κ ω l m : ℝ} {n : ℤ} (h1 : 1 ≤ n) (hn : n ≤ 2 ^ 53) (hc : c ≤ 2 ^ 53)
    (hOi : CloseTo (fun x : Rounded fl => (x.q : ℝ)) (inverse U.toMatrix) U0⁻¹ ι l)
    (hNi : CloseTo (fun x : Rounded fl => (x.q : ℝ)) (inverse (matmulI U r.Cu).toMatrix)
      (U0 * toReal r.Cu.toMat)⁻¹ κ m)
    (hCi : ∀ i j, |((inverse (intMat r.Cu.toMat) i j).q : ℝ) - (toReal r.Cu.toMat)⁻¹ i j| ≤ ω)
    (herr : changeErr (1 / 2 ^ 53) δ ι κ L l m c n < 1 / 2) {cu cw : ℤ} (hcu : ∀ i j, |r.Cu.toMat i j| ≤ cu)
    (hcw : ∀ i j, |r.Cu.toMat⁻¹ i j| ≤ cw) (hf : 9 * cw * n * cu ≤ 2 ^ 53) :
    ∃ Ts, ListsSublattices (PointSym U0) n Ts ∧ ListsGrids U0 n (Ts.map fun T => ((U0 * toReal T)ᵀ)⁻¹) ∧
      SupercellsOf U0 (fun _ => backErr (1 / 2 ^ 53) (cellErr (opErr M) δ c) ω ℓ (9 * cw * n * cu : ℤ) w)
        ((tric_31_44 n).map (supercellK inverse (fun x => nint x.q) U r)) Ts := by
  have hb : (fBasis r.id : Option (RMat (Rounded fl))) = none := by
    simp only [List.mem_cons, List.not_mem_nil, or_false] at hk
    rcases hk with hk | hk <;> rw [hk] <;> rfl
  have hco : r.Co = r.Cu := by
    obtain ⟨a, b, -⟩ := h.parts
    rw [hb, Option.getD_none, a] at b
    exact (Except.ok.inj b).symm
  have hu : r.Cu.toMat * r.Cu.toMat⁻¹ = 1 := mul_nonsing_inv _ h.unit
  have cI : CloseTo (fun x : Rounded fl => (x.q : ℝ)) (inverse (intMat r.Cu.toMat)) (toReal r.Cu.toMat)⁻¹
      ω w := ⟨hCi, fun i j => by rw [toReal_inv h.unit]; exact h.factor_inv i j⟩
  obtain ⟨t1, -, t2⟩ := AutoGR.tric_31_44_correct r.id hk n r.Cu.toMat (Int.isUnit_iff.1 h.unit)
  have hl : Lists r.id r.Cu n (tric_31_44 n) := by
    rw [tric_31_44_eq]
    exact ⟨t1, t2⟩
  have hS := lists_change (k := r.id) (P := 1) (Q := 1) (Cu := r.Cu) (by simp) (by simp) (by simp) h1 hl
  rw [← h.pointSym] at hS
  refine ⟨_, hS, listsGrids h.ideal_det h1 hS, supercellsOf_map _ _ _ fun H hm i j => ?_⟩
  obtain ⟨a, b, -⟩ := (hl.2 H).1 hm
  have ent (i j : Fin 3) : |H i j| ≤ n := by
    have := hnf_entries a i j
    rwa [b] at this
  obtain ⟨T, e1, -, e3⟩ := transform_close (relative_rounded hfl) (nint := fun x => nint x.q) (fun x => by
      have := (Rat.cast_le (K := ℝ)).2 (nint_spec x.q)
      push_cast at this
      exact this) hu hu h.ideal_det h.close hOi hNi (N := n) (by exact_mod_cast hn)
      (fun i j => by exact_mod_cast ent i j) hc h.factor herr (h.cell hfl) cI
      (f := ((9 * cw * n * cu : ℤ) : ℝ)) (by exact_mod_cast hf)
      (fun i j => by exact_mod_cast product_size hcw ent hcu i j)
  have eT : T = 1 * H * 1 := by
    rw [e1, Matrix.one_mul, Matrix.mul_one]
    calc r.Cu.toMat * (r.Cu.toMat⁻¹ * H * r.Cu.toMat) * r.Cu.toMat⁻¹
        = (r.Cu.toMat * r.Cu.toMat⁻¹) * H * (r.Cu.toMat * r.Cu.toMat⁻¹) := by simp only [Matrix.mul_assoc]
      _ = H := by rw [hu, Matrix.one_mul, Matrix.mul_one]
  have := e3 i j
  unfold supercellK
  rw [hb, Option.getD_none, hco]
  rw [eT] at this
  exact this

/-! ## The hypotheses are met -/

/-- The typed hexagonal cell and 100 points. -/
example : ∃ gen Ts, generatorOf wrap32 12 = some gen ∧ ListsSublattices (PointSym hexIdeal) 100 Ts ∧
    ListsGrids hexIdeal 100 (Ts.map fun T => ((hexIdeal * toReal T)ᵀ)⁻¹) ∧
    SupercellsOf hexIdeal (fun _ => supercellErr 10000 (5 / 10 ^ 8) 2 (8 / 5) 1 (100 : ℤ))
      ((gen 100).map (supercellK cofInverse (fun x => nint x.q) hexTyped hexFound)) Ts :=
  grids_rounded_general roundNearest_binary64 hexTyped_recognised (by decide) cofInverse_stored wrap32 (by norm_num)
    (by norm_num) (.inr ⟨wrap32_int32, by norm_num⟩)

/-- A cube and 64 points. -/
example : ∃ Ts, ListsSublattices (PointSym 1) 64 Ts ∧ ListsGrids 1 64 (Ts.map fun T => (((1 : Matrix _ _ ℝ) * toReal T)ᵀ)⁻¹) ∧
    SupercellsOf 1 (fun _ => supercellErr 10000 0 1 1 1 (64 : ℤ))
      ((sc_3 64).map (supercellK cofInverse (fun x => nint x.q) cubicTyped cubicFound)) Ts := by
  have h := grids_rounded_cubic roundNearest_binary64 cubicTyped_recognised (by decide) cofInverse_cubic wrap32
    (n := 64) (by norm_num) (by norm_num) (.inr ⟨wrap32_int32, by norm_num⟩)
  rw [if_pos (show cubicFound.id = 3 from rfl)] at h
  exact h

/-- A triclinic cell and a million points. -/
example : ∃ Ts, ListsSublattices (PointSym (realMat tricRat.toMatrix)) (10 ^ 6) Ts ∧
    ListsGrids (realMat tricRat.toMatrix) (10 ^ 6) (Ts.map fun T => ((realMat tricRat.toMatrix * toReal T)ᵀ)⁻¹) ∧
    SupercellsOf (realMat tricRat.toMatrix)
      (fun _ => backErr (1 / 2 ^ 53) (cellErr (opErr 10000) 0 1) 0 3 (9 * 1 * 10 ^ 6 * 1 : ℤ) 1)
      ((tric_31_44 (10 ^ 6)).map (supercellK cofInverse (fun x => nint x.q) tricTyped tricFound)) Ts := by
  have hd : tricRat.toMatrix.det ≠ 0 := by
    rw [← rdet_eq]
    decide +kernel
  have size : ∀ i j : Fin 3, |(realMat tricRat.toMatrix)⁻¹ i j| ≤ 1 := by
    intro i j
    have key : ∀ i j : Fin 3, |cof tricRat.toMatrix i j / det3 tricRat.toMatrix| ≤ 1 := by decide +kernel
    rw [← realMat_inv hd]
    have := (Rat.cast_le (K := ℝ)).2 (key i j)
    rw [← inv_cof] at this
    push_cast at this
    exact this
  have inv1 : CloseTo (fun x : Rounded roundNearest => (x.q : ℝ)) (cofInverse tricTyped.toMatrix)
      (realMat tricRat.toMatrix)⁻¹ (1 / 10 ^ 15) 1 := by
    refine ⟨fun i j => ?_, size⟩
    have key : ∀ i j : Fin 3, |(cofInverse tricTyped.toMatrix i j).q - cof tricRat.toMatrix i j / det3 tricRat.toMatrix| ≤
      1 / 10 ^ 15 := by decide +kernel
    rw [← realMat_inv hd]
    have := (Rat.cast_le (K := ℝ)).2 (key i j)
    rw [← inv_cof] at this
    push_cast at this
    exact this
  have inv2 : CloseTo (fun x : Rounded roundNearest => (x.q : ℝ)) (cofInverse (matmulI tricTyped tricFound.Cu).toMatrix)
      (realMat tricRat.toMatrix * toReal tricFound.Cu.toMat)⁻¹ (1 / 10 ^ 15) 1 := by
    rw [tric_one, Matrix.mul_one]
    have e : ∀ i j, (cofInverse (matmulI tricTyped tricFound.Cu).toMatrix i j).q = (cofInverse tricTyped.toMatrix i j).q := by
      decide +kernel
    exact ⟨fun i j => by rw [e]; exact inv1.err i j, size⟩
  have one (i j : Fin 3) : |(1 : IntMat) i j| ≤ 1 := by
    by_cases h : i = j <;> simp [Matrix.one_apply, h]
  exact grids_rounded_tric roundNearest_binary64 tricTyped_recognised (by decide) (ω := 0) (by norm_num) (by norm_num)
    (by norm_num) inv1 inv2 (fun i j => by
      have key : ∀ i j : Fin 3, (cofInverse (intMat tricFound.Cu.toMat) i j).q = (if i = j then 1 else 0) := by
        decide +kernel
      rw [key, tric_one, inv_one, Matrix.one_apply]
      split_ifs <;> norm_num) (by norm_num [changeErr]) (cu := 1) (cw := 1)
    (fun i j => by rw [show tricFound.Cu.toMat = 1 by decide]; exact one i j)
    (fun i j => by rw [show tricFound.Cu.toMat = 1 by decide, inv_one]; exact one i j) (by norm_num)

end AutoGR.Fortran
