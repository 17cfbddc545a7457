import Verif.Props.NiggliUnique
import Verif.Lemmas.SameGrid

/-!
# C106: the supercells that `find_supercells` offers do not depend on the cell chosen to describe the crystal
-/

namespace AutoGR

open Spec Matrix

/-- What `find_supercells` needs to find the class of the lattice: `niggli_id` and `reduced_cell` answer, the reduced cell
is a Niggli cell, and no two quantities of the table of classes are nearly equal without being equal. -/
structure Identified (U : RMat ℚ) (k : ℕ) (Cu : IMat) : Prop where
  id : niggliId U none = .ok k
  cell : reducedCell U none = .ok Cu
  red : NiggliReduced (gram U Cu 0 0 : ℚ) (gram U Cu 1 1 : ℚ) (gram U Cu 2 2 : ℚ) (gram U Cu 1 2 : ℚ)
    (gram U Cu 0 2 : ℚ) (gram U Cu 0 1 : ℚ)
  sep : ClassSeparated (1 / 100000) (1 / 100000) (gram U Cu 0 0) (gram U Cu 1 1) (gram U Cu 2 2)
    (gram U Cu 1 2) (gram U Cu 0 2) (gram U Cu 0 1)

section General

variable {s : ℝ} {R U U' : Matrix (Fin 3) (Fin 3) ℝ}

/-- The supercells `C T C⁻¹` of `U` and `C' T C'⁻¹` of `U'` are the same, if `C` and `C'` lead to cells of the same shape
and the supercell has the symmetries of the crystal. -/
theorem same_super_of (hs : SameCrystal s R U U') {C Ci C' Ci' T : IntMat} (hC : C * Ci = 1) (hC' : C' * Ci' = 1)
    (hU : U.det ≠ 0) (hg : (U' * toReal C')ᵀ * (U' * toReal C') = s ^ 2 • ((U * toReal C)ᵀ * (U * toReal C)))
    (hT : T.det ≠ 0) (hkeep : ∀ X ∈ PointSym U, Keeps X (C * T * Ci)) :
    SameGrid s R (U * toReal (C * T * Ci)) (U' * toReal (C' * T * Ci')) := by
  obtain ⟨hs0, hR, W, hW, rfl⟩ := hs
  have hCi := mul_eq_one_comm.1 hC
  have hCi' := mul_eq_one_comm.1 hC'
  obtain ⟨Z, hZ⟩ : ∃ Z : IntMat, Z = W * C' * Ci := ⟨_, rfl⟩
  have hWZ : W * C' = Z * C := by rw [hZ, Matrix.mul_assoc _ Ci, hCi, Matrix.mul_one]
  have hu : ∀ {A B : IntMat}, A * B = 1 → IsUnit A.det := fun {A B} h =>
    IsUnit.of_mul_eq_one B.det (by rw [← det_mul, h, Matrix.det_one])
  have hZu : IsUnit Z.det := by
    rw [hZ, det_mul, det_mul]
    exact (hW.mul (hu hC')).mul (hu hCi)
  have hZp : Z ∈ PointSym U := by
    rw [pointSym_iff hU]
    have e1 : s • (R * U * toReal W) * toReal C' = s • (R * (U * toReal Z * toReal C)) := by
      rw [Matrix.smul_mul, Matrix.mul_assoc, ← toReal_mul, hWZ, toReal_mul]
      simp only [Matrix.mul_assoc]
    have e2 : (U * toReal Z * toReal C)ᵀ * (U * toReal Z * toReal C) = (U * toReal C)ᵀ * (U * toReal C) := by
      rw [e1, transpose_smul, Matrix.smul_mul, Matrix.mul_smul, smul_smul, ← sq, transpose_mul R, Matrix.mul_assoc,
        ← Matrix.mul_assoc Rᵀ, hR, Matrix.one_mul] at hg
      exact smul_right_injective _ (pow_pos hs0 2).ne' hg
    have e3 := congrArg (fun M => (toReal Ci)ᵀ * M * toReal Ci) e2
    have hr : toReal C * toReal Ci = 1 := by rw [← toReal_mul, hC, toReal_one]
    have fold : ∀ V : Matrix (Fin 3) (Fin 3) ℝ,
        (toReal Ci)ᵀ * ((V * toReal C)ᵀ * (V * toReal C)) * toReal Ci = Vᵀ * V := by
      intro V
      calc (toReal Ci)ᵀ * ((V * toReal C)ᵀ * (V * toReal C)) * toReal Ci
          = (toReal C * toReal Ci)ᵀ * Vᵀ * (V * (toReal C * toReal Ci)) := by
            rw [transpose_mul V, transpose_mul (toReal C)]; simp only [Matrix.mul_assoc]
        _ = _ := by rw [hr, transpose_one, Matrix.one_mul, Matrix.mul_one]
    rw [fold, fold, transpose_mul] at e3
    refine Eq.trans ?_ e3
    simp only [Matrix.mul_assoc]
  obtain ⟨Y, hY⟩ := hkeep Z hZp
  have hMd : (C * T * Ci).det ≠ 0 := by
    rw [det_mul, det_mul]
    exact mul_ne_zero (mul_ne_zero (hu hC).ne_zero hT) (hu hCi).ne_zero
  have hYu : IsUnit Y.det := by
    have := congrArg Matrix.det hY
    rw [det_mul Z, det_mul _ Y, mul_comm] at this
    rwa [← mul_left_cancel₀ hMd this]
  refine ⟨Y * (C * Ci'), ?_, ?_⟩
  · rw [det_mul, det_mul]
    exact hYu.mul ((hu hC).mul (hu hCi'))
  · rw [Matrix.smul_mul]
    congr 1
    have e : W * (C' * T * Ci') = C * T * Ci * (Y * (C * Ci')) := by
      calc W * (C' * T * Ci') = (W * C') * T * Ci' := by simp only [Matrix.mul_assoc]
        _ = Z * (C * T * (Ci * C) * Ci') := by rw [hWZ, hCi]; simp only [Matrix.mul_assoc, Matrix.one_mul]
        _ = (Z * (C * T * Ci)) * (C * Ci') := by simp only [Matrix.mul_assoc]
        _ = _ := by rw [hY]; simp only [Matrix.mul_assoc]
    rw [Matrix.mul_assoc, ← toReal_mul, e, toReal_mul]
    simp only [Matrix.mul_assoc]

/-- Two lists of all sublattices of one index, for two bases of the lattice: the members correspond to each other. -/
theorem lists_perm {S S' : Set IntMat} {n : ℤ} (hn : 0 ≤ n) {Ms Ms' : List IntMat} (h : ListsSublattices S n Ms)
    (h' : ListsSublattices S' n Ms') {V W : IntMat} (hVW : V * W = 1)
    (hS : ∀ X ∈ S, V * X * W ∈ S') (hS' : ∀ X ∈ S', W * X * V ∈ S) :
    ∃ Ns, Ns.Perm Ms' ∧ List.Forall₂ (fun M N => SameSpan (V * M) N) Ms Ns := by
  classical
  have hWV := mul_eq_one_comm.1 hVW
  have hV : ∀ M : IntMat, V * (W * M) = M := fun M => by rw [← Matrix.mul_assoc, hVW, Matrix.one_mul]
  have hW : ∀ M : IntMat, W * (V * M) = M := fun M => by rw [← Matrix.mul_assoc, hWV, Matrix.one_mul]
  have habs : |V.det| = 1 ∧ |W.det| = 1 := by
    have := congrArg Matrix.det hVW
    rw [det_mul, Matrix.det_one] at this
    exact ⟨Int.isUnit_iff_abs_eq.1 (IsUnit.of_mul_eq_one _ this),
      Int.isUnit_iff_abs_eq.1 (IsUnit.of_mul_eq_one V.det (by rw [mul_comm]; exact this))⟩
  have move : ∀ {A B M : IntMat} {X : IntMat}, A * B = 1 → Keeps (B * X * A) M → Keeps X (A * M) := by
    rintro A B M X hAB ⟨Y, hY⟩
    refine ⟨Y, ?_⟩
    calc X * (A * M) = A * (B * X * A * M) := by
          simp only [← Matrix.mul_assoc, hAB, Matrix.one_mul]
      _ = _ := by rw [hY, Matrix.mul_assoc]
  have key : ∀ M ∈ Ms, ∃ N ∈ Ms', SameSpan (V * M) N := by
    intro M hM
    obtain ⟨m1, m2⟩ := h.sound M hM
    refine h'.complete _ ?_ fun X hX => move hVW (m2 _ (hS' X hX))
    rw [det_mul, abs_mul, habs.1, one_mul, m1, abs_of_nonneg hn]
  choose! f hf using key
  have nodup' : Ms'.Nodup := h'.once.imp fun {A B} hne e => hne (by rw [e]; exact SameSpan.refl _)
  have hsymm : Std.Symm (fun M N : IntMat => ¬ SameSpan M N) := ⟨fun _ _ h1 h2 => h1 h2.symm⟩
  have same' : ∀ {A B : IntMat}, A ∈ Ms' → B ∈ Ms' → SameSpan A B → A = B := by
    intro A B hA hB hAB
    by_contra hne
    exact h'.once.forall hA hB hne hAB
  have cancel : ∀ {A B M N : IntMat}, A * B = 1 → SameSpan (A * M) N → SameSpan M (B * N) := by
    rintro A B M _ hAB ⟨Y, hY, rfl⟩
    refine ⟨Y, hY, ?_⟩
    rw [← Matrix.mul_assoc, ← Matrix.mul_assoc, mul_eq_one_comm.1 hAB, Matrix.one_mul]
  refine ⟨Ms.map f, ?_, List.forall₂_map_right_iff.2 (List.forall₂_same.2 fun M hM => (hf M hM).2)⟩
  refine (List.perm_ext_iff_of_nodup ?_ nodup').2 fun N => ⟨fun hN => ?_, fun hN => ?_⟩
  · refine List.pairwise_map.2 (List.Pairwise.imp_of_mem (fun {A B} hA hB hne e => hne ?_) h.once)
    have a := cancel hVW (hf A hA).2
    have b := cancel hVW (hf B hB).2
    rw [e] at a
    exact a.trans b.symm
  · obtain ⟨M, hM, rfl⟩ := List.mem_map.1 hN
    exact (hf M hM).1
  · obtain ⟨n1, n2⟩ := h'.sound N hN
    obtain ⟨M, hM, hs⟩ := h.complete (W * N) (by rw [det_mul, abs_mul, habs.2, one_mul, n1, abs_of_nonneg hn])
      fun X hX => move hWV (n2 _ (hS X hX))
    refine List.mem_map.2 ⟨M, hM, ?_⟩
    exact (same' hN (hf M hM).1 ((cancel hWV hs).trans (hf M hM).2)).symm

theorem pointSym_same (hs : SameCrystal s R U U') : ∃ V W : IntMat, V * W = 1 ∧ U' = s • (R * U * toReal W) ∧
    (∀ X ∈ PointSym U, V * X * W ∈ PointSym U') ∧ ∀ X ∈ PointSym U', W * X * V ∈ PointSym U := by
  obtain ⟨hs0, hR, W, hW, rfl⟩ := hs
  have hVW : W⁻¹ * W = 1 := nonsing_inv_mul _ hW
  have hWV : W * W⁻¹ = 1 := mul_nonsing_inv _ hW
  have hR' := mul_eq_one_comm.1 hR
  refine ⟨W⁻¹, W, hVW, rfl, ?_, ?_⟩
  · rintro X ⟨Q, hQ, hX⟩
    refine ⟨R * Q * Rᵀ, ?_, ?_⟩
    · calc (R * Q * Rᵀ)ᵀ * (R * Q * Rᵀ) = R * (Qᵀ * (Rᵀ * R) * Q) * Rᵀ := by
            rw [transpose_mul (R * Q), transpose_mul R, transpose_transpose]; simp only [Matrix.mul_assoc]
        _ = 1 := by rw [hR, Matrix.mul_one, hQ, Matrix.mul_one, hR']
    · rw [Matrix.mul_smul, Matrix.smul_mul]
      congr 1
      calc R * Q * Rᵀ * (R * U * toReal W) = R * (Q * (Rᵀ * R) * U) * toReal W := by simp only [Matrix.mul_assoc]
        _ = R * U * toReal (W * W⁻¹) * toReal (X * W) := by
            rw [hR, Matrix.mul_one, hX, hWV, toReal_one, Matrix.mul_one, toReal_mul]; simp only [Matrix.mul_assoc]
        _ = _ := by simp only [toReal_mul, Matrix.mul_assoc]
  · rintro X ⟨Q, hQ, hX⟩
    refine ⟨Rᵀ * Q * R, ?_, ?_⟩
    · calc (Rᵀ * Q * R)ᵀ * (Rᵀ * Q * R) = Rᵀ * (Qᵀ * (R * Rᵀ) * Q) * R := by
            rw [transpose_mul (Rᵀ * Q), transpose_mul Rᵀ, transpose_transpose]; simp only [Matrix.mul_assoc]
        _ = 1 := by rw [hR', Matrix.mul_one, hQ, Matrix.mul_one, hR]
    · rw [Matrix.mul_smul, Matrix.smul_mul] at hX
      have hX' := smul_right_injective _ hs0.ne' hX
      calc Rᵀ * Q * R * U = Rᵀ * (Q * (R * U * toReal W)) * toReal W⁻¹ := by
            rw [Matrix.mul_assoc Rᵀ (Q * _), Matrix.mul_assoc Q, Matrix.mul_assoc (R * U), ← toReal_mul, hWV, toReal_one,
              Matrix.mul_one]
            simp only [Matrix.mul_assoc]
        _ = Rᵀ * R * U * toReal W * toReal X * toReal W⁻¹ := by rw [hX']; simp only [Matrix.mul_assoc]
        _ = _ := by rw [hR, Matrix.one_mul]; simp only [toReal_mul, Matrix.mul_assoc]

end General

variable {R : Matrix (Fin 3) (Fin 3) ℝ} {U U' : RMat ℚ} {k k' : ℕ} {Cu Cu' : IMat} {q : ℚ}

theorem Identified.real_det (h : Identified U k Cu) : (realCell U).det ≠ 0 := by
  have hu := reducedCell_unit h.cell
  have e := RingHom.map_det (Rat.castHom ℝ) U.toMatrix
  have e' : (realCell U).det = ((U.toMatrix.det : ℚ) : ℝ) := by
    simpa [realCell, RingHom.mapMatrix_apply] using e.symm
  rw [e']
  exact_mod_cast hu.ne_zero

theorem Identified.isClass (h : Identified U k Cu) : IsClass k (gram U Cu 0 0 : ℚ) (gram U Cu 1 1 : ℚ) (gram U Cu 2 2 : ℚ)
    (gram U Cu 1 2 : ℚ) (gram U Cu 0 2 : ℚ) (gram U Cu 0 1 : ℚ) :=
  ((niggliId_exact_partial U none Cu h.cell (by simp) h.sep
    (sepTol_type h.sep.d_zero h.sep.e_zero h.sep.f_zero h.red.type) k).1 h.id).1

theorem Identified.pointSym (h : Identified U k Cu) : PointSym (realCell U) = ClassSym k Cu.toMat :=
  niggliId_pointSym U k Cu h.id h.cell h.red h.sep

theorem identified_same (hs : SameCrystal q R (realCell U) (realCell U')) (h : Identified U k Cu)
    (h' : Identified U' k' Cu') : k' = k ∧ gram U' Cu' = q ^ 2 • gram U Cu :=
  ⟨class_unique hs ⟨by rw [det_reducedCell h.cell]; exact isUnit_one, realCell_metric U Cu, h.red⟩
    ⟨by rw [det_reducedCell h'.cell]; exact isUnit_one, realCell_metric U' Cu', h'.red⟩ h.isClass h'.isClass,
   gram_unique hs (det_reducedCell h.cell) (det_reducedCell h'.cell) h.red h'.red⟩

/-- The members of two lists of sublattices, multiplied by `m`, correspond to each other. -/
theorem lists_same (hs : SameCrystal q R (realCell U) (realCell U')) {n m : ℤ} (hn : 0 ≤ n) {Ms Ms' : List IntMat}
    (h : ListsSublattices (PointSym (realCell U)) n Ms) (h' : ListsSublattices (PointSym (realCell U')) n Ms') :
    ∃ Cs : List (Matrix (Fin 3) (Fin 3) ℚ), Cs.Perm (Ms'.map fun M => U'.toMatrix * castMat (m • M)) ∧
      List.Forall₂ (fun B C => SameGrid q R (Fortran.realMat B) (Fortran.realMat C))
        (Ms.map fun M => U.toMatrix * castMat (m • M)) Cs := by
  obtain ⟨V, W, hVW, hU, h1, h2⟩ := pointSym_same hs
  obtain ⟨Ns, hp, hN⟩ := lists_perm hn h h' hVW h1 h2
  refine ⟨_, hp.map _, ?_⟩
  rw [List.forall₂_map_left_iff, List.forall₂_map_right_iff]
  refine hN.imp ?_
  rintro M _ ⟨Y, hY, rfl⟩
  refine ⟨Y, hY, ?_⟩
  rw [Fortran.realMat_mul, Fortran.realMat_mul, Fortran.realMat_castMat, Fortran.realMat_castMat]
  change realCell U' * _ = _ • (R * (realCell U * _) * _)
  rw [hU, Matrix.smul_mul]
  congr 1
  have e : W * (m • (V * M * Y)) = m • M * Y := by
    rw [Matrix.mul_smul, ← Matrix.mul_assoc, ← Matrix.mul_assoc, mul_eq_one_comm.1 hVW, Matrix.one_mul, Matrix.smul_mul]
  rw [Matrix.mul_assoc, ← toReal_mul, e, toReal_mul]
  simp only [Matrix.mul_assoc]

/-- C106, exact mode: for two cells of the same crystal, `find_supercells` returns the same supercells, as lattices in
space, perhaps in another order; the units of length and the orientation of the two cells may differ. -/
theorem findSupercells_same_exact (hs : SameCrystal q R (realCell U) (realCell U')) (h : Identified U k Cu)
    (h' : Identified U' k' Cu') (fl : ℚ → ℚ) (root root' : ℤ) (n : ℤ) (hn : 1 ≤ n) (hfl : Rounding fl n (10 ^ 7)) :
    ∃ Bs Bs' Cs : List (Matrix (Fin 3) (Fin 3) ℚ), findSupercells fl root U n true = .ok Bs ∧
      findSupercells fl root' U' n true = .ok Bs' ∧ Cs.Perm Bs' ∧
      List.Forall₂ (fun B C => SameGrid q R (Fortran.realMat B) (Fortran.realMat C)) Bs Cs := by
  obtain ⟨Ms, a, b⟩ := findSupercells_pointSym fl root U k Cu h.id h.cell n hn hfl h.red h.sep
  obtain ⟨Ms', a', b'⟩ := findSupercells_pointSym fl root' U' k' Cu' h'.id h'.cell n hn hfl h'.red h'.sep
  obtain ⟨Cs, c, d⟩ := lists_same hs (m := 1) (by omega) b b'
  simp only [one_smul] at c d
  exact ⟨_, _, Cs, a, a', c, d⟩

/-- The forms selected in search mode keep the symmetries of the class. -/
theorem select_keeps (fl : ℚ → ℚ) (root : ℤ) (hk : 1 ≤ k ∧ k ≤ 44) (ht : k ∉ [31, 44]) (kpd : ℤ) (h1 : 1 ≤ kpd)
    (hroot : root ^ 3 ≤ kpd ∧ kpd < (root + 2) ^ 3) (hfl : Rounding fl (16 * (kpd + 1000)) (10 ^ 7)) (Co : IMat)
    (hCo : reducedCanonical ℚ k = .ok Co) :
    ∃ L, selectHNFs fl root k kpd false = .ok L ∧
      ∀ H ∈ L, H.det ≠ 0 ∧ ∀ X ∈ ClassSym k Co.toMat, Keeps X H := by
  have keep : ∀ {n : ℤ} {L : List IntMat}, 1 ≤ n → Lists k Co n L →
      ∀ H ∈ L, H.det ≠ 0 ∧ ∀ X ∈ ClassSym k Co.toMat, Keeps X H := by
    intro n L hn hL H hH
    obtain ⟨-, hd, hX⟩ := (hL.2 H).1 hH
    exact ⟨by omega, hX⟩
  by_cases hc : k ∈ [1, 3, 5]
  · obtain ⟨x, y, z, G, hsel, a, b, c, d, -⟩ := select_cubic fl k hc kpd root h1 hroot hfl Co hCo
    refine ⟨_, hsel, fun H hH => ?_⟩
    obtain ⟨n, hn, hH⟩ := List.mem_flatMap.1 hH
    refine keep ?_ (d n hn).1 H hH
    simp only [List.mem_cons, List.not_mem_nil, or_false] at hn
    omega
  · have hk' : k ∉ [1, 3, 5, 31, 44] := by
      simp only [List.mem_cons, List.not_mem_nil, or_false] at hc ht ⊢
      tauto
    obtain ⟨gen, hgood, hsel⟩ := select_search fl root k hk hk' kpd Co hCo
    refine ⟨_, hsel, fun H hH => ?_⟩
    obtain ⟨n, hn, hH⟩ := List.mem_flatMap.1 hH
    have hn' := List.mem_of_mem_filter (List.mem_of_mem_take hn)
    simp only [List.mem_cons, List.not_mem_nil, or_false] at hn'
    exact keep (by omega) (hgood.lists n (hfl.imp id fun h => ⟨h.1, by omega⟩)) H hH

/-- C106, search mode: the same, and unless the lattice is triclinic the supercells are returned in the same order. -/
theorem findSupercells_same_search (hs : SameCrystal q R (realCell U) (realCell U')) (h : Identified U k Cu)
    (h' : Identified U' k' Cu') (fl : ℚ → ℚ) (root : ℤ) (kpd : ℤ) (h1 : 1 ≤ kpd)
    (hroot : root ^ 3 ≤ kpd ∧ kpd < (root + 2) ^ 3) (hfl : Rounding fl (16 * (kpd + 1000)) (10 ^ 7)) :
    ∃ Bs Bs' Cs : List (Matrix (Fin 3) (Fin 3) ℚ), findSupercells fl root U kpd false = .ok Bs ∧
      findSupercells fl root U' kpd false = .ok Bs' ∧ Cs.Perm Bs' ∧ (k ∉ [31, 44] → Cs = Bs') ∧
      List.Forall₂ (fun B C => SameGrid q R (Fortran.realMat B) (Fortran.realMat C)) Bs Cs := by
  obtain ⟨rfl, hg⟩ := identified_same hs h h'
  obtain ⟨Co, P, Q, hcb, g1, g2, g3, g4⟩ := findSupercells_eq U _ Cu h.id h.cell
  obtain ⟨Co', P', Q', hcb', g1', g2', g3', g4'⟩ := findSupercells_eq U' _ Cu' h'.id h'.cell
  by_cases ht : k' ∈ [31, 44]
  · obtain ⟨n, m, hsel, a, -⟩ := select_tric fl root _ ht kpd h1 (hfl.imp id fun h => ⟨h.1, by omega⟩)
    have lists : ∀ {Co Cu : IMat} {P Q : IntMat}, ClassBasis k' Co → Q * P = 1 → P * Q = 1 → Q * Cu.toMat = Co.toMat →
        ListsSublattices (ClassSym k' Cu.toMat) n ((tric_31_44 n).map fun H => P * H * Q) := by
      intro Co Cu P Q hcb g1 g2 g3
      obtain ⟨t1, -, t2⟩ := tric_31_44_correct k' ht n Co.toMat (.inl (hcb.tric ht))
      exact lists_change g1 g2 g3 a ⟨t1, t2⟩
    have l := lists hcb g1 g2 g3
    have l' := lists hcb' g1' g2' g3'
    rw [← h.pointSym] at l
    rw [← h'.pointSym] at l'
    obtain ⟨Cs, c, d⟩ := lists_same hs (m := m) (by omega) l l'
    have e : ∀ (V : RMat ℚ) (P Q : IntMat), ((tric_31_44 n).map fun H => m • H).map (fun H => V.toMatrix * castMat (P * H * Q)) =
        ((tric_31_44 n).map fun H => P * H * Q).map fun M => V.toMatrix * castMat (m • M) := by
      intro V P Q
      rw [List.map_map, List.map_map]
      refine List.map_congr_left fun H _ => ?_
      simp only [Function.comp_apply, Matrix.mul_smul, Matrix.smul_mul]
    refine ⟨_, _, Cs, g4 fl root kpd false _ hsel, g4' fl root kpd false _ hsel, ?_, fun hk => absurd ht hk, ?_⟩
    · rw [e]; exact c
    · rw [e]; exact d
  · have hCo := hcb.canon ht
    have hCo' := hcb'.canon ht
    obtain rfl : Co' = Co := by rw [hCo] at hCo'; exact (Except.ok.inj hCo').symm
    obtain ⟨L, hsel, hL⟩ := select_keeps fl root (niggliId_range h.id) ht kpd h1 hroot hfl Co' hCo
    refine ⟨_, _, _, g4 fl root kpd false _ hsel, g4' fl root kpd false _ hsel, List.Perm.refl _, fun _ => rfl, ?_⟩
    rw [List.forall₂_map_left_iff, List.forall₂_map_right_iff, List.forall₂_same]
    intro H hH
    obtain ⟨hd, hX⟩ := hL H hH
    rw [Fortran.realMat_mul, Fortran.realMat_mul, Fortran.realMat_castMat, Fortran.realMat_castMat]
    refine same_super_of hs g2 g2' h.real_det ?_ hd ?_
    · obtain ⟨Du, u1, u2⟩ := reducedCell_inv h.cell
      have hD : Co'.toMat * (Du * P) = 1 := by
        rw [← g3, Matrix.mul_assoc, ← Matrix.mul_assoc Cu.toMat, u1, Matrix.one_mul, g1]
      have hP : P = Cu.toMat * (Du * P) := by rw [← Matrix.mul_assoc, u1, Matrix.one_mul]
      have hP' : P' = Cu'.toMat * (Du * P) := by
        calc P' = P' * (Co'.toMat * (Du * P)) := by rw [hD, Matrix.mul_one]
          _ = P' * Q' * Cu'.toMat * (Du * P) := by rw [← g3']; simp only [Matrix.mul_assoc]
          _ = _ := by rw [g2', Matrix.one_mul]
      have e : ∀ (V : RMat ℚ) (C : IMat) (D : IntMat), (realCell V * toReal (C.toMat * D))ᵀ * (realCell V * toReal (C.toMat * D)) =
          (toReal D)ᵀ * Fortran.realMat (gram V C) * toReal D := by
        intro V C D
        have e0 : Fortran.realMat (gram V C) = (realCell V * toReal C.toMat)ᵀ * (realCell V * toReal C.toMat) := by
          rw [gram, Fortran.realMat_mul, Fortran.realMat_transpose, cellMat, Fortran.realMat_mul, Fortran.realMat_castMat]
          rfl
        rw [e0, toReal_mul, ← Matrix.mul_assoc (realCell V), transpose_mul _ (toReal D)]
        simp only [Matrix.mul_assoc]
      have hq : Fortran.realMat (q ^ 2 • gram U Cu) = (q : ℝ) ^ 2 • Fortran.realMat (gram U Cu) := by
        ext i j
        simp [Fortran.realMat]
      change (realCell U' * toReal P')ᵀ * (realCell U' * toReal P') = (q : ℝ) ^ 2 • ((realCell U * toReal P)ᵀ * (realCell U * toReal P))
      obtain ⟨D, hDd⟩ : ∃ D, D = Du * P := ⟨_, rfl⟩
      rw [← hDd] at hP hP'
      rw [hP, hP', e, e, hg, hq, Matrix.mul_smul, Matrix.smul_mul]
    · intro X hXp
      rw [h.pointSym] at hXp
      exact keeps_change g1 g2 (hX _ (classSym_change g1 g2 g3 hXp))

/-! ## The hypotheses are met -/

theorem identified_of {U : RMat ℚ} {k : ℕ} {Cu : IMat} {A B C D E F : ℚ} (h1 : niggliId U none = .ok k)
    (h2 : reducedCell U none = .ok Cu) (hm : cellMetric U Cu = (A, B, C, D, E, F))
    (red : NiggliReduced (A : ℝ) (B : ℝ) (C : ℝ) (D : ℝ) (E : ℝ) (F : ℝ))
    (sep : ClassSeparated (1 / 100000) (1 / 100000) A B C D E F) : Identified U k Cu := by
  rw [cellMetric_metric] at hm
  simp only [Prod.mk.injEq] at hm
  obtain ⟨rfl, rfl, rfl, rfl, rfl, rfl⟩ := hm
  exact ⟨h1, h2, red, sep⟩

theorem ortho_identified : Identified ⟨1, 0, 3, 0, 2, 1, 0, 0, 5⟩ 40 ⟨-1, 0, -3, 0, -1, 0, 0, 0, 1⟩ :=
  identified_of (A := 1) (B := 4) (C := 26) (D := -2) (E := 0) (F := 0) (by decide +kernel) (by decide +kernel)
    (by decide +kernel) (by constructor <;> norm_num [TypeI, TypeII]) (by constructor <;> decide +kernel)

theorem mirror_identified : Identified ⟨2, 0, 6, -4, -4, -2, 0, 0, 10⟩ 40 ⟨1, 0, 3, -1, -1, -2, 0, 0, -1⟩ :=
  identified_of (A := 4) (B := 16) (C := 104) (D := -8) (E := 0) (F := 0) (by decide +kernel) (by decide +kernel)
    (by decide +kernel) (by constructor <;> norm_num [TypeI, TypeII]) (by constructor <;> decide +kernel)

/-- Exact mode: the crystal of class 40, and the same twice as large, mirrored, and in another cell. -/
example : ∃ Bs Bs' Cs : List (Matrix (Fin 3) (Fin 3) ℚ),
    findSupercells roundNearest 2 ⟨1, 0, 3, 0, 2, 1, 0, 0, 5⟩ 6 true = .ok Bs ∧
      findSupercells roundNearest 2 ⟨2, 0, 6, -4, -4, -2, 0, 0, 10⟩ 6 true = .ok Bs' ∧ Cs.Perm Bs' ∧
      List.Forall₂ (fun B C => SameGrid (2 : ℚ) !![1, 0, 0; 0, -1, 0; 0, 0, 1] (Fortran.realMat B) (Fortran.realMat C)) Bs Cs :=
  findSupercells_same_exact Fortran.sameCrystal_mirror ortho_identified mirror_identified roundNearest 2 2 6 (by norm_num)
    (.inr ⟨roundNearest_binary64, by norm_num⟩)

/-- Search mode, the same crystal. -/
example : ∃ Bs Bs' : List (Matrix (Fin 3) (Fin 3) ℚ),
    findSupercells roundNearest 2 ⟨1, 0, 3, 0, 2, 1, 0, 0, 5⟩ 12 false = .ok Bs ∧
      findSupercells roundNearest 2 ⟨2, 0, 6, -4, -4, -2, 0, 0, 10⟩ 12 false = .ok Bs' ∧
      List.Forall₂ (fun B C => SameGrid (2 : ℚ) !![1, 0, 0; 0, -1, 0; 0, 0, 1] (Fortran.realMat B) (Fortran.realMat C)) Bs Bs' := by
  obtain ⟨Bs, Bs', Cs, h1, h2, -, h3, h4⟩ := findSupercells_same_search Fortran.sameCrystal_mirror ortho_identified
    mirror_identified roundNearest 2 12 (by norm_num) (by norm_num) (.inr ⟨roundNearest_binary64, by norm_num⟩)
  obtain rfl := h3 (by decide)
  exact ⟨Bs, Cs, h1, h2, h4⟩

theorem tric_identified : Identified ⟨3, -1, -1, 0, 4, -1, 0, 0, 5⟩ 44 ⟨1, 0, 0, 0, 1, 0, 0, 0, 1⟩ :=
  identified_of (A := 9) (B := 17) (C := 27) (D := -3) (E := -3) (F := -3) (by decide +kernel) (by decide +kernel)
    (by decide +kernel) (by constructor <;> norm_num [TypeI, TypeII]) (by constructor <;> decide +kernel)

theorem tric_identified' : Identified ⟨3, 2, -1, 0, 4, -1, 0, 0, 5⟩ 44 ⟨1, -1, 0, 0, 1, 0, 0, 0, 1⟩ :=
  identified_of (A := 9) (B := 17) (C := 27) (D := -3) (E := -3) (F := -3) (by decide +kernel) (by decide +kernel)
    (by decide +kernel) (by constructor <;> norm_num [TypeI, TypeII]) (by constructor <;> decide +kernel)

theorem tric_sameCrystal : SameCrystal ((1 : ℚ) : ℝ) 1 (realCell ⟨3, -1, -1, 0, 4, -1, 0, 0, 5⟩)
    (realCell ⟨3, 2, -1, 0, 4, -1, 0, 0, 5⟩) := by
  refine ⟨by norm_num, by simp, !![1, 1, 0; 0, 1, 0; 0, 0, 1], by decide, ?_⟩
  ext i j
  fin_cases i <;> fin_cases j <;>
    simp [realCell, RMat.toMatrix, toReal, Matrix.mul_apply, Fin.sum_univ_three] <;> norm_num

/-- Search mode, a triclinic crystal in two cells. -/
example : ∃ Bs Bs' Cs : List (Matrix (Fin 3) (Fin 3) ℚ),
    findSupercells roundNearest 2 ⟨3, -1, -1, 0, 4, -1, 0, 0, 5⟩ 12 false = .ok Bs ∧
      findSupercells roundNearest 2 ⟨3, 2, -1, 0, 4, -1, 0, 0, 5⟩ 12 false = .ok Bs' ∧ Cs.Perm Bs' ∧
      List.Forall₂ (fun B C => SameGrid (1 : ℚ) 1 (Fortran.realMat B) (Fortran.realMat C)) Bs Cs := by
  obtain ⟨Bs, Bs', Cs, h1, h2, h3, -, h4⟩ := findSupercells_same_search tric_sameCrystal tric_identified tric_identified'
    roundNearest 2 12 (by norm_num) (by norm_num) (.inr ⟨roundNearest_binary64, by norm_num⟩)
  exact ⟨Bs, Bs', Cs, h1, h2, h3, h4⟩

end AutoGR
