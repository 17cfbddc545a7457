import Verif.Lemmas.HNF
import Verif.Lemmas.Reduction
import Verif.Lemmas.Select
import Verif.Props.Volumes

/-! # Lemmas about `find_supercells` -/

namespace AutoGR

open Spec Matrix

/-! ## The numbers `niggli_id` can return -/

section Range

variable {K : Type} [Arith K]

theorem idStage1_range {eps : K} {p : Bool} {A B C D E F : K} {k : ℕ}
    (h : idStage1 eps p A B C D E F = some k) : 1 ≤ k ∧ k ≤ 44 := by
  unfold idStage1 at h
  dsimp only at h
  split_ifs at h <;> simp only [Option.some.injEq] at h <;> omega

theorem idStage2_range {eps : K} {p : Bool} {A B C D E F : K} {k : ℕ}
    (h : idStage2 eps p A B C D E F = some k) : 1 ≤ k ∧ k ≤ 44 := by
  unfold idStage2 at h
  dsimp only at h
  split_ifs at h <;> simp only [Option.some.injEq] at h <;> omega

theorem idStage3_range {eps : K} {p : Bool} {A B C D E F : K} {k : ℕ}
    (h : idStage3 eps p A B C D E F = some k) : 1 ≤ k ∧ k ≤ 44 := by
  unfold idStage3 at h
  dsimp only at h
  split_ifs at h <;> simp only [Option.some.injEq] at h <;> omega

theorem idStage4_range {eps : K} {p : Bool} {A B C D E F : K} {k : ℕ}
    (h : idStage4 eps p A B C D E F = some k) : 1 ≤ k ∧ k ≤ 44 := by
  unfold idStage4 at h
  dsimp only at h
  split_ifs at h <;> simp only [Option.some.injEq] at h <;> omega

theorem niggliNum_range {eps A B C D E F : K} {k : ℕ}
    (h : niggliNum eps A B C D E F = .ok k) : 1 ≤ k ∧ k ≤ 44 := by
  unfold niggliNum at h
  dsimp only at h
  split at h
  · rename_i k' h'
    cases h
    exact idStage1_range h'
  · split at h
    · rename_i k' h'
      cases h
      exact idStage2_range h'
    · split at h
      · rename_i k' h'
        cases h
        exact idStage3_range h'
      · split at h
        · rename_i k' h'
          cases h
          exact idStage4_range h'
        · cases h

theorem niggliId_range {U : RMat K} {eps : Option K} {k : ℕ} (h : niggliId U eps = .ok k) :
    1 ≤ k ∧ k ≤ 44 := by
  unfold niggliId at h
  split at h
  · cases h
  · split at h
    exact niggliNum_range h

end Range

/-! ## The selection -/

/-- `Co` is the matrix `find_supercells` uses for class `k`: for the triclinic classes the reduction
matrix of the user's own cell, of which only the determinant matters. -/
def ClassBasis (k : ℕ) (Co : IMat) : Prop :=
  if k ∈ [31, 44] then Co.toMat.det = 1 else reducedCanonical ℚ k = .ok Co

theorem ClassBasis.canon {k : ℕ} {Co : IMat} (h : ClassBasis k Co) (hk : k ∉ [31, 44]) :
    reducedCanonical ℚ k = .ok Co := by
  unfold ClassBasis at h
  rwa [if_neg hk] at h

theorem ClassBasis.tric {k : ℕ} {Co : IMat} (h : ClassBasis k Co) (hk : k ∈ [31, 44]) :
    Co.toMat.det = 1 := by
  unfold ClassBasis at h
  rwa [if_pos hk] at h

theorem select_exact (fl : ℚ → ℚ) (root : ℤ) (k : ℕ) (hk : 1 ≤ k ∧ k ≤ 44) (n : ℤ)
    (hfl : Rounding fl n (10 ^ 7)) (Co : IMat) (hCo : ClassBasis k Co) :
    ∃ L, selectHNFs fl root k n true = .ok L ∧ Lists k Co n L := by
  by_cases ht : k ∈ [31, 44]
  · have hd := hCo.tric ht
    obtain ⟨h1, -, h2⟩ := tric_31_44_correct k ht n Co.toMat (.inl hd)
    refine ⟨tric_31_44 n, ?_, h1, h2⟩
    simp only [List.mem_cons, List.not_mem_nil, or_false] at ht
    rcases ht with rfl | rfl <;> simp [selectHNFs, collectHNFs, generatorOf]
  have hc := hCo.canon ht
  by_cases h3 : k = 3
  · subst h3
    obtain ⟨h1, h2⟩ := sc_3_correct n Co hc
    refine ⟨sc_3 id n, ?_, h1, h2⟩
    simp [selectHNFs, collectHNFs, sc_3_rnd hfl]
  by_cases h5 : k = 5
  · subst h5
    obtain ⟨h1, h2⟩ := bcc_5_correct n Co hc
    refine ⟨bcc_5 id n, ?_, h1, h2⟩
    simp [selectHNFs, collectHNFs, bcc_5_rnd hfl]
  by_cases h1 : k = 1
  · subst h1
    obtain ⟨h1, h2⟩ := fcc_1_correct n Co hc
    refine ⟨fcc_1 id n, ?_, h1, h2⟩
    simp [selectHNFs, collectHNFs, fcc_1_rnd hfl]
  have hk' : k ∉ [1, 3, 5, 31, 44] := by
    simp only [List.mem_cons, List.not_mem_nil, or_false] at ht ⊢
    tauto
  obtain ⟨gen, hg, hgood⟩ := generatorOf_good fl k hk hk' Co hc
  refine ⟨gen n, ?_, hgood.lists n hfl⟩
  simp [selectHNFs, collectHNFs, h1, h3, h5, hg, pickLoop]

theorem pickLoop_search (gen : ℤ → List Mat3) : ∀ (ns : List ℤ) (count : ℕ), count < 5 →
    pickLoop gen false count ns =
      ((ns.filter fun n => 1 < (gen n).length).take (5 - count)).flatMap gen
  | [], count, _ => by simp [pickLoop]
  | n :: ns, count, hc => by
    unfold pickLoop
    by_cases h : 1 < (gen n).length
    · simp only [h, and_self, if_true, List.filter_cons, decide_true]
      obtain ⟨d, hd⟩ : ∃ d, 5 - count = d + 1 := ⟨4 - count, by omega⟩
      rw [hd, List.take_succ_cons, List.flatMap_cons]
      split_ifs with h5
      · have : d = 0 := by omega
        simp [this]
      · rw [pickLoop_search gen ns (count + 1) (by omega)]
        congr 3
        omega
    · have h5 : ¬ count = 5 := by omega
      simp only [h, false_and, if_false, List.filter_cons, decide_false, h5, Bool.false_eq_true,
        List.nil_append]
      exact pickLoop_search gen ns count hc

theorem select_search (fl : ℚ → ℚ) (root : ℤ) (k : ℕ) (hk : 1 ≤ k ∧ k ≤ 44)
    (hk' : k ∉ [1, 3, 5, 31, 44]) (kpd : ℤ) (Co : IMat) (hCo : reducedCanonical ℚ k = .ok Co) :
    ∃ gen, GoodGen fl k Co gen ∧ selectHNFs fl root k kpd false =
      .ok ((([kpd, kpd + 1, kpd + 2, kpd + 3, kpd + 4, kpd + 5, kpd + 6, kpd + 7, kpd + 8, kpd + 9,
        kpd + 10].filter fun n => 1 < (gen n).length).take 5).flatMap gen) := by
  obtain ⟨gen, hg, hgood⟩ := generatorOf_good fl k hk hk' Co hCo
  refine ⟨gen, hgood, ?_⟩
  unfold selectHNFs
  rw [if_neg (by simp), findVolumes_other fl root k hk' kpd]
  dsimp only
  simp only [List.mem_cons, List.not_mem_nil, or_false, not_or] at hk'
  unfold collectHNFs
  rw [if_neg hk'.2.1, if_neg hk'.2.2.1, if_neg hk'.1]
  simp only [hg]
  rw [pickLoop_search gen _ 0 (by omega)]

theorem select_cubic (fl : ℚ → ℚ) (k : ℕ) (hk : k ∈ [1, 3, 5]) (kpd root : ℤ) (h1 : 1 ≤ kpd)
    (hroot : root ^ 3 ≤ kpd ∧ kpd < (root + 2) ^ 3) (hfl : Rounding fl (16 * (kpd + 1000)) (10 ^ 7))
    (Co : IMat) (hCo : reducedCanonical ℚ k = .ok Co) :
    ∃ x y z G, selectHNFs fl root k kpd false = .ok ([x, y, z].flatMap G) ∧ kpd ≤ x ∧ x < y ∧ y < z ∧
      (∀ n ∈ [x, y, z], Lists k Co n (G n) ∧ G n ≠ []) ∧ ∀ n ∈ [x, y, z], n ≤ 16 * (kpd + 1000) := by
  obtain ⟨x, y, z, hv, a, b, c, d⟩ := findVolumes_cubic fl k hk kpd root h1 hroot Co hCo
  have hle : ∀ n ∈ [x, y, z], n ≤ 16 * (kpd + 1000) := by
    intro n hn
    have hm : ∃ ms, (ms = [(1 : ℤ), 2, 4] ∨ ms = [1, 4, 16]) ∧
        n ∈ cubicLoop ms kpd (kpd + 1000) (root - 1) := by
      unfold findVolumes at hv
      split_ifs at hv with i1 i2 i3
      · refine ⟨_, .inl rfl, ?_⟩
        simp only [Except.ok.injEq, Prod.mk.injEq] at hv
        rw [← hv.1] at hn
        exact (List.mem_insertionSort _).1 (List.mem_of_mem_take hn)
      · refine ⟨_, .inr rfl, ?_⟩
        simp only [Except.ok.injEq, Prod.mk.injEq] at hv
        rw [← hv.1] at hn
        exact (List.mem_insertionSort _).1 (List.mem_of_mem_take hn)
      · simp only [List.mem_cons, List.not_mem_nil, or_false] at hk
        omega
      · simp only [List.mem_cons, List.not_mem_nil, or_false] at hk
        omega
    obtain ⟨ms, hms, hmem⟩ := hm
    obtain ⟨j, m, -, hj, hm, rfl, hge⟩ := (mem_cubicLoop _ _).1 hmem
    have hm' : 1 ≤ m ∧ m ≤ 16 := by
      rcases hms with rfl | rfl <;> simp only [List.mem_cons, List.not_mem_nil, or_false] at hm <;>
        omega
    nlinarith
  have hfl' : ∀ n ∈ [x, y, z], Rounding fl n (10 ^ 7) := fun n hn =>
    hfl.imp id fun h => ⟨h.1, (hle n hn).trans h.2⟩
  have ne {n : ℤ} {L : List Mat3} (hL : Lists k Co n L)
      (hH : ∃ H, H ∈ SymmetricHNFs (ClassSym k Co.toMat) n) : L ≠ [] := by
    obtain ⟨H, hH⟩ := hH
    exact List.ne_nil_of_mem ((hL.2 H).2 hH)
  simp only [List.mem_cons, List.not_mem_nil, or_false] at hk
  rcases hk with rfl | rfl | rfl
  · refine ⟨x, y, z, fcc_1 fl, ?_, a, b, c, fun n hn => ?_, hle⟩
    · simp [selectHNFs, hv, collectHNFs]
    · have hL : Lists 1 Co n (fcc_1 fl n) := by
        rw [fcc_1_rnd (hfl' n hn)]; exact fcc_1_correct n Co hCo
      exact ⟨hL, ne hL (d n hn)⟩
  · refine ⟨x, y, z, sc_3 fl, ?_, a, b, c, fun n hn => ?_, hle⟩
    · simp [selectHNFs, hv, collectHNFs]
    · have hL : Lists 3 Co n (sc_3 fl n) := by
        rw [sc_3_rnd (hfl' n hn)]; exact sc_3_correct n Co hCo
      exact ⟨hL, ne hL (d n hn)⟩
  · refine ⟨x, y, z, bcc_5 fl, ?_, a, b, c, fun n hn => ?_, hle⟩
    · simp [selectHNFs, hv, collectHNFs]
    · have hL : Lists 5 Co n (bcc_5 fl n) := by
        rw [bcc_5_rnd (hfl' n hn)]; exact bcc_5_correct n Co hCo
      exact ⟨hL, ne hL (d n hn)⟩

theorem select_tric (fl : ℚ → ℚ) (root : ℤ) (k : ℕ) (hk : k ∈ [31, 44]) (kpd : ℤ) (h1 : 1 ≤ kpd)
    (hfl : Rounding fl kpd (10 ^ 14)) :
    ∃ n m : ℤ, selectHNFs fl root k kpd false = .ok ((tric_31_44 n).map fun H => m • H) ∧ 1 ≤ n ∧
      n ≤ 100 ∧ 1 ≤ m ∧ n * m ^ 3 ≤ kpd ∧ kpd < (n + 1) * m ^ 3 ∧ tric_31_44 n ≠ [] := by
  obtain ⟨n, m, h, hn, hn', hm, a, b, -⟩ := findVolumes_triclinic fl root k hk kpd h1 hfl
  refine ⟨n, m, ?_, hn, hn', hm, a, b, ?_⟩
  · simp only [List.mem_cons, List.not_mem_nil, or_false] at hk
    rcases hk with rfl | rfl <;> simp [selectHNFs, h, collectHNFs, generatorOf]
  · refine List.ne_nil_of_mem (tric_31_44_mem.2 (?_ : _ ∧ _)) (a := hnf 1 0 1 0 0 n)
    exact ⟨isHNF_hnf (by omega) (by omega) (by omega) (by omega) (by omega) (by omega),
      by rw [det_hnf]; ring⟩

/-! ## The change of basis -/

theorem classSym_change {k : ℕ} {C C' P Q : IntMat} (hQP : Q * P = 1) (hPQ : P * Q = 1)
    (hC : Q * C' = C) {X : IntMat} (hX : X ∈ ClassSym k C') : Q * X * P ∈ ClassSym k C := by
  intro G A B Cc D E F hN hk hG
  have h1 : toReal Q * toReal P = 1 := by rw [← toReal_mul, hQP, toReal_one]
  have h2 : toReal P * toReal Q = 1 := by rw [← toReal_mul, hPQ, toReal_one]
  have h1t : (toReal P)ᵀ * (toReal Q)ᵀ = 1 := by rw [← transpose_mul, h1, transpose_one]
  have hX' := hX ((toReal Q)ᵀ * G * toReal Q) A B Cc D E F hN hk (by
    rw [← hG, ← hC, toReal_mul, transpose_mul]
    simp only [Matrix.mul_assoc])
  rw [toReal_mul, toReal_mul]
  calc (toReal Q * toReal X * toReal P)ᵀ * G * (toReal Q * toReal X * toReal P)
      = (toReal P)ᵀ * ((toReal X)ᵀ * ((toReal Q)ᵀ * G * toReal Q) * toReal X) * toReal P := by
        simp only [transpose_mul, Matrix.mul_assoc]
    _ = ((toReal P)ᵀ * (toReal Q)ᵀ) * G * (toReal Q * toReal P) := by
        rw [hX']; simp only [Matrix.mul_assoc]
    _ = G := by rw [h1t, h1, Matrix.one_mul, Matrix.mul_one]

theorem keeps_change {P Q X H : IntMat} (hQP : Q * P = 1) (hPQ : P * Q = 1)
    (h : Keeps (Q * X * P) H) : Keeps X (P * H * Q) := by
  obtain ⟨Y, hY⟩ := h
  refine ⟨P * Y * Q, ?_⟩
  calc X * (P * H * Q) = (P * Q) * X * (P * H * Q) := by rw [hPQ, Matrix.one_mul]
    _ = P * (Q * X * P * H) * Q := by simp only [Matrix.mul_assoc]
    _ = P * (H * Y) * Q := by rw [hY]
    _ = P * H * (Q * P) * Y * Q := by rw [hQP, Matrix.mul_one]; simp only [Matrix.mul_assoc]
    _ = P * H * Q * (P * Y * Q) := by simp only [Matrix.mul_assoc]

theorem keeps_span {X M N : IntMat} (s : SameSpan M N) (h : Keeps X M) : Keeps X N := by
  obtain ⟨W, hW, rfl⟩ := s
  obtain ⟨Y, hY⟩ := h
  refine ⟨W⁻¹ * Y * W, ?_⟩
  calc X * (M * W) = M * Y * W := by rw [← Matrix.mul_assoc, hY]
    _ = M * (W * W⁻¹) * Y * W := by rw [mul_nonsing_inv _ hW, Matrix.mul_one]
    _ = M * W * (W⁻¹ * Y * W) := by simp only [Matrix.mul_assoc]

theorem castMat_mul {K : Type} [Field K] (M N : Mat3) :
    (castMat (M * N) : Matrix (Fin 3) (Fin 3) K) = castMat M * castMat N := by
  ext i j
  simp [castMat, Matrix.mul_apply]

theorem castMat_one {K : Type} [Field K] : (castMat 1 : Matrix (Fin 3) (Fin 3) K) = 1 := by
  ext i j
  by_cases h : i = j <;> simp [castMat, Matrix.one_apply, h]

theorem inv_of_mul {K : Type} [Field K] {A B : Matrix (Fin 3) (Fin 3) K} (h : A * B = 1) :
    A⁻¹ = B := Matrix.inv_eq_right_inv h

/-- The transformation in terms of integer matrices. -/
theorem transformOne_eq {K : Type} [Field K] {U O : Matrix (Fin 3) (Fin 3) K}
    (hO : IsUnit O.det) {Co Cu Do Du : IntMat} (ho : Co * Do = 1) (hu : Cu * Du = 1) (H : Mat3) :
    transformOne (O * castMat Co) (U * castMat Cu) (castMat Co) (castMat Cu) O H =
      U * castMat (Cu * Do * H * (Co * Du)) := by
  have ho' : Do * Co = 1 := mul_eq_one_comm.1 ho
  have e1 : (castMat Cu : Matrix (Fin 3) (Fin 3) K)⁻¹ = castMat Du :=
    inv_of_mul (by rw [← castMat_mul, hu, castMat_one])
  have e2 : (O * castMat Co)⁻¹ = castMat Do * O⁻¹ := by
    apply inv_of_mul
    calc O * castMat Co * (castMat Do * O⁻¹) = O * (castMat Co * castMat Do) * O⁻¹ := by
          simp only [Matrix.mul_assoc]
      _ = 1 := by rw [← castMat_mul, ho, castMat_one, Matrix.mul_one, mul_nonsing_inv _ hO]
  unfold transformOne
  simp only [e1, e2, castMat_mul]
  calc U * castMat Cu * (castMat Do * O⁻¹ * (O * castMat H * O⁻¹ * O * castMat Co)) * castMat Du
      = U * castMat Cu * (castMat Do * (O⁻¹ * O) * castMat H * (O⁻¹ * O) * castMat Co) * castMat Du := by
        simp only [Matrix.mul_assoc]
    _ = U * (castMat Cu * castMat Do * castMat H * (castMat Co * castMat Du)) := by
        rw [nonsing_inv_mul _ hO]
        simp only [Matrix.mul_assoc, Matrix.mul_one]

theorem rdet_eq (A : RMat ℚ) : rdet A = A.toMatrix.det := by
  rw [det_fin_three]
  simp only [RMat.toMatrix, rdet, Arith.add, Arith.sub, Arith.mul]
  simp
  ring

theorem reducedCell_unit {A : RMat ℚ} {eps : Option ℚ} {C : IMat} (h : reducedCell A eps = .ok C) :
    IsUnit A.toMatrix.det := by
  rw [isUnit_iff_ne_zero, ← rdet_eq]
  intro h0
  unfold reducedCell at h
  dsimp only at h
  rw [h0] at h
  simp [Arith.le, Arith.ofInt] at h

theorem reducedCell_inv {K : Type} [Arith K] {A : RMat K} {eps : Option K} {C : IMat}
    (h : reducedCell A eps = .ok C) : ∃ D : IntMat, C.toMat * D = 1 ∧ D * C.toMat = 1 := by
  have hd : IsUnit C.toMat.det := by rw [det_reducedCell h]; exact isUnit_one
  exact ⟨C.toMat⁻¹, mul_nonsing_inv _ hd, nonsing_inv_mul _ hd⟩

theorem canon_ok {k : ℕ} (h1 : 1 ≤ k ∧ k ≤ 44) (h2 : k ∉ [31, 44]) :
    ∃ B C, (canonBasis k : Option (RMat ℚ)) = some B ∧ reducedCell B none = .ok C ∧
      reducedCanonical ℚ k = .ok C := by
  simp only [List.mem_cons, List.not_mem_nil, or_false, not_or] at h2
  obtain ⟨B, C, hB, hC, -⟩ := canonical_bases k ⟨h1.1, h1.2, h2.1, h2.2⟩
  refine ⟨B, C, hB, hC, ?_⟩
  unfold reducedCanonical
  rw [hB]
  exact hC

/-- `find_supercells` as a selection of HNFs followed by an integer change of basis. -/
theorem findSupercells_eq (U : RMat ℚ) (k : ℕ) (Cu : IMat) (hk : niggliId U none = .ok k)
    (hCu : reducedCell U none = .ok Cu) :
    ∃ (Co : IMat) (P Q : IntMat), ClassBasis k Co ∧ Q * P = 1 ∧ P * Q = 1 ∧ Q * Cu.toMat = Co.toMat ∧
      ∀ (fl : ℚ → ℚ) (root kpt : ℤ) (exact : Bool) (L : List Mat3),
        selectHNFs fl root k kpt exact = .ok L →
        findSupercells fl root U kpt exact =
          .ok (L.map fun H => U.toMatrix * castMat (P * H * Q)) := by
  have hr := niggliId_range hk
  have key : ∃ (B : RMat ℚ) (Co : IMat), (if k ∈ [31, 44] then some U else canonBasis k) = some B ∧
      reducedCell B none = .ok Co ∧ ClassBasis k Co := by
    by_cases ht : k ∈ [31, 44]
    · refine ⟨U, Cu, by rw [if_pos ht], hCu, ?_⟩
      unfold ClassBasis
      rw [if_pos ht]
      exact det_reducedCell hCu
    · obtain ⟨B, C, hB, hC, hC'⟩ := canon_ok hr ht
      refine ⟨B, C, by rw [if_neg ht, hB], hC, ?_⟩
      unfold ClassBasis
      rwa [if_neg ht]
  obtain ⟨B, Co, hB, hC, hcb⟩ := key
  obtain ⟨Do, o1, o2⟩ := reducedCell_inv hC
  obtain ⟨Du, u1, u2⟩ := reducedCell_inv hCu
  refine ⟨Co, Cu.toMat * Do, Co.toMat * Du, hcb, ?_, ?_, ?_, ?_⟩
  · calc Co.toMat * Du * (Cu.toMat * Do) = Co.toMat * (Du * Cu.toMat) * Do := by
          simp only [Matrix.mul_assoc]
      _ = 1 := by rw [u2, Matrix.mul_one, o1]
  · calc Cu.toMat * Do * (Co.toMat * Du) = Cu.toMat * (Do * Co.toMat) * Du := by
          simp only [Matrix.mul_assoc]
      _ = 1 := by rw [o2, Matrix.mul_one, u1]
  · rw [Matrix.mul_assoc, u2, Matrix.mul_one]
  · intro fl root kpt exact L hL
    unfold findSupercells
    simp only [hk, hCu, hB, hC, hL, transformSupercells]
    congr 1
    refine List.map_congr_left fun H _ => ?_
    exact transformOne_eq (reducedCell_unit hC) o1 u1 H

theorem lists_change {k : ℕ} {Co Cu : IMat} {P Q : IntMat} (hQP : Q * P = 1) (hPQ : P * Q = 1)
    (hC : Q * Cu.toMat = Co.toMat) {n : ℤ} {L : List IntMat} (hn : 1 ≤ n) (hL : Lists k Co n L) :
    ListsSublattices (ClassSym k Cu.toMat) n (L.map fun H => P * H * Q) := by
  have hC' : P * Co.toMat = Cu.toMat := by rw [← hC, ← Matrix.mul_assoc, hPQ, Matrix.one_mul]
  have hdet : P.det * Q.det = 1 := by rw [← det_mul, hPQ, Matrix.det_one]
  obtain ⟨hnd, hmem⟩ := hL
  refine ⟨?_, ?_, ?_⟩
  · intro M hM
    obtain ⟨H, hH, rfl⟩ := List.mem_map.1 hM
    obtain ⟨-, hd, hk⟩ := (hmem H).1 hH
    refine ⟨?_, fun X hX => keeps_change hQP hPQ (hk _ (classSym_change hQP hPQ hC hX))⟩
    rw [det_mul, det_mul, hd]
    linear_combination n * hdet
  · intro M hM hk
    have hd : (Q * M * P).det = M.det := by
      rw [det_mul, det_mul]
      linear_combination M.det * hdet
    have hM0 : (Q * M * P).det ≠ 0 := by
      rw [hd]
      intro h0
      rw [h0] at hM
      simp at hM
      omega
    obtain ⟨H, hH, hs⟩ := hnf_exists hM0
    have hkeep : ∀ X ∈ ClassSym k Co.toMat, Keeps X H := fun X hX =>
      keeps_span hs (keeps_change hPQ hQP (hk _ (classSym_change hPQ hQP hC' hX)))
    obtain ⟨W, hW, hHW⟩ := hs
    have hdH : H.det = n := by
      have h1 : |H.det| = n := by
        rw [hHW, det_mul, hd, abs_mul, hM]
        rcases Int.isUnit_iff.1 hW with h | h <;> rw [h] <;> simp
      have h2 : 0 ≤ H.det := by
        have e := lower_eq hH.upper01 hH.upper02 hH.upper12
        rw [e, det_fin_three]
        simp only [of_apply, cons_val', cons_val_zero, cons_val_one, cons_val, mul_zero, zero_mul,
          sub_zero, add_zero]
        exact (mul_pos (mul_pos hH.pos0 hH.pos1) hH.pos2).le
      rw [abs_of_nonneg h2] at h1
      exact h1
    refine ⟨P * H * Q, List.mem_map.2 ⟨H, (hmem H).2 ⟨hH, hdH, hkeep⟩, rfl⟩, P * W * Q, ?_, ?_⟩
    · rw [det_mul, det_mul, mul_right_comm, hdet, one_mul]
      exact hW
    · rw [hHW]
      calc P * (Q * M * P * W) * Q = (P * Q) * (M * (P * W * Q)) := by simp only [Matrix.mul_assoc]
        _ = M * (P * W * Q) := by rw [hPQ, Matrix.one_mul]
  · rw [List.pairwise_map]
    refine (hnd.imp_of_mem ?_)
    intro H H' h h' hne hs
    apply hne
    refine hnf_unique ((hmem H).1 h).1 ((hmem H').1 h').1 ?_
    obtain ⟨W, hW, e⟩ := hs
    refine ⟨Q * W * P, ?_, ?_⟩
    · rw [det_mul, det_mul, mul_right_comm, mul_comm Q.det, hdet, one_mul]
      exact hW
    · calc H' = (Q * P) * H' * (Q * P) := by rw [hQP, Matrix.one_mul, Matrix.mul_one]
        _ = Q * (P * H' * Q) * P := by simp only [Matrix.mul_assoc]
        _ = (Q * P) * H * (Q * W * P) := by rw [e]; simp only [Matrix.mul_assoc]
        _ = H * (Q * W * P) := by rw [hQP, Matrix.one_mul]

end AutoGR
