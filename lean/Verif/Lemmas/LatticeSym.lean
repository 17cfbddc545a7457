import Verif.Lemmas.SymCertI
import Verif.Lemmas.SymCertII
import Verif.Lemmas.SymPairs
import Verif.Spec.PointSym

/-!
# The symmetries of a reduced cell are those of its class
-/

namespace AutoGR

open Spec Matrix

theorem classSym_one {k : ℕ} {C : IntMat} : (1 : IntMat) ∈ ClassSym k C := by
  intro G A B C D E F _ _ _
  rw [toReal_one, transpose_one, Matrix.one_mul, Matrix.mul_one]

theorem classSym_mul {k : ℕ} {C X Y : IntMat} (hX : X ∈ ClassSym k C) (hY : Y ∈ ClassSym k C) :
    X * Y ∈ ClassSym k C := by
  intro G A B C D E F hN hk hG
  have h1 := hX G A B C D E F hN hk hG
  have h2 := hY G A B C D E F hN hk hG
  rw [toReal_mul, transpose_mul]
  calc (toReal Y)ᵀ * (toReal X)ᵀ * G * (toReal X * toReal Y)
      = (toReal Y)ᵀ * ((toReal X)ᵀ * G * toReal X) * toReal Y := by simp only [Matrix.mul_assoc]
    _ = G := by rw [h1, h2]

theorem toReal_neg (X : IntMat) : toReal (-X) = -toReal X := by
  ext i j
  simp [toReal]

theorem classSym_neg {k : ℕ} {C X : IntMat} (hX : X ∈ ClassSym k C) : -X ∈ ClassSym k C := by
  intro G A B C D E F hN hk hG
  have h1 := hX G A B C D E F hN hk hG
  rw [toReal_neg, transpose_neg, Matrix.neg_mul, Matrix.neg_mul, Matrix.mul_neg, neg_neg, h1]

theorem classSym_evalWord {k : ℕ} {C : IntMat} {ops : List IMat} (h : ∀ g ∈ ops, g.toMat ∈ ClassSym k C)
    (w : List ℕ) : (evalWord (ops ++ [⟨-1, 0, 0, 0, -1, 0, 0, 0, -1⟩]) w).toMat ∈ ClassSym k C := by
  induction w with
  | nil => rw [evalWord, toMat_one]; exact classSym_one
  | cons i w ih =>
    rw [evalWord, toMat_mulC]
    refine classSym_mul ?_ ih
    rw [List.getD_eq_getElem?_getD]
    cases hi : (ops ++ [⟨-1, 0, 0, 0, -1, 0, 0, 0, -1⟩])[i]? with
    | none => simpa [toMat_one] using classSym_one
    | some g =>
      rcases List.mem_append.1 (List.mem_of_getElem? hi) with hg | hg
      · exact h g hg
      · rw [List.mem_singleton.1 hg]
        have : (⟨-1, 0, 0, 0, -1, 0, 0, 0, -1⟩ : IMat).toMat = -1 := by decide
        simp only [Option.getD_some, this]
        exact classSym_neg classSym_one

/-- A symmetry of the chosen metric is a symmetry of every metric of the class. -/
theorem words_fix {k : ℕ} {M : Form} {Co Ci : IMat} {ops : List IMat} {words : List (List ℕ)}
    (hw : wordsCheck M Co Ci (ops ++ [⟨-1, 0, 0, 0, -1, 0, 0, 0, -1⟩]) words = true)
    (hops : ∀ g ∈ ops, g.toMat ∈ ClassSym k Co.toMat) {X : IntMat} (hX : Xᵀ * M.mat * X = M.mat)
    {A B C D E F : ℝ} (hN : NiggliReduced A B C D E F) (hk : NiggliClass k A B C D E F) :
    (toReal X)ᵀ * metric A B C D E F * toReal X = metric A B C D E F := by
  simp only [wordsCheck, Bool.and_eq_true, decide_eq_true_eq, List.all_eq_true,
    List.contains_iff_mem, List.mem_map] at hw
  obtain ⟨⟨⟨hM, h1⟩, h2⟩, hws⟩ := hw
  obtain ⟨Z, hZ, rfl⟩ := Form.mem_autos hM hX
  obtain ⟨w, -, hwZ⟩ := hws Z hZ
  have hm := classSym_evalWord hops w
  rw [hwZ, toMat_mulC, toMat_mulC] at hm
  have e2 : toReal Ci.toMat * toReal Co.toMat = 1 := by
    rw [← toReal_mul, ← toMat_mulC, h2, toMat_one, toReal_one]
  set P := toReal Co.toMat with hP
  set Q := toReal Ci.toMat with hQ
  have e2t : Pᵀ * Qᵀ = 1 := by rw [← transpose_mul, e2, transpose_one]
  have h := hm (Qᵀ * metric A B C D E F * Q) A B C D E F hN hk (by
    calc Pᵀ * (Qᵀ * metric A B C D E F * Q) * P = (Pᵀ * Qᵀ) * metric A B C D E F * (Q * P) := by
          simp only [Matrix.mul_assoc]
      _ = _ := by rw [e2, e2t, Matrix.one_mul, Matrix.mul_one])
  rw [toReal_mul, toReal_mul, ← hP, ← hQ, transpose_mul, transpose_mul] at h
  have h' := congrArg (fun Y => Pᵀ * Y * P) h
  set m := metric A B C D E F with hm'
  set Y := toReal Z.toMat with hY
  calc Yᵀ * m * Y = (Pᵀ * Qᵀ) * Yᵀ * ((Pᵀ * Qᵀ) * m * (Q * P)) * Y * (Q * P) := by
        rw [e2, e2t, Matrix.one_mul, Matrix.one_mul, Matrix.mul_one, Matrix.mul_one]
    _ = Pᵀ * (Qᵀ * (Yᵀ * Pᵀ) * (Qᵀ * m * Q) * (P * Y * Q)) * P := by simp only [Matrix.mul_assoc]
    _ = Pᵀ * (Qᵀ * m * Q) * P := h'
    _ = (Pᵀ * Qᵀ) * m * (Q * P) := by simp only [Matrix.mul_assoc]
    _ = m := by rw [e2, e2t, Matrix.one_mul, Matrix.mul_one]

theorem wit_fix {k : ℕ} (hk : k ∈ classTable) {X : IntMat} (hX : Xᵀ * (wit k).mat * X = (wit k).mat)
    {A B C D E F : ℝ} (hN : NiggliReduced A B C D E F) (hc : NiggliClass k A B C D E F) :
    (toReal X)ᵀ * metric A B C D E F * toReal X = metric A B C D E F := by
  have hk' : 1 ≤ k ∧ k ≤ 44 := by clear hX hc; revert k; decide
  obtain ⟨h1, h2⟩ := hk'
  interval_cases k
  · exact words_fix words_1 ops_mem_1 hX hN hc
  · exact words_fix words_2 ops_mem_2 hX hN hc
  · exact words_fix words_3 ops_mem_3 hX hN hc
  · exact words_fix words_4 ops_mem_4 hX hN hc
  · exact words_fix words_5 ops_mem_5 hX hN hc
  · exact words_fix words_6 ops_mem_6 hX hN hc
  · exact words_fix words_7 ops_mem_7 hX hN hc
  · exact words_fix words_8 ops_mem_8 hX hN hc
  · exact words_fix words_9 ops_mem_9 hX hN hc
  · exact words_fix words_10 ops_mem_10 hX hN hc
  · exact words_fix words_11 ops_mem_11 hX hN hc
  · exact words_fix words_12 ops_mem_12 hX hN hc
  · exact words_fix words_13 ops_mem_13 hX hN hc
  · exact words_fix words_14 ops_mem_14 hX hN hc
  · exact words_fix words_15 ops_mem_15 hX hN hc
  · exact words_fix words_16 ops_mem_16 hX hN hc
  · exact words_fix words_17 ops_mem_17 hX hN hc
  · exact words_fix words_18 ops_mem_18 hX hN hc
  · exact words_fix words_19 ops_mem_19 hX hN hc
  · exact words_fix words_20 ops_mem_20 hX hN hc
  · exact words_fix words_21 ops_mem_21 hX hN hc
  · exact words_fix words_22 ops_mem_22 hX hN hc
  · exact words_fix words_23 ops_mem_23 hX hN hc
  · exact words_fix words_24 ops_mem_24 hX hN hc
  · exact words_fix words_25 ops_mem_25 hX hN hc
  · exact words_fix words_26 ops_mem_26 hX hN hc
  · exact words_fix words_27 ops_mem_27 hX hN hc
  · exact words_fix words_28 ops_mem_28 hX hN hc
  · exact words_fix words_29 ops_mem_29 hX hN hc
  · exact words_fix words_30 ops_mem_30 hX hN hc
  · exact words_fix words_31 ops_mem_31 hX hN hc
  · exact words_fix words_32 ops_mem_32 hX hN hc
  · exact words_fix words_33 ops_mem_33 hX hN hc
  · exact words_fix words_34 ops_mem_34 hX hN hc
  · exact words_fix words_35 ops_mem_35 hX hN hc
  · exact words_fix words_36 ops_mem_36 hX hN hc
  · exact words_fix words_37 ops_mem_37 hX hN hc
  · exact words_fix words_38 ops_mem_38 hX hN hc
  · exact words_fix words_39 ops_mem_39 hX hN hc
  · exact words_fix words_40 ops_mem_40 hX hN hc
  · exact words_fix words_41 ops_mem_41 hX hN hc
  · exact words_fix words_42 ops_mem_42 hX hN hc
  · exact words_fix words_43 ops_mem_43 hX hN hc
  · exact words_fix words_44 ops_mem_44 hX hN hc

/-- The six equations of a symmetry. -/
theorem fixCols_of {A B C D E F : ℝ} {X : IntMat}
    (hX : (toReal X)ᵀ * metric A B C D E F * toReal X = metric A B C D E F) :
    FixCols ⟨A, B, C, D, E, F⟩ (X 0 0, X 1 0, X 2 0) (X 0 1, X 1 1, X 2 1) (X 0 2, X 1 2, X 2 2) := by
  have h := fun i j => congrFun (congrFun hX i) j
  have h00 := h 0 0
  have h01 := h 0 1
  have h02 := h 0 2
  have h11 := h 1 1
  have h12 := h 1 2
  have h22 := h 2 2
  simp [metric, toReal, Matrix.mul_apply, Fin.sum_univ_three] at h00 h01 h02 h11 h12 h22
  constructor <;> simp only [bilLin, Lin.val] <;> push_cast <;> linarith

theorem neg_vecs_drop {u : ℤ × ℤ × ℤ} (hu : u ∈ Form.vecs) :
    u ∈ Form.vecs.drop 13 ∨ (-u.1, -u.2.1, -u.2.2) ∈ Form.vecs.drop 13 := by
  revert u; decide +kernel

/-- Up to its sign, every symmetry of a reduced cell is a symmetry of a class to which the cell belongs. -/
theorem symm_class {A B C D E F : ℝ} (h : NiggliReduced A B C D E F) {X : IntMat}
    (hX : (toReal X)ᵀ * metric A B C D E F * toReal X = metric A B C D E F)
    (hu : (X 0 0, X 1 0, X 2 0) ∈ Form.vecs.drop 13) :
    ∃ k ∈ classTable, NiggliClass k A B C D E F ∧ Xᵀ * (wit k).mat * X = (wit k).mat := by
  have he := symm_entries h hX
  have hf := fixCols_of hX
  have hv := Form.mem_vecs (he 0 1) (he 1 1) (he 2 1)
  have hw := Form.mem_vecs (he 0 2) (he 1 2) (he 2 2)
  rcases h.type with ht | ht
  · obtain ⟨T, hT⟩ := treeI hu
    obtain ⟨k, h1, h2, h3⟩ := Tree1.sound (g := ⟨A, B, C, D, E, F⟩) h (t := true) ht hv hw hf hT
    exact ⟨k, h1, h2, witFix_iff.1 h3⟩
  · obtain ⟨T, hT⟩ := treeII hu
    obtain ⟨k, h1, h2, h3⟩ := Tree1.sound (g := ⟨A, B, C, D, E, F⟩) h (t := false) ht hv hw hf hT
    exact ⟨k, h1, h2, witFix_iff.1 h3⟩

/-- A symmetry of a reduced cell is a symmetry of the chosen metric of its class. -/
theorem symm_wit {A B C D E F : ℝ} (h : NiggliReduced A B C D E F) {k : ℕ} (hk : IsClass k A B C D E F)
    {X : IntMat} (hX : (toReal X)ᵀ * metric A B C D E F * toReal X = metric A B C D E F) :
    Xᵀ * (wit k).mat * X = (wit k).mat := by
  have he := symm_entries h hX
  rcases neg_vecs_drop (Form.mem_vecs (he 0 0) (he 1 0) (he 2 0)) with hu | hu
  · obtain ⟨j, h1, h2, h3⟩ := symm_class h hX hu
    exact witFix_first (g := ⟨A, B, C, D, E, F⟩) h hk h1 h2 h3
  · have hX' : (toReal (-X))ᵀ * metric A B C D E F * toReal (-X) = metric A B C D E F := by
      rw [toReal_neg, transpose_neg, Matrix.neg_mul, Matrix.neg_mul, Matrix.mul_neg, neg_neg, hX]
    obtain ⟨j, h1, h2, h3⟩ := symm_class h hX' (by simpa using hu)
    have := witFix_first (g := ⟨A, B, C, D, E, F⟩) h hk h1 h2 h3
    rwa [transpose_neg, Matrix.neg_mul, Matrix.neg_mul, Matrix.mul_neg, neg_neg] at this

/-- The symmetries of a reduced cell are those of the chosen metric of its class. -/
theorem symm_iff_wit {A B C D E F : ℝ} (h : NiggliReduced A B C D E F) {k : ℕ} (hk : IsClass k A B C D E F)
    {X : IntMat} : (toReal X)ᵀ * metric A B C D E F * toReal X = metric A B C D E F ↔
      Xᵀ * (wit k).mat * X = (wit k).mat :=
  ⟨symm_wit h hk, fun hX => wit_fix hk.1 hX h hk.2.1⟩

end AutoGR
