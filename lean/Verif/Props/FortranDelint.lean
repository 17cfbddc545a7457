import Verif.Lemmas.DelintWrong
import Verif.Spec.Delint

/-!
# Removing small errors from basis vectors (`delinter.f90`)
-/

namespace AutoGR.Fortran

open Matrix Spec

variable {equal : ℝ → ℝ → Bool} {close : Matrix (Fin 3) (Fin 3) ℝ → Matrix (Fin 3) (Fin 3) ℝ → Bool}
  {V W : Matrix (Fin 3) (Fin 3) ℝ} {k : ℕ}

/-- The classes whose formula in `symmetrize` is wrong. -/
def delintWrong : List ℕ := [6, 7, 8, 12, 16, 17, 24, 26, 27, 28, 43]

theorem mem_good (h1 : 1 ≤ k) (h44 : k ≤ 44) (hw : k ∉ delintWrong) : k ∈ delintGood := by
  have : ∀ k ≤ 44, 1 ≤ k → k ∉ delintWrong → k ∈ delintGood := by decide
  exact this k h44 h1 hw

/-- C86.  For 33 of the 44 Niggli classes `delint` returns vectors that have the equalities of the class. -/
theorem delint_class (hclose : close 1 1 = true) (h1 : 1 ≤ k) (h44 : k ≤ 44) (hw : k ∉ delintWrong)
    (hV : V.det ≠ 0) (h : delint equal close V k = some W) : BasisEqs k W := by
  obtain ⟨q, hq, hG⟩ := delint_some hclose hV h
  have := out_all (mem_good h1 h44 hw) hq
  unfold BasisEqs
  rw [hG]
  exact this

/-- C86.  For these classes `delint` does not change vectors that have the equalities of the class. -/
theorem delint_keeps (hclose : close 1 1 = true) (h1 : 1 ≤ k) (h44 : k ≤ 44) (hw : k ∉ delintWrong)
    (hV : V.det ≠ 0) (he : BasisEqs k V) : delint equal close V k = some V := by
  obtain ⟨W0, R, hW0, hVR, -, hd⟩ := delint_core (equal := equal) hclose hV
  obtain ⟨a, b, c, x, y, z, hp, hG, hb⟩ := basis2cell_proper hV
  unfold BasisEqs at he
  rw [hG] at he
  have hf : symmetrize equal (basis2cell V) k = some (basis2cell V) := by
    rw [hb]
    exact fix_all (mem_good h1 h44 hw) hp he
  rw [hd k, hf, Option.bind_some, hW0, Option.bind_some, ← hVR]

/-- C86.  Doing it twice changes nothing more. -/
theorem delint_idempotent (hclose : close 1 1 = true) (h1 : 1 ≤ k) (h44 : k ≤ 44) (hw : k ∉ delintWrong)
    (hV : V.det ≠ 0) (hW : W.det ≠ 0) (h : delint equal close V k = some W) :
    delint equal close W k = some W :=
  delint_keeps hclose h1 h44 hw hW (delint_class hclose h1 h44 hw hV h)


/-- C87.  For ten classes the result for vectors of the class never belongs to the class, so `delint` spoils the
vectors it should clean. -/
theorem delint_wrong (hclose : close 1 1 = true) (hk : k ∈ [6, 7, 8, 12, 16, 17, 24, 26, 27, 28])
    (hV : V.det ≠ 0) (hc : BasisClass k V) (h : delint equal close V k = some W) : ¬ BasisClass k W := by
  obtain ⟨q, hq, hG⟩ := delint_some hclose hV h
  obtain ⟨a, b, c, x, y, z, hp, hG0, hb⟩ := basis2cell_proper hV
  rw [hb] at hq
  unfold BasisClass at hc ⊢
  rw [hG0] at hc
  rw [hG]
  have acute : AcuteAlpha q → ¬ (q.b * q.c * Real.cos q.alpha ≤ 0) := fun ⟨h1, h2, h3⟩ h4 =>
    absurd (mul_pos (mul_pos h1 h2) h3) (not_lt.2 h4)
  have obtuse : ObtuseBeta q → ¬ (0 < q.a * q.c * Real.cos q.beta) := fun ⟨h1, h2, h3⟩ h4 =>
    absurd (mul_neg_of_pos_of_neg (mul_pos h1 h2) h3) (not_lt.2 h4.le)
  have hE : a * c * y ≤ 0 → y ≤ 0 := fun h => by
    by_contra h0
    exact absurd (mul_pos (mul_pos hp.ha hp.hc) (not_le.1 h0)) (not_lt.2 h)
  have hF : a * b * z ≤ 0 → z ≤ 0 := fun h => by
    by_contra h0
    exact absurd (mul_pos (mul_pos hp.ha hp.hb) (not_le.1 h0)) (not_lt.2 h)
  simp only [List.mem_cons, List.not_mem_nil, or_false] at hk
  rcases hk with rfl | rfl | rfl | rfl | rfl | rfl | rfl | rfl | rfl | rfl
  · exact fun hW => acute (wrong_6 hp (hF hc.1.2.2) hq) hW.1.1
  · exact fun hW => acute (wrong_7 hp (hF hc.1.2.2) hq) hW.1.1
  · exact fun hW => acute (wrong_8 hp (hE hc.1.2.1) (hF hc.1.2.2) hq) hW.1.1
  · exact fun hW => absurd (wrong_12 hp hq) (not_lt.2 hW.1.2.2)
  · exact fun hW => acute (wrong_16 hp hq) hW.1.1
  · exact fun hW => acute (wrong_17 hp (hE hc.1.2.1) (hF hc.1.2.2) hq) hW.1.1
  · exact fun hW => acute (wrong_24 hp hq) hW.1.1
  · exact fun hW => obtuse (wrong_26 hp hq) hW.1.2.1
  · exact fun hW => obtuse (wrong_27 hp hq) hW.1.2.1
  · exact fun hW => obtuse (wrong_28 hp hq) hW.1.2.1

/-- C87.  The same holds for class 43 unless the last two lengths or the last two angles agree. -/
theorem delint_wrong_43 (hclose : close 1 1 = true) (hV : V.det ≠ 0) (hc : BasisClass 43 V)
    (hbc : (Vᵀ * V) 1 1 ≠ (Vᵀ * V) 2 2)
    (hang : (Vᵀ * V) 0 2 ^ 2 * (Vᵀ * V) 1 1 ≠ (Vᵀ * V) 0 1 ^ 2 * (Vᵀ * V) 2 2)
    (h : delint equal close V 43 = some W) : ¬ BasisClass 43 W := by
  obtain ⟨q, hq, hG⟩ := delint_some hclose hV h
  obtain ⟨a, b, c, x, y, z, hp, hG0, hb⟩ := basis2cell_proper hV
  rw [hb] at hq
  unfold BasisClass at hc ⊢
  rw [hG0] at hc hbc hang
  rw [hG]
  obtain ⟨⟨c1, c2, c3⟩, c4, -⟩ := hc
  change b * c * x ≤ 0 at c1
  change a * c * y ≤ 0 at c2
  change a * b * z ≤ 0 at c3
  change 2 * |b * c * x + a * c * y + a * b * z| = a ^ 2 + b ^ 2 at c4
  change b ^ 2 ≠ c ^ 2 at hbc
  change (a * c * y) ^ 2 * b ^ 2 ≠ (a * b * z) ^ 2 * c ^ 2 at hang
  rw [abs_of_nonpos (by linarith)] at c4
  have hy : y ≤ 0 := by
    by_contra h0
    exact absurd (mul_pos (mul_pos hp.ha hp.hc) (not_le.1 h0)) (not_lt.2 c2)
  have hz : z ≤ 0 := by
    by_contra h0
    exact absurd (mul_pos (mul_pos hp.ha hp.hb) (not_le.1 h0)) (not_lt.2 c3)
  obtain ⟨e1, e2, e3, e4, e5, e6⟩ := wrong_43 hp hy hz (by linarith) (fun h0 => hbc (by rw [h0]))
    (fun h0 => hang (by rw [h0]; ring)) hq
  rintro ⟨⟨d1, d2, d3⟩, d4, -⟩
  change q.b * q.c * Real.cos q.alpha ≤ 0 at d1
  change q.a * q.c * Real.cos q.beta ≤ 0 at d2
  change q.a * q.b * Real.cos q.gamma ≤ 0 at d3
  change 2 * |q.b * q.c * Real.cos q.alpha + q.a * q.c * Real.cos q.beta + q.a * q.b * Real.cos q.gamma| =
    q.a ^ 2 + q.b ^ 2 at d4
  rw [e1, e2, e3, e4, e5] at d4
  rw [e2, e3] at d1
  rw [e1, e3, e4] at d2
  rw [e1, e2, e5] at d3
  rw [abs_of_nonpos (by linarith)] at d4
  rcases e6 with e6 | e6
  · linarith
  · exact e6 (by linarith)

/-! Cases. -/

/-- A comparison of matrices. -/
noncomputable def exact_ (M N : Matrix (Fin 3) (Fin 3) ℝ) : Bool := by classical exact decide (M = N)

theorem exact_one : exact_ 1 1 = true := by simp [exact_]

/-- Face-centred cubic vectors are not changed. -/
example : delint (fun _ _ => false) exact_ !![0, 1, 1; 1, 0, 1; 1, 1, 0] 1 = some !![0, 1, 1; 1, 0, 1; 1, 1, 0] :=
  delint_keeps exact_one (by norm_num) (by norm_num) (by decide)
    (by rw [Matrix.det_fin_three]; simp) (by
      unfold BasisEqs ClassEqs
      simp [Matrix.mul_apply, Fin.sum_univ_three])

/-- A box with sides 1, 1 and 4 is made a cube with sides 2. -/
example : ∃ W, delint (fun _ _ => false) exact_ !![1, 0, 0; 0, 1, 0; 0, 0, 4] 3 = some W ∧ BasisEqs 3 W := by
  have hV : (!![1, 0, 0; 0, 1, 0; 0, 0, 4] : Matrix (Fin 3) (Fin 3) ℝ).det ≠ 0 := by
    rw [Matrix.det_fin_three]; simp
  obtain ⟨W0, R, hW0, hVR, hR, hd⟩ := delint_core (equal := fun _ _ => false) exact_one hV
  have hc : ∀ s : ℝ, ∃ W, cell2basis ⟨s, s, s, Real.pi / 2, Real.pi / 2, Real.pi / 2⟩ = some W := fun s => by
    unfold cell2basis
    simp
  obtain ⟨W', hW'⟩ := hc (((basis2cell !![1, 0, 0; 0, 1, 0; 0, 0, 4]).a +
    (basis2cell !![1, 0, 0; 0, 1, 0; 0, 0, 4]).b + (basis2cell !![1, 0, 0; 0, 1, 0; 0, 0, 4]).c) / 3)
  have h : delint (fun _ _ => false) exact_ !![1, 0, 0; 0, 1, 0; 0, 0, 4] 3 = some (R * W') := by
    rw [hd 3, sym_3]
    change Option.bind (some _) _ = _
    rw [Option.bind_some, hW', Option.bind_some]
  exact ⟨_, h, delint_class exact_one (by norm_num) (by norm_num) (by decide) hV h⟩

/-- Hexagonal vectors meet the hypotheses of `delint_wrong`. -/
example : BasisClass 12 !![2, -1, 0; 0, Real.sqrt 3, 0; 0, 0, 3] ∧
    (!![2, -1, 0; 0, Real.sqrt 3, 0; 0, 0, 3] : Matrix (Fin 3) (Fin 3) ℝ).det ≠ 0 := by
  constructor
  · unfold BasisClass NiggliClass TypeII
    simp [Matrix.mul_apply, Fin.sum_univ_three]
    norm_num
  · rw [Matrix.det_fin_three]
    simp

/-- Vectors that meet the hypotheses of `delint_wrong_43`. -/
example : let V : Matrix (Fin 3) (Fin 3) ℝ := !![0, 0, -4; -3, -1, 2; -2, 4, -1]
    V.det ≠ 0 ∧ BasisClass 43 V ∧ (Vᵀ * V) 1 1 ≠ (Vᵀ * V) 2 2 ∧
      (Vᵀ * V) 0 2 ^ 2 * (Vᵀ * V) 1 1 ≠ (Vᵀ * V) 0 1 ^ 2 * (Vᵀ * V) 2 2 := by
  intro V
  refine ⟨?_, ?_, ?_, ?_⟩
  · rw [Matrix.det_fin_three]
    simp [V]
    norm_num
  · unfold BasisClass NiggliClass TypeII
    simp [V, Matrix.mul_apply, Fin.sum_univ_three]
    norm_num [abs_of_neg]
  · simp [V, Matrix.mul_apply, Fin.sum_univ_three]
    norm_num
  · simp [V, Matrix.mul_apply, Fin.sum_univ_three]
    norm_num

end AutoGR.Fortran
