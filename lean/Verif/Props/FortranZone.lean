import Verif.Props.FortranOutput
import Verif.Props.FortranStops

/-!
# C98: for which lattices the coordinates have room in `KPOINTS`
-/

namespace AutoGR.Fortran

open Spec Matrix

theorem det_metric_ge {A B C D E F : ℝ} (h : NiggliReduced A B C D E F) :
    A * B * C ≤ 4 * (metric A B C D E F).det := by
  rw [det_metric]
  have ab := h.ab
  have bc := h.bc
  have ha := h.pos
  have hb : 0 < B := by linarith
  have hc : 0 < C := by linarith
  have su := h.sum
  have hAB : 0 < A * B := mul_pos ha hb
  have hABC : 0 < A * B * C := mul_pos hAB hc
  rcases h.signs with ⟨h1, h2, h3, d, e, f⟩ | ⟨h1, h2, h3, d, e, f⟩
  · have p1 : 0 < D * E * F := by positivity
    have p2 : 4 * (A * D * D) ≤ A * B * C := by
      have : 4 * (D * D) ≤ B * C := by nlinarith
      nlinarith
    have p3 : 4 * (B * E * E) ≤ A * B * C := by
      have : 4 * (E * E) ≤ A * C := by nlinarith
      nlinarith
    have p4 : 4 * (C * F * F) ≤ A * B * C := by
      have : 4 * (F * F) ≤ A * B := by nlinarith
      nlinarith
    linarith
  · have p1 : 2 * (A * (D * D)) ≤ A * C * (-D) := by
      have : 2 * (D * D) ≤ C * (-D) := by nlinarith
      nlinarith
    have p2 : 2 * (B * (E * E)) ≤ A * C * (-E) := by
      have : 2 * (E * E) ≤ A * (-E) := by nlinarith
      have : 2 * (B * (E * E)) ≤ B * (A * (-E)) := by nlinarith
      have : B * (A * (-E)) ≤ C * (A * (-E)) := by
        apply mul_le_mul_of_nonneg_right bc; nlinarith
      linarith
    have p3 : 2 * (C * (F * F)) ≤ A * C * (-F) := by
      have : 2 * (F * F) ≤ A * (-F) := by nlinarith
      nlinarith
    have p4 : A * C * (-D - E - F) * 2 ≤ A * C * (A + B) := by
      have : 0 < A * C := mul_pos ha hc
      nlinarith
    have p5 : A * C * (A + B) ≤ 2 * (A * B * C) := by nlinarith [mul_pos ha hc]
    have p6 : 8 * ((-D) * (-E) * (-F)) ≤ A * B * C := by
      have q1 : 4 * ((-E) * (-F)) ≤ A * A := by nlinarith
      have q2 : 2 * (-D) * (4 * ((-E) * (-F))) ≤ B * (A * A) := by
        apply mul_le_mul (by linarith) q1 (by nlinarith) (by linarith)
      have q3 : B * (A * A) ≤ A * B * C := by nlinarith [mul_pos ha hb]
      nlinarith
    nlinarith

/-- The coordinates of the points of the first Brillouin zone, for a lattice given by reduced vectors. -/
theorem zone_coords {A B C D E F : ℝ} (h : NiggliReduced A B C D E F) {U : Matrix (Fin 3) (Fin 3) ℝ}
    (hU : Uᵀ * U = metric A B C D E F) {k : Fin 3 → ℝ} (hk : InFirstZone (Uᵀ)⁻¹ k) (i : Fin 3) :
    |(Uᵀ *ᵥ k) i| ≤ 4 := by
  have hdet := det_metric_pos h
  have hge := det_metric_ge h
  have hUd : U.det ≠ 0 := by
    intro h0
    rw [← hU, det_mul, h0, mul_zero] at hdet
    exact lt_irrefl _ hdet
  have hu := isUnit_iff_ne_zero.2 hUd
  obtain ⟨s, hs⟩ : ∃ s, s = U⁻¹ *ᵥ k := ⟨_, rfl⟩
  have ht : Uᵀ *ᵥ k = metric A B C D E F *ᵥ s := by
    rw [← hU, hs, mulVec_mulVec, Matrix.mul_assoc, mul_nonsing_inv _ hu, Matrix.mul_one]
  have hR : (Uᵀ)⁻¹ = (U⁻¹)ᵀ := (transpose_nonsing_inv U).symm
  have hG : U⁻¹ * (U⁻¹)ᵀ = (metric A B C D E F)⁻¹ := by
    rw [← hU, Matrix.mul_inv_rev, hR]
  have hs' : ∀ j, s j = ∑ i, k i * (Uᵀ)⁻¹ i j := by
    intro j
    rw [hs, hR]
    simp [mulVec, dotProduct, Fin.sum_univ_three]
    ring
  have hg : ∀ j, ∑ i, ((Uᵀ)⁻¹ i j) ^ 2 = (metric A B C D E F)⁻¹ j j := by
    intro j
    rw [← hG, hR, Matrix.mul_apply]
    simp [Fin.sum_univ_three, pow_two]
  have hb : ∀ j, |s j| ≤ (metric A B C D E F)⁻¹ j j / 2 := by
    intro j
    have h1 := hk (Pi.single j 1)
    have h2 := hk (Pi.single j (-1))
    rw [← hg, hs', abs_le]
    have e1 : ∀ (c : ℤ) i, ∑ l, (Uᵀ)⁻¹ i l * ((Pi.single j c : Fin 3 → ℤ) l : ℝ) = (Uᵀ)⁻¹ i j * c := by
      intro c i
      rw [Finset.sum_eq_single j]
      · simp
      · intro l _ hl
        simp [Pi.single_eq_of_ne hl]
      · simp
    simp only [e1] at h1 h2
    simp only [Fin.sum_univ_three] at h1 h2 ⊢
    push_cast at h1 h2
    constructor <;> nlinarith
  have ab := h.ab
  have bc := h.bc
  have ha := h.pos
  have hb0 : 0 < B := by linarith
  have hc0 : 0 < C := by linarith
  obtain ⟨δ, hδ⟩ : ∃ δ, δ = (metric A B C D E F).det := ⟨_, rfl⟩
  rw [← hδ] at hdet hge
  have hi : (metric A B C D E F)⁻¹ = δ⁻¹ • (metric A B C D E F).adjugate := by
    rw [Matrix.inv_def, Ring.inverse_eq_inv', hδ]
  have g0 : (metric A B C D E F)⁻¹ 0 0 * δ ≤ B * C := by
    rw [hi, Matrix.smul_apply, smul_eq_mul, mul_comm δ⁻¹, mul_assoc, inv_mul_cancel₀ hdet.ne']
    simp [metric, Matrix.adjugate_fin_three]
    nlinarith [mul_self_nonneg D]
  have g1 : (metric A B C D E F)⁻¹ 1 1 * δ ≤ A * C := by
    rw [hi, Matrix.smul_apply, smul_eq_mul, mul_comm δ⁻¹, mul_assoc, inv_mul_cancel₀ hdet.ne']
    simp [metric, Matrix.adjugate_fin_three]
    nlinarith [mul_self_nonneg E]
  have g2 : (metric A B C D E F)⁻¹ 2 2 * δ ≤ A * B := by
    rw [hi, Matrix.smul_apply, smul_eq_mul, mul_comm δ⁻¹, mul_assoc, inv_mul_cancel₀ hdet.ne']
    simp [metric, Matrix.adjugate_fin_three]
    nlinarith [mul_self_nonneg F]
  have b0 : |s 0| * δ ≤ B * C / 2 := by nlinarith [hb 0]
  have b1 : |s 1| * δ ≤ A * C / 2 := by nlinarith [hb 1]
  have b2 : |s 2| * δ ≤ A * B / 2 := by nlinarith [hb 2]
  have tri : ∀ x y z : ℝ, |x * s 0 + y * s 1 + z * s 2| ≤ |x| * |s 0| + |y| * |s 1| + |z| * |s 2| := by
    intro x y z
    rw [← abs_mul, ← abs_mul, ← abs_mul]
    exact abs_add_three _ _ _
  have step : ∀ {x y z a b c : ℝ}, |x| ≤ a → |y| ≤ b → |z| ≤ c → a ≤ A → b ≤ B → c ≤ C → a * (B * C) + b * (A * C) +
      c * (A * B) ≤ 2 * (A * B * C) → |x * s 0 + y * s 1 + z * s 2| ≤ 4 := by
    intro x y z a b c hx hy hz _ _ _ hsum
    refine le_of_mul_le_mul_right ?_ hdet
    have q0 : |x| * (|s 0| * δ) ≤ a * (B * C / 2) :=
      mul_le_mul hx b0 (by positivity) (le_trans (abs_nonneg _) hx)
    have q1 : |y| * (|s 1| * δ) ≤ b * (A * C / 2) :=
      mul_le_mul hy b1 (by positivity) (le_trans (abs_nonneg _) hy)
    have q2 : |z| * (|s 2| * δ) ≤ c * (A * B / 2) :=
      mul_le_mul hz b2 (by positivity) (le_trans (abs_nonneg _) hz)
    have := mul_le_mul_of_nonneg_right (tri x y z) hdet.le
    nlinarith
  have hd := h.d_le
  have he := h.e_le
  have hf := h.f_le
  rw [ht]
  fin_cases i
  · have := step (x := A) (y := F) (z := E) (a := A) (b := B / 2) (c := C / 2) (abs_of_pos ha).le (by linarith) (by linarith)
      le_rfl (by linarith) (by linarith) (by nlinarith)
    simpa [metric, mulVec, dotProduct, Fin.sum_univ_three] using this
  · have := step (x := F) (y := B) (z := D) (a := A / 2) (b := B) (c := C / 2) (by linarith) (abs_of_pos hb0).le (by linarith)
      (by linarith) le_rfl (by linarith) (by nlinarith)
    simpa [metric, mulVec, dotProduct, Fin.sum_univ_three] using this
  · have := step (x := E) (y := D) (z := C) (a := A / 2) (b := B / 2) (c := C) (by linarith) (by linarith)
      (abs_of_pos hc0).le (by linarith) (by linarith) le_rfl (by nlinarith)
    simpa [metric, mulVec, dotProduct, Fin.sum_univ_three] using this

/-- C98, the class where the file is right: if the lattice vectors (the columns of `lat`) are Niggli reduced, the file for any
points of the first Brillouin zone, with weights up to 99999, can be read and gives their coordinates and weights. -/
theorem kpoints_reduced_partial {rnd : ℚ → ℕ} {pad : ℕ} (hr : Rounds rnd) {lat : Matrix (Fin 3) (Fin 3) ℚ}
    {A B C D E F : ℝ} (h : NiggliReduced A B C D E F) (hU : (realMat lat)ᵀ * realMat lat = metric A B C D E F)
    (IRKps : List ((Fin 3 → ℚ) × ℤ))
    (hz : ∀ p ∈ IRKps, InFirstZone ((realMat lat)ᵀ)⁻¹ (fun i => (p.1 i : ℝ)) ∧ 0 ≤ p.2 ∧ p.2 ≤ 99999) :
    ∃ q, KpointsSay (kpointsFile rnd pad (latᵀ)⁻¹ IRKps) q ∧
      List.Forall₂ (fun p q => Same (latᵀ *ᵥ p.1, p.2) q) IRKps q := by
  have hd : lat.det ≠ 0 := by
    intro h0
    have h1 := det_metric_pos h
    rw [← hU, det_mul, realMat_det, h0, Rat.cast_zero, mul_zero] at h1
    exact lt_irrefl _ h1
  have hdT : latᵀ.det ≠ 0 := by rwa [det_transpose]
  have hu := isUnit_iff_ne_zero.2 hdT
  have hR : ((latᵀ)⁻¹).det ≠ 0 := by
    rw [det_nonsing_inv, Ring.inverse_eq_inv']
    exact inv_ne_zero hdT
  have hfit : ∀ p ∈ IRKps.map fun p => (latᵀ *ᵥ p.1, p.2), Fits p := by
    intro p hp
    obtain ⟨p, hp', rfl⟩ := List.mem_map.1 hp
    obtain ⟨h1, h2, h3⟩ := hz p hp'
    refine ⟨fun i => ?_, by dsimp only; omega, h3⟩
    have h4 := zone_coords h hU h1 i
    have e : ((realMat lat)ᵀ *ᵥ fun i => (p.1 i : ℝ)) i = (((latᵀ *ᵥ p.1) i : ℚ) : ℝ) := by
      simp [mulVec, dotProduct, realMat, Fin.sum_univ_three]
    rw [e] at h4
    have h5 : |(latᵀ *ᵥ p.1) i| ≤ 4 := by exact_mod_cast h4
    have h6 := abs_le.1 h5
    dsimp only
    constructor <;> norm_num <;> linarith [h6.1, h6.2]
  obtain ⟨q, h1, h2⟩ := kpoints_says (pad := pad) hr hR _ hfit
  refine ⟨q, ?_, ?_⟩
  · convert h1 using 2
    rw [List.map_map]
    symm
    convert List.map_id _ using 2
    funext p
    simp [mulVec_mulVec, nonsing_inv_mul _ hu]
  · rw [List.forall₂_map_left_iff] at h2
    exact h2

/-- A cubic lattice with skewed vectors. -/
def skewLat (N : ℚ) : Matrix (Fin 3) (Fin 3) ℚ := !![1, N, 0; 0, 1, 0; 0, 0, 1]

/-- C98, where the file is wrong: the simple cubic lattice given by the vectors (1,0,0), (N,1,0), (0,0,1), N ≥ 400.  The
point (1/4,0,0) and its opposite are in the first Brillouin zone, and a file that contains one of them cannot be read. -/
theorem kpoints_skewed {rnd : ℚ → ℕ} {pad : ℕ} (hr : Rounds rnd) {N : ℕ} (hN : 400 ≤ N) {x : ℚ} (hx : |x| = 1 / 4)
    (IRKps : List ((Fin 3 → ℚ) × ℤ)) {w : ℤ} (hk : (![x, 0, 0], w) ∈ IRKps) :
    InFirstZone ((realMat (skewLat N))ᵀ)⁻¹ (fun i => ((![x, 0, 0] : Fin 3 → ℚ) i : ℝ)) ∧
      ¬ ∃ q, KpointsSay (kpointsFile rnd pad ((skewLat N)ᵀ)⁻¹ IRKps) q := by
  have hinv : ((skewLat N)ᵀ)⁻¹ = !![1, 0, 0; -(N : ℚ), 1, 0; 0, 0, 1] := by
    refine inv_eq_right_inv ?_
    ext i j
    fin_cases i <;> fin_cases j <;> simp [skewLat, Matrix.mul_apply, Fin.sum_univ_three]
  have hdT : (skewLat N)ᵀ.det ≠ 0 := by simp [skewLat, det_fin_three]
  have hu := isUnit_iff_ne_zero.2 hdT
  have hR : (((skewLat N)ᵀ)⁻¹).det ≠ 0 := by
    rw [det_nonsing_inv, Ring.inverse_eq_inv']
    exact inv_ne_zero hdT
  constructor
  · intro m
    rw [← realMat_transpose, ← realMat_inv hdT, hinv]
    have hxr : (x : ℝ) ^ 2 = 1 / 16 := by
      have : x ^ 2 = 1 / 16 := by rw [← sq_abs, hx]; norm_num
      have h' : ((x ^ 2 : ℚ) : ℝ) = ((1 / 16 : ℚ) : ℝ) := congrArg _ this
      push_cast at h'
      exact h'
    have hm : (x : ℝ) ^ 2 ≤ (x - m 0) ^ 2 := by
      have hx' : |(x : ℝ)| = 1 / 4 := by
        have h' : ((|x| : ℚ) : ℝ) = ((1 / 4 : ℚ) : ℝ) := congrArg _ hx
        push_cast at h'
        exact h'
      rcases eq_or_ne (m 0) 0 with h0 | h0
      · rw [h0]; simp
      · have h1 : (1 : ℝ) ≤ |(m 0 : ℝ)| := by exact_mod_cast Int.one_le_abs h0
        rw [← sq_abs (x : ℝ), ← sq_abs ((x : ℝ) - m 0)]
        have h2 := abs_sub_abs_le_abs_sub (m 0 : ℝ) (x : ℝ)
        rw [abs_sub_comm] at h2
        refine pow_le_pow_left₀ (abs_nonneg _) ?_ 2
        linarith
    simp [Fin.sum_univ_three, realMat]
    nlinarith [sq_nonneg (-(N : ℝ) * (m 0) + m 1), sq_nonneg (m 2 : ℝ)]
  · have := kpoints_unreadable (pad := pad) hr hR (IRKps.map fun p => ((skewLat N)ᵀ *ᵥ p.1, p.2)) ?_
    · convert this using 5
      rw [List.map_map]
      symm
      convert List.map_id _ using 2
      funext p
      simp [mulVec_mulVec, nonsing_inv_mul _ hu]
    · refine ⟨_, List.mem_map.2 ⟨_, hk, rfl⟩, Or.inl ⟨1, ?_⟩⟩
      have e : ((skewLat N)ᵀ *ᵥ (![x, 0, 0] : Fin 3 → ℚ)) 1 = N * x := by
        simp [skewLat, mulVec, dotProduct, Fin.sum_univ_three]
      have hN' : (400 : ℚ) ≤ N := by exact_mod_cast hN
      dsimp only
      rw [e]
      rcases abs_cases x with ⟨h1, h2⟩ | ⟨h1, h2⟩
      · right
        rw [h1] at hx
        rw [hx]
        linarith
      · left
        have : x = -(1 / 4) := by linarith
        rw [this]
        linarith

/-- An orthorhombic lattice with a point on the boundary of the zone: the hypotheses of `kpoints_reduced_partial` are met. -/
example : NiggliReduced 1 4 9 0 0 0 ∧
    (realMat (diagonal ![1, 2, 3]))ᵀ * realMat (diagonal ![1, 2, 3]) = metric 1 4 9 0 0 0 ∧
    ∀ p ∈ [((![1 / 2, 0, 0] : Fin 3 → ℚ), (2 : ℤ))],
      InFirstZone ((realMat (diagonal ![1, 2, 3]))ᵀ)⁻¹ (fun i => (p.1 i : ℝ)) ∧ 0 ≤ p.2 ∧ p.2 ≤ 99999 := by
  refine ⟨?_, ?_, ?_⟩
  · constructor <;> norm_num [TypeII]
  · ext i j
    fin_cases i <;> fin_cases j <;>
      simp [realMat, metric, Matrix.mul_apply, Fin.sum_univ_three, Matrix.diagonal] <;> norm_num
  · intro p hp
    obtain rfl := List.mem_singleton.1 hp
    refine ⟨?_, by norm_num, by norm_num⟩
    have hinv : ((diagonal ![1, 2, 3] : Matrix (Fin 3) (Fin 3) ℚ)ᵀ)⁻¹ = diagonal ![1, 1 / 2, 1 / 3] := by
      refine inv_eq_right_inv ?_
      ext i j
      fin_cases i <;> fin_cases j <;> simp [Matrix.mul_apply, Matrix.diagonal]
    intro m
    rw [← realMat_transpose, ← realMat_inv (by simp [det_fin_three, Matrix.diagonal]), hinv]
    have hm : (1 / 2 : ℝ) ^ 2 ≤ (1 / 2 - m 0) ^ 2 := by
      have h0 : 0 ≤ m 0 * (m 0 - 1) := by
        rcases le_or_gt (m 0) 0 with h | h
        · nlinarith
        · exact mul_nonneg h.le (by omega)
      have : (0 : ℝ) ≤ m 0 * (m 0 - 1) := by exact_mod_cast h0
      nlinarith
    simp [Fin.sum_univ_three, realMat, Matrix.diagonal]
    norm_num at hm ⊢
    nlinarith [sq_nonneg (2⁻¹ * (m 1 : ℝ)), sq_nonneg (3⁻¹ * (m 2 : ℝ))]

end AutoGR.Fortran
