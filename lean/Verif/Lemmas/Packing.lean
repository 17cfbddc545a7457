import Mathlib.Analysis.Matrix.HermitianFunctionalCalculus
import Mathlib.Analysis.Matrix.PosDef
import Mathlib.Analysis.CStarAlgebra.ContinuousFunctionalCalculus.Commute
import Mathlib.LinearAlgebra.Matrix.NonsingularInverse
import Mathlib.Topology.Instances.Matrix
import Verif.Spec.Packing
import Verif.Lemmas.ClassSym

/-!
# Densely packed symmetric grids

For a lattice with basis `P` whose symmetries leave an integer form `M` unchanged, there are sublattices `P A`, `A`
integer and commuting with the symmetries, whose duals come as close in shape to `M` as one likes.
-/

namespace AutoGR

open Spec Matrix Filter Topology

/-- A positive definite matrix has an inverse square root, which commutes with everything the matrix commutes
with. -/
theorem exists_inv_sqrt {S : Matrix (Fin 3) (Fin 3) ℝ} (hS : S.PosDef) :
    ∃ Z : Matrix (Fin 3) (Fin 3) ℝ, Zᵀ = Z ∧ Z * Z * S = 1 ∧ ∀ R, S * R = R * S → Z * R = R * Z := by
  have hsa : IsSelfAdjoint S := hS.1
  have hpos : ∀ x ∈ spectrum ℝ S, 0 < x := by
    intro x hx
    obtain ⟨i, rfl⟩ := hS.1.spectrum_real_eq_range_eigenvalues ▸ hx
    exact hS.eigenvalues_pos i
  have hc : ContinuousOn (fun x : ℝ => (√x)⁻¹) (spectrum ℝ S) := by
    refine ContinuousOn.inv₀ Real.continuous_sqrt.continuousOn fun x hx => ?_
    exact (Real.sqrt_pos.2 (hpos x hx)).ne'
  refine ⟨cfc (fun x : ℝ => (√x)⁻¹) S, ?_, ?_, fun R hR => ?_⟩
  · have : IsSelfAdjoint (cfc (fun x : ℝ => (√x)⁻¹) S) := cfc_predicate _ _
    simpa [IsSelfAdjoint, star_eq_conjTranspose] using this
  · have hid : cfc (fun x : ℝ => x) S = S := cfc_id' ℝ S
    rw [← cfc_mul _ _ S hc hc]
    nth_rw 2 [← hid]
    rw [← cfc_mul (fun x : ℝ => (√x)⁻¹ * (√x)⁻¹) (fun x : ℝ => x) S (hc.mul hc) continuousOn_id]
    rw [← cfc_one ℝ S]
    refine cfc_congr fun x hx => ?_
    have := hpos x hx
    have h2 := Real.sq_sqrt this.le
    have h3 := (Real.sqrt_pos.2 this).ne'
    field_simp
    simpa using h2.symm
  · exact (Commute.cfc_real (show Commute S R from hR) _)

/-! ## Forms with a large minimum -/

/-- The value of the form with matrix `Y` (of which the upper part is used) at `(x, y, z)`. -/
def qf (Y : Matrix (Fin 3) (Fin 3) ℝ) (x y z : ℝ) : ℝ :=
  x * (Y 0 0 * x + Y 0 1 * y + Y 0 2 * z) + y * (Y 0 1 * x + Y 1 1 * y + Y 1 2 * z) +
    z * (Y 0 2 * x + Y 1 2 * y + Y 2 2 * z)

/-- The determinant of the form. -/
def qdet (Y : Matrix (Fin 3) (Fin 3) ℝ) : ℝ :=
  Y 0 0 * Y 1 1 * Y 2 2 + 2 * Y 1 2 * Y 0 2 * Y 0 1 - Y 0 0 * Y 1 2 * Y 1 2 - Y 1 1 * Y 0 2 * Y 0 2 -
    Y 2 2 * Y 0 1 * Y 0 1

/-- Inequalities that make the minimum of the form large, compared with its determinant. -/
structure Tight (Y : Matrix (Fin 3) (Fin 3) ℝ) : Prop where
  a : 0 < Y 0 0
  b : 0 < Y 1 1
  p1 : 0 < Y 1 1 * Y 2 2 - Y 1 2 * Y 1 2
  p2 : 0 < Y 0 0 * Y 2 2 - Y 0 2 * Y 0 2
  p3 : 0 < Y 0 0 * Y 1 1 - Y 0 1 * Y 0 1
  d : 0 < qdet Y
  s1 : 9 / 25 * (Y 1 1 * Y 2 2 - Y 1 2 * Y 1 2) ^ 3 < 64 * qdet Y ^ 2
  s2 : 9 / 25 * (Y 0 0 * Y 2 2 - Y 0 2 * Y 0 2) ^ 3 < 64 * qdet Y ^ 2
  s3 : 9 / 25 * (Y 0 0 * Y 1 1 - Y 0 1 * Y 0 1) ^ 3 < 64 * qdet Y ^ 2
  v : ∀ v ∈ Form.vecs, v ≠ 0 → 9 / 25 * qdet Y < qf Y v.1 v.2.1 v.2.2 ^ 3

theorem coord_le_real {A B C D E F x y z : ℝ} (hB : 0 < B) (hP : 0 < B * C - D * D) :
    (A * B * C + 2 * D * E * F - A * D * D - B * E * E - C * F * F) * (x * x) ≤
      (B * C - D * D) *
      (x * (A * x + F * y + E * z) + y * (F * x + B * y + D * z) + z * (E * x + D * y + C * z)) := by
  have h : B * ((B * C - D * D) * (x * (A * x + F * y + E * z) + y * (F * x + B * y + D * z) +
      z * (E * x + D * y + C * z)) -
      (A * B * C + 2 * D * E * F - A * D * D - B * E * E - C * F * F) * (x * x)) =
      (B * C - D * D) * (B * y + F * x + D * z) ^ 2 +
        ((B * C - D * D) * z + (E * B - F * D) * x) ^ 2 := by ring
  have h2 : 0 ≤ B * ((B * C - D * D) * (x * (A * x + F * y + E * z) + y * (F * x + B * y + D * z) +
      z * (E * x + D * y + C * z)) -
      (A * B * C + 2 * D * E * F - A * D * D - B * E * E - C * F * F) * (x * x)) := by
    rw [h]; positivity
  have := nonneg_of_mul_nonneg_right h2 hB
  linarith

theorem Tight.coord {Y : Matrix (Fin 3) (Fin 3) ℝ} (h : Tight Y) (x y z : ℝ) :
    qdet Y * (x * x) ≤ (Y 1 1 * Y 2 2 - Y 1 2 * Y 1 2) * qf Y x y z ∧
    qdet Y * (y * y) ≤ (Y 0 0 * Y 2 2 - Y 0 2 * Y 0 2) * qf Y x y z ∧
    qdet Y * (z * z) ≤ (Y 0 0 * Y 1 1 - Y 0 1 * Y 0 1) * qf Y x y z := by
  have h1 := coord_le_real (A := Y 0 0) (E := Y 0 2) (F := Y 0 1) (x := x) (y := y) (z := z) h.b h.p1
  have h2 := coord_le_real (A := Y 1 1) (E := Y 1 2) (F := Y 0 1) (x := y) (y := x) (z := z) h.a h.p2
  have h3 := coord_le_real (A := Y 2 2) (E := Y 1 2) (F := Y 0 2) (x := z) (y := x) (z := y) h.a h.p3
  unfold qdet qf
  refine ⟨?_, ?_, ?_⟩ <;> linarith

theorem large_coord {d P q x : ℝ} (hd : 0 < d) (hP : 0 < P) (h : d * (x * x) ≤ P * q) (hx : 4 ≤ x * x)
    (hs : 9 / 25 * P ^ 3 < 64 * d ^ 2) : 9 / 25 * d ≤ q ^ 3 := by
  have h1 : d * 4 ≤ P * q := (mul_le_mul_of_nonneg_left hx hd.le).trans h
  have h2 : (d * 4) ^ 3 ≤ (P * q) ^ 3 := pow_le_pow_left₀ (by positivity) h1 3
  have h3 : 9 / 25 * P ^ 3 * d ≤ 64 * d ^ 2 * d := mul_le_mul_of_nonneg_right hs.le hd.le
  have h4 : P ^ 3 * (9 / 25 * d) ≤ P ^ 3 * q ^ 3 := by nlinarith
  exact le_of_mul_le_mul_left h4 (by positivity)

theorem Tight.min {Y : Matrix (Fin 3) (Fin 3) ℝ} (h : Tight Y) (x y z : ℤ) (hv : (x, y, z) ≠ 0) :
    9 / 25 * qdet Y ≤ qf Y x y z ^ 3 := by
  obtain ⟨c1, c2, c3⟩ := h.coord x y z
  have key : ∀ t : ℤ, ¬ (-1 ≤ t ∧ t ≤ 1) → (4 : ℝ) ≤ t * t := by
    intro t ht
    have : 4 ≤ t * t := by
      rcases lt_or_ge t (-1) with h | h
      · nlinarith
      · have : 2 ≤ t := by omega
        nlinarith
    exact_mod_cast this
  by_cases hx : -1 ≤ x ∧ x ≤ 1
  · by_cases hy : -1 ≤ y ∧ y ≤ 1
    · by_cases hz : -1 ≤ z ∧ z ≤ 1
      · exact (h.v _ (Form.mem_vecs hx hy hz) hv).le
      · exact large_coord h.d h.p3 c3 (key z hz) h.s3
    · exact large_coord h.d h.p2 c2 (key y hy) h.s2
  · exact large_coord h.d h.p1 c1 (key x hx) h.s1

theorem Tight.pos {Y : Matrix (Fin 3) (Fin 3) ℝ} (h : Tight Y) {x y z : ℝ} (hv : ¬ (x = 0 ∧ y = 0 ∧ z = 0)) :
    0 < qf Y x y z := by
  obtain ⟨c1, c2, c3⟩ := h.coord x y z
  have key : ∀ {P t : ℝ}, 0 < P → t ≠ 0 → qdet Y * (t * t) ≤ P * qf Y x y z → 0 < qf Y x y z := by
    intro P t hP ht hc
    have : 0 < qdet Y * (t * t) := mul_pos h.d (mul_self_pos.2 ht)
    exact pos_of_mul_pos_right (this.trans_le hc) hP.le
  by_cases hx : x = 0
  · by_cases hy : y = 0
    · exact key h.p3 (fun hz => hv ⟨hx, hy, hz⟩) c3
    · exact key h.p2 hy c2
  · exact key h.p1 hx c1

theorem continuous_qdet : Continuous qdet := by unfold qdet; fun_prop

theorem continuous_qf (x y z : ℝ) : Continuous fun Y => qf Y x y z := by unfold qf; fun_prop

theorem tight_eventually {Y : Matrix (Fin 3) (Fin 3) ℝ} (h : Tight Y) : ∀ᶠ Y' in 𝓝 Y, Tight Y' := by
  have hq := continuous_qdet
  have e (f g : Matrix (Fin 3) (Fin 3) ℝ → ℝ) (hf : Continuous f) (hg : Continuous g) (hlt : f Y < g Y) :
      ∀ᶠ Y' in 𝓝 Y, f Y' < g Y' := hf.continuousAt.eventually_lt hg.continuousAt hlt
  have hv : ∀ᶠ Y' in 𝓝 Y, ∀ v ∈ {v | v ∈ Form.vecs}, v ≠ 0 → 9 / 25 * qdet Y' < qf Y' v.1 v.2.1 v.2.2 ^ 3 := by
    rw [eventually_all_finite (List.finite_toSet Form.vecs)]
    intro v hv
    by_cases h0 : v = 0
    · exact Eventually.of_forall fun _ h => absurd h0 h
    · have := e (fun Y => 9 / 25 * qdet Y) (fun Y => qf Y v.1 v.2.1 v.2.2 ^ 3) (by fun_prop)
        ((continuous_qf _ _ _).pow 3) (h.v v hv h0)
      exact this.mono fun _ h _ => h
  filter_upwards [e (fun _ => 0) (fun Y => Y 0 0) (by fun_prop) (by fun_prop) h.a,
    e (fun _ => 0) (fun Y => Y 1 1) (by fun_prop) (by fun_prop) h.b,
    e (fun _ => 0) (fun Y => Y 1 1 * Y 2 2 - Y 1 2 * Y 1 2) (by fun_prop) (by fun_prop) h.p1,
    e (fun _ => 0) (fun Y => Y 0 0 * Y 2 2 - Y 0 2 * Y 0 2) (by fun_prop) (by fun_prop) h.p2,
    e (fun _ => 0) (fun Y => Y 0 0 * Y 1 1 - Y 0 1 * Y 0 1) (by fun_prop) (by fun_prop) h.p3,
    e (fun _ => 0) qdet (by fun_prop) (by fun_prop) h.d,
    e (fun Y => 9 / 25 * (Y 1 1 * Y 2 2 - Y 1 2 * Y 1 2) ^ 3) (fun Y => 64 * qdet Y ^ 2) (by fun_prop)
      (by fun_prop) h.s1,
    e (fun Y => 9 / 25 * (Y 0 0 * Y 2 2 - Y 0 2 * Y 0 2) ^ 3) (fun Y => 64 * qdet Y ^ 2) (by fun_prop)
      (by fun_prop) h.s2,
    e (fun Y => 9 / 25 * (Y 0 0 * Y 1 1 - Y 0 1 * Y 0 1) ^ 3) (fun Y => 64 * qdet Y ^ 2) (by fun_prop)
      (by fun_prop) h.s3, hv] with Y' h1 h2 h3 h4 h5 h6 h7 h8 h9 h10
  exact ⟨h1, h2, h3, h4, h5, h6, h7, h8, h9, h10⟩

/-- An integer form, checked by computation. -/
def Form.tight (M : Form) : Bool :=
  let P1 := M.B * M.C - M.D * M.D
  let P2 := M.A * M.C - M.E * M.E
  let P3 := M.A * M.B - M.F * M.F
  0 < M.A && 0 < M.B && 0 < P1 && 0 < P2 && 0 < P3 && 0 < M.det &&
  9 * P1 ^ 3 < 1600 * M.det ^ 2 && 9 * P2 ^ 3 < 1600 * M.det ^ 2 && 9 * P3 ^ 3 < 1600 * M.det ^ 2 &&
  Form.vecs.all fun v => v = 0 || 9 * M.det < 25 * M.bil v v ^ 3

theorem Form.tight_spec {M : Form} (h : M.tight = true) : Tight (toReal M.mat) := by
  obtain ⟨A, B, C, D, E, F⟩ := M
  simp only [Form.tight, Bool.and_eq_true, decide_eq_true_eq, List.all_eq_true, Bool.or_eq_true] at h
  unfold Form.det at h
  obtain ⟨⟨⟨⟨⟨⟨⟨⟨⟨a, b⟩, p1⟩, p2⟩, p3⟩, d⟩, s1⟩, s2⟩, s3⟩, v⟩ := h
  have hd : qdet (toReal (Form.mat ⟨A, B, C, D, E, F⟩)) = ((A * B * C + 2 * D * E * F - A * D * D - B * E * E -
      C * F * F : ℤ) : ℝ) := by
    simp [qdet, toReal, Form.mat]
  have e00 : toReal (Form.mat ⟨A, B, C, D, E, F⟩) 0 0 = (A : ℝ) := by simp [toReal, Form.mat]
  have e11 : toReal (Form.mat ⟨A, B, C, D, E, F⟩) 1 1 = (B : ℝ) := by simp [toReal, Form.mat]
  have e22 : toReal (Form.mat ⟨A, B, C, D, E, F⟩) 2 2 = (C : ℝ) := by simp [toReal, Form.mat]
  have e12 : toReal (Form.mat ⟨A, B, C, D, E, F⟩) 1 2 = (D : ℝ) := by simp [toReal, Form.mat]
  have e02 : toReal (Form.mat ⟨A, B, C, D, E, F⟩) 0 2 = (E : ℝ) := by simp [toReal, Form.mat]
  have e01 : toReal (Form.mat ⟨A, B, C, D, E, F⟩) 0 1 = (F : ℝ) := by simp [toReal, Form.mat]
  have key : ∀ P : ℤ, 9 * P ^ 3 < 1600 * (A * B * C + 2 * D * E * F - A * D * D - B * E * E - C * F * F) ^ 2 →
      9 / 25 * (P : ℝ) ^ 3 < 64 * ((A * B * C + 2 * D * E * F - A * D * D - B * E * E - C * F * F : ℤ) : ℝ) ^ 2 := by
    intro P hP
    have : (9 * P ^ 3 : ℝ) <
        1600 * ((A * B * C + 2 * D * E * F - A * D * D - B * E * E - C * F * F : ℤ) : ℝ) ^ 2 := by exact_mod_cast hP
    linarith
  refine ⟨?_, ?_, ?_, ?_, ?_, ?_, ?_, ?_, ?_, ?_⟩
  · rw [e00]; exact_mod_cast a
  · rw [e11]; exact_mod_cast b
  · rw [e11, e22, e12]; exact_mod_cast p1
  · rw [e00, e22, e02]; exact_mod_cast p2
  · rw [e00, e11, e01]; exact_mod_cast p3
  · rw [hd]; exact_mod_cast d
  · rw [hd, e11, e22, e12]; exact_mod_cast key _ s1
  · rw [hd, e00, e22, e02]; exact_mod_cast key _ s2
  · rw [hd, e00, e11, e01]; exact_mod_cast key _ s3
  · rintro ⟨x, y, z⟩ hv h0
    have := (v _ hv).resolve_left h0
    have hq : qf (toReal (Form.mat ⟨A, B, C, D, E, F⟩)) x y z =
        ((Form.bil ⟨A, B, C, D, E, F⟩ (x, y, z) (x, y, z) : ℤ) : ℝ) := by
      unfold qf
      rw [e00, e11, e22, e12, e02, e01]
      simp [Form.bil]
    rw [hd, hq]
    have h' : (9 * ((A * B * C + 2 * D * E * F - A * D * D - B * E * E - C * F * F : ℤ) : ℝ)) <
        25 * ((Form.bil ⟨A, B, C, D, E, F⟩ (x, y, z) (x, y, z) : ℤ) : ℝ) ^ 3 := by exact_mod_cast this
    linarith

theorem qf_eq {Y : Matrix (Fin 3) (Fin 3) ℝ} (hY : Yᵀ = Y) (v : Fin 3 → ℝ) :
    v ⬝ᵥ Y *ᵥ v = qf Y (v 0) (v 1) (v 2) := by
  have h10 : Y 1 0 = Y 0 1 := congrFun (congrFun hY 0) 1
  have h20 : Y 2 0 = Y 0 2 := congrFun (congrFun hY 0) 2
  have h21 : Y 2 1 = Y 1 2 := congrFun (congrFun hY 1) 2
  simp only [dotProduct, mulVec, Fin.sum_univ_three, qf, h10, h20, h21]

theorem qdet_eq {Y : Matrix (Fin 3) (Fin 3) ℝ} (hY : Yᵀ = Y) : Y.det = qdet Y := by
  have h10 : Y 1 0 = Y 0 1 := congrFun (congrFun hY 0) 1
  have h20 : Y 2 0 = Y 0 2 := congrFun (congrFun hY 0) 2
  have h21 : Y 2 1 = Y 1 2 := congrFun (congrFun hY 1) 2
  rw [det_fin_three, qdet, h10, h20, h21]
  ring

theorem Tight.posDef {Y : Matrix (Fin 3) (Fin 3) ℝ} (h : Tight Y) (hY : Yᵀ = Y) : Y.PosDef := by
  refine Matrix.PosDef.of_dotProduct_mulVec_pos ?_ fun v hv => ?_
  · simpa [Matrix.IsHermitian] using hY
  · rw [star_trivial, qf_eq hY]
    refine h.pos fun ⟨h0, h1, h2⟩ => hv ?_
    ext i
    fin_cases i <;> assumption

/-! ## Integer matrices that commute with the symmetries -/

/-- A real matrix that commutes with the symmetries and makes the shape of the dual of `P T` that of `M`. -/
theorem exists_shape {P M : Matrix (Fin 3) (Fin 3) ℝ} (hP : P.det ≠ 0) (hM : M.PosDef) (Gs : Finset IntMat)
    (hG : ∀ X ∈ Gs, ∃ R : Matrix (Fin 3) (Fin 3) ℝ, Rᵀ * R = 1 ∧ R * P = P * toReal X)
    (hX : ∀ X ∈ Gs, toReal X * M * (toReal X)ᵀ = M) :
    ∃ T : Matrix (Fin 3) (Fin 3) ℝ, (∀ X ∈ Gs, T * toReal X = toReal X * T) ∧ (P * T)ᵀ * (P * T) * M = 1 := by
  have hPu : IsUnit P.det := isUnit_iff_ne_zero.2 hP
  have hPt : IsUnit Pᵀ.det := by rwa [det_transpose]
  have hS : (P * M * Pᵀ).PosDef := by
    have hinj : Function.Injective Pᵀ.mulVec := mulVec_injective_of_isUnit ((isUnit_iff_isUnit_det _).2 hPt)
    have := hM.conjTranspose_mul_mul_same hinj
    simpa using this
  obtain ⟨Z, z1, z2, z3⟩ := exists_inv_sqrt hS
  have i1 : P⁻¹ * P = 1 := nonsing_inv_mul _ hPu
  have i2 : P * P⁻¹ = 1 := mul_nonsing_inv _ hPu
  have i3 : Pᵀ * Pᵀ⁻¹ = 1 := mul_nonsing_inv _ hPt
  refine ⟨P⁻¹ * Z * P, fun X hXG => ?_, ?_⟩
  · obtain ⟨R, r1, r2⟩ := hG X hXG
    have r1' : R * Rᵀ = 1 := mul_eq_one_comm.1 r1
    have hSR : (P * M * Pᵀ) * R = R * (P * M * Pᵀ) := by
      have e : R * (P * M * Pᵀ) * Rᵀ = P * M * Pᵀ := by
        calc R * (P * M * Pᵀ) * Rᵀ = (R * P) * M * (R * P)ᵀ := by
              simp only [transpose_mul, Matrix.mul_assoc]
          _ = P * (toReal X * M * (toReal X)ᵀ) * Pᵀ := by
              rw [r2]; simp only [transpose_mul, Matrix.mul_assoc]
          _ = P * M * Pᵀ := by rw [hX X hXG]
      calc (P * M * Pᵀ) * R = R * (P * M * Pᵀ) * (Rᵀ * R) := by
            rw [← Matrix.mul_assoc _ Rᵀ R, e]
        _ = R * (P * M * Pᵀ) := by rw [r1, Matrix.mul_one]
    have hZR := z3 R hSR
    calc P⁻¹ * Z * P * toReal X = P⁻¹ * (Z * R) * P := by
          rw [Matrix.mul_assoc _ P, ← r2]; simp only [Matrix.mul_assoc]
      _ = P⁻¹ * (R * P) * P⁻¹ * Z * P := by
          rw [hZR]
          calc P⁻¹ * (R * Z) * P = P⁻¹ * R * (P * P⁻¹) * Z * P := by
                rw [i2]; simp only [Matrix.mul_assoc, Matrix.one_mul]
            _ = P⁻¹ * (R * P) * P⁻¹ * Z * P := by simp only [Matrix.mul_assoc]
      _ = toReal X * (P⁻¹ * Z * P) := by
          rw [r2, ← Matrix.mul_assoc P⁻¹, i1, Matrix.one_mul]
          simp only [Matrix.mul_assoc]
  · have e : P * (P⁻¹ * Z * P) = Z * P := by
      rw [← Matrix.mul_assoc, ← Matrix.mul_assoc, i2, Matrix.one_mul]
    rw [e, transpose_mul, z1]
    calc Pᵀ * Z * (Z * P) * M = Pᵀ * (Z * Z * (P * M * Pᵀ)) * Pᵀ⁻¹ := by
          calc Pᵀ * Z * (Z * P) * M = Pᵀ * Z * (Z * P) * M * (Pᵀ * Pᵀ⁻¹) := by rw [i3, Matrix.mul_one]
            _ = Pᵀ * (Z * Z * (P * M * Pᵀ)) * Pᵀ⁻¹ := by simp only [Matrix.mul_assoc]
      _ = 1 := by rw [z2, Matrix.mul_one, i3]

theorem tendsto_floor (t : ℝ) : Tendsto (fun m : ℕ => (m : ℝ)⁻¹ * (⌊m * t⌋ : ℝ)) atTop (𝓝 t) := by
  have h1 : Tendsto (fun m : ℕ => t - (m : ℝ)⁻¹) atTop (𝓝 t) := by
    have := (tendsto_const_nhds (x := t)).sub (tendsto_inv_atTop_nhds_zero_nat (𝕜 := ℝ))
    simpa using this
  refine tendsto_of_tendsto_of_tendsto_of_le_of_le' h1 tendsto_const_nhds ?_ ?_
  · filter_upwards [eventually_ge_atTop 1] with m hm
    have hm' : (0 : ℝ) < m := by exact_mod_cast hm
    have := Int.lt_floor_add_one ((m : ℝ) * t)
    rw [← sub_nonneg]
    have : (m : ℝ)⁻¹ * (⌊m * t⌋ : ℝ) - (t - (m : ℝ)⁻¹) = (m : ℝ)⁻¹ * ((⌊m * t⌋ : ℝ) + 1 - m * t) := by
      field_simp
      ring
    rw [this]
    exact mul_nonneg (by positivity) (by linarith)
  · filter_upwards [eventually_ge_atTop 1] with m hm
    have hm' : (0 : ℝ) < m := by exact_mod_cast hm
    have := Int.floor_le ((m : ℝ) * t)
    calc (m : ℝ)⁻¹ * (⌊m * t⌋ : ℝ) ≤ (m : ℝ)⁻¹ * (m * t) := by gcongr
      _ = t := by field_simp

/-- A finite group of integer matrices. -/
structure IsMatGroup (Gs : Finset IntMat) : Prop where
  one : 1 ∈ Gs
  mul : ∀ X ∈ Gs, ∀ Y ∈ Gs, X * Y ∈ Gs
  inv : ∀ X ∈ Gs, ∃ Y ∈ Gs, X * Y = 1

theorem IsMatGroup.unit {Gs : Finset IntMat} (h : IsMatGroup Gs) {X : IntMat} (hX : X ∈ Gs) :
    X * X⁻¹ = 1 ∧ X⁻¹ * X = 1 ∧ X⁻¹ ∈ Gs := by
  obtain ⟨Y, hY, e⟩ := h.inv X hX
  have hi : X⁻¹ = Y := inv_eq_right_inv e
  rw [hi]
  exact ⟨e, mul_eq_one_comm.1 e, hY⟩

/-- The sum over the group. -/
noncomputable def average (Gs : Finset IntMat) (F : IntMat) : IntMat := ∑ X ∈ Gs, X * F * X⁻¹

theorem average_commutes {Gs : Finset IntMat} (h : IsMatGroup Gs) (F : IntMat) {Y : IntMat} (hY : Y ∈ Gs) :
    Y * average Gs F = average Gs F * Y := by
  obtain ⟨y1, y2, y3⟩ := h.unit hY
  have key : Y * average Gs F * Y⁻¹ = average Gs F := by
    unfold average
    rw [Finset.mul_sum, Finset.sum_mul]
    refine Finset.sum_nbij' (fun X => Y * X) (fun X => Y⁻¹ * X) (fun X hX => h.mul _ hY _ hX)
      (fun X hX => h.mul _ y3 _ hX) (fun X _ => ?_) (fun X _ => ?_) fun X hX => ?_
    · rw [← Matrix.mul_assoc, y2, Matrix.one_mul]
    · rw [← Matrix.mul_assoc, y1, Matrix.one_mul]
    · have : (Y * X)⁻¹ = X⁻¹ * Y⁻¹ := Matrix.mul_inv_rev Y X
      rw [this]
      simp only [Matrix.mul_assoc]
  calc Y * average Gs F = Y * average Gs F * (Y⁻¹ * Y) := by rw [y2, Matrix.mul_one]
    _ = average Gs F * Y := by rw [← Matrix.mul_assoc, key]

theorem exists_approx {Gs : Finset IntMat} (h : IsMatGroup Gs) {T : Matrix (Fin 3) (Fin 3) ℝ}
    (hT : ∀ X ∈ Gs, T * toReal X = toReal X * T) :
    ∃ A : ℕ → IntMat, (∀ m, ∀ X ∈ Gs, X * A m = A m * X) ∧
      Tendsto (fun m : ℕ => ((m : ℝ) * Gs.card)⁻¹ • toReal (A m)) atTop (𝓝 T) := by
  refine ⟨fun m => average Gs (T.map fun t => ⌊m * t⌋), fun m X hX => average_commutes h _ hX, ?_⟩
  have hg : (Gs.card : ℝ) ≠ 0 := by
    have : 0 < Gs.card := Finset.card_pos.2 ⟨1, h.one⟩
    positivity
  have hF : Tendsto (fun m : ℕ => (m : ℝ)⁻¹ • toReal (T.map fun t => ⌊m * t⌋)) atTop (𝓝 T) := by
    refine tendsto_pi_nhds.2 fun i => tendsto_pi_nhds.2 fun j => ?_
    simpa [toReal] using tendsto_floor (T i j)
  have hc : Continuous fun B : Matrix (Fin 3) (Fin 3) ℝ =>
      (Gs.card : ℝ)⁻¹ • ∑ X ∈ Gs, toReal X * B * toReal X⁻¹ := by fun_prop
  have hlim := (hc.tendsto T).comp hF
  have hTT : (Gs.card : ℝ)⁻¹ • ∑ X ∈ Gs, toReal X * T * toReal X⁻¹ = T := by
    have : ∑ X ∈ Gs, toReal X * T * toReal X⁻¹ = ∑ X ∈ Gs, T := by
      refine Finset.sum_congr rfl fun X hX => ?_
      rw [← hT X hX, Matrix.mul_assoc, ← toReal_mul, (h.unit hX).1, toReal_one, Matrix.mul_one]
    rw [this, Finset.sum_const, ← Nat.cast_smul_eq_nsmul ℝ, smul_smul, inv_mul_cancel₀ hg, one_smul]
  rw [hTT] at hlim
  refine hlim.congr fun m => ?_
  simp only [Function.comp, average]
  have hsum : toReal (∑ X ∈ Gs, X * (T.map fun t => ⌊m * t⌋) * X⁻¹) =
      ∑ X ∈ Gs, toReal X * toReal (T.map fun t => ⌊m * t⌋) * toReal X⁻¹ := by
    have hadd : ∀ X Y : IntMat, toReal (X + Y) = toReal X + toReal Y := fun X Y => by
      ext i j
      simp [toReal]
    have h0 : toReal 0 = 0 := by ext i j; simp [toReal]
    let f : IntMat →+ Matrix (Fin 3) (Fin 3) ℝ := ⟨⟨toReal, h0⟩, hadd⟩
    rw [show toReal (∑ X ∈ Gs, X * (T.map fun t => ⌊m * t⌋) * X⁻¹) =
      f (∑ X ∈ Gs, X * (T.map fun t => ⌊m * t⌋) * X⁻¹) from rfl, map_sum]
    refine Finset.sum_congr rfl fun X _ => ?_
    show toReal _ = _
    rw [toReal_mul, toReal_mul]
  rw [hsum, mul_inv, mul_comm, mul_smul]
  congr 1
  rw [Finset.smul_sum]
  refine Finset.sum_congr rfl fun X _ => ?_
  rw [mul_smul_comm, smul_mul_assoc]

/-! ## Dense grids -/

/-- The cube of the square of the length of each vector of the grid is large. -/
def Dense (K : Matrix (Fin 3) (Fin 3) ℝ) : Prop :=
  ∀ v : Fin 3 → ℤ, v ≠ 0 → 9 / 25 * K.det ^ 2 ≤ (∑ i, (K *ᵥ fun j => (v j : ℝ)) i ^ 2) ^ 3

theorem Dense.packed {K : Matrix (Fin 3) (Fin 3) ℝ} (h : Dense K) : PackedAtLeast (31 / 100) K := by
  intro v hv
  have h1 := h v hv
  unfold gridLength
  set q := ∑ i, (K *ᵥ fun j => (v j : ℝ)) i ^ 2 with hq
  have hq0 : 0 ≤ q := Finset.sum_nonneg fun i _ => sq_nonneg _
  have h2 : (3 / 5 * |K.det|) ^ 2 ≤ (√q ^ 3) ^ 2 := by
    have e : (√q ^ 3) ^ 2 = q ^ 3 := by rw [← pow_mul, mul_comm, pow_mul, Real.sq_sqrt hq0]
    rw [e, mul_pow, sq_abs]
    linarith
  have h3 : 3 / 5 * |K.det| ≤ √q ^ 3 := by
    have := abs_le_of_sq_le_sq h2 (by positivity)
    exact (le_abs_self _).trans this
  have hpi := Real.pi_gt_d2
  have h4 : (0 : ℝ) ≤ |K.det| := abs_nonneg _
  have h5 : (0 : ℝ) ≤ √q ^ 3 := by positivity
  nlinarith

theorem dense_of_gram {K Y : Matrix (Fin 3) (Fin 3) ℝ} {s : ℝ} (hs : 0 ≤ s) (hY : Tight Y) (hYt : Yᵀ = Y)
    (h : Kᵀ * K = s • Y) : Dense K := by
  intro v hv
  have h1 : K.det ^ 2 = s ^ 3 * qdet Y := by
    have := congrArg Matrix.det h
    rw [det_mul, det_transpose, det_smul, qdet_eq hYt, Fintype.card_fin] at this
    rw [← this]
    ring
  have h2 : ∑ i, (K *ᵥ fun j => (v j : ℝ)) i ^ 2 = s * qf Y (v 0) (v 1) (v 2) := by
    have e : ∑ i, (K *ᵥ fun j => (v j : ℝ)) i ^ 2 =
        (K *ᵥ fun j => (v j : ℝ)) ⬝ᵥ (K *ᵥ fun j => (v j : ℝ)) := by
      simp only [dotProduct, sq]
    rw [e, dotProduct_mulVec, vecMul_mulVec, h, ← qf_eq hYt (fun j => (v j : ℝ))]
    rw [← dotProduct_mulVec, smul_mulVec, dotProduct_smul, smul_eq_mul]
  rw [h1, h2, mul_pow]
  have h3 := hY.min (v 0) (v 1) (v 2) (by
    intro hc
    apply hv
    simp only [Prod.mk_eq_zero] at hc
    ext i
    fin_cases i
    · exact hc.1
    · exact hc.2.1
    · exact hc.2.2)
  have h4 : 0 ≤ s ^ 3 := by positivity
  nlinarith

theorem continuousAt_inv {L : Matrix (Fin 3) (Fin 3) ℝ} (hL : L.det ≠ 0) :
    ContinuousAt (fun Y : Matrix (Fin 3) (Fin 3) ℝ => Y⁻¹) L := by
  have : (fun Y : Matrix (Fin 3) (Fin 3) ℝ => Y⁻¹) = fun Y => (Y.det)⁻¹ • Y.adjugate := by
    funext Y
    rw [Matrix.inv_def, Ring.inverse_eq_inv']
  rw [this]
  refine ContinuousAt.smul (ContinuousAt.inv₀ ?_ hL) ?_
  · exact (Continuous.matrix_det continuous_id).continuousAt
  · exact (Continuous.matrix_adjugate continuous_id).continuousAt

/-- For a lattice with basis `P` and the symmetries `Gs`, there are sublattices of arbitrarily large index, a multiple
of 8, that commute with the symmetries and whose dual grid is dense. -/
theorem exists_dense {P : Matrix (Fin 3) (Fin 3) ℝ} (hP : P.det ≠ 0) {M : Form} (hM : M.tight = true)
    {Gs : Finset IntMat} (hGs : IsMatGroup Gs)
    (hG : ∀ X ∈ Gs, ∃ R : Matrix (Fin 3) (Fin 3) ℝ, Rᵀ * R = 1 ∧ R * P = P * toReal X)
    (hX : ∀ X ∈ Gs, X * M.mat * Xᵀ = M.mat) (N : ℤ) :
    ∃ A : IntMat, N ≤ |A.det| ∧ A.det ≠ 0 ∧ 8 ∣ A.det ∧ (∀ X ∈ Gs, X * A = A * X) ∧
      Dense ((P * toReal A)ᵀ)⁻¹ := by
  have ht := Form.tight_spec hM
  have hsym : (toReal M.mat)ᵀ = toReal M.mat := by
    ext i j
    fin_cases i <;> fin_cases j <;> simp [toReal, Form.mat]
  obtain ⟨T, t1, t2⟩ := exists_shape hP (ht.posDef hsym) Gs hG fun X h => by
    rw [← toReal_transpose, ← toReal_mul, ← toReal_mul, hX X h]
  obtain ⟨A, a1, a2⟩ := exists_approx hGs t1
  obtain ⟨g, hg⟩ : ∃ g, g = (Gs.card : ℝ) := ⟨_, rfl⟩
  rw [← hg] at a2
  have hg0 : 0 < g := by
    have : 0 < Gs.card := Finset.card_pos.2 ⟨1, hGs.one⟩
    rw [hg]
    exact_mod_cast this
  have hTd : T.det ≠ 0 := by
    intro h0
    have := congrArg Matrix.det t2
    rw [det_mul, det_mul, det_mul, h0, mul_zero, mul_zero, zero_mul, Matrix.det_one] at this
    exact one_ne_zero this.symm
  have hLd : ((P * T)ᵀ * (P * T)).det ≠ 0 := by
    rw [det_mul, det_transpose, det_mul]
    exact mul_ne_zero (mul_ne_zero hP hTd) (mul_ne_zero hP hTd)
  have hLi : ((P * T)ᵀ * (P * T))⁻¹ = toReal M.mat := inv_eq_right_inv t2
  have hf : ContinuousAt (fun B : Matrix (Fin 3) (Fin 3) ℝ => ((P * B)ᵀ * (P * B))⁻¹) T := by
    have h1 : Continuous fun B : Matrix (Fin 3) (Fin 3) ℝ => (P * B)ᵀ * (P * B) := by fun_prop
    exact ContinuousAt.comp (f := fun B : Matrix (Fin 3) (Fin 3) ℝ => (P * B)ᵀ * (P * B))
      (g := fun Y : Matrix (Fin 3) (Fin 3) ℝ => Y⁻¹) (continuousAt_inv hLd) h1.continuousAt
  have e1 : ∀ᶠ m : ℕ in atTop, Tight (((P * ((m : ℝ) * g)⁻¹ • toReal (A m))ᵀ *
      (P * ((m : ℝ) * g)⁻¹ • toReal (A m)))⁻¹) := by
    refine (hf.tendsto.comp a2).eventually ?_
    rw [hLi]
    exact tight_eventually ht
  have hdet : Tendsto (fun m : ℕ => |(((m : ℝ) * g)⁻¹ • toReal (A m)).det|) atTop (𝓝 |T.det|) :=
    ((Continuous.matrix_det continuous_id).abs.tendsto T).comp a2
  have e2 : ∀ᶠ m : ℕ in atTop, |T.det| / 2 < |(((m : ℝ) * g)⁻¹ • toReal (A m)).det| := by
    refine hdet.eventually_const_lt ?_
    have := abs_pos.2 hTd
    linarith
  have e3 : ∀ᶠ m : ℕ in atTop, |(N : ℝ)| / (g * (|T.det| / 2)) + 1 ≤ (m : ℝ) * g ^ 2 := by
    have : Tendsto (fun m : ℕ => (m : ℝ) * g ^ 2) atTop atTop :=
      tendsto_natCast_atTop_atTop.atTop_mul_const (by positivity)
    exact this.eventually_ge_atTop _
  obtain ⟨m, m1, m2, m3, m4⟩ := (e1.and (e2.and (e3.and (eventually_ge_atTop 1)))).exists
  have hm : (1 : ℝ) ≤ m := by exact_mod_cast m4
  obtain ⟨c, hc⟩ : ∃ c, c = (m : ℝ) * g := ⟨_, rfl⟩
  rw [← hc] at m1 m2
  have hc0 : 0 < c := by rw [hc]; exact mul_pos (by linarith) hg0
  obtain ⟨B, hB⟩ : ∃ B, B = c⁻¹ • toReal (A m) := ⟨_, rfl⟩
  rw [← hB] at m1 m2
  have hBA : toReal (A m) = c • B := by rw [hB, smul_smul, mul_inv_cancel₀ hc0.ne', one_smul]
  have hdetA : ((A m).det : ℝ) = c ^ 3 * B.det := by
    have h1 : (toReal (A m)).det = ((A m).det : ℝ) := by
      have := RingHom.map_det (Int.castRingHom ℝ) (A m)
      simpa [toReal, RingHom.mapMatrix_apply] using this.symm
    rw [← h1, hBA, det_smul, Fintype.card_fin]
  have hT2 : 0 < |T.det| / 2 := by have := abs_pos.2 hTd; linarith
  have hBd : B.det ≠ 0 := by
    intro h0
    rw [h0, abs_zero] at m2
    linarith
  have hAd : (A m).det ≠ 0 := by
    intro h0
    rw [h0, Int.cast_zero] at hdetA
    exact mul_ne_zero (by positivity) hBd hdetA.symm
  have hbig : |(N : ℝ)| ≤ |((A m).det : ℝ)| := by
    rw [hdetA, abs_mul, abs_of_pos (by positivity : (0 : ℝ) < c ^ 3)]
    have h1 : |(N : ℝ)| ≤ m * g ^ 2 * (g * (|T.det| / 2)) := by
      have h2 : |(N : ℝ)| / (g * (|T.det| / 2)) ≤ m * g ^ 2 := by linarith
      rwa [div_le_iff₀ (by positivity)] at h2
    have h3 : (m : ℝ) * g ^ 2 * (g * (|T.det| / 2)) ≤ c ^ 3 * (|T.det| / 2) := by
      have : (m : ℝ) * g ^ 3 ≤ c ^ 3 := by
        rw [hc, mul_pow]
        have : (m : ℝ) ≤ m ^ 3 := le_self_pow₀ hm (by norm_num)
        have hg3 : 0 < g ^ 3 := by positivity
        nlinarith
      nlinarith
    have h4 : c ^ 3 * (|T.det| / 2) ≤ c ^ 3 * |B.det| := mul_le_mul_of_nonneg_left m2.le (by positivity)
    linarith
  have hdet2 : ((2 : ℤ) • A m).det = 8 * (A m).det := by
    rw [det_smul, Fintype.card_fin]
    norm_num
  refine ⟨(2 : ℤ) • A m, ?_, ?_, ?_, ?_, ?_⟩
  · rw [hdet2, abs_mul]
    have h1 : |N| ≤ |(A m).det| := by exact_mod_cast hbig
    have h2 := le_abs_self N
    have h3 := abs_nonneg (A m).det
    have h4 : |(8 : ℤ)| = 8 := by norm_num
    rw [h4]
    linarith
  · rw [hdet2]
    exact mul_ne_zero (by norm_num) hAd
  · rw [hdet2]
    exact Dvd.intro _ rfl
  · intro X hXG
    rw [mul_smul_comm, smul_mul_assoc, a1 m X hXG]
  · have h2 : toReal ((2 : ℤ) • A m) = (2 * c) • B := by
      have : toReal ((2 : ℤ) • A m) = (2 : ℝ) • toReal (A m) := by
        ext i j
        show (((2 : ℤ) * A m i j : ℤ) : ℝ) = (2 : ℝ) * (A m i j : ℝ)
        push_cast
        rfl
      rw [this, hBA, smul_smul]
    have hsymY : (((P * B)ᵀ * (P * B))⁻¹)ᵀ = ((P * B)ᵀ * (P * B))⁻¹ := by
      rw [transpose_nonsing_inv, transpose_mul, transpose_transpose]
    refine dense_of_gram (s := ((2 * c) ^ 2)⁻¹) (by positivity) m1 hsymY ?_
    rw [h2, mul_smul_comm]
    obtain ⟨Q, hQ⟩ : ∃ Q, Q = P * B := ⟨_, rfl⟩
    rw [← hQ]
    have hQd : Q.det ≠ 0 := by rw [hQ, det_mul]; exact mul_ne_zero hP hBd
    have hQt : IsUnit Qᵀ.det := by rw [det_transpose]; exact isUnit_iff_ne_zero.2 hQd
    have hk : ((2 * c) • Q)ᵀ⁻¹ = (2 * c)⁻¹ • Qᵀ⁻¹ := by
      apply inv_eq_right_inv
      rw [transpose_smul, smul_mul_smul_comm, mul_nonsing_inv _ hQt, mul_inv_cancel₀ (by positivity), one_smul]
    rw [hk, transpose_smul, smul_mul_smul_comm, Matrix.mul_inv_rev, transpose_nonsing_inv, transpose_transpose]
    congr 1
    rw [← mul_inv, sq]

/-- Another basis of the same grid. -/
theorem Dense.basis {K : Matrix (Fin 3) (Fin 3) ℝ} (h : Dense K) {W : IntMat} (hW : IsUnit W.det) :
    Dense (K * toReal W) := by
  intro v hv
  have hd : (K * toReal W).det ^ 2 = K.det ^ 2 := by
    have h1 : (toReal W).det = (W.det : ℝ) := by
      have := RingHom.map_det (Int.castRingHom ℝ) W
      simpa [toReal, RingHom.mapMatrix_apply] using this.symm
    rw [det_mul, h1, mul_pow]
    rcases Int.isUnit_iff.1 hW with h | h <;> rw [h] <;> norm_num
  have hv' : (fun j => ((W *ᵥ v) j : ℝ)) = toReal W *ᵥ fun j => (v j : ℝ) := by
    ext i
    simp [mulVec, dotProduct, toReal]
  have hne : W *ᵥ v ≠ 0 := by
    intro h0
    apply hv
    have : W⁻¹ *ᵥ (W *ᵥ v) = v := by rw [mulVec_mulVec, nonsing_inv_mul _ hW, one_mulVec]
    rw [← this, h0, mulVec_zero]
  have := h _ hne
  rw [hv', mulVec_mulVec] at this
  rwa [hd]

end AutoGR
