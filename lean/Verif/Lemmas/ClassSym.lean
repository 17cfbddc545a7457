import Verif.Lemmas.PyArith
import Verif.Model.Niggli
import Verif.Spec.NiggliClass
import Mathlib.LinearAlgebra.Matrix.NonsingularInverse

/-!
# Computing the symmetry group of a Niggli class

A class group is bounded from above by the automorphisms of one integer metric of the class, which
are found by a search whose completeness is proved here (`mem_autos`), and from below by checking
that the generators fix every metric of the class.
-/

namespace AutoGR

open Spec Matrix

/-- An integer metric. -/
structure Form where
  A : ℤ
  B : ℤ
  C : ℤ
  D : ℤ
  E : ℤ
  F : ℤ

namespace Form

/-- The metric as a matrix. -/
def mat (M : Form) : IntMat := !![M.A, M.F, M.E; M.F, M.B, M.D; M.E, M.D, M.C]

/-- Scalar product. -/
def bil (M : Form) (u v : ℤ × ℤ × ℤ) : ℤ :=
  u.1 * (M.A * v.1 + M.F * v.2.1 + M.E * v.2.2) + u.2.1 * (M.F * v.1 + M.B * v.2.1 + M.D * v.2.2) +
    u.2.2 * (M.E * v.1 + M.D * v.2.1 + M.C * v.2.2)

/-- Determinant. -/
def det (M : Form) : ℤ :=
  M.A * M.B * M.C + 2 * M.D * M.E * M.F - M.A * M.D * M.D - M.B * M.E * M.E - M.C * M.F * M.F

/-- The vectors with entries in {-1, 0, 1}. -/
def vecs : List (ℤ × ℤ × ℤ) :=
  [-1, 0, 1].flatMap fun x => [-1, 0, 1].flatMap fun y => [-1, 0, 1].map fun z => (x, y, z)

/-- The matrix with columns `u v w`. -/
def ofCols (u v w : ℤ × ℤ × ℤ) : IMat :=
  ⟨u.1, v.1, w.1, u.2.1, v.2.1, w.2.1, u.2.2, v.2.2, w.2.2⟩

/-- The automorphisms of `M` with entries in {-1, 0, 1}. -/
def autos (M : Form) : List IMat :=
  (vecs.filter fun u => M.bil u u = M.A).flatMap fun u =>
    (vecs.filter fun v => M.bil v v = M.B ∧ M.bil u v = M.F).flatMap fun v =>
      (vecs.filter fun w => M.bil w w = M.C ∧ M.bil u w = M.E ∧ M.bil v w = M.D).map fun w =>
        ofCols u v w

/-- A condition that forces all automorphisms of `M` to have entries in {-1, 0, 1}. -/
def bounded (M : Form) : Bool :=
  0 < M.A && 0 < M.B && 0 < M.C && 0 < M.det &&
  0 < M.B * M.C - M.D * M.D && 0 < M.A * M.C - M.E * M.E && 0 < M.A * M.B - M.F * M.F &&
  [M.B * M.C - M.D * M.D, M.A * M.C - M.E * M.E, M.A * M.B - M.F * M.F].all (fun P =>
    [M.A, M.B, M.C].all fun N => decide (P * N < 4 * M.det))

theorem mem_vecs {x y z : ℤ} (hx : -1 ≤ x ∧ x ≤ 1) (hy : -1 ≤ y ∧ y ≤ 1) (hz : -1 ≤ z ∧ z ≤ 1) :
    (x, y, z) ∈ vecs := by
  have h (x : ℤ) (hx : -1 ≤ x ∧ x ≤ 1) : x ∈ ([-1, 0, 1] : List ℤ) := by
    simp only [List.mem_cons, List.not_mem_nil, or_false]; omega
  simp only [vecs, List.mem_flatMap, List.mem_map]
  exact ⟨x, h x hx, y, h y hy, z, h z hz, rfl⟩

/-- `det · x² ≤ (BC - D²) · q(v)`. -/
theorem coord_le {A B C D E F x y z : ℤ} (hB : 0 < B) (hP : 0 < B * C - D * D) :
    (A * B * C + 2 * D * E * F - A * D * D - B * E * E - C * F * F) * (x * x) ≤
      (B * C - D * D) *
      (x * (A * x + F * y + E * z) + y * (F * x + B * y + D * z) + z * (E * x + D * y + C * z)) := by
  have h : B * ((B * C - D * D) * (x * (A * x + F * y + E * z) + y * (F * x + B * y + D * z) +
      z * (E * x + D * y + C * z)) -
      (A * B * C + 2 * D * E * F - A * D * D - B * E * E - C * F * F) * (x * x)) =
      (B * C - D * D) * (B * y + F * x + D * z) ^ 2 +
        ((B * C - D * D) * z + (E * B - F * D) * x) ^ 2 := by ring
  have h2 : 0 ≤ B * ((B * C - D * D) * (x * (A * x + F * y + E * z) + y * (F * x + B * y + D * z) +
      z * (E * x + D * y + C * z)) -
      (A * B * C + 2 * D * E * F - A * D * D - B * E * E - C * F * F) * (x * x)) := by
    rw [h]; positivity
  have := nonneg_of_mul_nonneg_right h2 hB
  linarith

theorem abs_le_one {d P N x q : ℤ} (hd : 0 < d) (h : d * (x * x) ≤ P * q) (hq : q = N)
    (hN : P * N < 4 * d) : -1 ≤ x ∧ x ≤ 1 := by
  subst hq
  have : x * x < 4 := by
    by_contra h'
    have : d * 4 ≤ d * (x * x) := mul_le_mul_of_nonneg_left (by omega) hd.le
    linarith
  constructor <;> nlinarith

theorem vec_mem {M : Form} (hM : M.bounded = true) {v : ℤ × ℤ × ℤ} {N : ℤ}
    (hN : N = M.A ∨ N = M.B ∨ N = M.C) (hv : M.bil v v = N) : v ∈ vecs := by
  obtain ⟨x, y, z⟩ := v
  obtain ⟨A, B, C, D, E, F⟩ := M
  simp only [bounded, Bool.and_eq_true, decide_eq_true_eq, List.all_cons, List.all_nil,
    and_true] at hM
  simp only [det] at hM
  obtain ⟨⟨⟨⟨⟨⟨⟨hA, hB⟩, hC⟩, hd⟩, hP1⟩, hP2⟩, hP3⟩, ⟨a1, a2, a3⟩, ⟨b1, b2, b3⟩, c1, c2, c3⟩ := hM
  simp only [bil] at hv hN
  refine mem_vecs ?_ ?_ ?_
  · refine abs_le_one hd (coord_le (x := x) (y := y) (z := z) hB hP1) hv ?_
    rcases hN with rfl | rfl | rfl <;> assumption
  · have h := coord_le (A := B) (B := A) (C := C) (D := E) (E := D) (F := F)
      (x := y) (y := x) (z := z) hA hP2
    refine abs_le_one (d := A * B * C + 2 * D * E * F - A * D * D - B * E * E - C * F * F)
      (P := A * C - E * E) (N := N) (q := N) hd ?_ rfl ?_
    · refine le_trans (le_of_eq ?_) (h.trans (le_of_eq ?_))
      · ring
      · rw [← hv]; ring
    · rcases hN with rfl | rfl | rfl <;> assumption
  · have h := coord_le (A := C) (B := A) (C := B) (D := F) (E := D) (F := E)
      (x := z) (y := x) (z := y) hA hP3
    refine abs_le_one (d := A * B * C + 2 * D * E * F - A * D * D - B * E * E - C * F * F)
      (P := A * B - F * F) (N := N) (q := N) hd ?_ rfl ?_
    · refine le_trans (le_of_eq ?_) (h.trans (le_of_eq ?_))
      · ring
      · rw [← hv]; ring
    · rcases hN with rfl | rfl | rfl <;> assumption

/-- Every automorphism of a bounded form is found by the search. -/
theorem mem_autos {M : Form} (hM : M.bounded = true) {X : IntMat} (hX : Xᵀ * M.mat * X = M.mat) :
    ∃ Z ∈ M.autos, Z.toMat = X := by
  have h := fun i j => congrFun (congrFun hX i) j
  have h00 := h 0 0
  have h01 := h 0 1
  have h02 := h 0 2
  have h11 := h 1 1
  have h12 := h 1 2
  have h22 := h 2 2
  simp [mat, Matrix.mul_apply, Fin.sum_univ_three] at h00 h01 h02 h11 h12 h22
  let u : ℤ × ℤ × ℤ := (X 0 0, X 1 0, X 2 0)
  let v : ℤ × ℤ × ℤ := (X 0 1, X 1 1, X 2 1)
  let w : ℤ × ℤ × ℤ := (X 0 2, X 1 2, X 2 2)
  have e00 : M.bil u u = M.A := by simp only [bil, u]; linarith
  have e11 : M.bil v v = M.B := by simp only [bil, v]; linarith
  have e22 : M.bil w w = M.C := by simp only [bil, w]; linarith
  have e01 : M.bil u v = M.F := by simp only [bil, u, v]; linarith
  have e02 : M.bil u w = M.E := by simp only [bil, u, w]; linarith
  have e12 : M.bil v w = M.D := by simp only [bil, v, w]; linarith
  refine ⟨ofCols u v w, ?_, ?_⟩
  · simp only [autos, List.mem_flatMap, List.mem_filter, List.mem_map, decide_eq_true_eq]
    exact ⟨u, ⟨vec_mem hM (.inl rfl) e00, e00⟩, v, ⟨vec_mem hM (.inr (.inl rfl)) e11, e11, e01⟩,
      w, ⟨vec_mem hM (.inr (.inr rfl)) e22, e22, e02, e12⟩, rfl⟩
  · ext i j
    fin_cases i <;> fin_cases j <;> simp [IMat.toMat, ofCols, u, v, w]

end Form

theorem toMat_mulC (M N : IMat) : (mulC M N).toMat = M.toMat * N.toMat := by
  ext i j
  fin_cases i <;> fin_cases j <;>
    simp [IMat.toMat, mulC, Matrix.mul_apply, Fin.sum_univ_three]

theorem toMat_one : IMat.one.toMat = 1 := by decide

/-- The product of a word in the generators. -/
def evalWord (gens : List IMat) : List ℕ → IMat
  | [] => IMat.one
  | i :: w => mulC (gens.getD i IMat.one) (evalWord gens w)

theorem keeps_evalWord {gens : List IMat} {H : IntMat} (h : ∀ g ∈ gens, Keeps g.toMat H)
    (w : List ℕ) : Keeps (evalWord gens w).toMat H := by
  induction w with
  | nil => rw [evalWord, toMat_one]; exact Keeps.one H
  | cons i w ih =>
    rw [evalWord, toMat_mulC]
    refine Keeps.mul ?_ ih
    rw [List.getD_eq_getElem?_getD]
    cases hi : gens[i]? with
    | none => simpa [toMat_one] using Keeps.one H
    | some g => exact h g (List.mem_of_getElem? hi)

theorem toReal_mul (X Y : IntMat) : toReal (X * Y) = toReal X * toReal Y := by
  ext i j
  simp [toReal, Matrix.mul_apply]

theorem toReal_transpose (X : IntMat) : toReal Xᵀ = (toReal X)ᵀ := rfl

theorem toReal_one : toReal 1 = 1 := by
  ext i j
  by_cases h : i = j <;> simp [toReal, Matrix.one_apply, h]

theorem toReal_injective {X Y : IntMat} (h : toReal X = toReal Y) : X = Y := by
  ext i j
  have := congrFun (congrFun h i) j
  simpa [toReal] using this

/-- All automorphisms of `M`, moved to the basis before `Co`, are words in the generators. -/
def wordsCheck (M : Form) (Co Ci : IMat) (gens : List IMat) (words : List (List ℕ)) : Bool :=
  let ws := words.map (evalWord gens)
  M.bounded && mulC Co Ci = IMat.one && mulC Ci Co = IMat.one &&
    M.autos.all fun X => ws.contains (mulC (mulC Co X) Ci)

/-- A class symmetry, moved to the Niggli basis, fixes every integer metric of the class. -/
theorem classSym_conj {k : ℕ} {M : Form} {C D : IntMat} (h2' : D * C = 1)
    (hN : NiggliReduced M.A M.B M.C M.D M.E M.F) (hk : NiggliClass k M.A M.B M.C M.D M.E M.F)
    {X : IntMat} (hX : X ∈ ClassSym k C) :
    (D * X * C)ᵀ * M.mat * (D * X * C) = M.mat := by
  have ht1 : Cᵀ * Dᵀ = 1 := by rw [← Matrix.transpose_mul, h2', Matrix.transpose_one]
  have hmet : toReal M.mat = metric M.A M.B M.C M.D M.E M.F := by
    ext i j
    fin_cases i <;> fin_cases j <;> simp [toReal, Form.mat, metric]
  have hG : (toReal C)ᵀ * toReal (Dᵀ * M.mat * D) * toReal C = metric M.A M.B M.C M.D M.E M.F := by
    rw [← hmet, ← toReal_transpose, ← toReal_mul, ← toReal_mul]
    congr 1
    calc Cᵀ * (Dᵀ * M.mat * D) * C = (Cᵀ * Dᵀ) * M.mat * (D * C) := by
          simp only [Matrix.mul_assoc]
      _ = M.mat := by rw [ht1, h2', Matrix.one_mul, Matrix.mul_one]
  have hX' := hX _ _ _ _ _ _ _ hN hk hG
  rw [← toReal_transpose, ← toReal_mul, ← toReal_mul] at hX'
  have hXi := toReal_injective hX'
  calc (D * X * C)ᵀ * M.mat * (D * X * C)
      = Cᵀ * (Xᵀ * (Dᵀ * M.mat * D) * X) * C := by
        simp only [Matrix.transpose_mul, Matrix.mul_assoc]
    _ = (Cᵀ * Dᵀ) * M.mat * (D * C) := by rw [hXi]; simp only [Matrix.mul_assoc]
    _ = M.mat := by rw [ht1, h2', Matrix.one_mul, Matrix.mul_one]

/-- Upper bound for the class group. -/
theorem classSym_keeps {k : ℕ} {M : Form} {Co Ci : IMat} {gens : List IMat}
    {words : List (List ℕ)} (hw : wordsCheck M Co Ci gens words = true)
    (hN : NiggliReduced M.A M.B M.C M.D M.E M.F) (hk : NiggliClass k M.A M.B M.C M.D M.E M.F)
    {X : IntMat} (hX : X ∈ ClassSym k Co.toMat) {H : IntMat}
    (hH : ∀ g ∈ gens, Keeps g.toMat H) : Keeps X H := by
  simp only [wordsCheck, Bool.and_eq_true, decide_eq_true_eq, List.all_eq_true,
    List.contains_iff_mem, List.mem_map] at hw
  obtain ⟨⟨⟨hM, h1⟩, h2⟩, hws⟩ := hw
  have h1' : Co.toMat * Ci.toMat = 1 := by rw [← toMat_mulC, h1, toMat_one]
  have h2' : Ci.toMat * Co.toMat = 1 := by rw [← toMat_mulC, h2, toMat_one]
  set C := Co.toMat with hC
  set D := Ci.toMat with hD
  have hXN := classSym_conj h2' hN hk hX
  obtain ⟨Z, hZ, hZX⟩ := Form.mem_autos hM hXN
  obtain ⟨w, -, hwZ⟩ := hws Z hZ
  have : X = (evalWord gens w).toMat := by
    rw [hwZ, toMat_mulC, toMat_mulC, hZX, ← hC, ← hD]
    calc X = (C * D) * X * (C * D) := by rw [h1', Matrix.one_mul, Matrix.mul_one]
      _ = C * (D * X * C) * D := by simp only [Matrix.mul_assoc]
  rw [this]
  exact keeps_evalWord hH w

/-- If the only automorphisms of one metric of the class are `1` and `-1`, the class has no other
symmetry, in any basis of the lattice. -/
theorem classSym_trivial {k : ℕ} {M : Form} (hM : M.bounded = true)
    (ha : M.autos.all (fun Z => Z = IMat.one || Z = ⟨-1, 0, 0, 0, -1, 0, 0, 0, -1⟩) = true)
    (hN : NiggliReduced M.A M.B M.C M.D M.E M.F) (hk : NiggliClass k M.A M.B M.C M.D M.E M.F)
    {C X : IntMat} (hC : IsUnit C.det) (hX : X ∈ ClassSym k C) : X = 1 ∨ X = -1 := by
  have h1 : C * C⁻¹ = 1 := Matrix.mul_nonsing_inv C hC
  have h2 : C⁻¹ * C = 1 := Matrix.nonsing_inv_mul C hC
  obtain ⟨Z, hZ, hZX⟩ := Form.mem_autos hM (classSym_conj h2 hN hk hX)
  have key (Y : IntMat) (hY : C⁻¹ * X * C = Y) : X = C * Y * C⁻¹ := by
    rw [← hY]
    calc X = (C * C⁻¹) * X * (C * C⁻¹) := by rw [h1, Matrix.one_mul, Matrix.mul_one]
      _ = C * (C⁻¹ * X * C) * C⁻¹ := by simp only [Matrix.mul_assoc]
  have hz := List.all_eq_true.1 ha Z hZ
  simp only [Bool.or_eq_true, decide_eq_true_eq] at hz
  rcases hz with rfl | rfl
  · left
    rw [key 1 (by rw [← hZX, toMat_one]), Matrix.mul_one, h1]
  · right
    rw [key (-1) (by rw [← hZX]; decide), Matrix.mul_neg, Matrix.mul_one, Matrix.neg_mul, h1]

/-- Lower bound for the class group: `X` in the basis before `Co` is `Y` in the Niggli basis, and `Y`
fixes every metric of the class. -/
theorem mem_classSym {k : ℕ} {Co Ci X Y : IMat} (h1 : mulC Co Ci = IMat.one)
    (hXY : mulC X Co = mulC Co Y)
    (h : ∀ A B C D E F : ℝ, NiggliReduced A B C D E F → NiggliClass k A B C D E F →
      (toReal Y.toMat)ᵀ * metric A B C D E F * toReal Y.toMat = metric A B C D E F) :
    X.toMat ∈ ClassSym k Co.toMat := by
  intro G A B C D E F hN hk hG
  have h1' : toReal Co.toMat * toReal Ci.toMat = 1 := by
    rw [← toReal_mul, ← toMat_mulC, h1, toMat_one, toReal_one]
  have hXY' : toReal X.toMat * toReal Co.toMat = toReal Co.toMat * toReal Y.toMat := by
    rw [← toReal_mul, ← toReal_mul, ← toMat_mulC, ← toMat_mulC, hXY]
  have hY := h A B C D E F hN hk
  rw [← hG] at hY
  set S := toReal X.toMat
  set T := toReal Y.toMat
  set P := toReal Co.toMat
  set Q := toReal Ci.toMat
  have hQP : Qᵀ * Pᵀ = 1 := by rw [← Matrix.transpose_mul, h1', Matrix.transpose_one]
  have e : Pᵀ * (Sᵀ * G * S) * P = Pᵀ * G * P := by
    calc Pᵀ * (Sᵀ * G * S) * P = (S * P)ᵀ * G * (S * P) := by
          simp only [Matrix.transpose_mul, Matrix.mul_assoc]
      _ = Tᵀ * (Pᵀ * G * P) * T := by
          rw [hXY']; simp only [Matrix.transpose_mul, Matrix.mul_assoc]
      _ = Pᵀ * G * P := hY
  calc Sᵀ * G * S = (Qᵀ * Pᵀ) * (Sᵀ * G * S) * (P * Q) := by
        rw [hQP, h1', Matrix.one_mul, Matrix.mul_one]
    _ = Qᵀ * (Pᵀ * (Sᵀ * G * S) * P) * Q := by simp only [Matrix.mul_assoc]
    _ = (Qᵀ * Pᵀ) * G * (P * Q) := by rw [e]; simp only [Matrix.mul_assoc]
    _ = G := by rw [hQP, h1', Matrix.one_mul, Matrix.mul_one]

/-- The six equations for `Y` to fix a metric. -/
theorem metric_fix {Y : IMat} {A B C D E F : ℝ}
    (h00 : (Y.m00 : ℝ) * (A * Y.m00 + F * Y.m10 + E * Y.m20) +
      Y.m10 * (F * Y.m00 + B * Y.m10 + D * Y.m20) + Y.m20 * (E * Y.m00 + D * Y.m10 + C * Y.m20) = A)
    (h11 : (Y.m01 : ℝ) * (A * Y.m01 + F * Y.m11 + E * Y.m21) +
      Y.m11 * (F * Y.m01 + B * Y.m11 + D * Y.m21) + Y.m21 * (E * Y.m01 + D * Y.m11 + C * Y.m21) = B)
    (h22 : (Y.m02 : ℝ) * (A * Y.m02 + F * Y.m12 + E * Y.m22) +
      Y.m12 * (F * Y.m02 + B * Y.m12 + D * Y.m22) + Y.m22 * (E * Y.m02 + D * Y.m12 + C * Y.m22) = C)
    (h12 : (Y.m01 : ℝ) * (A * Y.m02 + F * Y.m12 + E * Y.m22) +
      Y.m11 * (F * Y.m02 + B * Y.m12 + D * Y.m22) + Y.m21 * (E * Y.m02 + D * Y.m12 + C * Y.m22) = D)
    (h02 : (Y.m00 : ℝ) * (A * Y.m02 + F * Y.m12 + E * Y.m22) +
      Y.m10 * (F * Y.m02 + B * Y.m12 + D * Y.m22) + Y.m20 * (E * Y.m02 + D * Y.m12 + C * Y.m22) = E)
    (h01 : (Y.m00 : ℝ) * (A * Y.m01 + F * Y.m11 + E * Y.m21) +
      Y.m10 * (F * Y.m01 + B * Y.m11 + D * Y.m21) + Y.m20 * (E * Y.m01 + D * Y.m11 + C * Y.m21) = F) :
    (toReal Y.toMat)ᵀ * metric A B C D E F * toReal Y.toMat = metric A B C D E F := by
  ext i j
  fin_cases i <;> fin_cases j <;>
    simp [toReal, IMat.toMat, metric, Matrix.mul_apply, Fin.sum_univ_three] <;> linarith

/-- Closes "`Y` fixes every metric of the class". -/
macro "class_fix" : tactic => `(tactic| (
  intro A B C D E F _ hk
  simp only [NiggliClass, TypeI, TypeII] at hk
  rcases abs_cases (D + E + F) with h1 | h1 <;> rcases abs_cases (2 * D + F) with h2 | h2 <;>
  casesm* _ ∧ _ <;> refine metric_fix ?_ ?_ ?_ ?_ ?_ ?_ <;> norm_num <;> linarith))

/-- The witness of a class is Niggli-reduced. -/
macro "witness_red" : tactic => `(tactic| (
  constructor <;> norm_num [TypeI, TypeII, abs_of_pos, abs_of_neg]))

/-- The witness of a class is in the class. -/
macro "witness_class" : tactic => `(tactic| (
  norm_num [NiggliClass, TypeI, TypeII, abs_of_pos, abs_of_neg]))

/-- The HNFs that keep the symmetries of a class are those that keep its generators. -/
theorem symHNFs_iff {k : ℕ} {M : Form} {Co Ci : IMat} {gens : List IMat} {words : List (List ℕ)}
    (hw : wordsCheck M Co Ci (gens ++ [⟨-1, 0, 0, 0, -1, 0, 0, 0, -1⟩]) words = true)
    (hN : NiggliReduced M.A M.B M.C M.D M.E M.F) (hk : NiggliClass k M.A M.B M.C M.D M.E M.F)
    (hg : ∀ g ∈ gens, g.toMat ∈ ClassSym k Co.toMat) {n : ℤ} {H : IntMat} :
    H ∈ SymmetricHNFs (ClassSym k Co.toMat) n ↔
      (IsHNF H ∧ H.det = n) ∧ ∀ g ∈ gens, Keeps g.toMat H := by
  constructor
  · rintro ⟨h1, h2, h3⟩
    exact ⟨⟨h1, h2⟩, fun g h => h3 _ (hg g h)⟩
  · rintro ⟨⟨h1, h2⟩, h3⟩
    refine ⟨h1, h2, fun X hX => classSym_keeps hw hN hk hX ?_⟩
    intro g hgm
    rw [List.mem_append] at hgm
    rcases hgm with h | h
    · exact h3 g h
    · rw [List.mem_singleton] at h
      subst h
      have : (⟨-1, 0, 0, 0, -1, 0, 0, 0, -1⟩ : IMat).toMat = -1 := by decide
      rw [this]
      exact Keeps.neg_one H

end AutoGR
