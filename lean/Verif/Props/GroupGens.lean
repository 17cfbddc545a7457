import Verif.Lemmas.ClassGens
import Verif.Lemmas.GroupGens
import Verif.Props.BruteForce

/-!
# C92, C93: the generators of a point group

`ListsGroup`, `TellsApart`, `Generates`: `Verif/Lemmas/GroupGens.lean`.
-/

namespace AutoGR.Brute

open Spec Matrix

/-! ## The point group of a lattice -/

theorem det_unit_of_sym {P R : R3} (hP : P.det ≠ 0) (hR : Rᵀ * R = 1) {X : IntMat} (hX : R * P = P * toReal X) :
    IsUnit X.det := by
  have h1 := congrArg Matrix.det hR
  rw [det_mul, det_transpose, Matrix.det_one] at h1
  have h2 := congrArg Matrix.det hX
  rw [det_mul, det_mul, mul_comm P.det] at h2
  have h3 : R.det = (toReal X).det := mul_right_cancel₀ hP h2
  have h4 : (toReal X).det = (X.det : ℝ) := (RingHom.map_det (Int.castRingHom ℝ) X).symm
  rw [h3, h4] at h1
  have h5 : X.det * X.det = 1 := by exact_mod_cast h1
  exact IsUnit.of_mul_eq_one _ h5

/-- The point group of a lattice is a group. -/
theorem ListsPointGroup.group {P : R3} (hP : P.det ≠ 0) {pg : List R3} (h : ListsPointGroup P pg) (hn : pg.Nodup) :
    ListsGroup pg where
  nodup := hn
  one := (h 1).2 ⟨by simp, 1, by rw [toReal_one, Matrix.one_mul, Matrix.mul_one]⟩
  mul R hR S hS := by
    obtain ⟨r1, X, r2⟩ := (h R).1 hR
    obtain ⟨s1, Y, s2⟩ := (h S).1 hS
    refine (h _).2 ⟨?_, X * Y, ?_⟩
    · calc (R * S)ᵀ * (R * S) = Sᵀ * (Rᵀ * R) * S := by rw [transpose_mul]; simp only [Matrix.mul_assoc]
        _ = 1 := by rw [r1, Matrix.mul_one, s1]
    · rw [Matrix.mul_assoc, s2, ← Matrix.mul_assoc, r2, Matrix.mul_assoc, toReal_mul]
  inv R hR := by
    obtain ⟨r1, X, r2⟩ := (h R).1 hR
    have hu := det_unit_of_sym hP r1 r2
    have hx : toReal X * toReal X⁻¹ = 1 := by rw [← toReal_mul, mul_nonsing_inv X hu, toReal_one]
    refine ⟨Rᵀ, (h _).2 ⟨?_, X⁻¹, ?_⟩, r1⟩
    · rw [transpose_transpose]
      exact mul_eq_one_comm.1 r1
    · calc Rᵀ * P = Rᵀ * (P * (toReal X * toReal X⁻¹)) := by rw [hx, Matrix.mul_one]
        _ = (Rᵀ * R) * P * toReal X⁻¹ := by rw [← Matrix.mul_assoc P, ← r2]; simp only [Matrix.mul_assoc]
        _ = P * toReal X⁻¹ := by rw [r1, Matrix.one_mul]

/-- Two point symmetries of a lattice that agree within 0.4 in every entry are the same, and none is within 0.4 of
the zero matrix. -/
theorem ListsPointGroup.apart {P : R3} (hP : P.det ≠ 0) {pg : List R3} (h : ListsPointGroup P pg) (hn : pg.Nodup)
    (eps : ℝ) (e0 : 0 < eps) (e1 : eps ≤ 2 / 5) :
    TellsApart (equalMat fun x y => decide (|x - y| < eps)) pg ∧
      ∀ R ∈ pg, equalMat (fun x y => decide (|x - y| < eps)) R 0 = false := by
  have sq : ∀ x : ℝ, |x| < eps → x ^ 2 < 4 / 25 := by
    intro x hx
    have h0 := abs_nonneg x
    rw [← sq_abs]
    nlinarith
  have nrm : ∀ R ∈ pg, ∑ i, ∑ j, R i j ^ 2 = 3 := by
    intro R hR
    have h1 := congrArg Matrix.trace ((h R).1 hR).1
    simp [Matrix.trace, Matrix.mul_apply, Fin.sum_univ_three] at h1 ⊢
    linarith
  have hG := h.group hP hn
  constructor
  · intro R hR S hS
    constructor
    · intro he
      simp only [equalMat, decide_eq_true_eq] at he
      have hd := fun i j => sq _ (he i j)
      obtain ⟨R', hR', hR1⟩ := hG.inv R hR
      have hRt : R' = Rᵀ := by
        have := ((h R).1 hR).1
        have h2 := mul_eq_one_comm.1 this
        calc R' = R' * (R * Rᵀ) := by rw [h2, Matrix.mul_one]
          _ = Rᵀ := by rw [← Matrix.mul_assoc, hR1, Matrix.one_mul]
      obtain ⟨_, X, hX⟩ := (h _).1 (hG.mul R' hR' S hS)
      have htr : (Rᵀ * S).trace = ((X.trace : ℤ) : ℝ) := by
        have : Rᵀ * S = P * toReal X * P⁻¹ := by
          rw [← hRt, ← hX, Matrix.mul_assoc, mul_nonsing_inv P (Ne.isUnit hP), Matrix.mul_one]
        rw [this, Matrix.trace_mul_comm, ← Matrix.mul_assoc, nonsing_inv_mul P (Ne.isUnit hP), Matrix.one_mul]
        simp [Matrix.trace, toReal]
      have nR := nrm R hR
      have nS := nrm S hS
      simp only [Matrix.trace, Matrix.mul_apply, Fin.sum_univ_three, diag_apply, transpose_apply] at htr nR nS
      have d00 := hd 0 0
      have d01 := hd 0 1
      have d02 := hd 0 2
      have d10 := hd 1 0
      have d11 := hd 1 1
      have d12 := hd 1 2
      have d20 := hd 2 0
      have d21 := hd 2 1
      have d22 := hd 2 2
      have hlt : (2 : ℝ) < ((X.trace : ℤ) : ℝ) := by
        simp only [Matrix.trace, Fin.sum_univ_three, diag_apply]
        nlinarith
      have hge : (3 : ℝ) ≤ ((X.trace : ℤ) : ℝ) := by
        have : (2 : ℤ) < X.trace := by exact_mod_cast hlt
        exact_mod_cast this
      simp only [Matrix.trace, Fin.sum_univ_three, diag_apply] at hge
      have hsum : ∑ i, ∑ j, (R i j - S i j) ^ 2 ≤ 0 := by
        simp only [Fin.sum_univ_three]
        nlinarith
      have hz : ∀ i j, (R i j - S i j) ^ 2 = 0 := by
        have h0 : ∑ i, ∑ j, (R i j - S i j) ^ 2 = 0 :=
          le_antisymm hsum (Finset.sum_nonneg fun i _ => Finset.sum_nonneg fun j _ => sq_nonneg _)
        intro i j
        have h1 := (Finset.sum_eq_zero_iff_of_nonneg
          (fun i _ => Finset.sum_nonneg fun j _ => sq_nonneg (R i j - S i j))).1 h0 i (Finset.mem_univ i)
        exact (Finset.sum_eq_zero_iff_of_nonneg (fun j _ => sq_nonneg (R i j - S i j))).1 h1 j (Finset.mem_univ j)
      ext i j
      exact sub_eq_zero.1 (pow_eq_zero_iff two_ne_zero |>.1 (hz i j))
    · rintro rfl
      simp [equalMat, e0]
  · intro R hR
    by_contra hc
    rw [Bool.not_eq_false] at hc
    simp only [equalMat, decide_eq_true_eq, Matrix.zero_apply, sub_zero] at hc
    have hd := fun i j => sq _ (hc i j)
    have nR := nrm R hR
    simp only [Fin.sum_univ_three] at nR
    have d00 := hd 0 0
    have d01 := hd 0 1
    have d02 := hd 0 2
    have d10 := hd 1 0
    have d11 := hd 1 1
    have d12 := hd 1 2
    have d20 := hd 2 0
    have d21 := hd 2 1
    have d22 := hd 2 2
    linarith

/-- The point group of every lattice has two or three generators. -/
theorem ListsPointGroup.gens {P : R3} {Co : IntMat} {A B C D E F : ℝ} (hN : NiggliCellOf P Co A B C D E F) {k : ℕ}
    (hk : IsClass k A B C D E F) {pg : List R3} (h : ListsPointGroup P pg) :
    ∃ gens : List R3, gens.Nodup ∧ (gens.length = 2 ∨ gens.length = 3) ∧ (∀ g ∈ gens, g ∈ pg) ∧
      Generates gens pg := by
  obtain ⟨gs, g1, g2, g3, g4⟩ := classGens_spec hk.1
  have hP := hN.det_ne
  have p1 : P * P⁻¹ = 1 := mul_nonsing_inv P (Ne.isUnit hP)
  have p2 : P⁻¹ * P = 1 := nonsing_inv_mul P (Ne.isUnit hP)
  have c1 : Co * Co⁻¹ = 1 := mul_nonsing_inv Co hN.unit
  have c2 : Co⁻¹ * Co = 1 := nonsing_inv_mul Co hN.unit
  let f : IntMat → R3 := fun Y => P * toReal (Co * Y * Co⁻¹) * P⁻¹
  have f1 : f 1 = 1 := by
    simp only [f, Matrix.mul_one, c1, toReal_one, p1]
  have fm : ∀ X Y, f (X * Y) = f X * f Y := by
    intro X Y
    have e : Co * (X * Y) * Co⁻¹ = (Co * X * Co⁻¹) * (Co * Y * Co⁻¹) := by
      calc Co * (X * Y) * Co⁻¹ = Co * X * 1 * Y * Co⁻¹ := by simp only [Matrix.mul_assoc, Matrix.one_mul]
        _ = _ := by rw [← c2]; simp only [Matrix.mul_assoc]
    show P * toReal (Co * (X * Y) * Co⁻¹) * P⁻¹ =
      P * toReal (Co * X * Co⁻¹) * P⁻¹ * (P * toReal (Co * Y * Co⁻¹) * P⁻¹)
    rw [e, toReal_mul]
    calc P * (toReal (Co * X * Co⁻¹) * toReal (Co * Y * Co⁻¹)) * P⁻¹
        = P * toReal (Co * X * Co⁻¹) * 1 * toReal (Co * Y * Co⁻¹) * P⁻¹ := by
          simp only [Matrix.mul_assoc, Matrix.one_mul]
      _ = _ := by rw [← p2]; simp only [Matrix.mul_assoc]
  have fP : ∀ Y, f Y * P = P * toReal (Co * Y * Co⁻¹) := by
    intro Y
    simp only [f]
    rw [Matrix.mul_assoc, p2, Matrix.mul_one]
  have fi : Function.Injective f := by
    intro X Y hXY
    have h1 := fP X
    rw [hXY, fP Y] at h1
    have h2 : toReal (Co * Y * Co⁻¹) = toReal (Co * X * Co⁻¹) := by
      have := congrArg (P⁻¹ * ·) h1
      simpa only [← Matrix.mul_assoc, p2, Matrix.one_mul] using this
    have h3 := congrArg (fun Z => Co⁻¹ * Z * Co) (toReal_injective h2)
    have e : ∀ Z : IntMat, Co⁻¹ * (Co * Z * Co⁻¹) * Co = Z := by
      intro Z
      calc Co⁻¹ * (Co * Z * Co⁻¹) * Co = (Co⁻¹ * Co) * Z * (Co⁻¹ * Co) := by simp only [Matrix.mul_assoc]
        _ = Z := by rw [c2, Matrix.one_mul, Matrix.mul_one]
    simp only [e] at h3
    exact h3.symm
  have hmem : ∀ R : R3, R ∈ pg ↔ ∃ Y : IntMat, Yᵀ * (wit k).mat * Y = (wit k).mat ∧ f Y = R := by
    intro R
    constructor
    · intro hR
      obtain ⟨r1, X, r2⟩ := (h R).1 hR
      have hX : X ∈ PointSym P := ⟨R, r1, r2⟩
      refine ⟨Co⁻¹ * X * Co, (symm_iff_wit hN.red hk).1 ((pointSym_iff_niggli hN).1 hX), ?_⟩
      have e : Co * (Co⁻¹ * X * Co) * Co⁻¹ = X := by
        calc Co * (Co⁻¹ * X * Co) * Co⁻¹ = (Co * Co⁻¹) * X * (Co * Co⁻¹) := by simp only [Matrix.mul_assoc]
          _ = X := by rw [c1, Matrix.one_mul, Matrix.mul_one]
      simp only [f, e]
      rw [← r2, Matrix.mul_assoc, p1, Matrix.mul_one]
    · rintro ⟨Y, hY, rfl⟩
      have e : Co⁻¹ * (Co * Y * Co⁻¹) * Co = Y := by
        calc Co⁻¹ * (Co * Y * Co⁻¹) * Co = (Co⁻¹ * Co) * Y * (Co⁻¹ * Co) := by simp only [Matrix.mul_assoc]
          _ = Y := by rw [c2, Matrix.one_mul, Matrix.mul_one]
      have hX : Co * Y * Co⁻¹ ∈ PointSym P := by
        rw [pointSym_iff_niggli hN, e]
        exact (symm_iff_wit hN.red hk).2 hY
      obtain ⟨R, r1, r2⟩ := hX
      have : f Y = R := by
        simp only [f]
        rw [← r2, Matrix.mul_assoc, p1, Matrix.mul_one]
      rw [this]
      exact (h R).2 ⟨r1, _, r2⟩
  refine ⟨gs.map f, g1.map fi, by simpa using g2, ?_, ?_⟩
  · intro g hg
    obtain ⟨Y, hY, rfl⟩ := List.mem_map.1 hg
    exact (hmem _).2 ⟨Y, g3 Y hY, rfl⟩
  · intro R hR
    obtain ⟨Y, hY, rfl⟩ := (hmem R).1 hR
    have := g4 Y hY
    clear hR hY
    induction this using Submonoid.closure_induction with
    | mem x hx => exact Submonoid.subset_closure (List.mem_map_of_mem hx)
    | one => rw [f1]; exact Submonoid.one_mem _
    | mul x y _ _ hx hy => rw [fm]; exact Submonoid.mul_mem _ hx hy

/-! ## C92: `find_pg_gens` -/

/-- C92, any finite group: when the memory behind the array holds none of the group elements, `find_pg_gens`
returns two or three elements that generate the group, and returns nothing only if no two and no three elements
do. -/
theorem find_pg_gens_group_partial (equal : R3 → R3 → Bool) (behind pg : List R3) (hG : ListsGroup pg)
    (ht : TellsApart equal pg) (h0 : ∀ x ∈ pg, equal x 0 = false)
    (hb : ∀ x ∈ pg, ∀ y ∈ behind, equal x y = false) :
    (∃ gens, find_pg_gens equal behind pg = some (some gens) ∧ gens.Sublist pg ∧
        (gens.length = 2 ∨ gens.length = 3) ∧ Generates gens pg) ∨
      (find_pg_gens equal behind pg = some none ∧
        ∀ c : List R3, c.Nodup → (∀ x ∈ c, x ∈ pg) → (c.length = 2 ∨ c.length = 3) → ¬ Generates c pg) := by
  have hf : ∀ r, 0 < r → ∀ c ∈ combinations r pg,
      ∃ b, forms_group equal behind c pg = some b ∧ (b = true ↔ Generates c pg) := by
    intro r hr c hc
    obtain ⟨c1, c2⟩ := mem_combinations.1 hc
    exact forms_group_spec ht h0 hb hG (fun g hg => c1.subset hg) (hG.nodup.sublist c1) (by
      rintro rfl
      simp at c2
      omega)
  have hno : ∀ r, (∀ c ∈ combinations r pg, ¬ Generates c pg) → ∀ c : List R3, c.Nodup → (∀ x ∈ c, x ∈ pg) →
      c.length = r → ¬ Generates c pg := by
    rintro r h c c1 c2 rfl hc
    obtain ⟨d, d1, d2⟩ := exists_combination hG.nodup c1 c2
    exact h d d1 (hc.mono fun x hx => (d2 x).2 hx)
  unfold find_pg_gens
  rcases firstGens_spec _ (hf 2 (by norm_num)) with ⟨c, c1, c2, c3⟩ | ⟨c2, c3⟩
  · rw [c2]
    obtain ⟨m1, m2⟩ := mem_combinations.1 c1
    exact Or.inl ⟨c, rfl, m1, Or.inl m2, c3⟩
  · rw [c2]
    rcases firstGens_spec _ (hf 3 (by norm_num)) with ⟨d, d1, d2, d3⟩ | ⟨d2, d3⟩
    · obtain ⟨m1, m2⟩ := mem_combinations.1 d1
      exact Or.inl ⟨d, d2, m1, Or.inr m2, d3⟩
    · refine Or.inr ⟨d2, fun c n1 n2 n3 => ?_⟩
      rcases n3 with n3 | n3
      · exact hno 2 c3 c n1 n2 n3
      · exact hno 3 d3 c n1 n2 n3

/-- C92: for the point group of every lattice `find_pg_gens` returns two or three elements that generate it, when
the memory behind the array holds none of its elements. -/
theorem find_pg_gens_partial {P : R3} {Co : IntMat} {A B C D E F : ℝ} (hN : NiggliCellOf P Co A B C D E F) {k : ℕ}
    (hk : IsClass k A B C D E F) {pg : List R3} (h : ListsPointGroup P pg) (hn : pg.Nodup) (eps : ℝ) (e0 : 0 < eps)
    (e1 : eps ≤ 2 / 5) (behind : List R3)
    (hb : ∀ x ∈ pg, ∀ y ∈ behind, equalMat (fun x y => decide (|x - y| < eps)) x y = false) :
    ∃ gens, find_pg_gens (equalMat fun x y => decide (|x - y| < eps)) behind pg = some (some gens) ∧
      gens.Sublist pg ∧ (gens.length = 2 ∨ gens.length = 3) ∧ Generates gens pg := by
  obtain ⟨ht, h0⟩ := h.apart hN.det_ne hn eps e0 e1
  rcases find_pg_gens_group_partial _ behind pg (h.group hN.det_ne hn) ht h0 hb with h' | ⟨_, h'⟩
  · exact h'
  · obtain ⟨gens, g1, g2, g3, g4⟩ := h.gens hN hk
    exact absurd g4 (h' gens g1 g3 g2)

/-- C92: with generators in place of the whole group `get_srHNFs` returns the same supercells in the same order. -/
theorem get_srHNFs_gens {P : R3} (hP : P.det ≠ 0) {pg : List R3} (h : ListsPointGroup P pg) {gens : List R3}
    (hs : ∀ g ∈ gens, g ∈ pg) (hg : Generates gens pg) (equal : ℝ → ℝ → Bool) (n : ℤ) (hn : 1 ≤ n)
    (he : Separates equal n) : get_srHNFs equal P gens n = get_srHNFs equal P pg n := by
  rw [get_srHNFs_eq, get_srHNFs_eq]
  refine congrArg some (List.filter_congr fun H hH => ?_)
  obtain ⟨_, h2⟩ := mem_candidates.1 hH
  subst h2
  rw [Bool.eq_iff_iff, symm_pres_iff he hP (by omega) gens fun R hR => ((h R).1 (hs R hR)).2,
    symm_pres_iff he hP (by omega) pg fun R hR => ((h R).1 hR).2]
  refine ⟨fun hall R hR X hX => ?_, fun hall R hR => hall R (hs R hR)⟩
  have key : ∀ S ∈ Submonoid.closure {g | g ∈ gens}, ∃ Y : IntMat, S * P = P * toReal Y ∧ Keeps Y H := by
    intro S hS
    induction hS using Submonoid.closure_induction with
    | mem x hx =>
      obtain ⟨_, Y, hY⟩ := (h x).1 (hs x hx)
      exact ⟨Y, hY, hall x hx Y hY⟩
    | one => exact ⟨1, by rw [toReal_one, Matrix.one_mul, Matrix.mul_one], Keeps.one H⟩
    | mul x y _ _ hx hy =>
      obtain ⟨Y, y1, y2⟩ := hx
      obtain ⟨Z, z1, z2⟩ := hy
      refine ⟨Y * Z, ?_, Keeps.mul y2 z2⟩
      rw [Matrix.mul_assoc, z1, ← Matrix.mul_assoc, y1, Matrix.mul_assoc, toReal_mul]
  obtain ⟨Y, y1, y2⟩ := key R (hg R hR)
  have hXY : X = Y := by
    rw [hX] at y1
    have := congrArg (P⁻¹ * ·) y1
    simp only [← Matrix.mul_assoc, nonsing_inv_mul P (Ne.isUnit hP), Matrix.one_mul] at this
    exact toReal_injective this
  rw [hXY]
  exact y2

/-! ### What the reads behind the array can do -/

theorem addProducts_behind {equal : R3 → R3 → Bool} {behind : List R3} (ps : List R3)
    (hps : ∀ p ∈ ps, ∃ x ∈ behind, equal p x = true) (t : TestSet) : addProducts equal behind ps t = (t, true) := by
  induction ps with
  | nil => rfl
  | cons p rest ih =>
    obtain ⟨x, hx, hpx⟩ := hps p (by simp)
    have : inGroup equal behind t p = true := by
      rw [inGroup, List.any_eq_true]
      exact ⟨x, List.mem_append_right _ hx, hpx⟩
    rw [addProducts, addProduct, if_pos this]
    exact ih fun q hq => hps q (by simp [hq])

theorem passLoop_behind {equal : R3 → R3 → Bool} {behind : List R3} (m : ℕ) (gs : List R3) (t : TestSet)
    (hps : ∀ g ∈ gs, ∀ p ∈ t.used, ∃ x ∈ behind, equal (g * p) x = true) :
    passLoop equal behind m gs t = (t, true) := by
  induction gs with
  | nil => rfl
  | cons g rest ih =>
    rw [passLoop, addProducts_behind]
    · exact ih fun h hh => hps h (by simp [hh])
    · intro p hp
      obtain ⟨q, hq, rfl⟩ := List.mem_map.1 hp
      exact hps g (by simp) q (List.mem_of_mem_take hq)

/-- C92, why the theorems above ask what is behind the array: when the memory there holds the elements of the
group (a copy of it stored next to the array, say), `forms_group` accepts every list of elements,
whether it generates the group or not. -/
theorem forms_group_behind (equal : R3 → R3 → Bool) (behind pg gens : List R3) (hG : ListsGroup pg)
    (ht : TellsApart equal pg) (hb : ∀ x ∈ pg, x ∈ behind) (hg : ∀ g ∈ gens, g ∈ pg) :
    forms_group equal behind gens pg = some true := by
  have hx : ∀ x ∈ pg, ∃ y ∈ behind, equal x y = true := fun x hx => ⟨x, hb x hx, (ht x hx x hx).2 rfl⟩
  have hall : ∀ (t : TestSet) (l : List R3), (∀ x ∈ l, x ∈ pg) → allInGroup equal behind t l true = true := by
    intro t l hl
    induction l with
    | nil => rfl
    | cons p rest ih =>
      obtain ⟨y, hy, hpy⟩ := hx p (hl p (by simp))
      have : inGroup equal behind t p = true := by
        rw [inGroup, List.any_eq_true]
        exact ⟨y, List.mem_append_right _ hy, hpy⟩
      rw [allInGroup, if_pos this]
      exact ih fun x hx => hl x (by simp [hx])
  rw [forms_group, addProducts_behind]
  · simp only [if_true]
    rw [grow, passLoop_behind]
    · simp [hall _ pg fun x hx => hx]
    · intro g hgm p hp
      exact hx _ (hG.mul g (hg g hgm) p (hg p hp))
  · intro p hp
    simp only [List.mem_flatMap, List.mem_map] at hp
    obtain ⟨x, hxm, y, hym, rfl⟩ := hp
    exact hx _ (hG.mul x (hg x hxm) y (hg y hym))

/-- Then `find_pg_gens` returns the first two elements. -/
theorem find_pg_gens_behind (equal : R3 → R3 → Bool) (behind : List R3) (x y : R3) (rest : List R3)
    (hG : ListsGroup (x :: y :: rest)) (ht : TellsApart equal (x :: y :: rest))
    (hb : ∀ z ∈ x :: y :: rest, z ∈ behind) :
    find_pg_gens equal behind (x :: y :: rest) = some (some [x, y]) := by
  have h := forms_group_behind equal behind _ [x, y] hG ht hb (by simp)
  simp [find_pg_gens, combinations, firstGens, h]

/-! ## C93: `find_gens_of_pg` -/

/-- C93: `find_gens_of_pg` ends for every finite group whose elements `np.allclose` tells apart, with elements of
the group that generate it, and no non-empty set of fewer elements does. -/
theorem find_gens_of_pg_minimal (allclose : R3 → R3 → Bool) (pg : List R3) (hG : ListsGroup pg)
    (ht : TellsApart allclose pg) (fuel : ℕ) (hf : pg.length < fuel) :
    ∃ gens, find_gens_of_pg allclose fuel pg = some gens ∧ gens.Sublist pg ∧ gens ≠ [] ∧ Generates gens pg ∧
      ∀ c : List R3, c.Nodup → c ≠ [] → (∀ x ∈ c, x ∈ pg) → Generates c pg → gens.length ≤ c.length := by
  have hgen : Generates pg pg := fun x hx => Submonoid.subset_closure hx
  have hF : ∀ r, 0 < r → ∀ c ∈ combinations r pg,
      ∃ b, pyFormsGroup allclose fuel c pg = some b ∧ (b = true ↔ Generates c pg) := by
    intro r hr c hc
    obtain ⟨c1, c2⟩ := mem_combinations.1 hc
    exact pyFormsGroup_spec ht hG (fun g hg => c1.subset hg) (by
      rintro rfl
      simp at c2
      omega) fuel hf
  have main : ∀ rounds m, 0 < m → pg.length < rounds + m → m ≤ pg.length →
      (∀ c : List R3, c.Nodup → c ≠ [] → (∀ x ∈ c, x ∈ pg) → Generates c pg → m ≤ c.length) →
      ∃ gens, pySearch allclose fuel pg rounds m = some gens ∧ gens.Sublist pg ∧ gens ≠ [] ∧ Generates gens pg ∧
        ∀ c : List R3, c.Nodup → c ≠ [] → (∀ x ∈ c, x ∈ pg) → Generates c pg → gens.length ≤ c.length := by
    intro rounds
    induction rounds with
    | zero => intro m _ h1 h2; omega
    | succ rounds ih =>
      intro m hm h1 h2 hmin
      rw [pySearch]
      rcases pyFirst_spec _ (hF m hm) with ⟨c, c1, c2, c3⟩ | ⟨c2, c3⟩
      · obtain ⟨m1, m2⟩ := mem_combinations.1 c1
        rw [c2]
        refine ⟨c, rfl, m1, ?_, c3, by rw [m2]; exact hmin⟩
        rintro rfl
        simp at m2
        omega
      · rw [c2]
        have hmin' : ∀ c : List R3, c.Nodup → c ≠ [] → (∀ x ∈ c, x ∈ pg) → Generates c pg → m + 1 ≤ c.length := by
          intro c k1 k2 k3 k4
          rcases (hmin c k1 k2 k3 k4).lt_or_eq with h | h
          · exact h
          · obtain ⟨d, d1, d2⟩ := exists_combination hG.nodup k1 k3
            rw [← h] at d1
            exact absurd (k4.mono fun x hx => (d2 x).2 hx) (c3 d d1)
        exact ih (m + 1) (by omega) (by omega)
          (hmin' pg hG.nodup (List.ne_nil_of_mem hG.one) (fun x hx => hx) hgen) hmin'
  exact main fuel 1 (by norm_num) (by omega) (List.length_pos_of_mem hG.one)
    fun c _ hc _ _ => List.length_pos_iff.2 hc

/-! ## Cases -/

/-- The theorems apply to the point group of the sample lattice, with the tolerance of the code. -/
example : ∃ (P : R3) (pg gens : List R3), ListsPointGroup P pg ∧ ListsGroup pg ∧
    find_pg_gens (equalMat fun x y => decide (|x - y| < 1e-10)) [] pg = some (some gens) ∧ Generates gens pg ∧
    get_srHNFs (fun x y => decide (|x - y| < 1e-10)) P gens 12 =
      get_srHNFs (fun x y => decide (|x - y| < 1e-10)) P pg 12 := by
  obtain ⟨pg, h1, h2⟩ := exists_pointGroup sampleNiggliCell.1 sampleNiggliCell.2
  obtain ⟨gens, g1, g2, _, g4⟩ := find_pg_gens_partial sampleNiggliCell.1 sampleNiggliCell.2 h1 h2 1e-10
    (by norm_num) (by norm_num) [] (by simp)
  exact ⟨_, pg, gens, h1, h1.group sampleNiggliCell.1.det_ne h2, g1, g4,
    get_srHNFs_gens sampleNiggliCell.1.det_ne h1 (fun g hg => g2.subset hg) g4 _ 12 (by norm_num)
      (separates_eps _ (by norm_num) 12 (by norm_num) (by norm_num))⟩

example : ∃ (P : R3) (pg gens : List R3), ListsPointGroup P pg ∧
    find_gens_of_pg (equalMat fun x y => decide (|x - y| < 1e-8)) (pg.length + 1) pg = some gens ∧
    Generates gens pg := by
  obtain ⟨pg, h1, h2⟩ := exists_pointGroup sampleNiggliCell.1 sampleNiggliCell.2
  obtain ⟨gens, g1, _, _, g4, _⟩ := find_gens_of_pg_minimal _ pg (h1.group sampleNiggliCell.1.det_ne h2)
    (h1.apart sampleNiggliCell.1.det_ne h2 1e-8 (by norm_num) (by norm_num)).1 (pg.length + 1) (by omega)
  exact ⟨_, pg, gens, h1, g1, g4⟩

/-- The mirror at the x, y plane. -/
def mirror : R3 := !![1, 0, 0; 0, 1, 0; 0, 0, -1]

/-- The point group of a primitive monoclinic lattice. -/
theorem monoclinic_group : ListsGroup [1, -1, mirror, -mirror] := by
  have hm : mirror * mirror = 1 := by
    ext i j
    fin_cases i <;> fin_cases j <;> simp [mirror, Matrix.mul_apply, Fin.sum_univ_three]
  have n1 : (1 : R3) ≠ -1 := fun h => by
    have := congrFun (congrFun h 0) 0
    norm_num at this
  have n2 : (1 : R3) ≠ mirror := fun h => by
    have := congrFun (congrFun h 2) 2
    simp [mirror] at this
    norm_num at this
  have n3 : (1 : R3) ≠ -mirror := fun h => by
    have := congrFun (congrFun h 0) 0
    simp [mirror] at this
    norm_num at this
  have n4 : (-1 : R3) ≠ mirror := fun h => n3 (by rw [← h, neg_neg])
  have n5 : (-1 : R3) ≠ -mirror := fun h => n2 (neg_injective h)
  have n6 : mirror ≠ -mirror := fun h => by
    have := congrFun (congrFun h 0) 0
    simp [mirror] at this
    norm_num at this
  refine ⟨by simp [n1, n2, n3, n4, n5, n6], by simp, ?_, ?_⟩
  · intro x hx y hy
    simp only [List.mem_cons, List.not_mem_nil, or_false] at hx hy
    rcases hx with rfl | rfl | rfl | rfl <;> rcases hy with rfl | rfl | rfl | rfl <;> simp [hm]
  · intro x hx
    refine ⟨x, hx, ?_⟩
    simp only [List.mem_cons, List.not_mem_nil, or_false] at hx
    rcases hx with rfl | rfl | rfl | rfl <;> simp [hm]

/-- C92 fails as it stands: with a copy of the group behind the array, `find_pg_gens` returns the identity and the
inversion for a group of four elements, which do not generate it. -/
theorem find_pg_gens_wrong : ∃ (equal : R3 → R3 → Bool) (behind pg gens : List R3), ListsGroup pg ∧
    TellsApart equal pg ∧ (∀ x ∈ pg, equal x 0 = false) ∧
    find_pg_gens equal behind pg = some (some gens) ∧ ¬ Generates gens pg := by
  classical
  refine ⟨fun x y => decide (x = y), [1, -1, mirror, -mirror], [1, -1, mirror, -mirror], [1, -1], monoclinic_group,
    ?_, ?_, ?_, ?_⟩
  · intro x _ y _
    exact decide_eq_true_iff
  · intro x hx
    rw [decide_eq_false_iff_not]
    rintro rfl
    obtain ⟨y, _, hy⟩ := monoclinic_group.inv 0 hx
    rw [Matrix.mul_zero] at hy
    exact zero_ne_one hy
  · exact find_pg_gens_behind _ _ _ _ _ monoclinic_group (fun x _ y _ => decide_eq_true_iff) fun z hz => hz
  · intro h
    have hcl : ∀ x ∈ Submonoid.closure {g : R3 | g ∈ [1, -1]}, x = 1 ∨ x = -1 := by
      intro x hx
      induction hx using Submonoid.closure_induction with
      | mem x hx => simpa using hx
      | one => exact Or.inl rfl
      | mul x y _ _ hx hy => rcases hx with rfl | rfl <;> rcases hy with rfl | rfl <;> simp
    have hn := monoclinic_group.nodup
    simp only [List.nodup_cons, List.mem_cons, List.not_mem_nil, or_false, not_or] at hn
    rcases hcl _ (h mirror (by simp)) with h | h
    · exact hn.1.2.1 h.symm
    · exact hn.2.1.1 h.symm

end AutoGR.Brute
