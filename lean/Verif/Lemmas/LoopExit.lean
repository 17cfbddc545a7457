import Verif.Lemmas.Metric
import Verif.Lemmas.Reduction
import Verif.Lemmas.Supercells
import Verif.Spec.NiggliClass

/-! # What it means for the reduction loop to stop -/

namespace AutoGR

open Spec

section Any

variable {K : Type} [Arith K]

theorem mulC_one (C : IMat) : mulC C IMat.one = C := by
  cases C
  simp [mulC, IMat.one]

/-- A pass that reports `reduced` changed nothing, and all its tests failed. -/
theorem niggliPass_true {orig : RMat K} {eps : K} {C C' : IMat}
    (h : niggliPass orig eps C = (C', true)) :
    C' = C ∧ cond1 eps (getParams orig eps C) = false ∧ cond2 eps (getParams orig eps C) = false ∧
      (let p := getParams orig eps C
       (p.l * p.m * p.n = 1 → findC3 p.l p.m p.n = IMat.one) ∧
       (p.l * p.m * p.n = 0 ∨ p.l * p.m * p.n = -1 → findC4 p.l p.m p.n = IMat.one)) ∧
      cond5 eps (getParams orig eps C) = false ∧ cond6 eps (getParams orig eps C) = false ∧
      cond7 eps (getParams orig eps C) = false ∧ cond8 eps (getParams orig eps C) = false := by
  unfold niggliPass at h
  extract_lets par c1 C1 p1 M3 s3 C2 p2 M4 s4 C4 reduced p at h
  split_ifs at h with k2 k5 k6 k7 k8
  all_goals simp only [Prod.mk.injEq, reduceCtorEq, and_false] at h
  obtain ⟨rfl, hred⟩ := h
  simp only [reduced, Bool.and_eq_true, Bool.not_eq_true', Bool.and_eq_false_iff,
    decide_eq_false_iff_not, not_not] at hred
  obtain ⟨⟨hc1, h3⟩, h4⟩ := hred
  have e1 : C1 = C := by simp only [C1, hc1]; rfl
  have e2 : C2 = C := by
    simp only [C2]
    split_ifs with hs
    · rw [h3.resolve_left (fun h => h hs), mulC_one, e1]
    · exact e1
  have e4 : C4 = C := by
    simp only [C4]
    split_ifs with hs
    · rw [h4.resolve_left (fun h => h hs), mulC_one, e2]
    · exact e2
  have ep1 : p1 = par C := by simp only [p1, e1]
  have ep2 : p2 = par C := by simp only [p2, e2]
  have ep : p = par C := by simp only [p, e4]
  rw [e1] at k2
  rw [ep] at k5 k6 k7 k8
  refine ⟨e4, hc1, by simpa using k2, ⟨fun hl => ?_, fun hl => ?_⟩, by simpa using k5, by simpa using k6,
    by simpa using k7, by simpa using k8⟩
  · have : M3 = IMat.one := h3.resolve_left (fun h => h (by simp only [s3, ep1]; exact hl))
    simp only [M3, ep1] at this
    exact this
  · have : M4 = IMat.one := h4.resolve_left (fun h => h (by simp only [s4, ep2]; exact hl))
    simp only [M4, ep2] at this
    exact this

/-- If the loop ends with `count < 1000`, its last pass reported `reduced`. -/
theorem niggliLoop_end {orig : RMat K} {eps : K} : ∀ (fuel count : ℕ) {C C' : IMat} {n : ℕ},
    niggliLoop orig eps fuel count C = (C', n) → n < count + fuel →
      ∃ C0, niggliPass orig eps C0 = (C', true)
  | 0, count, C, C', n, h, hn => by
    unfold niggliLoop at h
    cases h
    omega
  | fuel + 1, count, C, C', n, h, hn => by
    unfold niggliLoop at h
    split at h
    · rename_i C1 heq
      cases h
      exact ⟨C, heq⟩
    · exact niggliLoop_end fuel (count + 1) h (by omega)

theorem reducedCell_end {A : RMat K} {eps : Option K} {C : IMat} (h : reducedCell A eps = .ok C) :
    let tol := Arith.mul (eps.getD (Arith.ofRat (1 / 100000)))
      (Arith.cbrt (Arith.abs (rdet A)))
    niggliPass A tol C = (C, true) ∧ niggliCheck (getParams A tol C) tol = true := by
  unfold reducedCell at h
  dsimp only at h
  split_ifs at h
  have key (tol : K) (h : niggliReduction A tol = .ok C) :
      niggliPass A tol C = (C, true) ∧ niggliCheck (getParams A tol C) tol = true := by
    unfold niggliReduction at h
    split at h
    rename_i C' count heq
    split_ifs at h with h1 h2
    cases h
    obtain ⟨C0, h0⟩ := niggliLoop_end 1001 0 heq (by omega)
    have := (niggliPass_true h0).1
    subst this
    exact ⟨h0, h2⟩
  cases eps with
  | none => exact key _ h
  | some e => exact key _ h

end Any

theorem gram_pos {U : RMat ℚ} {C : IMat} (hU : U.toMatrix.det ≠ 0) (hC : C.toMat.det = 1) (i : Fin 3) :
    0 < gram U C i i := by
  have hdet : (cellMat U C).det ≠ 0 := by
    have hc : (castMat C.toMat : Matrix (Fin 3) (Fin 3) ℚ).det = 1 := by
      have : (castMat C.toMat : Matrix (Fin 3) (Fin 3) ℚ) = (Int.castRingHom ℚ).mapMatrix C.toMat := rfl
      rw [this, ← RingHom.map_det, hC]
      simp
    unfold cellMat
    rw [Matrix.det_mul, hc, mul_one]
    exact hU
  rw [gram_apply]
  by_contra hn
  have h0 : cellMat U C 0 i = 0 := by
    nlinarith [mul_self_nonneg (cellMat U C 0 i), mul_self_nonneg (cellMat U C 1 i), mul_self_nonneg (cellMat U C 2 i)]
  have h1 : cellMat U C 1 i = 0 := by
    nlinarith [mul_self_nonneg (cellMat U C 0 i), mul_self_nonneg (cellMat U C 1 i), mul_self_nonneg (cellMat U C 2 i)]
  have h2 : cellMat U C 2 i = 0 := by
    nlinarith [mul_self_nonneg (cellMat U C 0 i), mul_self_nonneg (cellMat U C 1 i), mul_self_nonneg (cellMat U C 2 i)]
  apply hdet
  refine Matrix.det_eq_zero_of_column_eq_zero i fun j => ?_
  fin_cases j
  exacts [h0, h1, h2]

theorem flags_type {l m n : ℤ} (hl : l = -1 ∨ l = 0 ∨ l = 1) (hm : m = -1 ∨ m = 0 ∨ m = 1)
    (hn : n = -1 ∨ n = 0 ∨ n = 1) (h3 : l * m * n = 1 → findC3 l m n = IMat.one)
    (h4 : l * m * n = 0 ∨ l * m * n = -1 → findC4 l m n = IMat.one) :
    (l = 1 ∧ m = 1 ∧ n = 1) ∨ (l ≠ 1 ∧ m ≠ 1 ∧ n ≠ 1) := by
  rcases hl with rfl | rfl | rfl <;> rcases hm with rfl | rfl | rfl <;>
    rcases hn with rfl | rfl | rfl <;> revert h3 h4 <;> decide

theorem Spec.SepTol.le {tau rho x y : ℚ} (h : SepTol tau rho x y) (hr : 0 ≤ rho) (hx : x ≤ y + tau) : x ≤ y := by
  rcases h with h | h
  · exact h.le
  · have : 0 ≤ rho * |y| := by positivity
    by_contra hn
    rw [abs_of_pos (show 0 < x - y by linarith)] at h
    linarith

theorem Spec.SepTol.ge {tau rho x y : ℚ} (h : SepTol tau rho x y) (hr : 0 ≤ rho) (hx : y ≤ x + tau) : y ≤ x := by
  rcases h with h | h
  · exact h.ge
  · have : 0 ≤ rho * |y| := by positivity
    by_contra hn
    rw [abs_of_neg (show x - y < 0 by linarith)] at h
    linarith

/-- If a pass with tolerance `eps` reports `reduced` and all compared quantities are equal or clearly
different, then all Niggli conditions hold exactly. -/
theorem niggliPass_true_sep {U : RMat ℚ} {C C' : IMat} {eps rho sigma : ℚ} (he : 0 ≤ eps) (hr : 0 ≤ rho)
    (hU : U.toMatrix.det ≠ 0) (hC : C.toMat.det = 1) (h : niggliPass U eps C = (C', true))
    (sep : Separated eps rho sigma (gram U C 0 0) (gram U C 1 1) (gram U C 2 2) (gram U C 1 2)
      (gram U C 0 2) (gram U C 0 1)) :
    NiggliReduced (gram U C 0 0 : ℚ) (gram U C 1 1 : ℚ) (gram U C 2 2 : ℚ) (gram U C 1 2 : ℚ)
      (gram U C 0 2 : ℚ) (gram U C 0 1 : ℚ) := by
  obtain ⟨-, h1, h2, ⟨h3, h4⟩, h5, h6, h7, h8⟩ := niggliPass_true h
  obtain ⟨eA, eB, eC, eD, eE, eF⟩ := getParams_metric U eps C
  set p := getParams U eps C with hp
  have hpos := gram_pos hU hC 0
  have hl : p.l = signFlag eps p.xi := rfl
  have hm : p.m = signFlag eps p.eta := rfl
  have hn : p.n = signFlag eps p.zeta := rfl
  have hsf (x : ℚ) : signFlag eps x = if x < -eps then -1 else if eps < x then 1 else 0 := by
    simp [signFlag, Arith.lt, Arith.neg]
  simp only [cond1, cond2, cond5, cond6, cond7, cond8, sum8, Arith.lt, Arith.add, Arith.sub, Arith.mul, Arith.neg,
    Arith.abs, Arith.ofInt, eA, eB, eC, eD, eE, eF, Bool.or_eq_false_iff, Bool.and_eq_false_iff,
    decide_eq_false_iff_not, decide_eq_true_eq, not_lt, Bool.not_eq_eq_eq_not, Bool.not_false]
    at h1 h2 h5 h6 h7 h8
  rw [hl, hm, hn, eD, eE, eF] at h3 h4
  set A := gram U C 0 0
  set B := gram U C 1 1
  set Cc := gram U C 2 2
  set D := gram U C 1 2
  set E := gram U C 0 2
  set F := gram U C 0 1
  have e2 : ((2 : ℤ) : ℚ) = 2 := by norm_num
  rw [e2] at h5 h6 h7 h8
  have habs2 (x : ℚ) : |2 * x| = 2 * |x| := by rw [abs_mul]; norm_num
  have near {x : ℚ} (hx : x = 0) : ¬ eps < |x| := by rw [hx, abs_zero]; exact not_lt.2 he
  have type : (0 < D ∧ 0 < E ∧ 0 < F) ∨ (D ≤ 0 ∧ E ≤ 0 ∧ F ≤ 0) := by
    have pos (x : ℚ) (h : signFlag eps (2 * x) = 1) : 0 < x := by
      rw [hsf] at h
      split_ifs at h <;> first | omega | linarith
    have neg (x : ℚ) (hs : SepTol eps rho (2 * x) 0) (h : signFlag eps (2 * x) ≠ 1) : x ≤ 0 := by
      rw [hsf] at h
      have := hs.le hr
      split_ifs at h <;> first | exact absurd rfl h | linarith [this (by linarith)]
    rcases flags_type (signFlag_mem _ _) (signFlag_mem _ _) (signFlag_mem _ _) h3 h4 with
      ⟨a, b, c⟩ | ⟨a, b, c⟩
    · exact .inl ⟨pos _ a, pos _ b, pos _ c⟩
    · exact .inr ⟨neg _ sep.d_zero a, neg _ sep.e_zero b, neg _ sep.f_zero c⟩
  obtain ⟨ab, ab'⟩ := h1
  obtain ⟨bc, bc'⟩ := h2
  obtain ⟨⟨d1, d2⟩, d3⟩ := h5
  obtain ⟨⟨e1, e2⟩, e3⟩ := h6
  obtain ⟨⟨f1, f2⟩, f3⟩ := h7
  obtain ⟨s1, s2⟩ := h8
  replace ab := sep.a_b.le hr ab
  replace bc := sep.b_c.le hr bc
  replace d1 := sep.d_abs.le hr d1
  replace e1 := sep.e_abs.le hr e1
  replace f1 := sep.f_abs.le hr f1
  rw [habs2] at d1 e1 f1
  have ab_eq : A = B → |D| ≤ |E| := fun h => by
    have := sep.d_e.le hr (ab'.resolve_left (near (by linarith)))
    rw [habs2, habs2] at this
    linarith
  have bc_eq : B = Cc → |E| ≤ |F| := fun h => by
    have := sep.e_f.le hr (bc'.resolve_left (near (by linarith)))
    rw [habs2, habs2] at this
    linarith
  have d_eq : 2 * D = B → F ≤ 2 * E := fun h => by
    have := d2.resolve_left (near (by linarith))
    have := sep.f_2e.le hr (by linarith)
    linarith
  have e_eq : 2 * E = A → F ≤ 2 * D := fun h => by
    have := e2.resolve_left (near (by linarith))
    have := sep.f_2d.le hr (by linarith)
    linarith
  have f_eq : 2 * F = A → E ≤ 2 * D := fun h => by
    have := f2.resolve_left (near (by linarith))
    have := sep.e_2d.le hr (by linarith)
    linarith
  have d_neg : 2 * D = -B → F = 0 := fun h => by
    have := d3.resolve_left (near (by linarith))
    have := sep.f_zero.ge hr (by linarith)
    rcases type with t | t <;> linarith
  have e_neg : 2 * E = -A → F = 0 := fun h => by
    have := e3.resolve_left (near (by linarith))
    have := sep.f_zero.ge hr (by linarith)
    rcases type with t | t <;> linarith
  have f_neg : 2 * F = -A → E = 0 := fun h => by
    have := f3.resolve_left (near (by linarith))
    have := sep.e_zero.ge hr (by linarith)
    rcases type with t | t <;> linarith
  have sum : 0 ≤ A + B + 2 * (D + E + F) := by
    have := sep.sum.le hr (by linarith)
    linarith
  have sum_eq : A + B + 2 * (D + E + F) = 0 → 2 * A + 4 * E + 2 * F ≤ 0 := fun h => by
    have := s2.resolve_left (near (by linarith))
    have := sep.last.le hr (by linarith)
    linarith
  refine ⟨by exact_mod_cast hpos, by exact_mod_cast ab, by exact_mod_cast bc, ?_, by exact_mod_cast d1,
    by exact_mod_cast e1, by exact_mod_cast f1, by exact_mod_cast sum, by exact_mod_cast ab_eq,
    by exact_mod_cast bc_eq, by exact_mod_cast d_eq, by exact_mod_cast e_eq, by exact_mod_cast f_eq,
    by exact_mod_cast d_neg, by exact_mod_cast e_neg, by exact_mod_cast f_neg,
    by exact_mod_cast sum_eq⟩
  unfold TypeI TypeII
  exact_mod_cast type

theorem sep_zero (x y : ℚ) : SepTol 0 0 x y := by
  by_cases h : x = y
  · exact .inl h
  · exact .inr (by rw [zero_mul, add_zero]; exact abs_pos.2 (sub_ne_zero.2 h))

/-- With tolerance 0 nothing has to be assumed about the metric. -/
theorem niggliPass_true_reduced {U : RMat ℚ} {C C' : IMat} (hU : U.toMatrix.det ≠ 0)
    (hC : C.toMat.det = 1) (h : niggliPass U 0 C = (C', true)) :
    NiggliReduced (gram U C 0 0 : ℚ) (gram U C 1 1 : ℚ) (gram U C 2 2 : ℚ) (gram U C 1 2 : ℚ)
      (gram U C 0 2 : ℚ) (gram U C 0 1 : ℚ) :=
  niggliPass_true_sep (rho := 0) (sigma := 0) le_rfl le_rfl hU hC h
    ⟨sep_zero _ _, sep_zero _ _, sep_zero _ _, sep_zero _ _, sep_zero _ _, sep_zero _ _, sep_zero _ _,
      sep_zero _ _, sep_zero _ _, sep_zero _ _, sep_zero _ _, sep_zero _ _, sep_zero _ _, sep_zero _ _,
      sep_zero _ _, sep_zero _ _, sep_zero _ _, sep_zero _ _, sep_zero _ _, sep_zero _ _, sep_zero _ _,
      sep_zero _ _, sep_zero _ _⟩

/-! ## The check after the loop accepts -/

theorem Spec.SepTol.close {eps x y : ℚ} (h : SepTol eps (1 / 100000) x y) (_he : 0 ≤ eps)
    (hc : allclose eps x y = true) : x = y := by
  rcases h with h | h
  · exact h
  · rw [close_iff, EqTol] at hc
    exact absurd hc (not_le.2 h)

theorem close_refl {eps : ℚ} (he : 0 ≤ eps) {x y : ℚ} (h : x = y) : allclose eps x y = true := by
  rw [close_iff, EqTol, h, sub_self, abs_zero]
  positivity

theorem Spec.SepTol.ltOrClose {eps x y : ℚ} (h : SepTol eps (1 / 100000) x y) (he : 0 ≤ eps) (hx : x ≤ y) :
    (Arith.lt x (Arith.sub y eps) || allclose eps x y) = true := by
  rw [Bool.or_eq_true]
  rcases h with h | h
  · exact .inr (close_refl he h)
  · left
    simp only [Arith.lt, Arith.sub, decide_eq_true_eq]
    rw [abs_of_nonpos (show x - y ≤ 0 by linarith)] at h
    have : 0 ≤ (1 / 100000 : ℚ) * |y| := by positivity
    linarith

theorem niggliCheck_of_reduced {p : Params ℚ} {eps : ℚ} (he : 0 ≤ eps) {D E F : ℚ} (hD : p.xi = 2 * D)
    (hE : p.eta = 2 * E) (hF : p.zeta = 2 * F)
    (sep : Separated eps (1 / 100000) (1 / 100000000) p.A p.B p.C D E F)
    (h : NiggliReduced p.A p.B p.C D E F) : niggliCheck p eps = true := by
  have hz : (Arith.ofInt 0 : ℚ) = 0 := by simp [Arith.ofInt]
  have ht : (Arith.ofInt 2 : ℚ) = 2 := by simp [Arith.ofInt]
  have hadd (x y : ℚ) : Arith.add x y = x + y := rfl
  have hmul (x y : ℚ) : Arith.mul x y = x * y := rfl
  have hneg (x : ℚ) : Arith.neg x = -x := rfl
  have habs (x : ℚ) : Arith.abs x = |x| := rfl
  have habs2 (x : ℚ) : |2 * x| = 2 * |x| := by rw [abs_mul]; norm_num
  obtain ⟨pos, ab, bc, type, d_le, e_le, f_le, sum, ab_eq, bc_eq, d_eq, e_eq, f_eq, d_neg, e_neg, f_neg,
    sum_eq⟩ := h
  unfold TypeI TypeII at type
  norm_cast at pos ab bc type d_le e_le f_le sum ab_eq bc_eq d_eq e_eq f_eq d_neg e_neg f_neg sum_eq
  unfold niggliCheck
  dsimp only
  rw [hD, hE, hF, hz, ht]
  simp only [hadd, hmul, hneg, habs, if_false_eq]
  have imp {c b : Bool} (h : c = true → b = true) : (c && !b) = false := by
    cases c <;> cases b <;> simp_all
  have zlt {x : ℚ} (h : SepTol eps (1 / 100000) x 0) (hx : 0 < x) : Arith.lt 0 (Arith.sub x eps) = true := by
    rcases h with h | h
    · exact absurd h hx.ne'
    · rw [abs_zero, sub_zero, abs_of_pos hx] at h
      simp only [Arith.lt, Arith.sub, decide_eq_true_eq]
      linarith
  refine ⟨?_, imp ?_, imp ?_, ?_, ?_, ?_, ?_, imp ?_, imp ?_, imp ?_, imp ?_, imp ?_, imp ?_, imp ?_, trivial⟩
  · simp only [Bool.not_eq_false', Bool.and_eq_true]
    exact ⟨⟨zlt sep.a_zero pos, sep.a_b.ltOrClose he ab⟩, sep.b_c.ltOrClose he bc⟩
  · intro hc
    refine sep.d_e.ltOrClose he ?_
    rw [habs2, habs2]
    linarith [ab_eq (sep.a_b.close he hc)]
  · intro hc
    refine sep.e_f.ltOrClose he ?_
    rw [habs2, habs2]
    linarith [bc_eq (sep.b_c.close he hc)]
  · simp only [Bool.not_eq_false', Bool.and_eq_true, Bool.or_eq_true (_ && _ && _)]
    rcases type with ⟨t1, t2, t3⟩ | ⟨t1, t2, t3⟩
    · exact .inl ⟨⟨zlt sep.d_zero (by linarith), zlt sep.e_zero (by linarith)⟩, zlt sep.f_zero (by linarith)⟩
    · exact .inr ⟨⟨sep.d_zero.ltOrClose he (by linarith), sep.e_zero.ltOrClose he (by linarith)⟩,
        sep.f_zero.ltOrClose he (by linarith)⟩
  · rw [Bool.not_eq_false']
    exact sep.d_abs.ltOrClose he (by rw [habs2]; exact d_le)
  · rw [Bool.not_eq_false', Bool.and_eq_true]
    exact ⟨sep.e_abs.ltOrClose he (by rw [habs2]; exact e_le), sep.f_abs.ltOrClose he (by rw [habs2]; exact f_le)⟩
  · rw [Bool.not_eq_false']
    exact sep.sum.ltOrClose he (by linarith)
  · intro hc
    exact sep.f_2e.ltOrClose he (by linarith [d_eq (sep.d_b.close he hc)])
  · intro hc
    exact sep.f_2d.ltOrClose he (by linarith [e_eq (sep.e_a.close he hc)])
  · intro hc
    exact sep.e_2d.ltOrClose he (by linarith [f_eq (sep.f_a.close he hc)])
  · intro hc
    exact close_refl he (by linarith [d_neg (sep.d_nb.close he hc)])
  · intro hc
    exact close_refl he (by linarith [e_neg (sep.e_na.close he hc)])
  · intro hc
    exact close_refl he (by linarith [f_neg (sep.f_na.close he hc)])
  · intro hc
    refine sep.last.ltOrClose he ?_
    have : p.C = p.A + p.B + p.C + 2 * D + 2 * E + 2 * F := by
      rcases sep.sum_sigma with h | h
      · exact h
      · simp [allcloseR, Arith.le, Arith.abs, Arith.sub, Arith.add, Arith.mul, Arith.ofRat] at hc
        rw [zero_mul, add_zero] at h
        norm_num at h
        linarith
    linarith [sum_eq (by linarith)]

end AutoGR
