import Verif.Lemmas.LoopExit
import Verif.Lemmas.Scale
import Verif.Model.FortranNiggli
import Verif.Spec.Boundary

/-! # The loop of `reduce_cell` in `niggli.f90` is the loop of `pyniggli.py` -/

namespace AutoGR

open Spec

section Any
variable {K : Type} [Arith K]

theorem fGetParams_matmulI (U : RMat K) (eps : K) (C : IMat) :
    fGetParams (matmulI U C) eps = getParams U eps C := rfl

theorem fFindC3_eq (l m n : ℤ) : fFindC3 l m n = findC3 l m n := rfl

theorem fFindC4_eq (l m n : ℤ) : fFindC4 l m n = findC4 l m n := by
  unfold fFindC4 findC4
  by_cases h1 : l = -1 ∧ m = -1 ∧ n = -1
  · rw [if_pos h1, if_pos h1]; rfl
  · rw [if_neg h1, if_neg h1]
    dsimp only
    by_cases a : l = 1 <;> by_cases b : m = 1 <;> by_cases c : n = 1 <;>
      by_cases a0 : l = 0 <;> by_cases b0 : m = 0 <;> by_cases c0 : n = 0 <;>
      first | omega | simp [a, b, c, a0, b0, c0]

end Any

theorem fSign_eq (x : ℚ) : fSign x = Arith.sign x := by
  simp only [fSign, Arith.sign, Arith.lt, Arith.ofInt, decide_eq_true_eq, Int.cast_zero]
  split_ifs <;> first | rfl | linarith

theorem fGetParams_self (U : RMat ℚ) (eps : ℚ) : fGetParams U eps = getParams U eps IMat.one := by
  rw [← fGetParams_matmulI]
  congr 1
  cases U
  simp [matmulI, IMat.one, Arith.add, Arith.mul, Arith.ofInt]

/-- The variables of the Fortran loop when `trans` is `C`. -/
def fAt (U : RMat ℚ) (eps : ℚ) (C : IMat) : FState ℚ := ⟨C, getParams U eps C⟩

theorem fPass_eq (U : RMat ℚ) (eps : ℚ) (C : IMat) :
    fPass U eps (fAt U eps C) =
      (fAt U eps (niggliPass U eps C).1, (niggliPass U eps C).2) := by
  have ap (C M : IMat) : fApply U eps (fAt U eps C) M = fAt U eps (mulC C M) := rfl
  have it (c : Prop) [Decidable c] (C D : IMat) :
      (if c then fAt U eps C else fAt U eps D) = fAt U eps (if c then C else D) := by
    split_ifs <;> rfl
  unfold fPass niggliPass
  extract_lets b1 s1 M3 b3 s3 M4 b4 s reduced par c1 C1 p1 M3' q3 C2 p2 M4' q4 C4 reduced' p
  have h1 : s1 = fAt U eps C1 := it (b1 = true) _ _
  have hM3 : M3 = M3' := by simp only [M3, h1]; rfl
  have hb3 : b3 = q3 := by simp only [b3, h1]; rfl
  have h3 : s3 = fAt U eps C2 := by
    simp only [s3, C2, h1, ap, hM3, hb3, it]
  have hM4 : M4 = M4' := by simp only [M4, h3, fFindC4_eq]; rfl
  have hb4 : b4 = q4 := by simp only [b4, h3]; rfl
  have h4 : s = fAt U eps C4 := by
    simp only [s, C4, h3, ap, hM4, hb4, it]
  have hr : reduced = reduced' := by
    simp only [reduced, reduced', hM3, hM4, hb3, hb4]; rfl
  clear_value reduced reduced' s1 s3 s
  subst h1 h4 hr
  rw [fSign_eq, fSign_eq, fSign_eq, ap, ap, ap, ap, ap]
  change (if cond2 eps (par C1) = true then _ else if cond5 eps p = true then _ else if cond6 eps p = true then _
    else if cond7 eps p = true then _ else if cond8 eps p = true then _ else _) = _
  split_ifs <;> rfl

theorem fLoop_eq (U : RMat ℚ) (eps : ℚ) : ∀ (fuel count : ℕ) (C : IMat),
    fLoop U eps fuel count (fAt U eps C) =
      (fAt U eps (niggliLoop U eps fuel count C).1, (niggliLoop U eps fuel count C).2)
  | 0, _, _ => rfl
  | fuel + 1, count, C => by
    unfold fLoop niggliLoop
    rw [fPass_eq]
    rcases h : niggliPass U eps C with ⟨C', b⟩
    cases b
    · exact fLoop_eq U eps fuel (count + 1) C'
    · rfl

/-- The tolerance of `reduce_cell`, `niggli.f90:64-68`. -/
def fTol (U : RMat ℚ) (eps_ : Option ℚ) : ℚ := eps_.getD (1 / 100000) * Arith.cbrt |rdet U|

theorem reduceCell_eq (equal : ℚ → ℚ → ℚ → Bool) (U : RMat ℚ) (eps_ : Option ℚ) :
    reduceCell equal U eps_ =
      if equal (rdet U) 0 (1 / 1000000) then .error .dependent
      else
        let r := niggliLoop U (fTol U eps_) 1001 0 IMat.one
        if 1000 ≤ r.2 then .error .iterations
        else if fCheck (getParams U (fTol U eps_) r.1) (fTol U eps_) then .ok r.1
        else .error .conditions := by
  have h0 : (Arith.ofInt 0 : ℚ) = 0 := by simp [Arith.ofInt]
  have h1 : (Arith.ofRat (1 / 1000000) : ℚ) = 1 / 1000000 := rfl
  have key (eps : ℚ) : (match fLoop U eps 1001 0 ⟨⟨1, 0, 0, 0, 1, 0, 0, 0, 1⟩, fGetParams U eps⟩ with
      | (s, count) =>
        if 1000 ≤ count then (.error .iterations : Except FStop IMat)
        else if (!fCheck s.p eps) = true then .error .conditions
        else .ok s.trans) =
      (let r := niggliLoop U eps 1001 0 IMat.one
        if 1000 ≤ r.2 then .error .iterations
        else if fCheck (getParams U eps r.1) eps then .ok r.1
        else .error .conditions) := by
    have : (⟨⟨1, 0, 0, 0, 1, 0, 0, 0, 1⟩, fGetParams U eps⟩ : FState ℚ) = fAt U eps IMat.one := by
      rw [fGetParams_self]; rfl
    rw [this, fLoop_eq]
    dsimp only [fAt]
    split_ifs <;> simp_all
  unfold reduceCell
  dsimp only
  rw [h0, h1]
  refine if_congr Iff.rfl rfl ?_
  cases eps_ with
  | none => exact key _
  | some e => exact key _

theorem reduceCell_ok {equal : ℚ → ℚ → ℚ → Bool} {U : RMat ℚ} {eps_ : Option ℚ} {C : IMat} :
    reduceCell equal U eps_ = .ok C ↔ equal (rdet U) 0 (1 / 1000000) = false ∧
      ∃ n, n < 1000 ∧ niggliLoop U (fTol U eps_) 1001 0 IMat.one = (C, n) ∧
        fCheck (getParams U (fTol U eps_) C) (fTol U eps_) = true := by
  rw [reduceCell_eq]
  rcases niggliLoop U (fTol U eps_) 1001 0 IMat.one with ⟨C', n⟩
  dsimp only
  split_ifs with h1 h2 h3
  · refine ⟨fun h => ?_, fun h => ?_⟩
    · cases h
    · rw [h1] at h
      cases h.1
  · simp only [false_iff, not_and, not_exists]
    rintro - n' hn hh
    simp only [Prod.mk.injEq] at hh
    omega
  · simp only [Except.ok.injEq]
    constructor
    · rintro rfl
      exact ⟨by simpa using h1, n, by omega, rfl, h3⟩
    · rintro ⟨-, n', -, hh, -⟩
      exact congrArg Prod.fst hh
  · simp only [false_iff, not_and, not_exists]
    rintro - n' hn hh
    simp only [Prod.mk.injEq] at hh
    rw [← hh.1]
    exact h3

/-- A pass that reports `reduced`, together with the first test of the check, gives the Niggli conditions
up to the tolerance. -/
theorem niggliUpTo_of_pass {U : RMat ℚ} {C C' : IMat} {eps : ℚ} (he : 0 ≤ eps)
    (h : niggliPass U eps C = (C', true)) (hpos : eps < gram U C 0 0) :
    ((eps < 2 * gram U C 1 2 ∧ eps < 2 * gram U C 0 2 ∧ eps < 2 * gram U C 0 1) ∨
      (2 * gram U C 1 2 ≤ eps ∧ 2 * gram U C 0 2 ≤ eps ∧ 2 * gram U C 0 1 ≤ eps)) ∧
    NiggliUpTo eps 0 eps (gram U C 0 0) (gram U C 1 1) (gram U C 2 2) (gram U C 1 2)
      (gram U C 0 2) (gram U C 0 1) := by
  obtain ⟨-, h1, h2, ⟨h3, h4⟩, h5, h6, h7, h8⟩ := niggliPass_true h
  obtain ⟨eA, eB, eC, eD, eE, eF⟩ := getParams_metric U eps C
  set p := getParams U eps C with hp
  have hl : p.l = signFlag eps p.xi := rfl
  have hm : p.m = signFlag eps p.eta := rfl
  have hn : p.n = signFlag eps p.zeta := rfl
  have hsf (x : ℚ) : signFlag eps x = if x < -eps then -1 else if eps < x then 1 else 0 := by
    simp [signFlag, Arith.lt, Arith.neg]
  simp only [cond1, cond2, cond5, cond6, cond7, cond8, sum8, Arith.lt, Arith.add, Arith.sub, Arith.mul, Arith.neg,
    Arith.abs, Arith.ofInt, eA, eB, eC, eD, eE, eF, Bool.or_eq_false_iff, Bool.and_eq_false_iff,
    decide_eq_false_iff_not, decide_eq_true_eq, not_lt, Bool.not_eq_eq_eq_not, Bool.not_false]
    at h1 h2 h5 h6 h7 h8
  rw [hl, hm, hn, eD, eE, eF] at h3 h4
  generalize gram U C 0 0 = A at *
  generalize gram U C 1 1 = B at *
  generalize gram U C 2 2 = Cc at *
  generalize gram U C 1 2 = D at *
  generalize gram U C 0 2 = E at *
  generalize gram U C 0 1 = F at *
  have e2 : ((2 : ℤ) : ℚ) = 2 := by norm_num
  rw [e2] at h5 h6 h7 h8
  have type : (eps < 2 * D ∧ eps < 2 * E ∧ eps < 2 * F) ∨ (2 * D ≤ eps ∧ 2 * E ≤ eps ∧ 2 * F ≤ eps) := by
    have pos (x : ℚ) (h : signFlag eps x = 1) : eps < x := by
      rw [hsf] at h
      split_ifs at h <;> first | assumption | exact absurd h (by decide)
    have neg (x : ℚ) (h : signFlag eps x ≠ 1) : x ≤ eps := by
      rw [hsf] at h
      split_ifs at h <;> first | exact absurd rfl h | linarith
    rcases flags_type (signFlag_mem _ _) (signFlag_mem _ _) (signFlag_mem _ _) h3 h4 with
      ⟨a, b, c⟩ | ⟨a, b, c⟩
    · exact .inl ⟨pos _ a, pos _ b, pos _ c⟩
    · exact .inr ⟨neg _ a, neg _ b, neg _ c⟩
  obtain ⟨ab, ab'⟩ := h1
  obtain ⟨bc, bc'⟩ := h2
  obtain ⟨⟨d1, d2⟩, d3⟩ := h5
  obtain ⟨⟨e1, e2⟩, e3⟩ := h6
  obtain ⟨⟨f1, f2⟩, f3⟩ := h7
  obtain ⟨s1, s2⟩ := h8
  have n1 {x y : ℚ} (h : EqTol eps 0 x y) : ¬ eps < |x - y| := by
    unfold EqTol at h
    rw [zero_mul, add_zero] at h
    exact not_lt.2 h
  have n2 {x y : ℚ} (h : EqTol eps 0 x y) : ¬ eps < |y - x| := by
    rw [abs_sub_comm]
    exact n1 h
  have n3 {x y : ℚ} (h : EqTol eps 0 x (-y)) : ¬ eps < |y + x| := by
    have := n1 h
    rwa [sub_neg_eq_add, add_comm] at this
  have z {x : ℚ} (hx : -eps ≤ x) (hx' : x ≤ eps) : EqTol eps 0 x 0 := by
    unfold EqTol
    rw [sub_zero, zero_mul, add_zero]
    exact abs_le.2 ⟨hx, hx'⟩
  have up {x y : ℚ} (hy : 0 < y) (h : EqTol eps 0 x (-y)) : ¬ eps < x := by
    unfold EqTol at h
    have := (abs_le.1 h).2
    intro hx
    linarith
  refine ⟨type, ?_⟩
  constructor
  · exact hpos
  · unfold LeTol; linarith
  · unfold LeTol; linarith
  · rcases type with t | t
    · exact .inl ⟨by linarith, by linarith, by linarith⟩
    · refine .inr ⟨?_, ?_, ?_⟩ <;> unfold LeTol <;> linarith
  · unfold LeTol; linarith
  · unfold LeTol; linarith
  · unfold LeTol; linarith
  · unfold LeTol; linarith
  · intro h
    have := ab'.resolve_left (n1 h)
    unfold LeTol; linarith
  · intro h
    have := bc'.resolve_left (n2 h)
    unfold LeTol; linarith
  · intro h
    have := d2.resolve_left (n2 h)
    unfold LeTol; linarith
  · intro h
    have := e2.resolve_left (n2 h)
    unfold LeTol; linarith
  · intro h
    have := f2.resolve_left (n2 h)
    unfold LeTol; linarith
  · intro h
    have := d3.resolve_left (n3 h)
    rcases type with t | t
    · exact absurd t.1 (up (by linarith) h)
    · exact z this t.2.2
  · intro h
    have := e3.resolve_left (n3 h)
    rcases type with t | t
    · exact absurd t.2.1 (up (by linarith) h)
    · exact z this t.2.2
  · intro h
    have := f3.resolve_left (n3 h)
    rcases type with t | t
    · exact absurd t.2.2 (up (by linarith) h)
    · exact z this t.2.1
  · intro h
    have hs : ¬ eps < |2 * D + 2 * E + 2 * F + A + B| := by
      have := n2 h
      rwa [show A + B + Cc + 2 * D + 2 * E + 2 * F - Cc = 2 * D + 2 * E + 2 * F + A + B by ring] at this
    have := s2.resolve_left hs
    unfold LeTol
    linarith

/-- What the check does in exact arithmetic. -/
theorem fCheck_iff {p : Params ℚ} {eps D E F : ℚ} (hD : p.xi = 2 * D) (hE : p.eta = 2 * E)
    (hF : p.zeta = 2 * F) : fCheck p eps = true ↔
    (eps < p.A ∧ (p.A < p.B - eps ∨ |p.A - p.B| < eps) ∧ (p.B < p.C - eps ∨ |p.B - p.C| < eps)) ∧
    (|p.A - p.B| < eps → |2 * D| < |2 * E| - eps ∨ |(|2 * D| - |2 * E|)| < eps) ∧
    (|p.B - p.C| < eps → |2 * E| < |2 * F| - eps ∨ |(|2 * E| - |2 * F|)| < eps) ∧
    ((eps < 2 * D ∧ eps < 2 * E ∧ eps < 2 * F) ∨
      ((2 * D < 0 ∨ |2 * D| < eps) ∧ (2 * E < 0 ∨ |2 * E| < eps) ∧ (2 * F < 0 ∨ |2 * F| < eps))) ∧
    (|2 * D| < p.B - eps ∨ |(|2 * D| - p.B)| < eps) ∧
    ((|2 * E| < p.A - eps ∨ |(|2 * E| - p.A)| < eps) ∧ (|2 * F| < p.A - eps ∨ |(|2 * F| - p.A)| < eps)) ∧
    (p.C < p.A + p.B + p.C + 2 * D + 2 * E + 2 * F - eps ∨
      |p.C - (p.A + p.B + p.C + 2 * D + 2 * E + 2 * F)| < eps) ∧
    (|2 * D - p.B| < eps → 2 * F < 2 * (2 * E) - eps ∨ |2 * F - 2 * (2 * E)| < eps) ∧
    (|2 * E - p.A| < eps → 2 * F < 2 * (2 * D) - eps ∨ |2 * F - 2 * (2 * D)| < eps) ∧
    (|2 * F - p.A| < eps → 2 * E < 2 * (2 * D) - eps ∨ |2 * E - 2 * (2 * D)| < eps) ∧
    (|2 * D + p.B| < eps → |2 * F| < eps) ∧
    (|2 * E + p.A| < eps → |2 * F| < eps) ∧
    (|2 * F + p.A| < eps → |2 * E| < eps) ∧
    (|p.C - (p.A + p.B + p.C + 2 * D + 2 * E + 2 * F)| < eps →
      2 * p.A + 2 * (2 * E) + 2 * F < -eps ∨ |2 * p.A + 2 * (2 * E) + 2 * F| < eps) := by
  have e2 : ((2 : ℤ) : ℚ) = 2 := by norm_num
  have nn {c b : Bool} : (!(c && !b)) = true ↔ (c = true → b = true) := by
    cases c <;> cases b <;> simp
  unfold fCheck
  dsimp only
  rw [hD, hE, hF]
  simp only [Bool.and_eq_true (_ && _), nn, Bool.not_not]
  simp only [fSumC, hD, hE, hF, Arith.lt, Arith.add, Arith.sub, Arith.mul, Arith.neg, Arith.abs, Arith.ofInt,
    Bool.and_eq_true, Bool.or_eq_true, decide_eq_true_eq, Int.cast_zero, e2, sub_pos, and_assoc]

/-- The check accepts what the loop left, unless a difference is exactly the tolerance. -/
theorem fCheck_of_upTo {p : Params ℚ} {eps : ℚ} (he : 0 ≤ eps) {D E F : ℚ} (hD : p.xi = 2 * D)
    (hE : p.eta = 2 * E) (hF : p.zeta = 2 * F)
    (type : (eps < 2 * D ∧ eps < 2 * E ∧ eps < 2 * F) ∨ (2 * D ≤ eps ∧ 2 * E ≤ eps ∧ 2 * F ≤ eps))
    (h : NiggliUpTo eps 0 eps p.A p.B p.C D E F) (off : OffBoundary eps p.A p.B p.C D E F) :
    fCheck p eps = true := by
  rw [fCheck_iff hD hE hF]
  have lt {x y : ℚ} (h : LeTol eps 0 x y) (hne : |x - y| ≠ eps) : x < y - eps ∨ |x - y| < eps := by
    unfold LeTol at h
    rcases lt_or_ge x (y - eps) with h1 | h1
    · exact .inl h1
    · exact .inr (lt_of_le_of_ne (abs_le.2 ⟨by linarith, by linarith⟩) hne)
  have lt0 {x : ℚ} (h : x ≤ eps) (hne : |x| ≠ eps) : x < 0 ∨ |x| < eps := by
    rcases lt_or_ge x 0 with h1 | h1
    · exact .inl h1
    · exact .inr (lt_of_le_of_ne (abs_le.2 ⟨by linarith, by linarith⟩) hne)
  have eq {x y : ℚ} (h : |x - y| < eps) : EqTol eps 0 x y := by
    unfold EqTol
    linarith
  have eq' {x y : ℚ} (h : |x + y| < eps) : EqTol eps 0 x (-y) := by
    unfold EqTol
    rw [sub_neg_eq_add]
    linarith
  have eq0 {x : ℚ} (h : EqTol eps 0 x 0) (hne : |x| ≠ eps) : |x| < eps := by
    unfold EqTol at h
    rw [sub_zero, zero_mul, add_zero] at h
    exact lt_of_le_of_ne h hne
  refine ⟨⟨h.pos, lt h.ab off.a_b, lt h.bc off.b_c⟩, fun hc => lt (h.ab_eq (eq hc)) off.d_e,
    fun hc => lt (h.bc_eq (eq hc)) off.e_f, ?_, lt h.d_le off.d_abs,
    ⟨lt h.e_le off.e_abs, lt h.f_le off.f_abs⟩, lt h.sum off.sum, fun hc => lt (h.d_eq (eq hc)) off.f_2e,
    fun hc => lt (h.e_eq (eq hc)) off.f_2d, fun hc => lt (h.f_eq (eq hc)) off.e_2d,
    fun hc => eq0 (h.d_neg (eq' hc)) off.f_zero, fun hc => eq0 (h.e_neg (eq' hc)) off.f_zero,
    fun hc => eq0 (h.f_neg (eq' hc)) off.e_zero, fun hc => ?_⟩
  · rcases type with t | t
    · exact .inl t
    · exact .inr ⟨lt0 t.1 off.d_zero, lt0 t.2.1 off.e_zero, lt0 t.2.2 off.f_zero⟩
  · have := lt (h.sum_eq (eq hc)) (by rw [sub_zero]; exact off.last)
    rwa [zero_sub, sub_zero] at this

end AutoGR
