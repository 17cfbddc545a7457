import Verif.Lemmas.FortranNiggli
import Verif.Lemmas.ClassGroups

/-! # The reduction loop over a range of tolerances

All tests of a pass compare the tolerance with a quantity of the cell.  If none of these quantities lies in
`(lo, hi)`, the pass is the same for all tolerances in `[lo, hi)`. -/

namespace AutoGR

open Spec Matrix

/-- `q` does not separate the tolerances in `[lo, hi)`. -/
def outside (lo hi q : ℚ) : Bool := decide (q ≤ lo) || decide (hi ≤ q)

theorem outside_iff {lo hi q t : ℚ} (h : outside lo hi q = true) (hl : lo ≤ t) (ht : t < hi) :
    t < q ↔ lo < q := by
  simp only [outside, Bool.or_eq_true, decide_eq_true_eq] at h
  rcases h with h | h
  · exact ⟨fun a => absurd (lt_of_lt_of_le a h) (not_lt.2 hl), fun a => absurd a (not_lt.2 h)⟩
  · exact ⟨fun _ => lt_of_le_of_lt hl (lt_of_lt_of_le ht h), fun _ => lt_of_lt_of_le ht h⟩

/-- The quantities with which the tests of a pass compare the tolerance. -/
def thresholds (p : Params ℚ) : List ℚ :=
  [p.A - p.B, |p.A - p.B|, |p.xi| - |p.eta|, p.B - p.C, |p.C - p.B|, |p.eta| - |p.zeta|,
    -p.xi, p.xi, -p.eta, p.eta, -p.zeta, p.zeta,
    |p.xi| - p.B, |p.B - p.xi|, p.zeta - 2 * p.eta, |p.B + p.xi|,
    |p.eta| - p.A, |p.A - p.eta|, p.zeta - 2 * p.xi, |p.A + p.eta|,
    |p.zeta| - p.A, |p.A - p.zeta|, p.eta - 2 * p.xi, |p.A + p.zeta|,
    -sum8 p, |sum8 p|, 2 * (p.A + p.eta) + p.zeta]

/-- None of the quantities lies inside the range. -/
def parStable (lo hi : ℚ) (p : Params ℚ) : Bool := (thresholds p).all (outside lo hi)

section
variable {lo hi t : ℚ} (hl : lo ≤ t) (ht : t < hi)
include hl ht

theorem parStable_lt {p : Params ℚ} (h : parStable lo hi p = true) :
    ∀ q ∈ thresholds p, (t < q ↔ lo < q) := by
  intro q hq
  exact outside_iff (List.all_eq_true.1 h q hq) hl ht

theorem getParams_stable (U : RMat ℚ) (C : IMat) (h : parStable lo hi (getParams U lo C) = true) :
    getParams U t C = getParams U lo C := by
  have hs := parStable_lt hl ht h
  simp only [thresholds, List.forall_mem_cons] at hs
  obtain ⟨-, -, -, -, -, -, a1, a2, a3, a4, a5, a6, -⟩ := hs
  have fl (x : ℚ) (h1 : t < -x ↔ lo < -x) (h2 : t < x ↔ lo < x) : signFlag t x = signFlag lo x := by
    have h1' : x < -t ↔ x < -lo := by rw [lt_neg, h1, lt_neg]
    simp only [signFlag, Arith.lt, Arith.neg, decide_eq_true_eq, h1', h2]
  unfold getParams
  simp only [getParams] at a1 a2 a3 a4 a5 a6
  extract_lets
  rw [Params.mk.injEq]
  exact ⟨rfl, rfl, rfl, rfl, rfl, rfl, fl _ a1 a2, fl _ a3 a4, fl _ a5 a6⟩

theorem cond_stable {p : Params ℚ} (h : parStable lo hi p = true) :
    cond1 t p = cond1 lo p ∧ cond2 t p = cond2 lo p ∧ cond5 t p = cond5 lo p ∧ cond6 t p = cond6 lo p ∧
      cond7 t p = cond7 lo p ∧ cond8 t p = cond8 lo p := by
  have hs := parStable_lt hl ht h
  simp only [thresholds, List.forall_mem_cons] at hs
  obtain ⟨a1, a2, a3, a4, a5, a6, -, -, n1, -, n2, -, b1, b2, b3, b4, c1, c2, c3, c4, d1, d2, d3, d4, e1, e2, e3, -⟩ := hs
  have sl (x y : ℚ) (h : t < x - y ↔ lo < x - y) : (y + t < x ↔ y + lo < x) := by
    rw [← lt_sub_iff_add_lt', h, lt_sub_iff_add_lt']
  have sl' (x y : ℚ) (h : t < x - y ↔ lo < x - y) : (y < x - t ↔ y < x - lo) := by
    rw [lt_sub_comm, h, lt_sub_comm]
  have ng (x : ℚ) (h : t < -x ↔ lo < -x) : (x < -t ↔ x < -lo) := by rw [lt_neg, h, lt_neg]
  refine ⟨?_, ?_, ?_, ?_, ?_, ?_⟩
  · simp only [cond1, Arith.lt, Arith.add, Arith.sub, Arith.abs, sl _ _ a1, a2, sl _ _ a3]
  · simp only [cond2, Arith.lt, Arith.add, Arith.sub, Arith.abs, sl _ _ a4, a5, sl _ _ a6]
  · simp only [cond5, Arith.lt, Arith.add, Arith.sub, Arith.abs, Arith.mul, Arith.ofInt, Arith.neg, Int.cast_ofNat,
      sl _ _ b1, b2, sl' _ _ b3, b4, ng _ n2]
  · simp only [cond6, Arith.lt, Arith.add, Arith.sub, Arith.abs, Arith.mul, Arith.ofInt, Arith.neg, Int.cast_ofNat,
      sl _ _ c1, c2, sl' _ _ c3, c4, ng _ n2]
  · simp only [cond7, Arith.lt, Arith.add, Arith.sub, Arith.abs, Arith.mul, Arith.ofInt, Arith.neg, Int.cast_ofNat,
      sl _ _ d1, d2, sl' _ _ d3, d4, ng _ n1]
  · simp only [cond8, Arith.lt, Arith.add, Arith.abs, Arith.mul, Arith.ofInt, Arith.neg, Int.cast_ofNat,
      ng _ e1, e2, e3]

/-- No test of the pass at `C` separates the tolerances in `[lo, hi)`. -/
def passStable (U : RMat ℚ) (lo hi : ℚ) (C0 : IMat) : Bool :=
  let par := getParams U lo
  let C1 := if cond1 lo (par C0) then mulC C0 ⟨0, -1, 0, -1, 0, 0, 0, 0, -1⟩ else C0
  parStable lo hi (par C0) && parStable lo hi (par C1) &&
    (cond2 lo (par C1) ||
      let p1 := par C1
      let C2 := if p1.l * p1.m * p1.n = 1 then mulC C1 (findC3 p1.l p1.m p1.n) else C1
      let p2 := par C2
      let C4 := if p2.l * p2.m * p2.n = 0 ∨ p2.l * p2.m * p2.n = -1 then mulC C2 (findC4 p2.l p2.m p2.n) else C2
      parStable lo hi p2 && parStable lo hi (par C4))

theorem niggliPass_stable (U : RMat ℚ) (C : IMat) (h : passStable U lo hi C = true) :
    niggliPass U t C = niggliPass U lo C := by
  simp only [passStable, Bool.and_eq_true, Bool.or_eq_true] at h
  obtain ⟨⟨h0, h1⟩, h2⟩ := h
  have g0 := getParams_stable hl ht U C h0
  have g1 := getParams_stable hl ht U _ h1
  unfold niggliPass
  extract_lets par c1 C1 p1 M3 s3 C2 p2 M4 s4 C4 red p par' c1' C1' p1' M3' s3' C2' p2' M4' s4' C4' red' p'
  have e1 : c1 = c1' := by
    simp only [c1, c1', par, par', g0]; exact (cond_stable hl ht h0).1
  have eC1 : C1 = C1' := by simp only [C1, C1', e1]
  have ep1 : par C1 = par' C1' := by rw [eC1]; exact g1
  have e2 : cond2 t (par C1) = cond2 lo (par' C1') := by rw [ep1]; exact (cond_stable hl ht h1).2.1
  rw [e2]
  by_cases hc : cond2 lo (par' C1') = true
  · rw [if_pos hc, if_pos hc, eC1]
  · rw [if_neg hc, if_neg hc]
    rcases h2 with h2 | h2
    · exact absurd h2 hc
    obtain ⟨h2, h4⟩ := h2
    have g2 := getParams_stable hl ht U _ h2
    have g4 := getParams_stable hl ht U _ h4
    have hp1 : p1 = p1' := ep1
    have eM3 : M3 = M3' := by simp only [M3, M3', hp1]
    have es3 : s3 = s3' := by simp only [s3, s3', hp1]
    have eC2 : C2 = C2' := by simp only [C2, C2', eM3, es3, eC1]
    have hp2 : p2 = p2' := by
      change par C2 = par' C2'
      rw [eC2]; exact g2
    have eM4 : M4 = M4' := by simp only [M4, M4', hp2]
    have es4 : s4 = s4' := by simp only [s4, s4', hp2]
    have eC4 : C4 = C4' := by simp only [C4, C4', eM4, es4, eC2]
    have ep : p = p' := by
      change par C4 = par' C4'
      rw [eC4]; exact g4
    have er : red = red' := by simp only [red, red', e1, es3, es4, eM3, eM4]
    obtain ⟨-, -, q5, q6, q7, q8⟩ := cond_stable hl ht h4
    rw [ep, eC4, er]
    change (if cond5 t p' = true then _ else if cond6 t p' = true then _ else if cond7 t p' = true then _
      else if cond8 t p' = true then _ else _) = _
    have q5 : cond5 t p' = cond5 lo p' := q5
    have q6 : cond6 t p' = cond6 lo p' := q6
    have q7 : cond7 t p' = cond7 lo p' := q7
    have q8 : cond8 t p' = cond8 lo p' := q8
    rw [q5, q6, q7, q8]

end

/-- The result of the loop, if no test separates the tolerances in `[lo, hi)`. -/
def loopStable (U : RMat ℚ) (lo hi : ℚ) : ℕ → IMat → Option IMat
  | 0, _ => none
  | fuel + 1, C =>
    if passStable U lo hi C then
      let r := niggliPass U lo C
      if r.2 then some r.1 else loopStable U lo hi fuel r.1
    else none

theorem niggliLoop_stable {U : RMat ℚ} {lo hi t : ℚ} (hl : lo ≤ t) (ht : t < hi) {R : IMat} :
    ∀ (fuel : ℕ) (C : IMat), loopStable U lo hi fuel C = some R →
      ∀ f count, fuel ≤ f → (niggliLoop U t f count C).1 = R
  | 0, _, h => by simp [loopStable] at h
  | fuel + 1, C, h => by
    intro f count hf
    obtain ⟨f, rfl⟩ : ∃ g, f = g + 1 := ⟨f - 1, by omega⟩
    unfold loopStable at h
    by_cases hp : passStable U lo hi C = true
    · rw [if_pos hp] at h
      unfold niggliLoop
      rw [niggliPass_stable hl ht U C hp]
      rcases hq : niggliPass U lo C with ⟨C', b⟩
      dsimp only at h
      rw [hq] at h
      cases b
      · exact niggliLoop_stable hl ht fuel C' h f (count + 1) (by omega)
      · exact Option.some.inj h
    · rw [if_neg hp] at h
      cases h

/-- Consecutive ranges between the given cuts, each with a result in `good`. -/
def cutsOk (U : RMat ℚ) (good : List IMat) : List ℚ → Bool
  | lo :: hi :: rest =>
    (match loopStable U lo hi 60 IMat.one with
      | some C => good.contains C
      | none => false) && cutsOk U good (hi :: rest)
  | _ => true

theorem cutsOk_mem {U : RMat ℚ} {good : List IMat} {t : ℚ} : ∀ (l : List ℚ) (last : ℚ),
    cutsOk U good (l ++ [last]) = true → (∃ a ∈ l.head?, a ≤ t) → t < last →
    (niggliLoop U t 1001 0 IMat.one).1 ∈ good
  | [], _, _, ⟨_, h, _⟩, _ => by simp at h
  | [a], last, h, ⟨b, hb, hbt⟩, ht => by
    simp only [List.head?_cons, Option.mem_def, Option.some.injEq] at hb
    subst hb
    simp only [List.cons_append, List.nil_append, cutsOk, Bool.and_true] at h
    split at h
    · rename_i C hC
      rw [niggliLoop_stable hbt ht 60 _ hC 1001 0 (by norm_num)]
      simpa using h
    · cases h
  | a :: c :: l, last, h, ⟨b, hb, hbt⟩, ht => by
    simp only [List.head?_cons, Option.mem_def, Option.some.injEq] at hb
    subst hb
    simp only [List.cons_append, cutsOk, Bool.and_eq_true] at h
    by_cases hc : c ≤ t
    · exact cutsOk_mem (c :: l) last (by simpa using h.2) ⟨c, rfl, hc⟩ ht
    · have h := h.1
      split at h
      · rename_i C hC
        rw [niggliLoop_stable hbt (not_le.1 hc) 60 _ hC 1001 0 (by norm_num)]
        simpa using h
      · cases h

/-- A transformation that fixes every metric of the class does not change the symmetries. -/
theorem classSym_fix {k : ℕ} {Co W Wi : IMat} (h1 : mulC W Wi = IMat.one) (h2 : mulC Wi W = IMat.one)
    (h : ∀ A B C D E F : ℝ, NiggliReduced A B C D E F → NiggliClass k A B C D E F →
      (toReal W.toMat)ᵀ * metric A B C D E F * toReal W.toMat = metric A B C D E F) :
    ClassSym k (mulC Co W).toMat = ClassSym k Co.toMat := by
  have e1 : toReal W.toMat * toReal Wi.toMat = 1 := by
    rw [← toReal_mul, ← toMat_mulC, h1, toMat_one, toReal_one]
  have e2 : toReal Wi.toMat * toReal W.toMat = 1 := by
    rw [← toReal_mul, ← toMat_mulC, h2, toMat_one, toReal_one]
  have e3 : (toReal Wi.toMat)ᵀ * (toReal W.toMat)ᵀ = 1 := by
    rw [← Matrix.transpose_mul, e1, Matrix.transpose_one]
  ext X
  constructor
  · intro hX G A B C D E F hN hk hG
    refine hX G A B C D E F hN hk ?_
    rw [toMat_mulC, toReal_mul, Matrix.transpose_mul]
    have : (toReal W.toMat)ᵀ * (toReal Co.toMat)ᵀ * G * (toReal Co.toMat * toReal W.toMat) =
        (toReal W.toMat)ᵀ * ((toReal Co.toMat)ᵀ * G * toReal Co.toMat) * toReal W.toMat := by
      simp only [Matrix.mul_assoc]
    rw [this, hG]
    exact h A B C D E F hN hk
  · intro hX G A B C D E F hN hk hG
    refine hX G A B C D E F hN hk ?_
    rw [toMat_mulC, toReal_mul, Matrix.transpose_mul] at hG
    have hW := h A B C D E F hN hk
    calc (toReal Co.toMat)ᵀ * G * toReal Co.toMat
        = ((toReal Wi.toMat)ᵀ * (toReal W.toMat)ᵀ) * ((toReal Co.toMat)ᵀ * G * toReal Co.toMat) *
            (toReal W.toMat * toReal Wi.toMat) := by rw [e1, e3, Matrix.one_mul, Matrix.mul_one]
      _ = (toReal Wi.toMat)ᵀ * ((toReal W.toMat)ᵀ * (toReal Co.toMat)ᵀ * G * (toReal Co.toMat * toReal W.toMat)) *
            toReal Wi.toMat := by simp only [Matrix.mul_assoc]
      _ = (toReal Wi.toMat)ᵀ * ((toReal W.toMat)ᵀ * metric A B C D E F * toReal W.toMat) * toReal Wi.toMat := by
            rw [hG, hW]
      _ = ((toReal Wi.toMat)ᵀ * (toReal W.toMat)ᵀ) * metric A B C D E F * (toReal W.toMat * toReal Wi.toMat) := by
            simp only [Matrix.mul_assoc]
      _ = metric A B C D E F := by rw [e1, e3, Matrix.one_mul, Matrix.mul_one]

end AutoGR
