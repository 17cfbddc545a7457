import Verif.Lemmas.LoopExit

/-! # The loop and the unit of length -/

namespace AutoGR

/-- The cell in another unit of length. -/
def RMat.scale (s : ℚ) (U : RMat ℚ) : RMat ℚ :=
  ⟨s * U.m00, s * U.m01, s * U.m02, s * U.m10, s * U.m11, s * U.m12, s * U.m20, s * U.m21, s * U.m22⟩

def Params.scale (t : ℚ) (p : Params ℚ) : Params ℚ :=
  ⟨t * p.A, t * p.B, t * p.C, t * p.xi, t * p.eta, t * p.zeta, p.l, p.m, p.n⟩

theorem signFlag_scale {t : ℚ} (ht : 0 < t) (eps x : ℚ) : signFlag (t * eps) (t * x) = signFlag eps x := by
  simp only [signFlag, Arith.lt, Arith.neg, ← mul_neg, mul_lt_mul_iff_right₀ ht]

theorem getParams_scale {s : ℚ} (hs : 0 < s) (U : RMat ℚ) (eps : ℚ) (C : IMat) :
    getParams (U.scale s) (s ^ 2 * eps) C = (getParams U eps C).scale (s ^ 2) := by
  have ht : 0 < s ^ 2 := by positivity
  have hdot (x y z x' y' z' : ℤ) : dot (dotInt (U.scale s) x y z) (dotInt (U.scale s) x' y' z') =
      s ^ 2 * dot (dotInt U x y z) (dotInt U x' y' z') := by
    simp only [dot, dotInt, RMat.scale, Arith.add, Arith.mul, Arith.ofInt]
    ring
  have h2 (x : ℚ) : Arith.mul (Arith.ofInt 2) (s ^ 2 * x) = s ^ 2 * Arith.mul (Arith.ofInt 2) x := by
    simp only [Arith.mul, Arith.ofInt]
    ring
  simp only [getParams, Params.scale, hdot, h2, signFlag_scale ht]

theorem cond_scale {t : ℚ} (ht : 0 < t) (eps : ℚ) (p : Params ℚ) :
    cond1 (t * eps) (p.scale t) = cond1 eps p ∧ cond2 (t * eps) (p.scale t) = cond2 eps p ∧
    cond5 (t * eps) (p.scale t) = cond5 eps p ∧ cond6 (t * eps) (p.scale t) = cond6 eps p ∧
    cond7 (t * eps) (p.scale t) = cond7 eps p ∧ cond8 (t * eps) (p.scale t) = cond8 eps p := by
  have h2 (x : ℚ) : ((2 : ℤ) : ℚ) * (t * x) = t * (((2 : ℤ) : ℚ) * x) := by ring
  refine ⟨?_, ?_, ?_, ?_, ?_, ?_⟩ <;>
  simp only [cond1, cond2, cond5, cond6, cond7, cond8, sum8, Params.scale, Arith.lt, Arith.add, Arith.sub,
    Arith.mul, Arith.neg, Arith.abs, Arith.ofInt, ← mul_add, ← mul_sub, ← mul_neg, abs_mul, abs_of_pos ht, h2,
    mul_lt_mul_iff_right₀ ht]
  congr

theorem sign_scale {t : ℚ} (ht : 0 < t) (x : ℚ) : Arith.sign (t * x) = Arith.sign x := by
  have h1 : t * x < 0 ↔ x < 0 := by
    constructor <;> intro h <;> nlinarith
  have h2 : 0 < t * x ↔ 0 < x := by rw [mul_pos_iff_of_pos_left ht]
  simp only [Arith.sign, h1, h2]

theorem niggliPass_scale {s : ℚ} (hs : 0 < s) (U : RMat ℚ) (eps : ℚ) (C : IMat) :
    niggliPass (U.scale s) (s ^ 2 * eps) C = niggliPass U eps C := by
  have ht : 0 < s ^ 2 := by positivity
  have hc (p : Params ℚ) := cond_scale ht eps p
  unfold niggliPass
  simp only [getParams_scale hs, fun p => (hc p).1, fun p => (hc p).2.1, fun p => (hc p).2.2.1,
    fun p => (hc p).2.2.2.1, fun p => (hc p).2.2.2.2.1, fun p => (hc p).2.2.2.2.2]
  simp only [Params.scale, sign_scale ht]
  rfl

theorem niggliLoop_scale' {s : ℚ} (hs : 0 < s) (U : RMat ℚ) (eps : ℚ) : ∀ (fuel count : ℕ) (C : IMat),
    niggliLoop (U.scale s) (s ^ 2 * eps) fuel count C = niggliLoop U eps fuel count C
  | 0, _, _ => rfl
  | fuel + 1, count, C => by
    unfold niggliLoop
    rw [niggliPass_scale hs]
    simp only [niggliLoop_scale' hs U eps fuel]

theorem reducedCell_loop {K : Type} [Arith K] {U : RMat K} {eps : Option K} {C : IMat}
    (h : reducedCell U eps = .ok C) :
    ∃ n, n < 1000 ∧ niggliLoop U (Arith.mul (eps.getD (Arith.ofRat (1 / 100000)))
      (Arith.cbrt (Arith.abs (rdet U)))) 1001 0 IMat.one = (C, n) := by
  have key (tol : K) (h : niggliReduction U tol = .ok C) :
      ∃ n, n < 1000 ∧ niggliLoop U tol 1001 0 IMat.one = (C, n) := by
    unfold niggliReduction at h
    split at h
    rename_i C' count heq
    split_ifs at h with h1 h2
    cases h
    exact ⟨count, by omega, heq⟩
  unfold reducedCell at h
  dsimp only at h
  split_ifs at h
  cases eps with
  | none => exact key _ h
  | some e => exact key _ h

end AutoGR
