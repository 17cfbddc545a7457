import Mathlib.Data.Prod.Lex
import Mathlib.Order.WellFounded
import Mathlib.Data.Rat.Floor
import Mathlib.Tactic.Linarith
import Mathlib.Tactic.LinearCombination
import Verif.Lemmas.LoopExit

/-! # The reduction loop ends, in exact arithmetic with tolerance 0 -/

namespace AutoGR

open Spec

/-- The metric after a change of the cell. -/
theorem getParams_mulC (U : RMat ℚ) (C M : IMat) :
    let p := getParams U 0 C
    let q := getParams U 0 (mulC C M)
    q.A = M.m00 ^ 2 * p.A + M.m10 ^ 2 * p.B + M.m20 ^ 2 * p.C + M.m10 * M.m20 * p.xi +
        M.m00 * M.m20 * p.eta + M.m00 * M.m10 * p.zeta ∧
    q.B = M.m01 ^ 2 * p.A + M.m11 ^ 2 * p.B + M.m21 ^ 2 * p.C + M.m11 * M.m21 * p.xi +
        M.m01 * M.m21 * p.eta + M.m01 * M.m11 * p.zeta ∧
    q.C = M.m02 ^ 2 * p.A + M.m12 ^ 2 * p.B + M.m22 ^ 2 * p.C + M.m12 * M.m22 * p.xi +
        M.m02 * M.m22 * p.eta + M.m02 * M.m12 * p.zeta ∧
    q.xi = 2 * (M.m01 * M.m02 * p.A + M.m11 * M.m12 * p.B + M.m21 * M.m22 * p.C) +
      (M.m11 * M.m22 + M.m21 * M.m12) * p.xi + (M.m01 * M.m22 + M.m21 * M.m02) * p.eta +
      (M.m01 * M.m12 + M.m11 * M.m02) * p.zeta ∧
    q.eta = 2 * (M.m00 * M.m02 * p.A + M.m10 * M.m12 * p.B + M.m20 * M.m22 * p.C) +
      (M.m10 * M.m22 + M.m20 * M.m12) * p.xi + (M.m00 * M.m22 + M.m20 * M.m02) * p.eta +
      (M.m00 * M.m12 + M.m10 * M.m02) * p.zeta ∧
    q.zeta = 2 * (M.m00 * M.m01 * p.A + M.m10 * M.m11 * p.B + M.m20 * M.m21 * p.C) +
      (M.m10 * M.m21 + M.m20 * M.m11) * p.xi + (M.m00 * M.m21 + M.m20 * M.m01) * p.eta +
      (M.m00 * M.m11 + M.m10 * M.m01) * p.zeta := by
  refine ⟨?_, ?_, ?_, ?_, ?_, ?_⟩ <;>
  · simp only [getParams, dot, dotInt, mulC, Arith.add, Arith.mul, Arith.ofInt]
    push_cast
    ring

/-- The sign flags say that the cell is of type I or of type II. -/
def TypeOK (p : Params ℚ) : Prop := (p.l = 1 ∧ p.m = 1 ∧ p.n = 1) ∨ (p.l ≠ 1 ∧ p.m ≠ 1 ∧ p.n ≠ 1)

/-- `q` is below `p` in the order that makes the loop end. -/
def Below (q p : Params ℚ) : Prop :=
  let s (r : Params ℚ) := r.A + r.B + r.C
  let t (r : Params ℚ) := |r.xi| + |r.eta| + |r.zeta|
  s q < s p ∨ s q = s p ∧ (q.A < p.A ∨ q.A = p.A ∧ (q.B < p.B ∨ q.B = p.B ∧
    (t p < t q ∨ t p = t q ∧ (|p.zeta| < |q.zeta| ∨ |p.zeta| = |q.zeta| ∧ (|p.eta| < |q.eta| ∨
      |p.eta| = |q.eta| ∧ (TypeOK q ∧ ¬ TypeOK p))))))

/-- `q` is equal to `p` in that order. -/
def Level (q p : Params ℚ) : Prop :=
  q.A = p.A ∧ q.B = p.B ∧ q.C = p.C ∧ |q.xi| = |p.xi| ∧ |q.eta| = |p.eta| ∧ |q.zeta| = |p.zeta| ∧
    (TypeOK p → TypeOK q)

theorem Level.refl (p : Params ℚ) : Level p p := ⟨rfl, rfl, rfl, rfl, rfl, rfl, id⟩

theorem Level.trans {p q r : Params ℚ} (h : Level r q) (h' : Level q p) : Level r p := by
  obtain ⟨a1, a2, a3, a4, a5, a6, a7⟩ := h
  obtain ⟨b1, b2, b3, b4, b5, b6, b7⟩ := h'
  exact ⟨a1.trans b1, a2.trans b2, a3.trans b3, a4.trans b4, a5.trans b5, a6.trans b6, a7 ∘ b7⟩

theorem Below.level {p q r : Params ℚ} (h : Below r q) (h' : Level q p) : Below r p := by
  obtain ⟨b1, b2, b3, b4, b5, b6, b7⟩ := h'
  unfold Below at h ⊢
  simp only [b1, b2, b3, b4, b5, b6] at h ⊢
  exact h.imp_right fun h => ⟨h.1, h.2.imp_right fun h => ⟨h.1, h.2.imp_right fun h => ⟨h.1,
    h.2.imp_right fun h => ⟨h.1, h.2.imp_right fun h => ⟨h.1, h.2.imp_right fun h => ⟨h.1, h.2.1,
      fun hp => h.2.2 (b7 hp)⟩⟩⟩⟩⟩⟩

theorem Level.below {p q r : Params ℚ} (h : Level r q) (h' : Below q p) : Below r p := by
  obtain ⟨b1, b2, b3, b4, b5, b6, b7⟩ := h
  unfold Below at h' ⊢
  simp only [b1, b2, b3, b4, b5, b6] at h' ⊢
  exact h'.imp_right fun h => ⟨h.1, h.2.imp_right fun h => ⟨h.1, h.2.imp_right fun h => ⟨h.1,
    h.2.imp_right fun h => ⟨h.1, h.2.imp_right fun h => ⟨h.1, h.2.imp_right fun h => ⟨h.1, b7 h.2.1,
      h.2.2⟩⟩⟩⟩⟩⟩

/-! ## The order is well founded -/

/-- What is known about the parameters of a cell: positive diagonal, bounded mixed terms, and `d * x` is
an integer for all six numbers. -/
structure Nice (d : ℕ) (p : Params ℚ) : Prop where
  a : 0 < p.A
  b : 0 < p.B
  c : 0 < p.C
  x : |p.xi| ≤ p.B + p.C
  e : |p.eta| ≤ p.A + p.C
  z : |p.zeta| ≤ p.A + p.B
  ia : ∃ k : ℤ, d * p.A = k
  ib : ∃ k : ℤ, d * p.B = k
  ic : ∃ k : ℤ, d * p.C = k
  ix : ∃ k : ℤ, d * p.xi = k
  ie : ∃ k : ℤ, d * p.eta = k
  iz : ∃ k : ℤ, d * p.zeta = k

open Classical in
/-- The rank of the parameters. -/
noncomputable def rank (d : ℕ) (p : Params ℚ) : ℕ ×ₗ ℕ ×ₗ ℕ ×ₗ ℕ ×ₗ ℕ ×ₗ ℕ ×ₗ ℕ :=
  let s := p.A + p.B + p.C
  toLex (⌊d * s⌋₊, toLex (⌊d * p.A⌋₊, toLex (⌊d * p.B⌋₊,
    toLex (⌊d * (2 * s - (|p.xi| + |p.eta| + |p.zeta|))⌋₊, toLex (⌊d * (s - |p.zeta|)⌋₊,
      toLex (⌊d * (s - |p.eta|)⌋₊, if TypeOK p then 0 else 1))))))

theorem floor_lt_of {d : ℕ} (hd : 0 < d) {v w : ℚ} (hv : 0 ≤ v) (hvw : v < w) (iw : ∃ k : ℤ, d * w = k) :
    ⌊(d : ℚ) * v⌋₊ < ⌊(d : ℚ) * w⌋₊ := by
  obtain ⟨k, hk⟩ := iw
  have hd' : (0 : ℚ) < d := by exact_mod_cast hd
  have h : (d : ℚ) * v < d * w := mul_lt_mul_of_pos_left hvw hd'
  have hw : 0 ≤ (d : ℚ) * w := by nlinarith
  rw [Nat.floor_lt (by positivity)]
  have : (⌊(d : ℚ) * w⌋₊ : ℚ) = d * w := by
    rw [hk]
    have hk0 : 0 ≤ k := by
      have : (0 : ℚ) ≤ k := hk ▸ hw
      exact_mod_cast this
    obtain ⟨m, rfl⟩ := Int.eq_ofNat_of_zero_le hk0
    simp
  rw [this]
  exact h

theorem int_add {d : ℕ} {v w : ℚ} (hv : ∃ k : ℤ, d * v = k) (hw : ∃ k : ℤ, d * w = k) :
    ∃ k : ℤ, d * (v + w) = k := by
  obtain ⟨k, hk⟩ := hv
  obtain ⟨l, hl⟩ := hw
  exact ⟨k + l, by rw [mul_add, hk, hl]; push_cast; rfl⟩

theorem int_sub {d : ℕ} {v w : ℚ} (hv : ∃ k : ℤ, d * v = k) (hw : ∃ k : ℤ, d * w = k) :
    ∃ k : ℤ, d * (v - w) = k := by
  obtain ⟨k, hk⟩ := hv
  obtain ⟨l, hl⟩ := hw
  exact ⟨k - l, by rw [mul_sub, hk, hl]; push_cast; rfl⟩

theorem int_abs {d : ℕ} {v : ℚ} (hv : ∃ k : ℤ, d * v = k) : ∃ k : ℤ, (d : ℚ) * |v| = k := by
  obtain ⟨k, hk⟩ := hv
  refine ⟨|k|, ?_⟩
  rw [Int.cast_abs, ← hk, abs_mul, Nat.abs_cast]

theorem int_two {d : ℕ} {v : ℚ} (hv : ∃ k : ℤ, d * v = k) : ∃ k : ℤ, (d : ℚ) * (2 * v) = k := by
  rw [two_mul]
  exact int_add hv hv

theorem rank_lt {d : ℕ} (hd : 0 < d) {p q : Params ℚ} (hp : Nice d p) (hq : Nice d q) (h : Below q p) :
    rank d q < rank d p := by
  have is : ∃ k : ℤ, d * (p.A + p.B + p.C) = k := int_add (int_add hp.ia hp.ib) hp.ic
  have qa := hq.a
  have qb := hq.b
  have qc := hq.c
  have qx := hq.x
  have qe := hq.e
  have qz := hq.z
  unfold Below at h
  unfold rank
  dsimp only at h ⊢
  rw [Prod.Lex.toLex_lt_toLex]
  rcases h with h | ⟨hs, h⟩
  · exact .inl (floor_lt_of hd (by linarith) h is)
  refine .inr ⟨by simp only [hs], ?_⟩
  rw [Prod.Lex.toLex_lt_toLex]
  rcases h with h | ⟨hA, h⟩
  · exact .inl (floor_lt_of hd (by linarith) h hp.ia)
  refine .inr ⟨by simp only [hA], ?_⟩
  rw [Prod.Lex.toLex_lt_toLex]
  rcases h with h | ⟨hB, h⟩
  · exact .inl (floor_lt_of hd (by linarith) h hp.ib)
  refine .inr ⟨by simp only [hB], ?_⟩
  rw [Prod.Lex.toLex_lt_toLex]
  rcases h with h | ⟨ht, h⟩
  · exact .inl (floor_lt_of hd (by linarith) (by linarith)
      (int_sub (int_two is) (int_add (int_add (int_abs hp.ix) (int_abs hp.ie)) (int_abs hp.iz))))
  refine .inr ⟨by simp only [hs, ht], ?_⟩
  rw [Prod.Lex.toLex_lt_toLex]
  rcases h with h | ⟨hz, h⟩
  · exact .inl (floor_lt_of hd (by linarith) (by linarith) (int_sub is (int_abs hp.iz)))
  refine .inr ⟨by simp only [hs, hz], ?_⟩
  rw [Prod.Lex.toLex_lt_toLex]
  rcases h with h | ⟨he, h⟩
  · exact .inl (floor_lt_of hd (by linarith) (by linarith) (int_sub is (int_abs hp.ie)))
  refine .inr ⟨by simp only [hs, he], ?_⟩
  simp only [h.1, h.2, if_true, if_false]
  exact Nat.zero_lt_one

theorem rank_le {d : ℕ} {p q : Params ℚ} (h : Level q p) : rank d q ≤ rank d p := by
  obtain ⟨h1, h2, h3, h4, h5, h6, h7⟩ := h
  unfold rank
  dsimp only
  rw [h1, h2, h3, h4, h5, h6]
  simp only [Prod.Lex.toLex_le_toLex, lt_irrefl, true_and, false_or]
  split_ifs <;> simp_all

theorem nice_getParams (U : RMat ℚ) (hU : U.toMatrix.det ≠ 0) :
    ∃ d : ℕ, 0 < d ∧ ∀ C : IMat, C.toMat.det = 1 → Nice d (getParams U 0 C) := by
  have key (q : ℚ) (d : ℕ) (h : q.den ∣ d) : ∃ k : ℤ, (d : ℚ) * q = k := by
    obtain ⟨m, rfl⟩ := h
    refine ⟨m * q.num, ?_⟩
    push_cast
    have := Rat.den_mul_eq_num q
    rw [mul_comm (q.den : ℚ), mul_assoc, this]
  obtain ⟨d, hd, k00, k01, k02, k10, k11, k12, k20, k21, k22⟩ : ∃ d : ℕ, 0 < d ∧
      (∃ k : ℤ, d * U.m00 = k) ∧ (∃ k : ℤ, d * U.m01 = k) ∧ (∃ k : ℤ, d * U.m02 = k) ∧
      (∃ k : ℤ, d * U.m10 = k) ∧ (∃ k : ℤ, d * U.m11 = k) ∧ (∃ k : ℤ, d * U.m12 = k) ∧
      (∃ k : ℤ, d * U.m20 = k) ∧ (∃ k : ℤ, d * U.m21 = k) ∧ (∃ k : ℤ, d * U.m22 = k) := by
    refine ⟨U.m00.den * U.m01.den * U.m02.den * U.m10.den * U.m11.den * U.m12.den * U.m20.den * U.m21.den *
      U.m22.den, ?_, ?_⟩
    · have h00 := U.m00.den_pos
      have h01 := U.m01.den_pos
      have h02 := U.m02.den_pos
      have h10 := U.m10.den_pos
      have h11 := U.m11.den_pos
      have h12 := U.m12.den_pos
      have h20 := U.m20.den_pos
      have h21 := U.m21.den_pos
      have h22 := U.m22.den_pos
      positivity
    · refine ⟨key _ _ ?_, key _ _ ?_, key _ _ ?_, key _ _ ?_, key _ _ ?_, key _ _ ?_, key _ _ ?_, key _ _ ?_,
        key _ _ ?_⟩
      · exact ⟨U.m01.den * U.m02.den * U.m10.den * U.m11.den * U.m12.den * U.m20.den * U.m21.den * U.m22.den, by ring⟩
      · exact ⟨U.m00.den * U.m02.den * U.m10.den * U.m11.den * U.m12.den * U.m20.den * U.m21.den * U.m22.den, by ring⟩
      · exact ⟨U.m00.den * U.m01.den * U.m10.den * U.m11.den * U.m12.den * U.m20.den * U.m21.den * U.m22.den, by ring⟩
      · exact ⟨U.m00.den * U.m01.den * U.m02.den * U.m11.den * U.m12.den * U.m20.den * U.m21.den * U.m22.den, by ring⟩
      · exact ⟨U.m00.den * U.m01.den * U.m02.den * U.m10.den * U.m12.den * U.m20.den * U.m21.den * U.m22.den, by ring⟩
      · exact ⟨U.m00.den * U.m01.den * U.m02.den * U.m10.den * U.m11.den * U.m20.den * U.m21.den * U.m22.den, by ring⟩
      · exact ⟨U.m00.den * U.m01.den * U.m02.den * U.m10.den * U.m11.den * U.m12.den * U.m21.den * U.m22.den, by ring⟩
      · exact ⟨U.m00.den * U.m01.den * U.m02.den * U.m10.den * U.m11.den * U.m12.den * U.m20.den * U.m22.den, by ring⟩
      · exact ⟨U.m00.den * U.m01.den * U.m02.den * U.m10.den * U.m11.den * U.m12.den * U.m20.den * U.m21.den, by ring⟩
  have comb {q r t : ℚ} (hq : ∃ k : ℤ, d * q = k) (hr : ∃ k : ℤ, d * r = k) (ht : ∃ k : ℤ, d * t = k)
      (x y z : ℤ) : ∃ k : ℤ, (d : ℚ) * (q * x + r * y + t * z) = k := by
    obtain ⟨k, hk⟩ := hq
    obtain ⟨l, hl⟩ := hr
    obtain ⟨m, hm⟩ := ht
    exact ⟨k * x + l * y + m * z, by push_cast; rw [← hk, ← hl, ← hm]; ring⟩
  have hdot {v w : Vec ℚ} (hv : (∃ k : ℤ, d * v.x = k) ∧ (∃ k : ℤ, d * v.y = k) ∧ (∃ k : ℤ, d * v.z = k))
      (hw : (∃ k : ℤ, d * w.x = k) ∧ (∃ k : ℤ, d * w.y = k) ∧ (∃ k : ℤ, d * w.z = k)) :
      ∃ k : ℤ, ((d * d : ℕ) : ℚ) * (dot v w) = k := by
    obtain ⟨⟨a, ha⟩, ⟨b, hb⟩, c, hc⟩ := hv
    obtain ⟨⟨a', ha'⟩, ⟨b', hb'⟩, c', hc'⟩ := hw
    refine ⟨a * a' + b * b' + c * c', ?_⟩
    push_cast
    rw [← ha, ← hb, ← hc, ← ha', ← hb', ← hc']
    simp only [dot, Arith.add, Arith.mul]
    ring
  have hvec (x y z : ℤ) : (∃ k : ℤ, d * (dotInt U x y z).x = k) ∧ (∃ k : ℤ, d * (dotInt U x y z).y = k) ∧
      (∃ k : ℤ, d * (dotInt U x y z).z = k) :=
    ⟨comb k00 k01 k02 x y z, comb k10 k11 k12 x y z, comb k20 k21 k22 x y z⟩
  have h2 {v : ℚ} (hv : ∃ k : ℤ, ((d * d : ℕ) : ℚ) * v = k) :
      ∃ k : ℤ, ((d * d : ℕ) : ℚ) * (Arith.mul (Arith.ofInt 2) v) = k := by
    obtain ⟨k, hk⟩ := hv
    refine ⟨2 * k, ?_⟩
    push_cast at hk ⊢
    rw [← hk]
    simp only [Arith.mul, Arith.ofInt]
    push_cast
    ring
  refine ⟨d * d, Nat.mul_pos hd hd, fun C hC => ?_⟩
  obtain ⟨eA, eB, eC, eD, eE, eF⟩ := getParams_metric U 0 C
  have pos := gram_pos hU hC
  have cs (i j : Fin 3) : |2 * gram U C i j| ≤ gram U C i i + gram U C j j := by
    rw [abs_le]
    simp only [gram_apply]
    constructor <;>
    nlinarith [sq_nonneg (cellMat U C 0 i - cellMat U C 0 j), sq_nonneg (cellMat U C 1 i - cellMat U C 1 j),
      sq_nonneg (cellMat U C 2 i - cellMat U C 2 j), sq_nonneg (cellMat U C 0 i + cellMat U C 0 j),
      sq_nonneg (cellMat U C 1 i + cellMat U C 1 j), sq_nonneg (cellMat U C 2 i + cellMat U C 2 j)]
  constructor
  · rw [eA]; exact pos 0
  · rw [eB]; exact pos 1
  · rw [eC]; exact pos 2
  · rw [eB, eC, eD]; exact cs 1 2
  · rw [eA, eC, eE]; exact cs 0 2
  · rw [eA, eB, eF]; exact cs 0 1
  · exact hdot (hvec _ _ _) (hvec _ _ _)
  · exact hdot (hvec _ _ _) (hvec _ _ _)
  · exact hdot (hvec _ _ _) (hvec _ _ _)
  · exact h2 (hdot (hvec _ _ _) (hvec _ _ _))
  · exact h2 (hdot (hvec _ _ _) (hvec _ _ _))
  · exact h2 (hdot (hvec _ _ _) (hvec _ _ _))

/-! ## The steps -/

theorem signFlag_zero (x : ℚ) : signFlag 0 x = if x < 0 then -1 else if 0 < x then 1 else 0 := by
  simp [signFlag, Arith.lt, Arith.neg]

theorem signFlag_neg (x : ℚ) : signFlag 0 (-x) = -signFlag 0 x := by
  simp only [signFlag_zero]
  split_ifs <;> first | rfl | (exfalso; linarith)

theorem signFlag_unit {i : ℤ} (hi : i = 1 ∨ i = -1) (x : ℚ) : signFlag 0 (i * x) = i * signFlag 0 x := by
  rcases hi with rfl | rfl
  · simp
  · have := signFlag_neg x
    push_cast
    rw [neg_one_mul, this]
    ring

theorem mul_unit {i j : ℤ} (hi : i = 1 ∨ i = -1) (hj : j = 1 ∨ j = -1) : i * j = 1 ∨ i * j = -1 := by
  rcases hi with rfl | rfl <;> rcases hj with rfl | rfl <;> decide

theorem abs_unit {i : ℤ} (hi : i = 1 ∨ i = -1) (x : ℚ) : |(i : ℚ) * x| = |x| := by
  rcases hi with rfl | rfl <;> simp

theorem sq_unit {i : ℤ} (hi : i = 1 ∨ i = -1) : (i : ℚ) ^ 2 = 1 := by
  rcases hi with rfl | rfl <;> simp

theorem diag_step (U : RMat ℚ) (C : IMat) {i j k : ℤ} (hi : i = 1 ∨ i = -1) (hj : j = 1 ∨ j = -1)
    (hk : k = 1 ∨ k = -1) :
    let p := getParams U 0 C
    let q := getParams U 0 (mulC C ⟨i, 0, 0, 0, j, 0, 0, 0, k⟩)
    q.A = p.A ∧ q.B = p.B ∧ q.C = p.C ∧ |q.xi| = |p.xi| ∧ |q.eta| = |p.eta| ∧ |q.zeta| = |p.zeta| ∧
      q.l = j * k * p.l ∧ q.m = i * k * p.m ∧ q.n = i * j * p.n := by
  intro p q
  obtain ⟨h1, h2, h3, h4, h5, h6⟩ := getParams_mulC U C ⟨i, 0, 0, 0, j, 0, 0, 0, k⟩
  have hl : q.l = signFlag 0 q.xi := rfl
  have hm : q.m = signFlag 0 q.eta := rfl
  have hn : q.n = signFlag 0 q.zeta := rfl
  have hl' : p.l = signFlag 0 p.xi := rfl
  have hm' : p.m = signFlag 0 p.eta := rfl
  have hn' : p.n = signFlag 0 p.zeta := rfl
  replace h4 : q.xi = ((j * k : ℤ) : ℚ) * p.xi := by rw [h4]; push_cast; ring
  replace h5 : q.eta = ((i * k : ℤ) : ℚ) * p.eta := by rw [h5]; push_cast; ring
  replace h6 : q.zeta = ((i * j : ℤ) : ℚ) * p.zeta := by rw [h6]; push_cast; ring
  rw [hl, hm, hn, hl', hm', hn', h4, h5, h6, signFlag_unit (mul_unit hj hk), signFlag_unit (mul_unit hi hk),
    signFlag_unit (mul_unit hi hj), abs_unit (mul_unit hj hk), abs_unit (mul_unit hi hk),
    abs_unit (mul_unit hi hj)]
  refine ⟨?_, ?_, ?_, rfl, rfl, rfl, rfl, rfl, rfl⟩
  · rw [h1]; push_cast; rw [sq_unit hi]; ring
  · rw [h2]; push_cast; rw [sq_unit hj]; ring
  · rw [h3]; push_cast; rw [sq_unit hk]; ring

theorem findC3_diag {l m n : ℤ} (hl : l = -1 ∨ l = 0 ∨ l = 1) (hm : m = -1 ∨ m = 0 ∨ m = 1)
    (hn : n = -1 ∨ n = 0 ∨ n = 1) (h : l * m * n = 1) :
    ∃ i j k : ℤ, (i = 1 ∨ i = -1) ∧ (j = 1 ∨ j = -1) ∧ (k = 1 ∨ k = -1) ∧
      findC3 l m n = ⟨i, 0, 0, 0, j, 0, 0, 0, k⟩ ∧
      ((j * k * l = 1 ∧ i * k * m = 1 ∧ i * j * n = 1) ∨ (j * k * l ≠ 1 ∧ i * k * m ≠ 1 ∧ i * j * n ≠ 1)) ∧
      (findC3 l m n ≠ IMat.one → ¬ ((l = 1 ∧ m = 1 ∧ n = 1) ∨ (l ≠ 1 ∧ m ≠ 1 ∧ n ≠ 1))) := by
  refine ⟨if l = -1 then -1 else 1, if m = -1 then -1 else 1, if n = -1 then -1 else 1, ?_⟩
  rcases hl with rfl | rfl | rfl <;> rcases hm with rfl | rfl | rfl <;>
    rcases hn with rfl | rfl | rfl <;> revert h <;> decide

theorem findC4_diag {l m n : ℤ} (hl : l = -1 ∨ l = 0 ∨ l = 1) (hm : m = -1 ∨ m = 0 ∨ m = 1)
    (hn : n = -1 ∨ n = 0 ∨ n = 1) (h : l * m * n = 0 ∨ l * m * n = -1) :
    ∃ i j k : ℤ, (i = 1 ∨ i = -1) ∧ (j = 1 ∨ j = -1) ∧ (k = 1 ∨ k = -1) ∧
      findC4 l m n = ⟨i, 0, 0, 0, j, 0, 0, 0, k⟩ ∧
      ((j * k * l = 1 ∧ i * k * m = 1 ∧ i * j * n = 1) ∨ (j * k * l ≠ 1 ∧ i * k * m ≠ 1 ∧ i * j * n ≠ 1)) ∧
      (findC4 l m n ≠ IMat.one → ¬ ((l = 1 ∧ m = 1 ∧ n = 1) ∨ (l ≠ 1 ∧ m ≠ 1 ∧ n ≠ 1))) := by
  refine ⟨(findC4 l m n).m00, (findC4 l m n).m11, (findC4 l m n).m22, ?_⟩
  rcases hl with rfl | rfl | rfl <;> rcases hm with rfl | rfl | rfl <;>
    rcases hn with rfl | rfl | rfl <;> revert h <;> decide

/-- A sign change does not go up, and goes down unless the matrix is the identity. -/
theorem diag_below (U : RMat ℚ) (C M : IMat)
    (h : ∃ i j k : ℤ, (i = 1 ∨ i = -1) ∧ (j = 1 ∨ j = -1) ∧ (k = 1 ∨ k = -1) ∧
      M = ⟨i, 0, 0, 0, j, 0, 0, 0, k⟩ ∧
      (let p := getParams U 0 C
       ((j * k * p.l = 1 ∧ i * k * p.m = 1 ∧ i * j * p.n = 1) ∨
        (j * k * p.l ≠ 1 ∧ i * k * p.m ≠ 1 ∧ i * j * p.n ≠ 1)) ∧
       (M ≠ IMat.one → ¬ ((p.l = 1 ∧ p.m = 1 ∧ p.n = 1) ∨ (p.l ≠ 1 ∧ p.m ≠ 1 ∧ p.n ≠ 1))))) :
    Level (getParams U 0 (mulC C M)) (getParams U 0 C) ∧ TypeOK (getParams U 0 (mulC C M)) ∧
      (M ≠ IMat.one → Below (getParams U 0 (mulC C M)) (getParams U 0 C)) := by
  obtain ⟨i, j, k, hi, hj, hk, hM, ht, hone⟩ := h
  obtain ⟨h1, h2, h3, h4, h5, h6, h7, h8, h9⟩ := diag_step U C hi hj hk
  rw [← hM] at h1 h2 h3 h4 h5 h6 h7 h8 h9
  rw [← h7, ← h8, ← h9] at ht
  refine ⟨⟨h1, h2, h3, h4, h5, h6, fun _ => ht⟩, ht, fun hne => ?_⟩
  have := hone hne
  unfold Below
  simp only [h1, h2, h3, h4, h5, h6]
  exact .inr ⟨trivial, .inr ⟨trivial, .inr ⟨trivial, .inr ⟨trivial, .inr ⟨trivial, .inr ⟨trivial, ht, this⟩⟩⟩⟩⟩⟩

theorem cond1_iff (p : Params ℚ) :
    cond1 0 p = true ↔ p.B < p.A ∨ p.A = p.B ∧ |p.eta| < |p.xi| := by
  simp [cond1, Arith.lt, Arith.add, Arith.sub, Arith.abs, sub_eq_zero]

theorem cond2_iff (p : Params ℚ) :
    cond2 0 p = true ↔ p.C < p.B ∨ p.C = p.B ∧ |p.zeta| < |p.eta| := by
  simp [cond2, Arith.lt, Arith.add, Arith.sub, Arith.abs, sub_eq_zero]

theorem cond5_iff (p : Params ℚ) :
    cond5 0 p = true ↔ p.B < |p.xi| ∨ p.B = p.xi ∧ 2 * p.eta < p.zeta ∨ p.B + p.xi = 0 ∧ p.zeta < 0 := by
  simp [cond5, Arith.lt, Arith.add, Arith.sub, Arith.abs, Arith.mul, Arith.ofInt, Arith.neg, sub_eq_zero, or_assoc]

theorem cond6_iff (p : Params ℚ) :
    cond6 0 p = true ↔ p.A < |p.eta| ∨ p.A = p.eta ∧ 2 * p.xi < p.zeta ∨ p.A + p.eta = 0 ∧ p.zeta < 0 := by
  simp [cond6, Arith.lt, Arith.add, Arith.sub, Arith.abs, Arith.mul, Arith.ofInt, Arith.neg, sub_eq_zero, or_assoc]

theorem cond7_iff (p : Params ℚ) :
    cond7 0 p = true ↔ p.A < |p.zeta| ∨ p.A = p.zeta ∧ 2 * p.xi < p.eta ∨ p.A + p.zeta = 0 ∧ p.eta < 0 := by
  simp [cond7, Arith.lt, Arith.add, Arith.sub, Arith.abs, Arith.mul, Arith.ofInt, Arith.neg, sub_eq_zero, or_assoc]

theorem cond8_iff (p : Params ℚ) :
    cond8 0 p = true ↔ p.xi + p.eta + p.zeta + p.A + p.B < 0 ∨
      p.xi + p.eta + p.zeta + p.A + p.B = 0 ∧ 0 < 2 * (p.A + p.eta) + p.zeta := by
  simp [cond8, sum8, Arith.lt, Arith.add, Arith.abs, Arith.mul, Arith.ofInt, Arith.neg]

theorem step1_below (U : RMat ℚ) (C : IMat) (h : cond1 0 (getParams U 0 C) = true) :
    let q := getParams U 0 (mulC C ⟨0, -1, 0, -1, 0, 0, 0, 0, -1⟩)
    Below q (getParams U 0 C) ∧ q.A ≤ q.B := by
  intro q
  obtain ⟨h1, h2, h3, h4, h5, h6⟩ := getParams_mulC U C ⟨0, -1, 0, -1, 0, 0, 0, 0, -1⟩
  rw [cond1_iff] at h
  set p := getParams U 0 C
  have a1 : q.A = p.B := by rw [h1]; push_cast; ring
  have a2 : q.B = p.A := by rw [h2]; push_cast; ring
  have a3 : q.C = p.C := by rw [h3]; push_cast; ring
  have a4 : q.xi = p.eta := by rw [h4]; push_cast; ring
  have a5 : q.eta = p.xi := by rw [h5]; push_cast; ring
  have a6 : q.zeta = p.zeta := by rw [h6]; push_cast; ring
  unfold Below
  simp only [a1, a2, a3, a4, a5, a6]
  rcases h with h | ⟨h, h'⟩
  · exact ⟨.inr ⟨by ring, .inl h⟩, h.le⟩
  · exact ⟨.inr ⟨by ring, .inr ⟨h.symm, .inr ⟨h, .inr ⟨by ring, .inr ⟨trivial, .inl h'⟩⟩⟩⟩⟩, h.ge⟩

theorem step2_below (U : RMat ℚ) (C : IMat) (h : cond2 0 (getParams U 0 C) = true) :
    Below (getParams U 0 (mulC C ⟨-1, 0, 0, 0, 0, -1, 0, -1, 0⟩)) (getParams U 0 C) := by
  obtain ⟨h1, h2, h3, h4, h5, h6⟩ := getParams_mulC U C ⟨-1, 0, 0, 0, 0, -1, 0, -1, 0⟩
  rw [cond2_iff] at h
  set p := getParams U 0 C
  set q := getParams U 0 (mulC C ⟨-1, 0, 0, 0, 0, -1, 0, -1, 0⟩)
  have a1 : q.A = p.A := by rw [h1]; push_cast; ring
  have a2 : q.B = p.C := by rw [h2]; push_cast; ring
  have a3 : q.C = p.B := by rw [h3]; push_cast; ring
  have a4 : q.xi = p.xi := by rw [h4]; push_cast; ring
  have a5 : q.eta = p.zeta := by rw [h5]; push_cast; ring
  have a6 : q.zeta = p.eta := by rw [h6]; push_cast; ring
  unfold Below
  simp only [a1, a2, a3, a4, a5, a6]
  rcases h with h | ⟨h, h'⟩
  · exact .inr ⟨by ring, .inr ⟨trivial, .inl h⟩⟩
  · exact .inr ⟨by ring, .inr ⟨trivial, .inr ⟨h, .inr ⟨by ring, .inl h'⟩⟩⟩⟩

theorem typeOK_iff (U : RMat ℚ) (C : IMat) :
    let p := getParams U 0 C
    TypeOK p ↔ (0 < p.xi ∧ 0 < p.eta ∧ 0 < p.zeta) ∨ (p.xi ≤ 0 ∧ p.eta ≤ 0 ∧ p.zeta ≤ 0) := by
  intro p
  have hl : p.l = signFlag 0 p.xi := rfl
  have hm : p.m = signFlag 0 p.eta := rfl
  have hn : p.n = signFlag 0 p.zeta := rfl
  have one (x : ℚ) : signFlag 0 x = 1 ↔ 0 < x := by
    rw [signFlag_zero]
    split_ifs with h1 h2
    · constructor <;> intro h
      · simp at h
      · exfalso; linarith
    · simpa using h2
    · simpa using h2
  unfold TypeOK
  rw [hl, hm, hn]
  simp only [ne_eq, one, not_lt]

theorem step5_below (U : RMat ℚ) (C : IMat) (ht : TypeOK (getParams U 0 C)) (hB : 0 < (getParams U 0 C).B)
    (h : cond5 0 (getParams U 0 C) = true) :
    Below (getParams U 0 (mulC C ⟨1, 0, 0, 0, 1, -Arith.sign (getParams U 0 C).xi, 0, 0, 1⟩))
      (getParams U 0 C) := by
  obtain ⟨h1, h2, h3, h4, h5, h6⟩ := getParams_mulC U C ⟨1, 0, 0, 0, 1, -Arith.sign (getParams U 0 C).xi, 0, 0, 1⟩
  rw [cond5_iff] at h
  replace ht := (typeOK_iff U C).1 ht
  set p := getParams U 0 C
  set q := getParams U 0 (mulC C ⟨1, 0, 0, 0, 1, -Arith.sign p.xi, 0, 0, 1⟩)
  have a1 : q.A = p.A := by rw [h1]; push_cast; ring
  have a2 : q.B = p.B := by rw [h2]; push_cast; ring
  have a6 : q.zeta = p.zeta := by rw [h6]; push_cast; ring
  rcases lt_trichotomy p.xi 0 with hx | hx | hx
  · have hs : (Arith.sign p.xi : ℤ) = -1 := by simp [Arith.sign, hx]
    have a3 : q.C = p.C + p.B + p.xi := by rw [h3, hs]; push_cast; ring
    have a4 : q.xi = 2 * p.B + p.xi := by rw [h4, hs]; push_cast; ring
    have a5 : q.eta = p.eta + p.zeta := by rw [h5, hs]; push_cast; ring
    rw [abs_of_neg hx] at h
    unfold Below
    simp only [a1, a2, a3, a4, a5, a6]
    rcases h with h | ⟨h, -⟩ | ⟨h, h'⟩
    · exact .inl (by linarith)
    · exfalso; linarith
    · refine .inr ⟨by linarith, .inr ⟨trivial, .inr ⟨trivial, .inl ?_⟩⟩⟩
      rcases ht with t | ⟨-, t2, t3⟩
      · exfalso; linarith [t.1]
      · rw [abs_of_neg hx, abs_of_nonpos t2, abs_of_nonpos t3, abs_of_pos (a := 2 * p.B + p.xi) (by linarith),
          abs_of_neg (a := p.eta + p.zeta) (by linarith)]
        linarith
  · exfalso
    rw [hx, abs_zero] at h
    rcases h with h | ⟨h, -⟩ | ⟨h, -⟩ <;> linarith
  · have hs : (Arith.sign p.xi : ℤ) = 1 := by simp [Arith.sign, hx, hx.le]
    have a3 : q.C = p.C + p.B - p.xi := by rw [h3, hs]; push_cast; ring
    have a4 : q.xi = p.xi - 2 * p.B := by rw [h4, hs]; push_cast; ring
    have a5 : q.eta = p.eta - p.zeta := by rw [h5, hs]; push_cast; ring
    rw [abs_of_pos hx] at h
    unfold Below
    simp only [a1, a2, a3, a4, a5, a6]
    rcases h with h | ⟨h, h'⟩ | ⟨h, h'⟩
    · exact .inl (by linarith)
    · refine .inr ⟨by linarith, .inr ⟨trivial, .inr ⟨trivial, .inl ?_⟩⟩⟩
      rcases ht with ⟨-, t2, t3⟩ | t
      · rw [abs_of_pos hx, abs_of_pos t2, abs_of_pos t3, abs_of_neg (a := p.xi - 2 * p.B) (by linarith),
          abs_of_neg (a := p.eta - p.zeta) (by linarith)]
        linarith
      · exfalso; linarith [t.1]
    · exfalso; linarith

theorem step6_below (U : RMat ℚ) (C : IMat) (ht : TypeOK (getParams U 0 C)) (hA : 0 < (getParams U 0 C).A)
    (h : cond6 0 (getParams U 0 C) = true) :
    Below (getParams U 0 (mulC C ⟨1, 0, -Arith.sign (getParams U 0 C).eta, 0, 1, 0, 0, 0, 1⟩))
      (getParams U 0 C) := by
  obtain ⟨h1, h2, h3, h4, h5, h6⟩ := getParams_mulC U C ⟨1, 0, -Arith.sign (getParams U 0 C).eta, 0, 1, 0, 0, 0, 1⟩
  rw [cond6_iff] at h
  replace ht := (typeOK_iff U C).1 ht
  set p := getParams U 0 C
  set q := getParams U 0 (mulC C ⟨1, 0, -Arith.sign p.eta, 0, 1, 0, 0, 0, 1⟩)
  have a1 : q.A = p.A := by rw [h1]; push_cast; ring
  have a2 : q.B = p.B := by rw [h2]; push_cast; ring
  have a6 : q.zeta = p.zeta := by rw [h6]; push_cast; ring
  rcases lt_trichotomy p.eta 0 with hx | hx | hx
  · have hs : (Arith.sign p.eta : ℤ) = -1 := by simp [Arith.sign, hx]
    have a3 : q.C = p.C + p.A + p.eta := by rw [h3, hs]; push_cast; ring
    have a4 : q.eta = 2 * p.A + p.eta := by rw [h5, hs]; push_cast; ring
    have a5 : q.xi = p.xi + p.zeta := by rw [h4, hs]; push_cast; ring
    rw [abs_of_neg hx] at h
    unfold Below
    simp only [a1, a2, a3, a4, a5, a6]
    rcases h with h | ⟨h, -⟩ | ⟨h, h'⟩
    · exact .inl (by linarith)
    · exfalso; linarith
    · refine .inr ⟨by linarith, .inr ⟨trivial, .inr ⟨trivial, .inl ?_⟩⟩⟩
      rcases ht with t | ⟨t1, t2, t3⟩
      · exfalso; linarith [t.2.1]
      · rw [abs_of_neg hx, abs_of_nonpos t1, abs_of_nonpos t3, abs_of_pos (a := 2 * p.A + p.eta) (by linarith),
          abs_of_neg (a := p.xi + p.zeta) (by linarith)]
        linarith
  · exfalso
    rw [hx, abs_zero] at h
    rcases h with h | ⟨h, -⟩ | ⟨h, -⟩ <;> linarith
  · have hs : (Arith.sign p.eta : ℤ) = 1 := by simp [Arith.sign, hx, hx.le]
    have a3 : q.C = p.C + p.A - p.eta := by rw [h3, hs]; push_cast; ring
    have a4 : q.eta = p.eta - 2 * p.A := by rw [h5, hs]; push_cast; ring
    have a5 : q.xi = p.xi - p.zeta := by rw [h4, hs]; push_cast; ring
    rw [abs_of_pos hx] at h
    unfold Below
    simp only [a1, a2, a3, a4, a5, a6]
    rcases h with h | ⟨h, h'⟩ | ⟨h, h'⟩
    · exact .inl (by linarith)
    · refine .inr ⟨by linarith, .inr ⟨trivial, .inr ⟨trivial, .inl ?_⟩⟩⟩
      rcases ht with ⟨t1, t2, t3⟩ | t
      · rw [abs_of_pos hx, abs_of_pos t1, abs_of_pos t3, abs_of_neg (a := p.eta - 2 * p.A) (by linarith),
          abs_of_neg (a := p.xi - p.zeta) (by linarith)]
        linarith
      · exfalso; linarith [t.2.1]
    · exfalso; linarith

theorem step7_below (U : RMat ℚ) (C : IMat) (ht : TypeOK (getParams U 0 C)) (hA : 0 < (getParams U 0 C).A)
    (h : cond7 0 (getParams U 0 C) = true) :
    Below (getParams U 0 (mulC C ⟨1, -Arith.sign (getParams U 0 C).zeta, 0, 0, 1, 0, 0, 0, 1⟩))
      (getParams U 0 C) := by
  obtain ⟨h1, h2, h3, h4, h5, h6⟩ := getParams_mulC U C ⟨1, -Arith.sign (getParams U 0 C).zeta, 0, 0, 1, 0, 0, 0, 1⟩
  rw [cond7_iff] at h
  replace ht := (typeOK_iff U C).1 ht
  set p := getParams U 0 C
  set q := getParams U 0 (mulC C ⟨1, -Arith.sign p.zeta, 0, 0, 1, 0, 0, 0, 1⟩)
  have a1 : q.A = p.A := by rw [h1]; push_cast; ring
  have a2 : q.C = p.C := by rw [h3]; push_cast; ring
  have a6 : q.eta = p.eta := by rw [h5]; push_cast; ring
  rcases lt_trichotomy p.zeta 0 with hx | hx | hx
  · have hs : (Arith.sign p.zeta : ℤ) = -1 := by simp [Arith.sign, hx]
    have a3 : q.B = p.B + p.A + p.zeta := by rw [h2, hs]; push_cast; ring
    have a4 : q.zeta = 2 * p.A + p.zeta := by rw [h6, hs]; push_cast; ring
    have a5 : q.xi = p.xi + p.eta := by rw [h4, hs]; push_cast; ring
    rw [abs_of_neg hx] at h
    unfold Below
    simp only [a1, a2, a3, a4, a5, a6]
    rcases h with h | ⟨h, -⟩ | ⟨h, h'⟩
    · exact .inl (by linarith)
    · exfalso; linarith
    · refine .inr ⟨by linarith, .inr ⟨trivial, .inr ⟨by linarith, .inl ?_⟩⟩⟩
      rcases ht with t | ⟨t1, t2, t3⟩
      · exfalso; linarith [t.2.2]
      · rw [abs_of_neg hx, abs_of_nonpos t1, abs_of_nonpos t2, abs_of_pos (a := 2 * p.A + p.zeta) (by linarith),
          abs_of_neg (a := p.xi + p.eta) (by linarith)]
        linarith
  · exfalso
    rw [hx, abs_zero] at h
    rcases h with h | ⟨h, -⟩ | ⟨h, -⟩ <;> linarith
  · have hs : (Arith.sign p.zeta : ℤ) = 1 := by simp [Arith.sign, hx, hx.le]
    have a3 : q.B = p.B + p.A - p.zeta := by rw [h2, hs]; push_cast; ring
    have a4 : q.zeta = p.zeta - 2 * p.A := by rw [h6, hs]; push_cast; ring
    have a5 : q.xi = p.xi - p.eta := by rw [h4, hs]; push_cast; ring
    rw [abs_of_pos hx] at h
    unfold Below
    simp only [a1, a2, a3, a4, a5, a6]
    rcases h with h | ⟨h, h'⟩ | ⟨h, h'⟩
    · exact .inl (by linarith)
    · refine .inr ⟨by linarith, .inr ⟨trivial, .inr ⟨by linarith, .inl ?_⟩⟩⟩
      rcases ht with ⟨t1, t2, t3⟩ | t
      · rw [abs_of_pos hx, abs_of_pos t1, abs_of_pos t2, abs_of_neg (a := p.zeta - 2 * p.A) (by linarith),
          abs_of_neg (a := p.xi - p.eta) (by linarith)]
        linarith
      · exfalso; linarith [t.2.2]
    · exfalso; linarith

theorem step8_below (U : RMat ℚ) (C : IMat) (ht : TypeOK (getParams U 0 C)) (hA : 0 < (getParams U 0 C).A)
    (hAB : (getParams U 0 C).A ≤ (getParams U 0 C).B)
    (h6' : ¬ cond6 0 (getParams U 0 C) = true) (h7' : ¬ cond7 0 (getParams U 0 C) = true)
    (h : cond8 0 (getParams U 0 C) = true) :
    Below (getParams U 0 (mulC C ⟨1, 0, 1, 0, 1, 1, 0, 0, 1⟩)) (getParams U 0 C) := by
  obtain ⟨h1, h2, h3, h4, h5, h6⟩ := getParams_mulC U C ⟨1, 0, 1, 0, 1, 1, 0, 0, 1⟩
  rw [cond8_iff] at h
  rw [cond6_iff, not_or] at h6'
  rw [cond7_iff, not_or] at h7'
  replace ht := (typeOK_iff U C).1 ht
  set p := getParams U 0 C
  set q := getParams U 0 (mulC C ⟨1, 0, 1, 0, 1, 1, 0, 0, 1⟩)
  have a1 : q.A = p.A := by rw [h1]; push_cast; ring
  have a2 : q.B = p.B := by rw [h2]; push_cast; ring
  have a3 : q.C = p.C + (p.xi + p.eta + p.zeta + p.A + p.B) := by rw [h3]; push_cast; ring
  have a4 : q.xi = 2 * p.B + p.xi + p.zeta := by rw [h4]; push_cast; ring
  have a5 : q.eta = 2 * p.A + p.eta + p.zeta := by rw [h5]; push_cast; ring
  have a6 : q.zeta = p.zeta := by rw [h6]; push_cast; ring
  unfold Below
  simp only [a1, a2, a3, a4, a5, a6]
  rcases h with h | ⟨h, h'⟩
  · exact .inl (by linarith)
  · have e1 := (abs_le.1 (not_lt.1 h6'.1)).1
    have e2 := (abs_le.1 (not_lt.1 h7'.1)).1
    rcases ht with ⟨t1, t2, t3⟩ | ⟨t1, t2, t3⟩
    · exfalso; linarith
    · have b1 : |p.xi| = -p.xi := abs_of_nonpos t1
      have b2 : |p.eta| = -p.eta := abs_of_nonpos t2
      have b4 : |2 * p.B + p.xi + p.zeta| = 2 * p.B + p.xi + p.zeta := abs_of_nonneg (by linarith)
      have b5 : |2 * p.A + p.eta + p.zeta| = 2 * p.A + p.eta + p.zeta := abs_of_nonneg (by linarith)
      rw [b1, b2, b4, b5]
      exact .inr ⟨by linarith, .inr ⟨trivial, .inr ⟨trivial, .inr ⟨by linarith, .inr ⟨trivial,
        .inl (by linarith)⟩⟩⟩⟩⟩

/-! ## A pass that changes something goes down -/

theorem pass_below (U : RMat ℚ) (hU : U.toMatrix.det ≠ 0) {d : ℕ} (hd : 0 < d)
    (nice : ∀ C : IMat, C.toMat.det = 1 → Nice d (getParams U 0 C)) {C C' : IMat} (hC : C.toMat.det = 1)
    (h : niggliPass U 0 C = (C', false)) :
    rank d (getParams U 0 C') < rank d (getParams U 0 C) := by
  have dC' : C'.toMat.det = 1 := by
    have := det_pass U 0 hC
    rw [h] at this
    exact this
  unfold niggliPass at h
  extract_lets par c1 C1 p1 M3 s3 C2 p2 M4 s4 C4 reduced p at h
  have sf (x : ℚ) := signFlag_mem (K := ℚ) 0 x
  -- step 1
  have dC1 : C1.toMat.det = 1 := by
    simp only [C1]
    split_ifs
    · exact det_mulC hC (by rw [det_toMat]; decide)
    · exact hC
  have r1 : rank d (par C1) ≤ rank d (par C) ∧ (c1 = true → rank d (par C1) < rank d (par C)) ∧
      (par C1).A ≤ (par C1).B := by
    by_cases hc : c1 = true
    · have e : C1 = mulC C ⟨0, -1, 0, -1, 0, 0, 0, 0, -1⟩ := by simp only [C1, hc, if_true]
      have hb := step1_below U C hc
      have : rank d (par C1) < rank d (par C) := by
        rw [e]
        exact rank_lt hd (nice _ hC) (nice _ (e ▸ dC1)) hb.1
      exact ⟨this.le, fun _ => this, by rw [e]; exact hb.2⟩
    · have e : C1 = C := by simp only [C1, hc, if_false, Bool.false_eq_true]
      refine ⟨by rw [e], fun h => absurd h hc, ?_⟩
      rw [e]
      simp only [c1, par] at hc
      rw [cond1_iff, not_or] at hc
      exact not_lt.1 hc.1
  split_ifs at h with k2 k5 k6 k7 k8
  · cases h
    exact (rank_lt hd (nice _ dC1) (nice _ dC') (step2_below U C1 k2)).trans_le r1.1
  all_goals
    -- step 3
    have g3 (hs : s3) := diag_below U C1 M3 (findC3_diag (sf _) (sf _) (sf _) hs)
    have dC2 : C2.toMat.det = 1 := by
      simp only [C2]
      split_ifs
      · exact det_mulC dC1 (det_findC3 (sf _) (sf _) (sf _) (by assumption))
      · exact dC1
    have r2 : Level (par C2) (par C1) ∧ (s3 → M3 ≠ IMat.one → Below (par C2) (par C1)) := by
      by_cases hs : s3
      · have e : C2 = mulC C1 M3 := by simp only [C2, hs, if_true]
        rw [e]
        exact ⟨(g3 hs).1, fun _ => (g3 hs).2.2⟩
      · have e : C2 = C1 := by simp only [C2, hs, if_false]
        rw [e]
        exact ⟨Level.refl _, fun h => absurd h hs⟩
    have g4 (hs : s4) := diag_below U C2 M4 (findC4_diag (sf _) (sf _) (sf _) hs)
    have dC4 : C4.toMat.det = 1 := by
      simp only [C4]
      split_ifs
      · exact det_mulC dC2 (det_findC4 (sf _) (sf _) (sf _) (by assumption))
      · exact dC2
    have r4 : Level (par C4) (par C2) ∧ TypeOK (par C4) ∧ (s4 → M4 ≠ IMat.one → Below (par C4) (par C2)) := by
      by_cases hs : s4
      · have e : C4 = mulC C2 M4 := by simp only [C4, hs, if_true]
        rw [e]
        exact ⟨(g4 hs).1, (g4 hs).2.1, fun _ => (g4 hs).2.2⟩
      · have e : C4 = C2 := by simp only [C4, hs, if_false]
        rw [e]
        refine ⟨Level.refl _, ?_, fun h => absurd h hs⟩
        -- all flags are non-zero with product 1, so step 3 was taken
        have hp : p2.l * p2.m * p2.n = 1 := by
          simp only [s4, not_or] at hs
          have l1 : p2.l = -1 ∨ p2.l = 0 ∨ p2.l = 1 := sf _
          have l2 : p2.m = -1 ∨ p2.m = 0 ∨ p2.m = 1 := sf _
          have l3 : p2.n = -1 ∨ p2.n = 0 ∨ p2.n = 1 := sf _
          revert hs
          rcases l1 with h | h | h <;> rcases l2 with h' | h' | h' <;> rcases l3 with h'' | h'' | h'' <;>
            rw [h, h', h''] <;> decide
        by_cases hs3 : s3
        · have e2 : C2 = mulC C1 M3 := by simp only [C2, hs3, if_true]
          rw [e2]
          exact (g3 hs3).2.1
        · have e2 : C2 = C1 := by simp only [C2, hs3, if_false]
          simp only [s3, p1] at hs3
          simp only [p2, e2] at hp
          exact absurd hp hs3
    have lev : Level (par C4) (par C1) := r4.1.trans r2.1
    have r41 : rank d (par C4) ≤ rank d (par C) := (rank_le lev).trans r1.1
    have n4 := nice C4 dC4
    have hAB : (par C4).A ≤ (par C4).B := by rw [lev.1, lev.2.1]; exact r1.2.2
  · cases h
    exact (rank_lt hd n4 (nice _ dC') (step5_below U C4 r4.2.1 n4.b k5)).trans_le r41
  · cases h
    exact (rank_lt hd n4 (nice _ dC') (step6_below U C4 r4.2.1 n4.a k6)).trans_le r41
  · cases h
    exact (rank_lt hd n4 (nice _ dC') (step7_below U C4 r4.2.1 n4.a k7)).trans_le r41
  · cases h
    exact (rank_lt hd n4 (nice _ dC') (step8_below U C4 r4.2.1 n4.a hAB k6 k7 k8)).trans_le r41
  · rw [Prod.mk.injEq] at h
    obtain ⟨rfl, hred⟩ := h
    simp only [reduced, Bool.and_eq_false_iff, Bool.not_eq_false', Bool.and_eq_true, decide_eq_true_eq] at hred
    rcases hred with (hred | ⟨hs, hM⟩) | ⟨hs, hM⟩
    · exact (rank_le lev).trans_lt (r1.2.1 hred)
    · exact (rank_le r4.1).trans_lt ((rank_lt hd (nice _ dC1) (nice _ dC2) (r2.2 hs hM)).trans_le r1.1)
    · exact (rank_lt hd (nice _ dC2) (nice _ dC4) (r4.2.2 hs hM)).trans_le ((rank_le r2.1).trans r1.1)

/-- From every cell the loop reaches a pass that reports `reduced`. -/
theorem niggliLoop_terminates (U : RMat ℚ) (hU : U.toMatrix.det ≠ 0) :
    ∀ C : IMat, C.toMat.det = 1 → ∃ n C', ∀ fuel count, n ≤ fuel →
      niggliLoop U 0 fuel count C = (C', count + n) ∧ niggliPass U 0 C' = (C', true) := by
  obtain ⟨d, hd, nice⟩ := nice_getParams U hU
  have key : ∀ r, ∀ C : IMat, C.toMat.det = 1 → rank d (getParams U 0 C) = r → ∃ n C', ∀ fuel count, n ≤ fuel →
      niggliLoop U 0 fuel count C = (C', count + n) ∧ niggliPass U 0 C' = (C', true) := by
    intro r
    induction r using WellFoundedLT.induction with
    | ind r ih =>
      intro C hC hr
      rcases hpass : niggliPass U 0 C with ⟨C', b⟩
      cases b with
      | true =>
        refine ⟨1, C', fun fuel count hf => ?_⟩
        have e := (niggliPass_true hpass).1
        obtain ⟨f, rfl⟩ : ∃ f, fuel = f + 1 := ⟨fuel - 1, by omega⟩
        refine ⟨?_, e ▸ hpass⟩
        unfold niggliLoop
        rw [hpass]
      | false =>
        have dC' : C'.toMat.det = 1 := by
          have := det_pass U 0 hC
          rw [hpass] at this
          exact this
        have hlt := pass_below U hU hd nice hC hpass
        rw [hr] at hlt
        obtain ⟨n, C'', h⟩ := ih _ hlt C' dC' rfl
        refine ⟨n + 1, C'', fun fuel count hf => ?_⟩
        obtain ⟨f, rfl⟩ : ∃ f, fuel = f + 1 := ⟨fuel - 1, by omega⟩
        obtain ⟨h1, h2⟩ := h f (count + 1) (by omega)
        refine ⟨?_, h2⟩
        unfold niggliLoop
        rw [hpass]
        dsimp only
        rw [h1, Nat.add_assoc, Nat.add_comm 1 n]
  exact fun C hC => key _ C hC rfl

end AutoGR
