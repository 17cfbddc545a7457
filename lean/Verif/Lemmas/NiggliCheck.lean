import Mathlib.Tactic.Linarith
import Mathlib.Tactic.Positivity
import Mathlib.Tactic.SplitIfs
import Verif.Model.LatId
import Verif.Spec.Tolerance

/-! # What `_niggli_check` guarantees in exact arithmetic -/

namespace AutoGR

open Spec

theorem close_iff {eps x y : ℚ} : allclose eps x y = true ↔ EqTol eps (1 / 100000) x y := by
  simp [allclose, allcloseR, EqTol, Arith.le, Arith.abs, Arith.sub, Arith.add, Arith.mul, Arith.ofRat]

theorem ltOrClose {eps x y : ℚ} (he : 0 ≤ eps)
    (h : Arith.lt x (Arith.sub y eps) = true ∨ allclose eps x y = true) :
    LeTol eps (1 / 100000) x y := by
  rcases h with h | h
  · simp only [Arith.lt, Arith.sub, decide_eq_true_eq] at h
    have : 0 ≤ (1 / 100000 : ℚ) * |y| := by positivity
    unfold LeTol
    linarith
  · rw [close_iff] at h
    unfold EqTol at h
    unfold LeTol
    have := (abs_le.1 h).2
    linarith

theorem if_false_eq {c b : Bool} : (if c = true then false else b) = true ↔ c = false ∧ b = true := by
  cases c <;> simp

theorem niggliCheck_upTo {p : Params ℚ} {eps : ℚ} (he : 0 ≤ eps) (h : niggliCheck p eps = true)
    {D E F : ℚ} (hD : p.xi = 2 * D) (hE : p.eta = 2 * E) (hF : p.zeta = 2 * F) :
    NiggliUpTo eps (1 / 100000) (1 / 100000000) p.A p.B p.C D E F := by
  unfold niggliCheck at h
  dsimp only at h
  rw [hD, hE, hF] at h
  have hz : (Arith.ofInt 0 : ℚ) = 0 := by simp [Arith.ofInt]
  have ht : (Arith.ofInt 2 : ℚ) = 2 := by simp [Arith.ofInt]
  have hadd (x y : ℚ) : Arith.add x y = x + y := rfl
  have hmul (x y : ℚ) : Arith.mul x y = x * y := rfl
  have hneg (x : ℚ) : Arith.neg x = -x := rfl
  have habs (x : ℚ) : Arith.abs x = |x| := rfl
  rw [hz, ht] at h
  simp only [hadd, hmul, hneg, habs] at h
  simp only [if_false_eq] at h
  obtain ⟨h1, h2, h3, h4, h5, h6, h7, h8, h9, h10, h11, h12, h13, h14, -⟩ := h
  have imp {c b : Bool} (h : (c && !b) = false) (hc : c = true) : b = true := by
    cases c <;> cases b <;> simp_all
  replace h2 := imp h2
  replace h3 := imp h3
  replace h8 := imp h8
  replace h9 := imp h9
  replace h10 := imp h10
  replace h11 := imp h11
  replace h12 := imp h12
  replace h13 := imp h13
  replace h14 := imp h14
  simp only [Bool.not_eq_false', Bool.and_eq_true, Bool.or_eq_true] at h1 h2 h3 h4 h5 h6 h7 h8 h9 h10 h14
  have hpos (x : ℚ) (hx : Arith.lt 0 (Arith.sub x eps) = true) : eps < x := by
    simpa [Arith.lt, Arith.sub] using hx
  have L {x y : ℚ} := @ltOrClose eps x y he
  obtain ⟨⟨a1, a2⟩, a3⟩ := h1
  refine ⟨hpos _ a1, L a2, L a3, ?_, L h5, L h6.1, L h6.2, ?_, ?_, ?_, ?_, ?_, ?_, ?_, ?_, ?_, ?_⟩
  · rcases h4 with ⟨⟨b1, b2⟩, b3⟩ | ⟨⟨b1, b2⟩, b3⟩
    · left
      have := hpos _ b1
      have := hpos _ b2
      have := hpos _ b3
      refine ⟨?_, ?_, ?_⟩ <;> linarith
    · exact .inr ⟨L b1, L b2, L b3⟩
  · exact L h7
  · exact fun hc => L (h2 (close_iff.2 hc))
  · exact fun hc => L (h3 (close_iff.2 hc))
  · exact fun hc => L (h8 (close_iff.2 hc))
  · exact fun hc => L (h9 (close_iff.2 hc))
  · exact fun hc => L (h10 (close_iff.2 hc))
  · exact fun hc => close_iff.1 (h11 (close_iff.2 hc))
  · exact fun hc => close_iff.1 (h12 (close_iff.2 hc))
  · exact fun hc => close_iff.1 (h13 (close_iff.2 hc))
  · intro hc
    refine L (h14 ?_)
    unfold EqTol at hc
    simpa [allcloseR, Arith.le, Arith.abs, Arith.sub, Arith.add, Arith.mul, Arith.ofRat] using hc

end AutoGR
