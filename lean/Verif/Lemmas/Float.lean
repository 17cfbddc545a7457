import Verif.Lemmas.IsInt
import Verif.Spec.Float

/-! # Rounded evaluation of integer expressions -/

namespace AutoGR

open Spec

/-- The rounded value `x'` equals the exact value `x`, an integer of absolute value at most `B`. -/
def Ev (B : ℤ) (x' x : ℚ) : Prop := x' = x ∧ IsInt x ∧ |x| ≤ B

namespace Ev

variable {fl : ℚ → ℚ} {B B' : ℤ} {x' x y' y : ℚ}

theorem var {z : ℤ} (h0 : 0 ≤ z) (h : z ≤ B) : Ev B (z : ℚ) z :=
  ⟨rfl, .int z, by rw [abs_of_nonneg (by exact_mod_cast h0)]; exact_mod_cast h⟩

theorem one : Ev 1 (1 : ℚ) 1 := ⟨rfl, ⟨1, by norm_num⟩, by norm_num⟩

theorem two : Ev 2 (2 : ℚ) 2 := ⟨rfl, ⟨2, by norm_num⟩, by norm_num⟩

theorem neg (h : Ev B x' x) : Ev B (-x') (-x) := by
  obtain ⟨rfl, ⟨k, hk⟩, h⟩ := h
  exact ⟨rfl, ⟨-k, by rw [hk]; push_cast; rfl⟩, by rwa [abs_neg]⟩

theorem round (hfl : Binary64 fl) {z : ℚ} (hz : IsInt z) (h : |z| ≤ B) (hB : B ≤ 2 ^ 53) :
    fl z = z := by
  obtain ⟨k, rfl⟩ := hz
  refine hfl.exact k ?_
  have : |k| ≤ B := by exact_mod_cast h
  omega

theorem add (hfl : Binary64 fl) (h : Ev B x' x) (h' : Ev B' y' y) (hB : B + B' ≤ 2 ^ 53) :
    Ev (B + B') (fadd fl x' y') (x + y) := by
  obtain ⟨rfl, i, h⟩ := h
  obtain ⟨rfl, i', h'⟩ := h'
  have hb : |x' + y'| ≤ ((B + B' : ℤ) : ℚ) := by
    push_cast
    exact (abs_add_le _ _).trans (add_le_add h h')
  exact ⟨round hfl (i.add i') hb hB, i.add i', hb⟩

theorem sub (hfl : Binary64 fl) (h : Ev B x' x) (h' : Ev B' y' y) (hB : B + B' ≤ 2 ^ 53) :
    Ev (B + B') (fsub fl x' y') (x - y) := by
  have := add hfl h h'.neg hB
  unfold fadd at this
  unfold fsub
  rwa [← sub_eq_add_neg, ← sub_eq_add_neg] at this

theorem mul (hfl : Binary64 fl) (h : Ev B x' x) (h' : Ev B' y' y) (hB : B * B' ≤ 2 ^ 53) :
    Ev (B * B') (fmul fl x' y') (x * y) := by
  obtain ⟨rfl, i, h⟩ := h
  obtain ⟨rfl, i', h'⟩ := h'
  have hb : |x' * y'| ≤ ((B * B' : ℤ) : ℚ) := by
    push_cast
    rw [abs_mul]
    exact mul_le_mul h h' (abs_nonneg _) ((abs_nonneg _).trans h)
  exact ⟨round hfl (i.mul i') hb hB, i.mul i', hb⟩

theorem div (hfl : Binary64 fl) (h : Ev B x' x) (h' : Ev B' y' y) (hy : 1 ≤ y)
    (i : IsInt (x / y)) (hB : B ≤ 2 ^ 53) : Ev B (fdiv fl x' y') (x / y) := by
  obtain ⟨rfl, -, h⟩ := h
  obtain ⟨rfl, -, -⟩ := h'
  have hb : |x' / y'| ≤ (B : ℚ) := by
    rw [abs_div, abs_of_pos (by linarith : 0 < y')]
    exact (div_le_self (abs_nonneg _) hy).trans h
  exact ⟨round hfl i hb hB, i, hb⟩

end Ev

theorem fm_congr {α : Type} {l : List α} {f g : α → List Mat3} (h : ∀ x ∈ l, f x = g x) :
    l.flatMap f = l.flatMap g := List.flatMap_congr h

theorem ite_nil_congr {P' P : Prop} [Decidable P'] [Decidable P] {x' x : List Mat3} (h : P' ↔ P)
    (hx : P → x' = x) : (if P' then x' else []) = (if P then x else []) := by
  by_cases hp : P
  · rw [if_pos hp, if_pos (h.2 hp), hx hp]
  · rw [if_neg hp, if_neg (fun h' => hp (h.1 h'))]

theorem and_dep {P' P Q' Q : Prop} (h : P' ↔ P) (hq : P → (Q' ↔ Q)) : P' ∧ Q' ↔ P ∧ Q := by
  constructor
  · rintro ⟨a, b⟩; exact ⟨h.1 a, (hq (h.1 a)).1 b⟩
  · rintro ⟨a, b⟩; exact ⟨h.2 a, (hq a).2 b⟩

theorem iff_mod {B : ℤ} {x' x m : ℚ} (h : Ev B x' x) : pyMod x' m = 0 ↔ pyMod x m = 0 := by
  rw [h.1]

/-- The bounds used below, from `a * c * f = n ≤ 10^7`. -/
theorem diag_bounds {n a c f : ℤ} (hn : n ≤ 10 ^ 7) (h : (a, c, f) ∈ getHNFDiagonals n) :
    (0 < a ∧ 0 < c ∧ 0 < f) ∧ ((1 : ℚ) ≤ a ∧ (1 : ℚ) ≤ c ∧ (1 : ℚ) ≤ f) ∧
    (a ≤ 10 ^ 7 ∧ c ≤ 10 ^ 7 ∧ f ≤ 10 ^ 7) ∧ (a * c ≤ 10 ^ 7 ∧ a * f ≤ 10 ^ 7 ∧ c * f ≤ 10 ^ 7) ∧
    (a * a ≤ 10 ^ 14 ∧ c * c ≤ 10 ^ 14 ∧ f * f ≤ 10 ^ 14) ∧
    (c * c * f ≤ 10 ^ 14 ∧ c * f * f ≤ 10 ^ 14) := by
  obtain ⟨ha, hc, hf, h⟩ := mem_getHNFDiagonals.1 h
  have hcf : 1 ≤ c * f := Int.mul_pos hc hf
  have haf : 1 ≤ a * f := Int.mul_pos ha hf
  have hac : 1 ≤ a * c := Int.mul_pos ha hc
  have h1 : a * c ≤ 10 ^ 7 := by nlinarith
  have h2 : a * f ≤ 10 ^ 7 := by nlinarith
  have h3 : c * f ≤ 10 ^ 7 := by nlinarith
  have b1 : a ≤ 10 ^ 7 := by nlinarith
  have b2 : c ≤ 10 ^ 7 := by nlinarith
  have b3 : f ≤ 10 ^ 7 := by nlinarith
  exact ⟨⟨ha, hc, hf⟩, ⟨by exact_mod_cast ha, by exact_mod_cast hc, by exact_mod_cast hf⟩,
    ⟨b1, b2, b3⟩, ⟨h1, h2, h3⟩, ⟨by nlinarith, by nlinarith, by nlinarith⟩,
    ⟨by nlinarith, by nlinarith⟩⟩

/-- Closes the size bounds. -/
macro "bd" : tactic => `(tactic| (norm_num; linarith))

end AutoGR
