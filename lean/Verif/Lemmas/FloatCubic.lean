import Verif.Lemmas.Float

/-! # Rounding does not change the cubic generators -/

set_option linter.unusedSimpArgs false
set_option linter.unusedVariables false
set_option linter.unusedTactic false

namespace AutoGR

open Spec

/-- The last test of `stet_21`, where `e*e/c` can be a half-integer. -/
theorem stet_21_last {fl : ℚ → ℚ} (hfl : Binary64 fl) {c e f : ℤ} (t0 : IsInt ((f : ℚ) / c))
    (t : IsInt (2 * e / f : ℚ)) (hc : 0 < c) (hf : 0 < f) (e0 : 0 ≤ e) (e1 : e < f)
    (bc : c ≤ 10 ^ 7) (bff : f * f ≤ 10 ^ 14) :
    pyMod (fadd fl (-(c : ℚ)) (fdiv fl (fmul fl (e : ℚ) e) c)) f = 0 ↔
    pyMod (fadd id (-(c : ℚ)) (fdiv id (fmul id (e : ℚ) e) c)) f = 0 := by
  have hc' : (c : ℚ) ≠ 0 := by exact_mod_cast hc.ne'
  have hf' : (f : ℚ) ≠ 0 := by exact_mod_cast hf.ne'
  have c1q : (1 : ℚ) ≤ c := by exact_mod_cast hc
  have vc := Ev.var hc.le (le_refl c)
  have ve := Ev.var e0 e1.le
  have Esq := Ev.mul hfl ve ve (by bd)
  by_cases h : IsInt ((e : ℚ) * e / c)
  · exact iff_mod (Ev.add hfl vc.neg (Ev.div hfl Esq vc c1q h (by bd)) (by bd))
  · have hfloor : ∀ r : ℚ, pyMod r f = 0 → IsInt r := by
      intro r hr
      obtain ⟨k, hk⟩ := (IsInt.div_iff hf).1 ((pyMod_q hf).1 hr)
      exact ⟨f * k, by rw [hk]; push_cast; rfl⟩
    obtain ⟨k, hk⟩ : IsInt (2 * ((e : ℚ) * e / c)) :=
      ((t.mul t0).mul (.int e)).of_eq (by field_simp)
    rw [show fmul fl (e : ℚ) e = (e : ℚ) * e from Esq.1]
    set q : ℚ := (e : ℚ) * e / c with hq
    have hodd : k % 2 = 1 := by
      by_contra hk2
      obtain ⟨m, rfl⟩ : ∃ m, k = 2 * m := ⟨k / 2, by omega⟩
      exact h ⟨m, by push_cast at hk; linarith⟩
    have hq0 : 0 ≤ q := by
      have : (0 : ℚ) ≤ e := by exact_mod_cast e0
      positivity
    have hqb : q ≤ 10 ^ 14 := by
      have h1 : q ≤ (e : ℚ) * e := div_le_self (by positivity) c1q
      have h2 : e * e ≤ 10 ^ 14 := by nlinarith
      have h3 : (e : ℚ) * e ≤ 10 ^ 14 := by exact_mod_cast h2
      linarith
    have hcb : (c : ℚ) ≤ 10 ^ 7 := by exact_mod_cast bc
    have r1 := hfl.close q
    rw [abs_of_nonneg hq0] at r1
    obtain ⟨r1a, r1b⟩ := abs_le.1 r1
    have hx : |-(c : ℚ) + fl q| ≤ 2 * 10 ^ 14 := by
      rw [abs_le]
      constructor <;> norm_num at * <;> linarith
    have r2 := hfl.close (-(c : ℚ) + fl q)
    obtain ⟨r2a, r2b⟩ := abs_le.1 (r2.trans (div_le_div_of_nonneg_right hx (by positivity)))
    constructor
    · intro hr
      exfalso
      obtain ⟨m, hm⟩ := hfloor _ hr
      unfold fadd fdiv at hm
      rw [← hq] at hm
      rw [hm] at r2a r2b
      have hk' : q = (k : ℚ) / 2 := by linarith
      have a1 : ((2 * m + 2 * c - k : ℤ) : ℚ) < 1 := by
        push_cast; norm_num at *; linarith
      have a2 : (-1 : ℚ) < ((2 * m + 2 * c - k : ℤ) : ℚ) := by
        push_cast; norm_num at *; linarith
      have a1' : 2 * m + 2 * c - k < 1 := by exact_mod_cast a1
      have a2' : -1 < 2 * m + 2 * c - k := by exact_mod_cast a2
      omega
    · intro hr
      exfalso
      obtain ⟨m, hm⟩ := hfloor _ hr
      simp only [fadd, fdiv, fmul, id, ← hq] at hm
      exact h ⟨m + c, by push_cast; linarith⟩

/-- The quotient tests of the cubic generators. -/
theorem fdiv_eq_iff {fl : ℚ → ℚ} (hfl : Binary64 fl) {a f : ℤ} (ha : 0 < a) (hf : 0 < f)
    (ba : a ≤ 10 ^ 7) (bf : f ≤ 10 ^ 7) (m : ℤ) (hm : |m| ≤ 4) :
    fdiv fl (f : ℚ) a = m ↔ fdiv id (f : ℚ) a = m := by
  unfold fdiv
  simp only [id]
  have haq : (0 : ℚ) < a := by exact_mod_cast ha
  have hfq : (0 : ℚ) < f := by exact_mod_cast hf
  have baq : (a : ℚ) ≤ 10 ^ 7 := by exact_mod_cast ba
  have bfq : (f : ℚ) ≤ 10 ^ 7 := by exact_mod_cast bf
  constructor
  · intro h
    by_contra hne
    have r := hfl.close ((f : ℚ) / a)
    rw [h, abs_of_pos (div_pos hfq haq)] at r
    have hz : m * a - f ≠ 0 := by
      intro hz
      apply hne
      rw [div_eq_iff haq.ne']
      have : m * a = f := by omega
      exact_mod_cast this.symm
    have h1 : (1 : ℚ) ≤ |(m : ℚ) * a - f| := by exact_mod_cast Int.one_le_abs hz
    have h2 : |(m : ℚ) * a - f| = |(m : ℚ) - f / a| * a := by
      rw [← abs_of_pos haq, ← abs_mul, abs_of_pos haq]
      congr 1
      field_simp
    have h3 : |(m : ℚ) - f / a| * a ≤ f / 2 ^ 53 := by
      calc |(m : ℚ) - f / a| * a ≤ ((f : ℚ) / a / 2 ^ 53) * a :=
            mul_le_mul_of_nonneg_right r haq.le
        _ = f / 2 ^ 53 := by field_simp
    norm_num at *
    linarith
  · intro h
    rw [h]
    exact hfl.exact m (by omega)

theorem sc_3_fl {fl : ℚ → ℚ} (hfl : Binary64 fl) {n : ℤ} (hn : n ≤ 10 ^ 7) :
    sc_3 fl n = sc_3 id n := by
  unfold sc_3
  have key : ∀ l : List (ℤ × ℤ × ℤ), (∀ x ∈ l, x ∈ getHNFDiagonals n) →
      sc3Loop fl l = sc3Loop id l := by
    intro l
    induction l with
    | nil => intro _; rfl
    | cons x l ih =>
      intro h
      obtain ⟨a, c, f⟩ := x
      obtain ⟨⟨ha, hc, hf⟩, -, ⟨ba, bc, bf⟩, -⟩ := diag_bounds hn (h (a, c, f) (by simp))
      have h2 := fdiv_eq_iff hfl ha hf ba bf 2 (by norm_num)
      push_cast at h2
      unfold sc3Loop
      rw [ih fun x hx => h x (by simp [hx])]
      simp only [h2]
  exact key _ fun _ h => h

theorem bcc_5_fl {fl : ℚ → ℚ} (hfl : Binary64 fl) {n : ℤ} (hn : n ≤ 10 ^ 7) :
    bcc_5 fl n = bcc_5 id n := by
  unfold bcc_5
  refine fm_congr fun x hx => ?_
  obtain ⟨a, c, f⟩ := x
  obtain ⟨⟨ha, hc, hf⟩, -, ⟨ba, bc, bf⟩, -⟩ := diag_bounds hn hx
  have h2 := fdiv_eq_iff hfl ha hf ba bf 2 (by norm_num)
  have h4 := fdiv_eq_iff hfl ha hf ba bf 4 (by norm_num)
  push_cast at h2 h4
  simp only [h2, h4]

theorem fcc_1_fl {fl : ℚ → ℚ} (hfl : Binary64 fl) {n : ℤ} (hn : n ≤ 10 ^ 7) :
    fcc_1 fl n = fcc_1 id n := by
  unfold fcc_1
  refine fm_congr fun x hx => ?_
  obtain ⟨a, c, f⟩ := x
  obtain ⟨⟨ha, hc, hf⟩, -, ⟨ba, bc, bf⟩, -⟩ := diag_bounds hn hx
  have h2 := fdiv_eq_iff hfl ha hf ba bf 2 (by norm_num)
  have h4 := fdiv_eq_iff hfl ha hf ba bf 4 (by norm_num)
  push_cast at h2 h4
  simp only [h2, h4]

/-- In `base_ortho_36` the test on `b32` makes `b*e/a` an integer. -/
theorem base_ortho_36_be {a b c e f : ℤ} (hc : 0 < c) (hf : 0 < f) (ha' : (a : ℚ) ≠ 0)
    (b0 : 0 ≤ b) (b1 : b < c) (t1 : IsInt (2 * b / c : ℚ)) (t2 : IsInt (-b * f / a / c : ℚ))
    (t3 : IsInt (2 * e / f : ℚ)) : IsInt (b * e / a : ℚ) := by
  have hf' : (f : ℚ) ≠ 0 := by exact_mod_cast hf.ne'
  have hc' : (c : ℚ) ≠ 0 := by exact_mod_cast hc.ne'
  obtain ⟨s, hs⟩ := (IsInt.div_iff hc).1 t1
  have hs' : 2 * b = c * s := by exact_mod_cast hs
  have hs0 : 0 ≤ s := by nlinarith
  have hs1 : s < 2 := by nlinarith
  have : s = 0 ∨ s = 1 := by omega
  rcases this with rfl | rfl
  · have : b = 0 := by omega
    exact ⟨0, by rw [this]; simp⟩
  · have hcb : (c : ℚ) = 2 * b := by push_cast at hs; linarith
    have hb' : (b : ℚ) ≠ 0 := by
      intro h; rw [h] at hcb; simp at hcb; exact hc.ne' (by exact_mod_cast hcb)
    refine ((t2.mul t3).mul (.int (-b))).of_eq ?_
    rw [hcb]
    push_cast
    field_simp

end AutoGR
