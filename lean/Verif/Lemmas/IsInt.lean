import Verif.Lemmas.GenBase

/-! # Integrality of rational expressions, and the symmetry condition in those terms -/

namespace AutoGR

open Spec

/-- A rational that is an integer. -/
def IsInt (q : ℚ) : Prop := ∃ k : ℤ, q = k

namespace IsInt

theorem int (k : ℤ) : IsInt (k : ℚ) := ⟨k, rfl⟩

theorem add {p q : ℚ} (hp : IsInt p) (hq : IsInt q) : IsInt (p + q) := by
  obtain ⟨k, rfl⟩ := hp
  obtain ⟨l, rfl⟩ := hq
  exact ⟨k + l, by push_cast; ring⟩

theorem mul {p q : ℚ} (hp : IsInt p) (hq : IsInt q) : IsInt (p * q) := by
  obtain ⟨k, rfl⟩ := hp
  obtain ⟨l, rfl⟩ := hq
  exact ⟨k * l, by push_cast; ring⟩

theorem smul {p : ℚ} (k : ℤ) (hp : IsInt p) : IsInt ((k : ℚ) * p) := (int k).mul hp

theorem of_eq {p q : ℚ} (hp : IsInt p) (h : q = p) : IsInt q := h ▸ hp

/-- A rational whose square is an integer is an integer. -/
theorem of_sq {q : ℚ} (h : IsInt (q * q)) : IsInt q := by
  obtain ⟨k, hk⟩ := h
  have hd : (q * q).den = 1 := by rw [hk]; exact Rat.den_intCast k
  rw [Rat.mul_self_den] at hd
  have h1 : q.den = 1 := Nat.eq_one_of_mul_eq_one_right hd
  exact ⟨q.num, (Rat.coe_int_num_of_den_eq_one h1).symm⟩

theorem div_iff {x : ℚ} {m : ℤ} (hm : 0 < m) : IsInt (x / m) ↔ ∃ k : ℤ, x = m * k := by
  have : (m : ℚ) ≠ 0 := by exact_mod_cast hm.ne'
  constructor
  · rintro ⟨k, hk⟩
    exact ⟨k, by rw [← hk]; field_simp⟩
  · rintro ⟨k, rfl⟩
    exact ⟨k, by field_simp⟩

end IsInt

theorem mem_halves_q {c b : ℤ} (hc : 0 < c) :
    b ∈ halves c ↔ IsInt (2 * b / c) ∧ 0 ≤ b ∧ b < c := by
  rw [mem_halves hc, IsInt.div_iff hc]
  refine and_congr_left fun _ => exists_congr fun t => ?_
  exact_mod_cast Iff.rfl

theorem mem_step_q {hi step x : ℤ} (hs : 0 < step) :
    x ∈ pyRangeStep hi step ↔ IsInt (x / step) ∧ 0 ≤ x ∧ x < hi := by
  rw [mem_pyRangeStep hs, IsInt.div_iff hs]
  refine and_congr_left fun _ => exists_congr fun t => ?_
  exact_mod_cast Iff.rfl

theorem pyMod_q {x : ℚ} {m : ℤ} (hm : 0 < m) : pyMod x m = 0 ↔ IsInt (x / m) := by
  rw [pyMod_int hm, IsInt.div_iff hm]

theorem emod_q {x m : ℤ} (hm : 0 < m) : x % m = 0 ↔ IsInt ((x : ℚ) / m) := by
  rw [IsInt.div_iff hm, ← Int.dvd_iff_emod_eq_zero]
  constructor
  · rintro ⟨k, rfl⟩; exact ⟨k, by push_cast; ring⟩
  · rintro ⟨k, hk⟩; exact ⟨k, by exact_mod_cast hk⟩

/-- One column of `H * Y = X * H`, solved for the entries of `Y`. -/
theorem column_iff {a b c d e f r0 r1 r2 : ℤ} (ha : 0 < a) (hc : 0 < c) (hf : 0 < f) :
    (∃ α β γ : ℤ, r0 = a * α ∧ r1 = b * α + c * β ∧ r2 = d * α + e * β + f * γ) ↔
    IsInt ((r0 : ℚ) / a) ∧ IsInt (((r1 : ℚ) - b * (r0 / a)) / c) ∧
      IsInt (((r2 : ℚ) - d * (r0 / a) - e * ((r1 - b * (r0 / a)) / c)) / f) := by
  have ha' : (a : ℚ) ≠ 0 := by exact_mod_cast ha.ne'
  have hc' : (c : ℚ) ≠ 0 := by exact_mod_cast hc.ne'
  have hf' : (f : ℚ) ≠ 0 := by exact_mod_cast hf.ne'
  constructor
  · rintro ⟨α, β, γ, rfl, rfl, rfl⟩
    have h1 : ((a * α : ℤ) : ℚ) / a = α := by push_cast; field_simp
    have h2 : (((b * α + c * β : ℤ) : ℚ) - b * α) / c = β := by push_cast; field_simp; ring
    have h3 : (((d * α + e * β + f * γ : ℤ) : ℚ) - d * α - e * β) / f = γ := by
      push_cast; field_simp; ring
    rw [h1, h2, h3]
    exact ⟨.int _, .int _, .int _⟩
  · rintro ⟨⟨α, h1⟩, ⟨β, h2⟩, ⟨γ, h3⟩⟩
    rw [h1] at h2 h3
    rw [h2] at h3
    refine ⟨α, β, γ, ?_, ?_, ?_⟩
    · have : (r0 : ℚ) = a * α := by rw [← h1]; field_simp
      exact_mod_cast this
    · have : (r1 : ℚ) = b * α + c * β := by rw [← h2]; field_simp; ring
      exact_mod_cast this
    · have : (r2 : ℚ) = d * α + e * β + f * γ := by rw [← h3]; field_simp; ring
      exact_mod_cast this

/-- `H` keeps `X` iff the nine entries of `H⁻¹ X H` are integers. -/
theorem keeps_q {x00 x01 x02 x10 x11 x12 x20 x21 x22 a b c d e f : ℤ}
    (ha : 0 < a) (hc : 0 < c) (hf : 0 < f) :
    Keeps !![x00, x01, x02; x10, x11, x12; x20, x21, x22] (hnf a b c d e f) ↔
    (IsInt (((x00 * a + x01 * b + x02 * d : ℤ) : ℚ) / a) ∧
     IsInt ((((x10 * a + x11 * b + x12 * d : ℤ) : ℚ) -
        b * (((x00 * a + x01 * b + x02 * d : ℤ) : ℚ) / a)) / c) ∧
     IsInt ((((x20 * a + x21 * b + x22 * d : ℤ) : ℚ) -
        d * (((x00 * a + x01 * b + x02 * d : ℤ) : ℚ) / a) -
        e * ((((x10 * a + x11 * b + x12 * d : ℤ) : ℚ) -
          b * (((x00 * a + x01 * b + x02 * d : ℤ) : ℚ) / a)) / c)) / f)) ∧
    (IsInt (((x01 * c + x02 * e : ℤ) : ℚ) / a) ∧
     IsInt ((((x11 * c + x12 * e : ℤ) : ℚ) - b * (((x01 * c + x02 * e : ℤ) : ℚ) / a)) / c) ∧
     IsInt ((((x21 * c + x22 * e : ℤ) : ℚ) - d * (((x01 * c + x02 * e : ℤ) : ℚ) / a) -
        e * ((((x11 * c + x12 * e : ℤ) : ℚ) - b * (((x01 * c + x02 * e : ℤ) : ℚ) / a)) / c))
          / f)) ∧
    (IsInt (((x02 * f : ℤ) : ℚ) / a) ∧
     IsInt ((((x12 * f : ℤ) : ℚ) - b * (((x02 * f : ℤ) : ℚ) / a)) / c) ∧
     IsInt ((((x22 * f : ℤ) : ℚ) - d * (((x02 * f : ℤ) : ℚ) / a) -
        e * ((((x12 * f : ℤ) : ℚ) - b * (((x02 * f : ℤ) : ℚ) / a)) / c)) / f)) := by
  rw [keeps_hnf_iff, ← column_iff ha hc hf, ← column_iff ha hc hf, ← column_iff ha hc hf]
  constructor
  · rintro ⟨α₁, β₁, γ₁, α₂, β₂, γ₂, α₃, β₃, γ₃, h1, h2, h3⟩
    exact ⟨⟨α₁, β₁, γ₁, h1⟩, ⟨α₂, β₂, γ₂, h2⟩, ⟨α₃, β₃, γ₃, h3⟩⟩
  · rintro ⟨⟨α₁, β₁, γ₁, h1⟩, ⟨α₂, β₂, γ₂, h2⟩, ⟨α₃, β₃, γ₃, h3⟩⟩
    exact ⟨α₁, β₁, γ₁, α₂, β₂, γ₂, α₃, β₃, γ₃, h1, h2, h3⟩

/-- Closes equalities between rational expressions in nonzero diagonal entries. -/
macro "q_eq" : tactic => `(tactic| first
  | (push_cast; field_simp; done)
  | (push_cast; field_simp; ring)
  | (push_cast; ring)
  | (push_cast; norm_num; done))

end AutoGR
