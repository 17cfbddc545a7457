import Verif.Lemmas.IsInt

/-! # The three cubic generators and the triclinic one -/

namespace AutoGR

open Spec

/-- Two integers `0 ≤ t < m` with `m ∣ 1 - t²` and `m ∣ 2t`. -/
theorem two_or_one {t m x y : ℤ} (h0 : 0 ≤ t) (h1 : t < m) (hx : 1 - t * t = m * x)
    (hy : 2 * t = m * y) : (t = 0 ∧ m = 1) ∨ (t = 1 ∧ m = 2) := by
  have hy0 : 0 ≤ y := by by_contra h; nlinarith
  have hy2 : y < 2 := by by_contra h; nlinarith
  have : y = 0 ∨ y = 1 := by omega
  rcases this with rfl | rfl
  · left
    have ht : t = 0 := by omega
    subst ht
    have : m ∣ 1 := ⟨x, by linarith⟩
    exact ⟨rfl, Int.eq_one_of_dvd_one (by omega) this⟩
  · right
    have : t ∣ 1 := ⟨2 * x + t, by
      have : m = 2 * t := by omega
      subst this
      linarith⟩
    have : t = 1 := Int.eq_one_of_dvd_one h0 this
    omega

/-- HNFs kept by all permutations of the basis vectors, with `a ∣ d`. -/
theorem perm_forms {a b c d e f : ℤ} (ha : 0 < a) (hc : 0 < c) (hf : 0 < f)
    (hb : 0 ≤ b ∧ b < c) (hd : 0 ≤ d ∧ d < f) (he : 0 ≤ e ∧ e < f) (hδ : ∃ δ, d = a * δ)
    (k1 : Keeps !![0, 1, 0; 1, 0, 0; 0, 0, 1] (hnf a b c d e f))
    (k2 : Keeps !![1, 0, 0; 0, 0, 1; 0, 1, 0] (hnf a b c d e f)) :
    ∃ t m δ η ψ x y z g1 g2 g3 : ℤ, b = a * t ∧ c = a * m ∧ d = a * δ ∧ e = a * (m * η) ∧
      f = a * (m * ψ) ∧ 0 < m ∧ 0 < ψ ∧ (0 ≤ t ∧ t < m) ∧ (0 ≤ δ ∧ δ < m * ψ) ∧ (0 ≤ η ∧ η < ψ) ∧
      1 - t * t = m * x ∧ δ = t * δ + m * η * x + m * ψ * g1 ∧ η = δ - t * η + ψ * g2 ∧
      δ = t + m * y ∧ t = δ + m * η * y + m * ψ * g3 ∧ 1 = η * η + ψ * z := by
  obtain ⟨δ, rfl⟩ := hδ
  obtain ⟨t, x, g1, m, β2, g2, -, -, -, ⟨h1, h2, h3⟩, ⟨h4, h5, h6⟩, -⟩ := keeps_hnf_iff.1 k1
  obtain ⟨α1, y, g3, α2, η, z, α3, ψ, z2, ⟨i1, i2, i3⟩, ⟨i4, i5, i6⟩, ⟨i7, i8, i9⟩⟩ :=
    keeps_hnf_iff.1 k2
  have hb' : b = a * t := by linarith
  have hc' : c = a * m := by linarith
  subst hb' hc'
  have ha0 := ha.ne'
  have e1 : α1 = 1 := mul_left_cancel₀ ha0 (by linarith)
  have e2 : α2 = 0 := mul_left_cancel₀ ha0 (by linarith)
  have e3 : α3 = 0 := mul_left_cancel₀ ha0 (by linarith)
  subst e1 e2 e3
  have he' : e = a * (m * η) := by linarith
  have hf' : f = a * (m * ψ) := by linarith
  subst he' hf'
  have hm : 0 < m := by by_contra h; nlinarith
  have hm0 := hm.ne'
  have hψ : 0 < ψ := by
    by_contra h
    have : 0 < m * ψ := by by_contra h'; nlinarith
    nlinarith
  have hβ : β2 = -t := by
    apply mul_left_cancel₀ hm0
    apply mul_left_cancel₀ ha0
    linarith
  subst hβ
  refine ⟨t, m, δ, η, ψ, x, y, z, g1, g2, g3, rfl, rfl, rfl, rfl, rfl, hm, hψ, ⟨?_, ?_⟩, ⟨?_, ?_⟩,
    ⟨?_, ?_⟩, ?_, ?_, ?_, ?_, ?_, ?_⟩
  · by_contra h; nlinarith [hb.1]
  · exact lt_of_mul_lt_mul_left hb.2 ha.le
  · by_contra h; nlinarith [hd.1]
  · exact lt_of_mul_lt_mul_left hd.2 ha.le
  · by_contra h
    have : m * η < 0 := mul_neg_of_pos_of_neg hm (by omega)
    nlinarith [he.1]
  · exact lt_of_mul_lt_mul_left (lt_of_mul_lt_mul_left he.2 ha.le) hm.le
  · apply mul_left_cancel₀ ha0; linarith
  · apply mul_left_cancel₀ ha0; linarith
  · apply mul_left_cancel₀ hm0; apply mul_left_cancel₀ ha0; linarith
  · apply mul_left_cancel₀ ha0; linarith
  · apply mul_left_cancel₀ ha0; linarith
  · apply mul_left_cancel₀ hm0; apply mul_left_cancel₀ ha0; linarith

/-- HNFs kept by the cube group, in the basis of the cube edges. -/
theorem sc_forms {a b c d e f : ℤ} (ha : 0 < a) (hc : 0 < c) (hf : 0 < f)
    (hb : 0 ≤ b ∧ b < c) (hd : 0 ≤ d ∧ d < f) (he : 0 ≤ e ∧ e < f) :
    (Keeps !![0, 1, 0; 1, 0, 0; 0, 0, 1] (hnf a b c d e f) ∧
      Keeps !![1, 0, 0; 0, 0, 1; 0, 1, 0] (hnf a b c d e f) ∧
      Keeps !![1, 0, 0; 0, -1, 0; 0, 0, 1] (hnf a b c d e f)) ↔
    (b = 0 ∧ c = a ∧ d = 0 ∧ e = 0 ∧ f = a) ∨
    (b = 0 ∧ c = a ∧ d = a ∧ e = a ∧ f = 2 * a) ∨
    (b = a ∧ c = 2 * a ∧ d = a ∧ e = 0 ∧ f = 2 * a) := by
  constructor
  · rintro ⟨k1, k2, k3⟩
    have hδ : ∃ δ, d = a * δ := by
      obtain ⟨t, x, g1, m, β2, g2, -, -, -, ⟨h1, h2, h3⟩, ⟨h4, h5, h6⟩, -⟩ := keeps_hnf_iff.1 k1
      obtain ⟨α1, y, g3, -, η, z, -, ψ, -, ⟨i1, i2, i3⟩, -⟩ := keeps_hnf_iff.1 k2
      have e1 : α1 = 1 := mul_left_cancel₀ ha.ne' (by linarith)
      subst e1
      have hc' : c = a * m := by linarith
      have hb' : b = a * t := by linarith
      exact ⟨t + m * y, by subst hc' hb'; linarith⟩
    obtain ⟨t, m, δ, η, ψ, x, y, z, g1, g2, g3, rfl, rfl, rfl, rfl, rfl, hm, hψ, ht, hδ, hη, h1, h2,
      h3, h4, h5, h6⟩ := perm_forms ha hc hf hb hd he hδ k1 k2
    obtain ⟨α1, u, g4, α2, β2, g5, -, -, -, ⟨i1, i2, i3⟩, ⟨i4, i5, i6⟩, -⟩ := keeps_hnf_iff.1 k3
    have ha0 := ha.ne'
    have hm0 := hm.ne'
    have e1 : α1 = 1 := mul_left_cancel₀ ha0 (by linarith)
    have e2 : α2 = 0 := mul_left_cancel₀ ha0 (by linarith)
    subst e1 e2
    have e3 : β2 = -1 := by
      apply mul_left_cancel₀ hm0; apply mul_left_cancel₀ ha0; linarith
    subst e3
    have j1 : 2 * t = m * (-u) := mul_left_cancel₀ ha0 (by linarith)
    have j2 : 2 * η = ψ * g5 := by
      apply mul_left_cancel₀ hm0; apply mul_left_cancel₀ ha0; linarith
    have j3 : 0 = η * u + ψ * g4 := by
      apply mul_left_cancel₀ hm0; apply mul_left_cancel₀ ha0; linarith
    have j4 : 1 - η * η = ψ * z := by linarith
    rcases two_or_one ht.1 ht.2 h1 j1 with ⟨rfl, rfl⟩ | ⟨rfl, rfl⟩ <;>
      rcases two_or_one hη.1 hη.2 j4 j2 with ⟨rfl, rfl⟩ | ⟨rfl, rfl⟩
    · left
      have : δ = 0 := by omega
      subst this
      exact ⟨by ring, by ring, by ring, by ring, by ring⟩
    · right; left
      have : δ = 1 := by omega
      subst this
      exact ⟨by ring, by ring, by ring, by ring, by ring⟩
    · right; right
      have : δ = 1 := by omega
      subst this
      exact ⟨by ring, by ring, by ring, by ring, by ring⟩
    · omega
  · rintro (⟨rfl, rfl, rfl, rfl, rfl⟩ | ⟨rfl, rfl, rfl, rfl, rfl⟩ | ⟨rfl, rfl, rfl, rfl, rfl⟩)
    · exact ⟨keeps_hnf_iff.2 ⟨0, 1, 0, 1, 0, 0, 0, 0, 1, by refine ⟨⟨?_, ?_, ?_⟩, ⟨?_, ?_, ?_⟩, ?_, ?_, ?_⟩ <;> ring⟩,
        keeps_hnf_iff.2 ⟨1, 0, 0, 0, 0, 1, 0, 1, 0, by refine ⟨⟨?_, ?_, ?_⟩, ⟨?_, ?_, ?_⟩, ?_, ?_, ?_⟩ <;> ring⟩,
        keeps_hnf_iff.2 ⟨1, 0, 0, 0, -1, 0, 0, 0, 1, by refine ⟨⟨?_, ?_, ?_⟩, ⟨?_, ?_, ?_⟩, ?_, ?_, ?_⟩ <;> ring⟩⟩
    · exact ⟨keeps_hnf_iff.2 ⟨0, 1, 0, 1, 0, 0, 0, 0, 1, by refine ⟨⟨?_, ?_, ?_⟩, ⟨?_, ?_, ?_⟩, ?_, ?_, ?_⟩ <;> ring⟩,
        keeps_hnf_iff.2 ⟨1, 1, -1, 0, 1, 0, 0, 2, -1, by refine ⟨⟨?_, ?_, ?_⟩, ⟨?_, ?_, ?_⟩, ?_, ?_, ?_⟩ <;> ring⟩,
        keeps_hnf_iff.2 ⟨1, 0, 0, 0, -1, 1, 0, 0, 1, by refine ⟨⟨?_, ?_, ?_⟩, ⟨?_, ?_, ?_⟩, ?_, ?_, ?_⟩ <;> ring⟩⟩
    · exact ⟨keeps_hnf_iff.2 ⟨1, 0, 0, 2, -1, -1, 0, 0, 1, by refine ⟨⟨?_, ?_, ?_⟩, ⟨?_, ?_, ?_⟩, ?_, ?_, ?_⟩ <;> ring⟩,
        keeps_hnf_iff.2 ⟨1, 0, 0, 0, 0, 1, 0, 1, 0, by refine ⟨⟨?_, ?_, ?_⟩, ⟨?_, ?_, ?_⟩, ?_, ?_, ?_⟩ <;> ring⟩,
        keeps_hnf_iff.2 ⟨1, -1, 0, 0, -1, 0, 0, 0, 1, by refine ⟨⟨?_, ?_, ?_⟩, ⟨?_, ?_, ?_⟩, ?_, ?_, ?_⟩ <;> ring⟩⟩

/-- HNFs kept by the cube group, in the body-centred basis. -/
theorem bcc_forms {a b c d e f : ℤ} (ha : 0 < a) (hc : 0 < c) (hf : 0 < f)
    (hb : 0 ≤ b ∧ b < c) (hd : 0 ≤ d ∧ d < f) (he : 0 ≤ e ∧ e < f) :
    (Keeps !![0, 1, 0; 1, 0, 0; 0, 0, 1] (hnf a b c d e f) ∧
      Keeps !![1, 0, 0; 0, 0, 1; 0, 1, 0] (hnf a b c d e f) ∧
      Keeps !![0, 0, 1; 0, -1, 1; -1, 0, 1] (hnf a b c d e f)) ↔
    (b = 0 ∧ c = a ∧ d = 0 ∧ e = 0 ∧ f = a) ∨
    (b = 0 ∧ c = a ∧ d = a ∧ e = a ∧ f = 2 * a) ∨
    (b = 0 ∧ c = a ∧ d = 3 * a ∧ e = 3 * a ∧ f = 4 * a) := by
  constructor
  · rintro ⟨k1, k2, k3⟩
    obtain ⟨α1, u, g4, α2, β2, g5, α3, β3, g6, ⟨i1, i2, i3⟩, ⟨i4, i5, i6⟩, ⟨i7, i8, i9⟩⟩ :=
      keeps_hnf_iff.1 k3
    obtain ⟨t, m, δ, η, ψ, x, y, z, g1, g2, g3, rfl, rfl, rfl, rfl, rfl, hm, hψ, ht, hδ, hη, h1, h2,
      h3, h4, h5, h6⟩ := perm_forms ha hc hf hb hd he ⟨α1, by linarith⟩ k1 k2
    have ha0 := ha.ne'
    have hm0 := hm.ne'
    have e1 : α1 = δ := mul_left_cancel₀ ha0 (by linarith)
    subst e1
    have j1 : α1 - t = t * α1 + m * u := mul_left_cancel₀ ha0 (by linarith)
    have hm1 : m = 1 := by
      refine Int.eq_one_of_dvd_one hm.le ⟨x + y - t * y - u, ?_⟩
      rw [h4] at j1
      linear_combination h1 - j1
    subst hm1
    have ht0 : t = 0 := by omega
    subst ht0
    have j2 : α1 - 1 = α1 * α1 + η * u + ψ * g4 := mul_left_cancel₀ ha0 (by linarith)
    have hu : u = α1 := by linarith
    subst hu
    have hη2 : ψ ∣ η - u := ⟨g2, by linarith⟩
    have : η = u := by
      have h := Int.eq_zero_of_abs_lt_dvd hη2 (by rw [abs_lt]; constructor <;> linarith [hδ.1, hδ.2, hη.1, hη.2])
      linarith
    subst this
    have hy : y = η := by linarith
    subst hy
    have hψ1 : ψ ∣ y + 1 := ⟨-g3 + z, by linear_combination h6 - h5⟩
    have hψ2 : y = ψ - 1 := by
      have := Int.le_of_dvd (by linarith [hη.1]) hψ1
      omega
    subst hψ2
    have hψ4 : ψ ∣ 4 := ⟨5 - 2 * ψ - g4, by linear_combination -j2⟩
    have hle := Int.le_of_dvd (by norm_num) hψ4
    interval_cases ψ
    · left; exact ⟨by ring, by ring, by ring, by ring, by ring⟩
    · right; left; exact ⟨by ring, by ring, by ring, by ring, by ring⟩
    · omega
    · right; right; exact ⟨by ring, by ring, by ring, by ring, by ring⟩
  · rintro (⟨rfl, rfl, rfl, rfl, rfl⟩ | ⟨rfl, rfl, rfl, rfl, rfl⟩ | ⟨rfl, rfl, rfl, rfl, rfl⟩)
    · exact ⟨keeps_hnf_iff.2 ⟨0, 1, 0, 1, 0, 0, 0, 0, 1, by refine ⟨⟨?_, ?_, ?_⟩, ⟨?_, ?_, ?_⟩, ?_, ?_, ?_⟩ <;> ring⟩,
        keeps_hnf_iff.2 ⟨1, 0, 0, 0, 0, 1, 0, 1, 0, by refine ⟨⟨?_, ?_, ?_⟩, ⟨?_, ?_, ?_⟩, ?_, ?_, ?_⟩ <;> ring⟩,
        keeps_hnf_iff.2 ⟨0, 0, -1, 0, -1, 0, 1, 1, 1, by refine ⟨⟨?_, ?_, ?_⟩, ⟨?_, ?_, ?_⟩, ?_, ?_, ?_⟩ <;> ring⟩⟩
    · exact ⟨keeps_hnf_iff.2 ⟨0, 1, 0, 1, 0, 0, 0, 0, 1, by refine ⟨⟨?_, ?_, ?_⟩, ⟨?_, ?_, ?_⟩, ?_, ?_, ?_⟩ <;> ring⟩,
        keeps_hnf_iff.2 ⟨1, 1, -1, 0, 1, 0, 0, 2, -1, by refine ⟨⟨?_, ?_, ?_⟩, ⟨?_, ?_, ?_⟩, ?_, ?_, ?_⟩ <;> ring⟩,
        keeps_hnf_iff.2 ⟨1, 1, -1, 1, 0, 0, 2, 2, -1, by refine ⟨⟨?_, ?_, ?_⟩, ⟨?_, ?_, ?_⟩, ?_, ?_, ?_⟩ <;> ring⟩⟩
    · exact ⟨keeps_hnf_iff.2 ⟨0, 1, 0, 1, 0, 0, 0, 0, 1, by refine ⟨⟨?_, ?_, ?_⟩, ⟨?_, ?_, ?_⟩, ?_, ?_, ?_⟩ <;> ring⟩,
        keeps_hnf_iff.2 ⟨1, 3, -3, 0, 3, -2, 0, 4, -3, by refine ⟨⟨?_, ?_, ?_⟩, ⟨?_, ?_, ?_⟩, ?_, ?_, ?_⟩ <;> ring⟩,
        keeps_hnf_iff.2 ⟨3, 3, -4, 3, 2, -3, 4, 4, -5, by refine ⟨⟨?_, ?_, ?_⟩, ⟨?_, ?_, ?_⟩, ?_, ?_, ?_⟩ <;> ring⟩⟩

/-- HNFs kept by the cube group, in the face-centred basis. -/
theorem fcc_forms {a b c d e f : ℤ} (ha : 0 < a) (hc : 0 < c) (hf : 0 < f)
    (hb : 0 ≤ b ∧ b < c) (hd : 0 ≤ d ∧ d < f) (he : 0 ≤ e ∧ e < f) :
    (Keeps !![0, 1, 0; 1, 0, 0; 0, 0, 1] (hnf a b c d e f) ∧
      Keeps !![1, 0, 0; 0, 0, 1; 0, 1, 0] (hnf a b c d e f) ∧
      Keeps !![1, 1, 1; -1, 0, 0; 0, -1, 0] (hnf a b c d e f)) ↔
    (b = 0 ∧ c = a ∧ d = 0 ∧ e = 0 ∧ f = a) ∨
    (b = a ∧ c = 2 * a ∧ d = a ∧ e = 0 ∧ f = 2 * a) ∨
    (b = a ∧ c = 4 * a ∧ d = a ∧ e = 0 ∧ f = 4 * a) := by
  constructor
  · rintro ⟨k1, k2, k3⟩
    have hδ : ∃ δ, d = a * δ := by
      obtain ⟨t, x, g1, m, β2, g2, -, -, -, ⟨h1, h2, h3⟩, -⟩ := keeps_hnf_iff.1 k1
      obtain ⟨α1, u, g4, α2, β2, g5, α3, β3, g6, ⟨i1, i2, i3⟩, -⟩ := keeps_hnf_iff.1 k3
      exact ⟨α1 - 1 - t, by linarith⟩
    obtain ⟨t, m, δ, η, ψ, x, y, z, g1, g2, g3, rfl, rfl, rfl, rfl, rfl, hm, hψ, ht, hδ, hη, h1, h2,
      h3, h4, h5, h6⟩ := perm_forms ha hc hf hb hd he hδ k1 k2
    obtain ⟨α1, u, g4, α2, β2, g5, -, -, -, ⟨i1, i2, i3⟩, ⟨i4, i5, i6⟩, -⟩ := keeps_hnf_iff.1 k3
    have ha0 := ha.ne'
    have hm0 := hm.ne'
    have e1 : α1 = 1 + t + δ := mul_left_cancel₀ ha0 (by linarith)
    have e2 : α2 = m + m * η := mul_left_cancel₀ ha0 (by linarith)
    subst e1 e2
    have e3 : β2 = -(t * (1 + η)) := by
      apply mul_left_cancel₀ hm0; apply mul_left_cancel₀ ha0; linarith
    subst e3
    have j1 : -1 = t * (1 + t + δ) + m * u := mul_left_cancel₀ ha0 (by linarith)
    have j2 : -t = δ * (1 + t + δ) + m * η * u + m * ψ * g4 :=
      mul_left_cancel₀ ha0 (by linarith)
    have j3 : -1 = δ * (1 + η) - η * t * (1 + η) + ψ * g5 := by
      apply mul_left_cancel₀ hm0; apply mul_left_cancel₀ ha0; linarith
    obtain ⟨w, hw⟩ : ∃ w, η + 2 = ψ * w :=
      ⟨(1 + η) * g2 - g5 + z, by linear_combination (1 + η) * h3 - j3 + h6⟩
    have hψ3 : ψ ∣ 3 :=
      ⟨4 * w - z - ψ * w * w, by linear_combination -h6 - (η + ψ * w - 2) * hw⟩
    have hle := Int.le_of_dvd (by norm_num) hψ3
    have hψ13 : ψ = 1 ∨ ψ = 3 := by
      interval_cases ψ <;> omega
    rcases hψ13 with rfl | rfl
    · have hη0 : η = 0 := by omega
      subst hη0
      have hδt : δ = t := by
        have h : m ∣ δ - t := ⟨y, by linarith⟩
        have h := Int.eq_zero_of_abs_lt_dvd h (by
          rw [abs_lt]; constructor <;> linarith [hδ.1, hδ.2, ht.1, ht.2])
        linarith
      subst hδt
      obtain ⟨s, hs⟩ : ∃ s, δ + 3 = m * s := ⟨2 * x - u, by linear_combination -j1 + 2 * h1⟩
      have hm8 : m ∣ 8 :=
        ⟨6 * s - m * s * s - x, by linear_combination -h1 - (δ + m * s - 3) * hs⟩
      have hle := Int.le_of_dvd (by norm_num) hm8
      obtain ⟨ht0, ht1⟩ := ht
      interval_cases m <;> interval_cases δ <;> omega
    · exfalso
      have hη1 : η = 1 := by omega
      subst hη1
      have hδ' : δ = 1 + t - 3 * g2 := by linarith
      subst hδ'
      have : (3 : ℤ) ∣ 1 := ⟨-t + g2 + 2 * g2 * (1 + t) - 3 * g2 * g2 - m * g4, by
        linear_combination -j2 + j1⟩
      omega
  · rintro (⟨rfl, rfl, rfl, rfl, rfl⟩ | ⟨rfl, rfl, rfl, rfl, rfl⟩ | ⟨rfl, rfl, rfl, rfl, rfl⟩)
    · exact ⟨keeps_hnf_iff.2 ⟨0, 1, 0, 1, 0, 0, 0, 0, 1, by refine ⟨⟨?_, ?_, ?_⟩, ⟨?_, ?_, ?_⟩, ?_, ?_, ?_⟩ <;> ring⟩,
        keeps_hnf_iff.2 ⟨1, 0, 0, 0, 0, 1, 0, 1, 0, by refine ⟨⟨?_, ?_, ?_⟩, ⟨?_, ?_, ?_⟩, ?_, ?_, ?_⟩ <;> ring⟩,
        keeps_hnf_iff.2 ⟨1, -1, 0, 1, 0, -1, 1, 0, 0, by refine ⟨⟨?_, ?_, ?_⟩, ⟨?_, ?_, ?_⟩, ?_, ?_, ?_⟩ <;> ring⟩⟩
    · exact ⟨keeps_hnf_iff.2 ⟨1, 0, 0, 2, -1, -1, 0, 0, 1, by refine ⟨⟨?_, ?_, ?_⟩, ⟨?_, ?_, ?_⟩, ?_, ?_, ?_⟩ <;> ring⟩,
        keeps_hnf_iff.2 ⟨1, 0, 0, 0, 0, 1, 0, 1, 0, by refine ⟨⟨?_, ?_, ?_⟩, ⟨?_, ?_, ?_⟩, ?_, ?_, ?_⟩ <;> ring⟩,
        keeps_hnf_iff.2 ⟨3, -2, -2, 2, -1, -2, 2, -1, -1, by refine ⟨⟨?_, ?_, ?_⟩, ⟨?_, ?_, ?_⟩, ?_, ?_, ?_⟩ <;> ring⟩⟩
    · exact ⟨keeps_hnf_iff.2 ⟨1, 0, 0, 4, -1, -1, 0, 0, 1, by refine ⟨⟨?_, ?_, ?_⟩, ⟨?_, ?_, ?_⟩, ?_, ?_, ?_⟩ <;> ring⟩,
        keeps_hnf_iff.2 ⟨1, 0, 0, 0, 0, 1, 0, 1, 0, by refine ⟨⟨?_, ?_, ?_⟩, ⟨?_, ?_, ?_⟩, ?_, ?_, ?_⟩ <;> ring⟩,
        keeps_hnf_iff.2 ⟨3, -1, -1, 4, -1, -2, 4, -1, -1, by refine ⟨⟨?_, ?_, ?_⟩, ⟨?_, ?_, ?_⟩, ?_, ?_, ?_⟩ <;> ring⟩⟩

theorem bcc_5_mem {n : ℤ} {H : IntMat} : H ∈ bcc_5 id n ↔
    (IsHNF H ∧ H.det = n) ∧ Keeps !![0, 1, 0; 1, 0, 0; 0, 0, 1] H ∧
      Keeps !![1, 0, 0; 0, 0, 1; 0, 1, 0] H ∧ Keeps !![0, 0, 1; 0, -1, 1; -1, 0, 1] H := by
  unfold bcc_5
  refine gen_mem (Q := fun H => Keeps !![0, 1, 0; 1, 0, 0; 0, 0, 1] H ∧
      Keeps !![1, 0, 0; 0, 0, 1; 0, 1, 0] H ∧ Keeps !![0, 0, 1; 0, -1, 1; -1, 0, 1] H) ?_
  intro a c f ha hc hf H
  have ha' : (a : ℚ) ≠ 0 := by exact_mod_cast ha.ne'
  have e2 : fdiv id (f : ℚ) a = 2 ↔ f = 2 * a := by
    unfold fdiv id; rw [div_eq_iff ha']; exact_mod_cast Iff.rfl
  have e4 : fdiv id (f : ℚ) a = 4 ↔ f = 4 * a := by
    unfold fdiv id; rw [div_eq_iff ha']; exact_mod_cast Iff.rfl
  dsimp only
  simp only [e2, e4]
  constructor
  · intro h
    split_ifs at h with h1 h2 h3
    · rw [List.mem_singleton] at h
      exact ⟨0, 0, 0, by omega, by omega, by omega,
        (bcc_forms ha hc hf (by omega) (by omega) (by omega)).2 (by omega), h.symm⟩
    · rw [List.mem_singleton] at h
      exact ⟨0, a, a, by omega, by omega, by omega,
        (bcc_forms ha hc hf (by omega) (by omega) (by omega)).2 (by omega), h.symm⟩
    · rw [List.mem_singleton] at h
      exact ⟨0, 3 * a, 3 * a, by omega, by omega, by omega,
        (bcc_forms ha hc hf (by omega) (by omega) (by omega)).2 (by omega), h.symm⟩
    · simp at h
  · rintro ⟨b, d, e, hb, hd, he, hk, rfl⟩
    rcases (bcc_forms ha hc hf hb hd he).1 hk with ⟨rfl, rfl, rfl, rfl, rfl⟩ |
      ⟨rfl, rfl, rfl, rfl, rfl⟩ | ⟨rfl, rfl, rfl, rfl, rfl⟩
    · rw [if_pos (by omega)]; simp
    · rw [if_neg (by omega), if_pos (by omega)]; simp
    · rw [if_neg (by omega), if_neg (by omega), if_pos (by omega)]; simp

theorem fcc_1_mem {n : ℤ} {H : IntMat} : H ∈ fcc_1 id n ↔
    (IsHNF H ∧ H.det = n) ∧ Keeps !![0, 1, 0; 1, 0, 0; 0, 0, 1] H ∧
      Keeps !![1, 0, 0; 0, 0, 1; 0, 1, 0] H ∧ Keeps !![1, 1, 1; -1, 0, 0; 0, -1, 0] H := by
  unfold fcc_1
  refine gen_mem (Q := fun H => Keeps !![0, 1, 0; 1, 0, 0; 0, 0, 1] H ∧
      Keeps !![1, 0, 0; 0, 0, 1; 0, 1, 0] H ∧ Keeps !![1, 1, 1; -1, 0, 0; 0, -1, 0] H) ?_
  intro a c f ha hc hf H
  have ha' : (a : ℚ) ≠ 0 := by exact_mod_cast ha.ne'
  have e2 : fdiv id (f : ℚ) a = 2 ↔ f = 2 * a := by
    unfold fdiv id; rw [div_eq_iff ha']; exact_mod_cast Iff.rfl
  have e4 : fdiv id (f : ℚ) a = 4 ↔ f = 4 * a := by
    unfold fdiv id; rw [div_eq_iff ha']; exact_mod_cast Iff.rfl
  dsimp only
  simp only [e2, e4]
  constructor
  · intro h
    split_ifs at h with h1 h2
    · rw [List.mem_singleton] at h
      exact ⟨0, 0, 0, by omega, by omega, by omega,
        (fcc_forms ha hc hf (by omega) (by omega) (by omega)).2 (by omega), h.symm⟩
    · rw [List.mem_singleton] at h
      exact ⟨a, a, 0, by omega, by omega, by omega,
        (fcc_forms ha hc hf (by omega) (by omega) (by omega)).2 (by omega), h.symm⟩
    · simp at h
  · rintro ⟨b, d, e, hb, hd, he, hk, rfl⟩
    rcases (fcc_forms ha hc hf hb hd he).1 hk with ⟨rfl, rfl, rfl, rfl, rfl⟩ |
      ⟨rfl, rfl, rfl, rfl, rfl⟩ | ⟨rfl, rfl, rfl, rfl, rfl⟩
    · rw [if_pos (by omega)]; simp
    · rw [if_neg (by omega), if_pos (by omega)]; simp
    · rw [if_neg (by omega), if_pos (by omega)]; simp

theorem tric_31_44_mem {n : ℤ} {H : IntMat} : H ∈ tric_31_44 n ↔ IsHNF H ∧ H.det = n := by
  unfold tric_31_44
  rw [gen_mem (Q := fun _ => True)]
  · simp
  · intro a c f ha hc hf H
    simp only [List.mem_flatMap, mem_pyRange, List.mem_singleton, true_and]
    constructor
    · rintro ⟨b, hb, d, hd, e, he, rfl⟩; exact ⟨b, d, e, hb, hd, he, rfl⟩
    · rintro ⟨b, d, e, hb, hd, he, rfl⟩; exact ⟨b, hb, d, hd, e, he, rfl⟩

/-- `2^i a³ = 2^j b³` with `i, j < 3` forces `i = j` and `a = b`. -/
theorem cube_class {i j : ℕ} {a b : ℤ} (hi : i < 3) (hj : j < 3) (ha : 0 < a) (hb : 0 < b)
    (h : 2 ^ i * a ^ 3 = 2 ^ j * b ^ 3) : i = j ∧ a = b := by
  have hij : i = j := by
    have h1 := congrArg (padicValInt 2) h
    rw [padicValInt.mul (by positivity) (by positivity),
      padicValInt.mul (by positivity) (by positivity)] at h1
    have p (k : ℕ) : padicValInt 2 (2 ^ k) = k := by
      simp [padicValInt, Int.natAbs_pow]
    have q (x : ℤ) (hx : 0 < x) : padicValInt 2 (x ^ 3) = 3 * padicValInt 2 x := by
      simp [padicValInt, Int.natAbs_pow, padicValNat.pow]
    rw [p, p, q a ha, q b hb] at h1
    omega
  subst hij
  refine ⟨rfl, ?_⟩
  have h2 : a ^ 3 = b ^ 3 := mul_left_cancel₀ (by positivity) h
  exact (pow_left_inj₀ ha.le hb.le (by norm_num)).1 h2

/-- The triple picked by one iteration of the loop of `sc_3`. -/
def sc3Body (x : ℤ × ℤ × ℤ) : List Mat3 :=
  if x.1 = x.2.1 ∧ x.2.1 = x.2.2 then [hnf x.1 0 x.2.1 0 0 x.2.2]
  else if x.1 = x.2.1 ∧ x.2.2 = 2 * x.1 then [hnf x.1 0 x.2.1 x.1 x.1 x.2.2]
  else if x.2.1 = x.2.2 ∧ x.2.2 = 2 * x.1 then [hnf x.1 x.1 x.2.1 x.1 0 x.2.2]
  else []

theorem sc3Body_unique {x y : ℤ × ℤ × ℤ} {n : ℤ} (hx : x ∈ getHNFDiagonals n)
    (hy : y ∈ getHNFDiagonals n) (ex : sc3Body x ≠ []) (ey : sc3Body y ≠ []) : x = y := by
  obtain ⟨a, c, f⟩ := x
  obtain ⟨a', c', f'⟩ := y
  rw [mem_getHNFDiagonals] at hx hy
  have key (a c f : ℤ) (hx : 0 < a ∧ 0 < c ∧ 0 < f ∧ a * c * f = n) (e : sc3Body (a, c, f) ≠ []) :
      ∃ i : ℕ, i < 3 ∧ n = 2 ^ i * a ^ 3 ∧ c = 2 ^ (i / 2) * a ∧ f = 2 ^ ((i + 1) / 2) * a := by
    unfold sc3Body at e
    dsimp only at e
    split_ifs at e with h1 h2 h3
    · obtain ⟨rfl, rfl⟩ := h1
      exact ⟨0, by norm_num, by rw [← hx.2.2.2]; ring, by norm_num, by norm_num⟩
    · obtain ⟨rfl, rfl⟩ := h2
      exact ⟨1, by norm_num, by rw [← hx.2.2.2]; ring, by norm_num, by norm_num⟩
    · obtain ⟨rfl, rfl⟩ := h3
      exact ⟨2, by norm_num, by rw [← hx.2.2.2]; ring, by norm_num, by norm_num⟩
    · exact absurd rfl e
  obtain ⟨i, hi, e1, e2, e3⟩ := key a c f hx ex
  obtain ⟨j, hj, e1', e2', e3'⟩ := key a' c' f' hy ey
  obtain ⟨rfl, rfl⟩ := cube_class hi hj hx.1 hy.1 (e1.symm.trans e1')
  rw [e2, e3, e2', e3']

theorem sc3Loop_eq {n : ℤ} (l : List (ℤ × ℤ × ℤ)) (hl : ∀ x ∈ l, x ∈ getHNFDiagonals n)
    (hn : l.Nodup) : sc3Loop id l = l.flatMap sc3Body := by
  induction l with
  | nil => rfl
  | cons x l ih =>
    obtain ⟨a, c, f⟩ := x
    have hx := hl (a, c, f) (by simp)
    have ha := (mem_getHNFDiagonals.1 hx).1
    have ha' : (a : ℚ) ≠ 0 := by exact_mod_cast ha.ne'
    have e2 : fdiv id (f : ℚ) a = 2 ↔ f = 2 * a := by
      unfold fdiv id; rw [div_eq_iff ha']; exact_mod_cast Iff.rfl
    have hrest : sc3Body (a, c, f) ≠ [] → l.flatMap sc3Body = [] := by
      intro h
      rw [List.flatMap_eq_nil_iff]
      intro y hy
      by_contra h'
      have := sc3Body_unique hx (hl y (by simp [hy])) h h'
      subst this
      exact (List.nodup_cons.1 hn).1 hy
    rw [List.flatMap_cons, sc3Loop]
    by_cases h : sc3Body (a, c, f) = []
    · rw [h, List.nil_append, ← ih (fun x hx => hl x (by simp [hx])) (List.nodup_cons.1 hn).2]
      unfold sc3Body at h
      dsimp only at h
      simp only [e2]
      split_ifs at h with h1 h2 h3
      rw [if_neg h1, if_neg h2, if_neg h3]
    · rw [hrest h, List.append_nil]
      unfold sc3Body at h ⊢
      dsimp only at h ⊢
      simp only [e2]
      split_ifs at h ⊢ with h1 h2 h3
      · rfl
      · rfl
      · rfl
      · exact absurd rfl h

theorem sc_3_mem {n : ℤ} {H : IntMat} : H ∈ sc_3 id n ↔
    (IsHNF H ∧ H.det = n) ∧ Keeps !![0, 1, 0; 1, 0, 0; 0, 0, 1] H ∧
      Keeps !![1, 0, 0; 0, 0, 1; 0, 1, 0] H ∧ Keeps !![1, 0, 0; 0, -1, 0; 0, 0, 1] H := by
  unfold sc_3
  rw [sc3Loop_eq _ (fun _ h => h) (nodup_getHNFDiagonals n)]
  refine gen_mem (Q := fun H => Keeps !![0, 1, 0; 1, 0, 0; 0, 0, 1] H ∧
      Keeps !![1, 0, 0; 0, 0, 1; 0, 1, 0] H ∧ Keeps !![1, 0, 0; 0, -1, 0; 0, 0, 1] H) ?_
  intro a c f ha hc hf H
  unfold sc3Body
  dsimp only
  constructor
  · intro h
    split_ifs at h with h1 h2 h3
    · rw [List.mem_singleton] at h
      exact ⟨0, 0, 0, by omega, by omega, by omega,
        (sc_forms ha hc hf (by omega) (by omega) (by omega)).2 (by omega), h.symm⟩
    · rw [List.mem_singleton] at h
      exact ⟨0, a, a, by omega, by omega, by omega,
        (sc_forms ha hc hf (by omega) (by omega) (by omega)).2 (by omega), h.symm⟩
    · rw [List.mem_singleton] at h
      exact ⟨a, a, 0, by omega, by omega, by omega,
        (sc_forms ha hc hf (by omega) (by omega) (by omega)).2 (by omega), h.symm⟩
    · simp at h
  · rintro ⟨b, d, e, hb, hd, he, hk, rfl⟩
    rcases (sc_forms ha hc hf hb hd he).1 hk with ⟨rfl, rfl, rfl, rfl, rfl⟩ |
      ⟨rfl, rfl, rfl, rfl, rfl⟩ | ⟨rfl, rfl, rfl, rfl, rfl⟩
    · rw [if_pos (by omega)]; simp
    · rw [if_neg (by omega), if_pos (by omega)]; simp
    · rw [if_neg (by omega), if_neg (by omega), if_pos (by omega)]; simp

theorem sc_3_nodup (n : ℤ) : (sc_3 id n).Nodup := by
  unfold sc_3
  rw [sc3Loop_eq _ (fun _ h => h) (nodup_getHNFDiagonals n)]
  refine nodup_diag ?_ ?_
  · intro a c f _ _ _
    unfold sc3Body
    split_ifs <;> simp
  · intro a c f H hH
    unfold sc3Body at hH
    split_ifs at hH <;> simp at hH <;> subst hH <;> simp [hnf]

theorem bcc_5_nodup (n : ℤ) : (bcc_5 id n).Nodup := by
  unfold bcc_5
  refine nodup_diag ?_ ?_
  · intro a c f _ _ _
    dsimp only
    split_ifs <;> simp
  · intro a c f H hH
    dsimp only at hH
    split_ifs at hH <;> simp at hH <;> subst hH <;> simp [hnf]

theorem fcc_1_nodup (n : ℤ) : (fcc_1 id n).Nodup := by
  unfold fcc_1
  refine nodup_diag ?_ ?_
  · intro a c f _ _ _
    dsimp only
    split_ifs <;> simp
  · intro a c f H hH
    dsimp only at hH
    split_ifs at hH <;> simp at hH <;> subst hH <;> simp [hnf]

end AutoGR
