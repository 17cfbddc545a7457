import Verif.Lemmas.CubicMem

/-! # The cubic generators list at most one matrix -/

namespace AutoGR

open Spec

theorem exists_hnf {H : IntMat} (h : IsHNF H) : ∃ a b c d e f : ℤ, H = hnf a b c d e f ∧
    0 < a ∧ 0 < c ∧ 0 < f ∧ (0 ≤ b ∧ b < c) ∧ (0 ≤ d ∧ d < f) ∧ (0 ≤ e ∧ e < f) := by
  refine ⟨H 0 0, H 1 0, H 1 1, H 2 0, H 2 1, H 2 2, ?_, h.pos0, h.pos1, h.pos2, h.low10, h.low20,
    h.low21⟩
  ext i j
  fin_cases i <;> fin_cases j <;> simp [hnf, h.upper01, h.upper02, h.upper12]

theorem det_hnf (a b c d e f : ℤ) : (hnf a b c d e f).det = a * c * f := by
  simp [hnf, Matrix.det_fin_three]

theorem isHNF_hnf {a b c d e f : ℤ} (ha : 0 < a) (hc : 0 < c) (hf : 0 < f)
    (hb : 0 ≤ b ∧ b < c) (hd : 0 ≤ d ∧ d < f) (he : 0 ≤ e ∧ e < f) : IsHNF (hnf a b c d e f) := by
  constructor <;> simp [hnf] <;> assumption

theorem sc_3_forms {n : ℤ} {H : IntMat} : H ∈ sc_3 id n ↔ ∃ a : ℤ, 0 < a ∧
    ((n = a ^ 3 ∧ H = hnf a 0 a 0 0 a) ∨ (n = 2 * a ^ 3 ∧ H = hnf a 0 a a a (2 * a)) ∨
      (n = 4 * a ^ 3 ∧ H = hnf a a (2 * a) a 0 (2 * a))) := by
  rw [sc_3_mem]
  constructor
  · rintro ⟨⟨h, hd⟩, hk⟩
    obtain ⟨a, b, c, d, e, f, rfl, ha, hc, hf, hb, hd', he⟩ := exists_hnf h
    rw [det_hnf] at hd
    refine ⟨a, ha, ?_⟩
    rcases (sc_forms ha hc hf hb hd' he).1 hk with ⟨rfl, rfl, rfl, rfl, rfl⟩ |
      ⟨rfl, rfl, rfl, rfl, rfl⟩ | ⟨rfl, rfl, rfl, rfl, rfl⟩
    · exact .inl ⟨by rw [← hd]; ring, rfl⟩
    · exact .inr (.inl ⟨by rw [← hd]; ring, rfl⟩)
    · exact .inr (.inr ⟨by rw [← hd]; ring, rfl⟩)
  · rintro ⟨a, ha, ⟨rfl, rfl⟩ | ⟨rfl, rfl⟩ | ⟨rfl, rfl⟩⟩
    · exact ⟨⟨isHNF_hnf ha ha ha (by omega) (by omega) (by omega), by rw [det_hnf]; ring⟩,
        (sc_forms ha ha ha (by omega) (by omega) (by omega)).2 (by omega)⟩
    · exact ⟨⟨isHNF_hnf ha ha (by omega) (by omega) (by omega) (by omega), by rw [det_hnf]; ring⟩,
        (sc_forms ha ha (by omega) (by omega) (by omega) (by omega)).2 (by omega)⟩
    · exact ⟨⟨isHNF_hnf ha (by omega) (by omega) (by omega) (by omega) (by omega),
        by rw [det_hnf]; ring⟩,
        (sc_forms ha (by omega) (by omega) (by omega) (by omega) (by omega)).2 (by omega)⟩

theorem bcc_5_forms {n : ℤ} {H : IntMat} : H ∈ bcc_5 id n ↔ ∃ a : ℤ, 0 < a ∧
    ((n = a ^ 3 ∧ H = hnf a 0 a 0 0 a) ∨ (n = 2 * a ^ 3 ∧ H = hnf a 0 a a a (2 * a)) ∨
      (n = 4 * a ^ 3 ∧ H = hnf a 0 a (3 * a) (3 * a) (4 * a))) := by
  rw [bcc_5_mem]
  constructor
  · rintro ⟨⟨h, hd⟩, hk⟩
    obtain ⟨a, b, c, d, e, f, rfl, ha, hc, hf, hb, hd', he⟩ := exists_hnf h
    rw [det_hnf] at hd
    refine ⟨a, ha, ?_⟩
    rcases (bcc_forms ha hc hf hb hd' he).1 hk with ⟨rfl, rfl, rfl, rfl, rfl⟩ |
      ⟨rfl, rfl, rfl, rfl, rfl⟩ | ⟨rfl, rfl, rfl, rfl, rfl⟩
    · exact .inl ⟨by rw [← hd]; ring, rfl⟩
    · exact .inr (.inl ⟨by rw [← hd]; ring, rfl⟩)
    · exact .inr (.inr ⟨by rw [← hd]; ring, rfl⟩)
  · rintro ⟨a, ha, ⟨rfl, rfl⟩ | ⟨rfl, rfl⟩ | ⟨rfl, rfl⟩⟩
    · exact ⟨⟨isHNF_hnf ha ha ha (by omega) (by omega) (by omega), by rw [det_hnf]; ring⟩,
        (bcc_forms ha ha ha (by omega) (by omega) (by omega)).2 (by omega)⟩
    · exact ⟨⟨isHNF_hnf ha ha (by omega) (by omega) (by omega) (by omega), by rw [det_hnf]; ring⟩,
        (bcc_forms ha ha (by omega) (by omega) (by omega) (by omega)).2 (by omega)⟩
    · exact ⟨⟨isHNF_hnf ha ha (by omega) (by omega) (by omega) (by omega),
        by rw [det_hnf]; ring⟩,
        (bcc_forms ha ha (by omega) (by omega) (by omega) (by omega)).2 (by omega)⟩

theorem fcc_1_forms {n : ℤ} {H : IntMat} : H ∈ fcc_1 id n ↔ ∃ a : ℤ, 0 < a ∧
    ((n = a ^ 3 ∧ H = hnf a 0 a 0 0 a) ∨ (n = 4 * a ^ 3 ∧ H = hnf a a (2 * a) a 0 (2 * a)) ∨
      (n = 16 * a ^ 3 ∧ H = hnf a a (4 * a) a 0 (4 * a))) := by
  rw [fcc_1_mem]
  constructor
  · rintro ⟨⟨h, hd⟩, hk⟩
    obtain ⟨a, b, c, d, e, f, rfl, ha, hc, hf, hb, hd', he⟩ := exists_hnf h
    rw [det_hnf] at hd
    refine ⟨a, ha, ?_⟩
    rcases (fcc_forms ha hc hf hb hd' he).1 hk with ⟨rfl, rfl, rfl, rfl, rfl⟩ |
      ⟨rfl, rfl, rfl, rfl, rfl⟩ | ⟨rfl, rfl, rfl, rfl, rfl⟩
    · exact .inl ⟨by rw [← hd]; ring, rfl⟩
    · exact .inr (.inl ⟨by rw [← hd]; ring, rfl⟩)
    · exact .inr (.inr ⟨by rw [← hd]; ring, rfl⟩)
  · rintro ⟨a, ha, ⟨rfl, rfl⟩ | ⟨rfl, rfl⟩ | ⟨rfl, rfl⟩⟩
    · exact ⟨⟨isHNF_hnf ha ha ha (by omega) (by omega) (by omega), by rw [det_hnf]; ring⟩,
        (fcc_forms ha ha ha (by omega) (by omega) (by omega)).2 (by omega)⟩
    · exact ⟨⟨isHNF_hnf ha (by omega) (by omega) (by omega) (by omega) (by omega),
        by rw [det_hnf]; ring⟩,
        (fcc_forms ha (by omega) (by omega) (by omega) (by omega) (by omega)).2 (by omega)⟩
    · exact ⟨⟨isHNF_hnf ha (by omega) (by omega) (by omega) (by omega) (by omega),
        by rw [det_hnf]; ring⟩,
        (fcc_forms ha (by omega) (by omega) (by omega) (by omega) (by omega)).2 (by omega)⟩

theorem cube_unique {a b : ℤ} {i j : ℕ} (hi : i < 3) (hj : j < 3) (ha : 0 < a) (hb : 0 < b)
    {n : ℤ} (h1 : n = 2 ^ i * a ^ 3) (h2 : n = 2 ^ j * b ^ 3) : i = j ∧ a = b :=
  cube_class hi hj ha hb (h1.symm.trans h2)

theorem sc_3_unique {n : ℤ} {H H' : IntMat} (h : H ∈ sc_3 id n) (h' : H' ∈ sc_3 id n) : H = H' := by
  obtain ⟨a, ha, h⟩ := sc_3_forms.1 h
  obtain ⟨b, hb, h'⟩ := sc_3_forms.1 h'
  rcases h with ⟨e, rfl⟩ | ⟨e, rfl⟩ | ⟨e, rfl⟩ <;> rcases h' with ⟨e', rfl⟩ | ⟨e', rfl⟩ | ⟨e', rfl⟩
  · rw [(cube_unique (i := 0) (j := 0) (by decide) (by decide) ha hb (by linarith) (by linarith)).2]
  · exact absurd (cube_unique (i := 0) (j := 1) (by decide) (by decide) ha hb (by linarith) (by linarith)).1 (by decide)
  · exact absurd (cube_unique (i := 0) (j := 2) (by decide) (by decide) ha hb (by linarith) (by linarith)).1 (by decide)
  · exact absurd (cube_unique (i := 1) (j := 0) (by decide) (by decide) ha hb (by linarith) (by linarith)).1 (by decide)
  · rw [(cube_unique (i := 1) (j := 1) (by decide) (by decide) ha hb (by linarith) (by linarith)).2]
  · exact absurd (cube_unique (i := 1) (j := 2) (by decide) (by decide) ha hb (by linarith) (by linarith)).1 (by decide)
  · exact absurd (cube_unique (i := 2) (j := 0) (by decide) (by decide) ha hb (by linarith) (by linarith)).1 (by decide)
  · exact absurd (cube_unique (i := 2) (j := 1) (by decide) (by decide) ha hb (by linarith) (by linarith)).1 (by decide)
  · rw [(cube_unique (i := 2) (j := 2) (by decide) (by decide) ha hb (by linarith) (by linarith)).2]

theorem bcc_5_unique {n : ℤ} {H H' : IntMat} (h : H ∈ bcc_5 id n) (h' : H' ∈ bcc_5 id n) :
    H = H' := by
  obtain ⟨a, ha, h⟩ := bcc_5_forms.1 h
  obtain ⟨b, hb, h'⟩ := bcc_5_forms.1 h'
  rcases h with ⟨e, rfl⟩ | ⟨e, rfl⟩ | ⟨e, rfl⟩ <;> rcases h' with ⟨e', rfl⟩ | ⟨e', rfl⟩ | ⟨e', rfl⟩
  · rw [(cube_unique (i := 0) (j := 0) (by decide) (by decide) ha hb (by linarith) (by linarith)).2]
  · exact absurd (cube_unique (i := 0) (j := 1) (by decide) (by decide) ha hb (by linarith) (by linarith)).1 (by decide)
  · exact absurd (cube_unique (i := 0) (j := 2) (by decide) (by decide) ha hb (by linarith) (by linarith)).1 (by decide)
  · exact absurd (cube_unique (i := 1) (j := 0) (by decide) (by decide) ha hb (by linarith) (by linarith)).1 (by decide)
  · rw [(cube_unique (i := 1) (j := 1) (by decide) (by decide) ha hb (by linarith) (by linarith)).2]
  · exact absurd (cube_unique (i := 1) (j := 2) (by decide) (by decide) ha hb (by linarith) (by linarith)).1 (by decide)
  · exact absurd (cube_unique (i := 2) (j := 0) (by decide) (by decide) ha hb (by linarith) (by linarith)).1 (by decide)
  · exact absurd (cube_unique (i := 2) (j := 1) (by decide) (by decide) ha hb (by linarith) (by linarith)).1 (by decide)
  · rw [(cube_unique (i := 2) (j := 2) (by decide) (by decide) ha hb (by linarith) (by linarith)).2]

theorem fcc_1_unique {n : ℤ} {H H' : IntMat} (h : H ∈ fcc_1 id n) (h' : H' ∈ fcc_1 id n) :
    H = H' := by
  obtain ⟨a, ha, h⟩ := fcc_1_forms.1 h
  obtain ⟨b, hb, h'⟩ := fcc_1_forms.1 h'
  have ha2 : 0 < 2 * a := by omega
  have hb2 : 0 < 2 * b := by omega
  rcases h with ⟨e, rfl⟩ | ⟨e, rfl⟩ | ⟨e, rfl⟩ <;> rcases h' with ⟨e', rfl⟩ | ⟨e', rfl⟩ | ⟨e', rfl⟩
  · rw [(cube_unique (i := 0) (j := 0) (by decide) (by decide) ha hb (by linarith) (by linarith)).2]
  · exact absurd (cube_unique (i := 0) (j := 2) (by decide) (by decide) ha hb (by linarith) (by linarith)).1 (by decide)
  · exact absurd (cube_unique (i := 0) (j := 1) (by decide) (by decide) ha hb2 (by linarith) (by linarith)).1 (by decide)
  · exact absurd (cube_unique (i := 2) (j := 0) (by decide) (by decide) ha hb (by linarith) (by linarith)).1 (by decide)
  · rw [(cube_unique (i := 2) (j := 2) (by decide) (by decide) ha hb (by linarith) (by linarith)).2]
  · exact absurd (cube_unique (i := 2) (j := 1) (by decide) (by decide) ha hb2 (by linarith) (by linarith)).1 (by decide)
  · exact absurd (cube_unique (i := 1) (j := 0) (by decide) (by decide) ha2 hb (by linarith) (by linarith)).1 (by decide)
  · exact absurd (cube_unique (i := 1) (j := 2) (by decide) (by decide) ha2 hb (by linarith) (by linarith)).1 (by decide)
  · have := (cube_unique (i := 1) (j := 1) (by decide) (by decide) ha2 hb2 (by linarith) (by linarith)).2
    have : a = b := by omega
    rw [this]

end AutoGR
