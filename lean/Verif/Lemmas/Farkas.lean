import Verif.Lemmas.ReducedMin
import Verif.Spec.Classify

/-!
# Linear consequences of the Niggli conditions

Symmetries of a lattice give linear equations between `A, B, C, D, E, F`; together with the Niggli conditions
these are either contradictory or the equalities of one of the 44 classes.  Each of these consequences is a
sum of known inequalities with non-negative factors, which are found outside and checked here.
-/

namespace AutoGR

open Spec Matrix

/-- The linear form `a A + b B + c C + d D + e E + f F`. -/
structure Lin where
  a : ℤ
  b : ℤ
  c : ℤ
  d : ℤ
  e : ℤ
  f : ℤ
  deriving DecidableEq

/-- Six real numbers. -/
structure Six where
  A : ℝ
  B : ℝ
  C : ℝ
  D : ℝ
  E : ℝ
  F : ℝ

namespace Lin

/-- Value of a linear form. -/
def val (l : Lin) (g : Six) : ℝ :=
  l.a * g.A + l.b * g.B + l.c * g.C + l.d * g.D + l.e * g.E + l.f * g.F

/-- Negation. -/
def neg (l : Lin) : Lin := ⟨-l.a, -l.b, -l.c, -l.d, -l.e, -l.f⟩

/-- Sum. -/
def add (l m : Lin) : Lin := ⟨l.a + m.a, l.b + m.b, l.c + m.c, l.d + m.d, l.e + m.e, l.f + m.f⟩

/-- Multiple. -/
def smul (n : ℕ) (l : Lin) : Lin := ⟨n * l.a, n * l.b, n * l.c, n * l.d, n * l.e, n * l.f⟩

/-- Zero. -/
def zero : Lin := ⟨0, 0, 0, 0, 0, 0⟩

theorem val_neg (l : Lin) (g : Six) : l.neg.val g = -l.val g := by simp [val, neg]; ring

theorem val_add (l m : Lin) (g : Six) : (l.add m).val g = l.val g + m.val g := by simp [val, add]; ring

theorem val_smul (n : ℕ) (l : Lin) (g : Six) : (smul n l).val g = n * l.val g := by simp [val, smul]; ring

theorem val_zero (g : Six) : zero.val g = 0 := by simp [val, zero]

end Lin

/-- A factor, and numbers of known inequalities with their factors. -/
abbrev Cert := ℕ × List (ℕ × ℕ)

/-- The sum of the inequalities named by a certificate. -/
def combine (facts : List Lin) : List (ℕ × ℕ) → Lin
  | [] => Lin.zero
  | (i, n) :: cs =>
    match facts[i]? with
    | some l => (Lin.smul n l).add (combine facts cs)
    | none => combine facts cs

/-- The certificate proves that the form is non-negative. -/
def derives (facts : List Lin) (c : Cert) (l : Lin) : Bool :=
  decide (0 < c.1) && decide (combine facts c.2 = Lin.smul c.1 l)

theorem combine_nonneg {facts : List Lin} {g : Six} (h : ∀ l ∈ facts, 0 ≤ l.val g) (cs : List (ℕ × ℕ)) :
    0 ≤ (combine facts cs).val g := by
  induction cs with
  | nil => rw [combine, Lin.val_zero]
  | cons x cs ih =>
    obtain ⟨i, n⟩ := x
    rw [combine]
    cases hi : facts[i]? with
    | none => exact ih
    | some l =>
      have := h l (List.mem_of_getElem? hi)
      simp only [Lin.val_add, Lin.val_smul]
      positivity

theorem derives_nonneg {facts : List Lin} {g : Six} (h : ∀ l ∈ facts, 0 ≤ l.val g) {c : Cert} {l : Lin}
    (hc : derives facts c l = true) : 0 ≤ l.val g := by
  simp only [derives, Bool.and_eq_true, decide_eq_true_eq] at hc
  have h1 := combine_nonneg h c.2
  rw [hc.2, Lin.val_smul] at h1
  have h2 : (0 : ℝ) < c.1 := by exact_mod_cast hc.1
  exact nonneg_of_mul_nonneg_right h1 h2

/-- Uses the implications `p = 0 → 0 ≤ q`, whose left sides are proved by certificates. -/
def close (imps : List (Lin × Lin)) : List Lin → List (ℕ × Cert) → Option (List Lin)
  | facts, [] => some facts
  | facts, (i, c) :: st =>
    match imps[i]? with
    | some (p, q) => if derives facts c p.neg then close imps (facts ++ [q]) st else none
    | none => none

theorem close_nonneg {imps : List (Lin × Lin)} {g : Six}
    (hi : ∀ x ∈ imps, x.1.val g ≤ 0 → 0 ≤ x.2.val g) (st : List (ℕ × Cert)) :
    ∀ {facts fs : List Lin}, (∀ l ∈ facts, 0 ≤ l.val g) → close imps facts st = some fs →
      ∀ l ∈ fs, 0 ≤ l.val g := by
  induction st with
  | nil =>
    intro facts fs h hc
    simp only [close, Option.some.injEq] at hc
    rw [← hc]; exact h
  | cons x st ih =>
    obtain ⟨i, c⟩ := x
    intro facts fs h hc
    rw [close] at hc
    cases hx : imps[i]? with
    | none => rw [hx] at hc; cases hc
    | some pq =>
      obtain ⟨p, q⟩ := pq
      rw [hx] at hc
      simp only at hc
      split_ifs at hc with hd
      have hp := derives_nonneg h hd
      rw [Lin.val_neg] at hp
      refine ih ?_ hc
      intro l hl
      rcases List.mem_append.1 hl with hl | hl
      · exact h l hl
      · rw [List.mem_singleton.1 hl]
        exact hi (p, q) (List.mem_of_getElem? hx) (by simpa using hp)

/-- The Niggli conditions for cells of type I (`true`) and type II. -/
def ineqs : Bool → List Lin
  | true => [⟨1, 0, 0, 0, 0, 0⟩, ⟨0, 0, 0, 1, 0, 0⟩, ⟨0, 0, 0, 0, 1, 0⟩, ⟨0, 0, 0, 0, 0, 1⟩,
      ⟨-1, 1, 0, 0, 0, 0⟩, ⟨0, -1, 1, 0, 0, 0⟩, ⟨0, 1, 0, -2, 0, 0⟩, ⟨1, 0, 0, 0, -2, 0⟩, ⟨1, 0, 0, 0, 0, -2⟩]
  | false => [⟨1, 0, 0, 0, 0, 0⟩, ⟨0, 0, 0, -1, 0, 0⟩, ⟨0, 0, 0, 0, -1, 0⟩, ⟨0, 0, 0, 0, 0, -1⟩,
      ⟨-1, 1, 0, 0, 0, 0⟩, ⟨0, -1, 1, 0, 0, 0⟩, ⟨0, 1, 0, 2, 0, 0⟩, ⟨1, 0, 0, 0, 2, 0⟩, ⟨1, 0, 0, 0, 0, 2⟩,
      ⟨1, 1, 0, 2, 2, 2⟩]

/-- The special conditions. -/
def imps : Bool → List (Lin × Lin)
  | true => [(⟨-1, 1, 0, 0, 0, 0⟩, ⟨0, 0, 0, -1, 1, 0⟩), (⟨0, -1, 1, 0, 0, 0⟩, ⟨0, 0, 0, 0, -1, 1⟩),
      (⟨0, 1, 0, -2, 0, 0⟩, ⟨0, 0, 0, 0, 2, -1⟩), (⟨1, 0, 0, 0, -2, 0⟩, ⟨0, 0, 0, 2, 0, -1⟩),
      (⟨1, 0, 0, 0, 0, -2⟩, ⟨0, 0, 0, 2, -1, 0⟩)]
  | false => [(⟨-1, 1, 0, 0, 0, 0⟩, ⟨0, 0, 0, 1, -1, 0⟩), (⟨0, -1, 1, 0, 0, 0⟩, ⟨0, 0, 0, 0, 1, -1⟩),
      (⟨0, 1, 0, 2, 0, 0⟩, ⟨0, 0, 0, 0, 0, 1⟩), (⟨1, 0, 0, 0, 2, 0⟩, ⟨0, 0, 0, 0, 0, 1⟩),
      (⟨1, 0, 0, 0, 0, 2⟩, ⟨0, 0, 0, 0, 1, 0⟩), (⟨1, 1, 0, 2, 2, 2⟩, ⟨-2, 0, 0, 0, -4, -2⟩)]

/-- The forms that are positive. -/
def stricts : Bool → List Lin
  | true => [⟨1, 0, 0, 0, 0, 0⟩, ⟨0, 0, 0, 1, 0, 0⟩, ⟨0, 0, 0, 0, 1, 0⟩, ⟨0, 0, 0, 0, 0, 1⟩]
  | false => [⟨1, 0, 0, 0, 0, 0⟩]

/-- The cell has the given type. -/
def HasType (t : Bool) (g : Six) : Prop := if t then TypeI g.D g.E g.F else TypeII g.D g.E g.F

theorem ineqs_nonneg {g : Six} (h : NiggliReduced g.A g.B g.C g.D g.E g.F) {t : Bool} (ht : HasType t g) :
    ∀ l ∈ ineqs t, 0 ≤ l.val g := by
  have ab := h.ab
  have bc := h.bc
  have ha := h.pos
  have su := h.sum
  cases t
  · obtain ⟨h1, h2, h3⟩ : TypeII g.D g.E g.F := by simpa [HasType] using ht
    rcases h.signs with ⟨i1, i2, i3, d, e, f⟩ | ⟨i1, i2, i3, d, e, f⟩
    · linarith
    · simp only [ineqs, List.forall_mem_cons, List.not_mem_nil, false_imp_iff, implies_true, and_true, Lin.val]
      push_cast
      refine ⟨?_, ?_, ?_, ?_, ?_, ?_, ?_, ?_, ?_, ?_⟩ <;> linarith
  · obtain ⟨h1, h2, h3⟩ : TypeI g.D g.E g.F := by simpa [HasType] using ht
    rcases h.signs with ⟨i1, i2, i3, d, e, f⟩ | ⟨i1, i2, i3, d, e, f⟩
    · simp only [ineqs, List.forall_mem_cons, List.not_mem_nil, false_imp_iff, implies_true, and_true, Lin.val]
      push_cast
      refine ⟨?_, ?_, ?_, ?_, ?_, ?_, ?_, ?_, ?_⟩ <;> linarith
    · linarith

theorem imps_hold {g : Six} (h : NiggliReduced g.A g.B g.C g.D g.E g.F) {t : Bool} (ht : HasType t g) :
    ∀ x ∈ imps t, x.1.val g ≤ 0 → 0 ≤ x.2.val g := by
  have ab := h.ab
  have bc := h.bc
  have ha := h.pos
  have su := h.sum
  have s1 := h.ab_eq
  have s2 := h.bc_eq
  have s3 := h.d_eq
  have s4 := h.e_eq
  have s5 := h.f_eq
  have s6 := h.d_neg
  have s7 := h.e_neg
  have s8 := h.f_neg
  have s9 := h.sum_eq
  cases t
  · obtain ⟨h1, h2, h3⟩ : TypeII g.D g.E g.F := by simpa [HasType] using ht
    rw [abs_of_nonpos h1, abs_of_nonpos h2] at s1
    rw [abs_of_nonpos h2, abs_of_nonpos h3] at s2
    rcases h.signs with ⟨i1, i2, i3, d, e, f⟩ | ⟨i1, i2, i3, d, e, f⟩
    · linarith
    · simp only [imps, List.forall_mem_cons, List.not_mem_nil, false_imp_iff, implies_true, and_true, Lin.val]
      push_cast
      refine ⟨fun hp => ?_, fun hp => ?_, fun hp => ?_, fun hp => ?_, fun hp => ?_, fun hp => ?_⟩
      · linarith [s1 (by linarith)]
      · linarith [s2 (by linarith)]
      · linarith [s6 (by linarith)]
      · linarith [s7 (by linarith)]
      · linarith [s8 (by linarith)]
      · linarith [s9 (by linarith)]
  · obtain ⟨h1, h2, h3⟩ : TypeI g.D g.E g.F := by simpa [HasType] using ht
    rw [abs_of_pos h1, abs_of_pos h2] at s1
    rw [abs_of_pos h2, abs_of_pos h3] at s2
    rcases h.signs with ⟨i1, i2, i3, d, e, f⟩ | ⟨i1, i2, i3, d, e, f⟩
    · simp only [imps, List.forall_mem_cons, List.not_mem_nil, false_imp_iff, implies_true, and_true, Lin.val]
      push_cast
      refine ⟨fun hp => ?_, fun hp => ?_, fun hp => ?_, fun hp => ?_, fun hp => ?_⟩
      · linarith [s1 (by linarith)]
      · linarith [s2 (by linarith)]
      · linarith [s3 (by linarith)]
      · linarith [s4 (by linarith)]
      · linarith [s5 (by linarith)]
    · linarith

theorem stricts_pos {g : Six} (h : NiggliReduced g.A g.B g.C g.D g.E g.F) {t : Bool} (ht : HasType t g) :
    ∀ l ∈ stricts t, 0 < l.val g := by
  have ha := h.pos
  cases t
  · simp only [stricts, List.forall_mem_cons, List.not_mem_nil, false_imp_iff, implies_true, and_true, Lin.val]
    push_cast; linarith
  · obtain ⟨h1, h2, h3⟩ : TypeI g.D g.E g.F := by simpa [HasType] using ht
    simp only [stricts, List.forall_mem_cons, List.not_mem_nil, false_imp_iff, implies_true, and_true, Lin.val]
    push_cast
    refine ⟨?_, ?_, ?_, ?_⟩ <;> linarith

/-- The equalities of class `k`, as linear forms that are zero. -/
def classEqs : ℕ → List Lin
  | 1 => [⟨1, -1, 0, 0, 0, 0⟩, ⟨0, 1, -1, 0, 0, 0⟩, ⟨-1, 0, 0, 2, 0, 0⟩, ⟨-1, 0, 0, 0, 2, 0⟩, ⟨-1, 0, 0, 0, 0, 2⟩]
  | 2 => [⟨1, -1, 0, 0, 0, 0⟩, ⟨0, 1, -1, 0, 0, 0⟩, ⟨0, 0, 0, -1, 1, 0⟩, ⟨0, 0, 0, -1, 0, 1⟩]
  | 3 => [⟨1, -1, 0, 0, 0, 0⟩, ⟨0, 1, -1, 0, 0, 0⟩, ⟨0, 0, 0, 1, 0, 0⟩, ⟨0, 0, 0, 0, 1, 0⟩, ⟨0, 0, 0, 0, 0, 1⟩]
  | 4 => [⟨1, -1, 0, 0, 0, 0⟩, ⟨0, 1, -1, 0, 0, 0⟩, ⟨0, 0, 0, -1, 1, 0⟩, ⟨0, 0, 0, -1, 0, 1⟩]
  | 5 => [⟨1, -1, 0, 0, 0, 0⟩, ⟨0, 1, -1, 0, 0, 0⟩, ⟨1, 0, 0, 3, 0, 0⟩, ⟨1, 0, 0, 0, 3, 0⟩, ⟨1, 0, 0, 0, 0, 3⟩]
  | 6 => [⟨1, -1, 0, 0, 0, 0⟩, ⟨0, 1, -1, 0, 0, 0⟩, ⟨1, 1, 0, 2, 2, 2⟩, ⟨0, 0, 0, -1, 1, 0⟩]
  | 7 => [⟨1, -1, 0, 0, 0, 0⟩, ⟨0, 1, -1, 0, 0, 0⟩, ⟨1, 1, 0, 2, 2, 2⟩, ⟨0, 0, 0, 0, -1, 1⟩]
  | 8 => [⟨1, -1, 0, 0, 0, 0⟩, ⟨0, 1, -1, 0, 0, 0⟩, ⟨1, 1, 0, 2, 2, 2⟩]
  | 9 => [⟨1, -1, 0, 0, 0, 0⟩, ⟨-1, 0, 0, 2, 0, 0⟩, ⟨-1, 0, 0, 0, 2, 0⟩, ⟨-1, 0, 0, 0, 0, 2⟩]
  | 10 => [⟨1, -1, 0, 0, 0, 0⟩, ⟨0, 0, 0, -1, 1, 0⟩]
  | 11 => [⟨1, -1, 0, 0, 0, 0⟩, ⟨0, 0, 0, 1, 0, 0⟩, ⟨0, 0, 0, 0, 1, 0⟩, ⟨0, 0, 0, 0, 0, 1⟩]
  | 12 => [⟨1, -1, 0, 0, 0, 0⟩, ⟨0, 0, 0, 1, 0, 0⟩, ⟨0, 0, 0, 0, 1, 0⟩, ⟨1, 0, 0, 0, 0, 2⟩]
  | 13 => [⟨1, -1, 0, 0, 0, 0⟩, ⟨0, 0, 0, 1, 0, 0⟩, ⟨0, 0, 0, 0, 1, 0⟩]
  | 14 => [⟨1, -1, 0, 0, 0, 0⟩, ⟨0, 0, 0, -1, 1, 0⟩]
  | 15 => [⟨1, -1, 0, 0, 0, 0⟩, ⟨1, 0, 0, 2, 0, 0⟩, ⟨1, 0, 0, 0, 2, 0⟩, ⟨0, 0, 0, 0, 0, 1⟩]
  | 16 => [⟨1, -1, 0, 0, 0, 0⟩, ⟨1, 1, 0, 2, 2, 2⟩, ⟨0, 0, 0, -1, 1, 0⟩]
  | 17 => [⟨1, -1, 0, 0, 0, 0⟩, ⟨1, 1, 0, 2, 2, 2⟩]
  | 18 => [⟨0, 1, -1, 0, 0, 0⟩, ⟨-1, 0, 0, 4, 0, 0⟩, ⟨-1, 0, 0, 0, 2, 0⟩, ⟨-1, 0, 0, 0, 0, 2⟩]
  | 19 => [⟨0, 1, -1, 0, 0, 0⟩, ⟨-1, 0, 0, 0, 2, 0⟩, ⟨-1, 0, 0, 0, 0, 2⟩]
  | 20 => [⟨0, 1, -1, 0, 0, 0⟩, ⟨0, 0, 0, 0, -1, 1⟩]
  | 21 => [⟨0, 1, -1, 0, 0, 0⟩, ⟨0, 0, 0, 1, 0, 0⟩, ⟨0, 0, 0, 0, 1, 0⟩, ⟨0, 0, 0, 0, 0, 1⟩]
  | 22 => [⟨0, 1, -1, 0, 0, 0⟩, ⟨0, 1, 0, 2, 0, 0⟩, ⟨0, 0, 0, 0, 1, 0⟩, ⟨0, 0, 0, 0, 0, 1⟩]
  | 23 => [⟨0, 1, -1, 0, 0, 0⟩, ⟨0, 0, 0, 0, 1, 0⟩, ⟨0, 0, 0, 0, 0, 1⟩]
  | 24 => [⟨0, 1, -1, 0, 0, 0⟩, ⟨1, 1, 0, 2, 2, 2⟩, ⟨1, 0, 0, 0, 3, 0⟩, ⟨1, 0, 0, 0, 0, 3⟩]
  | 25 => [⟨0, 1, -1, 0, 0, 0⟩, ⟨0, 0, 0, 0, -1, 1⟩]
  | 26 => [⟨-1, 0, 0, 4, 0, 0⟩, ⟨-1, 0, 0, 0, 2, 0⟩, ⟨-1, 0, 0, 0, 0, 2⟩]
  | 27 => [⟨-1, 0, 0, 0, 2, 0⟩, ⟨-1, 0, 0, 0, 0, 2⟩]
  | 28 => [⟨-1, 0, 0, 0, 2, 0⟩, ⟨0, 0, 0, -2, 0, 1⟩]
  | 29 => [⟨0, 0, 0, -2, 1, 0⟩, ⟨-1, 0, 0, 0, 0, 2⟩]
  | 30 => [⟨0, -1, 0, 2, 0, 0⟩, ⟨0, 0, 0, 0, -2, 1⟩]
  | 31 => []
  | 32 => [⟨0, 0, 0, 1, 0, 0⟩, ⟨0, 0, 0, 0, 1, 0⟩, ⟨0, 0, 0, 0, 0, 1⟩]
  | 33 => [⟨0, 0, 0, 1, 0, 0⟩, ⟨0, 0, 0, 0, 0, 1⟩]
  | 34 => [⟨0, 0, 0, 1, 0, 0⟩, ⟨0, 0, 0, 0, 1, 0⟩]
  | 35 => [⟨0, 0, 0, 0, 1, 0⟩, ⟨0, 0, 0, 0, 0, 1⟩]
  | 36 => [⟨0, 0, 0, 1, 0, 0⟩, ⟨1, 0, 0, 0, 2, 0⟩, ⟨0, 0, 0, 0, 0, 1⟩]
  | 37 => [⟨1, 0, 0, 0, 2, 0⟩, ⟨0, 0, 0, 0, 0, 1⟩]
  | 38 => [⟨0, 0, 0, 1, 0, 0⟩, ⟨0, 0, 0, 0, 1, 0⟩, ⟨1, 0, 0, 0, 0, 2⟩]
  | 39 => [⟨0, 0, 0, 0, 1, 0⟩, ⟨1, 0, 0, 0, 0, 2⟩]
  | 40 => [⟨0, 1, 0, 2, 0, 0⟩, ⟨0, 0, 0, 0, 1, 0⟩, ⟨0, 0, 0, 0, 0, 1⟩]
  | 41 => [⟨0, 1, 0, 2, 0, 0⟩, ⟨0, 0, 0, 0, 0, 1⟩]
  | 42 => [⟨0, 1, 0, 2, 0, 0⟩, ⟨1, 0, 0, 0, 2, 0⟩, ⟨0, 0, 0, 0, 0, 1⟩]
  | 43 => [⟨1, 1, 0, 2, 2, 2⟩, ⟨0, 1, 0, 2, 0, 1⟩]
  | 44 => []
  | _ => []

/-- The type of class `k`. -/
def classType (k : ℕ) : Bool := typeIClasses.contains k

theorem abs_sum_of {D E F : ℝ} (h : TypeII D E F) : |D + E + F| = -(D + E + F) := by
  obtain ⟨h1, h2, h3⟩ := h
  exact abs_of_nonpos (by linarith)

theorem abs_last_of {D E F : ℝ} (h : TypeII D E F) : |2 * D + F| = -(2 * D + F) := by
  obtain ⟨h1, h2, h3⟩ := h
  exact abs_of_nonpos (by linarith)

theorem classEqs_1 (g : Six) : NiggliClass 1 g.A g.B g.C g.D g.E g.F ↔
    HasType (classType 1) g ∧ ∀ l ∈ classEqs 1, l.val g = 0 := by
  change TypeI g.D g.E g.F ∧ _ ↔ TypeI g.D g.E g.F ∧ _
  refine and_congr_right fun ht => ?_
  simp only [classEqs, List.forall_mem_cons, List.not_mem_nil, false_imp_iff, implies_true, and_true, Lin.val]
  push_cast
  constructor
  · rintro ⟨h1, h2, h3, h4, h5⟩
    refine ⟨?_, ?_, ?_, ?_, ?_⟩ <;> linarith
  · rintro ⟨h1, h2, h3, h4, h5⟩
    refine ⟨?_, ?_, ?_, ?_, ?_⟩ <;> linarith

theorem classEqs_2 (g : Six) : NiggliClass 2 g.A g.B g.C g.D g.E g.F ↔
    HasType (classType 2) g ∧ ∀ l ∈ classEqs 2, l.val g = 0 := by
  change TypeI g.D g.E g.F ∧ _ ↔ TypeI g.D g.E g.F ∧ _
  refine and_congr_right fun ht => ?_
  simp only [classEqs, List.forall_mem_cons, List.not_mem_nil, false_imp_iff, implies_true, and_true, Lin.val]
  push_cast
  constructor
  · rintro ⟨h1, h2, h3, h4⟩
    refine ⟨?_, ?_, ?_, ?_⟩ <;> linarith
  · rintro ⟨h1, h2, h3, h4⟩
    refine ⟨?_, ?_, ?_, ?_⟩ <;> linarith

theorem classEqs_3 (g : Six) : NiggliClass 3 g.A g.B g.C g.D g.E g.F ↔
    HasType (classType 3) g ∧ ∀ l ∈ classEqs 3, l.val g = 0 := by
  change TypeII g.D g.E g.F ∧ _ ↔ TypeII g.D g.E g.F ∧ _
  refine and_congr_right fun ht => ?_
  simp only [classEqs, List.forall_mem_cons, List.not_mem_nil, false_imp_iff, implies_true, and_true, Lin.val]
  push_cast
  constructor
  · rintro ⟨h1, h2, h3, h4, h5⟩
    refine ⟨?_, ?_, ?_, ?_, ?_⟩ <;> linarith
  · rintro ⟨h1, h2, h3, h4, h5⟩
    refine ⟨?_, ?_, ?_, ?_, ?_⟩ <;> linarith

theorem classEqs_4 (g : Six) : NiggliClass 4 g.A g.B g.C g.D g.E g.F ↔
    HasType (classType 4) g ∧ ∀ l ∈ classEqs 4, l.val g = 0 := by
  change TypeII g.D g.E g.F ∧ _ ↔ TypeII g.D g.E g.F ∧ _
  refine and_congr_right fun ht => ?_
  simp only [classEqs, List.forall_mem_cons, List.not_mem_nil, false_imp_iff, implies_true, and_true, Lin.val]
  push_cast
  constructor
  · rintro ⟨h1, h2, h3, h4⟩
    refine ⟨?_, ?_, ?_, ?_⟩ <;> linarith
  · rintro ⟨h1, h2, h3, h4⟩
    refine ⟨?_, ?_, ?_, ?_⟩ <;> linarith

theorem classEqs_5 (g : Six) : NiggliClass 5 g.A g.B g.C g.D g.E g.F ↔
    HasType (classType 5) g ∧ ∀ l ∈ classEqs 5, l.val g = 0 := by
  change TypeII g.D g.E g.F ∧ _ ↔ TypeII g.D g.E g.F ∧ _
  refine and_congr_right fun ht => ?_
  simp only [classEqs, List.forall_mem_cons, List.not_mem_nil, false_imp_iff, implies_true, and_true, Lin.val]
  push_cast
  constructor
  · rintro ⟨h1, h2, h3, h4, h5⟩
    refine ⟨?_, ?_, ?_, ?_, ?_⟩ <;> linarith
  · rintro ⟨h1, h2, h3, h4, h5⟩
    refine ⟨?_, ?_, ?_, ?_, ?_⟩ <;> linarith

theorem classEqs_6 (g : Six) : NiggliClass 6 g.A g.B g.C g.D g.E g.F ↔
    HasType (classType 6) g ∧ ∀ l ∈ classEqs 6, l.val g = 0 := by
  change TypeII g.D g.E g.F ∧ _ ↔ TypeII g.D g.E g.F ∧ _
  refine and_congr_right fun ht => ?_
  rw [abs_sum_of ht]
  simp only [classEqs, List.forall_mem_cons, List.not_mem_nil, false_imp_iff, implies_true, and_true, Lin.val]
  push_cast
  constructor
  · rintro ⟨h1, h2, h3, h4⟩
    refine ⟨?_, ?_, ?_, ?_⟩ <;> linarith
  · rintro ⟨h1, h2, h3, h4⟩
    refine ⟨?_, ?_, ?_, ?_⟩ <;> linarith

theorem classEqs_7 (g : Six) : NiggliClass 7 g.A g.B g.C g.D g.E g.F ↔
    HasType (classType 7) g ∧ ∀ l ∈ classEqs 7, l.val g = 0 := by
  change TypeII g.D g.E g.F ∧ _ ↔ TypeII g.D g.E g.F ∧ _
  refine and_congr_right fun ht => ?_
  rw [abs_sum_of ht]
  simp only [classEqs, List.forall_mem_cons, List.not_mem_nil, false_imp_iff, implies_true, and_true, Lin.val]
  push_cast
  constructor
  · rintro ⟨h1, h2, h3, h4⟩
    refine ⟨?_, ?_, ?_, ?_⟩ <;> linarith
  · rintro ⟨h1, h2, h3, h4⟩
    refine ⟨?_, ?_, ?_, ?_⟩ <;> linarith

theorem classEqs_8 (g : Six) : NiggliClass 8 g.A g.B g.C g.D g.E g.F ↔
    HasType (classType 8) g ∧ ∀ l ∈ classEqs 8, l.val g = 0 := by
  change TypeII g.D g.E g.F ∧ _ ↔ TypeII g.D g.E g.F ∧ _
  refine and_congr_right fun ht => ?_
  rw [abs_sum_of ht]
  simp only [classEqs, List.forall_mem_cons, List.not_mem_nil, false_imp_iff, implies_true, and_true, Lin.val]
  push_cast
  constructor
  · rintro ⟨h1, h2, h3⟩
    refine ⟨?_, ?_, ?_⟩ <;> linarith
  · rintro ⟨h1, h2, h3⟩
    refine ⟨?_, ?_, ?_⟩ <;> linarith

theorem classEqs_9 (g : Six) : NiggliClass 9 g.A g.B g.C g.D g.E g.F ↔
    HasType (classType 9) g ∧ ∀ l ∈ classEqs 9, l.val g = 0 := by
  change TypeI g.D g.E g.F ∧ _ ↔ TypeI g.D g.E g.F ∧ _
  refine and_congr_right fun ht => ?_
  simp only [classEqs, List.forall_mem_cons, List.not_mem_nil, false_imp_iff, implies_true, and_true, Lin.val]
  push_cast
  constructor
  · rintro ⟨h1, h2, h3, h4⟩
    refine ⟨?_, ?_, ?_, ?_⟩ <;> linarith
  · rintro ⟨h1, h2, h3, h4⟩
    refine ⟨?_, ?_, ?_, ?_⟩ <;> linarith

theorem classEqs_10 (g : Six) : NiggliClass 10 g.A g.B g.C g.D g.E g.F ↔
    HasType (classType 10) g ∧ ∀ l ∈ classEqs 10, l.val g = 0 := by
  change TypeI g.D g.E g.F ∧ _ ↔ TypeI g.D g.E g.F ∧ _
  refine and_congr_right fun ht => ?_
  simp only [classEqs, List.forall_mem_cons, List.not_mem_nil, false_imp_iff, implies_true, and_true, Lin.val]
  push_cast
  constructor
  · rintro ⟨h1, h2⟩
    refine ⟨?_, ?_⟩ <;> linarith
  · rintro ⟨h1, h2⟩
    refine ⟨?_, ?_⟩ <;> linarith

theorem classEqs_11 (g : Six) : NiggliClass 11 g.A g.B g.C g.D g.E g.F ↔
    HasType (classType 11) g ∧ ∀ l ∈ classEqs 11, l.val g = 0 := by
  change TypeII g.D g.E g.F ∧ _ ↔ TypeII g.D g.E g.F ∧ _
  refine and_congr_right fun ht => ?_
  simp only [classEqs, List.forall_mem_cons, List.not_mem_nil, false_imp_iff, implies_true, and_true, Lin.val]
  push_cast
  constructor
  · rintro ⟨h1, h2, h3, h4⟩
    refine ⟨?_, ?_, ?_, ?_⟩ <;> linarith
  · rintro ⟨h1, h2, h3, h4⟩
    refine ⟨?_, ?_, ?_, ?_⟩ <;> linarith

theorem classEqs_12 (g : Six) : NiggliClass 12 g.A g.B g.C g.D g.E g.F ↔
    HasType (classType 12) g ∧ ∀ l ∈ classEqs 12, l.val g = 0 := by
  change TypeII g.D g.E g.F ∧ _ ↔ TypeII g.D g.E g.F ∧ _
  refine and_congr_right fun ht => ?_
  simp only [classEqs, List.forall_mem_cons, List.not_mem_nil, false_imp_iff, implies_true, and_true, Lin.val]
  push_cast
  constructor
  · rintro ⟨h1, h2, h3, h4⟩
    refine ⟨?_, ?_, ?_, ?_⟩ <;> linarith
  · rintro ⟨h1, h2, h3, h4⟩
    refine ⟨?_, ?_, ?_, ?_⟩ <;> linarith

theorem classEqs_13 (g : Six) : NiggliClass 13 g.A g.B g.C g.D g.E g.F ↔
    HasType (classType 13) g ∧ ∀ l ∈ classEqs 13, l.val g = 0 := by
  change TypeII g.D g.E g.F ∧ _ ↔ TypeII g.D g.E g.F ∧ _
  refine and_congr_right fun ht => ?_
  simp only [classEqs, List.forall_mem_cons, List.not_mem_nil, false_imp_iff, implies_true, and_true, Lin.val]
  push_cast
  constructor
  · rintro ⟨h1, h2, h3⟩
    refine ⟨?_, ?_, ?_⟩ <;> linarith
  · rintro ⟨h1, h2, h3⟩
    refine ⟨?_, ?_, ?_⟩ <;> linarith

theorem classEqs_14 (g : Six) : NiggliClass 14 g.A g.B g.C g.D g.E g.F ↔
    HasType (classType 14) g ∧ ∀ l ∈ classEqs 14, l.val g = 0 := by
  change TypeII g.D g.E g.F ∧ _ ↔ TypeII g.D g.E g.F ∧ _
  refine and_congr_right fun ht => ?_
  simp only [classEqs, List.forall_mem_cons, List.not_mem_nil, false_imp_iff, implies_true, and_true, Lin.val]
  push_cast
  constructor
  · rintro ⟨h1, h2⟩
    refine ⟨?_, ?_⟩ <;> linarith
  · rintro ⟨h1, h2⟩
    refine ⟨?_, ?_⟩ <;> linarith

theorem classEqs_15 (g : Six) : NiggliClass 15 g.A g.B g.C g.D g.E g.F ↔
    HasType (classType 15) g ∧ ∀ l ∈ classEqs 15, l.val g = 0 := by
  change TypeII g.D g.E g.F ∧ _ ↔ TypeII g.D g.E g.F ∧ _
  refine and_congr_right fun ht => ?_
  simp only [classEqs, List.forall_mem_cons, List.not_mem_nil, false_imp_iff, implies_true, and_true, Lin.val]
  push_cast
  constructor
  · rintro ⟨h1, h2, h3, h4⟩
    refine ⟨?_, ?_, ?_, ?_⟩ <;> linarith
  · rintro ⟨h1, h2, h3, h4⟩
    refine ⟨?_, ?_, ?_, ?_⟩ <;> linarith

theorem classEqs_16 (g : Six) : NiggliClass 16 g.A g.B g.C g.D g.E g.F ↔
    HasType (classType 16) g ∧ ∀ l ∈ classEqs 16, l.val g = 0 := by
  change TypeII g.D g.E g.F ∧ _ ↔ TypeII g.D g.E g.F ∧ _
  refine and_congr_right fun ht => ?_
  rw [abs_sum_of ht]
  simp only [classEqs, List.forall_mem_cons, List.not_mem_nil, false_imp_iff, implies_true, and_true, Lin.val]
  push_cast
  constructor
  · rintro ⟨h1, h2, h3⟩
    refine ⟨?_, ?_, ?_⟩ <;> linarith
  · rintro ⟨h1, h2, h3⟩
    refine ⟨?_, ?_, ?_⟩ <;> linarith

theorem classEqs_17 (g : Six) : NiggliClass 17 g.A g.B g.C g.D g.E g.F ↔
    HasType (classType 17) g ∧ ∀ l ∈ classEqs 17, l.val g = 0 := by
  change TypeII g.D g.E g.F ∧ _ ↔ TypeII g.D g.E g.F ∧ _
  refine and_congr_right fun ht => ?_
  rw [abs_sum_of ht]
  simp only [classEqs, List.forall_mem_cons, List.not_mem_nil, false_imp_iff, implies_true, and_true, Lin.val]
  push_cast
  constructor
  · rintro ⟨h1, h2⟩
    refine ⟨?_, ?_⟩ <;> linarith
  · rintro ⟨h1, h2⟩
    refine ⟨?_, ?_⟩ <;> linarith

theorem classEqs_18 (g : Six) : NiggliClass 18 g.A g.B g.C g.D g.E g.F ↔
    HasType (classType 18) g ∧ ∀ l ∈ classEqs 18, l.val g = 0 := by
  change TypeI g.D g.E g.F ∧ _ ↔ TypeI g.D g.E g.F ∧ _
  refine and_congr_right fun ht => ?_
  simp only [classEqs, List.forall_mem_cons, List.not_mem_nil, false_imp_iff, implies_true, and_true, Lin.val]
  push_cast
  constructor
  · rintro ⟨h1, h2, h3, h4⟩
    refine ⟨?_, ?_, ?_, ?_⟩ <;> linarith
  · rintro ⟨h1, h2, h3, h4⟩
    refine ⟨?_, ?_, ?_, ?_⟩ <;> linarith

theorem classEqs_19 (g : Six) : NiggliClass 19 g.A g.B g.C g.D g.E g.F ↔
    HasType (classType 19) g ∧ ∀ l ∈ classEqs 19, l.val g = 0 := by
  change TypeI g.D g.E g.F ∧ _ ↔ TypeI g.D g.E g.F ∧ _
  refine and_congr_right fun ht => ?_
  simp only [classEqs, List.forall_mem_cons, List.not_mem_nil, false_imp_iff, implies_true, and_true, Lin.val]
  push_cast
  constructor
  · rintro ⟨h1, h2, h3⟩
    refine ⟨?_, ?_, ?_⟩ <;> linarith
  · rintro ⟨h1, h2, h3⟩
    refine ⟨?_, ?_, ?_⟩ <;> linarith

theorem classEqs_20 (g : Six) : NiggliClass 20 g.A g.B g.C g.D g.E g.F ↔
    HasType (classType 20) g ∧ ∀ l ∈ classEqs 20, l.val g = 0 := by
  change TypeI g.D g.E g.F ∧ _ ↔ TypeI g.D g.E g.F ∧ _
  refine and_congr_right fun ht => ?_
  simp only [classEqs, List.forall_mem_cons, List.not_mem_nil, false_imp_iff, implies_true, and_true, Lin.val]
  push_cast
  constructor
  · rintro ⟨h1, h2⟩
    refine ⟨?_, ?_⟩ <;> linarith
  · rintro ⟨h1, h2⟩
    refine ⟨?_, ?_⟩ <;> linarith

theorem classEqs_21 (g : Six) : NiggliClass 21 g.A g.B g.C g.D g.E g.F ↔
    HasType (classType 21) g ∧ ∀ l ∈ classEqs 21, l.val g = 0 := by
  change TypeII g.D g.E g.F ∧ _ ↔ TypeII g.D g.E g.F ∧ _
  refine and_congr_right fun ht => ?_
  simp only [classEqs, List.forall_mem_cons, List.not_mem_nil, false_imp_iff, implies_true, and_true, Lin.val]
  push_cast
  constructor
  · rintro ⟨h1, h2, h3, h4⟩
    refine ⟨?_, ?_, ?_, ?_⟩ <;> linarith
  · rintro ⟨h1, h2, h3, h4⟩
    refine ⟨?_, ?_, ?_, ?_⟩ <;> linarith

theorem classEqs_22 (g : Six) : NiggliClass 22 g.A g.B g.C g.D g.E g.F ↔
    HasType (classType 22) g ∧ ∀ l ∈ classEqs 22, l.val g = 0 := by
  change TypeII g.D g.E g.F ∧ _ ↔ TypeII g.D g.E g.F ∧ _
  refine and_congr_right fun ht => ?_
  simp only [classEqs, List.forall_mem_cons, List.not_mem_nil, false_imp_iff, implies_true, and_true, Lin.val]
  push_cast
  constructor
  · rintro ⟨h1, h2, h3, h4⟩
    refine ⟨?_, ?_, ?_, ?_⟩ <;> linarith
  · rintro ⟨h1, h2, h3, h4⟩
    refine ⟨?_, ?_, ?_, ?_⟩ <;> linarith

theorem classEqs_23 (g : Six) : NiggliClass 23 g.A g.B g.C g.D g.E g.F ↔
    HasType (classType 23) g ∧ ∀ l ∈ classEqs 23, l.val g = 0 := by
  change TypeII g.D g.E g.F ∧ _ ↔ TypeII g.D g.E g.F ∧ _
  refine and_congr_right fun ht => ?_
  simp only [classEqs, List.forall_mem_cons, List.not_mem_nil, false_imp_iff, implies_true, and_true, Lin.val]
  push_cast
  constructor
  · rintro ⟨h1, h2, h3⟩
    refine ⟨?_, ?_, ?_⟩ <;> linarith
  · rintro ⟨h1, h2, h3⟩
    refine ⟨?_, ?_, ?_⟩ <;> linarith

theorem classEqs_24 (g : Six) : NiggliClass 24 g.A g.B g.C g.D g.E g.F ↔
    HasType (classType 24) g ∧ ∀ l ∈ classEqs 24, l.val g = 0 := by
  change TypeII g.D g.E g.F ∧ _ ↔ TypeII g.D g.E g.F ∧ _
  refine and_congr_right fun ht => ?_
  rw [abs_sum_of ht]
  simp only [classEqs, List.forall_mem_cons, List.not_mem_nil, false_imp_iff, implies_true, and_true, Lin.val]
  push_cast
  constructor
  · rintro ⟨h1, h2, h3, h4⟩
    refine ⟨?_, ?_, ?_, ?_⟩ <;> linarith
  · rintro ⟨h1, h2, h3, h4⟩
    refine ⟨?_, ?_, ?_, ?_⟩ <;> linarith

theorem classEqs_25 (g : Six) : NiggliClass 25 g.A g.B g.C g.D g.E g.F ↔
    HasType (classType 25) g ∧ ∀ l ∈ classEqs 25, l.val g = 0 := by
  change TypeII g.D g.E g.F ∧ _ ↔ TypeII g.D g.E g.F ∧ _
  refine and_congr_right fun ht => ?_
  simp only [classEqs, List.forall_mem_cons, List.not_mem_nil, false_imp_iff, implies_true, and_true, Lin.val]
  push_cast
  constructor
  · rintro ⟨h1, h2⟩
    refine ⟨?_, ?_⟩ <;> linarith
  · rintro ⟨h1, h2⟩
    refine ⟨?_, ?_⟩ <;> linarith

theorem classEqs_26 (g : Six) : NiggliClass 26 g.A g.B g.C g.D g.E g.F ↔
    HasType (classType 26) g ∧ ∀ l ∈ classEqs 26, l.val g = 0 := by
  change TypeI g.D g.E g.F ∧ _ ↔ TypeI g.D g.E g.F ∧ _
  refine and_congr_right fun ht => ?_
  simp only [classEqs, List.forall_mem_cons, List.not_mem_nil, false_imp_iff, implies_true, and_true, Lin.val]
  push_cast
  constructor
  · rintro ⟨h1, h2, h3⟩
    refine ⟨?_, ?_, ?_⟩ <;> linarith
  · rintro ⟨h1, h2, h3⟩
    refine ⟨?_, ?_, ?_⟩ <;> linarith

theorem classEqs_27 (g : Six) : NiggliClass 27 g.A g.B g.C g.D g.E g.F ↔
    HasType (classType 27) g ∧ ∀ l ∈ classEqs 27, l.val g = 0 := by
  change TypeI g.D g.E g.F ∧ _ ↔ TypeI g.D g.E g.F ∧ _
  refine and_congr_right fun ht => ?_
  simp only [classEqs, List.forall_mem_cons, List.not_mem_nil, false_imp_iff, implies_true, and_true, Lin.val]
  push_cast
  constructor
  · rintro ⟨h1, h2⟩
    refine ⟨?_, ?_⟩ <;> linarith
  · rintro ⟨h1, h2⟩
    refine ⟨?_, ?_⟩ <;> linarith

theorem classEqs_28 (g : Six) : NiggliClass 28 g.A g.B g.C g.D g.E g.F ↔
    HasType (classType 28) g ∧ ∀ l ∈ classEqs 28, l.val g = 0 := by
  change TypeI g.D g.E g.F ∧ _ ↔ TypeI g.D g.E g.F ∧ _
  refine and_congr_right fun ht => ?_
  simp only [classEqs, List.forall_mem_cons, List.not_mem_nil, false_imp_iff, implies_true, and_true, Lin.val]
  push_cast
  constructor
  · rintro ⟨h1, h2⟩
    refine ⟨?_, ?_⟩ <;> linarith
  · rintro ⟨h1, h2⟩
    refine ⟨?_, ?_⟩ <;> linarith

theorem classEqs_29 (g : Six) : NiggliClass 29 g.A g.B g.C g.D g.E g.F ↔
    HasType (classType 29) g ∧ ∀ l ∈ classEqs 29, l.val g = 0 := by
  change TypeI g.D g.E g.F ∧ _ ↔ TypeI g.D g.E g.F ∧ _
  refine and_congr_right fun ht => ?_
  simp only [classEqs, List.forall_mem_cons, List.not_mem_nil, false_imp_iff, implies_true, and_true, Lin.val]
  push_cast
  constructor
  · rintro ⟨h1, h2⟩
    refine ⟨?_, ?_⟩ <;> linarith
  · rintro ⟨h1, h2⟩
    refine ⟨?_, ?_⟩ <;> linarith

theorem classEqs_30 (g : Six) : NiggliClass 30 g.A g.B g.C g.D g.E g.F ↔
    HasType (classType 30) g ∧ ∀ l ∈ classEqs 30, l.val g = 0 := by
  change TypeI g.D g.E g.F ∧ _ ↔ TypeI g.D g.E g.F ∧ _
  refine and_congr_right fun ht => ?_
  simp only [classEqs, List.forall_mem_cons, List.not_mem_nil, false_imp_iff, implies_true, and_true, Lin.val]
  push_cast
  constructor
  · rintro ⟨h1, h2⟩
    refine ⟨?_, ?_⟩ <;> linarith
  · rintro ⟨h1, h2⟩
    refine ⟨?_, ?_⟩ <;> linarith

theorem classEqs_31 (g : Six) : NiggliClass 31 g.A g.B g.C g.D g.E g.F ↔
    HasType (classType 31) g ∧ ∀ l ∈ classEqs 31, l.val g = 0 := by
  simp only [NiggliClass, classEqs, List.not_mem_nil, false_imp_iff, implies_true, and_true]
  exact Iff.rfl

theorem classEqs_32 (g : Six) : NiggliClass 32 g.A g.B g.C g.D g.E g.F ↔
    HasType (classType 32) g ∧ ∀ l ∈ classEqs 32, l.val g = 0 := by
  change TypeII g.D g.E g.F ∧ _ ↔ TypeII g.D g.E g.F ∧ _
  refine and_congr_right fun ht => ?_
  simp only [classEqs, List.forall_mem_cons, List.not_mem_nil, false_imp_iff, implies_true, and_true, Lin.val]
  push_cast
  constructor
  · rintro ⟨h1, h2, h3⟩
    refine ⟨?_, ?_, ?_⟩ <;> linarith
  · rintro ⟨h1, h2, h3⟩
    refine ⟨?_, ?_, ?_⟩ <;> linarith

theorem classEqs_33 (g : Six) : NiggliClass 33 g.A g.B g.C g.D g.E g.F ↔
    HasType (classType 33) g ∧ ∀ l ∈ classEqs 33, l.val g = 0 := by
  change TypeII g.D g.E g.F ∧ _ ↔ TypeII g.D g.E g.F ∧ _
  refine and_congr_right fun ht => ?_
  simp only [classEqs, List.forall_mem_cons, List.not_mem_nil, false_imp_iff, implies_true, and_true, Lin.val]
  push_cast
  constructor
  · rintro ⟨h1, h2⟩
    refine ⟨?_, ?_⟩ <;> linarith
  · rintro ⟨h1, h2⟩
    refine ⟨?_, ?_⟩ <;> linarith

theorem classEqs_34 (g : Six) : NiggliClass 34 g.A g.B g.C g.D g.E g.F ↔
    HasType (classType 34) g ∧ ∀ l ∈ classEqs 34, l.val g = 0 := by
  change TypeII g.D g.E g.F ∧ _ ↔ TypeII g.D g.E g.F ∧ _
  refine and_congr_right fun ht => ?_
  simp only [classEqs, List.forall_mem_cons, List.not_mem_nil, false_imp_iff, implies_true, and_true, Lin.val]
  push_cast
  constructor
  · rintro ⟨h1, h2⟩
    refine ⟨?_, ?_⟩ <;> linarith
  · rintro ⟨h1, h2⟩
    refine ⟨?_, ?_⟩ <;> linarith

theorem classEqs_35 (g : Six) : NiggliClass 35 g.A g.B g.C g.D g.E g.F ↔
    HasType (classType 35) g ∧ ∀ l ∈ classEqs 35, l.val g = 0 := by
  change TypeII g.D g.E g.F ∧ _ ↔ TypeII g.D g.E g.F ∧ _
  refine and_congr_right fun ht => ?_
  simp only [classEqs, List.forall_mem_cons, List.not_mem_nil, false_imp_iff, implies_true, and_true, Lin.val]
  push_cast
  constructor
  · rintro ⟨h1, h2⟩
    refine ⟨?_, ?_⟩ <;> linarith
  · rintro ⟨h1, h2⟩
    refine ⟨?_, ?_⟩ <;> linarith

theorem classEqs_36 (g : Six) : NiggliClass 36 g.A g.B g.C g.D g.E g.F ↔
    HasType (classType 36) g ∧ ∀ l ∈ classEqs 36, l.val g = 0 := by
  change TypeII g.D g.E g.F ∧ _ ↔ TypeII g.D g.E g.F ∧ _
  refine and_congr_right fun ht => ?_
  simp only [classEqs, List.forall_mem_cons, List.not_mem_nil, false_imp_iff, implies_true, and_true, Lin.val]
  push_cast
  constructor
  · rintro ⟨h1, h2, h3⟩
    refine ⟨?_, ?_, ?_⟩ <;> linarith
  · rintro ⟨h1, h2, h3⟩
    refine ⟨?_, ?_, ?_⟩ <;> linarith

theorem classEqs_37 (g : Six) : NiggliClass 37 g.A g.B g.C g.D g.E g.F ↔
    HasType (classType 37) g ∧ ∀ l ∈ classEqs 37, l.val g = 0 := by
  change TypeII g.D g.E g.F ∧ _ ↔ TypeII g.D g.E g.F ∧ _
  refine and_congr_right fun ht => ?_
  simp only [classEqs, List.forall_mem_cons, List.not_mem_nil, false_imp_iff, implies_true, and_true, Lin.val]
  push_cast
  constructor
  · rintro ⟨h1, h2⟩
    refine ⟨?_, ?_⟩ <;> linarith
  · rintro ⟨h1, h2⟩
    refine ⟨?_, ?_⟩ <;> linarith

theorem classEqs_38 (g : Six) : NiggliClass 38 g.A g.B g.C g.D g.E g.F ↔
    HasType (classType 38) g ∧ ∀ l ∈ classEqs 38, l.val g = 0 := by
  change TypeII g.D g.E g.F ∧ _ ↔ TypeII g.D g.E g.F ∧ _
  refine and_congr_right fun ht => ?_
  simp only [classEqs, List.forall_mem_cons, List.not_mem_nil, false_imp_iff, implies_true, and_true, Lin.val]
  push_cast
  constructor
  · rintro ⟨h1, h2, h3⟩
    refine ⟨?_, ?_, ?_⟩ <;> linarith
  · rintro ⟨h1, h2, h3⟩
    refine ⟨?_, ?_, ?_⟩ <;> linarith

theorem classEqs_39 (g : Six) : NiggliClass 39 g.A g.B g.C g.D g.E g.F ↔
    HasType (classType 39) g ∧ ∀ l ∈ classEqs 39, l.val g = 0 := by
  change TypeII g.D g.E g.F ∧ _ ↔ TypeII g.D g.E g.F ∧ _
  refine and_congr_right fun ht => ?_
  simp only [classEqs, List.forall_mem_cons, List.not_mem_nil, false_imp_iff, implies_true, and_true, Lin.val]
  push_cast
  constructor
  · rintro ⟨h1, h2⟩
    refine ⟨?_, ?_⟩ <;> linarith
  · rintro ⟨h1, h2⟩
    refine ⟨?_, ?_⟩ <;> linarith

theorem classEqs_40 (g : Six) : NiggliClass 40 g.A g.B g.C g.D g.E g.F ↔
    HasType (classType 40) g ∧ ∀ l ∈ classEqs 40, l.val g = 0 := by
  change TypeII g.D g.E g.F ∧ _ ↔ TypeII g.D g.E g.F ∧ _
  refine and_congr_right fun ht => ?_
  simp only [classEqs, List.forall_mem_cons, List.not_mem_nil, false_imp_iff, implies_true, and_true, Lin.val]
  push_cast
  constructor
  · rintro ⟨h1, h2, h3⟩
    refine ⟨?_, ?_, ?_⟩ <;> linarith
  · rintro ⟨h1, h2, h3⟩
    refine ⟨?_, ?_, ?_⟩ <;> linarith

theorem classEqs_41 (g : Six) : NiggliClass 41 g.A g.B g.C g.D g.E g.F ↔
    HasType (classType 41) g ∧ ∀ l ∈ classEqs 41, l.val g = 0 := by
  change TypeII g.D g.E g.F ∧ _ ↔ TypeII g.D g.E g.F ∧ _
  refine and_congr_right fun ht => ?_
  simp only [classEqs, List.forall_mem_cons, List.not_mem_nil, false_imp_iff, implies_true, and_true, Lin.val]
  push_cast
  constructor
  · rintro ⟨h1, h2⟩
    refine ⟨?_, ?_⟩ <;> linarith
  · rintro ⟨h1, h2⟩
    refine ⟨?_, ?_⟩ <;> linarith

theorem classEqs_42 (g : Six) : NiggliClass 42 g.A g.B g.C g.D g.E g.F ↔
    HasType (classType 42) g ∧ ∀ l ∈ classEqs 42, l.val g = 0 := by
  change TypeII g.D g.E g.F ∧ _ ↔ TypeII g.D g.E g.F ∧ _
  refine and_congr_right fun ht => ?_
  simp only [classEqs, List.forall_mem_cons, List.not_mem_nil, false_imp_iff, implies_true, and_true, Lin.val]
  push_cast
  constructor
  · rintro ⟨h1, h2, h3⟩
    refine ⟨?_, ?_, ?_⟩ <;> linarith
  · rintro ⟨h1, h2, h3⟩
    refine ⟨?_, ?_, ?_⟩ <;> linarith

theorem classEqs_43 (g : Six) : NiggliClass 43 g.A g.B g.C g.D g.E g.F ↔
    HasType (classType 43) g ∧ ∀ l ∈ classEqs 43, l.val g = 0 := by
  change TypeII g.D g.E g.F ∧ _ ↔ TypeII g.D g.E g.F ∧ _
  refine and_congr_right fun ht => ?_
  rw [abs_sum_of ht]
  rw [abs_last_of ht]
  simp only [classEqs, List.forall_mem_cons, List.not_mem_nil, false_imp_iff, implies_true, and_true, Lin.val]
  push_cast
  constructor
  · rintro ⟨h1, h2⟩
    refine ⟨?_, ?_⟩ <;> linarith
  · rintro ⟨h1, h2⟩
    refine ⟨?_, ?_⟩ <;> linarith

theorem classEqs_44 (g : Six) : NiggliClass 44 g.A g.B g.C g.D g.E g.F ↔
    HasType (classType 44) g ∧ ∀ l ∈ classEqs 44, l.val g = 0 := by
  simp only [NiggliClass, classEqs, List.not_mem_nil, false_imp_iff, implies_true, and_true]
  exact Iff.rfl

theorem classEqs_iff (g : Six) {k : ℕ} (hk : k ∈ classTable) :
    NiggliClass k g.A g.B g.C g.D g.E g.F ↔ HasType (classType k) g ∧ ∀ l ∈ classEqs k, l.val g = 0 := by
  have hk' : 1 ≤ k ∧ k ≤ 44 := by revert k; decide
  obtain ⟨h1, h2⟩ := hk'
  interval_cases k
  · exact classEqs_1 g
  · exact classEqs_2 g
  · exact classEqs_3 g
  · exact classEqs_4 g
  · exact classEqs_5 g
  · exact classEqs_6 g
  · exact classEqs_7 g
  · exact classEqs_8 g
  · exact classEqs_9 g
  · exact classEqs_10 g
  · exact classEqs_11 g
  · exact classEqs_12 g
  · exact classEqs_13 g
  · exact classEqs_14 g
  · exact classEqs_15 g
  · exact classEqs_16 g
  · exact classEqs_17 g
  · exact classEqs_18 g
  · exact classEqs_19 g
  · exact classEqs_20 g
  · exact classEqs_21 g
  · exact classEqs_22 g
  · exact classEqs_23 g
  · exact classEqs_24 g
  · exact classEqs_25 g
  · exact classEqs_26 g
  · exact classEqs_27 g
  · exact classEqs_28 g
  · exact classEqs_29 g
  · exact classEqs_30 g
  · exact classEqs_31 g
  · exact classEqs_32 g
  · exact classEqs_33 g
  · exact classEqs_34 g
  · exact classEqs_35 g
  · exact classEqs_36 g
  · exact classEqs_37 g
  · exact classEqs_38 g
  · exact classEqs_39 g
  · exact classEqs_40 g
  · exact classEqs_41 g
  · exact classEqs_42 g
  · exact classEqs_43 g
  · exact classEqs_44 g

/-- What ends a branch: a contradiction, or a class. -/
inductive Leaf
  /-- The form number `s` that is positive cannot be. -/
  | no (st : List (ℕ × Cert)) (s : ℕ) (c : Cert)
  /-- The cell is in class `k`. -/
  | yes (st : List (ℕ × Cert)) (k : ℕ) (cs : List (Cert × Cert))

/-- The certificates prove that all the forms are zero. -/
def allZero (facts : List Lin) : List Lin → List (Cert × Cert) → Bool
  | [], [] => true
  | l :: ls, (c1, c2) :: cs => derives facts c1 l && derives facts c2 l.neg && allZero facts ls cs
  | _, _ => false

theorem allZero_zero {facts : List Lin} {g : Six} (h : ∀ l ∈ facts, 0 ≤ l.val g) :
    ∀ {ls : List Lin} {cs : List (Cert × Cert)}, allZero facts ls cs = true → ∀ l ∈ ls, l.val g = 0
  | [], _, _, l, hl => by cases hl
  | m :: ls, [], hz, _, _ => by simp [allZero] at hz
  | m :: ls, (c1, c2) :: cs, hz, l, hl => by
    simp only [allZero, Bool.and_eq_true] at hz
    rcases List.mem_cons.1 hl with rfl | hl
    · have h1 := derives_nonneg h hz.1.1
      have h2 := derives_nonneg h hz.1.2
      rw [Lin.val_neg] at h2
      linarith
    · exact allZero_zero h hz.2 l hl

/-- The branch is contradictory. -/
def noOk (t : Bool) (facts : List Lin) (st : List (ℕ × Cert)) (s : ℕ) (c : Cert) : Bool :=
  match close (imps t) facts st, (stricts t)[s]? with
  | some fs, some l => derives fs c l.neg
  | _, _ => false

/-- The cell is in class `k`. -/
def yesOk (t : Bool) (facts : List Lin) (st : List (ℕ × Cert)) (k : ℕ) (cs : List (Cert × Cert)) : Bool :=
  match close (imps t) facts st with
  | some fs => decide (classType k = t) && allZero fs (classEqs k) cs
  | none => false

theorem noOk_false {g : Six} (h : NiggliReduced g.A g.B g.C g.D g.E g.F) {t : Bool} (ht : HasType t g)
    {facts : List Lin} (hf : ∀ l ∈ facts, 0 ≤ l.val g) {st : List (ℕ × Cert)} {s : ℕ} {c : Cert} :
    noOk t facts st s c = false := by
  by_contra hc
  rw [Bool.not_eq_false, noOk] at hc
  cases h1 : close (imps t) facts st with
  | none => rw [h1] at hc; cases hc
  | some fs =>
    cases h2 : (stricts t)[s]? with
    | none => rw [h1, h2] at hc; cases hc
    | some l =>
      rw [h1, h2] at hc
      have h3 := derives_nonneg (close_nonneg (imps_hold h ht) st hf h1) hc
      have h4 := stricts_pos h ht l (List.mem_of_getElem? h2)
      rw [Lin.val_neg] at h3
      linarith

theorem yesOk_class {g : Six} (h : NiggliReduced g.A g.B g.C g.D g.E g.F) {t : Bool} (ht : HasType t g)
    {facts : List Lin} (hf : ∀ l ∈ facts, 0 ≤ l.val g) {st : List (ℕ × Cert)} {k : ℕ} {cs : List (Cert × Cert)}
    (hk : k ∈ classTable) (hy : yesOk t facts st k cs = true) : NiggliClass k g.A g.B g.C g.D g.E g.F := by
  rw [yesOk] at hy
  cases h1 : close (imps t) facts st with
  | none => rw [h1] at hy; cases hy
  | some fs =>
    rw [h1] at hy
    simp only [Bool.and_eq_true, decide_eq_true_eq] at hy
    rw [classEqs_iff g hk, hy.1]
    exact ⟨ht, allZero_zero (close_nonneg (imps_hold h ht) st hf h1) hy.2⟩

end AutoGR
