import Verif.Lemmas.Farkas
import Verif.Lemmas.ClassSym

/-!
# The search through all possible symmetries of a reduced cell

The columns of a symmetry of a reduced cell are vectors with entries in `{-1, 0, 1}`.  The search fixes one
column after the other; every branch ends with a contradiction, or with a class and a symmetry of the class.
-/

namespace AutoGR

open Spec Matrix

/-- Scalar product of two vectors, as a linear form of the metric. -/
def bilLin (u v : ℤ × ℤ × ℤ) : Lin :=
  ⟨u.1 * v.1, u.2.1 * v.2.1, u.2.2 * v.2.2, u.2.1 * v.2.2 + u.2.2 * v.2.1, u.1 * v.2.2 + u.2.2 * v.1,
    u.1 * v.2.1 + u.2.1 * v.1⟩

/-- A form that is zero gives two inequalities. -/
def both (l : Lin) : List Lin := [l, l.neg]

/-- Equation of the first column. -/
def eqs1 (u : ℤ × ℤ × ℤ) : List Lin := both ((bilLin u u).add ⟨-1, 0, 0, 0, 0, 0⟩)

/-- Equations of the second column. -/
def eqs2 (u v : ℤ × ℤ × ℤ) : List Lin :=
  both ((bilLin u v).add ⟨0, 0, 0, 0, 0, -1⟩) ++ both ((bilLin v v).add ⟨0, -1, 0, 0, 0, 0⟩)

/-- Equations of the third column. -/
def eqs3 (u v w : ℤ × ℤ × ℤ) : List Lin :=
  both ((bilLin u w).add ⟨0, 0, 0, 0, -1, 0⟩) ++ both ((bilLin v w).add ⟨0, 0, 0, -1, 0, 0⟩) ++
    both ((bilLin w w).add ⟨0, 0, -1, 0, 0, 0⟩)

/-- The six equations for the matrix with these columns to be a symmetry. -/
structure FixCols (g : Six) (u v w : ℤ × ℤ × ℤ) : Prop where
  uu : (bilLin u u).val g = g.A
  uv : (bilLin u v).val g = g.F
  vv : (bilLin v v).val g = g.B
  uw : (bilLin u w).val g = g.E
  vw : (bilLin v w).val g = g.D
  ww : (bilLin w w).val g = g.C

theorem both_nonneg {l : Lin} {g : Six} (h : l.val g = 0) : ∀ m ∈ both l, 0 ≤ m.val g := by
  intro m hm
  simp only [both, List.mem_cons, List.not_mem_nil, or_false] at hm
  rcases hm with rfl | rfl
  · rw [h]
  · rw [Lin.val_neg, h, neg_zero]

theorem eqs1_nonneg {g : Six} {u v w : ℤ × ℤ × ℤ} (h : FixCols g u v w) : ∀ m ∈ eqs1 u, 0 ≤ m.val g :=
  both_nonneg (by rw [Lin.val_add, h.uu]; simp [Lin.val])

theorem eqs2_nonneg {g : Six} {u v w : ℤ × ℤ × ℤ} (h : FixCols g u v w) : ∀ m ∈ eqs2 u v, 0 ≤ m.val g := by
  intro m hm
  rcases List.mem_append.1 hm with hm | hm
  · exact both_nonneg (by rw [Lin.val_add, h.uv]; simp [Lin.val]) m hm
  · exact both_nonneg (by rw [Lin.val_add, h.vv]; simp [Lin.val]) m hm

theorem eqs3_nonneg {g : Six} {u v w : ℤ × ℤ × ℤ} (h : FixCols g u v w) : ∀ m ∈ eqs3 u v w, 0 ≤ m.val g := by
  intro m hm
  rcases List.mem_append.1 hm with hm | hm
  · rcases List.mem_append.1 hm with hm | hm
    · exact both_nonneg (by rw [Lin.val_add, h.uw]; simp [Lin.val]) m hm
    · exact both_nonneg (by rw [Lin.val_add, h.vw]; simp [Lin.val]) m hm
  · exact both_nonneg (by rw [Lin.val_add, h.ww]; simp [Lin.val]) m hm

/-- One integer metric of each class. -/
def wit : ℕ → Form
  | 1 => ⟨2, 2, 2, 1, 1, 1⟩
  | 2 => ⟨3, 3, 3, 1, 1, 1⟩
  | 3 => ⟨1, 1, 1, 0, 0, 0⟩
  | 4 => ⟨4, 4, 4, -1, -1, -1⟩
  | 5 => ⟨3, 3, 3, -1, -1, -1⟩
  | 6 => ⟨10, 10, 10, -3, -3, -4⟩
  | 7 => ⟨8, 8, 8, -2, -3, -3⟩
  | 8 => ⟨16, 16, 16, -4, -5, -7⟩
  | 9 => ⟨2, 2, 3, 1, 1, 1⟩
  | 10 => ⟨3, 3, 4, 1, 1, 1⟩
  | 11 => ⟨1, 1, 2, 0, 0, 0⟩
  | 12 => ⟨2, 2, 2, 0, 0, -1⟩
  | 13 => ⟨3, 3, 3, 0, 0, -1⟩
  | 14 => ⟨3, 3, 5, -1, -1, 0⟩
  | 15 => ⟨2, 2, 3, -1, -1, 0⟩
  | 16 => ⟨3, 3, 4, -1, -1, -1⟩
  | 17 => ⟨5, 5, 6, -1, -2, -2⟩
  | 18 => ⟨4, 4, 4, 1, 2, 2⟩
  | 19 => ⟨2, 3, 3, 1, 1, 1⟩
  | 20 => ⟨3, 4, 4, 1, 1, 1⟩
  | 21 => ⟨1, 2, 2, 0, 0, 0⟩
  | 22 => ⟨1, 2, 2, -1, 0, 0⟩
  | 23 => ⟨1, 3, 3, -1, 0, 0⟩
  | 24 => ⟨6, 8, 8, -3, -2, -2⟩
  | 25 => ⟨3, 3, 3, 0, -1, -1⟩
  | 26 => ⟨4, 4, 5, 1, 2, 2⟩
  | 27 => ⟨2, 3, 4, 1, 1, 1⟩
  | 28 => ⟨6, 7, 10, 1, 3, 2⟩
  | 29 => ⟨6, 6, 6, 1, 2, 3⟩
  | 30 => ⟨4, 6, 6, 3, 1, 2⟩
  | 31 => ⟨8, 12, 12, 4, 1, 2⟩
  | 32 => ⟨1, 2, 3, 0, 0, 0⟩
  | 33 => ⟨3, 3, 4, 0, -1, 0⟩
  | 34 => ⟨3, 4, 4, 0, 0, -1⟩
  | 35 => ⟨2, 3, 4, -1, 0, 0⟩
  | 36 => ⟨2, 2, 3, 0, -1, 0⟩
  | 37 => ⟨2, 3, 4, -1, -1, 0⟩
  | 38 => ⟨2, 3, 3, 0, 0, -1⟩
  | 39 => ⟨2, 3, 3, -1, 0, -1⟩
  | 40 => ⟨1, 2, 3, -1, 0, 0⟩
  | 41 => ⟨3, 4, 5, -2, -1, 0⟩
  | 42 => ⟨2, 4, 5, -2, -1, 0⟩
  | 43 => ⟨8, 12, 14, -5, -3, -2⟩
  | 44 => ⟨10, 16, 16, -3, -1, -3⟩
  | _ => ⟨1, 1, 1, 0, 0, 0⟩

/-- The matrix with these columns is a symmetry of the chosen metric of class `k`. -/
def witFix (k : ℕ) (u v w : ℤ × ℤ × ℤ) : Bool :=
  (wit k).bil u u = (wit k).A && (wit k).bil v v = (wit k).B && (wit k).bil w w = (wit k).C &&
    (wit k).bil v w = (wit k).D && (wit k).bil u w = (wit k).E && (wit k).bil u v = (wit k).F

/-- Choices of the third column. -/
inductive Tree2
  /-- No third column. -/
  | no (st : List (ℕ × Cert)) (s : ℕ) (c : Cert)
  /-- What is known for each third column. -/
  | node (ls : List Leaf)

/-- Choices of the second column. -/
inductive Tree1
  /-- No second column. -/
  | no (st : List (ℕ × Cert)) (s : ℕ) (c : Cert)
  /-- What is known for each second column. -/
  | node (ts : List Tree2)

/-- Checks a complete choice of columns. -/
def Leaf.check (t : Bool) (facts : List Lin) (u v w : ℤ × ℤ × ℤ) : Leaf → Bool
  | .no st s c => noOk t facts st s c
  | .yes st k cs => decide (k ∈ classTable) && yesOk t facts st k cs && witFix k u v w

/-- Checks all third columns. -/
def Tree2.check (t : Bool) (facts : List Lin) (u v : ℤ × ℤ × ℤ) : Tree2 → Bool
  | .no st s c => noOk t facts st s c
  | .node ls => decide (ls.length = 27) &&
      (Form.vecs.zip ls).all fun x => Leaf.check t (facts ++ eqs3 u v x.1) u v x.1 x.2

/-- Checks all second columns. -/
def Tree1.check (t : Bool) (u : ℤ × ℤ × ℤ) : Tree1 → Bool
  | .no st s c => noOk t (ineqs t ++ eqs1 u) st s c
  | .node ts => decide (ts.length = 27) &&
      (Form.vecs.zip ts).all fun x => Tree2.check t (ineqs t ++ eqs1 u ++ eqs2 u x.1) u x.1 x.2

theorem exists_zip {α β : Type} {l : List α} {m : List β} (h : m.length = l.length) {a : α} (ha : a ∈ l) :
    ∃ b, (a, b) ∈ l.zip m := by
  obtain ⟨i, hi, rfl⟩ := List.getElem_of_mem ha
  refine ⟨m[i]'(by omega), ?_⟩
  have h2 : i < (l.zip m).length := by rw [List.length_zip]; omega
  have : (l.zip m)[i] = (l[i], m[i]'(by omega)) := List.getElem_zip
  rw [← this]
  exact List.getElem_mem h2

theorem Tree1.sound {g : Six} (h : NiggliReduced g.A g.B g.C g.D g.E g.F) {t : Bool} (ht : HasType t g)
    {u v w : ℤ × ℤ × ℤ} (hv : v ∈ Form.vecs) (hw : w ∈ Form.vecs) (hf : FixCols g u v w) {T : Tree1}
    (hT : T.check t u = true) :
    ∃ k ∈ classTable, NiggliClass k g.A g.B g.C g.D g.E g.F ∧ witFix k u v w = true := by
  have f1 : ∀ m ∈ ineqs t ++ eqs1 u, 0 ≤ m.val g := by
    intro m hm
    rcases List.mem_append.1 hm with hm | hm
    · exact ineqs_nonneg h ht m hm
    · exact eqs1_nonneg hf m hm
  have f2 : ∀ m ∈ ineqs t ++ eqs1 u ++ eqs2 u v, 0 ≤ m.val g := by
    intro m hm
    rcases List.mem_append.1 hm with hm | hm
    · exact f1 m hm
    · exact eqs2_nonneg hf m hm
  have f3 : ∀ m ∈ ineqs t ++ eqs1 u ++ eqs2 u v ++ eqs3 u v w, 0 ≤ m.val g := by
    intro m hm
    rcases List.mem_append.1 hm with hm | hm
    · exact f2 m hm
    · exact eqs3_nonneg hf m hm
  cases T with
  | no st s c =>
    rw [Tree1.check, noOk_false h ht f1] at hT; cases hT
  | node ts =>
    simp only [Tree1.check, Bool.and_eq_true, decide_eq_true_eq, List.all_eq_true] at hT
    obtain ⟨T2, hT2⟩ := exists_zip (l := Form.vecs) (m := ts) (by rw [hT.1]; rfl) hv
    have h2 := hT.2 _ hT2
    cases T2 with
    | no st s c =>
      rw [Tree2.check, noOk_false h ht f2] at h2; cases h2
    | node ls =>
      simp only [Tree2.check, Bool.and_eq_true, decide_eq_true_eq, List.all_eq_true] at h2
      obtain ⟨L, hL⟩ := exists_zip (l := Form.vecs) (m := ls) (by rw [h2.1]; rfl) hw
      have h3 := h2.2 _ hL
      cases L with
      | no st s c =>
        rw [Leaf.check, noOk_false h ht f3] at h3; cases h3
      | yes st k cs =>
        simp only [Leaf.check, Bool.and_eq_true, decide_eq_true_eq] at h3
        exact ⟨k, h3.1.1, yesOk_class h ht f3 h3.1.1 h3.1.2, h3.2⟩

end AutoGR
