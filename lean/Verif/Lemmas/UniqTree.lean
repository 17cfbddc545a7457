import Verif.Lemmas.SymTree

/-!
# The search through all pairs of reduced bases of one lattice

Two reduced bases of the same lattice have vectors of the same lengths, and each basis is a combination of the other with
factors in `{-1, 0, 1}`.  The search fixes one vector of the second basis after the other; every branch ends with a
contradiction, or with the equality of the scalar products.
-/

namespace AutoGR

open Spec Matrix

/-- A linear form of the metric of the second basis, as one of the metric of the first. -/
def substLin (u v w : ℤ × ℤ × ℤ) (l : Lin) : Lin :=
  ⟨l.a + l.d * (bilLin v w).a + l.e * (bilLin u w).a + l.f * (bilLin u v).a,
    l.b + l.d * (bilLin v w).b + l.e * (bilLin u w).b + l.f * (bilLin u v).b,
    l.c + l.d * (bilLin v w).c + l.e * (bilLin u w).c + l.f * (bilLin u v).c,
    l.d * (bilLin v w).d + l.e * (bilLin u w).d + l.f * (bilLin u v).d,
    l.d * (bilLin v w).e + l.e * (bilLin u w).e + l.f * (bilLin u v).e,
    l.d * (bilLin v w).f + l.e * (bilLin u w).f + l.f * (bilLin u v).f⟩

/-- `g` is the metric of the first basis, `g'` that of the second, with the vectors `u`, `v`, `w`. -/
structure TwoBases (g g' : Six) (u v w : ℤ × ℤ × ℤ) : Prop where
  A : g'.A = g.A
  B : g'.B = g.B
  C : g'.C = g.C
  uu : (bilLin u u).val g = g.A
  vv : (bilLin v v).val g = g.B
  ww : (bilLin w w).val g = g.C
  D : (bilLin v w).val g = g'.D
  E : (bilLin u w).val g = g'.E
  F : (bilLin u v).val g = g'.F

theorem substLin_val {g g' : Six} {u v w : ℤ × ℤ × ℤ} (h : TwoBases g g' u v w) (l : Lin) :
    (substLin u v w l).val g = l.val g' := by
  have : (substLin u v w l).val g = l.a * g.A + l.b * g.B + l.c * g.C + l.d * (bilLin v w).val g +
      l.e * (bilLin u w).val g + l.f * (bilLin u v).val g := by
    simp only [substLin, Lin.val]
    push_cast
    ring
  rw [this, h.D, h.E, h.F, ← h.A, ← h.B, ← h.C]
  rfl

/-- A contradiction. -/
def noOk2 (imps : List (Lin × Lin)) (stricts facts : List Lin) (st : List (ℕ × Cert)) (s : ℕ) (c : Cert) : Bool :=
  match close imps facts st, stricts[s]? with
  | some fs, some l => derives fs c l.neg
  | _, _ => false

theorem noOk2_false {imps : List (Lin × Lin)} {stricts facts : List Lin} {g : Six}
    (hi : ∀ x ∈ imps, x.1.val g ≤ 0 → 0 ≤ x.2.val g) (hs : ∀ l ∈ stricts, 0 < l.val g)
    (hf : ∀ l ∈ facts, 0 ≤ l.val g) (st : List (ℕ × Cert)) (s : ℕ) (c : Cert) :
    noOk2 imps stricts facts st s c = false := by
  unfold noOk2
  cases hc : close imps facts st with
  | none => rfl
  | some fs =>
    cases hl : stricts[s]? with
    | none => rfl
    | some l =>
      by_contra hd
      rw [Bool.not_eq_false] at hd
      have h1 := derives_nonneg (close_nonneg hi st hf hc) hd
      have h2 := hs l (List.mem_of_getElem? hl)
      rw [Lin.val_neg] at h1
      linarith

/-- All six forms follow. -/
def eqOk2 (imps : List (Lin × Lin)) (facts : List Lin) (st : List (ℕ × Cert)) (cs : List Cert) (ls : List Lin) : Bool :=
  match close imps facts st with
  | some fs => decide (cs.length = ls.length) && (ls.zip cs).all fun x => derives fs x.2 x.1
  | none => false

theorem eqOk2_nonneg {imps : List (Lin × Lin)} {facts : List Lin} {g : Six}
    (hi : ∀ x ∈ imps, x.1.val g ≤ 0 → 0 ≤ x.2.val g) (hf : ∀ l ∈ facts, 0 ≤ l.val g) {st : List (ℕ × Cert)}
    {cs : List Cert} {ls : List Lin} (h : eqOk2 imps facts st cs ls = true) : ∀ l ∈ ls, 0 ≤ l.val g := by
  unfold eqOk2 at h
  cases hc : close imps facts st with
  | none => rw [hc] at h; cases h
  | some fs =>
    rw [hc] at h
    simp only [Bool.and_eq_true, decide_eq_true_eq, List.all_eq_true] at h
    intro l hl
    obtain ⟨c, hlc⟩ := exists_zip h.1 hl
    exact derives_nonneg (close_nonneg hi st hf hc) (h.2 _ hlc)

/-- The determinant of three vectors. -/
def det3 (u v w : ℤ × ℤ × ℤ) : ℤ :=
  u.1 * (v.2.1 * w.2.2 - v.2.2 * w.2.1) - v.1 * (u.2.1 * w.2.2 - u.2.2 * w.2.1) +
    w.1 * (u.2.1 * v.2.2 - u.2.2 * v.2.1)

/-- What is known about a complete choice. -/
inductive ULeaf
  /-- Not a basis. -/
  | det
  /-- A contradiction. -/
  | no (st : List (ℕ × Cert)) (s : ℕ) (c : Cert)
  /-- The metrics are equal. -/
  | eq (st : List (ℕ × Cert)) (cs : List Cert)

/-- Choices of the third vector. -/
inductive UTree2
  /-- No third vector. -/
  | no (st : List (ℕ × Cert)) (s : ℕ) (c : Cert)
  /-- What is known for each third vector. -/
  | node (ls : List ULeaf)

/-- Choices of the second vector. -/
inductive UTree1
  /-- No second vector. -/
  | no (st : List (ℕ × Cert)) (s : ℕ) (c : Cert)
  /-- What is known for each second vector. -/
  | node (ts : List UTree2)

/-- Facts about the first vector. -/
def ufacts1 (t : Bool) (u : ℤ × ℤ × ℤ) : List Lin := ineqs t ++ both ((bilLin u u).add ⟨-1, 0, 0, 0, 0, 0⟩)

/-- The form, with the sign of the type. -/
def tsign (t : Bool) (l : Lin) : Lin := if t then l else l.neg

/-- Facts about the first two vectors. -/
def ufacts2 (t t' : Bool) (u v : ℤ × ℤ × ℤ) : List Lin :=
  ufacts1 t u ++ both ((bilLin v v).add ⟨0, -1, 0, 0, 0, 0⟩) ++
    [tsign t' (bilLin u v), (⟨1, 0, 0, 0, 0, 0⟩ : Lin).add (Lin.smul 2 (tsign t' (bilLin u v)).neg)]

/-- Facts about all three vectors. -/
def ufacts3 (t t' : Bool) (u v w : ℤ × ℤ × ℤ) : List Lin :=
  ineqs t ++ (ineqs t').map (substLin u v w) ++ both ((bilLin u u).add ⟨-1, 0, 0, 0, 0, 0⟩) ++
    both ((bilLin v v).add ⟨0, -1, 0, 0, 0, 0⟩) ++ both ((bilLin w w).add ⟨0, 0, -1, 0, 0, 0⟩)

/-- The special conditions of both metrics. -/
def uimps (t t' : Bool) (u v w : ℤ × ℤ × ℤ) : List (Lin × Lin) :=
  imps t ++ (imps t').map fun x => (substLin u v w x.1, substLin u v w x.2)

/-- The positive forms of both metrics. -/
def ustricts (t t' : Bool) (u v w : ℤ × ℤ × ℤ) : List Lin := stricts t ++ (stricts t').map (substLin u v w)

/-- The metrics are equal. -/
def ugoal (u v w : ℤ × ℤ × ℤ) : List Lin :=
  both ((bilLin v w).add ⟨0, 0, 0, -1, 0, 0⟩) ++ both ((bilLin u w).add ⟨0, 0, 0, 0, -1, 0⟩) ++
    both ((bilLin u v).add ⟨0, 0, 0, 0, 0, -1⟩)

/-- Checks a complete choice. -/
def ULeaf.check (t t' : Bool) (u v w : ℤ × ℤ × ℤ) : ULeaf → Bool
  | .det => decide (det3 u v w ≠ 1 ∧ det3 u v w ≠ -1)
  | .no st s c => noOk2 (uimps t t' u v w) (ustricts t t' u v w) (ufacts3 t t' u v w) st s c
  | .eq st cs => eqOk2 (uimps t t' u v w) (ufacts3 t t' u v w) st cs (ugoal u v w)

/-- Checks all third vectors. -/
def UTree2.check (t t' : Bool) (u v : ℤ × ℤ × ℤ) : UTree2 → Bool
  | .no st s c => noOk2 (imps t) (stricts t ++ if t' then [bilLin u v] else []) (ufacts2 t t' u v) st s c
  | .node ls => decide (ls.length = 27) && (Form.vecs.zip ls).all fun x => ULeaf.check t t' u v x.1 x.2

/-- Checks all second vectors. -/
def UTree1.check (t t' : Bool) (u : ℤ × ℤ × ℤ) : UTree1 → Bool
  | .no st s c => noOk2 (imps t) (stricts t) (ufacts1 t u) st s c
  | .node ts => decide (ts.length = 27) && (Form.vecs.zip ts).all fun x => UTree2.check t t' u x.1 x.2

theorem mem_append_nonneg {g : Six} {l m : List Lin} (hl : ∀ x ∈ l, 0 ≤ x.val g) (hm : ∀ x ∈ m, 0 ≤ x.val g) :
    ∀ x ∈ l ++ m, 0 ≤ x.val g := fun x hx => (List.mem_append.1 hx).elim (hl x) (hm x)

theorem UTree1.sound {g g' : Six} (h : NiggliReduced g.A g.B g.C g.D g.E g.F)
    (h' : NiggliReduced g'.A g'.B g'.C g'.D g'.E g'.F) {t t' : Bool} (ht : HasType t g) (ht' : HasType t' g')
    {u v w : ℤ × ℤ × ℤ} (hv : v ∈ Form.vecs) (hw : w ∈ Form.vecs) (hd : det3 u v w = 1 ∨ det3 u v w = -1)
    (hb : TwoBases g g' u v w) {T : UTree1} (hT : T.check t t' u = true) :
    g'.D = g.D ∧ g'.E = g.E ∧ g'.F = g.F := by
  have bu : ∀ x ∈ both ((bilLin u u).add ⟨-1, 0, 0, 0, 0, 0⟩), 0 ≤ x.val g :=
    both_nonneg (by rw [Lin.val_add, hb.uu]; simp [Lin.val])
  have bv : ∀ x ∈ both ((bilLin v v).add ⟨0, -1, 0, 0, 0, 0⟩), 0 ≤ x.val g :=
    both_nonneg (by rw [Lin.val_add, hb.vv]; simp [Lin.val])
  have bw : ∀ x ∈ both ((bilLin w w).add ⟨0, 0, -1, 0, 0, 0⟩), 0 ≤ x.val g :=
    both_nonneg (by rw [Lin.val_add, hb.ww]; simp [Lin.val])
  have f1 : ∀ x ∈ ufacts1 t u, 0 ≤ x.val g := mem_append_nonneg (ineqs_nonneg h ht) bu
  have f2 : ∀ x ∈ ufacts2 t t' u v, 0 ≤ x.val g := by
    refine mem_append_nonneg (mem_append_nonneg f1 bv) ?_
    simp only [List.forall_mem_cons, List.not_mem_nil, false_imp_iff, implies_true, and_true]
    have hA : (⟨1, 0, 0, 0, 0, 0⟩ : Lin).val g = g'.A := by rw [hb.A]; simp [Lin.val]
    rw [Lin.val_add, hA, Lin.val_smul, Lin.val_neg]
    cases t'
    · have e : (tsign false (bilLin u v)).val g = -g'.F := by
        rw [tsign, if_neg (by simp), Lin.val_neg, hb.F]
      rw [e]
      have h3 : g'.F ≤ 0 := (show TypeII g'.D g'.E g'.F by simpa [HasType] using ht').2.2
      have := h'.f_le
      rw [abs_of_nonpos h3] at this
      push_cast
      constructor <;> linarith
    · have e : (tsign true (bilLin u v)).val g = g'.F := by rw [tsign, if_pos rfl, hb.F]
      rw [e]
      have h3 : 0 < g'.F := (show TypeI g'.D g'.E g'.F by simpa [HasType] using ht').2.2
      have := h'.f_le
      rw [abs_of_pos h3] at this
      push_cast
      constructor <;> linarith
  have f3 : ∀ x ∈ ufacts3 t t' u v w, 0 ≤ x.val g := by
    refine mem_append_nonneg (mem_append_nonneg (mem_append_nonneg (mem_append_nonneg (ineqs_nonneg h ht) ?_) bu) bv) bw
    intro x hx
    obtain ⟨l, hl, rfl⟩ := List.mem_map.1 hx
    rw [substLin_val hb]
    exact ineqs_nonneg h' ht' l hl
  have i3 : ∀ x ∈ uimps t t' u v w, x.1.val g ≤ 0 → 0 ≤ x.2.val g := by
    intro x hx
    rcases List.mem_append.1 hx with hx | hx
    · exact imps_hold h ht x hx
    · obtain ⟨l, hl, rfl⟩ := List.mem_map.1 hx
      dsimp only
      rw [substLin_val hb, substLin_val hb]
      exact imps_hold h' ht' l hl
  have s3 : ∀ x ∈ ustricts t t' u v w, 0 < x.val g := by
    intro x hx
    rcases List.mem_append.1 hx with hx | hx
    · exact stricts_pos h ht x hx
    · obtain ⟨l, hl, rfl⟩ := List.mem_map.1 hx
      rw [substLin_val hb]
      exact stricts_pos h' ht' l hl
  cases T with
  | no st s c =>
    rw [UTree1.check, noOk2_false (imps_hold h ht) (stricts_pos h ht) f1] at hT; cases hT
  | node ts =>
    simp only [UTree1.check, Bool.and_eq_true, decide_eq_true_eq, List.all_eq_true] at hT
    obtain ⟨T2, hT2⟩ := exists_zip (l := Form.vecs) (m := ts) (by rw [hT.1]; rfl) hv
    have h2 := hT.2 _ hT2
    cases T2 with
    | no st s c =>
      rw [UTree2.check, noOk2_false (imps_hold h ht) (fun x hx => ?_) f2] at h2
      · cases h2
      · rcases List.mem_append.1 hx with hx | hx
        · exact stricts_pos h ht x hx
        · cases t'
          · simp at hx
          · simp only [if_true, List.mem_singleton] at hx
            rw [hx, hb.F]
            exact (show TypeI g'.D g'.E g'.F by simpa [HasType] using ht').2.2
    | node ls =>
      simp only [UTree2.check, Bool.and_eq_true, decide_eq_true_eq, List.all_eq_true] at h2
      obtain ⟨L, hL⟩ := exists_zip (l := Form.vecs) (m := ls) (by rw [h2.1]; rfl) hw
      have h3 := h2.2 _ hL
      cases L with
      | det =>
        simp only [ULeaf.check, decide_eq_true_eq] at h3
        rcases hd with hd | hd
        · exact absurd hd h3.1
        · exact absurd hd h3.2
      | no st s c =>
        rw [ULeaf.check, noOk2_false i3 s3 f3] at h3; cases h3
      | eq st cs =>
        have h4 := eqOk2_nonneg i3 f3 h3
        simp only [ugoal, both, List.cons_append, List.nil_append, List.forall_mem_cons, List.not_mem_nil,
          false_imp_iff, implies_true, and_true, Lin.val_neg, Lin.val_add, hb.D, hb.E, hb.F] at h4
        simp only [Lin.val] at h4
        push_cast at h4
        obtain ⟨a1, a2, a3, a4, a5, a6⟩ := h4
        refine ⟨?_, ?_, ?_⟩ <;> linarith

end AutoGR
