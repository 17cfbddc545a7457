import Verif.Lemmas.RegularShift
import Verif.Props.FortranOffsets
import Verif.Props.FortranStops

/-!
# C108: the shifts that are tried are those that keep the symmetry

For a lattice that is given by vectors along its axes, and for its regular grids.
-/

namespace AutoGR.Fortran

open Spec Matrix

/-- The comparisons of the computed lengths are right: two lengths are called equal exactly if they are. -/
structure LengthsTold {G : Type} (env : Env G) (U : RMat ℚ) (eps : ℚ) : Prop where
  first : env.equal (env.norms U).1 (env.norms U).2.1 eps = true ↔ dots (realCell U) 0 0 = dots (realCell U) 1 1
  second : env.equal (env.norms U).1 (env.norms U).2.2 eps = true ↔ dots (realCell U) 0 0 = dots (realCell U) 2 2
  third : env.equal (env.norms U).2.1 (env.norms U).2.2 eps = true ↔ dots (realCell U) 1 1 = dots (realCell U) 2 2

theorem halves_iff (s : ℚ × ℚ × ℚ) : (∀ i, offsetVec s i = 0 ∨ offsetVec s i = 1 / 2) ↔
    (s.1 = 0 ∨ s.1 = 1 / 2) ∧ (s.2.1 = 0 ∨ s.2.1 = 1 / 2) ∧ (s.2.2 = 0 ∨ s.2.2 = 1 / 2) := by
  have key : ∀ q : ℚ, ((q : ℝ) = 0 ∨ (q : ℝ) = 1 / 2) ↔ (q = 0 ∨ q = 1 / 2) := by
    intro q
    have e : ((q : ℝ) = 1 / 2) ↔ q = 1 / 2 := by
      rw [show (1 / 2 : ℝ) = ((1 / 2 : ℚ) : ℝ) by push_cast; rfl]
      exact Rat.cast_inj
    rw [e]
    simp
  rw [Fin.forall_fin_succ, Fin.forall_fin_two]
  simp only [offsetVec]
  rw [← key, ← key, ← key]
  rfl

theorem equal_iff (s : ℚ × ℚ × ℚ) : (offsetVec s 0 = offsetVec s 1 ↔ s.1 = s.2.1) ∧
    (offsetVec s 0 = offsetVec s 2 ↔ s.1 = s.2.2) ∧ (offsetVec s 1 = offsetVec s 2 ↔ s.2.1 = s.2.2) :=
  ⟨Rat.cast_inj, Rat.cast_inj, Rat.cast_inj⟩

theorem zero_iff (s : ℚ × ℚ × ℚ) : (offsetVec s 0 = 0 ↔ s.1 = 0) ∧ (offsetVec s 1 = 0 ↔ s.2.1 = 0) ∧
    (offsetVec s 2 = 0 ↔ s.2.2 = 0) := by
  refine ⟨?_, ?_, ?_⟩ <;> exact Rat.cast_eq_zero

theorem half_iff (s : ℚ × ℚ × ℚ) : (offsetVec s 0 = 1 / 2 ↔ s.1 = 1 / 2) ∧ (offsetVec s 1 = 1 / 2 ↔ s.2.1 = 1 / 2) ∧
    (offsetVec s 2 = 1 / 2 ↔ s.2.2 = 1 / 2) := by
  have key : ∀ q : ℚ, (q : ℝ) = 1 / 2 ↔ q = 1 / 2 := by
    intro q
    rw [show (1 / 2 : ℝ) = ((1 / 2 : ℚ) : ℝ) by push_cast; rfl]
    exact Rat.cast_inj
  exact ⟨key _, key _, key _⟩

theorem mem_halves (x y z : ℚ) :
    (x, y, z) ∈ [((0 : ℚ), (0 : ℚ), (0 : ℚ)), (1/2, 0, 0), (0, 1/2, 0), (1/2, 1/2, 0), (0, 0, 1/2), (0, 1/2, 1/2),
      (1/2, 0, 1/2), (1/2, 1/2, 1/2)] ↔ (x = 0 ∨ x = 1 / 2) ∧ (y = 0 ∨ y = 1 / 2) ∧ (z = 0 ∨ z = 1 / 2) := by
  simp only [List.mem_cons, List.not_mem_nil, or_false, Prod.mk.injEq]
  constructor
  · rintro (⟨rfl, rfl, rfl⟩ | ⟨rfl, rfl, rfl⟩ | ⟨rfl, rfl, rfl⟩ | ⟨rfl, rfl, rfl⟩ | ⟨rfl, rfl, rfl⟩ | ⟨rfl, rfl, rfl⟩ |
      ⟨rfl, rfl, rfl⟩ | ⟨rfl, rfl, rfl⟩) <;> simp
  · rintro ⟨rfl | rfl, rfl | rfl, rfl | rfl⟩ <;> simp

theorem mem_tet12 (x y z : ℚ) : (x, y, z) ∈ [((0 : ℚ), (0 : ℚ), (0 : ℚ)), (0, 0, 1/2), (1/2, 1/2, 0), (1/2, 1/2, 1/2)] ↔
    ((x = 0 ∨ x = 1 / 2) ∧ (y = 0 ∨ y = 1 / 2) ∧ (z = 0 ∨ z = 1 / 2)) ∧ x = y := by
  simp only [List.mem_cons, List.not_mem_nil, or_false, Prod.mk.injEq]
  constructor
  · rintro (⟨rfl, rfl, rfl⟩ | ⟨rfl, rfl, rfl⟩ | ⟨rfl, rfl, rfl⟩ | ⟨rfl, rfl, rfl⟩) <;> simp
  · rintro ⟨⟨hx, hy, hz⟩, rfl⟩
    rcases hx with rfl | rfl <;> rcases hz with rfl | rfl <;> simp

theorem mem_tet13 (x y z : ℚ) : (x, y, z) ∈ [((0 : ℚ), (0 : ℚ), (0 : ℚ)), (0, 1/2, 0), (1/2, 0, 1/2), (1/2, 1/2, 1/2)] ↔
    ((x = 0 ∨ x = 1 / 2) ∧ (y = 0 ∨ y = 1 / 2) ∧ (z = 0 ∨ z = 1 / 2)) ∧ x = z := by
  simp only [List.mem_cons, List.not_mem_nil, or_false, Prod.mk.injEq]
  constructor
  · rintro (⟨rfl, rfl, rfl⟩ | ⟨rfl, rfl, rfl⟩ | ⟨rfl, rfl, rfl⟩ | ⟨rfl, rfl, rfl⟩) <;> simp
  · rintro ⟨⟨hx, hy, hz⟩, rfl⟩
    rcases hx with rfl | rfl <;> rcases hy with rfl | rfl <;> simp

theorem mem_tet23 (x y z : ℚ) : (x, y, z) ∈ [((0 : ℚ), (0 : ℚ), (0 : ℚ)), (1/2, 0, 0), (0, 1/2, 1/2), (1/2, 1/2, 1/2)] ↔
    ((x = 0 ∨ x = 1 / 2) ∧ (y = 0 ∨ y = 1 / 2) ∧ (z = 0 ∨ z = 1 / 2)) ∧ y = z := by
  simp only [List.mem_cons, List.not_mem_nil, or_false, Prod.mk.injEq]
  constructor
  · rintro (⟨rfl, rfl, rfl⟩ | ⟨rfl, rfl, rfl⟩ | ⟨rfl, rfl, rfl⟩ | ⟨rfl, rfl, rfl⟩) <;> simp
  · rintro ⟨⟨hx, hy, hz⟩, rfl⟩
    rcases hx with rfl | rfl <;> rcases hy with rfl | rfl <;> simp

theorem mem_hex1 (x y z : ℚ) : (x, y, z) ∈ [((0 : ℚ), (0 : ℚ), (0 : ℚ)), (1/2, 0, 0)] ↔ (x = 0 ∨ x = 1 / 2) ∧ y = 0 ∧ z = 0 := by
  simp only [List.mem_cons, List.not_mem_nil, or_false, Prod.mk.injEq]
  constructor
  · rintro (⟨rfl, rfl, rfl⟩ | ⟨rfl, rfl, rfl⟩) <;> simp
  · rintro ⟨rfl | rfl, rfl, rfl⟩ <;> simp

theorem mem_hex2 (x y z : ℚ) : (x, y, z) ∈ [((0 : ℚ), (0 : ℚ), (0 : ℚ)), (0, 1/2, 0)] ↔ (y = 0 ∨ y = 1 / 2) ∧ x = 0 ∧ z = 0 := by
  simp only [List.mem_cons, List.not_mem_nil, or_false, Prod.mk.injEq]
  constructor
  · rintro (⟨rfl, rfl, rfl⟩ | ⟨rfl, rfl, rfl⟩) <;> simp
  · rintro ⟨rfl | rfl, rfl, rfl⟩ <;> simp

theorem mem_hex3 (x y z : ℚ) : (x, y, z) ∈ [((0 : ℚ), (0 : ℚ), (0 : ℚ)), (0, 0, 1/2)] ↔ (z = 0 ∨ z = 1 / 2) ∧ x = 0 ∧ y = 0 := by
  simp only [List.mem_cons, List.not_mem_nil, or_false, Prod.mk.injEq]
  constructor
  · rintro (⟨rfl, rfl, rfl⟩ | ⟨rfl, rfl, rfl⟩) <;> simp
  · rintro ⟨rfl | rfl, rfl, rfl⟩ <;> simp

variable {G : Type} {env : Env G} {U : RMat ℚ} {eps : ℚ} {n : Fin 3 → ℕ} {k : ℕ} {l : List Offset}

/-- C108 for the simple orthorhombic and tetragonal lattices. -/
theorem shifts_rectangular (hU : (realCell U).det ≠ 0) (hr : Rectangular (realCell U)) (ht : LengthsTold env U eps)
    (hk : let L := fun i => dots (realCell U) i i
      (k = 32 ∧ L 0 ≠ L 1 ∧ L 0 ≠ L 2 ∧ L 1 ≠ L 2) ∨
      (k ∈ [11, 21] ∧ ((L 0 = L 1 ∧ L 0 ≠ L 2) ∨ (L 0 = L 2 ∧ L 0 ≠ L 1) ∨ (L 1 = L 2 ∧ L 0 ≠ L 1))))
    (hl : offsetsTried env U k eps none true = some l) (hn : ∀ i, 0 < n i)
    (h0 : KeepsSymmetry (realCell U) n (0, 0, 0)) (s : ℚ × ℚ × ℚ) (hs : InCell s) :
    s ∈ l ↔ KeepsSymmetry (realCell U) n s := by
  rw [keeps_rectangular hU hr hn h0 hs, halves_iff]
  simp only [offsetsTried, Bool.true_eq_false, if_false, Option.some.injEq] at hl
  obtain ⟨t1, t2, t3⟩ := ht
  obtain ⟨e1, e2, e3⟩ := equal_iff s
  dsimp only at hk
  have hforall : (∀ i j, dots (realCell U) i i = dots (realCell U) j j → offsetVec s i = offsetVec s j) ↔
      (dots (realCell U) 0 0 = dots (realCell U) 1 1 → s.1 = s.2.1) ∧
      (dots (realCell U) 0 0 = dots (realCell U) 2 2 → s.1 = s.2.2) ∧
      (dots (realCell U) 1 1 = dots (realCell U) 2 2 → s.2.1 = s.2.2) := by
    rw [← e1, ← e2, ← e3]
    refine ⟨fun h => ⟨h 0 1, h 0 2, h 1 2⟩, ?_⟩
    rintro ⟨h1, h2, h3⟩ i j hij
    fin_cases i <;> fin_cases j <;> first
      | rfl | exact h1 hij | exact h2 hij | exact h3 hij
      | exact (h1 hij.symm).symm | exact (h2 hij.symm).symm | exact (h3 hij.symm).symm
  rw [hforall]
  obtain ⟨x, y, z⟩ := s
  subst hl
  rcases hk with ⟨rfl, a1, a2, a3⟩ | ⟨hk, hL⟩
  · simp only [a1, a2, a3, false_imp_iff, and_true]
    exact mem_halves _ _ _
  · have hk' : ∀ b12 b13 b23 n1 n2 n3, get_offsets k b12 b13 b23 n1 n2 n3 = get_offsets 11 b12 b13 b23 n1 n2 n3 := by
      intro b12 b13 b23 n1 n2 n3
      simp only [List.mem_cons, List.not_mem_nil, or_false] at hk
      rcases hk with rfl | rfl <;> rfl
    rw [hk']
    have l1 : ∀ b13 b23 n1 n2 n3, get_offsets 11 true b13 b23 n1 n2 n3 =
      [(0, 0, 0), (0, 0, 1/2), (1/2, 1/2, 0), (1/2, 1/2, 1/2)] := fun _ _ _ _ _ => rfl
    have l2 : ∀ b23 n1 n2 n3, get_offsets 11 false true b23 n1 n2 n3 =
      [(0, 0, 0), (0, 1/2, 0), (1/2, 0, 1/2), (1/2, 1/2, 1/2)] := fun _ _ _ _ => rfl
    have l3 : ∀ n1 n2 n3, get_offsets 11 false false true n1 n2 n3 =
      [(0, 0, 0), (1/2, 0, 0), (0, 1/2, 1/2), (1/2, 1/2, 1/2)] := fun _ _ _ => rfl
    rcases hL with ⟨a, b⟩ | ⟨a, b⟩ | ⟨a, b⟩
    · have c : dots (realCell U) 1 1 ≠ dots (realCell U) 2 2 := fun e => b (a.trans e)
      have d : dots (realCell U) 0 0 ≠ dots (realCell U) 2 2 := b
      rw [t1.2 a, l1, mem_tet12]
      exact and_congr_right fun _ => ⟨fun h => ⟨fun _ => h, fun e => absurd e d, fun e => absurd e c⟩, fun h => h.1 a⟩
    · have c : dots (realCell U) 1 1 ≠ dots (realCell U) 2 2 := fun e => b (a.trans e.symm)
      rw [t2.2 a, Bool.eq_false_iff.2 (fun e => b (t1.1 e)), l2, mem_tet13]
      exact and_congr_right fun _ => ⟨fun h => ⟨fun e => absurd e b, fun _ => h, fun e => absurd e c⟩, fun h => h.2.1 a⟩
    · have c : dots (realCell U) 0 0 ≠ dots (realCell U) 2 2 := fun e => b (e.trans a.symm)
      rw [t3.2 a, Bool.eq_false_iff.2 (fun e => b (t1.1 e)), Bool.eq_false_iff.2 (fun e => c (t2.1 e)), l3, mem_tet23]
      exact and_congr_right fun _ => ⟨fun h => ⟨fun e => absurd e b, fun e => absurd e c, fun _ => h⟩, fun h => h.2.2 a⟩

/-- C108 for the hexagonal lattices. -/
theorem shifts_hexagonal_partial {c i : Fin 3} (hU : (realCell U).det ≠ 0) (hh : HexagonalAbout c (realCell U))
    (ht : LengthsTold env U eps) (hi : i ≠ c) (hc : dots (realCell U) c c ≠ dots (realCell U) i i) (hk : k ∈ [12, 22])
    (hl : offsetsTried env U k eps none true = some l) (hn : ∀ i, 0 < n i)
    (h0 : KeepsSymmetry (realCell U) n (0, 0, 0)) (s : ℚ × ℚ × ℚ) (hs : InCell s) :
    s ∈ l ↔ KeepsSymmetry (realCell U) n s := by
  simp only [offsetsTried, Bool.true_eq_false, if_false, Option.some.injEq] at hl
  subst hl
  have hk' : ∀ b12 b13 b23 n1 n2 n3, get_offsets k b12 b13 b23 n1 n2 n3 = get_offsets 12 b12 b13 b23 n1 n2 n3 := by
    intro b12 b13 b23 n1 n2 n3
    simp only [List.mem_cons, List.not_mem_nil, or_false] at hk
    rcases hk with rfl | rfl <;> rfl
  rw [hk']
  have l1 : ∀ b13 b23 n1 n2 n3, get_offsets 12 true b13 b23 n1 n2 n3 = [(0, 0, 0), (0, 0, 1/2)] :=
    fun _ _ _ _ _ => rfl
  have l2 : ∀ b23 n1 n2 n3, get_offsets 12 false true b23 n1 n2 n3 = [(0, 0, 0), (0, 1/2, 0)] := fun _ _ _ _ => rfl
  have l3 : ∀ n1 n2 n3, get_offsets 12 false false true n1 n2 n3 = [(0, 0, 0), (1/2, 0, 0)] := fun _ _ _ => rfl
  obtain ⟨t1, t2, t3⟩ := ht
  obtain ⟨z1, z2, z3⟩ := zero_iff s
  obtain ⟨f1, f2, f3⟩ := half_iff s
  have hne : ∀ j, j ≠ c → dots (realCell U) c c ≠ dots (realCell U) j j := by
    intro j hj
    by_cases hij : i = j
    · rwa [← hij]
    · rw [← (hh.2 i j hi hj hij).1]
      exact hc
  have hcase : c = 0 ∨ c = 1 ∨ c = 2 := by omega
  rcases hcase with rfl | rfl | rfl
  · rw [keeps_hexagonal (i := 1) (j := 2) hU (by decide) (by decide) (by decide) hh hn h0 hs, z1, z2, z3, f1,
      t3.2 (hh.2 1 2 (by decide) (by decide) (by decide)).1,
      Bool.eq_false_iff.2 (fun e => hne 1 (by decide) (t1.1 e)),
      Bool.eq_false_iff.2 (fun e => hne 2 (by decide) (t2.1 e)), l3]
    exact mem_hex1 _ _ _
  · rw [keeps_hexagonal (i := 0) (j := 2) hU (by decide) (by decide) (by decide) hh hn h0 hs, z1, z2, z3, f2,
      t2.2 (hh.2 0 2 (by decide) (by decide) (by decide)).1,
      Bool.eq_false_iff.2 (fun e => hne 0 (by decide) (t1.1 e).symm), l2]
    exact mem_hex2 _ _ _
  · rw [keeps_hexagonal (i := 0) (j := 1) hU (by decide) (by decide) (by decide) hh hn h0 hs, z1, z2, z3, f3,
      t1.2 (hh.2 0 1 (by decide) (by decide) (by decide)).1, l1]
    exact mem_hex3 _ _ _

/-- C108 for the simple monoclinic lattices: the symmetries do no more than reverse some of the vectors. -/
theorem shifts_monoclinic (hU : (realCell U).det ≠ 0) (hd : ∀ X ∈ PointSym (realCell U), ∀ i j, i ≠ j → X i j = 0)
    (hk : k ∈ [33, 34, 35]) (hl : offsetsTried env U k eps none true = some l) (hn : ∀ i, 0 < n i) (s : ℚ × ℚ × ℚ)
    (hs : InCell s) : s ∈ l ↔ KeepsSymmetry (realCell U) n s := by
  rw [keeps_diagonal hU hd hn hs, halves_iff]
  simp only [offsetsTried, Bool.true_eq_false, if_false, Option.some.injEq] at hl
  subst hl
  simp only [List.mem_cons, List.not_mem_nil, or_false] at hk
  rcases hk with rfl | rfl | rfl <;> exact mem_halves _ _ _

/-- C108 for the simple cubic lattice: no shift is missed, but only the first and the last of the eight shifts that are
tried keep the symmetry. -/
theorem shifts_cubic_partial (hU : (realCell U).det ≠ 0) (hr : Rectangular (realCell U))
    (he : ∀ i j, dots (realCell U) i i = dots (realCell U) j j)
    (hl : offsetsTried env U 3 eps none true = some l) (hn : ∀ i, 0 < n i)
    (h0 : KeepsSymmetry (realCell U) n (0, 0, 0)) (s : ℚ × ℚ × ℚ) (hs : InCell s) :
    (KeepsSymmetry (realCell U) n s ↔ s = (0, 0, 0) ∨ s = (1 / 2, 1 / 2, 1 / 2)) ∧
      (KeepsSymmetry (realCell U) n s → s ∈ l) ∧ l.length = 8 := by
  have h1 : KeepsSymmetry (realCell U) n s ↔ s = (0, 0, 0) ∨ s = (1 / 2, 1 / 2, 1 / 2) := by
    rw [keeps_rectangular hU hr hn h0 hs, halves_iff]
    obtain ⟨e1, e2, e3⟩ := equal_iff s
    constructor
    · rintro ⟨h, h'⟩
      have a1 := e1.1 (h' 0 1 (he 0 1))
      have a2 := e2.1 (h' 0 2 (he 0 2))
      obtain ⟨x, y, z⟩ := s
      simp only at a1 a2 h
      subst a1 a2
      simp only [Prod.mk.injEq]
      tauto
    · rintro (rfl | rfl)
      · refine ⟨by simp, fun i j _ => ?_⟩
        rw [offsetVec_zero]
        rfl
      · refine ⟨by simp, fun i j _ => ?_⟩
        have : ∀ i, offsetVec (1 / 2, 1 / 2, 1 / 2) i = 1 / 2 := by
          intro i
          fin_cases i <;> simp [offsetVec]
        rw [this, this]
  simp only [offsetsTried, Bool.true_eq_false, if_false, Option.some.injEq] at hl
  subst hl
  refine ⟨h1, ?_, rfl⟩
  rw [h1]
  rintro (rfl | rfl)
  · exact (mem_halves _ _ _).2 (by simp)
  · exact (mem_halves _ _ _).2 (by simp)

/-- C108 is false for the triclinic lattices: all eight shifts by halves keep the symmetry, but six of them, like
`(1/2, 0, 0)`, are not tried. -/
theorem shifts_tric {equal : ℚ → ℚ → ℚ → Bool} {rho : ℚ} {r : IdCell} (h : Recognised equal U eps rho r)
    (hk : r.id ∈ [31, 44]) (hl : offsetsTried env U r.id eps none true = some l) (hn : ∀ i, 0 < n i) (s : ℚ × ℚ × ℚ)
    (hs : InCell s) :
    (KeepsSymmetry (realCell U) n s ↔ (s.1 = 0 ∨ s.1 = 1 / 2) ∧ (s.2.1 = 0 ∨ s.2.1 = 1 / 2) ∧ (s.2.2 = 0 ∨ s.2.2 = 1 / 2)) ∧
      (s ∈ l ↔ s = (0, 0, 0) ∨ s = (1 / 2, 1 / 2, 1 / 2)) := by
  have he : (0 : ℚ) ≤ eps := le_trans (by norm_num) h.eps_ge
  have hCu : r.Cu.toMat.det = 1 := (reduceCell_same_lattice equal U (some eps) _ h.parts.1).1
  have hd : ∀ X ∈ PointSym (realCell U), ∀ i j, i ≠ j → X i j = 0 := by
    intro X hX i j hij
    rw [idCell_pointSym equal U eps r h.found rho he (h.eps_ge.trans h.eps_le) h.eps_le h.apart h.red] at hX
    rcases classSym_tric r.id hk (by rw [hCu]; exact isUnit_one) X hX with rfl | rfl
    · exact one_apply_ne hij
    · rw [Matrix.neg_apply, one_apply_ne hij, neg_zero]
  refine ⟨by rw [keeps_diagonal h.real_det hd hn hs, halves_iff], ?_⟩
  simp only [offsetsTried, Bool.true_eq_false, if_false, Option.some.injEq] at hl
  subst hl
  have : ∀ b12 b13 b23 n1 n2 n3, get_offsets r.id b12 b13 b23 n1 n2 n3 = [(0, 0, 0), (1/2, 1/2, 1/2)] := by
    intro b12 b13 b23 n1 n2 n3
    generalize r.id = k at hk
    simp only [List.mem_cons, List.not_mem_nil, or_false] at hk
    rcases hk with rfl | rfl <;> rfl
  rw [this]
  simp

/-- C108 is false for a hexagonal lattice whose axis has the length of the two other vectors, unless the axis is given
as the third vector: the shift that is tried is then along one of the other two. -/
theorem shifts_hexagonal_wrong {V : Matrix (Fin 3) (Fin 3) ℝ} (hV : V.det ≠ 0) (hh : HexagonalAbout 1 V)
    (hn : ∀ i, 0 < n i) (h0 : KeepsSymmetry V n (0, 0, 0)) (hk : k ∈ [12, 22]) (b13 b23 : Bool) (n1 n2 n3 : ℚ) :
    (0, 0, 1 / 2) ∈ get_offsets k true b13 b23 n1 n2 n3 ∧ ¬ KeepsSymmetry V n (0, 0, 1 / 2) ∧
      (0, 1 / 2, 0) ∉ get_offsets k true b13 b23 n1 n2 n3 ∧ KeepsSymmetry V n (0, 1 / 2, 0) := by
  have hk' : get_offsets k true b13 b23 n1 n2 n3 = [(0, 0, 0), (0, 0, 1/2)] := by
    simp only [List.mem_cons, List.not_mem_nil, or_false] at hk
    rcases hk with rfl | rfl <;> rfl
  rw [hk', keeps_hexagonal (i := 0) (j := 2) hV (by decide) (by decide) (by decide) hh hn h0 (by norm_num [InCell]),
    keeps_hexagonal (i := 0) (j := 2) hV (by decide) (by decide) (by decide) hh hn h0 (by norm_num [InCell])]
  refine ⟨by simp, ?_, by simp, ?_⟩
  · rintro ⟨-, -, h⟩
    rw [(zero_iff _).2.2] at h
    norm_num at h
  · rw [(half_iff _).2.1, (zero_iff _).1, (zero_iff _).2.2]
    simp

/-! ## The hypotheses are met -/

/-- A machine with exact comparisons on which the lengths have given values. -/
def toyEnv (lengths : ℚ × ℚ × ℚ) : Env Unit where
  equal a b _ := decide (a = b)
  norms _ := lengths
  pgSize _ _ := 0
  lib _ _ _ _ _ _ := ⟨fun _ _ => true, fun _ => ⟨(), 0, true⟩, fun _ => (), fun _ _ => none, fun _ _ => none⟩
  root _ := 0
  wrap := id

theorem cell_entries (U : RMat ℚ) :
    realCell U 0 0 = U.m00 ∧ realCell U 0 1 = U.m01 ∧ realCell U 0 2 = U.m02 ∧
    realCell U 1 0 = U.m10 ∧ realCell U 1 1 = U.m11 ∧ realCell U 1 2 = U.m12 ∧
    realCell U 2 0 = U.m20 ∧ realCell U 2 1 = U.m21 ∧ realCell U 2 2 = U.m22 :=
  ⟨rfl, rfl, rfl, rfl, rfl, rfl, rfl, rfl, rfl⟩

/-- A tetragonal lattice given with the axis as the second vector, and its `2 × 2 × 2` grids. -/
example (s : ℚ × ℚ × ℚ) (hs : InCell s) :
    s ∈ [((0 : ℚ), (0 : ℚ), (0 : ℚ)), (0, 1/2, 0), (1/2, 0, 1/2), (1/2, 1/2, 1/2)] ↔
      KeepsSymmetry (realCell ⟨4, 0, 0, 0, 5, 0, 0, 0, 4⟩) (fun _ => 2) s := by
  have hU : (realCell ⟨4, 0, 0, 0, 5, 0, 0, 0, 4⟩).det ≠ 0 := by
    rw [Matrix.det_fin_three]
    simp only [cell_entries]
    norm_num
  refine shifts_rectangular (env := toyEnv (4, 5, 4)) (eps := 0) (k := 11) hU ?_ ?_ ?_ ?_ (fun _ => by norm_num)
    (keeps_cubed hU 2) s hs
  · intro i j hij
    fin_cases i <;> fin_cases j <;>
      first | exact absurd rfl hij | (simp [dots, Fin.sum_univ_three, cell_entries])
  · constructor <;> (simp only [toyEnv, dots, Fin.sum_univ_three, cell_entries]; norm_num)
  · dsimp only
    refine .inr ⟨by simp, .inr (.inl ?_)⟩
    (simp [dots, Fin.sum_univ_three, cell_entries]; try norm_num)
  · simp only [offsetsTried, toyEnv]
    norm_num [get_offsets]

/-- A hexagonal lattice given with the axis as the second vector. -/
example (s : ℚ × ℚ × ℚ) (hs : InCell s) :
    s ∈ [((0 : ℚ), (0 : ℚ), (0 : ℚ)), (0, 1/2, 0)] ↔
      KeepsSymmetry (realCell ⟨1, 2, 0, -1, 2, 1, 0, 2, -1⟩) (fun _ => 3) s := by
  have hU : (realCell ⟨1, 2, 0, -1, 2, 1, 0, 2, -1⟩).det ≠ 0 := by
    rw [Matrix.det_fin_three]
    simp only [cell_entries]
    norm_num
  refine shifts_hexagonal_partial (env := toyEnv (707 / 500, 433 / 125, 707 / 500)) (eps := 0) (k := 12) (c := 1) (i := 0) hU
    ?_ ?_ (by decide) ?_ (by simp) ?_ (fun _ => by norm_num) (keeps_cubed hU 3) s hs
  · refine ⟨fun i hi => ?_, fun i j hi hj hij => ?_⟩
    · fin_cases i <;> first | exact absurd rfl hi | (simp [dots, Fin.sum_univ_three, cell_entries]; try norm_num)
    · fin_cases i <;> fin_cases j <;>
        first
        | exact absurd rfl hij | exact absurd rfl hi | exact absurd rfl hj
        | (simp [dots, Fin.sum_univ_three, cell_entries]; try norm_num)
  · constructor <;> (simp only [toyEnv, dots, Fin.sum_univ_three, cell_entries]; norm_num)
  · (simp [dots, Fin.sum_univ_three, cell_entries]; try norm_num)
  · simp only [offsetsTried, toyEnv]
    norm_num [get_offsets]

/-- A monoclinic lattice. -/
example (s : ℚ × ℚ × ℚ) (hs : InCell s) (l : List Offset)
    (hl : offsetsTried (toyEnv (2, 3, 5)) ⟨2, 0, 1/2, 0, 3, 0, 0, 0, 5⟩ 33 0 none true = some l) :
    s ∈ l ↔ KeepsSymmetry (realCell ⟨2, 0, 1/2, 0, 3, 0, 0, 0, 5⟩) ![2, 3, 4] s := by
  have hU : (realCell ⟨2, 0, 1/2, 0, 3, 0, 0, 0, 5⟩).det ≠ 0 := by
    rw [Matrix.det_fin_three]
    simp only [cell_entries]
    norm_num
  refine shifts_monoclinic hU ?_ (by simp) hl (by intro i; fin_cases i <;> simp) s hs
  intro X hX i j hij
  have hG := (pointSym_iff hU).1 hX
  have ent : ∀ a b, 16 * X 0 a * X 0 b + 4 * (X 0 a * X 2 b + X 2 a * X 0 b) + 36 * X 1 a * X 1 b + 101 * X 2 a * X 2 b =
      (!![16, 0, 4; 0, 36, 0; 4, 0, 101] : IntMat) a b := by
    intro a b
    have h1 := congrFun (congrFun hG a) b
    have g : ((realCell ⟨2, 0, 1/2, 0, 3, 0, 0, 0, 5⟩)ᵀ * realCell ⟨2, 0, 1/2, 0, 3, 0, 0, 0, 5⟩) =
        !![4, 0, 1; 0, 9, 0; 1, 0, 101 / 4] := by
      ext a b
      rw [dots_eq]
      fin_cases a <;> fin_cases b <;> simp [dots, Fin.sum_univ_three, cell_entries] <;> norm_num
    rw [g] at h1
    have h2 : (16 * X 0 a * X 0 b + 4 * (X 0 a * X 2 b + X 2 a * X 0 b) + 36 * X 1 a * X 1 b + 101 * X 2 a * X 2 b : ℝ) =
        4 * (!![4, 0, 1; 0, 9, 0; 1, 0, 101 / 4] : Matrix (Fin 3) (Fin 3) ℝ) a b := by
      rw [← h1]
      simp [Matrix.mul_apply, Fin.sum_univ_three, toReal]
      ring
    have h3 : 4 * (!![4, 0, 1; 0, 9, 0; 1, 0, 101 / 4] : Matrix (Fin 3) (Fin 3) ℝ) a b =
        (((!![16, 0, 4; 0, 36, 0; 4, 0, 101] : IntMat) a b : ℤ) : ℝ) := by
      fin_cases a <;> fin_cases b <;> norm_num
    rw [h3] at h2
    exact_mod_cast h2
  have e00 := ent 0 0
  have e11 := ent 1 1
  have e22 := ent 2 2
  have e01 := ent 0 1
  have e12 := ent 1 2
  have e02 := ent 0 2
  simp at e00 e11 e22 e01 e12 e02
  have z0 : X 2 0 = 0 := by
    have : X 2 0 ^ 2 < 1 := by nlinarith [sq_nonneg (X 0 0 + 4 * X 2 0), sq_nonneg (X 0 0), sq_nonneg (X 1 0)]
    nlinarith [sq_nonneg (X 2 0)]
  rw [z0] at e00 e01 e02
  have y0 : X 1 0 = 0 := by
    have : X 1 0 ^ 2 < 1 := by nlinarith [sq_nonneg (X 0 0)]
    nlinarith [sq_nonneg (X 1 0)]
  rw [y0] at e00 e01 e02
  have x0 : X 0 0 = 1 ∨ X 0 0 = -1 := mul_self_eq_one_iff.1 (by linarith)
  have z1 : X 2 1 = -4 * X 0 1 := by rcases x0 with h | h <;> rw [h] at e01 <;> linarith
  have x1 : X 0 1 = 0 := by
    rw [z1] at e11
    have : X 0 1 ^ 2 < 1 := by nlinarith [sq_nonneg (X 1 1)]
    nlinarith [sq_nonneg (X 0 1)]
  rw [x1, mul_zero] at z1
  rw [x1, z1] at e11 e12
  have y1 : X 1 1 = 1 ∨ X 1 1 = -1 := mul_self_eq_one_iff.1 (by linarith)
  have y2 : X 1 2 = 0 := by rcases y1 with h | h <;> rw [h] at e12 <;> linarith
  have x2 : X 0 2 = 0 := by
    rw [y2] at e22
    rcases x0 with h | h <;> rw [h] at e02
    · have hz : X 2 2 = 1 - 4 * X 0 2 := by linarith
      rw [hz] at e22
      have : X 0 2 * (2 * X 0 2 - 1) = 0 := by linarith
      rcases mul_eq_zero.1 this with h | h <;> omega
    · have hz : X 2 2 = -1 - 4 * X 0 2 := by linarith
      rw [hz] at e22
      have : X 0 2 * (2 * X 0 2 + 1) = 0 := by linarith
      rcases mul_eq_zero.1 this with h | h <;> omega
  fin_cases i <;> fin_cases j <;> first | exact absurd rfl hij | assumption

/-- The cube. -/
example (s : ℚ × ℚ × ℚ) (hs : InCell s) (l : List Offset)
    (hl : offsetsTried (toyEnv (1, 1, 1)) ⟨1, 0, 0, 0, 1, 0, 0, 0, 1⟩ 3 0 none true = some l) :
    KeepsSymmetry (realCell ⟨1, 0, 0, 0, 1, 0, 0, 0, 1⟩) (fun _ => 2) s → s ∈ l := by
  have hU : (realCell ⟨1, 0, 0, 0, 1, 0, 0, 0, 1⟩).det ≠ 0 := by
    rw [Matrix.det_fin_three]
    simp only [cell_entries]
    norm_num
  refine (shifts_cubic_partial hU ?_ ?_ hl (fun _ => by norm_num) (keeps_cubed hU 2) s hs).2.1
  · intro i j hij
    fin_cases i <;> fin_cases j <;>
      first | exact absurd rfl hij | (simp [dots, Fin.sum_univ_three, cell_entries])
  · intro i j
    fin_cases i <;> fin_cases j <;> (simp [dots, Fin.sum_univ_three, cell_entries])

/-- A hexagonal lattice of real vectors of length 1. -/
example : ∃ V : Matrix (Fin 3) (Fin 3) ℝ, V.det ≠ 0 ∧ HexagonalAbout 1 V ∧ dots V 1 1 = dots V 0 0 ∧
    KeepsSymmetry V (fun _ => 2) (0, 0, 0) := by
  have h3 : √3 * √3 = 3 := Real.mul_self_sqrt (by norm_num)
  have hV : (!![1, 0, -1/2; 0, 0, √3/2; 0, 1, 0] : Matrix (Fin 3) (Fin 3) ℝ).det ≠ 0 := by
    rw [Matrix.det_fin_three]
    simp
  refine ⟨!![1, 0, -1/2; 0, 0, √3/2; 0, 1, 0], hV, ⟨fun i hi => ?_, fun i j hi hj hij => ?_⟩, ?_, keeps_cubed hV 2⟩
  · fin_cases i <;> first | exact absurd rfl hi | simp [dots, Fin.sum_univ_three]
  · fin_cases i <;> fin_cases j <;>
      first
      | exact absurd rfl hij | exact absurd rfl hi | exact absurd rfl hj
      | (simp [dots, Fin.sum_univ_three]; exact ⟨by linarith, .inr (by first | (norm_num; done) | linarith)⟩)
  · simp [dots, Fin.sum_univ_three]

/-- The triclinic lattice of C80: `(1/2, 0, 0)` keeps the symmetry of the `2 × 3 × 4` grid and is not tried. -/
example (l : List Offset) (hl : offsetsTried (toyEnv (3, 4, 5)) ⟨3, -1, -1, 0, 4, -1, 0, 0, 5⟩ 44 (1 / 1000) none true = some l) :
    KeepsSymmetry (realCell ⟨3, -1, -1, 0, 4, -1, 0, 0, 5⟩) ![2, 3, 4] (1 / 2, 0, 0) ∧ (1 / 2, 0, 0) ∉ l := by
  have := shifts_tric (n := ![2, 3, 4]) tricCell_recognised (by decide) hl (by intro i; fin_cases i <;> simp)
    (1 / 2, 0, 0) (by norm_num [InCell])
  rw [this.1, this.2]
  norm_num

end AutoGR.Fortran
