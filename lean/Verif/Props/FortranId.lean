import Verif.Lemmas.FortranIdNear
import Verif.Props.ClassNear
import Verif.Props.FortranNiggli

/-! # C63, C64, C65: the Niggli class found by `id_cell` of `niggli.f90` -/

namespace AutoGR

open Spec

/-! ## C63 -/

/-- C63, for any arithmetic: `id_cell` finds a number of the table of classes for every six scalar products,
and a search range with it. -/
theorem idNum_mem {K : Type} [Arith K] (eps A B C D E F : K) :
    idNum eps A B C D E F ∈ classTable ∧ (sRange (idNum eps A B C D E F)).isSome := by
  have h : idNum eps A B C D E F ∈ classTable := by
    unfold idNum
    dsimp only
    split
    · rename_i h
      unfold fStage1 at h
      dsimp only at h
      split_ifs at h <;> (cases h; decide)
    split
    · rename_i h
      unfold fStage2 at h
      dsimp only at h
      split_ifs at h <;> (cases h; decide)
    split
    · rename_i h
      unfold fStage3 at h
      dsimp only at h
      split_ifs at h <;> (cases h; decide)
    · unfold fStage4
      dsimp only
      split_ifs <;> decide
  refine ⟨h, ?_⟩
  generalize idNum eps A B C D E F = k at h
  revert k
  decide

private theorem idCell_cases {K : Type} [Arith K] (equal : K → K → K → Bool) (U : RMat K) (e : K) :
    (∃ r, idCell equal U (some e) = .ok r ∧ r.id ∈ classTable ∧ r.s_range.isSome ∧
      reduceCell equal U (some e) = .ok r.Cu ∧
      reduceCell equal ((fBasis r.id).getD U) (some e) = .ok r.Co) ∨
    (∃ s, idCell equal U (some e) = .error s ∧ reduceCell equal U (some e) = .error s) ∨
    (∃ s, ∃ k ∈ classTable, idCell equal U (some e) = .error s ∧
      reduceCell equal ((fBasis k).getD U) (some e) = .error s) := by
  unfold idCell
  dsimp only
  cases hu : reduceCell equal U (some e) with
  | error s => exact .inr (.inl ⟨s, rfl, rfl⟩)
  | ok Cu =>
    dsimp only
    generalize hk : idNum e _ _ _ _ _ _ = k
    have hk' := hk ▸ idNum_mem (K := K) e _ _ _ _ _ _
    cases ho : reduceCell equal ((fBasis k).getD U) (some e) with
    | error s => exact .inr (.inr ⟨s, k, hk'.1, rfl, ho⟩)
    | ok Co => exact .inl ⟨_, rfl, hk'.1, hk'.2, rfl, ho⟩

/-- C63: `id_cell` stops the program only when one of its two calls of `reduce_cell` does, for the user's
cell or for the canonical basis; otherwise it returns a class of the table. -/
theorem idCell_answers {K : Type} [Arith K] (equal : K → K → K → Bool) (U : RMat K) (eps : Option K) :
    let e := eps.getD (Arith.ofRat (1 / 100000))
    (∃ r, idCell equal U eps = .ok r ∧ r.id ∈ classTable ∧ r.s_range.isSome ∧
      reduceCell equal U (some e) = .ok r.Cu ∧
      reduceCell equal ((fBasis r.id).getD U) (some e) = .ok r.Co) ∨
    (∃ s, idCell equal U eps = .error s ∧ reduceCell equal U (some e) = .error s) ∨
    (∃ s, ∃ k ∈ classTable, idCell equal U eps = .error s ∧
      reduceCell equal ((fBasis k).getD U) (some e) = .error s) := by
  cases eps with
  | none => exact idCell_cases equal U _
  | some e => exact idCell_cases equal U e

/-- The cell for which Python's `niggli_id` raises (`niggliId_gap`) gets the class 31 here. -/
theorem idCell_gap : ∃ C, idCell cmpEqual gapCell none = .ok ⟨C, C, 31, some 1⟩ ∧
    niggliId gapCell none = .error .unboundLocal :=
  ⟨⟨1, 0, -1, 0, 1, -1, 0, 0, 1⟩, by decide +kernel, by decide +kernel⟩

/-- The three cases occur: an answer, a singular cell, and a canonical basis that is rejected though
the user's cell is not (a cubic cell of edge 10 with tolerance 1). -/
example : idCell cmpEqual (⟨1, 0, 3, 0, 2, 1, 0, 0, 5⟩ : RMat ℚ) none =
    .ok ⟨⟨-1, 0, -3, 0, -1, 0, 0, 0, 1⟩, ⟨1, 0, 0, 0, 1, 0, 0, 0, 1⟩, 40, some 15⟩ := by decide +kernel

example : idCell cmpEqual (⟨1, 0, 1, 0, 2, 2, 0, 0, 0⟩ : RMat ℚ) none = .error .dependent := by decide +kernel

example : idCell cmpEqual (⟨10, 0, 0, 0, 10, 0, 0, 0, 10⟩ : RMat ℚ) (some 1) = .error .conditions ∧
    reduceCell cmpEqual (⟨10, 0, 0, 0, 10, 0, 0, 0, 10⟩ : RMat ℚ) (some 1) = .ok IMat.one := by
  constructor <;> decide +kernel

/-! ## C64 -/

/-- C64, on the six scalar products: if no two quantities of the table of classes are nearly equal without
being equal, and the cell is clearly of type I or of type II, then `id_cell` finds `k` exactly when `k` is the
first class of the table to which the metric belongs. -/
theorem idNum_exact (eps rho A B C D E F : ℚ) (he : 0 ≤ eps) (hr : 1 / 100000 ≤ rho) (her : eps ≤ rho)
    (ap : ClassApart eps rho A B C D E F)
    (htype : (eps < D ∧ eps < E ∧ eps < F) ∨ (D ≤ 0 ∧ E ≤ 0 ∧ F ≤ 0)) (k : ℕ) :
    idNum eps A B C D E F = k ↔ IsClass k A B C D E F := by
  rw [idNum_eq he hr her ap, isClass_cast]
  rcases niggliNum_spec he (ap.separated (by norm_num) hr) htype with ⟨k', h1, h2, -⟩ | ⟨h1, h2, -⟩
  · rw [h1]
    exact ⟨fun h => h ▸ h2, fun h => h2.unique h⟩
  · rw [h1]
    exact ⟨fun h => h ▸ h2, fun h => h2.unique h⟩

/-- C64, on the lattice: the same for `id_cell(U,eps)` itself, on the metric of the reduced cell. -/
theorem idCell_exact (equal : ℚ → ℚ → ℚ → Bool) (U : RMat ℚ) (eps : ℚ) (r : IdCell)
    (h : idCell equal U (some eps) = .ok r) (rho : ℚ) (he : 0 ≤ eps) (hr : 1 / 100000 ≤ rho) (her : eps ≤ rho)
    (ap : ClassApart eps rho (gram U r.Cu 0 0) (gram U r.Cu 1 1) (gram U r.Cu 2 2) (gram U r.Cu 1 2)
      (gram U r.Cu 0 2) (gram U r.Cu 0 1))
    (htype : (eps < gram U r.Cu 1 2 ∧ eps < gram U r.Cu 0 2 ∧ eps < gram U r.Cu 0 1) ∨
      (gram U r.Cu 1 2 ≤ 0 ∧ gram U r.Cu 0 2 ≤ 0 ∧ gram U r.Cu 0 1 ≤ 0)) :
    IsClass r.id (gram U r.Cu 0 0 : ℚ) (gram U r.Cu 1 1 : ℚ) (gram U r.Cu 2 2 : ℚ) (gram U r.Cu 1 2 : ℚ)
      (gram U r.Cu 0 2 : ℚ) (gram U r.Cu 0 1 : ℚ) :=
  (idNum_exact eps rho _ _ _ _ _ _ he hr her ap htype r.id).1 (idCell_id h).symm

/-- The hypotheses are met, with a cell that has to be changed, class 40, and the driver's default tolerance. -/
example : idCell cmpEqual (⟨1, 0, 3, 0, 2, 1, 0, 0, 5⟩ : RMat ℚ) (some (1 / 1000)) =
    .ok ⟨⟨-1, 0, -3, 0, -1, 0, 0, 0, 1⟩, ⟨1, 0, 0, 0, 1, 0, 0, 0, 1⟩, 40, some 15⟩ := by decide +kernel

example : ClassApart (1 / 1000) (1 / 1000) 1 4 26 (-2) 0 0 := by
  constructor <;> decide +kernel

/-- C64, the two programs: under the same conditions Python's `niggli_id` finds the same number, unless it
raises (class 31 with `E = F`). -/
theorem idNum_eq_niggliNum (eps rho A B C D E F : ℚ) (he : 0 ≤ eps) (hr : 1 / 100000 ≤ rho) (her : eps ≤ rho)
    (ap : ClassApart eps rho A B C D E F) (k : ℕ) (h : niggliNum eps A B C D E F = .ok k) :
    idNum eps A B C D E F = k := by
  rw [idNum_eq he hr her ap, h]

/-- The hypotheses are met: class 43, and the gap of the Python code, class 31. -/
example : ClassApart (1 / 100000) (1 / 100000) 10 11 14 (-4) (-7 / 2) (-3) ∧
    niggliNum (1 / 100000 : ℚ) 10 11 14 (-4) (-7 / 2) (-3) = .ok 43 := by
  refine ⟨?_, by decide +kernel⟩
  constructor <;> decide +kernel

/-! ## C65 -/

/-- C65, on the six scalar products: every equality of the class found holds up to `classTol` (C48), or, for
the classes 26 and 38 where the code compares with `eps` times the quantity, up to twice
`eps + (1e-5 + eps) * 2 * (|A|+|B|+|C|+|D|+|E|+|F|)`; the number is one of the classes of type I exactly when
all of `D, E, F` are greater than `eps`. -/
theorem idNum_near (eps A B C D E F : ℚ) (he : 0 ≤ eps) :
    let k := idNum eps A B C D E F
    let tol := if k = 26 ∨ k = 38 then
        2 * (eps + (1 / 100000 + eps) * (2 * (|A| + |B| + |C| + |D| + |E| + |F|)))
      else classTol eps A B C D E F
    ClassEqs (fun x y => |x - y| ≤ tol) k A B C D E F ∧ (k ∈ typeIClasses ↔ eps < D ∧ eps < E ∧ eps < F) :=
  idNum_near' eps A B C D E F he

/-- C65, on the lattice. -/
theorem idCell_near (equal : ℚ → ℚ → ℚ → Bool) (U : RMat ℚ) (eps : ℚ) (he : 0 ≤ eps) (r : IdCell)
    (h : idCell equal U (some eps) = .ok r) :
    let A := gram U r.Cu 0 0
    let B := gram U r.Cu 1 1
    let C := gram U r.Cu 2 2
    let D := gram U r.Cu 1 2
    let E := gram U r.Cu 0 2
    let F := gram U r.Cu 0 1
    let tol := if r.id = 26 ∨ r.id = 38 then
        2 * (eps + (1 / 100000 + eps) * (2 * (|A| + |B| + |C| + |D| + |E| + |F|)))
      else classTol eps A B C D E F
    ClassEqs (fun x y => |x - y| ≤ tol) r.id A B C D E F ∧
      (r.id ∈ typeIClasses ↔ eps < D ∧ eps < E ∧ eps < F) := by
  have := idNum_near eps (gram U r.Cu 0 0) (gram U r.Cu 1 1) (gram U r.Cu 2 2) (gram U r.Cu 1 2)
    (gram U r.Cu 0 2) (gram U r.Cu 0 1) he
  rw [← idCell_id h] at this
  exact this

/-- The hypotheses are met by a cell that is near a special class but not in it: `A` and `B` differ by
`2e-6`. -/
example : (idCell cmpEqual (⟨1, 0, 0, 0, 1000001 / 1000000, 0, 0, 0, 3⟩ : RMat ℚ) none).map (·.id) =
    .ok 11 := by decide +kernel

end AutoGR
