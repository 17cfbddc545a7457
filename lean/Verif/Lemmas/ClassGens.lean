import Verif.Props.LatticeSym
import Mathlib.Algebra.Group.Submonoid.Membership

/-! # Two or three generators of the symmetry group of each Niggli class -/

namespace AutoGR

open Spec Matrix

/-- Two or three symmetries of the chosen metric of class `k`, and how to get all of them: entry `(a, p)` of the
second list is generator `a` times element `p`, appended to the elements `1, …` so far. -/
def classGens : ℕ → List IMat × List (ℕ × ℕ)
  | 1 => ([⟨-1, -1, -1, 0, 1, 0, 0, 0, 1⟩, ⟨-1, 0, 0, 0, 0, -1, 1, 1, 1⟩],
        [(0, 0), (1, 0), (1, 1), (0, 2), (1, 2), (0, 3), (1, 3), (1, 4), (0, 5), (1, 5), (1, 6), (0, 7), (1, 7), (0,
    8), (1, 8), (1, 9), (1, 10), (0, 11), (1, 11), (1, 12), (1, 13), (1, 14), (0, 15), (1, 15), (0, 16), (1, 17),
    (1, 18), (0, 19), (1, 19), (0, 20), (1, 21), (1, 22), (1, 23), (1, 24), (1, 25), (1, 27), (1, 28), (1, 29), (1,
    30), (0, 32), (1, 32), (1, 34), (1, 35), (0, 36), (1, 36), (1, 38), (1, 39)])
  | 2 => ([⟨-1, 0, 0, 0, 0, -1, 0, -1, 0⟩, ⟨0, 0, -1, -1, 0, 0, 0, -1, 0⟩],
        [(0, 0), (1, 0), (1, 1), (0, 2), (1, 2), (0, 3), (1, 3), (0, 5), (1, 5), (0, 7), (1, 7)])
  | 3 => ([⟨-1, 0, 0, 0, 0, -1, 0, -1, 0⟩, ⟨0, 0, 1, -1, 0, 0, 0, 1, 0⟩],
        [(0, 0), (1, 0), (1, 1), (0, 2), (1, 2), (0, 3), (1, 3), (1, 4), (0, 5), (1, 5), (1, 6), (0, 7), (1, 7), (0,
    8), (1, 8), (1, 9), (1, 10), (0, 11), (1, 11), (1, 12), (1, 13), (1, 14), (0, 15), (1, 15), (0, 16), (1, 17),
    (1, 18), (0, 19), (1, 19), (0, 20), (1, 21), (1, 22), (1, 23), (1, 24), (1, 25), (1, 27), (1, 28), (1, 29), (1,
    30), (0, 32), (1, 32), (1, 34), (1, 35), (0, 36), (1, 36), (1, 38), (1, 39)])
  | 4 => ([⟨-1, 0, 0, 0, 0, -1, 0, -1, 0⟩, ⟨0, 0, -1, -1, 0, 0, 0, -1, 0⟩],
        [(0, 0), (1, 0), (1, 1), (0, 2), (1, 2), (0, 3), (1, 3), (0, 5), (1, 5), (0, 7), (1, 7)])
  | 5 => ([⟨-1, 0, 1, -1, 0, 0, -1, 1, 0⟩, ⟨-1, 0, 0, 0, 0, -1, 0, -1, 0⟩],
        [(0, 0), (1, 0), (0, 1), (1, 1), (0, 2), (0, 3), (1, 3), (0, 4), (0, 5), (1, 5), (1, 6), (0, 7), (0, 8), (1,
    8), (0, 9), (1, 9), (0, 10), (0, 11), (0, 12), (1, 12), (0, 13), (1, 13), (0, 14), (1, 15), (0, 16), (0, 17),
    (1, 17), (0, 18), (1, 18), (0, 19), (1, 19), (0, 20), (1, 21), (0, 23), (1, 23), (0, 24), (0, 26), (0, 28), (0,
    29), (1, 32), (0, 33), (0, 34), (1, 36), (1, 37), (1, 39), (1, 41), (1, 42)])
  | 6 => ([⟨-1, 0, 0, -1, 0, 1, -1, 1, 0⟩, ⟨-1, 0, 1, -1, 0, 0, -1, 1, 0⟩, ⟨-1, 0, 0, 0, -1, 0, 0, 0, -1⟩],
        [(0, 0), (1, 0), (2, 0), (1, 1), (2, 1), (0, 2), (1, 2), (2, 2), (0, 4), (1, 4), (2, 4), (2, 6), (2, 7), (2,
    9), (2, 10)])
  | 7 => ([⟨-1, 0, 0, -1, 1, 0, -1, 0, 1⟩, ⟨-1, 0, 0, 0, -1, 0, 0, 0, -1⟩, ⟨0, -1, 1, -1, 0, 1, 0, 0, 1⟩],
        [(0, 0), (1, 0), (2, 0), (1, 1), (2, 1), (2, 2), (0, 3), (2, 4), (0, 5), (0, 6), (2, 7), (0, 8), (2, 9), (2,
    10), (2, 12)])
  | 8 => ([⟨-1, 0, 0, -1, 0, 1, -1, 1, 0⟩, ⟨-1, 0, 0, 0, -1, 0, 0, 0, -1⟩, ⟨0, -1, 1, -1, 0, 1, 0, 0, 1⟩],
        [(0, 0), (1, 0), (2, 0), (1, 1), (2, 1), (2, 2), (2, 4)])
  | 9 => ([⟨-1, -1, -1, 0, 1, 0, 0, 0, 1⟩, ⟨-1, 0, 0, 1, 1, 1, 0, 0, -1⟩],
        [(0, 0), (1, 0), (1, 1), (0, 2), (0, 3), (1, 4), (1, 5), (0, 6), (0, 7), (1, 8), (1, 9)])
  | 10 => ([⟨-1, 0, 0, 0, -1, 0, 0, 0, -1⟩, ⟨0, -1, 0, -1, 0, 0, 0, 0, -1⟩],
        [(0, 0), (1, 0), (1, 1)])
  | 11 => ([⟨-1, 0, 0, 0, -1, 0, 0, 0, -1⟩, ⟨-1, 0, 0, 0, 1, 0, 0, 0, -1⟩, ⟨0, -1, 0, -1, 0, 0, 0, 0, -1⟩],
        [(0, 0), (1, 0), (2, 0), (1, 1), (2, 1), (2, 2), (1, 3), (2, 4), (1, 5), (1, 6), (2, 7), (1, 8), (2, 9), (2,
    10), (2, 12)])
  | 12 => ([⟨-1, 0, 0, -1, 1, 0, 0, 0, -1⟩, ⟨-1, 0, 0, -1, 1, 0, 0, 0, 1⟩, ⟨-1, 1, 0, 0, 1, 0, 0, 0, -1⟩],
        [(0, 0), (1, 0), (2, 0), (1, 1), (2, 1), (2, 2), (0, 3), (1, 3), (2, 4), (0, 5), (1, 5), (2, 7), (2, 8), (2,
    10), (2, 11), (0, 12), (1, 12), (0, 14), (1, 14), (2, 16), (2, 17), (2, 18), (2, 19)])
  | 13 => ([⟨-1, 0, 0, 0, -1, 0, 0, 0, -1⟩, ⟨-1, 0, 0, 0, -1, 0, 0, 0, 1⟩, ⟨0, -1, 0, -1, 0, 0, 0, 0, -1⟩],
        [(0, 0), (1, 0), (2, 0), (1, 1), (2, 1), (2, 2), (2, 4)])
  | 14 => ([⟨-1, 0, 0, 0, -1, 0, 0, 0, -1⟩, ⟨0, -1, 0, -1, 0, 0, 0, 0, -1⟩],
        [(0, 0), (1, 0), (1, 1)])
  | 15 => ([⟨-1, 0, 0, 0, -1, 0, 0, 0, -1⟩, ⟨-1, 0, 0, 0, 1, -1, 0, 0, -1⟩, ⟨0, -1, 0, -1, 0, 0, 0, 0, -1⟩],
        [(0, 0), (1, 0), (2, 0), (1, 1), (2, 1), (2, 2), (1, 3), (2, 4), (1, 5), (1, 6), (2, 7), (1, 8), (2, 9), (2,
    10), (2, 12)])
  | 16 => ([⟨-1, 0, 0, 0, -1, 0, 0, 0, -1⟩, ⟨-1, 0, 1, 0, -1, 1, 0, 0, 1⟩, ⟨0, -1, 0, -1, 0, 0, 0, 0, -1⟩],
        [(0, 0), (1, 0), (2, 0), (1, 1), (2, 1), (2, 2), (2, 4)])
  | 17 => ([⟨-1, 0, 0, 0, -1, 0, 0, 0, -1⟩, ⟨0, -1, 1, -1, 0, 1, 0, 0, 1⟩],
        [(0, 0), (1, 0), (1, 1)])
  | 18 => ([⟨-1, -1, -1, 0, 0, 1, 0, 1, 0⟩, ⟨-1, -1, 0, 0, 0, -1, 0, 1, 0⟩, ⟨-1, -1, -1, 0, 1, 0, 0, 0, 1⟩],
        [(0, 0), (1, 0), (2, 0), (1, 1), (2, 1), (0, 2), (1, 2), (2, 2), (0, 4), (1, 4), (2, 4), (2, 6), (2, 7), (2,
    9), (2, 10)])
  | 19 => ([⟨-1, -1, -1, 0, 0, 1, 0, 1, 0⟩, ⟨-1, -1, -1, 0, 1, 0, 0, 0, 1⟩, ⟨-1, 0, 0, 0, -1, 0, 0, 0, -1⟩],
        [(0, 0), (1, 0), (2, 0), (1, 1), (2, 1), (2, 2), (2, 4)])
  | 20 => ([⟨-1, 0, 0, 0, -1, 0, 0, 0, -1⟩, ⟨-1, 0, 0, 0, 0, -1, 0, -1, 0⟩],
        [(0, 0), (1, 0), (1, 1)])
  | 21 => ([⟨-1, 0, 0, 0, -1, 0, 0, 0, -1⟩, ⟨-1, 0, 0, 0, -1, 0, 0, 0, 1⟩, ⟨-1, 0, 0, 0, 0, -1, 0, -1, 0⟩],
        [(0, 0), (1, 0), (2, 0), (1, 1), (2, 1), (2, 2), (1, 3), (2, 4), (1, 5), (1, 6), (2, 7), (1, 8), (2, 9), (2,
    10), (2, 12)])
  | 22 => ([⟨-1, 0, 0, 0, -1, 0, 0, -1, 1⟩, ⟨-1, 0, 0, 0, -1, 1, 0, -1, 0⟩, ⟨-1, 0, 0, 0, -1, 0, 0, 0, -1⟩],
        [(0, 0), (1, 0), (2, 0), (1, 1), (2, 1), (0, 2), (1, 2), (2, 2), (0, 4), (1, 4), (2, 4), (2, 6), (0, 7), (1,
    7), (2, 7), (2, 9), (0, 10), (1, 10), (2, 10), (2, 13), (2, 14), (2, 17), (2, 18)])
  | 23 => ([⟨-1, 0, 0, 0, -1, 0, 0, 0, -1⟩, ⟨-1, 0, 0, 0, 0, -1, 0, -1, 0⟩, ⟨-1, 0, 0, 0, 0, 1, 0, 1, 0⟩],
        [(0, 0), (1, 0), (2, 0), (1, 1), (2, 1), (2, 2), (2, 4)])
  | 24 => ([⟨-1, 0, 1, 0, -1, 1, 0, 0, 1⟩, ⟨-1, 0, 1, 0, 0, 1, 0, -1, 1⟩],
        [(0, 0), (1, 0), (1, 1), (0, 2), (1, 2), (0, 3), (1, 3), (0, 5), (1, 5), (0, 7), (1, 7)])
  | 25 => ([⟨-1, 0, 0, 0, -1, 0, 0, 0, -1⟩, ⟨-1, 0, 0, 0, 0, -1, 0, -1, 0⟩],
        [(0, 0), (1, 0), (1, 1)])
  | 26 => ([⟨-1, -1, -1, 0, 1, 0, 0, 0, 1⟩, ⟨-1, -1, 0, 0, 1, 0, 0, 0, -1⟩, ⟨-1, 0, -1, 0, -1, 0, 0, 0, 1⟩],
        [(0, 0), (1, 0), (2, 0), (1, 1), (2, 1), (2, 2), (2, 4)])
  | 27 => ([⟨-1, -1, -1, 0, 1, 0, 0, 0, 1⟩, ⟨-1, 0, 0, 0, -1, 0, 0, 0, -1⟩],
        [(0, 0), (1, 0), (1, 1)])
  | 28 => ([⟨-1, 0, -1, 0, -1, 0, 0, 0, 1⟩, ⟨-1, 0, 0, 0, -1, 0, 0, 0, -1⟩],
        [(0, 0), (1, 0), (1, 1)])
  | 29 => ([⟨-1, -1, 0, 0, 1, 0, 0, 0, -1⟩, ⟨-1, 0, 0, 0, -1, 0, 0, 0, -1⟩],
        [(0, 0), (1, 0), (1, 1)])
  | 30 => ([⟨-1, 0, 0, 0, -1, -1, 0, 0, 1⟩, ⟨-1, 0, 0, 0, -1, 0, 0, 0, -1⟩],
        [(0, 0), (1, 0), (1, 1)])
  | 31 => ([⟨-1, 0, 0, 0, -1, 0, 0, 0, -1⟩, ⟨1, 0, 0, 0, 1, 0, 0, 0, 1⟩],
        [(0, 0)])
  | 32 => ([⟨-1, 0, 0, 0, -1, 0, 0, 0, -1⟩, ⟨-1, 0, 0, 0, -1, 0, 0, 0, 1⟩, ⟨-1, 0, 0, 0, 1, 0, 0, 0, -1⟩],
        [(0, 0), (1, 0), (2, 0), (1, 1), (2, 1), (2, 2), (2, 4)])
  | 33 => ([⟨-1, 0, 0, 0, -1, 0, 0, 0, -1⟩, ⟨-1, 0, 0, 0, 1, 0, 0, 0, -1⟩],
        [(0, 0), (1, 0), (1, 1)])
  | 34 => ([⟨-1, 0, 0, 0, -1, 0, 0, 0, -1⟩, ⟨-1, 0, 0, 0, -1, 0, 0, 0, 1⟩],
        [(0, 0), (1, 0), (1, 1)])
  | 35 => ([⟨-1, 0, 0, 0, -1, 0, 0, 0, -1⟩, ⟨-1, 0, 0, 0, 1, 0, 0, 0, 1⟩],
        [(0, 0), (1, 0), (1, 1)])
  | 36 => ([⟨-1, 0, 0, 0, -1, 0, 0, 0, -1⟩, ⟨-1, 0, 1, 0, -1, 0, 0, 0, 1⟩, ⟨-1, 0, 0, 0, 1, 0, 0, 0, -1⟩],
        [(0, 0), (1, 0), (2, 0), (1, 1), (2, 1), (2, 2), (2, 4)])
  | 37 => ([⟨-1, 0, 0, 0, -1, 0, 0, 0, -1⟩, ⟨-1, 0, 1, 0, 1, 0, 0, 0, 1⟩],
        [(0, 0), (1, 0), (1, 1)])
  | 38 => ([⟨-1, 0, 0, 0, -1, 0, 0, 0, -1⟩, ⟨-1, 0, 0, 0, -1, 0, 0, 0, 1⟩, ⟨-1, 1, 0, 0, 1, 0, 0, 0, -1⟩],
        [(0, 0), (1, 0), (2, 0), (1, 1), (2, 1), (2, 2), (2, 4)])
  | 39 => ([⟨-1, 0, 0, 0, -1, 0, 0, 0, -1⟩, ⟨-1, 1, 0, 0, 1, 0, 0, 0, 1⟩],
        [(0, 0), (1, 0), (1, 1)])
  | 40 => ([⟨-1, 0, 0, 0, -1, 0, 0, 0, -1⟩, ⟨-1, 0, 0, 0, -1, 1, 0, 0, 1⟩, ⟨-1, 0, 0, 0, 1, -1, 0, 0, -1⟩],
        [(0, 0), (1, 0), (2, 0), (1, 1), (2, 1), (2, 2), (2, 4)])
  | 41 => ([⟨-1, 0, 0, 0, -1, 0, 0, 0, -1⟩, ⟨-1, 0, 0, 0, 1, -1, 0, 0, -1⟩],
        [(0, 0), (1, 0), (1, 1)])
  | 42 => ([⟨-1, 0, 0, 0, -1, 0, 0, 0, -1⟩, ⟨-1, 0, 1, 0, -1, 1, 0, 0, 1⟩, ⟨-1, 0, 0, 0, 1, -1, 0, 0, -1⟩],
        [(0, 0), (1, 0), (2, 0), (1, 1), (2, 1), (2, 2), (2, 4)])
  | 43 => ([⟨-1, 0, 0, 0, -1, 0, 0, 0, -1⟩, ⟨-1, 0, 1, 0, -1, 1, 0, 0, 1⟩],
        [(0, 0), (1, 0), (1, 1)])
  | 44 => ([⟨-1, 0, 0, 0, -1, 0, 0, 0, -1⟩, ⟨1, 0, 0, 0, 1, 0, 0, 0, 1⟩],
        [(0, 0)])
  | _ => ([], [])

/-- The elements built from the generators, starting with the identity. -/
def buildFrom (gens : List IMat) : List (ℕ × ℕ) → List IMat → List IMat
  | [], l => l
  | (a, p) :: rest, l =>
    match gens[a]?, l[p]? with
    | some g, some x => buildFrom gens rest (l ++ [mulC g x])
    | _, _ => l

/-- The generators of class `k` are different symmetries of its metric, two or three, and give all of them. -/
def gensCheck (k : ℕ) : Bool :=
  let gens := (classGens k).1
  (wit k).bounded && decide gens.Nodup && decide (gens.length = 2 ∨ gens.length = 3) &&
    gens.all (fixesWit k) &&
    let l := buildFrom gens (classGens k).2 [IMat.one]
    (wit k).autos.all fun X => l.contains X

theorem gensCheck_all : ∀ k ∈ classTable, gensCheck k = true := by decide +kernel

theorem buildFrom_closure (gens : List IMat) (steps : List (ℕ × ℕ)) (l : List IMat)
    (hl : ∀ X ∈ l, X.toMat ∈ Submonoid.closure {M | ∃ g ∈ gens, g.toMat = M}) :
    ∀ X ∈ buildFrom gens steps l, X.toMat ∈ Submonoid.closure {M | ∃ g ∈ gens, g.toMat = M} := by
  induction steps generalizing l with
  | nil => exact hl
  | cons s rest ih =>
    obtain ⟨a, p⟩ := s
    rw [buildFrom]
    split
    · rename_i g x hg hx
      refine ih _ fun X hX => ?_
      rcases List.mem_append.1 hX with h | h
      · exact hl X h
      · rw [List.mem_singleton] at h
        subst h
        rw [toMat_mulC]
        exact Submonoid.mul_mem _ (Submonoid.subset_closure ⟨g, List.mem_of_getElem? hg, rfl⟩)
          (hl x (List.mem_of_getElem? hx))
    · exact hl

/-- Each class has two or three different symmetries of its metric that generate all of them. -/
theorem classGens_spec {k : ℕ} (hk : k ∈ classTable) : ∃ gens : List IntMat, gens.Nodup ∧
    (gens.length = 2 ∨ gens.length = 3) ∧ (∀ g ∈ gens, gᵀ * (wit k).mat * g = (wit k).mat) ∧
    ∀ X : IntMat, Xᵀ * (wit k).mat * X = (wit k).mat → X ∈ Submonoid.closure {g | g ∈ gens} := by
  have h := gensCheck_all k hk
  simp only [gensCheck, Bool.and_eq_true, decide_eq_true_eq, List.all_eq_true, List.contains_iff_mem] at h
  obtain ⟨⟨⟨⟨hb, hn⟩, hl⟩, hm⟩, ha⟩ := h
  have hset : {g | g ∈ (classGens k).1.map IMat.toMat} = {M | ∃ g ∈ (classGens k).1, g.toMat = M} := by
    ext M
    simp
  refine ⟨(classGens k).1.map IMat.toMat, hn.map toMat_injective, by simpa using hl, ?_, ?_⟩
  · intro g hg
    obtain ⟨Z, hZ, rfl⟩ := List.mem_map.1 hg
    exact witFix_iff.1 (hm Z hZ)
  · intro X hX
    obtain ⟨Z, hZ, rfl⟩ := Form.mem_autos hb hX
    rw [hset]
    refine buildFrom_closure _ _ [IMat.one] ?_ Z (ha Z hZ)
    intro Y hY
    rw [List.mem_singleton] at hY
    subst hY
    rw [toMat_one]
    exact Submonoid.one_mem _

end AutoGR
