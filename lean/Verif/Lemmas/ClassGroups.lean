import Verif.Model.LatId
import Verif.Lemmas.ClassSym

/-!
# The symmetry group of every Niggli class, in the basis of the canonical cell
-/

namespace AutoGR

open Spec Matrix

/-- Generators (with −1) of the symmetry group of the classes handled by `sc_3`. -/
def ops_sc_3 : List IMat := [⟨0, 1, 0, 1, 0, 0, 0, 0, 1⟩,
  ⟨1, 0, 0, 0, 0, 1, 0, 1, 0⟩,
  ⟨1, 0, 0, 0, -1, 0, 0, 0, 1⟩]

theorem words_3 : wordsCheck ⟨1, 1, 1, 0, 0, 0⟩ (canonC 3) ⟨1, 0, 0, 0, 1, 0, 0, 0, 1⟩
    (ops_sc_3 ++ [⟨-1, 0, 0, 0, -1, 0, 0, 0, -1⟩])
    [[], [0], [1], [2], [3], [0, 1], [0, 2], [0, 3], [1, 0], [1, 2], [1, 3], [2, 0], [2, 1], [2,
    3], [0, 1, 0], [0, 1, 2], [0, 1, 3], [0, 2, 0], [0, 2, 1], [0, 2, 3], [1, 0, 2], [1, 0, 3],
    [1, 2, 0], [1, 2, 1], [1, 2, 3], [2, 0, 1], [2, 0, 2], [2, 0, 3], [2, 1, 0], [2, 1, 2], [2, 1,
    3], [0, 1, 0, 2], [0, 1, 0, 3], [0, 1, 2, 0], [0, 1, 2, 1], [0, 1, 2, 3], [0, 2, 0, 1], [0, 2,
    0, 2], [0, 2, 0, 3], [0, 2, 1, 0], [0, 2, 1, 2], [0, 2, 1, 3], [1, 0, 2, 3], [1, 2, 0, 2], [1,
    2, 0, 3], [0, 1, 0, 2, 3], [0, 1, 2, 0, 2], [0, 1, 2, 0, 3]] = true := by
  decide +kernel

theorem ops_mem_3 : ∀ g ∈ ops_sc_3, g.toMat ∈ ClassSym 3 (canonC 3).toMat := by
  intro g hg
  simp only [ops_sc_3, List.mem_cons, List.not_mem_nil, or_false] at hg
  rcases hg with rfl | rfl | rfl
  · refine mem_classSym (Ci := ⟨1, 0, 0, 0, 1, 0, 0, 0, 1⟩) (Y := ⟨0, 1, 0, 1, 0, 0, 0, 0, 1⟩)
      (by decide) (by decide) ?_
    class_fix
  · refine mem_classSym (Ci := ⟨1, 0, 0, 0, 1, 0, 0, 0, 1⟩) (Y := ⟨1, 0, 0, 0, 0, 1, 0, 1, 0⟩)
      (by decide) (by decide) ?_
    class_fix
  · refine mem_classSym (Ci := ⟨1, 0, 0, 0, 1, 0, 0, 0, 1⟩) (Y := ⟨1, 0, 0, 0, -1, 0, 0, 0, 1⟩)
      (by decide) (by decide) ?_
    class_fix

theorem sym_3 {n : ℤ} {H : IntMat} : H ∈ SymmetricHNFs (ClassSym 3 (canonC 3).toMat) n ↔
    (IsHNF H ∧ H.det = n) ∧ ∀ g ∈ ops_sc_3, Keeps g.toMat H :=
  symHNFs_iff words_3 (by witness_red) (by witness_class) ops_mem_3

/-- Generators (with −1) of the symmetry group of the classes handled by `bcc_5`. -/
def ops_bcc_5 : List IMat := [⟨0, 1, 0, 1, 0, 0, 0, 0, 1⟩,
  ⟨1, 0, 0, 0, 0, 1, 0, 1, 0⟩,
  ⟨0, 0, 1, 0, -1, 1, -1, 0, 1⟩]

theorem words_5 : wordsCheck ⟨3, 3, 3, -1, -1, -1⟩ (canonC 5) ⟨1, 0, 0, 0, 1, 0, 0, 0, 1⟩
    (ops_bcc_5 ++ [⟨-1, 0, 0, 0, -1, 0, 0, 0, -1⟩])
    [[], [0], [1], [2], [3], [0, 1], [0, 2], [0, 3], [1, 0], [1, 2], [1, 3], [2, 1], [2, 2], [2,
    3], [0, 1, 0], [0, 1, 2], [0, 1, 3], [0, 2, 1], [0, 2, 2], [0, 2, 3], [1, 0, 2], [1, 0, 3],
    [1, 2, 1], [1, 2, 2], [1, 2, 3], [2, 1, 0], [2, 1, 2], [2, 1, 3], [2, 2, 3], [0, 1, 0, 2], [0,
    1, 0, 3], [0, 1, 2, 1], [0, 1, 2, 2], [0, 1, 2, 3], [0, 2, 1, 0], [0, 2, 1, 2], [0, 2, 1, 3],
    [0, 2, 2, 3], [1, 0, 2, 1], [1, 0, 2, 2], [1, 0, 2, 3], [1, 2, 1, 0], [1, 2, 1, 3], [0, 1, 0,
    2, 1], [0, 1, 0, 2, 2], [0, 1, 0, 2, 3], [0, 1, 2, 1, 0], [0, 1, 2, 1, 3]] = true := by
  decide +kernel

theorem ops_mem_5 : ∀ g ∈ ops_bcc_5, g.toMat ∈ ClassSym 5 (canonC 5).toMat := by
  intro g hg
  simp only [ops_bcc_5, List.mem_cons, List.not_mem_nil, or_false] at hg
  rcases hg with rfl | rfl | rfl
  · refine mem_classSym (Ci := ⟨1, 0, 0, 0, 1, 0, 0, 0, 1⟩) (Y := ⟨0, 1, 0, 1, 0, 0, 0, 0, 1⟩)
      (by decide) (by decide) ?_
    class_fix
  · refine mem_classSym (Ci := ⟨1, 0, 0, 0, 1, 0, 0, 0, 1⟩) (Y := ⟨1, 0, 0, 0, 0, 1, 0, 1, 0⟩)
      (by decide) (by decide) ?_
    class_fix
  · refine mem_classSym (Ci := ⟨1, 0, 0, 0, 1, 0, 0, 0, 1⟩) (Y := ⟨0, 0, 1, 0, -1, 1, -1, 0, 1⟩)
      (by decide) (by decide) ?_
    class_fix

theorem sym_5 {n : ℤ} {H : IntMat} : H ∈ SymmetricHNFs (ClassSym 5 (canonC 5).toMat) n ↔
    (IsHNF H ∧ H.det = n) ∧ ∀ g ∈ ops_bcc_5, Keeps g.toMat H :=
  symHNFs_iff words_5 (by witness_red) (by witness_class) ops_mem_5

/-- Generators (with −1) of the symmetry group of the classes handled by `fcc_1`. -/
def ops_fcc_1 : List IMat := [⟨0, 1, 0, 1, 0, 0, 0, 0, 1⟩,
  ⟨1, 0, 0, 0, 0, 1, 0, 1, 0⟩,
  ⟨1, 1, 1, -1, 0, 0, 0, -1, 0⟩]

theorem words_1 : wordsCheck ⟨2, 2, 2, 1, 1, 1⟩ (canonC 1) ⟨1, 0, 0, 0, 1, 0, 0, 0, 1⟩
    (ops_fcc_1 ++ [⟨-1, 0, 0, 0, -1, 0, 0, 0, -1⟩])
    [[], [0], [1], [2], [3], [0, 1], [0, 2], [0, 3], [1, 0], [1, 2], [1, 3], [2, 1], [2, 2], [2,
    3], [0, 1, 0], [0, 1, 2], [0, 1, 3], [0, 2, 1], [0, 2, 2], [0, 2, 3], [1, 0, 2], [1, 0, 3],
    [1, 2, 1], [1, 2, 2], [1, 2, 3], [2, 1, 0], [2, 1, 2], [2, 1, 3], [2, 2, 1], [2, 2, 2], [2, 2,
    3], [0, 1, 0, 2], [0, 1, 0, 3], [0, 1, 2, 2], [0, 2, 1, 0], [0, 2, 1, 2], [0, 2, 1, 3], [0, 2,
    2, 2], [1, 0, 2, 1], [1, 0, 2, 3], [1, 2, 1, 0], [1, 2, 1, 2], [1, 2, 2, 1], [1, 2, 2, 3], [2,
    1, 0, 3], [2, 1, 2, 1], [2, 1, 2, 3], [2, 2, 2, 3]] = true := by
  decide +kernel

theorem ops_mem_1 : ∀ g ∈ ops_fcc_1, g.toMat ∈ ClassSym 1 (canonC 1).toMat := by
  intro g hg
  simp only [ops_fcc_1, List.mem_cons, List.not_mem_nil, or_false] at hg
  rcases hg with rfl | rfl | rfl
  · refine mem_classSym (Ci := ⟨1, 0, 0, 0, 1, 0, 0, 0, 1⟩) (Y := ⟨0, 1, 0, 1, 0, 0, 0, 0, 1⟩)
      (by decide) (by decide) ?_
    class_fix
  · refine mem_classSym (Ci := ⟨1, 0, 0, 0, 1, 0, 0, 0, 1⟩) (Y := ⟨1, 0, 0, 0, 0, 1, 0, 1, 0⟩)
      (by decide) (by decide) ?_
    class_fix
  · refine mem_classSym (Ci := ⟨1, 0, 0, 0, 1, 0, 0, 0, 1⟩) (Y := ⟨1, 1, 1, -1, 0, 0, 0, -1, 0⟩)
      (by decide) (by decide) ?_
    class_fix

theorem sym_1 {n : ℤ} {H : IntMat} : H ∈ SymmetricHNFs (ClassSym 1 (canonC 1).toMat) n ↔
    (IsHNF H ∧ H.det = n) ∧ ∀ g ∈ ops_fcc_1, Keeps g.toMat H :=
  symHNFs_iff words_1 (by witness_red) (by witness_class) ops_mem_1

/-- Generators (with −1) of the symmetry group of the classes handled by `hex_12`. -/
def ops_hex_12 : List IMat := [⟨0, 1, 0, 1, 0, 0, 0, 0, -1⟩,
  ⟨1, 1, 0, 0, -1, 0, 0, 0, -1⟩]

theorem words_12 : wordsCheck ⟨2, 2, 2, 0, 0, -1⟩ (canonC 12) ⟨1, 0, 0, 0, -1, 0, 0, 0, -1⟩
    (ops_hex_12 ++ [⟨-1, 0, 0, 0, -1, 0, 0, 0, -1⟩])
    [[], [0], [1], [2], [0, 1], [0, 2], [1, 0], [1, 2], [0, 1, 0], [0, 1, 2], [1, 0, 1], [1, 0,
    2], [0, 1, 0, 1], [0, 1, 0, 2], [1, 0, 1, 0], [1, 0, 1, 2], [0, 1, 0, 1, 0], [0, 1, 0, 1, 2],
    [1, 0, 1, 0, 1], [1, 0, 1, 0, 2], [0, 1, 0, 1, 0, 1], [0, 1, 0, 1, 0, 2], [1, 0, 1, 0, 1, 2],
    [0, 1, 0, 1, 0, 1, 2]] = true := by
  decide +kernel

theorem ops_mem_12 : ∀ g ∈ ops_hex_12, g.toMat ∈ ClassSym 12 (canonC 12).toMat := by
  intro g hg
  simp only [ops_hex_12, List.mem_cons, List.not_mem_nil, or_false] at hg
  rcases hg with rfl | rfl
  · refine mem_classSym (Ci := ⟨1, 0, 0, 0, -1, 0, 0, 0, -1⟩) (Y := ⟨0, -1, 0, -1, 0, 0, 0, 0, -1⟩)
      (by decide) (by decide) ?_
    class_fix
  · refine mem_classSym (Ci := ⟨1, 0, 0, 0, -1, 0, 0, 0, -1⟩) (Y := ⟨1, -1, 0, 0, -1, 0, 0, 0, -1⟩)
      (by decide) (by decide) ?_
    class_fix

theorem sym_12 {n : ℤ} {H : IntMat} : H ∈ SymmetricHNFs (ClassSym 12 (canonC 12).toMat) n ↔
    (IsHNF H ∧ H.det = n) ∧ ∀ g ∈ ops_hex_12, Keeps g.toMat H :=
  symHNFs_iff words_12 (by witness_red) (by witness_class) ops_mem_12

/-- Generators (with −1) of the symmetry group of the classes handled by `hex_22`. -/
def ops_hex_22 : List IMat := [⟨1, 0, 0, 0, 0, 1, 0, 1, 0⟩,
  ⟨1, 0, 0, 0, 0, 1, 0, -1, 1⟩]

theorem words_22 : wordsCheck ⟨1, 2, 2, -1, 0, 0⟩ (canonC 22) ⟨1, 0, 0, 0, 1, 0, 0, 0, 1⟩
    (ops_hex_22 ++ [⟨-1, 0, 0, 0, -1, 0, 0, 0, -1⟩])
    [[], [0], [1], [2], [0, 1], [0, 2], [1, 0], [1, 1], [1, 2], [0, 1, 0], [0, 1, 1], [0, 1, 2],
    [1, 0, 2], [1, 1, 0], [1, 1, 1], [1, 1, 2], [0, 1, 0, 2], [0, 1, 1, 0], [0, 1, 1, 1], [0, 1,
    1, 2], [1, 1, 0, 2], [1, 1, 1, 2], [0, 1, 1, 0, 2], [0, 1, 1, 1, 2]] = true := by
  decide +kernel

theorem ops_mem_22 : ∀ g ∈ ops_hex_22, g.toMat ∈ ClassSym 22 (canonC 22).toMat := by
  intro g hg
  simp only [ops_hex_22, List.mem_cons, List.not_mem_nil, or_false] at hg
  rcases hg with rfl | rfl
  · refine mem_classSym (Ci := ⟨1, 0, 0, 0, 1, 0, 0, 0, 1⟩) (Y := ⟨1, 0, 0, 0, 0, 1, 0, 1, 0⟩)
      (by decide) (by decide) ?_
    class_fix
  · refine mem_classSym (Ci := ⟨1, 0, 0, 0, 1, 0, 0, 0, 1⟩) (Y := ⟨1, 0, 0, 0, 0, 1, 0, -1, 1⟩)
      (by decide) (by decide) ?_
    class_fix

theorem sym_22 {n : ℤ} {H : IntMat} : H ∈ SymmetricHNFs (ClassSym 22 (canonC 22).toMat) n ↔
    (IsHNF H ∧ H.det = n) ∧ ∀ g ∈ ops_hex_22, Keeps g.toMat H :=
  symHNFs_iff words_22 (by witness_red) (by witness_class) ops_mem_22

/-- Generators (with −1) of the symmetry group of the classes handled by `rhom_9_24`. -/
def ops_rhom_9_24 : List IMat := [⟨1, 0, 0, 0, -1, 0, 0, 1, 1⟩,
  ⟨0, 0, 1, -1, 1, 1, 1, 0, 0⟩]

theorem words_9 : wordsCheck ⟨2, 2, 3, 1, 1, 1⟩ (canonC 9) ⟨0, -1, -1, 0, 0, -1, 1, 1, 2⟩
    (ops_rhom_9_24 ++ [⟨-1, 0, 0, 0, -1, 0, 0, 0, -1⟩])
    [[], [0], [1], [2], [0, 1], [0, 2], [1, 0], [1, 2], [0, 1, 0], [0, 1, 2], [1, 0, 2], [0, 1, 0,
    2]] = true := by
  decide +kernel

theorem ops_mem_9 : ∀ g ∈ ops_rhom_9_24, g.toMat ∈ ClassSym 9 (canonC 9).toMat := by
  intro g hg
  simp only [ops_rhom_9_24, List.mem_cons, List.not_mem_nil, or_false] at hg
  rcases hg with rfl | rfl
  · refine mem_classSym (Ci := ⟨0, -1, -1, 0, 0, -1, 1, 1, 2⟩) (Y := ⟨0, 1, 0, 1, 0, 0, 0, 0, 1⟩)
      (by decide) (by decide) ?_
    class_fix
  · refine mem_classSym (Ci := ⟨0, -1, -1, 0, 0, -1, 1, 1, 2⟩) (Y := ⟨1, 0, 0, -1, -1, -1, 0, 0, 1⟩)
      (by decide) (by decide) ?_
    class_fix

theorem sym_9 {n : ℤ} {H : IntMat} : H ∈ SymmetricHNFs (ClassSym 9 (canonC 9).toMat) n ↔
    (IsHNF H ∧ H.det = n) ∧ ∀ g ∈ ops_rhom_9_24, Keeps g.toMat H :=
  symHNFs_iff words_9 (by witness_red) (by witness_class) ops_mem_9

theorem words_24 : wordsCheck ⟨6, 8, 8, -3, -2, -2⟩ (canonC 24) ⟨0, 0, -1, 0, 1, 0, 1, 0, -1⟩
    (ops_rhom_9_24 ++ [⟨-1, 0, 0, 0, -1, 0, 0, 0, -1⟩])
    [[], [0], [1], [2], [0, 1], [0, 2], [1, 0], [1, 2], [0, 1, 0], [0, 1, 2], [1, 0, 2], [0, 1, 0,
    2]] = true := by
  decide +kernel

theorem ops_mem_24 : ∀ g ∈ ops_rhom_9_24, g.toMat ∈ ClassSym 24 (canonC 24).toMat := by
  intro g hg
  simp only [ops_rhom_9_24, List.mem_cons, List.not_mem_nil, or_false] at hg
  rcases hg with rfl | rfl
  · refine mem_classSym (Ci := ⟨0, 0, -1, 0, 1, 0, 1, 0, -1⟩) (Y := ⟨1, -1, 0, 0, -1, 0, 0, -1, 1⟩)
      (by decide) (by decide) ?_
    class_fix
  · refine mem_classSym (Ci := ⟨0, 0, -1, 0, 1, 0, 1, 0, -1⟩) (Y := ⟨1, 0, -1, 0, 1, -1, 0, 0, -1⟩)
      (by decide) (by decide) ?_
    class_fix

theorem sym_24 {n : ℤ} {H : IntMat} : H ∈ SymmetricHNFs (ClassSym 24 (canonC 24).toMat) n ↔
    (IsHNF H ∧ H.det = n) ∧ ∀ g ∈ ops_rhom_9_24, Keeps g.toMat H :=
  symHNFs_iff words_24 (by witness_red) (by witness_class) ops_mem_24

/-- Generators (with −1) of the symmetry group of the classes handled by `rhom_4_2`. -/
def ops_rhom_4_2 : List IMat := [⟨1, 0, 0, 0, -1, 0, 0, -1, 1⟩,
  ⟨0, 1, -1, -1, 0, -1, -1, 0, 0⟩]

theorem words_4 : wordsCheck ⟨4, 4, 4, -1, -1, -1⟩ (canonC 4) ⟨-1, 0, 0, 0, -1, 1, 0, 0, 1⟩
    (ops_rhom_4_2 ++ [⟨-1, 0, 0, 0, -1, 0, 0, 0, -1⟩])
    [[], [0], [1], [2], [0, 1], [0, 2], [1, 0], [1, 1], [1, 2], [0, 1, 2], [1, 0, 2], [1, 1, 2]] = true := by
  decide +kernel

theorem ops_mem_4 : ∀ g ∈ ops_rhom_4_2, g.toMat ∈ ClassSym 4 (canonC 4).toMat := by
  intro g hg
  simp only [ops_rhom_4_2, List.mem_cons, List.not_mem_nil, or_false] at hg
  rcases hg with rfl | rfl
  · refine mem_classSym (Ci := ⟨-1, 0, 0, 0, -1, 1, 0, 0, 1⟩) (Y := ⟨1, 0, 0, 0, 0, 1, 0, 1, 0⟩)
      (by decide) (by decide) ?_
    class_fix
  · refine mem_classSym (Ci := ⟨-1, 0, 0, 0, -1, 1, 0, 0, 1⟩) (Y := ⟨0, 1, 0, 0, 0, 1, 1, 0, 0⟩)
      (by decide) (by decide) ?_
    class_fix

theorem sym_4 {n : ℤ} {H : IntMat} : H ∈ SymmetricHNFs (ClassSym 4 (canonC 4).toMat) n ↔
    (IsHNF H ∧ H.det = n) ∧ ∀ g ∈ ops_rhom_4_2, Keeps g.toMat H :=
  symHNFs_iff words_4 (by witness_red) (by witness_class) ops_mem_4

theorem words_2 : wordsCheck ⟨3, 3, 3, 1, 1, 1⟩ (canonC 2) ⟨0, 1, -1, 1, 0, 0, 0, 0, -1⟩
    (ops_rhom_4_2 ++ [⟨-1, 0, 0, 0, -1, 0, 0, 0, -1⟩])
    [[], [0], [1], [2], [0, 1], [0, 2], [1, 0], [1, 1], [1, 2], [0, 1, 2], [1, 0, 2], [1, 1, 2]] = true := by
  decide +kernel

theorem ops_mem_2 : ∀ g ∈ ops_rhom_4_2, g.toMat ∈ ClassSym 2 (canonC 2).toMat := by
  intro g hg
  simp only [ops_rhom_4_2, List.mem_cons, List.not_mem_nil, or_false] at hg
  rcases hg with rfl | rfl
  · refine mem_classSym (Ci := ⟨0, 1, -1, 1, 0, 0, 0, 0, -1⟩) (Y := ⟨0, 0, 1, 0, 1, 0, 1, 0, 0⟩)
      (by decide) (by decide) ?_
    class_fix
  · refine mem_classSym (Ci := ⟨0, 1, -1, 1, 0, 0, 0, 0, -1⟩) (Y := ⟨0, 0, 1, 1, 0, 0, 0, 1, 0⟩)
      (by decide) (by decide) ?_
    class_fix

theorem sym_2 {n : ℤ} {H : IntMat} : H ∈ SymmetricHNFs (ClassSym 2 (canonC 2).toMat) n ↔
    (IsHNF H ∧ H.det = n) ∧ ∀ g ∈ ops_rhom_4_2, Keeps g.toMat H :=
  symHNFs_iff words_2 (by witness_red) (by witness_class) ops_mem_2

/-- Generators (with −1) of the symmetry group of the classes handled by `stet_11`. -/
def ops_stet_11 : List IMat := [⟨0, 1, 0, 1, 0, 0, 0, 0, 1⟩,
  ⟨1, 0, 0, 0, -1, 0, 0, 0, 1⟩]

theorem words_11 : wordsCheck ⟨1, 1, 2, 0, 0, 0⟩ (canonC 11) ⟨1, 0, 0, 0, 1, 0, 0, 0, 1⟩
    (ops_stet_11 ++ [⟨-1, 0, 0, 0, -1, 0, 0, 0, -1⟩])
    [[], [0], [1], [2], [0, 1], [0, 2], [1, 0], [1, 2], [0, 1, 0], [0, 1, 2], [1, 0, 1], [1, 0,
    2], [0, 1, 0, 1], [0, 1, 0, 2], [1, 0, 1, 2], [0, 1, 0, 1, 2]] = true := by
  decide +kernel

theorem ops_mem_11 : ∀ g ∈ ops_stet_11, g.toMat ∈ ClassSym 11 (canonC 11).toMat := by
  intro g hg
  simp only [ops_stet_11, List.mem_cons, List.not_mem_nil, or_false] at hg
  rcases hg with rfl | rfl
  · refine mem_classSym (Ci := ⟨1, 0, 0, 0, 1, 0, 0, 0, 1⟩) (Y := ⟨0, 1, 0, 1, 0, 0, 0, 0, 1⟩)
      (by decide) (by decide) ?_
    class_fix
  · refine mem_classSym (Ci := ⟨1, 0, 0, 0, 1, 0, 0, 0, 1⟩) (Y := ⟨1, 0, 0, 0, -1, 0, 0, 0, 1⟩)
      (by decide) (by decide) ?_
    class_fix

theorem sym_11 {n : ℤ} {H : IntMat} : H ∈ SymmetricHNFs (ClassSym 11 (canonC 11).toMat) n ↔
    (IsHNF H ∧ H.det = n) ∧ ∀ g ∈ ops_stet_11, Keeps g.toMat H :=
  symHNFs_iff words_11 (by witness_red) (by witness_class) ops_mem_11

/-- Generators (with −1) of the symmetry group of the classes handled by `stet_21`. -/
def ops_stet_21 : List IMat := [⟨1, 0, 0, 0, -1, 0, 0, 0, 1⟩,
  ⟨1, 0, 0, 0, 0, -1, 0, 1, 0⟩]

theorem words_21 : wordsCheck ⟨1, 2, 2, 0, 0, 0⟩ (canonC 21) ⟨1, 0, 0, 0, 1, 0, 0, 0, 1⟩
    (ops_stet_21 ++ [⟨-1, 0, 0, 0, -1, 0, 0, 0, -1⟩])
    [[], [0], [1], [2], [0, 1], [0, 2], [1, 0], [1, 1], [1, 2], [0, 1, 0], [0, 1, 1], [0, 1, 2],
    [1, 0, 2], [1, 1, 2], [0, 1, 0, 2], [0, 1, 1, 2]] = true := by
  decide +kernel

theorem ops_mem_21 : ∀ g ∈ ops_stet_21, g.toMat ∈ ClassSym 21 (canonC 21).toMat := by
  intro g hg
  simp only [ops_stet_21, List.mem_cons, List.not_mem_nil, or_false] at hg
  rcases hg with rfl | rfl
  · refine mem_classSym (Ci := ⟨1, 0, 0, 0, 1, 0, 0, 0, 1⟩) (Y := ⟨1, 0, 0, 0, -1, 0, 0, 0, 1⟩)
      (by decide) (by decide) ?_
    class_fix
  · refine mem_classSym (Ci := ⟨1, 0, 0, 0, 1, 0, 0, 0, 1⟩) (Y := ⟨1, 0, 0, 0, 0, -1, 0, 1, 0⟩)
      (by decide) (by decide) ?_
    class_fix

theorem sym_21 {n : ℤ} {H : IntMat} : H ∈ SymmetricHNFs (ClassSym 21 (canonC 21).toMat) n ↔
    (IsHNF H ∧ H.det = n) ∧ ∀ g ∈ ops_stet_21, Keeps g.toMat H :=
  symHNFs_iff words_21 (by witness_red) (by witness_class) ops_mem_21

/-- Generators (with −1) of the symmetry group of the classes handled by `body_tet_6_7_15_18`. -/
def ops_body_tet_6_7_15_18 : List IMat := [⟨1, 0, 0, 0, 0, 1, 0, 1, 0⟩,
  ⟨1, 0, 0, -1, 0, -1, 0, 1, 0⟩]

theorem words_6 : wordsCheck ⟨10, 10, 10, -3, -3, -4⟩ (canonC 6) ⟨1, 1, 0, 0, 0, -1, 0, 1, -1⟩
    (ops_body_tet_6_7_15_18 ++ [⟨-1, 0, 0, 0, -1, 0, 0, 0, -1⟩])
    [[], [0], [1], [2], [0, 1], [0, 2], [1, 0], [1, 1], [1, 2], [0, 1, 0], [0, 1, 1], [0, 1, 2],
    [1, 0, 2], [1, 1, 2], [0, 1, 0, 2], [0, 1, 1, 2]] = true := by
  decide +kernel

theorem ops_mem_6 : ∀ g ∈ ops_body_tet_6_7_15_18, g.toMat ∈ ClassSym 6 (canonC 6).toMat := by
  intro g hg
  simp only [ops_body_tet_6_7_15_18, List.mem_cons, List.not_mem_nil, or_false] at hg
  rcases hg with rfl | rfl
  · refine mem_classSym (Ci := ⟨1, 1, 0, 0, 0, -1, 0, 1, -1⟩) (Y := ⟨1, 0, -1, 0, 1, -1, 0, 0, -1⟩)
      (by decide) (by decide) ?_
    class_fix
  · refine mem_classSym (Ci := ⟨1, 1, 0, 0, 0, -1, 0, 1, -1⟩) (Y := ⟨0, 1, 0, 0, 1, -1, -1, 1, 0⟩)
      (by decide) (by decide) ?_
    class_fix

theorem sym_6 {n : ℤ} {H : IntMat} : H ∈ SymmetricHNFs (ClassSym 6 (canonC 6).toMat) n ↔
    (IsHNF H ∧ H.det = n) ∧ ∀ g ∈ ops_body_tet_6_7_15_18, Keeps g.toMat H :=
  symHNFs_iff words_6 (by witness_red) (by witness_class) ops_mem_6

theorem words_7 : wordsCheck ⟨8, 8, 8, -2, -3, -3⟩ (canonC 7) ⟨0, 1, -1, -1, 0, -1, 0, 1, 0⟩
    (ops_body_tet_6_7_15_18 ++ [⟨-1, 0, 0, 0, -1, 0, 0, 0, -1⟩])
    [[], [0], [1], [2], [0, 1], [0, 2], [1, 0], [1, 1], [1, 2], [0, 1, 0], [0, 1, 1], [0, 1, 2],
    [1, 0, 2], [1, 1, 2], [0, 1, 0, 2], [0, 1, 1, 2]] = true := by
  decide +kernel

theorem ops_mem_7 : ∀ g ∈ ops_body_tet_6_7_15_18, g.toMat ∈ ClassSym 7 (canonC 7).toMat := by
  intro g hg
  simp only [ops_body_tet_6_7_15_18, List.mem_cons, List.not_mem_nil, or_false] at hg
  rcases hg with rfl | rfl
  · refine mem_classSym (Ci := ⟨0, 1, -1, -1, 0, -1, 0, 1, 0⟩) (Y := ⟨-1, 0, 0, -1, 1, 0, -1, 0, 1⟩)
      (by decide) (by decide) ?_
    class_fix
  · refine mem_classSym (Ci := ⟨0, 1, -1, -1, 0, -1, 0, 1, 0⟩) (Y := ⟨0, 1, -1, -1, 1, 0, 0, 1, 0⟩)
      (by decide) (by decide) ?_
    class_fix

theorem sym_7 {n : ℤ} {H : IntMat} : H ∈ SymmetricHNFs (ClassSym 7 (canonC 7).toMat) n ↔
    (IsHNF H ∧ H.det = n) ∧ ∀ g ∈ ops_body_tet_6_7_15_18, Keeps g.toMat H :=
  symHNFs_iff words_7 (by witness_red) (by witness_class) ops_mem_7

theorem words_15 : wordsCheck ⟨2, 2, 3, -1, -1, 0⟩ (canonC 15) ⟨0, -1, 0, 0, 0, -1, 1, 0, 0⟩
    (ops_body_tet_6_7_15_18 ++ [⟨-1, 0, 0, 0, -1, 0, 0, 0, -1⟩])
    [[], [0], [1], [2], [0, 1], [0, 2], [1, 0], [1, 1], [1, 2], [0, 1, 0], [0, 1, 1], [0, 1, 2],
    [1, 0, 2], [1, 1, 2], [0, 1, 0, 2], [0, 1, 1, 2]] = true := by
  decide +kernel

theorem ops_mem_15 : ∀ g ∈ ops_body_tet_6_7_15_18, g.toMat ∈ ClassSym 15 (canonC 15).toMat := by
  intro g hg
  simp only [ops_body_tet_6_7_15_18, List.mem_cons, List.not_mem_nil, or_false] at hg
  rcases hg with rfl | rfl
  · refine mem_classSym (Ci := ⟨0, -1, 0, 0, 0, -1, 1, 0, 0⟩) (Y := ⟨0, 1, 0, 1, 0, 0, 0, 0, 1⟩)
      (by decide) (by decide) ?_
    class_fix
  · refine mem_classSym (Ci := ⟨0, -1, 0, 0, 0, -1, 1, 0, 0⟩) (Y := ⟨0, -1, 1, 1, 0, 0, 0, 0, 1⟩)
      (by decide) (by decide) ?_
    class_fix

theorem sym_15 {n : ℤ} {H : IntMat} : H ∈ SymmetricHNFs (ClassSym 15 (canonC 15).toMat) n ↔
    (IsHNF H ∧ H.det = n) ∧ ∀ g ∈ ops_body_tet_6_7_15_18, Keeps g.toMat H :=
  symHNFs_iff words_15 (by witness_red) (by witness_class) ops_mem_15

theorem words_18 : wordsCheck ⟨4, 4, 4, 1, 2, 2⟩ (canonC 18) ⟨0, 1, 0, -1, -1, -1, 0, -1, 1⟩
    (ops_body_tet_6_7_15_18 ++ [⟨-1, 0, 0, 0, -1, 0, 0, 0, -1⟩])
    [[], [0], [1], [2], [0, 1], [0, 2], [1, 0], [1, 1], [1, 2], [0, 1, 0], [0, 1, 1], [0, 1, 2],
    [1, 0, 2], [1, 1, 2], [0, 1, 0, 2], [0, 1, 1, 2]] = true := by
  decide +kernel

theorem ops_mem_18 : ∀ g ∈ ops_body_tet_6_7_15_18, g.toMat ∈ ClassSym 18 (canonC 18).toMat := by
  intro g hg
  simp only [ops_body_tet_6_7_15_18, List.mem_cons, List.not_mem_nil, or_false] at hg
  rcases hg with rfl | rfl
  · refine mem_classSym (Ci := ⟨0, 1, 0, -1, -1, -1, 0, -1, 1⟩) (Y := ⟨1, 0, 1, 0, 1, 0, 0, 0, -1⟩)
      (by decide) (by decide) ?_
    class_fix
  · refine mem_classSym (Ci := ⟨0, 1, 0, -1, -1, -1, 0, -1, 1⟩) (Y := ⟨1, 1, 0, 0, 0, 1, 0, -1, 0⟩)
      (by decide) (by decide) ?_
    class_fix

theorem sym_18 {n : ℤ} {H : IntMat} : H ∈ SymmetricHNFs (ClassSym 18 (canonC 18).toMat) n ↔
    (IsHNF H ∧ H.det = n) ∧ ∀ g ∈ ops_body_tet_6_7_15_18, Keeps g.toMat H :=
  symHNFs_iff words_18 (by witness_red) (by witness_class) ops_mem_18

/-- Generators (with −1) of the symmetry group of the classes handled by `so_32`. -/
def ops_so_32 : List IMat := [⟨1, 0, 0, 0, 1, 0, 0, 0, -1⟩,
  ⟨1, 0, 0, 0, -1, 0, 0, 0, -1⟩]

theorem words_32 : wordsCheck ⟨1, 2, 3, 0, 0, 0⟩ (canonC 32) ⟨1, 0, 0, 0, 1, 0, 0, 0, 1⟩
    (ops_so_32 ++ [⟨-1, 0, 0, 0, -1, 0, 0, 0, -1⟩])
    [[], [0], [1], [2], [0, 1], [0, 2], [1, 2], [0, 1, 2]] = true := by
  decide +kernel

theorem ops_mem_32 : ∀ g ∈ ops_so_32, g.toMat ∈ ClassSym 32 (canonC 32).toMat := by
  intro g hg
  simp only [ops_so_32, List.mem_cons, List.not_mem_nil, or_false] at hg
  rcases hg with rfl | rfl
  · refine mem_classSym (Ci := ⟨1, 0, 0, 0, 1, 0, 0, 0, 1⟩) (Y := ⟨1, 0, 0, 0, 1, 0, 0, 0, -1⟩)
      (by decide) (by decide) ?_
    class_fix
  · refine mem_classSym (Ci := ⟨1, 0, 0, 0, 1, 0, 0, 0, 1⟩) (Y := ⟨1, 0, 0, 0, -1, 0, 0, 0, -1⟩)
      (by decide) (by decide) ?_
    class_fix

theorem sym_32 {n : ℤ} {H : IntMat} : H ∈ SymmetricHNFs (ClassSym 32 (canonC 32).toMat) n ↔
    (IsHNF H ∧ H.det = n) ∧ ∀ g ∈ ops_so_32, Keeps g.toMat H :=
  symHNFs_iff words_32 (by witness_red) (by witness_class) ops_mem_32

/-- Generators (with −1) of the symmetry group of the classes handled by `body_ortho_19`. -/
def ops_body_ortho_19 : List IMat := [⟨1, 0, 0, 0, 1, 0, -1, 0, -1⟩,
  ⟨1, 0, 0, -1, -1, 0, 0, 0, 1⟩]

theorem words_19 : wordsCheck ⟨2, 3, 3, 1, 1, 1⟩ (canonC 19) ⟨1, 0, 1, -1, -1, -1, 0, 1, -1⟩
    (ops_body_ortho_19 ++ [⟨-1, 0, 0, 0, -1, 0, 0, 0, -1⟩])
    [[], [0], [1], [2], [0, 1], [0, 2], [1, 2], [0, 1, 2]] = true := by
  decide +kernel

theorem ops_mem_19 : ∀ g ∈ ops_body_ortho_19, g.toMat ∈ ClassSym 19 (canonC 19).toMat := by
  intro g hg
  simp only [ops_body_ortho_19, List.mem_cons, List.not_mem_nil, or_false] at hg
  rcases hg with rfl | rfl
  · refine mem_classSym (Ci := ⟨1, 0, 1, -1, -1, -1, 0, 1, -1⟩) (Y := ⟨1, 1, 1, 0, 0, -1, 0, -1, 0⟩)
      (by decide) (by decide) ?_
    class_fix
  · refine mem_classSym (Ci := ⟨1, 0, 1, -1, -1, -1, 0, 1, -1⟩) (Y := ⟨1, 0, 0, 0, 0, 1, 0, 1, 0⟩)
      (by decide) (by decide) ?_
    class_fix

theorem sym_19 {n : ℤ} {H : IntMat} : H ∈ SymmetricHNFs (ClassSym 19 (canonC 19).toMat) n ↔
    (IsHNF H ∧ H.det = n) ∧ ∀ g ∈ ops_body_ortho_19, Keeps g.toMat H :=
  symHNFs_iff words_19 (by witness_red) (by witness_class) ops_mem_19

/-- Generators (with −1) of the symmetry group of the classes handled by `body_ortho_8`. -/
def ops_body_ortho_8 : List IMat := [⟨1, 0, 0, 0, -1, 0, -1, 0, -1⟩,
  ⟨1, 0, 0, 1, -1, 2, 0, 0, 1⟩]

theorem words_8 : wordsCheck ⟨16, 16, 16, -4, -5, -7⟩ (canonC 8) ⟨0, -1, 0, 0, 0, -1, 1, -1, 1⟩
    (ops_body_ortho_8 ++ [⟨-1, 0, 0, 0, -1, 0, 0, 0, -1⟩])
    [[], [0], [1], [2], [0, 1], [0, 2], [1, 2], [0, 1, 2]] = true := by
  decide +kernel

theorem ops_mem_8 : ∀ g ∈ ops_body_ortho_8, g.toMat ∈ ClassSym 8 (canonC 8).toMat := by
  intro g hg
  simp only [ops_body_ortho_8, List.mem_cons, List.not_mem_nil, or_false] at hg
  rcases hg with rfl | rfl
  · refine mem_classSym (Ci := ⟨0, -1, 0, 0, 0, -1, 1, -1, 1⟩) (Y := ⟨-1, 0, 0, -1, 0, 1, -1, 1, 0⟩)
      (by decide) (by decide) ?_
    class_fix
  · refine mem_classSym (Ci := ⟨0, -1, 0, 0, 0, -1, 1, -1, 1⟩) (Y := ⟨0, 1, -1, 0, 1, 0, -1, 1, 0⟩)
      (by decide) (by decide) ?_
    class_fix

theorem sym_8 {n : ℤ} {H : IntMat} : H ∈ SymmetricHNFs (ClassSym 8 (canonC 8).toMat) n ↔
    (IsHNF H ∧ H.det = n) ∧ ∀ g ∈ ops_body_ortho_8, Keeps g.toMat H :=
  symHNFs_iff words_8 (by witness_red) (by witness_class) ops_mem_8

/-- Generators (with −1) of the symmetry group of the classes handled by `body_ortho_42`. -/
def ops_body_ortho_42 : List IMat := [⟨1, 0, 0, 1, -1, 0, 0, 0, 1⟩,
  ⟨1, 0, 0, 0, 1, 0, 1, 0, -1⟩]

theorem words_42 : wordsCheck ⟨2, 4, 5, -2, -1, 0⟩ (canonC 42) ⟨0, 1, 0, 0, 0, 1, 1, 0, 0⟩
    (ops_body_ortho_42 ++ [⟨-1, 0, 0, 0, -1, 0, 0, 0, -1⟩])
    [[], [0], [1], [2], [0, 1], [0, 2], [1, 2], [0, 1, 2]] = true := by
  decide +kernel

theorem ops_mem_42 : ∀ g ∈ ops_body_ortho_42, g.toMat ∈ ClassSym 42 (canonC 42).toMat := by
  intro g hg
  simp only [ops_body_ortho_42, List.mem_cons, List.not_mem_nil, or_false] at hg
  rcases hg with rfl | rfl
  · refine mem_classSym (Ci := ⟨0, 1, 0, 0, 0, 1, 1, 0, 0⟩) (Y := ⟨-1, 0, 1, 0, 1, 0, 0, 0, 1⟩)
      (by decide) (by decide) ?_
    class_fix
  · refine mem_classSym (Ci := ⟨0, 1, 0, 0, 0, 1, 1, 0, 0⟩) (Y := ⟨1, 0, 0, 0, -1, 1, 0, 0, 1⟩)
      (by decide) (by decide) ?_
    class_fix

theorem sym_42 {n : ℤ} {H : IntMat} : H ∈ SymmetricHNFs (ClassSym 42 (canonC 42).toMat) n ↔
    (IsHNF H ∧ H.det = n) ∧ ∀ g ∈ ops_body_ortho_42, Keeps g.toMat H :=
  symHNFs_iff words_42 (by witness_red) (by witness_class) ops_mem_42

/-- Generators (with −1) of the symmetry group of the classes handled by `face_ortho_26`. -/
def ops_face_ortho_26 : List IMat := [⟨1, 0, 0, 0, -1, 0, -1, 0, -1⟩,
  ⟨1, 0, 0, 0, -1, 0, 0, 1, 1⟩]

theorem words_26 : wordsCheck ⟨4, 4, 5, 1, 2, 2⟩ (canonC 26) ⟨1, 0, 1, -1, 0, 0, -1, -1, -2⟩
    (ops_face_ortho_26 ++ [⟨-1, 0, 0, 0, -1, 0, 0, 0, -1⟩])
    [[], [0], [1], [2], [0, 1], [0, 2], [1, 2], [0, 1, 2]] = true := by
  decide +kernel

theorem ops_mem_26 : ∀ g ∈ ops_face_ortho_26, g.toMat ∈ ClassSym 26 (canonC 26).toMat := by
  intro g hg
  simp only [ops_face_ortho_26, List.mem_cons, List.not_mem_nil, or_false] at hg
  rcases hg with rfl | rfl
  · refine mem_classSym (Ci := ⟨1, 0, 1, -1, 0, 0, -1, -1, -2⟩) (Y := ⟨-1, -1, 0, 0, 1, 0, 0, 0, -1⟩)
      (by decide) (by decide) ?_
    class_fix
  · refine mem_classSym (Ci := ⟨1, 0, 1, -1, 0, 0, -1, -1, -2⟩) (Y := ⟨-1, -1, -1, 0, 1, 0, 0, 0, 1⟩)
      (by decide) (by decide) ?_
    class_fix

theorem sym_26 {n : ℤ} {H : IntMat} : H ∈ SymmetricHNFs (ClassSym 26 (canonC 26).toMat) n ↔
    (IsHNF H ∧ H.det = n) ∧ ∀ g ∈ ops_face_ortho_26, Keeps g.toMat H :=
  symHNFs_iff words_26 (by witness_red) (by witness_class) ops_mem_26

/-- Generators (with −1) of the symmetry group of the classes handled by `face_ortho_16`. -/
def ops_face_ortho_16 : List IMat := [⟨1, 0, 0, 0, -1, 0, -1, 0, -1⟩,
  ⟨1, 0, 0, 0, -1, 0, 0, 1, 1⟩]

theorem words_16 : wordsCheck ⟨3, 3, 4, -1, -1, -1⟩ (canonC 16) ⟨0, -1, -1, 0, 0, -1, 1, 0, 0⟩
    (ops_face_ortho_16 ++ [⟨-1, 0, 0, 0, -1, 0, 0, 0, -1⟩])
    [[], [0], [1], [2], [0, 1], [0, 2], [1, 2], [0, 1, 2]] = true := by
  decide +kernel

theorem ops_mem_16 : ∀ g ∈ ops_face_ortho_16, g.toMat ∈ ClassSym 16 (canonC 16).toMat := by
  intro g hg
  simp only [ops_face_ortho_16, List.mem_cons, List.not_mem_nil, or_false] at hg
  rcases hg with rfl | rfl
  · refine mem_classSym (Ci := ⟨0, -1, -1, 0, 0, -1, 1, 0, 0⟩) (Y := ⟨-1, 0, 1, 0, -1, 1, 0, 0, 1⟩)
      (by decide) (by decide) ?_
    class_fix
  · refine mem_classSym (Ci := ⟨0, -1, -1, 0, 0, -1, 1, 0, 0⟩) (Y := ⟨0, 1, 0, 1, 0, 0, 0, 0, 1⟩)
      (by decide) (by decide) ?_
    class_fix

theorem sym_16 {n : ℤ} {H : IntMat} : H ∈ SymmetricHNFs (ClassSym 16 (canonC 16).toMat) n ↔
    (IsHNF H ∧ H.det = n) ∧ ∀ g ∈ ops_face_ortho_16, Keeps g.toMat H :=
  symHNFs_iff words_16 (by witness_red) (by witness_class) ops_mem_16

/-- Generators (with −1) of the symmetry group of the classes handled by `base_ortho_38_13`. -/
def ops_base_ortho_38_13 : List IMat := [⟨1, 0, 0, 0, 1, 0, 0, 0, -1⟩,
  ⟨0, 1, 0, 1, 0, 0, 0, 0, 1⟩]

theorem words_38 : wordsCheck ⟨2, 3, 3, 0, 0, -1⟩ (canonC 38) ⟨0, -1, 0, 1, -1, 0, 0, 0, 1⟩
    (ops_base_ortho_38_13 ++ [⟨-1, 0, 0, 0, -1, 0, 0, 0, -1⟩])
    [[], [0], [1], [2], [0, 1], [0, 2], [1, 2], [0, 1, 2]] = true := by
  decide +kernel

theorem ops_mem_38 : ∀ g ∈ ops_base_ortho_38_13, g.toMat ∈ ClassSym 38 (canonC 38).toMat := by
  intro g hg
  simp only [ops_base_ortho_38_13, List.mem_cons, List.not_mem_nil, or_false] at hg
  rcases hg with rfl | rfl
  · refine mem_classSym (Ci := ⟨0, -1, 0, 1, -1, 0, 0, 0, 1⟩) (Y := ⟨1, 0, 0, 0, 1, 0, 0, 0, -1⟩)
      (by decide) (by decide) ?_
    class_fix
  · refine mem_classSym (Ci := ⟨0, -1, 0, 1, -1, 0, 0, 0, 1⟩) (Y := ⟨1, -1, 0, 0, -1, 0, 0, 0, 1⟩)
      (by decide) (by decide) ?_
    class_fix

theorem sym_38 {n : ℤ} {H : IntMat} : H ∈ SymmetricHNFs (ClassSym 38 (canonC 38).toMat) n ↔
    (IsHNF H ∧ H.det = n) ∧ ∀ g ∈ ops_base_ortho_38_13, Keeps g.toMat H :=
  symHNFs_iff words_38 (by witness_red) (by witness_class) ops_mem_38

theorem words_13 : wordsCheck ⟨3, 3, 3, 0, 0, -1⟩ (canonC 13) ⟨1, 0, 0, 0, 1, 0, 0, 0, 1⟩
    (ops_base_ortho_38_13 ++ [⟨-1, 0, 0, 0, -1, 0, 0, 0, -1⟩])
    [[], [0], [1], [2], [0, 1], [0, 2], [1, 2], [0, 1, 2]] = true := by
  decide +kernel

theorem ops_mem_13 : ∀ g ∈ ops_base_ortho_38_13, g.toMat ∈ ClassSym 13 (canonC 13).toMat := by
  intro g hg
  simp only [ops_base_ortho_38_13, List.mem_cons, List.not_mem_nil, or_false] at hg
  rcases hg with rfl | rfl
  · refine mem_classSym (Ci := ⟨1, 0, 0, 0, 1, 0, 0, 0, 1⟩) (Y := ⟨1, 0, 0, 0, 1, 0, 0, 0, -1⟩)
      (by decide) (by decide) ?_
    class_fix
  · refine mem_classSym (Ci := ⟨1, 0, 0, 0, 1, 0, 0, 0, 1⟩) (Y := ⟨0, 1, 0, 1, 0, 0, 0, 0, 1⟩)
      (by decide) (by decide) ?_
    class_fix

theorem sym_13 {n : ℤ} {H : IntMat} : H ∈ SymmetricHNFs (ClassSym 13 (canonC 13).toMat) n ↔
    (IsHNF H ∧ H.det = n) ∧ ∀ g ∈ ops_base_ortho_38_13, Keeps g.toMat H :=
  symHNFs_iff words_13 (by witness_red) (by witness_class) ops_mem_13

/-- Generators (with −1) of the symmetry group of the classes handled by `base_ortho_23`. -/
def ops_base_ortho_23 : List IMat := [⟨0, 0, 1, 0, 1, 0, 1, 0, 0⟩,
  ⟨1, 0, 0, 0, -1, 0, 0, 0, 1⟩]

theorem words_23 : wordsCheck ⟨1, 3, 3, -1, 0, 0⟩ (canonC 23) ⟨0, -1, 0, -1, 0, 0, 0, 0, -1⟩
    (ops_base_ortho_23 ++ [⟨-1, 0, 0, 0, -1, 0, 0, 0, -1⟩])
    [[], [0], [1], [2], [0, 1], [0, 2], [1, 2], [0, 1, 2]] = true := by
  decide +kernel

theorem ops_mem_23 : ∀ g ∈ ops_base_ortho_23, g.toMat ∈ ClassSym 23 (canonC 23).toMat := by
  intro g hg
  simp only [ops_base_ortho_23, List.mem_cons, List.not_mem_nil, or_false] at hg
  rcases hg with rfl | rfl
  · refine mem_classSym (Ci := ⟨0, -1, 0, -1, 0, 0, 0, 0, -1⟩) (Y := ⟨1, 0, 0, 0, 0, 1, 0, 1, 0⟩)
      (by decide) (by decide) ?_
    class_fix
  · refine mem_classSym (Ci := ⟨0, -1, 0, -1, 0, 0, 0, 0, -1⟩) (Y := ⟨-1, 0, 0, 0, 1, 0, 0, 0, 1⟩)
      (by decide) (by decide) ?_
    class_fix

theorem sym_23 {n : ℤ} {H : IntMat} : H ∈ SymmetricHNFs (ClassSym 23 (canonC 23).toMat) n ↔
    (IsHNF H ∧ H.det = n) ∧ ∀ g ∈ ops_base_ortho_23, Keeps g.toMat H :=
  symHNFs_iff words_23 (by witness_red) (by witness_class) ops_mem_23

/-- Generators (with −1) of the symmetry group of the classes handled by `base_ortho_40`. -/
def ops_base_ortho_40 : List IMat := [⟨1, 0, 0, 0, -1, 0, 0, 0, -1⟩,
  ⟨1, 0, 0, 0, -1, 1, 0, 0, 1⟩]

theorem words_40 : wordsCheck ⟨1, 2, 3, -1, 0, 0⟩ (canonC 40) ⟨1, 0, 0, 0, 1, 0, 0, 0, 1⟩
    (ops_base_ortho_40 ++ [⟨-1, 0, 0, 0, -1, 0, 0, 0, -1⟩])
    [[], [0], [1], [2], [0, 1], [0, 2], [1, 2], [0, 1, 2]] = true := by
  decide +kernel

theorem ops_mem_40 : ∀ g ∈ ops_base_ortho_40, g.toMat ∈ ClassSym 40 (canonC 40).toMat := by
  intro g hg
  simp only [ops_base_ortho_40, List.mem_cons, List.not_mem_nil, or_false] at hg
  rcases hg with rfl | rfl
  · refine mem_classSym (Ci := ⟨1, 0, 0, 0, 1, 0, 0, 0, 1⟩) (Y := ⟨1, 0, 0, 0, -1, 0, 0, 0, -1⟩)
      (by decide) (by decide) ?_
    class_fix
  · refine mem_classSym (Ci := ⟨1, 0, 0, 0, 1, 0, 0, 0, 1⟩) (Y := ⟨1, 0, 0, 0, -1, 1, 0, 0, 1⟩)
      (by decide) (by decide) ?_
    class_fix

theorem sym_40 {n : ℤ} {H : IntMat} : H ∈ SymmetricHNFs (ClassSym 40 (canonC 40).toMat) n ↔
    (IsHNF H ∧ H.det = n) ∧ ∀ g ∈ ops_base_ortho_40, Keeps g.toMat H :=
  symHNFs_iff words_40 (by witness_red) (by witness_class) ops_mem_40

/-- Generators (with −1) of the symmetry group of the classes handled by `base_ortho_36`. -/
def ops_base_ortho_36 : List IMat := [⟨1, 0, 0, 0, -1, 0, 0, 0, 1⟩,
  ⟨1, 0, -1, 0, -1, 0, 0, 0, -1⟩]

theorem words_36 : wordsCheck ⟨2, 2, 3, 0, -1, 0⟩ (canonC 36) ⟨1, 0, 0, 0, 1, 0, 0, 0, 1⟩
    (ops_base_ortho_36 ++ [⟨-1, 0, 0, 0, -1, 0, 0, 0, -1⟩])
    [[], [0], [1], [2], [0, 1], [0, 2], [1, 2], [0, 1, 2]] = true := by
  decide +kernel

theorem ops_mem_36 : ∀ g ∈ ops_base_ortho_36, g.toMat ∈ ClassSym 36 (canonC 36).toMat := by
  intro g hg
  simp only [ops_base_ortho_36, List.mem_cons, List.not_mem_nil, or_false] at hg
  rcases hg with rfl | rfl
  · refine mem_classSym (Ci := ⟨1, 0, 0, 0, 1, 0, 0, 0, 1⟩) (Y := ⟨1, 0, 0, 0, -1, 0, 0, 0, 1⟩)
      (by decide) (by decide) ?_
    class_fix
  · refine mem_classSym (Ci := ⟨1, 0, 0, 0, 1, 0, 0, 0, 1⟩) (Y := ⟨1, 0, -1, 0, -1, 0, 0, 0, -1⟩)
      (by decide) (by decide) ?_
    class_fix

theorem sym_36 {n : ℤ} {H : IntMat} : H ∈ SymmetricHNFs (ClassSym 36 (canonC 36).toMat) n ↔
    (IsHNF H ∧ H.det = n) ∧ ∀ g ∈ ops_base_ortho_36, Keeps g.toMat H :=
  symHNFs_iff words_36 (by witness_red) (by witness_class) ops_mem_36

/-- Generators (with −1) of the symmetry group of the classes handled by `base_mono_20_25`. -/
def ops_base_mono_20_25 : List IMat := [⟨1, 0, 0, 0, -1, 0, 0, 1, 1⟩]

theorem words_20 : wordsCheck ⟨3, 4, 4, 1, 1, 1⟩ (canonC 20) ⟨1, 0, 0, 0, 1, 1, 0, 0, 1⟩
    (ops_base_mono_20_25 ++ [⟨-1, 0, 0, 0, -1, 0, 0, 0, -1⟩])
    [[], [0], [1], [0, 1]] = true := by
  decide +kernel

theorem ops_mem_20 : ∀ g ∈ ops_base_mono_20_25, g.toMat ∈ ClassSym 20 (canonC 20).toMat := by
  intro g hg
  simp only [ops_base_mono_20_25, List.mem_cons, List.not_mem_nil, or_false] at hg
  rcases hg with rfl
  · refine mem_classSym (Ci := ⟨1, 0, 0, 0, 1, 1, 0, 0, 1⟩) (Y := ⟨1, 0, 0, 0, 0, 1, 0, 1, 0⟩)
      (by decide) (by decide) ?_
    class_fix

theorem sym_20 {n : ℤ} {H : IntMat} : H ∈ SymmetricHNFs (ClassSym 20 (canonC 20).toMat) n ↔
    (IsHNF H ∧ H.det = n) ∧ ∀ g ∈ ops_base_mono_20_25, Keeps g.toMat H :=
  symHNFs_iff words_20 (by witness_red) (by witness_class) ops_mem_20

theorem words_25 : wordsCheck ⟨3, 3, 3, 0, -1, -1⟩ (canonC 25) ⟨1, 0, 0, 0, 1, 1, 0, 0, 1⟩
    (ops_base_mono_20_25 ++ [⟨-1, 0, 0, 0, -1, 0, 0, 0, -1⟩])
    [[], [0], [1], [0, 1]] = true := by
  decide +kernel

theorem ops_mem_25 : ∀ g ∈ ops_base_mono_20_25, g.toMat ∈ ClassSym 25 (canonC 25).toMat := by
  intro g hg
  simp only [ops_base_mono_20_25, List.mem_cons, List.not_mem_nil, or_false] at hg
  rcases hg with rfl
  · refine mem_classSym (Ci := ⟨1, 0, 0, 0, 1, 1, 0, 0, 1⟩) (Y := ⟨1, 0, 0, 0, 0, 1, 0, 1, 0⟩)
      (by decide) (by decide) ?_
    class_fix

theorem sym_25 {n : ℤ} {H : IntMat} : H ∈ SymmetricHNFs (ClassSym 25 (canonC 25).toMat) n ↔
    (IsHNF H ∧ H.det = n) ∧ ∀ g ∈ ops_base_mono_20_25, Keeps g.toMat H :=
  symHNFs_iff words_25 (by witness_red) (by witness_class) ops_mem_25

/-- Generators (with −1) of the symmetry group of the classes handled by `base_mono_28`. -/
def ops_base_mono_28 : List IMat := [⟨1, 0, 0, 0, 1, 1, 0, 0, -1⟩]

theorem words_28 : wordsCheck ⟨6, 7, 10, 1, 3, 2⟩ (canonC 28) ⟨0, -1, 0, -1, 0, 0, 0, 0, -1⟩
    (ops_base_mono_28 ++ [⟨-1, 0, 0, 0, -1, 0, 0, 0, -1⟩])
    [[], [0], [1], [0, 1]] = true := by
  decide +kernel

theorem ops_mem_28 : ∀ g ∈ ops_base_mono_28, g.toMat ∈ ClassSym 28 (canonC 28).toMat := by
  intro g hg
  simp only [ops_base_mono_28, List.mem_cons, List.not_mem_nil, or_false] at hg
  rcases hg with rfl
  · refine mem_classSym (Ci := ⟨0, -1, 0, -1, 0, 0, 0, 0, -1⟩) (Y := ⟨1, 0, 1, 0, 1, 0, 0, 0, -1⟩)
      (by decide) (by decide) ?_
    class_fix

theorem sym_28 {n : ℤ} {H : IntMat} : H ∈ SymmetricHNFs (ClassSym 28 (canonC 28).toMat) n ↔
    (IsHNF H ∧ H.det = n) ∧ ∀ g ∈ ops_base_mono_28, Keeps g.toMat H :=
  symHNFs_iff words_28 (by witness_red) (by witness_class) ops_mem_28

/-- Generators (with −1) of the symmetry group of the classes handled by `base_mono_29_30`. -/
def ops_base_mono_29_30 : List IMat := [⟨1, 0, 0, 0, 1, 1, 0, 0, -1⟩]

theorem words_29 : wordsCheck ⟨6, 6, 6, 1, 2, 3⟩ (canonC 29) ⟨0, 1, 0, 0, 0, 1, 1, 0, 0⟩
    (ops_base_mono_29_30 ++ [⟨-1, 0, 0, 0, -1, 0, 0, 0, -1⟩])
    [[], [0], [1], [0, 1]] = true := by
  decide +kernel

theorem ops_mem_29 : ∀ g ∈ ops_base_mono_29_30, g.toMat ∈ ClassSym 29 (canonC 29).toMat := by
  intro g hg
  simp only [ops_base_mono_29_30, List.mem_cons, List.not_mem_nil, or_false] at hg
  rcases hg with rfl
  · refine mem_classSym (Ci := ⟨0, 1, 0, 0, 0, 1, 1, 0, 0⟩) (Y := ⟨1, 1, 0, 0, -1, 0, 0, 0, 1⟩)
      (by decide) (by decide) ?_
    class_fix

theorem sym_29 {n : ℤ} {H : IntMat} : H ∈ SymmetricHNFs (ClassSym 29 (canonC 29).toMat) n ↔
    (IsHNF H ∧ H.det = n) ∧ ∀ g ∈ ops_base_mono_29_30, Keeps g.toMat H :=
  symHNFs_iff words_29 (by witness_red) (by witness_class) ops_mem_29

theorem words_30 : wordsCheck ⟨4, 6, 6, 3, 1, 2⟩ (canonC 30) ⟨1, 0, 0, 0, 1, 0, 0, 0, 1⟩
    (ops_base_mono_29_30 ++ [⟨-1, 0, 0, 0, -1, 0, 0, 0, -1⟩])
    [[], [0], [1], [0, 1]] = true := by
  decide +kernel

theorem ops_mem_30 : ∀ g ∈ ops_base_mono_29_30, g.toMat ∈ ClassSym 30 (canonC 30).toMat := by
  intro g hg
  simp only [ops_base_mono_29_30, List.mem_cons, List.not_mem_nil, or_false] at hg
  rcases hg with rfl
  · refine mem_classSym (Ci := ⟨1, 0, 0, 0, 1, 0, 0, 0, 1⟩) (Y := ⟨1, 0, 0, 0, 1, 1, 0, 0, -1⟩)
      (by decide) (by decide) ?_
    class_fix

theorem sym_30 {n : ℤ} {H : IntMat} : H ∈ SymmetricHNFs (ClassSym 30 (canonC 30).toMat) n ↔
    (IsHNF H ∧ H.det = n) ∧ ∀ g ∈ ops_base_mono_29_30, Keeps g.toMat H :=
  symHNFs_iff words_30 (by witness_red) (by witness_class) ops_mem_30

/-- Generators (with −1) of the symmetry group of the classes handled by `base_mono_10_14_17_27_37_39_41`. -/
def ops_base_mono_10_14_17_27_37_39_41 : List IMat := [⟨1, 0, 0, 0, 1, 0, 1, 0, -1⟩]

theorem words_10 : wordsCheck ⟨3, 3, 4, 1, 1, 1⟩ (canonC 10) ⟨-1, 0, 1, 0, 0, -1, 0, -1, 0⟩
    (ops_base_mono_10_14_17_27_37_39_41 ++ [⟨-1, 0, 0, 0, -1, 0, 0, 0, -1⟩])
    [[], [0], [1], [0, 1]] = true := by
  decide +kernel

theorem ops_mem_10 : ∀ g ∈ ops_base_mono_10_14_17_27_37_39_41, g.toMat ∈ ClassSym 10 (canonC 10).toMat := by
  intro g hg
  simp only [ops_base_mono_10_14_17_27_37_39_41, List.mem_cons, List.not_mem_nil, or_false] at hg
  rcases hg with rfl
  · refine mem_classSym (Ci := ⟨-1, 0, 1, 0, 0, -1, 0, -1, 0⟩) (Y := ⟨0, 1, 0, 1, 0, 0, 0, 0, 1⟩)
      (by decide) (by decide) ?_
    class_fix

theorem sym_10 {n : ℤ} {H : IntMat} : H ∈ SymmetricHNFs (ClassSym 10 (canonC 10).toMat) n ↔
    (IsHNF H ∧ H.det = n) ∧ ∀ g ∈ ops_base_mono_10_14_17_27_37_39_41, Keeps g.toMat H :=
  symHNFs_iff words_10 (by witness_red) (by witness_class) ops_mem_10

theorem words_14 : wordsCheck ⟨3, 3, 5, -1, -1, 0⟩ (canonC 14) ⟨-1, 0, 1, 0, 0, -1, 0, -1, 0⟩
    (ops_base_mono_10_14_17_27_37_39_41 ++ [⟨-1, 0, 0, 0, -1, 0, 0, 0, -1⟩])
    [[], [0], [1], [0, 1]] = true := by
  decide +kernel

theorem ops_mem_14 : ∀ g ∈ ops_base_mono_10_14_17_27_37_39_41, g.toMat ∈ ClassSym 14 (canonC 14).toMat := by
  intro g hg
  simp only [ops_base_mono_10_14_17_27_37_39_41, List.mem_cons, List.not_mem_nil, or_false] at hg
  rcases hg with rfl
  · refine mem_classSym (Ci := ⟨-1, 0, 1, 0, 0, -1, 0, -1, 0⟩) (Y := ⟨0, 1, 0, 1, 0, 0, 0, 0, 1⟩)
      (by decide) (by decide) ?_
    class_fix

theorem sym_14 {n : ℤ} {H : IntMat} : H ∈ SymmetricHNFs (ClassSym 14 (canonC 14).toMat) n ↔
    (IsHNF H ∧ H.det = n) ∧ ∀ g ∈ ops_base_mono_10_14_17_27_37_39_41, Keeps g.toMat H :=
  symHNFs_iff words_14 (by witness_red) (by witness_class) ops_mem_14

theorem words_17 : wordsCheck ⟨5, 5, 6, -1, -2, -2⟩ (canonC 17) ⟨1, 0, -1, 1, 1, -1, 1, 1, 0⟩
    (ops_base_mono_10_14_17_27_37_39_41 ++ [⟨-1, 0, 0, 0, -1, 0, 0, 0, -1⟩])
    [[], [0], [1], [0, 1]] = true := by
  decide +kernel

theorem ops_mem_17 : ∀ g ∈ ops_base_mono_10_14_17_27_37_39_41, g.toMat ∈ ClassSym 17 (canonC 17).toMat := by
  intro g hg
  simp only [ops_base_mono_10_14_17_27_37_39_41, List.mem_cons, List.not_mem_nil, or_false] at hg
  rcases hg with rfl
  · refine mem_classSym (Ci := ⟨1, 0, -1, 1, 1, -1, 1, 1, 0⟩) (Y := ⟨0, -1, 1, -1, 0, 1, 0, 0, 1⟩)
      (by decide) (by decide) ?_
    class_fix

theorem sym_17 {n : ℤ} {H : IntMat} : H ∈ SymmetricHNFs (ClassSym 17 (canonC 17).toMat) n ↔
    (IsHNF H ∧ H.det = n) ∧ ∀ g ∈ ops_base_mono_10_14_17_27_37_39_41, Keeps g.toMat H :=
  symHNFs_iff words_17 (by witness_red) (by witness_class) ops_mem_17

theorem words_27 : wordsCheck ⟨2, 3, 4, 1, 1, 1⟩ (canonC 27) ⟨0, 0, -1, 0, 1, 0, 1, -1, 0⟩
    (ops_base_mono_10_14_17_27_37_39_41 ++ [⟨-1, 0, 0, 0, -1, 0, 0, 0, -1⟩])
    [[], [0], [1], [0, 1]] = true := by
  decide +kernel

theorem ops_mem_27 : ∀ g ∈ ops_base_mono_10_14_17_27_37_39_41, g.toMat ∈ ClassSym 27 (canonC 27).toMat := by
  intro g hg
  simp only [ops_base_mono_10_14_17_27_37_39_41, List.mem_cons, List.not_mem_nil, or_false] at hg
  rcases hg with rfl
  · refine mem_classSym (Ci := ⟨0, 0, -1, 0, 1, 0, 1, -1, 0⟩) (Y := ⟨-1, -1, -1, 0, 1, 0, 0, 0, 1⟩)
      (by decide) (by decide) ?_
    class_fix

theorem sym_27 {n : ℤ} {H : IntMat} : H ∈ SymmetricHNFs (ClassSym 27 (canonC 27).toMat) n ↔
    (IsHNF H ∧ H.det = n) ∧ ∀ g ∈ ops_base_mono_10_14_17_27_37_39_41, Keeps g.toMat H :=
  symHNFs_iff words_27 (by witness_red) (by witness_class) ops_mem_27

theorem words_37 : wordsCheck ⟨2, 3, 4, -1, -1, 0⟩ (canonC 37) ⟨0, 0, -1, 0, -1, 0, -1, 0, 0⟩
    (ops_base_mono_10_14_17_27_37_39_41 ++ [⟨-1, 0, 0, 0, -1, 0, 0, 0, -1⟩])
    [[], [0], [1], [0, 1]] = true := by
  decide +kernel

theorem ops_mem_37 : ∀ g ∈ ops_base_mono_10_14_17_27_37_39_41, g.toMat ∈ ClassSym 37 (canonC 37).toMat := by
  intro g hg
  simp only [ops_base_mono_10_14_17_27_37_39_41, List.mem_cons, List.not_mem_nil, or_false] at hg
  rcases hg with rfl
  · refine mem_classSym (Ci := ⟨0, 0, -1, 0, -1, 0, -1, 0, 0⟩) (Y := ⟨-1, 0, 1, 0, 1, 0, 0, 0, 1⟩)
      (by decide) (by decide) ?_
    class_fix

theorem sym_37 {n : ℤ} {H : IntMat} : H ∈ SymmetricHNFs (ClassSym 37 (canonC 37).toMat) n ↔
    (IsHNF H ∧ H.det = n) ∧ ∀ g ∈ ops_base_mono_10_14_17_27_37_39_41, Keeps g.toMat H :=
  symHNFs_iff words_37 (by witness_red) (by witness_class) ops_mem_37

theorem words_39 : wordsCheck ⟨2, 3, 3, -1, 0, -1⟩ (canonC 39) ⟨0, 0, 1, 1, 0, 0, 0, 1, 0⟩
    (ops_base_mono_10_14_17_27_37_39_41 ++ [⟨-1, 0, 0, 0, -1, 0, 0, 0, -1⟩])
    [[], [0], [1], [0, 1]] = true := by
  decide +kernel

theorem ops_mem_39 : ∀ g ∈ ops_base_mono_10_14_17_27_37_39_41, g.toMat ∈ ClassSym 39 (canonC 39).toMat := by
  intro g hg
  simp only [ops_base_mono_10_14_17_27_37_39_41, List.mem_cons, List.not_mem_nil, or_false] at hg
  rcases hg with rfl
  · refine mem_classSym (Ci := ⟨0, 0, 1, 1, 0, 0, 0, 1, 0⟩) (Y := ⟨-1, 1, 0, 0, 1, 0, 0, 0, 1⟩)
      (by decide) (by decide) ?_
    class_fix

theorem sym_39 {n : ℤ} {H : IntMat} : H ∈ SymmetricHNFs (ClassSym 39 (canonC 39).toMat) n ↔
    (IsHNF H ∧ H.det = n) ∧ ∀ g ∈ ops_base_mono_10_14_17_27_37_39_41, Keeps g.toMat H :=
  symHNFs_iff words_39 (by witness_red) (by witness_class) ops_mem_39

theorem words_41 : wordsCheck ⟨3, 4, 5, -2, -1, 0⟩ (canonC 41) ⟨0, 1, 0, 0, 0, 1, 1, 0, 0⟩
    (ops_base_mono_10_14_17_27_37_39_41 ++ [⟨-1, 0, 0, 0, -1, 0, 0, 0, -1⟩])
    [[], [0], [1], [0, 1]] = true := by
  decide +kernel

theorem ops_mem_41 : ∀ g ∈ ops_base_mono_10_14_17_27_37_39_41, g.toMat ∈ ClassSym 41 (canonC 41).toMat := by
  intro g hg
  simp only [ops_base_mono_10_14_17_27_37_39_41, List.mem_cons, List.not_mem_nil, or_false] at hg
  rcases hg with rfl
  · refine mem_classSym (Ci := ⟨0, 1, 0, 0, 0, 1, 1, 0, 0⟩) (Y := ⟨1, 0, 0, 0, -1, 1, 0, 0, 1⟩)
      (by decide) (by decide) ?_
    class_fix

theorem sym_41 {n : ℤ} {H : IntMat} : H ∈ SymmetricHNFs (ClassSym 41 (canonC 41).toMat) n ↔
    (IsHNF H ∧ H.det = n) ∧ ∀ g ∈ ops_base_mono_10_14_17_27_37_39_41, Keeps g.toMat H :=
  symHNFs_iff words_41 (by witness_red) (by witness_class) ops_mem_41

/-- Generators (with −1) of the symmetry group of the classes handled by `base_mono_43`. -/
def ops_base_mono_43 : List IMat := [⟨1, 0, 0, -1, 1, -1, -2, 0, -1⟩]

theorem words_43 : wordsCheck ⟨8, 12, 14, -5, -3, -2⟩ (canonC 43) ⟨1, 1, 0, 0, 1, 0, 1, 0, 1⟩
    (ops_base_mono_43 ++ [⟨-1, 0, 0, 0, -1, 0, 0, 0, -1⟩])
    [[], [0], [1], [0, 1]] = true := by
  decide +kernel

theorem ops_mem_43 : ∀ g ∈ ops_base_mono_43, g.toMat ∈ ClassSym 43 (canonC 43).toMat := by
  intro g hg
  simp only [ops_base_mono_43, List.mem_cons, List.not_mem_nil, or_false] at hg
  rcases hg with rfl
  · refine mem_classSym (Ci := ⟨1, 1, 0, 0, 1, 0, 1, 0, 1⟩) (Y := ⟨1, 0, -1, 0, 1, -1, 0, 0, -1⟩)
      (by decide) (by decide) ?_
    class_fix

theorem sym_43 {n : ℤ} {H : IntMat} : H ∈ SymmetricHNFs (ClassSym 43 (canonC 43).toMat) n ↔
    (IsHNF H ∧ H.det = n) ∧ ∀ g ∈ ops_base_mono_43, Keeps g.toMat H :=
  symHNFs_iff words_43 (by witness_red) (by witness_class) ops_mem_43

/-- Generators (with −1) of the symmetry group of the classes handled by `sm_33`. -/
def ops_sm_33 : List IMat := [⟨1, 0, 0, 0, -1, 0, 0, 0, 1⟩]

theorem words_33 : wordsCheck ⟨3, 3, 4, 0, -1, 0⟩ (canonC 33) ⟨1, 0, 0, 0, -1, 0, 0, 0, -1⟩
    (ops_sm_33 ++ [⟨-1, 0, 0, 0, -1, 0, 0, 0, -1⟩])
    [[], [0], [1], [0, 1]] = true := by
  decide +kernel

theorem ops_mem_33 : ∀ g ∈ ops_sm_33, g.toMat ∈ ClassSym 33 (canonC 33).toMat := by
  intro g hg
  simp only [ops_sm_33, List.mem_cons, List.not_mem_nil, or_false] at hg
  rcases hg with rfl
  · refine mem_classSym (Ci := ⟨1, 0, 0, 0, -1, 0, 0, 0, -1⟩) (Y := ⟨1, 0, 0, 0, -1, 0, 0, 0, 1⟩)
      (by decide) (by decide) ?_
    class_fix

theorem sym_33 {n : ℤ} {H : IntMat} : H ∈ SymmetricHNFs (ClassSym 33 (canonC 33).toMat) n ↔
    (IsHNF H ∧ H.det = n) ∧ ∀ g ∈ ops_sm_33, Keeps g.toMat H :=
  symHNFs_iff words_33 (by witness_red) (by witness_class) ops_mem_33

/-- Generators (with −1) of the symmetry group of the classes handled by `sm_34`. -/
def ops_sm_34 : List IMat := [⟨1, 0, 0, 0, 1, 0, 0, 0, -1⟩]

theorem words_34 : wordsCheck ⟨3, 4, 4, 0, 0, -1⟩ (canonC 34) ⟨1, 0, 0, 0, 1, 0, 0, 0, 1⟩
    (ops_sm_34 ++ [⟨-1, 0, 0, 0, -1, 0, 0, 0, -1⟩])
    [[], [0], [1], [0, 1]] = true := by
  decide +kernel

theorem ops_mem_34 : ∀ g ∈ ops_sm_34, g.toMat ∈ ClassSym 34 (canonC 34).toMat := by
  intro g hg
  simp only [ops_sm_34, List.mem_cons, List.not_mem_nil, or_false] at hg
  rcases hg with rfl
  · refine mem_classSym (Ci := ⟨1, 0, 0, 0, 1, 0, 0, 0, 1⟩) (Y := ⟨1, 0, 0, 0, 1, 0, 0, 0, -1⟩)
      (by decide) (by decide) ?_
    class_fix

theorem sym_34 {n : ℤ} {H : IntMat} : H ∈ SymmetricHNFs (ClassSym 34 (canonC 34).toMat) n ↔
    (IsHNF H ∧ H.det = n) ∧ ∀ g ∈ ops_sm_34, Keeps g.toMat H :=
  symHNFs_iff words_34 (by witness_red) (by witness_class) ops_mem_34

/-- Generators (with −1) of the symmetry group of the classes handled by `sm_35`. -/
def ops_sm_35 : List IMat := [⟨1, 0, 0, 0, 1, 0, 0, 0, -1⟩]

theorem words_35 : wordsCheck ⟨2, 3, 4, -1, 0, 0⟩ (canonC 35) ⟨0, 0, -1, 0, -1, 0, -1, 0, 0⟩
    (ops_sm_35 ++ [⟨-1, 0, 0, 0, -1, 0, 0, 0, -1⟩])
    [[], [0], [1], [0, 1]] = true := by
  decide +kernel

theorem ops_mem_35 : ∀ g ∈ ops_sm_35, g.toMat ∈ ClassSym 35 (canonC 35).toMat := by
  intro g hg
  simp only [ops_sm_35, List.mem_cons, List.not_mem_nil, or_false] at hg
  rcases hg with rfl
  · refine mem_classSym (Ci := ⟨0, 0, -1, 0, -1, 0, -1, 0, 0⟩) (Y := ⟨-1, 0, 0, 0, 1, 0, 0, 0, 1⟩)
      (by decide) (by decide) ?_
    class_fix

theorem sym_35 {n : ℤ} {H : IntMat} : H ∈ SymmetricHNFs (ClassSym 35 (canonC 35).toMat) n ↔
    (IsHNF H ∧ H.det = n) ∧ ∀ g ∈ ops_sm_35, Keeps g.toMat H :=
  symHNFs_iff words_35 (by witness_red) (by witness_class) ops_mem_35

/-- Generators (with −1) of the symmetry group of the classes handled by `tric_31_44`. -/
def ops_tric_31_44 : List IMat := []

theorem words_31 : wordsCheck ⟨8, 12, 12, 4, 1, 2⟩ (canonC 31) ⟨1, 0, 0, 0, 1, 0, 0, 0, 1⟩
    (ops_tric_31_44 ++ [⟨-1, 0, 0, 0, -1, 0, 0, 0, -1⟩])
    [[], [0]] = true := by
  decide +kernel

theorem ops_mem_31 : ∀ g ∈ ops_tric_31_44, g.toMat ∈ ClassSym 31 (canonC 31).toMat := by
  simp [ops_tric_31_44]

theorem sym_31 {n : ℤ} {H : IntMat} : H ∈ SymmetricHNFs (ClassSym 31 (canonC 31).toMat) n ↔
    (IsHNF H ∧ H.det = n) ∧ ∀ g ∈ ops_tric_31_44, Keeps g.toMat H :=
  symHNFs_iff words_31 (by witness_red) (by witness_class) ops_mem_31

theorem words_44 : wordsCheck ⟨10, 16, 16, -3, -1, -3⟩ (canonC 44) ⟨1, 0, 0, 0, 1, 0, 0, 0, 1⟩
    (ops_tric_31_44 ++ [⟨-1, 0, 0, 0, -1, 0, 0, 0, -1⟩])
    [[], [0]] = true := by
  decide +kernel

theorem ops_mem_44 : ∀ g ∈ ops_tric_31_44, g.toMat ∈ ClassSym 44 (canonC 44).toMat := by
  simp [ops_tric_31_44]

theorem sym_44 {n : ℤ} {H : IntMat} : H ∈ SymmetricHNFs (ClassSym 44 (canonC 44).toMat) n ↔
    (IsHNF H ∧ H.det = n) ∧ ∀ g ∈ ops_tric_31_44, Keeps g.toMat H :=
  symHNFs_iff words_44 (by witness_red) (by witness_class) ops_mem_44

end AutoGR
