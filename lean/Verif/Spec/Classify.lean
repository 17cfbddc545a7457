import Verif.Spec.NiggliClass
import Verif.Spec.Tolerance

/-!
# Specification: finding the Niggli class of a metric

In International Tables A, table 9.2.5.1, a metric belongs to the first row whose conditions it meets.
Nothing here refers to the code.
-/

namespace AutoGR.Spec

/-- The classes in the order of the table: `A = B = C`, `A = B`, `B = C`, no condition on `A, B, C`. -/
def classTable : List ℕ :=
  [1, 2, 3, 5, 4, 6, 7, 8] ++ [9, 10, 11, 12, 13, 15, 16, 14, 17] ++ [18, 19, 20, 21, 22, 23, 24, 25] ++
    [26, 27, 28, 29, 30, 31, 32, 40, 35, 36, 33, 38, 34, 42, 41, 37, 39, 43, 44]

/-- `k` is the first class of the table to which the metric belongs. -/
def IsClass (k : ℕ) (A B C D E F : ℝ) : Prop :=
  k ∈ classTable ∧ NiggliClass k A B C D E F ∧
    ∀ k' ∈ classTable.takeWhile (· ≠ k), ¬ NiggliClass k' A B C D E F

/-- All quantities that the conditions of the table compare are equal, or differ by more than the absolute
tolerance `tau` plus the relative tolerance `rho`. -/
structure ClassSeparated (tau rho A B C D E F : ℚ) : Prop where
  a_b : SepTol tau rho A B
  b_c : SepTol tau rho B C
  d_e : SepTol tau rho D E
  d_f : SepTol tau rho D F
  e_f : SepTol tau rho E F
  zero_d : SepTol tau rho 0 D
  d_zero : SepTol tau rho D 0
  e_zero : SepTol tau rho E 0
  f_zero : SepTol tau rho F 0
  ha_d : SepTol tau rho (A / 2) D
  ha_e : SepTol tau rho (A / 2) E
  e_ha : SepTol tau rho E (A / 2)
  ha_f : SepTol tau rho (A / 2) F
  f_ha : SepTol tau rho F (A / 2)
  nha_f : SepTol tau rho (-A / 2) F
  f_nha : SepTol tau rho F (-A / 2)
  d_nha : SepTol tau rho D (-A / 2)
  nha_e : SepTol tau rho (-A / 2) E
  e_nha : SepTol tau rho E (-A / 2)
  d_hb : SepTol tau rho D (B / 2)
  d_nhb : SepTol tau rho D (-B / 2)
  nhb_d : SepTol tau rho (-B / 2) D
  ta_d : SepTol tau rho (-A / 3) D
  e_ta : SepTol tau rho E (-A / 3)
  qa_d : SepTol tau rho (A / 4) D
  d_qa : SepTol tau rho D (A / 4)
  f_2d : SepTol tau rho F (2 * D)
  e_2d : SepTol tau rho E (2 * D)
  f_2e : SepTol tau rho F (2 * E)
  sum : SepTol tau rho (2 * |D + E + F|) (A + B)
  last : SepTol tau rho |2 * D + F| B

/-- The equalities of class `k` (those of `NiggliClass`), with `R` in place of equality. -/
def ClassEqs {K : Type} [Field K] [LinearOrder K] (R : K → K → Prop) (k : ℕ) (A B C D E F : K) : Prop :=
  match k with
  | 1 => R A B ∧ R B C ∧ R D (A / 2) ∧ R E (A / 2) ∧ R F (A / 2)
  | 2 => R A B ∧ R B C ∧ R E D ∧ R F D
  | 3 => R A B ∧ R B C ∧ R D 0 ∧ R E 0 ∧ R F 0
  | 4 => R A B ∧ R B C ∧ R E D ∧ R F D
  | 5 => R A B ∧ R B C ∧ R D (-A / 3) ∧ R E (-A / 3) ∧ R F (-A / 3)
  | 6 => R A B ∧ R B C ∧ R (2 * |D + E + F|) (A + B) ∧ R E D
  | 7 => R A B ∧ R B C ∧ R (2 * |D + E + F|) (A + B) ∧ R F E
  | 8 => R A B ∧ R B C ∧ R (2 * |D + E + F|) (A + B)
  | 9 => R A B ∧ R D (A / 2) ∧ R E (A / 2) ∧ R F (A / 2)
  | 10 => R A B ∧ R E D
  | 11 => R A B ∧ R D 0 ∧ R E 0 ∧ R F 0
  | 12 => R A B ∧ R D 0 ∧ R E 0 ∧ R F (-A / 2)
  | 13 => R A B ∧ R D 0 ∧ R E 0
  | 14 => R A B ∧ R E D
  | 15 => R A B ∧ R D (-A / 2) ∧ R E (-A / 2) ∧ R F 0
  | 16 => R A B ∧ R (2 * |D + E + F|) (A + B) ∧ R E D
  | 17 => R A B ∧ R (2 * |D + E + F|) (A + B)
  | 18 => R B C ∧ R D (A / 4) ∧ R E (A / 2) ∧ R F (A / 2)
  | 19 => R B C ∧ R E (A / 2) ∧ R F (A / 2)
  | 20 => R B C ∧ R F E
  | 21 => R B C ∧ R D 0 ∧ R E 0 ∧ R F 0
  | 22 => R B C ∧ R D (-B / 2) ∧ R E 0 ∧ R F 0
  | 23 => R B C ∧ R E 0 ∧ R F 0
  | 24 => R B C ∧ R (2 * |D + E + F|) (A + B) ∧ R E (-A / 3) ∧ R F (-A / 3)
  | 25 => R B C ∧ R F E
  | 26 => R D (A / 4) ∧ R E (A / 2) ∧ R F (A / 2)
  | 27 => R E (A / 2) ∧ R F (A / 2)
  | 28 => R E (A / 2) ∧ R F (2 * D)
  | 29 => R E (2 * D) ∧ R F (A / 2)
  | 30 => R D (B / 2) ∧ R F (2 * E)
  | 31 => True
  | 32 => R D 0 ∧ R E 0 ∧ R F 0
  | 33 => R D 0 ∧ R F 0
  | 34 => R D 0 ∧ R E 0
  | 35 => R E 0 ∧ R F 0
  | 36 => R D 0 ∧ R E (-A / 2) ∧ R F 0
  | 37 => R E (-A / 2) ∧ R F 0
  | 38 => R D 0 ∧ R E 0 ∧ R F (-A / 2)
  | 39 => R E 0 ∧ R F (-A / 2)
  | 40 => R D (-B / 2) ∧ R E 0 ∧ R F 0
  | 41 => R D (-B / 2) ∧ R F 0
  | 42 => R D (-B / 2) ∧ R E (-A / 2) ∧ R F 0
  | 43 => R (2 * |D + E + F|) (A + B) ∧ R |2 * D + F| B
  | 44 => True
  | _ => False

/-- The classes of type I (all angles acute). -/
def typeIClasses : List ℕ := [1, 2, 9, 10, 18, 19, 20, 26, 27, 28, 29, 30, 31]

/-- The kinds of Bravais lattice (`mI` is the body centred setting of `mC`, kept apart as in the table). -/
inductive Bravais | cF | cP | cI | hR | hP | tP | tI | oP | oC | oI | oF | mP | mC | mI | aP
deriving DecidableEq

/-- The number of point symmetries of the lattices of each kind (order of the holohedry). -/
def holohedryOrder : Bravais → ℕ
  | .cF | .cP | .cI => 48
  | .hP => 24
  | .hR => 12
  | .tP | .tI => 16
  | .oP | .oC | .oI | .oF => 8
  | .mP | .mC | .mI => 4
  | .aP => 2

/-- The Bravais lattice of each class, International Tables A, table 9.2.5.1. -/
def bravais (k : ℕ) : Option Bravais :=
  match k with
  | 1 => some .cF
  | 2 => some .hR
  | 3 => some .cP
  | 4 => some .hR
  | 5 => some .cI
  | 6 => some .tI
  | 7 => some .tI
  | 8 => some .oI
  | 9 => some .hR
  | 10 => some .mC
  | 11 => some .tP
  | 12 => some .hP
  | 13 => some .oC
  | 14 => some .mC
  | 15 => some .tI
  | 16 => some .oF
  | 17 => some .mC
  | 18 => some .tI
  | 19 => some .oI
  | 20 => some .mC
  | 21 => some .tP
  | 22 => some .hP
  | 23 => some .oC
  | 24 => some .hR
  | 25 => some .mC
  | 26 => some .oF
  | 27 => some .mC
  | 28 => some .mC
  | 29 => some .mC
  | 30 => some .mC
  | 31 => some .aP
  | 32 => some .oP
  | 33 => some .mP
  | 34 => some .mP
  | 35 => some .mP
  | 36 => some .oC
  | 37 => some .mC
  | 38 => some .oC
  | 39 => some .mC
  | 40 => some .oC
  | 41 => some .mC
  | 42 => some .oI
  | 43 => some .mI
  | 44 => some .aP
  | _ => none

/-- The English name of a Bravais lattice. -/
def Bravais.name : Bravais → String
  | .cF => "face centered cubic"
  | .cP => "simple cubic"
  | .cI => "body centered cubic"
  | .hR => "rhombohedral"
  | .hP => "hexagonal"
  | .tP => "simple tetragonal"
  | .tI => "body centered tetragonal"
  | .oP => "simple orthorhombic"
  | .oC => "base centered orthorhombic"
  | .oI => "body centered orthorhombic"
  | .oF => "face centered orthorhombic"
  | .mP => "simple monoclinic"
  | .mC => "base centered monoclinic"
  | .mI => "body centered monoclinic"
  | .aP => "triclinic"

/-- The number of its family as the documentation of `niggli_id` defines it: 1 cubic, 2 hexagonal,
3 rhombohedral, 4 tetragonal, 5 orthorhombic, 6 monoclinic, 7 triclinic. -/
def Bravais.family : Bravais → ℕ
  | .cF => 1
  | .cP => 1
  | .cI => 1
  | .hR => 3
  | .hP => 2
  | .tP => 4
  | .tI => 4
  | .oP => 5
  | .oC => 5
  | .oI => 5
  | .oF => 5
  | .mP => 6
  | .mC => 6
  | .mI => 6
  | .aP => 7

end AutoGR.Spec
