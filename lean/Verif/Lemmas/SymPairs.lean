import Verif.Lemmas.SymTree
import Verif.Lemmas.ClassGroups

/-!
# Metrics that meet the conditions of two classes

If a metric is in class `j` and the first class it meets is `k`, then the symmetries of class `j` are
symmetries of class `k`, or the conditions are contradictory.
-/

namespace AutoGR

open Spec Matrix

/-- Why class `j` adds no symmetry to the earlier class `k`. -/
inductive Pair
  /-- All symmetries of class `j` are symmetries of class `k`. -/
  | sub
  /-- No metric is in both classes. -/
  | no (st : List (ℕ × Cert)) (s : ℕ) (c : Cert)
  /-- A metric in both classes is in the earlier class `k'`. -/
  | early (st : List (ℕ × Cert)) (k' : ℕ) (cs : List (Cert × Cert))

/-- Conditions of both classes. -/
def pairFacts (t : Bool) (k j : ℕ) : List Lin :=
  ineqs t ++ (classEqs k).flatMap both ++ (classEqs j).flatMap both

/-- `Z` is a symmetry of the chosen metric of class `k`. -/
def fixesWit (k : ℕ) (Z : IMat) : Bool :=
  witFix k (Z.m00, Z.m10, Z.m20) (Z.m01, Z.m11, Z.m21) (Z.m02, Z.m12, Z.m22)

/-- Checks one reason. -/
def Pair.check (k j : ℕ) : Pair → Bool
  | .sub => (wit j).bounded && (wit j).autos.all (fixesWit k)
  | .no st s c => noOk (classType j) (pairFacts (classType j) k j) st s c
  | .early st k' cs => decide (k' ∈ classTable.takeWhile (· ≠ k)) &&
      yesOk (classType j) (pairFacts (classType j) k j) st k' cs

/-- Checks all classes of the same type before class `j`. -/
def pairsOk (j : ℕ) (ps : List Pair) : Bool :=
  let ks := (classTable.takeWhile (· ≠ j)).filter (fun k => classType k = classType j)
  decide (ps.length = ks.length) && (ks.zip ps).all fun x => x.2.check x.1 j

theorem pairs1_ok : pairsOk 1 [] = true := by decide +kernel

/-- The classes before class 2. -/
def pairs2 : List Pair := [
  .sub]

theorem pairs2_ok : pairsOk 2 pairs2 = true := by decide +kernel

theorem pairs3_ok : pairsOk 3 [] = true := by decide +kernel

/-- The classes before class 5. -/
def pairs5 : List Pair := [
  .no [(0, (1, [(10, 1)])), (1, (1, [(12, 1)])), (2, (1, [(10, 1), (14, 1), (25, 1)])), (3, (1, [(2, 2), (14, 3), (25, 1)])), (4, (1, [(3, 2), (14, 3), (25, 1)])), (5, (1, [(2, 2), (3, 2), (10, 1), (14, 4), (25, 2)]))] 0 (1, [(14, 3), (25, 1)])]

theorem pairs5_ok : pairsOk 5 pairs5 = true := by decide +kernel

/-- The classes before class 4. -/
def pairs4 : List Pair := [
  .sub,
  .sub]

theorem pairs4_ok : pairsOk 4 pairs4 = true := by decide +kernel

/-- The classes before class 6. -/
def pairs6 : List Pair := [
  .no [(0, (1, [(10, 1)])), (1, (1, [(12, 1)])), (2, (2, [(1, 2), (10, 1), (16, 2), (18, 2), (25, 1)])), (3, (2, [(2, 2), (4, 1), (14, 2), (18, 2), (25, 1)])), (4, (2, [(3, 2), (4, 1), (14, 2), (16, 2), (25, 1)])), (5, (1, [(25, 1)]))] 0 (2, [(4, 1), (14, 2), (16, 2), (18, 2), (25, 1)]),
  .sub,
  .early [(0, (1, [(10, 1)])), (1, (1, [(12, 1)])), (5, (1, [(23, 1)]))] 5 [((1, [(10, 1)]), (1, [(4, 1)])), ((1, [(12, 1)]), (1, [(5, 1)])), ((2, [(9, 1), (10, 1), (15, 2), (17, 2)]), (2, [(4, 1), (14, 2), (16, 2), (23, 1)])), ((2, [(9, 1), (10, 1), (14, 4), (17, 2)]), (2, [(4, 1), (15, 4), (16, 2), (23, 1)])), ((2, [(9, 1), (10, 1), (15, 2), (16, 4)]), (2, [(4, 1), (14, 2), (17, 4), (23, 1)]))]]

theorem pairs6_ok : pairsOk 6 pairs6 = true := by decide +kernel

/-- The classes before class 7. -/
def pairs7 : List Pair := [
  .no [(0, (1, [(10, 1)])), (1, (1, [(12, 1)])), (2, (2, [(1, 2), (10, 1), (16, 2), (18, 2), (25, 1)])), (3, (2, [(2, 2), (4, 1), (14, 2), (18, 2), (25, 1)])), (4, (2, [(3, 2), (4, 1), (14, 2), (16, 2), (25, 1)])), (5, (1, [(25, 1)]))] 0 (2, [(4, 1), (14, 2), (16, 2), (18, 2), (25, 1)]),
  .sub,
  .early [(0, (1, [(10, 1)])), (1, (1, [(12, 1)])), (5, (1, [(23, 1)]))] 5 [((1, [(10, 1)]), (1, [(4, 1)])), ((1, [(12, 1)]), (1, [(5, 1)])), ((2, [(9, 1), (10, 1), (15, 2), (17, 2)]), (2, [(4, 1), (14, 2), (16, 2), (23, 1)])), ((2, [(9, 1), (10, 1), (14, 4), (17, 2)]), (2, [(4, 1), (15, 4), (16, 2), (23, 1)])), ((2, [(9, 1), (10, 1), (15, 2), (16, 4)]), (2, [(4, 1), (14, 2), (17, 4), (23, 1)]))],
  .early [(0, (1, [(10, 1)])), (1, (1, [(12, 1)])), (5, (1, [(15, 1)]))] 5 [((1, [(10, 1)]), (1, [(4, 1)])), ((1, [(12, 1)]), (1, [(5, 1)])), ((2, [(9, 1), (10, 1), (17, 4), (25, 2)]), (2, [(4, 1), (15, 1), (16, 4), (24, 2)])), ((2, [(9, 1), (10, 1), (16, 2), (25, 2)]), (2, [(4, 1), (15, 1), (17, 2), (24, 2)])), ((2, [(9, 1), (10, 1), (16, 2), (24, 4)]), (2, [(4, 1), (15, 1), (17, 2), (25, 4)]))]]

theorem pairs7_ok : pairsOk 7 pairs7 = true := by decide +kernel

/-- The classes before class 8. -/
def pairs8 : List Pair := [
  .no [(0, (1, [(10, 1)])), (1, (1, [(12, 1)])), (2, (2, [(1, 2), (10, 1), (16, 2), (18, 2), (25, 1)])), (3, (2, [(2, 2), (4, 1), (14, 2), (18, 2), (25, 1)])), (4, (2, [(3, 2), (4, 1), (14, 2), (16, 2), (25, 1)])), (5, (1, [(25, 1)]))] 0 (2, [(4, 1), (14, 2), (16, 2), (18, 2), (25, 1)]),
  .sub,
  .early [(0, (1, [(10, 1)])), (1, (1, [(12, 1)])), (5, (1, [(23, 1)]))] 5 [((1, [(10, 1)]), (1, [(4, 1)])), ((1, [(12, 1)]), (1, [(5, 1)])), ((2, [(9, 1), (10, 1), (15, 2), (17, 2)]), (2, [(4, 1), (14, 2), (16, 2), (23, 1)])), ((2, [(9, 1), (10, 1), (14, 4), (17, 2)]), (2, [(4, 1), (15, 4), (16, 2), (23, 1)])), ((2, [(9, 1), (10, 1), (15, 2), (16, 4)]), (2, [(4, 1), (14, 2), (17, 4), (23, 1)]))],
  .sub,
  .sub]

theorem pairs8_ok : pairsOk 8 pairs8 = true := by decide +kernel

/-- The classes before class 9. -/
def pairs9 : List Pair := [
  .sub,
  .early [(0, (1, [(9, 1)])), (1, (1, [(11, 1)])), (2, (1, [(9, 1), (19, 1)])), (3, (1, [(13, 2), (19, 1)])), (4, (1, [(15, 2), (19, 1)]))] 1 [((1, [(9, 1)]), (1, [(4, 1)])), ((1, [(11, 1)]), (1, [(5, 1)])), ((1, [(19, 1)]), (1, [(6, 1), (9, 1)])), ((1, [(13, 2), (19, 1)]), (1, [(7, 1)])), ((1, [(15, 2), (19, 1)]), (1, [(8, 1)]))]]

theorem pairs9_ok : pairsOk 9 pairs9 = true := by decide +kernel

/-- The classes before class 10. -/
def pairs10 : List Pair := [
  .sub,
  .sub,
  .sub]

theorem pairs10_ok : pairsOk 10 pairs10 = true := by decide +kernel

/-- The classes before class 11. -/
def pairs11 : List Pair := [
  .sub,
  .no [(0, (1, [(10, 1)])), (1, (1, [(12, 1)])), (2, (1, [(10, 1), (15, 1), (22, 1)])), (3, (3, [(15, 1), (17, 2), (22, 3)])), (4, (3, [(15, 1), (19, 2), (22, 3)])), (5, (3, [(10, 3), (15, 2), (17, 2), (19, 2)]))] 0 (1, [(15, 1), (22, 3)]),
  .early [(0, (1, [(10, 1)])), (1, (1, [(12, 1)]))] 3 [((1, [(10, 1)]), (1, [(4, 1)])), ((1, [(12, 1)]), (1, [(5, 1)])), ((1, [(20, 1)]), (1, [(1, 1)])), ((1, [(14, 1), (20, 1)]), (1, [(2, 1)])), ((1, [(16, 1), (20, 1)]), (1, [(3, 1)]))],
  .no [(0, (1, [(10, 1)])), (1, (1, [(12, 1)])), (2, (1, [(8, 1), (15, 1), (16, 2), (20, 2)])), (3, (1, [(4, 1), (8, 1), (15, 1), (20, 2)])), (4, (1, [(4, 1), (7, 1), (15, 1), (20, 2)])), (5, (1, [(15, 1)]))] 0 (1, [(4, 1), (8, 1), (15, 1), (16, 2), (20, 4)]),
  .no [(0, (1, [(10, 1)])), (1, (1, [(12, 1)])), (2, (1, [(8, 1), (15, 1), (22, 2)])), (3, (2, [(4, 1), (15, 1), (16, 2), (20, 2)])), (4, (2, [(4, 1), (15, 1), (17, 2), (20, 2)])), (5, (1, [(15, 1)]))] 0 (2, [(4, 1), (15, 1), (16, 2), (20, 2), (22, 4)]),
  .no [(0, (1, [(10, 1)])), (1, (1, [(12, 1)])), (2, (1, [(8, 1), (15, 1), (20, 2)])), (3, (1, [(4, 1), (8, 1), (15, 1), (18, 2)])), (4, (1, [(4, 1), (7, 1), (15, 1), (18, 2)])), (5, (1, [(15, 1)]))] 0 (1, [(4, 1), (8, 1), (15, 1), (18, 2), (20, 2)])]

theorem pairs11_ok : pairsOk 11 pairs11 = true := by decide +kernel

/-- The classes before class 12. -/
def pairs12 : List Pair := [
  .no [(0, (1, [(10, 1)])), (1, (1, [(12, 1)])), (2, (1, [(1, 2), (10, 1), (18, 2), (27, 1)])), (3, (1, [(2, 2), (18, 2), (27, 1)])), (4, (1, [(27, 1)])), (5, (1, [(1, 2), (2, 2), (10, 1), (18, 2), (27, 2)]))] 0 (1, [(18, 2), (27, 1)]),
  .no [(0, (1, [(10, 1)])), (1, (1, [(12, 1)])), (2, (1, [(10, 1), (15, 1), (22, 1)])), (3, (3, [(15, 1), (17, 2), (22, 3)])), (4, (3, [(15, 1), (19, 2), (22, 3)])), (5, (3, [(10, 3), (15, 2), (17, 2), (19, 2)]))] 0 (1, [(15, 1), (22, 3)]),
  .no [(0, (1, [(10, 1)])), (1, (1, [(12, 1)])), (2, (1, [(10, 1), (16, 2), (25, 1)])), (3, (1, [(15, 2), (16, 2), (25, 1)])), (4, (1, [(25, 1)])), (5, (1, [(2, 2), (10, 1), (16, 2), (25, 2)]))] 0 (1, [(16, 2), (20, 2), (25, 1)]),
  .no [(0, (1, [(10, 1)])), (1, (1, [(12, 1)])), (2, (1, [(8, 1), (15, 1), (16, 2), (20, 2)])), (3, (1, [(4, 1), (8, 1), (15, 1), (20, 2)])), (4, (1, [(4, 1), (7, 1), (15, 1), (20, 2)])), (5, (1, [(15, 1)]))] 0 (1, [(4, 1), (8, 1), (15, 1), (16, 2), (20, 4)]),
  .no [(0, (1, [(10, 1)])), (1, (1, [(12, 1)])), (2, (1, [(8, 1), (15, 1), (22, 2)])), (3, (2, [(4, 1), (15, 1), (16, 2), (20, 2)])), (4, (2, [(4, 1), (15, 1), (17, 2), (20, 2)])), (5, (1, [(15, 1)]))] 0 (2, [(4, 1), (15, 1), (16, 2), (20, 2), (22, 4)]),
  .no [(0, (1, [(10, 1)])), (1, (1, [(12, 1)])), (2, (1, [(8, 1), (15, 1), (20, 2)])), (3, (1, [(4, 1), (8, 1), (15, 1), (18, 2)])), (4, (1, [(4, 1), (7, 1), (15, 1), (18, 2)])), (5, (1, [(15, 1)]))] 0 (1, [(4, 1), (8, 1), (15, 1), (18, 2), (20, 2)]),
  .no [(0, (1, [(10, 1)])), (2, (1, [(1, 2), (10, 1), (16, 2), (25, 1)])), (3, (1, [(2, 2), (16, 2), (25, 1)])), (4, (1, [(25, 1)])), (5, (1, [(1, 2), (2, 2), (10, 1), (16, 2), (25, 2)]))] 0 (1, [(16, 2), (25, 1)])]

theorem pairs12_ok : pairsOk 12 pairs12 = true := by decide +kernel

/-- The classes before class 13. -/
def pairs13 : List Pair := [
  .sub,
  .no [(0, (1, [(10, 1)])), (1, (1, [(12, 1)])), (2, (1, [(10, 1), (15, 1), (22, 1)])), (3, (3, [(15, 1), (17, 2), (22, 3)])), (4, (3, [(15, 1), (19, 2), (22, 3)])), (5, (3, [(10, 3), (15, 2), (17, 2), (19, 2)]))] 0 (1, [(15, 1), (22, 3)]),
  .early [(0, (1, [(10, 1)])), (1, (1, [(12, 1)]))] 3 [((1, [(10, 1)]), (1, [(4, 1)])), ((1, [(12, 1)]), (1, [(5, 1)])), ((1, [(20, 1)]), (1, [(1, 1)])), ((1, [(14, 1), (20, 1)]), (1, [(2, 1)])), ((1, [(16, 1), (20, 1)]), (1, [(3, 1)]))],
  .no [(0, (1, [(10, 1)])), (1, (1, [(12, 1)])), (2, (1, [(8, 1), (15, 1), (16, 2), (20, 2)])), (3, (1, [(4, 1), (8, 1), (15, 1), (20, 2)])), (4, (1, [(4, 1), (7, 1), (15, 1), (20, 2)])), (5, (1, [(15, 1)]))] 0 (1, [(4, 1), (8, 1), (15, 1), (16, 2), (20, 4)]),
  .no [(0, (1, [(10, 1)])), (1, (1, [(12, 1)])), (2, (1, [(8, 1), (15, 1), (22, 2)])), (3, (2, [(4, 1), (15, 1), (16, 2), (20, 2)])), (4, (2, [(4, 1), (15, 1), (17, 2), (20, 2)])), (5, (1, [(15, 1)]))] 0 (2, [(4, 1), (15, 1), (16, 2), (20, 2), (22, 4)]),
  .no [(0, (1, [(10, 1)])), (1, (1, [(12, 1)])), (2, (1, [(8, 1), (15, 1), (20, 2)])), (3, (1, [(4, 1), (8, 1), (15, 1), (18, 2)])), (4, (1, [(4, 1), (7, 1), (15, 1), (18, 2)])), (5, (1, [(15, 1)]))] 0 (1, [(4, 1), (8, 1), (15, 1), (18, 2), (20, 2)]),
  .sub,
  .sub]

theorem pairs13_ok : pairsOk 13 pairs13 = true := by decide +kernel

/-- The classes before class 15. -/
def pairs15 : List Pair := [
  .no [(0, (1, [(10, 1)])), (1, (1, [(12, 1)])), (2, (1, [(10, 1), (23, 1)])), (3, (1, [(2, 2), (14, 2), (23, 1)])), (4, (1, [(3, 2), (14, 2), (23, 1)])), (5, (1, [(2, 2), (3, 2), (10, 1), (14, 2), (23, 2)]))] 0 (1, [(14, 2), (23, 1)]),
  .no [(0, (1, [(10, 1)])), (1, (1, [(12, 1)])), (2, (1, [(10, 1), (23, 1)])), (3, (3, [(14, 2), (17, 2), (23, 3)])), (4, (3, [(14, 2), (19, 2), (23, 3)])), (5, (3, [(10, 3), (15, 2), (17, 2), (19, 2)]))] 0 (1, [(14, 2), (23, 3)]),
  .no [(0, (1, [(10, 1)])), (1, (1, [(12, 1)])), (2, (1, [(10, 1), (21, 1)])), (3, (1, [(15, 2), (21, 1)])), (4, (1, [(17, 2), (21, 1)])), (5, (1, [(3, 2), (10, 1), (15, 2), (21, 2)]))] 0 (1, [(9, 1), (10, 1), (15, 2), (17, 2), (21, 3)]),
  .no [(0, (1, [(10, 1)])), (1, (1, [(12, 1)])), (2, (1, [(10, 1), (21, 1)])), (3, (1, [(17, 2), (21, 1)])), (4, (1, [(17, 2), (21, 1), (27, 2)])), (5, (1, [(15, 1)]))] 0 (1, [(9, 1), (10, 1), (17, 4), (21, 3), (27, 2)]),
  .no [(0, (1, [(10, 1)])), (1, (1, [(12, 1)])), (2, (1, [(10, 1), (21, 1)])), (3, (1, [(23, 1)])), (4, (1, [(17, 2), (23, 1)])), (5, (1, [(15, 1)]))] 0 (1, [(9, 1), (10, 1), (17, 2), (21, 1), (23, 2)]),
  .no [(0, (1, [(10, 1)])), (1, (1, [(12, 1)])), (2, (1, [(10, 1), (19, 1)])), (3, (1, [(21, 1)])), (4, (1, [(21, 1), (25, 2)])), (5, (1, [(15, 1)]))] 0 (1, [(9, 1), (10, 1), (19, 1), (21, 2), (25, 2)]),
  .no [(0, (1, [(10, 1)])), (2, (1, [(10, 1), (21, 1)])), (3, (1, [(2, 2), (12, 2), (21, 1)])), (4, (1, [(3, 2), (12, 2), (21, 1)])), (5, (1, [(2, 2), (3, 2), (10, 1), (12, 2), (21, 2)]))] 0 (1, [(12, 2), (21, 1)]),
  .no [(0, (1, [(10, 1)])), (2, (1, [(10, 1), (21, 1)])), (3, (1, [(2, 2), (12, 2), (21, 1)])), (4, (1, [(17, 1)])), (5, (1, [(2, 2), (10, 1), (17, 1), (21, 1)]))] 0 (1, [(12, 2), (21, 1)]),
  .no [(0, (1, [(10, 1)])), (2, (1, [(10, 1), (19, 1)])), (3, (1, [(2, 2), (12, 2), (19, 1)])), (4, (1, [(3, 2), (12, 2), (19, 1)])), (5, (1, [(2, 2), (3, 2), (10, 1), (12, 2), (19, 2)]))] 0 (1, [(12, 2), (19, 1)])]

theorem pairs15_ok : pairsOk 15 pairs15 = true := by decide +kernel

/-- The classes before class 16. -/
def pairs16 : List Pair := [
  .no [(0, (1, [(10, 1)])), (1, (1, [(12, 1)])), (2, (2, [(1, 2), (10, 1), (16, 2), (18, 2), (23, 1)])), (3, (2, [(2, 2), (4, 1), (14, 2), (18, 2), (23, 1)])), (4, (2, [(3, 2), (4, 1), (14, 2), (16, 2), (23, 1)])), (5, (1, [(23, 1)]))] 0 (2, [(4, 1), (14, 2), (16, 2), (18, 2), (23, 1)]),
  .sub,
  .early [(0, (1, [(10, 1)])), (1, (1, [(12, 1)])), (5, (1, [(21, 1)]))] 5 [((1, [(10, 1)]), (1, [(4, 1)])), ((1, [(12, 1)]), (1, [(5, 1)])), ((2, [(9, 1), (10, 1), (15, 2), (17, 2)]), (2, [(4, 1), (14, 2), (16, 2), (21, 1)])), ((2, [(9, 1), (10, 1), (14, 4), (17, 2)]), (2, [(4, 1), (15, 4), (16, 2), (21, 1)])), ((2, [(9, 1), (10, 1), (15, 2), (16, 4)]), (2, [(4, 1), (14, 2), (17, 4), (21, 1)]))],
  .sub,
  .early [(0, (1, [(10, 1)])), (1, (1, [(12, 1)])), (5, (1, [(15, 1)]))] 5 [((1, [(10, 1)]), (1, [(4, 1)])), ((1, [(12, 1)]), (1, [(5, 1)])), ((2, [(9, 1), (10, 1), (17, 2), (23, 4)]), (2, [(4, 1), (15, 1), (16, 2), (22, 4)])), ((2, [(9, 1), (10, 1), (17, 2), (22, 2)]), (2, [(4, 1), (15, 1), (16, 2), (23, 2)])), ((2, [(9, 1), (10, 1), (16, 4), (22, 2)]), (2, [(4, 1), (15, 1), (17, 4), (23, 2)]))],
  .early [(0, (1, [(10, 1)])), (1, (1, [(12, 1)])), (5, (1, [(15, 1)]))] 6 [((1, [(10, 1)]), (1, [(4, 1)])), ((1, [(12, 1)]), (1, [(5, 1)])), ((1, [(9, 1)]), (1, [(15, 1)])), ((1, [(20, 1)]), (1, [(21, 1)]))],
  .no [(0, (1, [(10, 1)])), (2, (2, [(1, 2), (10, 1), (14, 2), (16, 2), (21, 1)])), (3, (2, [(2, 2), (4, 1), (12, 2), (16, 2), (21, 1)])), (4, (2, [(3, 2), (4, 1), (12, 2), (14, 2), (21, 1)])), (5, (1, [(21, 1)]))] 0 (2, [(4, 1), (12, 2), (14, 2), (16, 2), (21, 1)]),
  .no [(0, (1, [(10, 1)])), (2, (1, [(8, 1), (14, 2), (21, 1)])), (3, (1, [(4, 1), (8, 1), (12, 2), (21, 1)])), (4, (1, [(17, 1)])), (5, (1, [(21, 1)]))] 0 (1, [(4, 1), (8, 1), (12, 2), (14, 2), (21, 1)]),
  .no [(0, (1, [(10, 1)])), (2, (1, [(8, 1), (14, 2), (19, 1)])), (3, (1, [(4, 1), (8, 1), (12, 2), (19, 1)])), (4, (2, [(3, 2), (4, 1), (12, 2), (14, 2), (19, 1)])), (5, (1, [(19, 1)]))] 0 (1, [(4, 1), (8, 1), (12, 2), (14, 2), (19, 1)]),
  .sub]

theorem pairs16_ok : pairsOk 16 pairs16 = true := by decide +kernel

/-- The classes before class 14. -/
def pairs14 : List Pair := [
  .sub,
  .sub,
  .sub,
  .sub,
  .early [(0, (1, [(10, 1)])), (1, (1, [(12, 1)])), (5, (1, [(15, 1)]))] 5 [((1, [(10, 1)]), (1, [(4, 1)])), ((1, [(12, 1)]), (1, [(5, 1)])), ((2, [(9, 1), (10, 1), (17, 2), (21, 4)]), (2, [(4, 1), (15, 1), (16, 2), (20, 4)])), ((2, [(9, 1), (10, 1), (17, 2), (20, 2)]), (2, [(4, 1), (15, 1), (16, 2), (21, 2)])), ((2, [(9, 1), (10, 1), (16, 4), (20, 2)]), (2, [(4, 1), (15, 1), (17, 4), (21, 2)]))],
  .early [(0, (1, [(10, 1)])), (1, (1, [(12, 1)])), (5, (1, [(15, 1)]))] 6 [((1, [(10, 1)]), (1, [(4, 1)])), ((1, [(12, 1)]), (1, [(5, 1)])), ((1, [(9, 1)]), (1, [(15, 1)])), ((1, [(18, 1)]), (1, [(19, 1)]))],
  .sub,
  .sub,
  .sub,
  .sub,
  .sub]

theorem pairs14_ok : pairsOk 14 pairs14 = true := by decide +kernel

/-- The classes before class 17. -/
def pairs17 : List Pair := [
  .no [(0, (1, [(10, 1)])), (1, (1, [(12, 1)])), (2, (2, [(1, 2), (10, 1), (16, 2), (18, 2), (23, 1)])), (3, (2, [(2, 2), (4, 1), (14, 2), (18, 2), (23, 1)])), (4, (2, [(3, 2), (4, 1), (14, 2), (16, 2), (23, 1)])), (5, (1, [(23, 1)]))] 0 (2, [(4, 1), (14, 2), (16, 2), (18, 2), (23, 1)]),
  .sub,
  .early [(0, (1, [(10, 1)])), (1, (1, [(12, 1)])), (5, (1, [(21, 1)]))] 5 [((1, [(10, 1)]), (1, [(4, 1)])), ((1, [(12, 1)]), (1, [(5, 1)])), ((2, [(9, 1), (10, 1), (15, 2), (17, 2)]), (2, [(4, 1), (14, 2), (16, 2), (21, 1)])), ((2, [(9, 1), (10, 1), (14, 4), (17, 2)]), (2, [(4, 1), (15, 4), (16, 2), (21, 1)])), ((2, [(9, 1), (10, 1), (15, 2), (16, 4)]), (2, [(4, 1), (14, 2), (17, 4), (21, 1)]))],
  .sub,
  .sub,
  .sub,
  .no [(0, (1, [(10, 1)])), (2, (2, [(1, 2), (10, 1), (14, 2), (16, 2), (21, 1)])), (3, (2, [(2, 2), (4, 1), (12, 2), (16, 2), (21, 1)])), (4, (2, [(3, 2), (4, 1), (12, 2), (14, 2), (21, 1)])), (5, (1, [(21, 1)]))] 0 (2, [(4, 1), (12, 2), (14, 2), (16, 2), (21, 1)]),
  .no [(0, (1, [(10, 1)])), (2, (1, [(8, 1), (14, 2), (21, 1)])), (3, (1, [(4, 1), (8, 1), (12, 2), (21, 1)])), (4, (1, [(17, 1)])), (5, (1, [(21, 1)]))] 0 (1, [(4, 1), (8, 1), (12, 2), (14, 2), (21, 1)]),
  .no [(0, (1, [(10, 1)])), (2, (1, [(8, 1), (14, 2), (19, 1)])), (3, (1, [(4, 1), (8, 1), (12, 2), (19, 1)])), (4, (2, [(3, 2), (4, 1), (12, 2), (14, 2), (19, 1)])), (5, (1, [(19, 1)]))] 0 (1, [(4, 1), (8, 1), (12, 2), (14, 2), (19, 1)]),
  .sub,
  .sub,
  .early [(0, (1, [(10, 1)])), (5, (1, [(17, 1)]))] 16 [((1, [(10, 1)]), (1, [(4, 1)])), ((1, [(9, 1)]), (1, [(17, 1)])), ((1, [(12, 1)]), (1, [(13, 1)]))]]

theorem pairs17_ok : pairsOk 17 pairs17 = true := by decide +kernel

/-- The classes before class 18. -/
def pairs18 : List Pair := [
  .no [(0, (1, [(9, 1)])), (1, (1, [(11, 1)])), (2, (1, [(9, 1), (13, 1)])), (3, (1, [(15, 1)])), (4, (1, [(17, 1)]))] 0 (1, [(13, 2), (22, 1)]),
  .no [(0, (1, [(9, 1)])), (1, (1, [(11, 1)])), (2, (1, [(9, 1), (14, 2), (21, 1)])), (3, (1, [(21, 1)])), (4, (1, [(14, 2), (15, 2), (21, 1)]))] 0 (1, [(14, 4), (20, 1), (21, 2)]),
  .no [(0, (1, [(9, 1)])), (1, (1, [(17, 1)])), (2, (1, [(9, 1), (11, 1)])), (3, (1, [(13, 1)])), (4, (1, [(15, 1)]))] 0 (1, [(11, 2), (20, 1)]),
  .no [(0, (1, [(9, 1)])), (1, (1, [(13, 1)])), (2, (1, [(9, 1), (12, 2), (17, 1)])), (3, (1, [(17, 1)])), (4, (1, [(3, 2), (12, 4), (16, 1), (17, 2)]))] 0 (1, [(12, 4), (16, 1), (17, 2)])]

theorem pairs18_ok : pairsOk 18 pairs18 = true := by decide +kernel

/-- The classes before class 19. -/
def pairs19 : List Pair := [
  .sub,
  .early [(0, (1, [(9, 1)])), (1, (1, [(11, 1)])), (2, (1, [(9, 1), (14, 2), (19, 1)])), (3, (1, [(19, 1)])), (4, (1, [(14, 2), (15, 2), (19, 1)]))] 1 [((1, [(9, 1)]), (1, [(4, 1)])), ((1, [(11, 1)]), (1, [(5, 1)])), ((1, [(14, 2), (19, 1)]), (1, [(6, 1), (9, 1)])), ((1, [(19, 1)]), (1, [(7, 1)])), ((1, [(14, 2), (15, 2), (19, 1)]), (1, [(8, 1)]))],
  .early [(0, (1, [(9, 1)])), (1, (1, [(17, 1)])), (2, (1, [(9, 1), (11, 1)])), (3, (1, [(13, 1)])), (4, (1, [(15, 1)]))] 1 [((1, [(9, 1)]), (1, [(4, 1)])), ((1, [(17, 1)]), (1, [(5, 1)])), ((1, [(11, 1)]), (1, [(6, 1), (9, 1)])), ((1, [(13, 1)]), (1, [(7, 1)])), ((1, [(15, 1)]), (1, [(8, 1)]))],
  .early [(0, (1, [(9, 1)])), (1, (1, [(13, 1)])), (2, (1, [(9, 1), (12, 2), (15, 1)])), (3, (1, [(15, 1)])), (4, (1, [(17, 1)]))] 1 [((1, [(9, 1)]), (1, [(4, 1)])), ((1, [(13, 1)]), (1, [(5, 1)])), ((1, [(12, 2), (15, 1)]), (1, [(6, 1), (9, 1)])), ((1, [(15, 1)]), (1, [(7, 1)])), ((1, [(17, 1)]), (1, [(8, 1)]))],
  .sub]

theorem pairs19_ok : pairsOk 19 pairs19 = true := by decide +kernel

/-- The classes before class 20. -/
def pairs20 : List Pair := [
  .sub,
  .sub,
  .early [(0, (1, [(9, 1)])), (1, (1, [(17, 1)])), (2, (1, [(9, 1), (11, 1)])), (3, (1, [(13, 1)])), (4, (1, [(15, 1)]))] 1 [((1, [(9, 1)]), (1, [(4, 1)])), ((1, [(17, 1)]), (1, [(5, 1)])), ((1, [(11, 1)]), (1, [(6, 1), (9, 1)])), ((1, [(13, 1)]), (1, [(7, 1)])), ((1, [(15, 1)]), (1, [(8, 1)]))],
  .early [(0, (1, [(9, 1)])), (1, (1, [(13, 1)]))] 2 [((1, [(9, 1)]), (1, [(4, 1)])), ((1, [(13, 1)]), (1, [(5, 1)])), ((1, [(11, 1)]), (1, [(12, 1)])), ((1, [(11, 1), (15, 1)]), (1, [(12, 1), (16, 1)]))],
  .sub,
  .sub]

theorem pairs20_ok : pairsOk 20 pairs20 = true := by decide +kernel

/-- The classes before class 21. -/
def pairs21 : List Pair := [
  .sub,
  .no [(0, (1, [(10, 1)])), (1, (1, [(12, 1)])), (2, (1, [(10, 1), (15, 1), (22, 1)])), (3, (3, [(15, 1), (17, 2), (22, 3)])), (4, (3, [(15, 1), (19, 2), (22, 3)])), (5, (3, [(10, 3), (15, 2), (17, 2), (19, 2)]))] 0 (1, [(15, 1), (22, 3)]),
  .early [(0, (1, [(10, 1)])), (1, (1, [(12, 1)]))] 3 [((1, [(10, 1)]), (1, [(4, 1)])), ((1, [(12, 1)]), (1, [(5, 1)])), ((1, [(20, 1)]), (1, [(1, 1)])), ((1, [(14, 1), (20, 1)]), (1, [(2, 1)])), ((1, [(16, 1), (20, 1)]), (1, [(3, 1)]))],
  .no [(0, (1, [(10, 1)])), (1, (1, [(12, 1)])), (2, (1, [(8, 1), (15, 1), (16, 2), (20, 2)])), (3, (1, [(4, 1), (8, 1), (15, 1), (20, 2)])), (4, (1, [(4, 1), (7, 1), (15, 1), (20, 2)])), (5, (1, [(15, 1)]))] 0 (1, [(4, 1), (8, 1), (15, 1), (16, 2), (20, 4)]),
  .no [(0, (1, [(10, 1)])), (1, (1, [(12, 1)])), (2, (1, [(8, 1), (15, 1), (22, 2)])), (3, (2, [(4, 1), (15, 1), (16, 2), (20, 2)])), (4, (2, [(4, 1), (15, 1), (17, 2), (20, 2)])), (5, (1, [(15, 1)]))] 0 (2, [(4, 1), (15, 1), (16, 2), (20, 2), (22, 4)]),
  .no [(0, (1, [(10, 1)])), (1, (1, [(12, 1)])), (2, (1, [(8, 1), (15, 1), (20, 2)])), (3, (1, [(4, 1), (8, 1), (15, 1), (18, 2)])), (4, (1, [(4, 1), (7, 1), (15, 1), (18, 2)])), (5, (1, [(15, 1)]))] 0 (1, [(4, 1), (8, 1), (15, 1), (18, 2), (20, 2)]),
  .early [(0, (1, [(10, 1)])), (1, (1, [(18, 1)]))] 3 [((1, [(10, 1)]), (1, [(4, 1)])), ((1, [(18, 1)]), (1, [(5, 1)])), ((1, [(12, 1)]), (1, [(1, 1)])), ((1, [(14, 1)]), (1, [(2, 1)])), ((1, [(16, 1)]), (1, [(3, 1)]))],
  .no [(0, (1, [(10, 1)])), (1, (1, [(18, 1)])), (2, (1, [(1, 2), (10, 1), (17, 1), (24, 2)])), (3, (1, [(2, 2), (17, 1), (24, 2)])), (4, (1, [(17, 1)])), (5, (1, [(1, 2), (2, 2), (10, 1), (17, 2), (24, 2)]))] 0 (1, [(17, 1), (24, 2)]),
  .early [(0, (1, [(10, 1)])), (1, (1, [(16, 1)]))] 3 [((1, [(10, 1)]), (1, [(4, 1)])), ((1, [(16, 1)]), (1, [(5, 1)])), ((1, [(12, 1)]), (1, [(1, 1)])), ((1, [(14, 1)]), (1, [(2, 1)])), ((1, [(22, 1)]), (1, [(3, 1)]))],
  .no [(0, (1, [(10, 1)])), (1, (1, [(18, 1)])), (2, (1, [(10, 1), (13, 1)])), (3, (1, [(15, 1)])), (4, (1, [(3, 2), (13, 1), (20, 2)])), (5, (1, [(3, 2), (10, 1), (13, 1), (15, 1)]))] 0 (1, [(13, 1), (20, 2)]),
  .no [(0, (1, [(10, 1)])), (1, (1, [(16, 1)])), (2, (1, [(8, 1), (13, 1), (14, 2), (18, 2)])), (3, (1, [(4, 1), (8, 1), (13, 1), (18, 2)])), (4, (1, [(4, 1), (7, 1), (13, 1), (18, 2)])), (5, (1, [(13, 1)]))] 0 (1, [(4, 1), (8, 1), (13, 1), (14, 2), (18, 4)]),
  .early [(0, (1, [(10, 1)])), (1, (1, [(14, 1)]))] 3 [((1, [(10, 1)]), (1, [(4, 1)])), ((1, [(14, 1)]), (1, [(5, 1)])), ((1, [(16, 1)]), (1, [(1, 1)])), ((1, [(12, 1), (16, 1)]), (1, [(2, 1)])), ((1, [(20, 1)]), (1, [(3, 1)]))],
  .no [(0, (1, [(10, 1)])), (1, (1, [(14, 1)])), (2, (1, [(8, 1), (13, 1), (18, 2)])), (3, (1, [(4, 1), (8, 1), (13, 1), (16, 2)])), (4, (1, [(4, 1), (7, 1), (13, 1), (16, 2)])), (5, (1, [(13, 1)]))] 0 (1, [(4, 1), (8, 1), (13, 1), (16, 2), (18, 2)])]

theorem pairs21_ok : pairsOk 21 pairs21 = true := by decide +kernel

/-- The classes before class 22. -/
def pairs22 : List Pair := [
  .no [(0, (1, [(10, 1)])), (1, (1, [(12, 1)])), (2, (1, [(23, 1)])), (3, (1, [(2, 2), (4, 1), (14, 2), (23, 1)])), (4, (1, [(3, 2), (4, 1), (14, 2), (23, 1)])), (5, (1, [(2, 2), (3, 2), (4, 1), (14, 2), (23, 2)]))] 0 (1, [(4, 1), (14, 2), (23, 1)]),
  .no [(0, (1, [(10, 1)])), (1, (1, [(12, 1)])), (2, (1, [(23, 1)])), (3, (3, [(4, 3), (14, 2), (17, 2), (23, 3)])), (4, (3, [(4, 3), (14, 2), (19, 2), (23, 3)])), (5, (3, [(10, 3), (15, 2), (17, 2), (19, 2)]))] 0 (1, [(4, 3), (14, 2), (23, 3)]),
  .no [(0, (1, [(10, 1)])), (1, (1, [(12, 1)])), (2, (1, [(21, 1)])), (3, (1, [(4, 1), (15, 2), (21, 1)])), (4, (1, [(4, 1), (17, 2), (21, 1)])), (5, (1, [(3, 2), (4, 1), (15, 2), (21, 2)]))] 0 (1, [(4, 2), (9, 1), (15, 2), (17, 2), (21, 3)]),
  .no [(0, (1, [(10, 1)])), (1, (1, [(12, 1)])), (2, (1, [(21, 1)])), (3, (1, [(4, 1), (17, 2), (21, 1)])), (4, (1, [(6, 1), (15, 1), (22, 2)])), (5, (1, [(15, 1)]))] 0 (1, [(4, 1), (8, 1), (15, 1), (17, 2), (22, 4)]),
  .no [(0, (1, [(10, 1)])), (1, (1, [(12, 1)])), (2, (1, [(21, 1)])), (3, (1, [(6, 1), (15, 1), (16, 2), (22, 2)])), (4, (1, [(6, 1), (15, 1), (22, 2)])), (5, (1, [(15, 1)]))] 0 (1, [(6, 1), (15, 1), (16, 2), (22, 4)]),
  .no [(0, (1, [(10, 1)])), (1, (1, [(12, 1)])), (2, (1, [(19, 1)])), (3, (1, [(6, 1), (15, 1), (22, 2)])), (4, (1, [(6, 1), (15, 1), (20, 2)])), (5, (1, [(15, 1)]))] 0 (1, [(6, 1), (15, 1), (20, 2), (22, 2)]),
  .no [(0, (1, [(10, 1)])), (1, (1, [(18, 1)])), (2, (1, [(21, 1)])), (3, (1, [(2, 2), (4, 1), (12, 2), (21, 1)])), (4, (1, [(3, 2), (4, 1), (12, 2), (21, 1)])), (5, (1, [(2, 2), (3, 2), (4, 1), (12, 2), (21, 2)]))] 0 (1, [(4, 1), (12, 2), (21, 1)]),
  .no [(0, (1, [(10, 1)])), (1, (1, [(18, 1)])), (2, (1, [(21, 1)])), (3, (1, [(2, 2), (4, 1), (12, 2), (21, 1)])), (4, (1, [(17, 1)])), (5, (1, [(2, 2), (17, 1), (21, 1)]))] 0 (1, [(4, 1), (12, 2), (21, 1)]),
  .no [(0, (1, [(10, 1)])), (1, (1, [(16, 1)])), (2, (1, [(19, 1)])), (3, (1, [(2, 2), (4, 1), (12, 2), (19, 1)])), (4, (1, [(3, 2), (4, 1), (12, 2), (19, 1)])), (5, (1, [(2, 2), (3, 2), (4, 1), (12, 2), (19, 2)]))] 0 (1, [(4, 1), (12, 2), (19, 1)]),
  .no [(0, (1, [(10, 1)])), (1, (1, [(18, 1)])), (2, (1, [(10, 1), (13, 1)])), (3, (1, [(15, 1)])), (4, (1, [(3, 2), (15, 1), (22, 2)])), (5, (1, [(3, 2), (10, 1), (13, 1), (15, 1)]))] 0 (1, [(15, 1), (22, 2)]),
  .no [(0, (1, [(10, 1)])), (1, (1, [(16, 1)])), (2, (1, [(19, 1)])), (3, (1, [(4, 1), (15, 2), (19, 1)])), (4, (1, [(6, 1), (13, 1), (20, 2)])), (5, (1, [(13, 1)]))] 0 (1, [(4, 1), (8, 1), (13, 1), (15, 2), (20, 4)]),
  .no [(0, (1, [(10, 1)])), (1, (1, [(14, 1)])), (2, (1, [(17, 1)])), (3, (1, [(4, 1), (13, 2), (17, 1)])), (4, (1, [(3, 2), (4, 1), (13, 2), (17, 1), (18, 2)])), (5, (1, [(3, 2), (4, 1), (13, 2), (17, 2)]))] 0 (1, [(4, 1), (13, 2), (17, 1), (18, 2)]),
  .no [(0, (1, [(10, 1)])), (1, (1, [(14, 1)])), (2, (1, [(17, 1)])), (3, (1, [(6, 1), (13, 1), (20, 2)])), (4, (1, [(6, 1), (13, 1), (18, 2)])), (5, (1, [(13, 1)]))] 0 (1, [(6, 1), (13, 1), (18, 2), (20, 2)]),
  .no [(0, (1, [(0, 1), (12, 2), (21, 1)])), (1, (1, [(10, 1)])), (2, (1, [(21, 1)])), (3, (1, [(2, 2), (4, 1), (12, 2), (21, 1)])), (4, (1, [(3, 2), (4, 1), (12, 2), (21, 1)])), (5, (1, [(2, 2), (3, 2), (4, 1), (12, 2), (21, 2)]))] 0 (1, [(4, 1), (12, 2), (21, 1)])]

theorem pairs22_ok : pairsOk 22 pairs22 = true := by decide +kernel

/-- The classes before class 23. -/
def pairs23 : List Pair := [
  .sub,
  .no [(0, (1, [(10, 1)])), (1, (1, [(12, 1)])), (2, (3, [(10, 3), (15, 2), (17, 1), (22, 3)])), (3, (1, [(17, 1), (22, 1)])), (4, (3, [(17, 1), (19, 2), (22, 3)])), (5, (3, [(10, 3), (15, 2), (17, 2), (19, 2)]))] 0 (1, [(17, 1), (22, 3)]),
  .early [(0, (1, [(10, 1)])), (1, (1, [(12, 1)]))] 3 [((1, [(10, 1)]), (1, [(4, 1)])), ((1, [(12, 1)]), (1, [(5, 1)])), ((1, [(15, 1), (20, 1)]), (1, [(1, 1)])), ((1, [(20, 1)]), (1, [(2, 1)])), ((1, [(15, 1), (16, 1), (20, 1)]), (1, [(3, 1)]))],
  .no [(0, (1, [(10, 1)])), (1, (1, [(12, 1)])), (2, (1, [(8, 1), (15, 1), (20, 2)])), (3, (1, [(4, 1), (8, 1), (15, 1), (17, 2), (20, 2)])), (4, (1, [(6, 1), (15, 1), (20, 2)])), (5, (1, [(15, 1)]))] 0 (1, [(4, 1), (8, 1), (15, 1), (17, 2), (20, 4)]),
  .no [(0, (1, [(10, 1)])), (1, (1, [(12, 1)])), (2, (1, [(8, 1), (15, 1), (20, 2)])), (3, (1, [(6, 1), (15, 1), (16, 2), (20, 2)])), (4, (1, [(6, 1), (15, 1), (20, 2)])), (5, (1, [(15, 1)]))] 0 (1, [(6, 1), (15, 1), (16, 2), (20, 4)]),
  .no [(0, (1, [(10, 1)])), (1, (1, [(12, 1)])), (2, (1, [(8, 1), (15, 1), (18, 2)])), (3, (1, [(6, 1), (15, 1), (20, 2)])), (4, (1, [(6, 1), (15, 1), (18, 2)])), (5, (1, [(15, 1)]))] 0 (1, [(6, 1), (15, 1), (18, 2), (20, 2)]),
  .early [(0, (1, [(10, 1)])), (1, (1, [(18, 1)]))] 3 [((1, [(10, 1)]), (1, [(4, 1)])), ((1, [(18, 1)]), (1, [(5, 1)])), ((1, [(12, 1)]), (1, [(1, 1)])), ((1, [(14, 1)]), (1, [(2, 1)])), ((1, [(16, 1)]), (1, [(3, 1)]))],
  .no [(0, (1, [(10, 1)])), (1, (1, [(18, 1)])), (2, (1, [(1, 2), (10, 1), (17, 1), (22, 2)])), (3, (1, [(2, 2), (17, 1), (22, 2)])), (4, (1, [(17, 1)])), (5, (1, [(1, 2), (2, 2), (10, 1), (17, 2), (22, 2)]))] 0 (1, [(17, 1), (22, 2)]),
  .early [(0, (1, [(10, 1)])), (1, (1, [(16, 1)]))] 3 [((1, [(10, 1)]), (1, [(4, 1)])), ((1, [(16, 1)]), (1, [(5, 1)])), ((1, [(12, 1)]), (1, [(1, 1)])), ((1, [(14, 1)]), (1, [(2, 1)])), ((1, [(20, 1)]), (1, [(3, 1)]))],
  .no [(0, (1, [(10, 1)])), (1, (1, [(18, 1)])), (2, (1, [(10, 1), (13, 1)])), (3, (1, [(15, 1)])), (4, (1, [(3, 2), (15, 1), (20, 2)])), (5, (1, [(3, 2), (10, 1), (13, 1), (15, 1)]))] 0 (1, [(15, 1), (20, 2)]),
  .no [(0, (1, [(10, 1)])), (1, (1, [(16, 1)])), (2, (1, [(8, 1), (13, 1), (18, 2)])), (3, (1, [(4, 1), (8, 1), (13, 1), (15, 2), (18, 2)])), (4, (1, [(6, 1), (13, 1), (18, 2)])), (5, (1, [(13, 1)]))] 0 (1, [(4, 1), (8, 1), (13, 1), (15, 2), (18, 4)]),
  .early [(0, (1, [(10, 1)])), (1, (1, [(14, 1)]))] 3 [((1, [(10, 1)]), (1, [(4, 1)])), ((1, [(14, 1)]), (1, [(5, 1)])), ((1, [(13, 1), (16, 1)]), (1, [(1, 1)])), ((1, [(16, 1)]), (1, [(2, 1)])), ((1, [(18, 1)]), (1, [(3, 1)]))],
  .no [(0, (1, [(10, 1)])), (1, (1, [(14, 1)])), (2, (1, [(8, 1), (13, 1), (16, 2)])), (3, (1, [(6, 1), (13, 1), (18, 2)])), (4, (1, [(6, 1), (13, 1), (16, 2)])), (5, (1, [(13, 1)]))] 0 (1, [(6, 1), (13, 1), (16, 2), (18, 2)]),
  .sub,
  .sub]

theorem pairs23_ok : pairsOk 23 pairs23 = true := by decide +kernel

/-- The classes before class 24. -/
def pairs24 : List Pair := [
  .no [(0, (1, [(10, 1)])), (1, (1, [(12, 1)])), (2, (2, [(1, 2), (10, 1), (16, 2), (18, 2), (23, 1)])), (3, (2, [(2, 2), (4, 1), (14, 2), (18, 2), (23, 1)])), (4, (2, [(3, 2), (4, 1), (14, 2), (16, 2), (23, 1)])), (5, (1, [(23, 1)]))] 0 (2, [(4, 1), (14, 2), (16, 2), (18, 2), (23, 1)]),
  .sub,
  .early [(0, (1, [(10, 1)])), (1, (1, [(12, 1)])), (5, (1, [(21, 1)]))] 5 [((1, [(10, 1)]), (1, [(4, 1)])), ((1, [(12, 1)]), (1, [(5, 1)])), ((2, [(9, 1), (10, 1), (15, 2), (17, 2)]), (2, [(4, 1), (14, 2), (16, 2), (21, 1)])), ((2, [(9, 1), (10, 1), (14, 4), (17, 2)]), (2, [(4, 1), (15, 4), (16, 2), (21, 1)])), ((2, [(9, 1), (10, 1), (15, 2), (16, 4)]), (2, [(4, 1), (14, 2), (17, 4), (21, 1)]))],
  .early [(0, (1, [(10, 1)])), (1, (1, [(12, 1)])), (5, (1, [(15, 1)]))] 5 [((1, [(10, 1)]), (1, [(4, 1)])), ((1, [(12, 1)]), (1, [(5, 1)])), ((1, [(17, 3), (22, 1)]), (1, [(16, 3), (23, 1)])), ((1, [(22, 1)]), (1, [(23, 1)])), ((2, [(9, 3), (10, 3), (16, 6), (23, 4)]), (2, [(4, 3), (15, 3), (17, 6), (22, 4)]))],
  .early [(0, (1, [(10, 1)])), (1, (1, [(12, 1)])), (5, (1, [(15, 1)]))] 5 [((1, [(10, 1)]), (1, [(4, 1)])), ((1, [(12, 1)]), (1, [(5, 1)])), ((2, [(9, 3), (10, 3), (17, 6), (23, 4)]), (2, [(4, 3), (15, 3), (16, 6), (22, 4)])), ((1, [(22, 1)]), (1, [(23, 1)])), ((1, [(16, 3), (22, 1)]), (1, [(17, 3), (23, 1)]))],
  .early [(0, (1, [(10, 1)])), (1, (1, [(12, 1)])), (5, (1, [(15, 1)]))] 5 [((1, [(10, 1)]), (1, [(4, 1)])), ((1, [(12, 1)]), (1, [(5, 1)])), ((2, [(9, 3), (10, 3), (21, 2), (23, 2)]), (2, [(4, 3), (15, 3), (20, 2), (22, 2)])), ((1, [(20, 1)]), (1, [(21, 1)])), ((1, [(22, 1)]), (1, [(23, 1)]))],
  .no [(0, (1, [(10, 1)])), (1, (1, [(18, 1)])), (2, (2, [(1, 2), (10, 1), (14, 2), (16, 2), (21, 1)])), (3, (2, [(2, 2), (4, 1), (12, 2), (16, 2), (21, 1)])), (4, (2, [(3, 2), (4, 1), (12, 2), (14, 2), (21, 1)])), (5, (1, [(21, 1)]))] 0 (2, [(4, 1), (12, 2), (14, 2), (16, 2), (21, 1)]),
  .no [(0, (1, [(10, 1)])), (1, (1, [(18, 1)])), (2, (1, [(8, 1), (14, 2), (21, 1)])), (3, (1, [(4, 1), (8, 1), (12, 2), (21, 1)])), (4, (1, [(17, 1)])), (5, (1, [(21, 1)]))] 0 (1, [(4, 1), (8, 1), (12, 2), (14, 2), (21, 1)]),
  .no [(0, (1, [(10, 1)])), (1, (1, [(16, 1)])), (2, (1, [(8, 1), (14, 2), (19, 1)])), (3, (1, [(4, 1), (8, 1), (12, 2), (19, 1)])), (4, (2, [(3, 2), (4, 1), (12, 2), (14, 2), (19, 1)])), (5, (1, [(19, 1)]))] 0 (1, [(4, 1), (8, 1), (12, 2), (14, 2), (19, 1)]),
  .no [(0, (1, [(10, 1)])), (1, (1, [(18, 1)])), (2, (1, [(10, 1), (13, 1)])), (3, (1, [(15, 1)])), (4, (1, [(3, 2), (15, 3), (22, 2)])), (5, (1, [(3, 2), (10, 1), (13, 1), (15, 1)]))] 0 (1, [(15, 3), (22, 2)]),
  .early [(0, (1, [(10, 1)])), (1, (1, [(16, 1)])), (5, (1, [(13, 1)]))] 5 [((1, [(10, 1)]), (1, [(4, 1)])), ((1, [(16, 1)]), (1, [(5, 1)])), ((1, [(15, 3), (20, 1)]), (1, [(14, 3), (21, 1)])), ((1, [(20, 1)]), (1, [(21, 1)])), ((2, [(9, 3), (10, 3), (14, 6), (21, 4)]), (2, [(4, 3), (13, 3), (15, 6), (20, 4)]))],
  .early [(0, (1, [(10, 1)])), (1, (1, [(14, 1)])), (5, (1, [(17, 1)]))] 5 [((1, [(10, 1)]), (1, [(4, 1)])), ((1, [(14, 1)]), (1, [(5, 1)])), ((1, [(13, 3), (18, 1)]), (1, [(12, 3), (19, 1)])), ((1, [(18, 1)]), (1, [(19, 1)])), ((2, [(9, 3), (10, 3), (12, 6), (19, 4)]), (2, [(4, 3), (13, 6), (17, 3), (18, 4)]))],
  .early [(0, (1, [(10, 1)])), (1, (1, [(14, 1)])), (5, (1, [(13, 1)]))] 5 [((1, [(10, 1)]), (1, [(4, 1)])), ((1, [(14, 1)]), (1, [(5, 1)])), ((2, [(9, 3), (10, 3), (19, 2), (21, 2)]), (2, [(4, 3), (13, 3), (18, 2), (20, 2)])), ((1, [(18, 1)]), (1, [(19, 1)])), ((1, [(20, 1)]), (1, [(21, 1)]))],
  .no [(0, (1, [(7, 1), (8, 1), (12, 2), (21, 1)])), (1, (1, [(10, 1)])), (2, (1, [(8, 1), (14, 2), (21, 1)])), (3, (2, [(2, 2), (4, 1), (12, 2), (16, 2), (21, 1)])), (4, (2, [(3, 2), (4, 1), (12, 2), (14, 2), (21, 1)])), (5, (1, [(21, 1)]))] 0 (2, [(4, 1), (12, 2), (14, 2), (16, 2), (21, 1)]),
  .no [(1, (1, [(10, 1)])), (2, (1, [(13, 1)])), (3, (1, [(6, 1), (16, 2), (21, 1)])), (4, (1, [(6, 1), (14, 2), (21, 1)])), (5, (1, [(21, 1)]))] 0 (1, [(6, 1), (14, 2), (16, 2), (21, 1)]),
  .no [(1, (1, [(10, 1)])), (2, (1, [(8, 1), (12, 2), (19, 1)])), (3, (1, [(6, 1), (14, 2), (19, 1)])), (4, (1, [(6, 1), (12, 2), (19, 1)])), (5, (1, [(19, 1)]))] 0 (1, [(6, 1), (12, 2), (14, 2), (19, 1)])]

theorem pairs24_ok : pairsOk 24 pairs24 = true := by decide +kernel

/-- The classes before class 25. -/
def pairs25 : List Pair := [
  .sub,
  .sub,
  .sub,
  .early [(0, (1, [(10, 1)])), (1, (1, [(12, 1)])), (5, (1, [(15, 1)]))] 5 [((1, [(10, 1)]), (1, [(4, 1)])), ((1, [(12, 1)]), (1, [(5, 1)])), ((2, [(9, 1), (10, 1), (17, 4), (21, 2)]), (2, [(4, 1), (15, 1), (16, 4), (20, 2)])), ((2, [(9, 1), (10, 1), (16, 2), (21, 2)]), (2, [(4, 1), (15, 1), (17, 2), (20, 2)])), ((2, [(9, 1), (10, 1), (16, 2), (20, 4)]), (2, [(4, 1), (15, 1), (17, 2), (21, 4)]))],
  .sub,
  .early [(0, (1, [(10, 1)])), (1, (1, [(12, 1)])), (5, (1, [(15, 1)]))] 7 [((1, [(10, 1)]), (1, [(4, 1)])), ((1, [(12, 1)]), (1, [(5, 1)])), ((1, [(9, 1)]), (1, [(15, 1)])), ((1, [(18, 1)]), (1, [(19, 1)]))],
  .early [(0, (1, [(10, 1)])), (1, (1, [(18, 1)]))] 3 [((1, [(10, 1)]), (1, [(4, 1)])), ((1, [(18, 1)]), (1, [(5, 1)])), ((1, [(12, 1)]), (1, [(1, 1)])), ((1, [(14, 1)]), (1, [(2, 1)])), ((1, [(16, 1)]), (1, [(3, 1)]))],
  .no [(0, (1, [(10, 1)])), (1, (1, [(18, 1)])), (2, (1, [(1, 2), (10, 1), (14, 2), (17, 1), (20, 2)])), (3, (1, [(17, 1), (20, 2)])), (4, (1, [(17, 1)])), (5, (1, [(1, 2), (10, 1), (17, 2), (20, 2)]))] 0 (1, [(14, 2), (17, 1), (20, 2)]),
  .early [(0, (1, [(10, 1)])), (1, (1, [(16, 1)]))] 3 [((1, [(10, 1)]), (1, [(4, 1)])), ((1, [(16, 1)]), (1, [(5, 1)])), ((1, [(12, 1)]), (1, [(1, 1)])), ((1, [(14, 1)]), (1, [(2, 1)])), ((1, [(14, 1), (18, 1)]), (1, [(3, 1)]))],
  .no [(0, (1, [(10, 1)])), (1, (1, [(18, 1)])), (2, (1, [(10, 1), (13, 1)])), (3, (1, [(15, 1)])), (4, (1, [(15, 1), (21, 2)])), (5, (1, [(3, 2), (10, 1), (13, 1), (15, 1)]))] 0 (1, [(9, 1), (10, 1), (13, 1), (15, 2), (21, 2)]),
  .early [(0, (1, [(10, 1)])), (1, (1, [(16, 1)])), (5, (1, [(13, 1)]))] 5 [((1, [(10, 1)]), (1, [(4, 1)])), ((1, [(16, 1)]), (1, [(5, 1)])), ((2, [(9, 1), (10, 1), (15, 4), (19, 2)]), (2, [(4, 1), (13, 1), (14, 4), (18, 2)])), ((2, [(9, 1), (10, 1), (14, 2), (19, 2)]), (2, [(4, 1), (13, 1), (15, 2), (18, 2)])), ((2, [(9, 1), (10, 1), (14, 2), (18, 4)]), (2, [(4, 1), (13, 1), (15, 2), (19, 4)]))],
  .early [(0, (1, [(10, 1)])), (1, (1, [(14, 1)]))] 4 [((1, [(10, 1)]), (1, [(4, 1)])), ((1, [(14, 1)]), (1, [(5, 1)])), ((1, [(12, 1)]), (1, [(13, 1)])), ((1, [(12, 1), (16, 1)]), (1, [(13, 1), (17, 1)]))],
  .early [(0, (1, [(10, 1)])), (1, (1, [(14, 1)])), (5, (1, [(13, 1)]))] 7 [((1, [(10, 1)]), (1, [(4, 1)])), ((1, [(14, 1)]), (1, [(5, 1)])), ((1, [(9, 1)]), (1, [(13, 1)])), ((1, [(16, 1)]), (1, [(17, 1)]))],
  .sub,
  .sub,
  .sub,
  .sub]

theorem pairs25_ok : pairsOk 25 pairs25 = true := by decide +kernel

/-- The classes before class 26. -/
def pairs26 : List Pair := [
  .no [(0, (1, [(9, 1)])), (1, (1, [(11, 1)])), (2, (1, [(9, 1), (13, 1)])), (3, (1, [(15, 1)])), (4, (1, [(17, 1)]))] 0 (1, [(13, 2), (20, 1)]),
  .no [(0, (1, [(9, 1)])), (1, (1, [(11, 1)])), (2, (1, [(9, 1), (14, 2), (19, 1)])), (3, (1, [(19, 1)])), (4, (1, [(14, 2), (15, 2), (19, 1)]))] 0 (1, [(14, 4), (18, 1), (19, 2)]),
  .no [(0, (1, [(9, 1)])), (2, (1, [(9, 1), (11, 1)])), (3, (1, [(13, 1)])), (4, (1, [(15, 1)]))] 0 (1, [(11, 2), (18, 1)]),
  .no [(0, (1, [(9, 1)])), (2, (1, [(9, 1), (12, 2), (15, 1)])), (3, (1, [(15, 1)])), (4, (1, [(3, 2), (12, 4), (14, 1), (15, 2)]))] 0 (1, [(12, 4), (14, 1), (15, 2)]),
  .sub,
  .early [(1, (1, [(9, 1)])), (3, (1, [(11, 1)])), (4, (1, [(13, 1)]))] 18 [((1, [(9, 1)]), (1, [(5, 1)])), ((1, [(15, 1)]), (1, [(16, 1)])), ((1, [(11, 1)]), (1, [(7, 1)])), ((1, [(13, 1)]), (1, [(8, 1)]))],
  .early [(1, (1, [(9, 1)])), (3, (1, [(15, 1)])), (4, (1, [(11, 2), (15, 1)]))] 18 [((1, [(9, 1)]), (1, [(5, 1)])), ((1, [(13, 1)]), (1, [(14, 1)])), ((1, [(15, 1)]), (1, [(7, 1)])), ((1, [(11, 2), (15, 1)]), (1, [(8, 1)]))]]

theorem pairs26_ok : pairsOk 26 pairs26 = true := by decide +kernel

/-- The classes before class 27. -/
def pairs27 : List Pair := [
  .sub,
  .early [(0, (1, [(9, 1)])), (1, (1, [(11, 1)])), (2, (1, [(9, 1), (14, 2), (17, 1)])), (3, (1, [(17, 1)])), (4, (1, [(14, 2), (15, 2), (17, 1)]))] 1 [((1, [(9, 1)]), (1, [(4, 1)])), ((1, [(11, 1)]), (1, [(5, 1)])), ((1, [(14, 2), (17, 1)]), (1, [(6, 1), (9, 1)])), ((1, [(17, 1)]), (1, [(7, 1)])), ((1, [(14, 2), (15, 2), (17, 1)]), (1, [(8, 1)]))],
  .sub,
  .early [(0, (1, [(9, 1)])), (2, (1, [(9, 1), (12, 2), (13, 1)])), (3, (1, [(13, 1)])), (4, (1, [(15, 1)]))] 9 [((1, [(9, 1)]), (1, [(4, 1)])), ((1, [(12, 2), (13, 1)]), (1, [(6, 1), (9, 1)])), ((1, [(13, 1)]), (1, [(7, 1)])), ((1, [(15, 1)]), (1, [(8, 1)]))],
  .sub,
  .sub,
  .early [(1, (1, [(9, 1)])), (3, (1, [(13, 1)])), (4, (1, [(11, 2), (13, 1)]))] 19 [((1, [(9, 1)]), (1, [(5, 1)])), ((1, [(13, 1)]), (1, [(7, 1)])), ((1, [(11, 2), (13, 1)]), (1, [(8, 1)]))],
  .sub]

theorem pairs27_ok : pairsOk 27 pairs27 = true := by decide +kernel

/-- The classes before class 28. -/
def pairs28 : List Pair := [
  .no [(0, (1, [(9, 1)])), (1, (1, [(11, 1)])), (2, (1, [(9, 1), (13, 1)])), (3, (1, [(15, 1)])), (4, (1, [(17, 1)]))] 0 (1, [(8, 1), (13, 2), (21, 2)]),
  .no [(0, (1, [(9, 1)])), (1, (1, [(11, 1)])), (2, (1, [(9, 1), (14, 2), (17, 1)])), (3, (1, [(17, 1)])), (4, (1, [(14, 2), (15, 2), (17, 1)]))] 0 (1, [(8, 1), (14, 4), (17, 2), (19, 2)]),
  .no [(0, (1, [(9, 1)])), (2, (1, [(9, 1), (11, 1)])), (3, (1, [(13, 1)])), (4, (1, [(15, 1)]))] 0 (1, [(8, 1), (11, 2), (19, 2)]),
  .no [(0, (1, [(9, 1)])), (2, (1, [(9, 1), (12, 2), (13, 1)])), (3, (1, [(13, 1)])), (4, (1, [(3, 1), (12, 2), (13, 1), (15, 1)]))] 0 (1, [(8, 1), (12, 4), (13, 2), (15, 2)]),
  .sub,
  .early [(1, (1, [(9, 1)])), (3, (1, [(11, 1)])), (4, (1, [(13, 1)]))] 18 [((1, [(9, 1)]), (1, [(5, 1)])), ((1, [(13, 1), (18, 2)]), (1, [(8, 1), (17, 2)])), ((1, [(11, 1)]), (1, [(7, 1)])), ((1, [(13, 1)]), (1, [(8, 1)]))],
  .early [(1, (1, [(9, 1)])), (3, (1, [(13, 1)])), (4, (1, [(11, 2), (13, 1)]))] 18 [((1, [(9, 1)]), (1, [(5, 1)])), ((1, [(11, 2), (13, 1), (16, 2)]), (1, [(8, 1), (15, 2)])), ((1, [(13, 1)]), (1, [(7, 1)])), ((1, [(11, 2), (13, 1)]), (1, [(8, 1)]))],
  .sub,
  .early [(3, (1, [(9, 1)])), (4, (1, [(11, 1)]))] 26 [((1, [(11, 1), (16, 2)]), (1, [(8, 1), (15, 2)])), ((1, [(9, 1)]), (1, [(7, 1)])), ((1, [(11, 1)]), (1, [(8, 1)]))]]

theorem pairs28_ok : pairsOk 28 pairs28 = true := by decide +kernel

/-- The classes before class 29. -/
def pairs29 : List Pair := [
  .no [(0, (1, [(9, 1)])), (1, (1, [(11, 1)])), (2, (1, [(9, 1), (13, 1)])), (3, (1, [(15, 1)])), (4, (1, [(17, 1)]))] 0 (1, [(7, 1), (13, 2), (19, 2)]),
  .no [(0, (1, [(9, 1)])), (1, (1, [(11, 1)])), (2, (1, [(9, 1), (16, 2), (19, 1)])), (3, (1, [(13, 2), (16, 2), (19, 1)])), (4, (1, [(19, 1)]))] 0 (1, [(7, 1), (16, 4), (17, 2), (19, 2)]),
  .no [(0, (1, [(9, 1)])), (2, (1, [(9, 1), (11, 1)])), (3, (1, [(13, 1)])), (4, (1, [(15, 1)]))] 0 (1, [(7, 1), (11, 2), (17, 2)]),
  .no [(0, (1, [(9, 1)])), (4, (1, [(15, 1)]))] 1 (1, [(12, 1), (13, 1)]),
  .sub,
  .early [(1, (1, [(9, 1)])), (3, (1, [(11, 1)])), (4, (1, [(13, 1)]))] 18 [((1, [(9, 1)]), (1, [(5, 1)])), ((1, [(11, 1), (16, 2)]), (1, [(7, 1), (15, 2)])), ((1, [(11, 1)]), (1, [(7, 1)])), ((1, [(13, 1)]), (1, [(8, 1)]))],
  .early [(1, (1, [(9, 1)])), (3, (1, [(12, 2), (15, 1)])), (4, (1, [(15, 1)]))] 18 [((1, [(9, 1)]), (1, [(5, 1)])), ((1, [(12, 2), (14, 2), (15, 1)]), (1, [(7, 1), (13, 2)])), ((1, [(12, 2), (15, 1)]), (1, [(7, 1)])), ((1, [(15, 1)]), (1, [(8, 1)]))],
  .sub,
  .early [(3, (1, [(9, 1)])), (4, (1, [(11, 1)]))] 26 [((1, [(9, 1), (14, 2)]), (1, [(7, 1), (13, 2)])), ((1, [(9, 1)]), (1, [(7, 1)])), ((1, [(11, 1)]), (1, [(8, 1)]))],
  .early [(3, (1, [(9, 1)])), (4, (1, [(9, 1), (11, 2), (14, 2)]))] 26 [((1, [(9, 1), (14, 2)]), (1, [(8, 1), (11, 2)])), ((1, [(9, 1)]), (1, [(7, 1)])), ((1, [(9, 1), (11, 2), (14, 2)]), (1, [(8, 1)]))]]

theorem pairs29_ok : pairsOk 29 pairs29 = true := by decide +kernel

/-- The classes before class 30. -/
def pairs30 : List Pair := [
  .no [(0, (1, [(9, 1)])), (1, (1, [(11, 1)])), (2, (1, [(9, 1), (13, 1)])), (3, (1, [(15, 1)])), (4, (1, [(17, 1)]))] 0 (1, [(8, 1), (15, 2), (21, 2)]),
  .no [(0, (1, [(9, 1)])), (1, (1, [(11, 1)])), (2, (1, [(17, 1)])), (3, (1, [(4, 1), (13, 2), (17, 1)])), (4, (1, [(4, 1), (15, 2), (17, 1)]))] 0 (1, [(4, 2), (8, 1), (13, 4), (17, 2), (19, 2)]),
  .no [(0, (1, [(9, 1)])), (2, (1, [(9, 1), (11, 1)])), (3, (1, [(13, 1)])), (4, (1, [(15, 1)]))] 0 (1, [(8, 1), (13, 2), (19, 2)]),
  .no [(0, (1, [(9, 1)])), (2, (1, [(13, 1)])), (3, (1, [(4, 1), (11, 2), (13, 1)])), (4, (1, [(3, 1), (4, 1), (11, 2), (13, 1), (15, 1)]))] 0 (1, [(4, 2), (8, 1), (11, 4), (13, 2), (15, 2)]),
  .no [(0, (2, [(0, 1), (12, 1), (17, 2)])), (1, (1, [(9, 1)])), (2, (1, [(17, 1)])), (3, (1, [(13, 1)])), (4, (1, [(15, 1)]))] 0 (1, [(4, 2), (12, 1), (17, 2)]),
  .no [(1, (1, [(9, 1)])), (2, (1, [(15, 1)])), (3, (1, [(11, 1)])), (4, (1, [(13, 1)]))] 0 (1, [(8, 1), (11, 2), (17, 2)]),
  .no [(1, (1, [(9, 1)])), (2, (1, [(13, 1)]))] 2 (1, [(12, 1), (15, 1)]),
  .no [(0, (2, [(0, 1), (10, 1), (15, 2)])), (2, (1, [(15, 1)])), (3, (1, [(11, 1)])), (4, (1, [(13, 1)]))] 0 (1, [(4, 2), (10, 1), (15, 2)]),
  .no [(2, (1, [(13, 1)])), (3, (1, [(9, 1)])), (4, (1, [(11, 1)]))] 0 (1, [(8, 1), (9, 2), (15, 2)]),
  .no [(0, (2, [(0, 1), (8, 1), (11, 2), (13, 2)])), (2, (1, [(13, 1)])), (3, (1, [(9, 1)])), (4, (1, [(3, 1), (4, 1), (11, 1), (13, 1)]))] 0 (1, [(4, 2), (8, 1), (11, 2), (13, 2)]),
  .no [(0, (2, [(0, 1), (7, 1), (9, 2), (13, 2)])), (2, (1, [(13, 1)])), (3, (1, [(2, 1), (4, 1), (9, 1), (13, 1)])), (4, (1, [(11, 1)]))] 0 (1, [(4, 2), (7, 1), (9, 2), (13, 2)])]

theorem pairs30_ok : pairsOk 30 pairs30 = true := by decide +kernel

/-- The classes before class 31. -/
def pairs31 : List Pair := [
  .sub,
  .sub,
  .sub,
  .sub,
  .sub,
  .sub,
  .sub,
  .sub,
  .sub,
  .sub,
  .sub,
  .sub]

theorem pairs31_ok : pairsOk 31 pairs31 = true := by decide +kernel

/-- The classes before class 32. -/
def pairs32 : List Pair := [
  .sub,
  .no [(0, (1, [(10, 1)])), (1, (1, [(12, 1)])), (2, (1, [(10, 1), (15, 1), (20, 1)])), (3, (3, [(15, 1), (17, 2), (20, 3)])), (4, (3, [(15, 1), (19, 2), (20, 3)])), (5, (3, [(10, 3), (15, 2), (17, 2), (19, 2)]))] 0 (1, [(15, 1), (20, 3)]),
  .early [(0, (1, [(10, 1)])), (1, (1, [(12, 1)]))] 3 [((1, [(10, 1)]), (1, [(4, 1)])), ((1, [(12, 1)]), (1, [(5, 1)])), ((1, [(18, 1)]), (1, [(1, 1)])), ((1, [(14, 1), (18, 1)]), (1, [(2, 1)])), ((1, [(16, 1), (18, 1)]), (1, [(3, 1)]))],
  .no [(0, (1, [(10, 1)])), (1, (1, [(12, 1)])), (2, (1, [(8, 1), (15, 1), (16, 2), (18, 2)])), (3, (1, [(4, 1), (8, 1), (15, 1), (18, 2)])), (4, (1, [(4, 1), (7, 1), (15, 1), (18, 2)])), (5, (1, [(15, 1)]))] 0 (1, [(4, 1), (8, 1), (15, 1), (16, 2), (18, 4)]),
  .no [(0, (1, [(10, 1)])), (1, (1, [(12, 1)])), (2, (1, [(8, 1), (15, 1), (20, 2)])), (3, (2, [(4, 1), (15, 1), (16, 2), (18, 2)])), (4, (2, [(4, 1), (15, 1), (17, 2), (18, 2)])), (5, (1, [(15, 1)]))] 0 (2, [(4, 1), (15, 1), (16, 2), (18, 2), (20, 4)]),
  .no [(0, (1, [(10, 1)])), (1, (1, [(12, 1)])), (2, (1, [(8, 1), (15, 1), (18, 2)])), (3, (1, [(4, 1), (8, 1), (15, 1), (16, 2)])), (4, (1, [(4, 1), (7, 1), (15, 1), (16, 2)])), (5, (1, [(15, 1)]))] 0 (1, [(4, 1), (8, 1), (15, 1), (16, 2), (18, 2)]),
  .sub,
  .no [(0, (1, [(10, 1)])), (2, (1, [(1, 2), (10, 1), (17, 1), (22, 2)])), (3, (1, [(2, 2), (17, 1), (22, 2)])), (4, (1, [(17, 1)])), (5, (1, [(1, 2), (2, 2), (10, 1), (17, 2), (22, 2)]))] 0 (1, [(17, 1), (22, 2)]),
  .early [(0, (1, [(10, 1)]))] 11 [((1, [(10, 1)]), (1, [(4, 1)])), ((1, [(12, 1)]), (1, [(1, 1)])), ((1, [(14, 1)]), (1, [(2, 1)])), ((1, [(20, 1)]), (1, [(3, 1)]))],
  .no [(0, (1, [(10, 1)])), (2, (1, [(10, 1), (13, 1)])), (3, (1, [(15, 1)])), (4, (1, [(3, 2), (13, 1), (18, 2)])), (5, (1, [(3, 2), (10, 1), (13, 1), (15, 1)]))] 0 (1, [(13, 1), (18, 2)]),
  .no [(0, (1, [(10, 1)])), (2, (1, [(8, 1), (13, 1), (14, 2), (16, 2)])), (3, (1, [(4, 1), (8, 1), (13, 1), (16, 2)])), (4, (1, [(4, 1), (7, 1), (13, 1), (16, 2)])), (5, (1, [(13, 1)]))] 0 (1, [(4, 1), (8, 1), (13, 1), (14, 2), (16, 4)]),
  .early [(0, (1, [(10, 1)]))] 11 [((1, [(10, 1)]), (1, [(4, 1)])), ((1, [(14, 1)]), (1, [(1, 1)])), ((1, [(12, 1), (14, 1)]), (1, [(2, 1)])), ((1, [(18, 1)]), (1, [(3, 1)]))],
  .no [(0, (1, [(10, 1)])), (2, (1, [(8, 1), (13, 1), (16, 2)])), (3, (1, [(4, 1), (8, 1), (13, 1), (14, 2)])), (4, (1, [(4, 1), (7, 1), (13, 1), (14, 2)])), (5, (1, [(13, 1)]))] 0 (1, [(4, 1), (8, 1), (13, 1), (14, 2), (16, 2)]),
  .sub,
  .no [(0, (1, [(0, 1), (13, 1), (18, 2)])), (1, (1, [(10, 1)])), (2, (1, [(13, 1)])), (3, (1, [(2, 2), (4, 1), (13, 1), (18, 2)])), (4, (1, [(3, 2), (4, 1), (13, 1), (18, 2)])), (5, (1, [(2, 2), (3, 2), (4, 1), (13, 2), (18, 2)]))] 0 (1, [(4, 1), (13, 1), (18, 2)]),
  .early [(1, (1, [(10, 1)]))] 21 [((1, [(10, 1)]), (1, [(5, 1)])), ((1, [(16, 1)]), (1, [(1, 1)])), ((1, [(12, 1)]), (1, [(2, 1)])), ((1, [(14, 1)]), (1, [(3, 1)]))],
  .no [(0, (1, [(7, 1), (8, 1), (13, 1), (18, 2)])), (1, (1, [(10, 1)])), (2, (2, [(4, 1), (13, 3), (14, 2), (16, 2), (18, 2)])), (3, (6, [(4, 3), (13, 3), (15, 2), (16, 2), (18, 6)])), (4, (6, [(4, 3), (13, 3), (14, 2), (17, 2), (18, 6)])), (5, (1, [(13, 1)]))] 0 (2, [(4, 3), (13, 3), (14, 2), (16, 2), (18, 6)]),
  .early [(1, (1, [(10, 1)]))] 21 [((1, [(10, 1)]), (1, [(5, 1)])), ((1, [(14, 1)]), (1, [(1, 1)])), ((1, [(16, 1)]), (1, [(2, 1)])), ((1, [(12, 1), (16, 1)]), (1, [(3, 1)]))]]

theorem pairs32_ok : pairsOk 32 pairs32 = true := by decide +kernel

/-- The classes before class 40. -/
def pairs40 : List Pair := [
  .no [(0, (1, [(10, 1)])), (1, (1, [(12, 1)])), (2, (1, [(21, 1)])), (3, (1, [(2, 2), (4, 1), (14, 2), (21, 1)])), (4, (1, [(3, 2), (4, 1), (14, 2), (21, 1)])), (5, (1, [(2, 2), (3, 2), (4, 1), (14, 2), (21, 2)]))] 0 (1, [(4, 1), (14, 2), (21, 1)]),
  .no [(0, (1, [(10, 1)])), (1, (1, [(12, 1)])), (2, (1, [(21, 1)])), (3, (3, [(4, 3), (14, 2), (17, 2), (21, 3)])), (4, (3, [(4, 3), (14, 2), (19, 2), (21, 3)])), (5, (3, [(10, 3), (15, 2), (17, 2), (19, 2)]))] 0 (1, [(4, 3), (14, 2), (21, 3)]),
  .no [(0, (1, [(10, 1)])), (1, (1, [(12, 1)])), (2, (1, [(19, 1)])), (3, (1, [(4, 1), (15, 2), (19, 1)])), (4, (1, [(4, 1), (17, 2), (19, 1)])), (5, (1, [(3, 2), (4, 1), (15, 2), (19, 2)]))] 0 (1, [(4, 2), (9, 1), (15, 2), (17, 2), (19, 3)]),
  .no [(0, (1, [(10, 1)])), (1, (1, [(12, 1)])), (2, (1, [(19, 1)])), (3, (1, [(4, 1), (17, 2), (19, 1)])), (4, (1, [(6, 1), (15, 1), (20, 2)])), (5, (1, [(15, 1)]))] 0 (1, [(4, 1), (8, 1), (15, 1), (17, 2), (20, 4)]),
  .no [(0, (1, [(10, 1)])), (1, (1, [(12, 1)])), (2, (1, [(19, 1)])), (3, (1, [(6, 1), (15, 1), (16, 2), (20, 2)])), (4, (1, [(6, 1), (15, 1), (20, 2)])), (5, (1, [(15, 1)]))] 0 (1, [(6, 1), (15, 1), (16, 2), (20, 4)]),
  .no [(0, (1, [(10, 1)])), (1, (1, [(12, 1)])), (2, (1, [(17, 1)])), (3, (1, [(6, 1), (15, 1), (20, 2)])), (4, (1, [(6, 1), (15, 1), (18, 2)])), (5, (1, [(15, 1)]))] 0 (1, [(6, 1), (15, 1), (18, 2), (20, 2)]),
  .no [(0, (1, [(10, 1)])), (2, (1, [(19, 1)])), (3, (1, [(2, 2), (4, 1), (12, 2), (19, 1)])), (4, (1, [(3, 2), (4, 1), (12, 2), (19, 1)])), (5, (1, [(2, 2), (3, 2), (4, 1), (12, 2), (19, 2)]))] 0 (1, [(4, 1), (12, 2), (19, 1)]),
  .no [(0, (1, [(10, 1)])), (2, (1, [(19, 1)])), (3, (1, [(2, 2), (4, 1), (12, 2), (19, 1)])), (4, (1, [(17, 1)])), (5, (1, [(2, 2), (17, 1), (19, 1)]))] 0 (1, [(4, 1), (12, 2), (19, 1)]),
  .no [(0, (1, [(10, 1)])), (2, (1, [(17, 1)])), (3, (1, [(2, 2), (4, 1), (12, 2), (17, 1)])), (4, (1, [(3, 2), (4, 1), (12, 2), (17, 1)])), (5, (1, [(2, 2), (3, 2), (4, 1), (12, 2), (17, 2)]))] 0 (1, [(4, 1), (12, 2), (17, 1)]),
  .no [(0, (1, [(10, 1)])), (2, (1, [(10, 1), (13, 1)])), (3, (1, [(15, 1)])), (4, (1, [(3, 2), (15, 1), (20, 2)])), (5, (1, [(3, 2), (10, 1), (13, 1), (15, 1)]))] 0 (1, [(15, 1), (20, 2)]),
  .no [(0, (1, [(10, 1)])), (2, (1, [(17, 1)])), (3, (1, [(4, 1), (15, 2), (17, 1)])), (4, (1, [(6, 1), (13, 1), (18, 2)])), (5, (1, [(13, 1)]))] 0 (1, [(4, 1), (8, 1), (13, 1), (15, 2), (18, 4)]),
  .no [(0, (1, [(10, 1)])), (2, (1, [(15, 1)])), (3, (1, [(4, 1), (13, 2), (15, 1)])), (4, (1, [(3, 2), (4, 1), (13, 2), (15, 1), (16, 2)])), (5, (1, [(3, 2), (4, 1), (13, 2), (15, 2)]))] 0 (1, [(4, 1), (13, 2), (15, 1), (16, 2)]),
  .no [(0, (1, [(10, 1)])), (2, (1, [(15, 1)])), (3, (1, [(6, 1), (13, 1), (18, 2)])), (4, (1, [(6, 1), (13, 1), (16, 2)])), (5, (1, [(13, 1)]))] 0 (1, [(6, 1), (13, 1), (16, 2), (18, 2)]),
  .no [(0, (1, [(0, 1), (12, 2), (19, 1)])), (1, (1, [(10, 1)])), (2, (1, [(19, 1)])), (3, (1, [(2, 2), (4, 1), (12, 2), (19, 1)])), (4, (1, [(3, 2), (4, 1), (12, 2), (19, 1)])), (5, (1, [(2, 2), (3, 2), (4, 1), (12, 2), (19, 2)]))] 0 (1, [(4, 1), (12, 2), (19, 1)]),
  .sub,
  .early [(1, (1, [(10, 1)])), (2, (1, [(17, 1)]))] 22 [((1, [(10, 1)]), (1, [(5, 1)])), ((1, [(6, 1)]), (1, [(17, 1)])), ((1, [(12, 1)]), (1, [(2, 1)])), ((1, [(14, 1)]), (1, [(3, 1)]))],
  .no [(1, (1, [(10, 1)])), (2, (1, [(19, 1)])), (3, (3, [(9, 3), (15, 4), (17, 2), (19, 3)])), (4, (3, [(9, 3), (15, 2), (17, 4), (19, 3)])), (5, (1, [(13, 1)]))] 0 (1, [(9, 3), (15, 2), (17, 2), (19, 3)]),
  .early [(1, (1, [(10, 1)])), (2, (1, [(15, 1)]))] 22 [((1, [(10, 1)]), (1, [(5, 1)])), ((1, [(6, 1)]), (1, [(15, 1)])), ((1, [(16, 1)]), (1, [(2, 1)])), ((1, [(12, 1), (16, 1)]), (1, [(3, 1)]))],
  .no [(0, (1, [(0, 1), (10, 2), (17, 1)])), (2, (1, [(17, 1)])), (3, (1, [(2, 2), (4, 1), (10, 2), (17, 1)])), (4, (1, [(3, 2), (4, 1), (10, 2), (17, 1)])), (5, (1, [(2, 2), (3, 2), (4, 1), (10, 2), (17, 2)]))] 0 (1, [(4, 1), (10, 2), (17, 1)])]

theorem pairs40_ok : pairsOk 40 pairs40 = true := by decide +kernel

/-- The classes before class 35. -/
def pairs35 : List Pair := [
  .sub,
  .no [(0, (1, [(10, 1)])), (1, (1, [(12, 1)])), (2, (3, [(10, 3), (15, 2), (17, 1), (20, 3)])), (3, (1, [(17, 1), (20, 1)])), (4, (3, [(17, 1), (19, 2), (20, 3)])), (5, (3, [(10, 3), (15, 2), (17, 2), (19, 2)]))] 0 (1, [(17, 1), (20, 3)]),
  .early [(0, (1, [(10, 1)])), (1, (1, [(12, 1)]))] 3 [((1, [(10, 1)]), (1, [(4, 1)])), ((1, [(12, 1)]), (1, [(5, 1)])), ((1, [(15, 1), (18, 1)]), (1, [(1, 1)])), ((1, [(18, 1)]), (1, [(2, 1)])), ((1, [(15, 1), (16, 1), (18, 1)]), (1, [(3, 1)]))],
  .no [(0, (1, [(10, 1)])), (1, (1, [(12, 1)])), (2, (1, [(8, 1), (15, 1), (18, 2)])), (3, (1, [(4, 1), (8, 1), (15, 1), (17, 2), (18, 2)])), (4, (1, [(6, 1), (15, 1), (18, 2)])), (5, (1, [(15, 1)]))] 0 (1, [(4, 1), (8, 1), (15, 1), (17, 2), (18, 4)]),
  .no [(0, (1, [(10, 1)])), (1, (1, [(12, 1)])), (2, (1, [(8, 1), (15, 1), (18, 2)])), (3, (1, [(6, 1), (15, 1), (16, 2), (18, 2)])), (4, (1, [(6, 1), (15, 1), (18, 2)])), (5, (1, [(15, 1)]))] 0 (1, [(6, 1), (15, 1), (16, 2), (18, 4)]),
  .no [(0, (1, [(10, 1)])), (1, (1, [(12, 1)])), (2, (1, [(8, 1), (15, 1), (16, 2)])), (3, (1, [(6, 1), (15, 1), (18, 2)])), (4, (1, [(6, 1), (15, 1), (16, 2)])), (5, (1, [(15, 1)]))] 0 (1, [(6, 1), (15, 1), (16, 2), (18, 2)]),
  .sub,
  .no [(0, (1, [(10, 1)])), (2, (1, [(1, 2), (10, 1), (17, 1), (20, 2)])), (3, (1, [(2, 2), (17, 1), (20, 2)])), (4, (1, [(17, 1)])), (5, (1, [(1, 2), (2, 2), (10, 1), (17, 2), (20, 2)]))] 0 (1, [(17, 1), (20, 2)]),
  .early [(0, (1, [(10, 1)]))] 11 [((1, [(10, 1)]), (1, [(4, 1)])), ((1, [(12, 1)]), (1, [(1, 1)])), ((1, [(14, 1)]), (1, [(2, 1)])), ((1, [(18, 1)]), (1, [(3, 1)]))],
  .no [(0, (1, [(10, 1)])), (2, (1, [(10, 1), (13, 1)])), (3, (1, [(15, 1)])), (4, (1, [(3, 2), (15, 1), (18, 2)])), (5, (1, [(3, 2), (10, 1), (13, 1), (15, 1)]))] 0 (1, [(15, 1), (18, 2)]),
  .no [(0, (1, [(10, 1)])), (2, (1, [(8, 1), (13, 1), (16, 2)])), (3, (1, [(4, 1), (8, 1), (13, 1), (15, 2), (16, 2)])), (4, (1, [(6, 1), (13, 1), (16, 2)])), (5, (1, [(13, 1)]))] 0 (1, [(4, 1), (8, 1), (13, 1), (15, 2), (16, 4)]),
  .early [(0, (1, [(10, 1)]))] 11 [((1, [(10, 1)]), (1, [(4, 1)])), ((1, [(13, 1), (14, 1)]), (1, [(1, 1)])), ((1, [(14, 1)]), (1, [(2, 1)])), ((1, [(16, 1)]), (1, [(3, 1)]))],
  .no [(0, (1, [(10, 1)])), (2, (1, [(8, 1), (13, 1), (14, 2)])), (3, (1, [(6, 1), (13, 1), (16, 2)])), (4, (1, [(6, 1), (13, 1), (14, 2)])), (5, (1, [(13, 1)]))] 0 (1, [(6, 1), (13, 1), (14, 2), (16, 2)]),
  .sub,
  .sub,
  .sub,
  .no [(1, (1, [(10, 1)])), (2, (3, [(13, 3), (14, 1), (16, 2), (18, 3)])), (3, (1, [(15, 1), (18, 1)])), (4, (1, [(6, 1), (13, 1), (18, 2)])), (5, (1, [(13, 1)]))] 0 (1, [(6, 3), (13, 3), (16, 2), (18, 6)]),
  .early [(1, (1, [(10, 1)]))] 23 [((1, [(10, 1)]), (1, [(5, 1)])), ((1, [(14, 1)]), (1, [(2, 1)])), ((1, [(12, 1), (14, 1)]), (1, [(3, 1)]))],
  .sub,
  .sub]

theorem pairs35_ok : pairsOk 35 pairs35 = true := by decide +kernel

/-- The classes before class 36. -/
def pairs36 : List Pair := [
  .no [(0, (1, [(10, 1)])), (1, (1, [(12, 1)])), (2, (1, [(1, 2), (10, 1), (16, 2), (23, 1)])), (3, (1, [(23, 1)])), (4, (1, [(3, 2), (16, 2), (23, 1)])), (5, (1, [(1, 2), (3, 2), (10, 1), (16, 2), (23, 2)]))] 0 (1, [(16, 2), (23, 1)]),
  .no [(0, (1, [(10, 1)])), (1, (1, [(12, 1)])), (2, (1, [(10, 1), (15, 1), (20, 1)])), (3, (3, [(15, 1), (17, 2), (20, 3)])), (4, (3, [(15, 1), (19, 2), (20, 3)])), (5, (3, [(10, 3), (15, 2), (17, 2), (19, 2)]))] 0 (1, [(15, 1), (20, 3)]),
  .no [(0, (1, [(10, 1)])), (1, (1, [(12, 1)])), (2, (1, [(10, 1), (14, 2), (21, 1)])), (3, (1, [(21, 1)])), (4, (1, [(14, 2), (17, 2), (21, 1)])), (5, (1, [(3, 2), (10, 1), (14, 2), (21, 2)]))] 0 (1, [(14, 2), (18, 2), (21, 1)]),
  .no [(0, (1, [(10, 1)])), (1, (1, [(12, 1)])), (2, (1, [(8, 1), (15, 1), (16, 2), (18, 2)])), (3, (1, [(4, 1), (8, 1), (15, 1), (18, 2)])), (4, (1, [(4, 1), (7, 1), (15, 1), (18, 2)])), (5, (1, [(15, 1)]))] 0 (1, [(4, 1), (8, 1), (15, 1), (16, 2), (18, 4)]),
  .no [(0, (1, [(10, 1)])), (1, (1, [(12, 1)])), (2, (1, [(7, 1), (15, 1), (22, 2)])), (3, (2, [(4, 1), (15, 1), (16, 2), (18, 2)])), (4, (2, [(4, 1), (15, 1), (17, 2), (18, 2)])), (5, (1, [(15, 1)]))] 0 (1, [(4, 1), (7, 1), (15, 1), (18, 2), (22, 2)]),
  .no [(0, (1, [(10, 1)])), (1, (1, [(12, 1)])), (2, (1, [(7, 1), (15, 1), (20, 2)])), (3, (1, [(4, 1), (8, 1), (15, 1), (16, 2)])), (4, (1, [(4, 1), (7, 1), (15, 1), (16, 2)])), (5, (1, [(15, 1)]))] 0 (1, [(4, 1), (7, 1), (15, 1), (16, 2), (20, 2)]),
  .no [(0, (1, [(10, 1)])), (2, (1, [(1, 2), (10, 1), (14, 2), (21, 1)])), (3, (1, [(21, 1)])), (4, (1, [(3, 2), (14, 2), (21, 1)])), (5, (1, [(1, 2), (3, 2), (10, 1), (14, 2), (21, 2)]))] 0 (1, [(14, 2), (21, 1)]),
  .no [(0, (1, [(10, 1)])), (2, (1, [(1, 2), (10, 1), (14, 2), (21, 1)])), (3, (1, [(21, 1)])), (4, (1, [(17, 1)])), (5, (1, [(1, 2), (10, 1), (17, 1), (21, 1)]))] 0 (1, [(14, 2), (21, 1)]),
  .no [(0, (1, [(10, 1)])), (2, (1, [(1, 2), (10, 1), (14, 2), (19, 1)])), (3, (1, [(19, 1)])), (4, (1, [(3, 2), (14, 2), (19, 1)])), (5, (1, [(1, 2), (3, 2), (10, 1), (14, 2), (19, 2)]))] 0 (1, [(14, 2), (19, 1)]),
  .no [(0, (1, [(10, 1)])), (2, (1, [(10, 1), (13, 1)])), (3, (1, [(15, 1)])), (4, (1, [(3, 2), (13, 1), (18, 2)])), (5, (1, [(3, 2), (10, 1), (13, 1), (15, 1)]))] 0 (1, [(13, 1), (18, 2)]),
  .no [(0, (1, [(10, 1)])), (2, (1, [(8, 1), (13, 1), (14, 2), (16, 2)])), (3, (1, [(4, 1), (8, 1), (13, 1), (16, 2)])), (4, (1, [(4, 1), (7, 1), (13, 1), (16, 2)])), (5, (1, [(13, 1)]))] 0 (1, [(4, 1), (8, 1), (13, 1), (14, 2), (16, 4)]),
  .no [(0, (1, [(10, 1)])), (2, (1, [(10, 1), (12, 2), (17, 1)])), (3, (1, [(17, 1)])), (4, (1, [(3, 2), (12, 2), (14, 2), (17, 1)])), (5, (1, [(3, 2), (10, 1), (12, 2), (17, 2)]))] 0 (1, [(12, 2), (14, 2), (17, 1)]),
  .no [(0, (1, [(10, 1)])), (2, (1, [(7, 1), (13, 1), (18, 2)])), (3, (1, [(4, 1), (8, 1), (13, 1), (14, 2)])), (4, (1, [(4, 1), (7, 1), (13, 1), (14, 2)])), (5, (1, [(13, 1)]))] 0 (1, [(4, 1), (7, 1), (13, 1), (14, 2), (18, 2)]),
  .no [(1, (1, [(10, 1)])), (3, (1, [(21, 1)])), (4, (1, [(3, 2), (14, 2), (21, 1)]))] 0 (1, [(14, 2), (21, 1)]),
  .no [(0, (1, [(0, 1), (13, 1), (18, 2)])), (1, (1, [(10, 1)])), (2, (1, [(13, 1)])), (3, (1, [(2, 2), (4, 1), (13, 1), (18, 2)])), (4, (1, [(3, 2), (4, 1), (13, 1), (18, 2)])), (5, (1, [(2, 2), (3, 2), (4, 1), (13, 2), (18, 2)]))] 0 (1, [(4, 1), (13, 1), (18, 2)]),
  .no [(1, (1, [(10, 1)])), (3, (1, [(19, 1)])), (4, (1, [(3, 2), (12, 2), (19, 1)]))] 0 (1, [(12, 2), (19, 1)]),
  .no [(0, (1, [(7, 1), (8, 1), (13, 1), (18, 2)])), (1, (1, [(10, 1)])), (2, (2, [(4, 1), (13, 3), (14, 2), (16, 2), (18, 2)])), (3, (6, [(4, 3), (13, 3), (15, 2), (16, 2), (18, 6)])), (4, (6, [(4, 3), (13, 3), (14, 2), (17, 2), (18, 6)])), (5, (1, [(13, 1)]))] 0 (2, [(4, 3), (13, 3), (14, 2), (16, 2), (18, 6)]),
  .no [(1, (1, [(10, 1)])), (3, (1, [(17, 1)])), (4, (1, [(13, 2), (17, 1)]))] 0 (1, [(13, 2), (17, 1), (18, 2)]),
  .no [(3, (1, [(19, 1)])), (4, (1, [(3, 2), (12, 2), (19, 1)]))] 0 (1, [(12, 2), (19, 1)]),
  .no [(0, (1, [(0, 1), (11, 1), (16, 2)])), (2, (1, [(11, 1)])), (3, (1, [(2, 2), (4, 1), (11, 1), (16, 2)])), (4, (1, [(3, 2), (4, 1), (11, 1), (16, 2)])), (5, (1, [(2, 2), (3, 2), (4, 1), (11, 2), (16, 2)]))] 0 (1, [(4, 1), (11, 1), (16, 2)]),
  .no [(3, (1, [(17, 1)])), (4, (1, [(3, 2), (10, 2), (17, 1)]))] 0 (1, [(10, 2), (17, 1)])]

theorem pairs36_ok : pairsOk 36 pairs36 = true := by decide +kernel

/-- The classes before class 33. -/
def pairs33 : List Pair := [
  .sub,
  .no [(0, (1, [(10, 1)])), (1, (1, [(12, 1)])), (2, (1, [(10, 1), (15, 1), (20, 1)])), (3, (3, [(15, 1), (17, 2), (20, 3)])), (4, (3, [(15, 1), (19, 2), (20, 3)])), (5, (3, [(10, 3), (15, 2), (17, 2), (19, 2)]))] 0 (1, [(15, 1), (20, 3)]),
  .early [(0, (1, [(10, 1)])), (1, (1, [(12, 1)]))] 3 [((1, [(10, 1)]), (1, [(4, 1)])), ((1, [(12, 1)]), (1, [(5, 1)])), ((1, [(18, 1)]), (1, [(1, 1)])), ((1, [(14, 1), (18, 1)]), (1, [(2, 1)])), ((1, [(16, 1), (18, 1)]), (1, [(3, 1)]))],
  .no [(0, (1, [(10, 1)])), (1, (1, [(12, 1)])), (2, (1, [(8, 1), (15, 1), (16, 2), (18, 2)])), (3, (1, [(4, 1), (8, 1), (15, 1), (18, 2)])), (4, (1, [(4, 1), (7, 1), (15, 1), (18, 2)])), (5, (1, [(15, 1)]))] 0 (1, [(4, 1), (8, 1), (15, 1), (16, 2), (18, 4)]),
  .no [(0, (1, [(10, 1)])), (1, (1, [(12, 1)])), (2, (1, [(7, 1), (15, 1), (20, 2)])), (3, (2, [(4, 1), (15, 1), (16, 2), (18, 2)])), (4, (2, [(4, 1), (15, 1), (17, 2), (18, 2)])), (5, (1, [(15, 1)]))] 0 (1, [(4, 1), (7, 1), (15, 1), (18, 2), (20, 2)]),
  .no [(0, (1, [(10, 1)])), (1, (1, [(12, 1)])), (2, (1, [(7, 1), (15, 1), (18, 2)])), (3, (1, [(4, 1), (8, 1), (15, 1), (16, 2)])), (4, (1, [(4, 1), (7, 1), (15, 1), (16, 2)])), (5, (1, [(15, 1)]))] 0 (1, [(4, 1), (7, 1), (15, 1), (16, 2), (18, 2)]),
  .sub,
  .no [(0, (1, [(10, 1)])), (2, (1, [(1, 2), (10, 1), (17, 1), (20, 2)])), (3, (1, [(2, 2), (17, 1), (20, 2)])), (4, (1, [(17, 1)])), (5, (1, [(1, 2), (2, 2), (10, 1), (17, 2), (20, 2)]))] 0 (1, [(17, 1), (20, 2)]),
  .early [(0, (1, [(10, 1)]))] 11 [((1, [(10, 1)]), (1, [(4, 1)])), ((1, [(12, 1)]), (1, [(1, 1)])), ((1, [(14, 1)]), (1, [(2, 1)])), ((1, [(18, 1)]), (1, [(3, 1)]))],
  .no [(0, (1, [(10, 1)])), (2, (1, [(10, 1), (13, 1)])), (3, (1, [(15, 1)])), (4, (1, [(3, 2), (13, 1), (18, 2)])), (5, (1, [(3, 2), (10, 1), (13, 1), (15, 1)]))] 0 (1, [(13, 1), (18, 2)]),
  .no [(0, (1, [(10, 1)])), (2, (1, [(8, 1), (13, 1), (14, 2), (16, 2)])), (3, (1, [(4, 1), (8, 1), (13, 1), (16, 2)])), (4, (1, [(4, 1), (7, 1), (13, 1), (16, 2)])), (5, (1, [(13, 1)]))] 0 (1, [(4, 1), (8, 1), (13, 1), (14, 2), (16, 4)]),
  .early [(0, (1, [(10, 1)]))] 11 [((1, [(10, 1)]), (1, [(4, 1)])), ((1, [(14, 1)]), (1, [(1, 1)])), ((1, [(12, 1), (14, 1)]), (1, [(2, 1)])), ((1, [(16, 1)]), (1, [(3, 1)]))],
  .no [(0, (1, [(10, 1)])), (2, (1, [(7, 1), (13, 1), (16, 2)])), (3, (1, [(4, 1), (8, 1), (13, 1), (14, 2)])), (4, (1, [(4, 1), (7, 1), (13, 1), (14, 2)])), (5, (1, [(13, 1)]))] 0 (1, [(4, 1), (7, 1), (13, 1), (14, 2), (16, 2)]),
  .sub,
  .no [(0, (1, [(0, 1), (13, 1), (18, 2)])), (1, (1, [(10, 1)])), (2, (1, [(13, 1)])), (3, (1, [(2, 2), (4, 1), (13, 1), (18, 2)])), (4, (1, [(3, 2), (4, 1), (13, 1), (18, 2)])), (5, (1, [(2, 2), (3, 2), (4, 1), (13, 2), (18, 2)]))] 0 (1, [(4, 1), (13, 1), (18, 2)]),
  .early [(1, (1, [(10, 1)]))] 21 [((1, [(10, 1)]), (1, [(5, 1)])), ((1, [(16, 1)]), (1, [(1, 1)])), ((1, [(12, 1)]), (1, [(2, 1)])), ((1, [(14, 1)]), (1, [(3, 1)]))],
  .no [(0, (1, [(7, 1), (8, 1), (13, 1), (18, 2)])), (1, (1, [(10, 1)])), (2, (2, [(4, 1), (13, 3), (14, 2), (16, 2), (18, 2)])), (3, (6, [(4, 3), (13, 3), (15, 2), (16, 2), (18, 6)])), (4, (6, [(4, 3), (13, 3), (14, 2), (17, 2), (18, 6)])), (5, (1, [(13, 1)]))] 0 (2, [(4, 3), (13, 3), (14, 2), (16, 2), (18, 6)]),
  .early [(1, (1, [(10, 1)]))] 21 [((1, [(10, 1)]), (1, [(5, 1)])), ((1, [(14, 1)]), (1, [(1, 1)])), ((1, [(13, 1), (16, 1)]), (1, [(2, 1)])), ((1, [(16, 1)]), (1, [(3, 1)]))],
  .sub,
  .no [(0, (1, [(0, 1), (11, 1), (16, 2)])), (2, (1, [(11, 1)])), (3, (1, [(2, 2), (4, 1), (11, 1), (16, 2)])), (4, (1, [(3, 2), (4, 1), (11, 1), (16, 2)])), (5, (1, [(2, 2), (3, 2), (4, 1), (11, 2), (16, 2)]))] 0 (1, [(4, 1), (11, 1), (16, 2)]),
  .early [] 32 [((1, [(14, 1)]), (1, [(1, 1)])), ((1, [(10, 1)]), (1, [(2, 1)])), ((1, [(12, 1)]), (1, [(3, 1)]))],
  .sub]

theorem pairs33_ok : pairsOk 33 pairs33 = true := by decide +kernel

/-- The classes before class 38. -/
def pairs38 : List Pair := [
  .no [(0, (1, [(10, 1)])), (1, (1, [(12, 1)])), (2, (1, [(1, 2), (10, 1), (18, 2), (25, 1)])), (3, (1, [(2, 2), (18, 2), (25, 1)])), (4, (1, [(25, 1)])), (5, (1, [(1, 2), (2, 2), (10, 1), (18, 2), (25, 2)]))] 0 (1, [(18, 2), (25, 1)]),
  .no [(0, (1, [(10, 1)])), (1, (1, [(12, 1)])), (2, (1, [(10, 1), (15, 1), (20, 1)])), (3, (3, [(15, 1), (17, 2), (20, 3)])), (4, (3, [(15, 1), (19, 2), (20, 3)])), (5, (3, [(10, 3), (15, 2), (17, 2), (19, 2)]))] 0 (1, [(15, 1), (20, 3)]),
  .no [(0, (1, [(10, 1)])), (1, (1, [(12, 1)])), (2, (1, [(10, 1), (16, 2), (23, 1)])), (3, (1, [(15, 2), (16, 2), (23, 1)])), (4, (1, [(23, 1)])), (5, (1, [(2, 2), (10, 1), (16, 2), (23, 2)]))] 0 (1, [(16, 2), (18, 2), (23, 1)]),
  .no [(0, (1, [(10, 1)])), (1, (1, [(12, 1)])), (2, (1, [(8, 1), (15, 1), (16, 2), (18, 2)])), (3, (1, [(4, 1), (8, 1), (15, 1), (18, 2)])), (4, (1, [(4, 1), (7, 1), (15, 1), (18, 2)])), (5, (1, [(15, 1)]))] 0 (1, [(4, 1), (8, 1), (15, 1), (16, 2), (18, 4)]),
  .no [(0, (1, [(10, 1)])), (1, (1, [(12, 1)])), (2, (1, [(8, 1), (15, 1), (20, 2)])), (3, (2, [(4, 1), (15, 1), (16, 2), (18, 2)])), (4, (2, [(4, 1), (15, 1), (17, 2), (18, 2)])), (5, (1, [(15, 1)]))] 0 (2, [(4, 1), (15, 1), (16, 2), (18, 2), (20, 4)]),
  .no [(0, (1, [(10, 1)])), (1, (1, [(12, 1)])), (2, (1, [(8, 1), (15, 1), (18, 2)])), (3, (1, [(4, 1), (8, 1), (15, 1), (16, 2)])), (4, (1, [(4, 1), (7, 1), (15, 1), (16, 2)])), (5, (1, [(15, 1)]))] 0 (1, [(4, 1), (8, 1), (15, 1), (16, 2), (18, 2)]),
  .no [(0, (1, [(10, 1)])), (2, (1, [(1, 2), (10, 1), (16, 2), (23, 1)])), (3, (1, [(2, 2), (16, 2), (23, 1)])), (4, (1, [(23, 1)])), (5, (1, [(1, 2), (2, 2), (10, 1), (16, 2), (23, 2)]))] 0 (1, [(16, 2), (23, 1)]),
  .sub,
  .early [(0, (1, [(10, 1)])), (4, (1, [(21, 1)]))] 12 [((1, [(10, 1)]), (1, [(4, 1)])), ((1, [(12, 1)]), (1, [(1, 1)])), ((1, [(14, 1)]), (1, [(2, 1)])), ((1, [(8, 1)]), (1, [(21, 1)]))],
  .no [(0, (1, [(10, 1)])), (2, (1, [(10, 1), (13, 1)])), (3, (1, [(15, 1)])), (4, (1, [(3, 2), (13, 1), (18, 2)])), (5, (1, [(3, 2), (10, 1), (13, 1), (15, 1)]))] 0 (1, [(13, 1), (18, 2)]),
  .no [(0, (1, [(10, 1)])), (2, (1, [(8, 1), (13, 1), (14, 2), (16, 2)])), (3, (1, [(4, 1), (8, 1), (13, 1), (16, 2)])), (4, (1, [(4, 1), (7, 1), (13, 1), (16, 2)])), (5, (1, [(13, 1)]))] 0 (1, [(4, 1), (8, 1), (13, 1), (14, 2), (16, 4)]),
  .early [(0, (1, [(10, 1)])), (4, (1, [(19, 1)]))] 12 [((1, [(10, 1)]), (1, [(4, 1)])), ((1, [(14, 1)]), (1, [(1, 1)])), ((1, [(12, 1), (14, 1)]), (1, [(2, 1)])), ((1, [(8, 1)]), (1, [(19, 1)]))],
  .no [(0, (1, [(10, 1)])), (2, (1, [(8, 1), (13, 1), (16, 2)])), (3, (1, [(4, 1), (8, 1), (13, 1), (14, 2)])), (4, (1, [(4, 1), (7, 1), (13, 1), (14, 2)])), (5, (1, [(13, 1)]))] 0 (1, [(4, 1), (8, 1), (13, 1), (14, 2), (16, 2)]),
  .no [(1, (1, [(10, 1)])), (3, (1, [(2, 2), (16, 2), (23, 1)])), (4, (1, [(23, 1)]))] 0 (1, [(16, 2), (23, 1)]),
  .no [(0, (1, [(0, 1), (13, 1), (18, 2)])), (1, (1, [(10, 1)])), (2, (1, [(13, 1)])), (3, (1, [(2, 2), (4, 1), (13, 1), (18, 2)])), (4, (1, [(3, 2), (4, 1), (13, 1), (18, 2)])), (5, (1, [(2, 2), (3, 2), (4, 1), (13, 2), (18, 2)]))] 0 (1, [(4, 1), (13, 1), (18, 2)]),
  .no [(1, (1, [(10, 1)])), (3, (1, [(2, 2), (14, 2), (21, 1)])), (4, (1, [(21, 1)]))] 0 (1, [(14, 2), (21, 1)]),
  .no [(0, (1, [(7, 1), (8, 1), (13, 1), (18, 2)])), (1, (1, [(10, 1)])), (2, (2, [(4, 1), (13, 3), (14, 2), (16, 2), (18, 2)])), (3, (6, [(4, 3), (13, 3), (15, 2), (16, 2), (18, 6)])), (4, (6, [(4, 3), (13, 3), (14, 2), (17, 2), (18, 6)])), (5, (1, [(13, 1)]))] 0 (2, [(4, 3), (13, 3), (14, 2), (16, 2), (18, 6)]),
  .no [(1, (1, [(10, 1)])), (3, (1, [(12, 2), (19, 1)])), (4, (1, [(19, 1)]))] 0 (1, [(12, 2), (16, 2), (19, 1)]),
  .no [(3, (1, [(2, 2), (14, 2), (21, 1)])), (4, (1, [(21, 1)]))] 0 (1, [(14, 2), (21, 1)]),
  .no [(0, (1, [(0, 1), (11, 1), (16, 2)])), (2, (1, [(11, 1)])), (3, (1, [(2, 2), (4, 1), (11, 1), (16, 2)])), (4, (1, [(3, 2), (4, 1), (11, 1), (16, 2)])), (5, (1, [(2, 2), (3, 2), (4, 1), (11, 2), (16, 2)]))] 0 (1, [(4, 1), (11, 1), (16, 2)]),
  .no [(3, (1, [(2, 2), (12, 2), (19, 1)])), (4, (1, [(19, 1)]))] 0 (1, [(12, 2), (19, 1)]),
  .no [(3, (1, [(13, 1)])), (4, (1, [(3, 2), (13, 1), (18, 2)]))] 0 (1, [(13, 1), (18, 2)]),
  .no [(3, (1, [(2, 2), (12, 2), (19, 1)])), (4, (1, [(19, 1)]))] 0 (1, [(12, 2), (19, 1)])]

theorem pairs38_ok : pairsOk 38 pairs38 = true := by decide +kernel

/-- The classes before class 34. -/
def pairs34 : List Pair := [
  .sub,
  .no [(0, (1, [(10, 1)])), (1, (1, [(12, 1)])), (2, (1, [(10, 1), (15, 1), (20, 1)])), (3, (3, [(15, 1), (17, 2), (20, 3)])), (4, (3, [(15, 1), (19, 2), (20, 3)])), (5, (3, [(10, 3), (15, 2), (17, 2), (19, 2)]))] 0 (1, [(15, 1), (20, 3)]),
  .early [(0, (1, [(10, 1)])), (1, (1, [(12, 1)]))] 3 [((1, [(10, 1)]), (1, [(4, 1)])), ((1, [(12, 1)]), (1, [(5, 1)])), ((1, [(18, 1)]), (1, [(1, 1)])), ((1, [(14, 1), (18, 1)]), (1, [(2, 1)])), ((1, [(16, 1), (18, 1)]), (1, [(3, 1)]))],
  .no [(0, (1, [(10, 1)])), (1, (1, [(12, 1)])), (2, (1, [(8, 1), (15, 1), (16, 2), (18, 2)])), (3, (1, [(4, 1), (8, 1), (15, 1), (18, 2)])), (4, (1, [(4, 1), (7, 1), (15, 1), (18, 2)])), (5, (1, [(15, 1)]))] 0 (1, [(4, 1), (8, 1), (15, 1), (16, 2), (18, 4)]),
  .no [(0, (1, [(10, 1)])), (1, (1, [(12, 1)])), (2, (1, [(8, 1), (15, 1), (20, 2)])), (3, (2, [(4, 1), (15, 1), (16, 2), (18, 2)])), (4, (2, [(4, 1), (15, 1), (17, 2), (18, 2)])), (5, (1, [(15, 1)]))] 0 (2, [(4, 1), (15, 1), (16, 2), (18, 2), (20, 4)]),
  .no [(0, (1, [(10, 1)])), (1, (1, [(12, 1)])), (2, (1, [(8, 1), (15, 1), (18, 2)])), (3, (1, [(4, 1), (8, 1), (15, 1), (16, 2)])), (4, (1, [(4, 1), (7, 1), (15, 1), (16, 2)])), (5, (1, [(15, 1)]))] 0 (1, [(4, 1), (8, 1), (15, 1), (16, 2), (18, 2)]),
  .sub,
  .sub,
  .sub,
  .no [(0, (1, [(10, 1)])), (2, (1, [(10, 1), (13, 1)])), (3, (1, [(15, 1)])), (4, (1, [(3, 2), (13, 1), (18, 2)])), (5, (1, [(3, 2), (10, 1), (13, 1), (15, 1)]))] 0 (1, [(13, 1), (18, 2)]),
  .no [(0, (1, [(10, 1)])), (2, (1, [(8, 1), (13, 1), (14, 2), (16, 2)])), (3, (1, [(4, 1), (8, 1), (13, 1), (16, 2)])), (4, (1, [(4, 1), (7, 1), (13, 1), (16, 2)])), (5, (1, [(13, 1)]))] 0 (1, [(4, 1), (8, 1), (13, 1), (14, 2), (16, 4)]),
  .early [(0, (1, [(10, 1)]))] 13 [((1, [(10, 1)]), (1, [(4, 1)])), ((1, [(14, 1)]), (1, [(1, 1)])), ((1, [(12, 1), (14, 1)]), (1, [(2, 1)]))],
  .no [(0, (1, [(10, 1)])), (2, (1, [(8, 1), (13, 1), (16, 2)])), (3, (1, [(4, 1), (8, 1), (13, 1), (14, 2)])), (4, (1, [(4, 1), (7, 1), (13, 1), (14, 2)])), (5, (1, [(13, 1)]))] 0 (1, [(4, 1), (8, 1), (13, 1), (14, 2), (16, 2)]),
  .sub,
  .no [(0, (1, [(0, 1), (13, 1), (18, 2)])), (1, (1, [(10, 1)])), (2, (1, [(13, 1)])), (3, (1, [(2, 2), (4, 1), (13, 1), (18, 2)])), (4, (1, [(3, 2), (4, 1), (13, 1), (18, 2)])), (5, (1, [(2, 2), (3, 2), (4, 1), (13, 2), (18, 2)]))] 0 (1, [(4, 1), (13, 1), (18, 2)]),
  .early [(1, (1, [(10, 1)]))] 21 [((1, [(10, 1)]), (1, [(5, 1)])), ((1, [(16, 1)]), (1, [(1, 1)])), ((1, [(12, 1)]), (1, [(2, 1)])), ((1, [(14, 1)]), (1, [(3, 1)]))],
  .no [(0, (1, [(7, 1), (8, 1), (13, 1), (18, 2)])), (1, (1, [(10, 1)])), (2, (2, [(4, 1), (13, 3), (14, 2), (16, 2), (18, 2)])), (3, (6, [(4, 3), (13, 3), (15, 2), (16, 2), (18, 6)])), (4, (6, [(4, 3), (13, 3), (14, 2), (17, 2), (18, 6)])), (5, (1, [(13, 1)]))] 0 (2, [(4, 3), (13, 3), (14, 2), (16, 2), (18, 6)]),
  .early [(1, (1, [(10, 1)]))] 21 [((1, [(10, 1)]), (1, [(5, 1)])), ((1, [(14, 1)]), (1, [(1, 1)])), ((1, [(16, 1)]), (1, [(2, 1)])), ((1, [(12, 1), (16, 1)]), (1, [(3, 1)]))],
  .sub,
  .no [(0, (1, [(0, 1), (11, 1), (16, 2)])), (2, (1, [(11, 1)])), (3, (1, [(2, 2), (4, 1), (11, 1), (16, 2)])), (4, (1, [(3, 2), (4, 1), (11, 1), (16, 2)])), (5, (1, [(2, 2), (3, 2), (4, 1), (11, 2), (16, 2)]))] 0 (1, [(4, 1), (11, 1), (16, 2)]),
  .early [] 32 [((1, [(14, 1)]), (1, [(1, 1)])), ((1, [(10, 1)]), (1, [(2, 1)])), ((1, [(12, 1)]), (1, [(3, 1)]))],
  .no [(3, (1, [(13, 1)])), (4, (1, [(3, 2), (13, 1), (18, 2)]))] 0 (1, [(13, 1), (18, 2)]),
  .early [] 32 [((1, [(10, 1)]), (1, [(1, 1)])), ((1, [(16, 1)]), (1, [(2, 1)])), ((1, [(12, 1)]), (1, [(3, 1)]))],
  .sub]

theorem pairs34_ok : pairsOk 34 pairs34 = true := by decide +kernel

/-- The classes before class 42. -/
def pairs42 : List Pair := [
  .no [(0, (1, [(10, 1)])), (1, (1, [(12, 1)])), (2, (1, [(21, 1)])), (3, (1, [(2, 2), (4, 1), (14, 2), (21, 1)])), (4, (1, [(3, 2), (4, 1), (14, 2), (21, 1)])), (5, (1, [(2, 2), (3, 2), (4, 1), (14, 2), (21, 2)]))] 0 (1, [(4, 1), (14, 2), (21, 1)]),
  .no [(0, (1, [(10, 1)])), (1, (1, [(12, 1)])), (2, (1, [(21, 1)])), (3, (3, [(4, 3), (14, 2), (17, 2), (21, 3)])), (4, (3, [(4, 3), (14, 2), (19, 2), (21, 3)])), (5, (3, [(10, 3), (15, 2), (17, 2), (19, 2)]))] 0 (1, [(4, 3), (14, 2), (21, 3)]),
  .no [(0, (1, [(10, 1)])), (1, (1, [(12, 1)])), (2, (1, [(19, 1)])), (3, (1, [(4, 1), (15, 2), (19, 1)])), (4, (1, [(4, 1), (17, 2), (19, 1)])), (5, (1, [(3, 2), (4, 1), (15, 2), (19, 2)]))] 0 (1, [(4, 2), (9, 1), (15, 2), (17, 2), (19, 3)]),
  .no [(0, (1, [(10, 1)])), (1, (1, [(12, 1)])), (2, (1, [(19, 1)])), (3, (1, [(4, 1), (17, 2), (19, 1)])), (4, (1, [(4, 1), (17, 2), (19, 1), (25, 2)])), (5, (1, [(15, 1)]))] 0 (1, [(4, 2), (9, 1), (17, 4), (19, 3), (25, 2)]),
  .no [(0, (1, [(10, 1)])), (1, (1, [(12, 1)])), (2, (1, [(19, 1)])), (3, (1, [(21, 1)])), (4, (1, [(17, 2), (21, 1)])), (5, (1, [(15, 1)]))] 0 (1, [(9, 1), (17, 2), (19, 1), (21, 2)]),
  .no [(0, (1, [(10, 1)])), (1, (1, [(12, 1)])), (2, (1, [(17, 1)])), (3, (1, [(19, 1)])), (4, (1, [(19, 1), (23, 2)])), (5, (1, [(15, 1)]))] 0 (1, [(9, 1), (17, 1), (19, 2), (23, 2)]),
  .no [(0, (1, [(10, 1)])), (2, (1, [(19, 1)])), (3, (1, [(2, 2), (4, 1), (12, 2), (19, 1)])), (4, (1, [(3, 2), (4, 1), (12, 2), (19, 1)])), (5, (1, [(2, 2), (3, 2), (4, 1), (12, 2), (19, 2)]))] 0 (1, [(4, 1), (12, 2), (19, 1)]),
  .no [(0, (1, [(10, 1)])), (2, (1, [(19, 1)])), (3, (1, [(2, 2), (4, 1), (12, 2), (19, 1)])), (4, (1, [(17, 1)])), (5, (1, [(2, 2), (17, 1), (19, 1)]))] 0 (1, [(4, 1), (12, 2), (19, 1)]),
  .no [(0, (1, [(10, 1)])), (2, (1, [(17, 1)])), (3, (1, [(2, 2), (4, 1), (12, 2), (17, 1)])), (4, (1, [(3, 2), (4, 1), (12, 2), (17, 1)])), (5, (1, [(2, 2), (3, 2), (4, 1), (12, 2), (17, 2)]))] 0 (1, [(4, 1), (12, 2), (17, 1)]),
  .sub,
  .early [(0, (1, [(10, 1)])), (2, (1, [(17, 1)])), (3, (1, [(4, 1), (15, 2), (17, 1)])), (5, (1, [(13, 1)]))] 15 [((1, [(10, 1)]), (1, [(4, 1)])), ((1, [(6, 1), (10, 1)]), (1, [(4, 1), (17, 1)])), ((1, [(7, 1)]), (1, [(4, 1), (15, 2), (17, 1)])), ((2, [(4, 1), (9, 1), (15, 2), (17, 2)]), (1, [(3, 1)]))],
  .early [(0, (1, [(10, 1)])), (2, (1, [(15, 1)])), (3, (1, [(4, 1), (13, 2), (15, 1)])), (5, (1, [(3, 2), (4, 1), (13, 2), (15, 2)]))] 15 [((1, [(10, 1)]), (1, [(4, 1)])), ((1, [(6, 1), (10, 1)]), (1, [(4, 1), (15, 1)])), ((1, [(7, 1)]), (1, [(4, 1), (13, 2), (15, 1)])), ((2, [(4, 1), (9, 1), (13, 2), (15, 2)]), (1, [(3, 1)]))],
  .early [(0, (1, [(10, 1)])), (2, (1, [(15, 1)])), (3, (1, [(17, 1)])), (5, (1, [(13, 1)]))] 15 [((1, [(10, 1)]), (1, [(4, 1)])), ((1, [(6, 1), (10, 1)]), (1, [(4, 1), (15, 1)])), ((1, [(7, 1)]), (1, [(17, 1)])), ((2, [(9, 1), (15, 1), (17, 1)]), (1, [(3, 1)]))],
  .no [(0, (1, [(0, 1), (12, 2), (19, 1)])), (1, (1, [(10, 1)])), (2, (1, [(19, 1)])), (3, (1, [(2, 2), (4, 1), (12, 2), (19, 1)])), (4, (1, [(3, 2), (4, 1), (12, 2), (19, 1)])), (5, (1, [(2, 2), (3, 2), (4, 1), (12, 2), (19, 2)]))] 0 (1, [(4, 1), (12, 2), (19, 1)]),
  .no [(1, (1, [(10, 1)])), (2, (1, [(13, 1)])), (3, (1, [(21, 1)])), (4, (1, [(3, 2), (14, 2), (21, 1)])), (5, (1, [(3, 2), (13, 1), (21, 1)]))] 0 (1, [(14, 2), (21, 1)]),
  .no [(1, (1, [(10, 1)])), (2, (1, [(17, 1)])), (3, (1, [(19, 1)])), (4, (1, [(3, 2), (12, 2), (19, 1)])), (5, (1, [(3, 2), (17, 1), (19, 1)]))] 0 (1, [(12, 2), (19, 1)]),
  .no [(1, (1, [(10, 1)])), (2, (1, [(19, 1)])), (3, (3, [(9, 3), (15, 4), (17, 2), (19, 3)])), (4, (3, [(9, 3), (15, 2), (17, 4), (19, 3)])), (5, (1, [(13, 1)]))] 0 (1, [(9, 3), (15, 2), (17, 2), (19, 3)]),
  .no [(1, (1, [(10, 1)])), (2, (1, [(15, 1)])), (3, (1, [(17, 1)])), (4, (1, [(13, 2), (17, 1)])), (5, (1, [(3, 2), (15, 1), (17, 1)]))] 0 (1, [(9, 1), (13, 2), (15, 1), (17, 2)]),
  .no [(0, (1, [(0, 1), (10, 2), (17, 1)])), (2, (1, [(17, 1)])), (3, (1, [(2, 2), (4, 1), (10, 2), (17, 1)])), (4, (1, [(3, 2), (4, 1), (10, 2), (17, 1)])), (5, (1, [(2, 2), (3, 2), (4, 1), (10, 2), (17, 2)]))] 0 (1, [(4, 1), (10, 2), (17, 1)]),
  .no [(2, (1, [(11, 1)])), (3, (1, [(19, 1)])), (4, (1, [(3, 2), (12, 2), (19, 1)])), (5, (1, [(3, 2), (11, 1), (19, 1)]))] 0 (1, [(12, 2), (19, 1)]),
  .no [(2, (1, [(15, 1)])), (3, (1, [(17, 1)])), (4, (1, [(3, 2), (10, 2), (17, 1)])), (5, (1, [(3, 2), (15, 1), (17, 1)]))] 0 (1, [(10, 2), (17, 1)]),
  .no [(0, (1, [(0, 1), (10, 2), (17, 1)])), (2, (1, [(17, 1)])), (3, (1, [(13, 1)])), (4, (1, [(3, 2), (4, 1), (10, 2), (17, 1)])), (5, (1, [(3, 2), (13, 1), (17, 1)]))] 0 (1, [(4, 1), (10, 2), (17, 1)]),
  .no [(0, (1, [(0, 1), (10, 2), (15, 1)])), (2, (1, [(15, 1)])), (3, (1, [(2, 2), (4, 1), (10, 2), (15, 1)])), (4, (1, [(3, 2), (4, 1), (10, 2), (15, 1)])), (5, (1, [(2, 2), (3, 2), (4, 1), (10, 2), (15, 2)]))] 0 (1, [(4, 1), (10, 2), (15, 1)]),
  .no [(0, (1, [(0, 1), (10, 2), (17, 1)])), (2, (1, [(17, 1)])), (3, (1, [(2, 2), (4, 1), (10, 2), (17, 1)])), (4, (1, [(15, 1)])), (5, (1, [(2, 2), (15, 1), (17, 1)]))] 0 (1, [(4, 1), (10, 2), (17, 1)]),
  .no [(0, (1, [(0, 1), (10, 2), (15, 1)])), (2, (1, [(15, 1)])), (3, (1, [(2, 2), (4, 1), (10, 2), (15, 1)])), (4, (1, [(3, 2), (4, 1), (10, 2), (15, 1)])), (5, (1, [(2, 2), (3, 2), (4, 1), (10, 2), (15, 2)]))] 0 (1, [(4, 1), (10, 2), (15, 1)])]

theorem pairs42_ok : pairsOk 42 pairs42 = true := by decide +kernel

/-- The classes before class 41. -/
def pairs41 : List Pair := [
  .no [(0, (1, [(10, 1)])), (1, (1, [(12, 1)])), (2, (1, [(21, 1)])), (3, (1, [(2, 2), (4, 1), (14, 2), (21, 1)])), (4, (1, [(3, 2), (4, 1), (14, 2), (21, 1)])), (5, (1, [(2, 2), (3, 2), (4, 1), (14, 2), (21, 2)]))] 0 (1, [(4, 1), (14, 2), (21, 1)]),
  .no [(0, (1, [(10, 1)])), (1, (1, [(12, 1)])), (2, (1, [(21, 1)])), (3, (3, [(4, 3), (14, 2), (17, 2), (21, 3)])), (4, (3, [(4, 3), (14, 2), (19, 2), (21, 3)])), (5, (3, [(10, 3), (15, 2), (17, 2), (19, 2)]))] 0 (1, [(4, 3), (14, 2), (21, 3)]),
  .no [(0, (1, [(10, 1)])), (1, (1, [(12, 1)])), (2, (1, [(19, 1)])), (3, (1, [(4, 1), (15, 2), (19, 1)])), (4, (1, [(4, 1), (17, 2), (19, 1)])), (5, (1, [(3, 2), (4, 1), (15, 2), (19, 2)]))] 0 (1, [(4, 2), (9, 1), (15, 2), (17, 2), (19, 3)]),
  .no [(0, (1, [(10, 1)])), (1, (1, [(12, 1)])), (2, (1, [(19, 1)])), (3, (1, [(4, 1), (17, 2), (19, 1)])), (4, (1, [(4, 1), (17, 2), (19, 1), (23, 2)])), (5, (1, [(15, 1)]))] 0 (1, [(4, 2), (9, 1), (17, 4), (19, 3), (23, 2)]),
  .no [(0, (1, [(10, 1)])), (1, (1, [(12, 1)])), (2, (1, [(19, 1)])), (3, (1, [(6, 1), (15, 1), (20, 2)])), (4, (1, [(6, 1), (15, 1), (17, 2), (20, 2)])), (5, (1, [(15, 1)]))] 0 (1, [(6, 1), (15, 1), (17, 2), (20, 4)]),
  .no [(0, (1, [(10, 1)])), (1, (1, [(12, 1)])), (2, (1, [(17, 1)])), (3, (1, [(6, 1), (15, 1), (18, 2)])), (4, (1, [(6, 1), (15, 1), (18, 2), (21, 2)])), (5, (1, [(15, 1)]))] 0 (1, [(6, 1), (15, 1), (18, 4), (21, 2)]),
  .no [(0, (1, [(10, 1)])), (2, (1, [(19, 1)])), (3, (1, [(2, 2), (4, 1), (12, 2), (19, 1)])), (4, (1, [(3, 2), (4, 1), (12, 2), (19, 1)])), (5, (1, [(2, 2), (3, 2), (4, 1), (12, 2), (19, 2)]))] 0 (1, [(4, 1), (12, 2), (19, 1)]),
  .no [(0, (1, [(10, 1)])), (2, (1, [(19, 1)])), (3, (1, [(2, 2), (4, 1), (12, 2), (19, 1)])), (4, (1, [(17, 1)])), (5, (1, [(2, 2), (17, 1), (19, 1)]))] 0 (1, [(4, 1), (12, 2), (19, 1)]),
  .no [(0, (1, [(10, 1)])), (2, (1, [(17, 1)])), (3, (1, [(2, 2), (4, 1), (12, 2), (17, 1)])), (4, (1, [(3, 2), (4, 1), (12, 2), (17, 1)])), (5, (1, [(2, 2), (3, 2), (4, 1), (12, 2), (17, 2)]))] 0 (1, [(4, 1), (12, 2), (17, 1)]),
  .sub,
  .early [(0, (1, [(10, 1)])), (2, (1, [(17, 1)])), (3, (1, [(4, 1), (15, 2), (17, 1)])), (5, (1, [(13, 1)]))] 15 [((1, [(10, 1)]), (1, [(4, 1)])), ((1, [(6, 1), (10, 1)]), (1, [(4, 1), (17, 1)])), ((1, [(7, 1)]), (1, [(4, 1), (15, 2), (17, 1)])), ((2, [(4, 1), (9, 1), (15, 2), (17, 2)]), (1, [(3, 1)]))],
  .early [(0, (1, [(10, 1)])), (2, (1, [(15, 1)])), (3, (1, [(4, 1), (13, 2), (15, 1)])), (5, (1, [(3, 2), (4, 1), (13, 2), (15, 2)]))] 15 [((1, [(10, 1)]), (1, [(4, 1)])), ((1, [(6, 1), (10, 1)]), (1, [(4, 1), (15, 1)])), ((1, [(7, 1)]), (1, [(4, 1), (13, 2), (15, 1)])), ((2, [(4, 1), (9, 1), (13, 2), (15, 2)]), (1, [(3, 1)]))],
  .early [(0, (1, [(10, 1)])), (2, (1, [(15, 1)])), (3, (1, [(6, 1), (13, 1), (16, 2)])), (5, (1, [(13, 1)]))] 15 [((1, [(10, 1)]), (1, [(4, 1)])), ((1, [(6, 1), (10, 1)]), (1, [(4, 1), (15, 1)])), ((1, [(7, 1)]), (1, [(6, 1), (13, 1), (16, 2)])), ((1, [(16, 1)]), (1, [(3, 1)]))],
  .no [(0, (1, [(0, 1), (12, 2), (19, 1)])), (1, (1, [(10, 1)])), (2, (1, [(19, 1)])), (3, (1, [(2, 2), (4, 1), (12, 2), (19, 1)])), (4, (1, [(3, 2), (4, 1), (12, 2), (19, 1)])), (5, (1, [(2, 2), (3, 2), (4, 1), (12, 2), (19, 2)]))] 0 (1, [(4, 1), (12, 2), (19, 1)]),
  .sub,
  .early [(1, (1, [(10, 1)])), (2, (1, [(17, 1)]))] 22 [((1, [(10, 1)]), (1, [(5, 1)])), ((1, [(6, 1)]), (1, [(17, 1)])), ((1, [(12, 1)]), (1, [(2, 1)])), ((1, [(14, 1)]), (1, [(3, 1)]))],
  .no [(1, (1, [(10, 1)])), (2, (1, [(19, 1)])), (3, (3, [(9, 3), (15, 4), (17, 2), (19, 3)])), (4, (3, [(9, 3), (15, 2), (17, 4), (19, 3)])), (5, (1, [(13, 1)]))] 0 (1, [(9, 3), (15, 2), (17, 2), (19, 3)]),
  .early [(1, (1, [(10, 1)])), (2, (1, [(15, 1)]))] 22 [((1, [(10, 1)]), (1, [(5, 1)])), ((1, [(6, 1)]), (1, [(15, 1)])), ((1, [(13, 1), (16, 1)]), (1, [(2, 1)])), ((1, [(16, 1)]), (1, [(3, 1)]))],
  .no [(0, (1, [(0, 1), (10, 2), (17, 1)])), (2, (1, [(17, 1)])), (3, (1, [(2, 2), (4, 1), (10, 2), (17, 1)])), (4, (1, [(3, 2), (4, 1), (10, 2), (17, 1)])), (5, (1, [(2, 2), (3, 2), (4, 1), (10, 2), (17, 2)]))] 0 (1, [(4, 1), (10, 2), (17, 1)]),
  .sub,
  .early [(2, (1, [(15, 1)]))] 40 [((1, [(6, 1)]), (1, [(15, 1)])), ((1, [(10, 1)]), (1, [(2, 1)])), ((1, [(12, 1)]), (1, [(3, 1)]))],
  .no [(0, (1, [(0, 1), (10, 2), (17, 1)])), (2, (1, [(17, 1)])), (3, (1, [(13, 1)])), (4, (1, [(3, 2), (4, 1), (10, 2), (17, 1)])), (5, (1, [(3, 2), (13, 1), (17, 1)]))] 0 (1, [(4, 1), (10, 2), (17, 1)]),
  .no [(0, (1, [(0, 1), (10, 2), (15, 1)])), (2, (1, [(15, 1)])), (3, (1, [(2, 2), (4, 1), (10, 2), (15, 1)])), (4, (1, [(3, 2), (4, 1), (10, 2), (15, 1)])), (5, (1, [(2, 2), (3, 2), (4, 1), (10, 2), (15, 2)]))] 0 (1, [(4, 1), (10, 2), (15, 1)]),
  .no [(0, (1, [(0, 1), (10, 2), (17, 1)])), (2, (1, [(17, 1)])), (3, (1, [(2, 2), (4, 1), (10, 2), (17, 1)])), (4, (1, [(15, 1)])), (5, (1, [(2, 2), (15, 1), (17, 1)]))] 0 (1, [(4, 1), (10, 2), (17, 1)]),
  .no [(0, (1, [(0, 1), (10, 2), (15, 1)])), (2, (1, [(15, 1)])), (3, (1, [(2, 2), (4, 1), (10, 2), (15, 1)])), (4, (1, [(3, 2), (4, 1), (10, 2), (15, 1)])), (5, (1, [(2, 2), (3, 2), (4, 1), (10, 2), (15, 2)]))] 0 (1, [(4, 1), (10, 2), (15, 1)]),
  .sub]

theorem pairs41_ok : pairsOk 41 pairs41 = true := by decide +kernel

/-- The classes before class 37. -/
def pairs37 : List Pair := [
  .no [(0, (1, [(10, 1)])), (1, (1, [(12, 1)])), (2, (1, [(1, 2), (10, 1), (16, 2), (21, 1)])), (3, (1, [(21, 1)])), (4, (1, [(3, 2), (16, 2), (21, 1)])), (5, (1, [(1, 2), (3, 2), (10, 1), (16, 2), (21, 2)]))] 0 (1, [(16, 2), (21, 1)]),
  .no [(0, (1, [(10, 1)])), (1, (1, [(12, 1)])), (2, (3, [(10, 3), (15, 2), (16, 2), (21, 3)])), (3, (1, [(21, 1)])), (4, (3, [(16, 2), (19, 2), (21, 3)])), (5, (3, [(10, 3), (15, 2), (17, 2), (19, 2)]))] 0 (1, [(16, 2), (21, 3)]),
  .no [(0, (1, [(10, 1)])), (1, (1, [(12, 1)])), (2, (1, [(10, 1), (14, 2), (19, 1)])), (3, (1, [(19, 1)])), (4, (1, [(14, 2), (17, 2), (19, 1)])), (5, (1, [(3, 2), (10, 1), (14, 2), (19, 2)]))] 0 (1, [(9, 1), (10, 1), (14, 4), (17, 2), (19, 3)]),
  .no [(0, (1, [(10, 1)])), (1, (1, [(12, 1)])), (2, (1, [(10, 1), (16, 2), (19, 1)])), (3, (1, [(19, 1)])), (4, (1, [(19, 1), (23, 2)])), (5, (1, [(15, 1)]))] 0 (1, [(9, 1), (10, 1), (16, 2), (19, 3), (23, 2)]),
  .no [(0, (1, [(10, 1)])), (1, (1, [(12, 1)])), (2, (1, [(7, 1), (15, 1), (20, 2)])), (3, (1, [(19, 1)])), (4, (1, [(17, 2), (19, 1)])), (5, (1, [(15, 1)]))] 0 (1, [(17, 2), (19, 1), (20, 2)]),
  .no [(0, (1, [(10, 1)])), (1, (1, [(12, 1)])), (2, (1, [(7, 1), (15, 1), (18, 2)])), (3, (1, [(17, 1)])), (4, (1, [(17, 1), (21, 2)])), (5, (1, [(15, 1)]))] 0 (1, [(17, 1), (18, 2), (21, 2)]),
  .no [(0, (1, [(10, 1)])), (2, (1, [(1, 2), (10, 1), (14, 2), (19, 1)])), (3, (1, [(19, 1)])), (4, (1, [(3, 2), (14, 2), (19, 1)])), (5, (1, [(1, 2), (3, 2), (10, 1), (14, 2), (19, 2)]))] 0 (1, [(14, 2), (19, 1)]),
  .no [(0, (1, [(10, 1)])), (2, (1, [(1, 2), (10, 1), (14, 2), (19, 1)])), (3, (1, [(19, 1)])), (4, (1, [(17, 1)])), (5, (1, [(1, 2), (10, 1), (17, 1), (19, 1)]))] 0 (1, [(14, 2), (19, 1)]),
  .no [(0, (1, [(10, 1)])), (2, (1, [(1, 2), (10, 1), (14, 2), (17, 1)])), (3, (1, [(17, 1)])), (4, (1, [(3, 2), (14, 2), (17, 1)])), (5, (1, [(1, 2), (3, 2), (10, 1), (14, 2), (17, 2)]))] 0 (1, [(14, 2), (17, 1)]),
  .sub,
  .early [(0, (1, [(10, 1)])), (2, (1, [(10, 1), (14, 2), (17, 1)])), (3, (1, [(17, 1)])), (5, (1, [(13, 1)]))] 15 [((1, [(10, 1)]), (1, [(4, 1)])), ((1, [(6, 1), (10, 1)]), (1, [(14, 2), (17, 1)])), ((1, [(7, 1)]), (1, [(17, 1)])), ((2, [(9, 1), (10, 1), (14, 2), (17, 2)]), (1, [(3, 1)]))],
  .early [(0, (1, [(10, 1)])), (2, (1, [(10, 1), (12, 2), (15, 1)])), (3, (1, [(15, 1)])), (5, (1, [(3, 2), (10, 1), (12, 2), (15, 2)]))] 15 [((1, [(10, 1)]), (1, [(4, 1)])), ((1, [(6, 1), (10, 1)]), (1, [(12, 2), (15, 1)])), ((1, [(7, 1)]), (1, [(15, 1)])), ((2, [(9, 1), (10, 1), (12, 2), (15, 2)]), (1, [(3, 1)]))],
  .early [(0, (1, [(10, 1)])), (2, (1, [(7, 1), (13, 1), (16, 2)])), (3, (1, [(15, 1)])), (5, (1, [(13, 1)]))] 15 [((1, [(10, 1)]), (1, [(4, 1)])), ((1, [(6, 1), (10, 1)]), (1, [(4, 1), (7, 1), (13, 1), (16, 2)])), ((1, [(7, 1)]), (1, [(15, 1)])), ((1, [(16, 1)]), (1, [(3, 1)]))],
  .no [(1, (1, [(10, 1)])), (3, (1, [(19, 1)])), (4, (1, [(3, 2), (14, 2), (19, 1)]))] 0 (1, [(14, 2), (19, 1)]),
  .no [(1, (1, [(10, 1)])), (2, (1, [(13, 1)])), (3, (1, [(19, 1)])), (4, (1, [(3, 2), (14, 2), (19, 1)])), (5, (1, [(3, 2), (13, 1), (19, 1)]))] 0 (1, [(14, 2), (19, 1)]),
  .no [(1, (1, [(10, 1)])), (3, (1, [(17, 1)])), (4, (1, [(3, 2), (12, 2), (17, 1)]))] 0 (1, [(12, 2), (17, 1)]),
  .no [(1, (1, [(10, 1)])), (2, (3, [(13, 3), (14, 4), (16, 2), (19, 3)])), (3, (1, [(19, 1)])), (4, (3, [(14, 2), (17, 2), (19, 3)])), (5, (1, [(13, 1)]))] 0 (1, [(14, 2), (19, 3)]),
  .no [(1, (1, [(10, 1)])), (3, (1, [(15, 1)])), (4, (1, [(13, 2), (15, 1)]))] 0 (1, [(13, 2), (15, 1), (16, 2)]),
  .no [(3, (1, [(17, 1)])), (4, (1, [(3, 2), (12, 2), (17, 1)]))] 0 (1, [(12, 2), (17, 1)]),
  .no [(2, (1, [(11, 1)])), (3, (1, [(17, 1)])), (4, (1, [(3, 2), (12, 2), (17, 1)])), (5, (1, [(3, 2), (11, 1), (17, 1)]))] 0 (1, [(12, 2), (17, 1)]),
  .no [(3, (1, [(15, 1)])), (4, (1, [(3, 2), (10, 2), (15, 1)]))] 0 (1, [(10, 2), (15, 1)]),
  .sub,
  .early [(3, (1, [(15, 1)]))] 36 [((1, [(10, 1)]), (1, [(1, 1)])), ((1, [(7, 1)]), (1, [(15, 1)])), ((1, [(12, 1)]), (1, [(3, 1)]))],
  .no [(3, (1, [(17, 1)])), (4, (1, [(15, 1)]))] 0 (1, [(12, 2), (17, 1)]),
  .no [(3, (1, [(15, 1)])), (4, (1, [(3, 2), (12, 2), (15, 1)]))] 0 (1, [(12, 2), (15, 1)]),
  .sub,
  .early [(2, (1, [(11, 1)])), (3, (1, [(15, 1)])), (5, (1, [(3, 2), (11, 1), (15, 1)]))] 42 [((1, [(6, 1)]), (1, [(11, 1)])), ((1, [(7, 1)]), (1, [(15, 1)])), ((1, [(12, 1)]), (1, [(3, 1)]))]]

theorem pairs37_ok : pairsOk 37 pairs37 = true := by decide +kernel

/-- The classes before class 39. -/
def pairs39 : List Pair := [
  .no [(0, (1, [(10, 1)])), (1, (1, [(12, 1)])), (2, (1, [(1, 2), (10, 1), (18, 2), (23, 1)])), (3, (1, [(2, 2), (18, 2), (23, 1)])), (4, (1, [(23, 1)])), (5, (1, [(1, 2), (2, 2), (10, 1), (18, 2), (23, 2)]))] 0 (1, [(18, 2), (23, 1)]),
  .no [(0, (1, [(10, 1)])), (1, (1, [(12, 1)])), (2, (3, [(10, 3), (15, 2), (17, 1), (20, 3)])), (3, (1, [(17, 1), (20, 1)])), (4, (3, [(17, 1), (19, 2), (20, 3)])), (5, (3, [(10, 3), (15, 2), (17, 2), (19, 2)]))] 0 (1, [(17, 1), (20, 3)]),
  .no [(0, (1, [(10, 1)])), (1, (1, [(12, 1)])), (2, (1, [(10, 1), (16, 2), (21, 1)])), (3, (1, [(15, 2), (16, 2), (21, 1)])), (4, (1, [(21, 1)])), (5, (1, [(2, 2), (10, 1), (16, 2), (21, 2)]))] 0 (1, [(15, 2), (16, 2), (18, 2), (21, 1)]),
  .no [(0, (1, [(10, 1)])), (1, (1, [(12, 1)])), (2, (1, [(8, 1), (15, 1), (18, 2)])), (3, (1, [(4, 1), (8, 1), (15, 1), (17, 2), (18, 2)])), (4, (1, [(6, 1), (15, 1), (18, 2)])), (5, (1, [(15, 1)]))] 0 (1, [(4, 1), (8, 1), (15, 1), (17, 2), (18, 4)]),
  .no [(0, (1, [(10, 1)])), (1, (1, [(12, 1)])), (2, (1, [(8, 1), (15, 1), (18, 2)])), (3, (1, [(6, 1), (15, 1), (16, 2), (18, 2)])), (4, (1, [(6, 1), (15, 1), (18, 2)])), (5, (1, [(15, 1)]))] 0 (1, [(6, 1), (15, 1), (16, 2), (18, 4)]),
  .no [(0, (1, [(10, 1)])), (1, (1, [(12, 1)])), (2, (1, [(8, 1), (15, 1), (16, 2)])), (3, (1, [(4, 1), (8, 1), (15, 1), (16, 2), (20, 2)])), (4, (1, [(6, 1), (15, 1), (16, 2)])), (5, (1, [(15, 1)]))] 0 (1, [(4, 1), (8, 1), (15, 1), (16, 4), (20, 2)]),
  .no [(0, (1, [(10, 1)])), (2, (1, [(1, 2), (10, 1), (16, 2), (21, 1)])), (3, (1, [(2, 2), (16, 2), (21, 1)])), (4, (1, [(21, 1)])), (5, (1, [(1, 2), (2, 2), (10, 1), (16, 2), (21, 2)]))] 0 (1, [(16, 2), (21, 1)]),
  .sub,
  .early [(0, (1, [(10, 1)])), (4, (1, [(19, 1)]))] 12 [((1, [(10, 1)]), (1, [(4, 1)])), ((1, [(12, 1)]), (1, [(1, 1)])), ((1, [(14, 1)]), (1, [(2, 1)])), ((1, [(8, 1)]), (1, [(19, 1)]))],
  .no [(0, (1, [(10, 1)])), (2, (1, [(10, 1), (13, 1)])), (3, (1, [(15, 1)])), (4, (1, [(3, 2), (15, 1), (18, 2)])), (5, (1, [(3, 2), (10, 1), (13, 1), (15, 1)]))] 0 (1, [(15, 1), (18, 2)]),
  .no [(0, (1, [(10, 1)])), (2, (1, [(8, 1), (13, 1), (16, 2)])), (3, (1, [(4, 1), (8, 1), (13, 1), (15, 2), (16, 2)])), (4, (1, [(6, 1), (13, 1), (16, 2)])), (5, (1, [(13, 1)]))] 0 (1, [(4, 1), (8, 1), (13, 1), (15, 2), (16, 4)]),
  .early [(0, (1, [(10, 1)])), (4, (1, [(17, 1)]))] 12 [((1, [(10, 1)]), (1, [(4, 1)])), ((1, [(13, 1), (14, 1)]), (1, [(1, 1)])), ((1, [(14, 1)]), (1, [(2, 1)])), ((1, [(8, 1)]), (1, [(17, 1)]))],
  .no [(0, (1, [(10, 1)])), (2, (1, [(8, 1), (13, 1), (14, 2)])), (3, (1, [(4, 1), (8, 1), (13, 1), (14, 2), (18, 2)])), (4, (1, [(6, 1), (13, 1), (14, 2)])), (5, (1, [(13, 1)]))] 0 (1, [(4, 1), (8, 1), (13, 1), (14, 4), (18, 2)]),
  .no [(1, (1, [(10, 1)])), (3, (1, [(2, 2), (16, 2), (21, 1)])), (4, (1, [(21, 1)]))] 0 (1, [(16, 2), (21, 1)]),
  .no [(1, (1, [(10, 1)])), (2, (1, [(13, 1)])), (3, (1, [(2, 2), (16, 2), (21, 1)])), (4, (1, [(21, 1)])), (5, (1, [(2, 2), (13, 1), (21, 1)]))] 0 (1, [(16, 2), (21, 1)]),
  .no [(1, (1, [(10, 1)])), (3, (1, [(2, 2), (14, 2), (19, 1)])), (4, (1, [(19, 1)]))] 0 (1, [(14, 2), (19, 1)]),
  .no [(1, (1, [(10, 1)])), (2, (3, [(13, 3), (14, 1), (16, 2), (18, 3)])), (3, (1, [(15, 1), (18, 1)])), (4, (1, [(6, 1), (13, 1), (18, 2)])), (5, (1, [(13, 1)]))] 0 (1, [(6, 3), (13, 3), (16, 2), (18, 6)]),
  .no [(1, (1, [(10, 1)])), (3, (1, [(12, 2), (17, 1)])), (4, (1, [(17, 1)]))] 0 (1, [(12, 2), (14, 2), (17, 1)]),
  .no [(3, (1, [(2, 2), (14, 2), (19, 1)])), (4, (1, [(19, 1)]))] 0 (1, [(14, 2), (19, 1)]),
  .no [(2, (1, [(11, 1)])), (3, (1, [(2, 2), (14, 2), (19, 1)])), (4, (1, [(19, 1)])), (5, (1, [(2, 2), (11, 1), (19, 1)]))] 0 (1, [(14, 2), (19, 1)]),
  .no [(3, (1, [(2, 2), (12, 2), (17, 1)])), (4, (1, [(17, 1)]))] 0 (1, [(12, 2), (17, 1)]),
  .no [(3, (1, [(13, 1)])), (4, (1, [(3, 2), (13, 1), (16, 2)]))] 0 (1, [(13, 1), (16, 2)]),
  .no [(3, (1, [(2, 2), (12, 2), (17, 1)])), (4, (1, [(17, 1)]))] 0 (1, [(12, 2), (17, 1)]),
  .sub,
  .early [(4, (1, [(17, 1)]))] 38 [((1, [(10, 1)]), (1, [(1, 1)])), ((1, [(12, 1)]), (1, [(2, 1)])), ((1, [(8, 1)]), (1, [(17, 1)]))],
  .no [(2, (1, [(11, 1)])), (3, (1, [(13, 1)])), (4, (1, [(3, 2), (13, 1), (16, 2)])), (5, (1, [(3, 2), (11, 1), (13, 1)]))] 0 (1, [(13, 1), (16, 2)]),
  .no [(2, (1, [(11, 1)])), (3, (1, [(2, 2), (12, 2), (17, 1)])), (4, (1, [(17, 1)])), (5, (1, [(2, 2), (11, 1), (17, 1)]))] 0 (1, [(12, 2), (17, 1)]),
  .no [(3, (1, [(11, 1)])), (4, (1, [(3, 2), (11, 1), (14, 2)]))] 0 (1, [(11, 1), (14, 2)])]

theorem pairs39_ok : pairsOk 39 pairs39 = true := by decide +kernel

/-- The classes before class 43. -/
def pairs43 : List Pair := [
  .no [(0, (1, [(10, 1)])), (1, (1, [(12, 1)])), (2, (2, [(1, 2), (10, 1), (16, 2), (18, 2), (21, 1)])), (3, (2, [(2, 2), (4, 1), (14, 2), (18, 2), (21, 1)])), (4, (2, [(3, 2), (4, 1), (14, 2), (16, 2), (21, 1)])), (5, (1, [(21, 1)]))] 0 (2, [(4, 1), (14, 2), (16, 2), (18, 2), (21, 1)]),
  .sub,
  .early [(0, (1, [(10, 1)])), (1, (1, [(12, 1)])), (5, (1, [(19, 1)]))] 5 [((1, [(10, 1)]), (1, [(4, 1)])), ((1, [(12, 1)]), (1, [(5, 1)])), ((2, [(9, 1), (10, 1), (15, 2), (17, 2)]), (2, [(4, 1), (14, 2), (16, 2), (19, 1)])), ((2, [(9, 1), (10, 1), (14, 4), (17, 2)]), (2, [(4, 1), (15, 4), (16, 2), (19, 1)])), ((2, [(9, 1), (10, 1), (15, 2), (16, 4)]), (2, [(4, 1), (14, 2), (17, 4), (19, 1)]))],
  .sub,
  .early [(0, (1, [(10, 1)])), (1, (1, [(12, 1)])), (5, (1, [(15, 1)]))] 5 [((1, [(10, 1)]), (1, [(4, 1)])), ((1, [(12, 1)]), (1, [(5, 1)])), ((2, [(10, 3), (15, 1), (17, 2), (20, 4)]), (2, [(4, 3), (9, 1), (16, 2), (21, 4)])), ((1, [(9, 1), (17, 1), (21, 1)]), (1, [(15, 1), (16, 1), (20, 1)])), ((1, [(9, 1), (16, 2), (21, 1)]), (1, [(15, 1), (17, 2), (20, 1)]))],
  .early [(0, (1, [(10, 1)])), (1, (1, [(12, 1)])), (5, (1, [(15, 1)]))] 6 [((1, [(10, 1)]), (1, [(4, 1)])), ((1, [(12, 1)]), (1, [(5, 1)])), ((1, [(9, 1)]), (1, [(15, 1)])), ((2, [(4, 1), (9, 1), (19, 2)]), (2, [(10, 1), (15, 1), (18, 2)]))],
  .no [(0, (1, [(10, 1)])), (2, (2, [(1, 2), (10, 1), (14, 2), (16, 2), (19, 1)])), (3, (2, [(2, 2), (4, 1), (12, 2), (16, 2), (19, 1)])), (4, (2, [(3, 2), (4, 1), (12, 2), (14, 2), (19, 1)])), (5, (1, [(19, 1)]))] 0 (2, [(4, 1), (12, 2), (14, 2), (16, 2), (19, 1)]),
  .no [(0, (1, [(10, 1)])), (2, (1, [(8, 1), (14, 2), (19, 1)])), (3, (1, [(4, 1), (8, 1), (12, 2), (19, 1)])), (4, (1, [(17, 1)])), (5, (1, [(19, 1)]))] 0 (1, [(4, 1), (8, 1), (12, 2), (14, 2), (19, 1)]),
  .no [(0, (1, [(10, 1)])), (2, (1, [(8, 1), (14, 2), (17, 1)])), (3, (1, [(4, 1), (8, 1), (12, 2), (17, 1)])), (4, (2, [(3, 2), (4, 1), (12, 2), (14, 2), (17, 1)])), (5, (1, [(17, 1)]))] 0 (1, [(4, 1), (8, 1), (12, 2), (14, 2), (17, 1)]),
  .sub,
  .sub,
  .early [(0, (1, [(10, 1)])), (5, (1, [(15, 1)]))] 16 [((1, [(10, 1)]), (1, [(4, 1)])), ((1, [(9, 1)]), (1, [(15, 1)])), ((1, [(12, 1)]), (1, [(13, 1)]))],
  .early [(0, (1, [(10, 1)])), (5, (1, [(13, 1)]))] 16 [((1, [(10, 1)]), (1, [(4, 1)])), ((1, [(9, 1)]), (1, [(13, 1)])), ((2, [(4, 1), (9, 1), (17, 2)]), (2, [(10, 1), (13, 1), (16, 2)]))],
  .no [(0, (1, [(7, 1), (8, 1), (12, 2), (19, 1)])), (1, (1, [(10, 1)])), (2, (1, [(8, 1), (14, 2), (19, 1)])), (3, (2, [(2, 2), (4, 1), (12, 2), (16, 2), (19, 1)])), (4, (2, [(3, 2), (4, 1), (12, 2), (14, 2), (19, 1)])), (5, (1, [(19, 1)]))] 0 (2, [(4, 1), (12, 2), (14, 2), (16, 2), (19, 1)]),
  .no [(1, (1, [(10, 1)])), (2, (1, [(13, 1)])), (3, (1, [(6, 1), (16, 2), (19, 1)])), (4, (1, [(6, 1), (14, 2), (19, 1)])), (5, (1, [(19, 1)]))] 0 (1, [(6, 1), (14, 2), (16, 2), (19, 1)]),
  .no [(1, (1, [(10, 1)])), (2, (1, [(8, 1), (12, 2), (17, 1)])), (3, (1, [(6, 1), (14, 2), (17, 1)])), (4, (1, [(6, 1), (12, 2), (17, 1)])), (5, (1, [(17, 1)]))] 0 (1, [(6, 1), (12, 2), (14, 2), (17, 1)]),
  .sub,
  .early [(1, (1, [(10, 1)])), (5, (1, [(15, 1)]))] 24 [((1, [(10, 1)]), (1, [(5, 1)])), ((1, [(9, 1)]), (1, [(15, 1)])), ((1, [(9, 1), (13, 1), (17, 1)]), (1, [(12, 1), (15, 1), (16, 1)])), ((1, [(9, 1), (12, 2), (17, 1)]), (1, [(13, 2), (15, 1), (16, 1)]))],
  .no [(0, (1, [(7, 1), (8, 1), (10, 2), (17, 1)])), (2, (1, [(8, 1), (12, 2), (17, 1)])), (3, (2, [(2, 2), (4, 1), (10, 2), (14, 2), (17, 1)])), (4, (2, [(3, 2), (4, 1), (10, 2), (12, 2), (17, 1)])), (5, (1, [(17, 1)]))] 0 (2, [(4, 1), (10, 2), (12, 2), (14, 2), (17, 1)]),
  .no [(2, (1, [(11, 1)])), (3, (1, [(6, 1), (14, 2), (17, 1)])), (4, (1, [(6, 1), (12, 2), (17, 1)])), (5, (1, [(17, 1)]))] 0 (1, [(6, 1), (12, 2), (14, 2), (17, 1)]),
  .no [(2, (1, [(8, 1), (10, 2), (15, 1)])), (3, (1, [(6, 1), (12, 2), (15, 1)])), (4, (1, [(6, 1), (10, 2), (15, 1)])), (5, (1, [(15, 1)]))] 0 (1, [(6, 1), (10, 2), (12, 2), (15, 1)]),
  .no [(0, (1, [(7, 1), (8, 1), (10, 2), (17, 1)])), (2, (1, [(7, 1), (14, 2), (17, 1)])), (3, (1, [(13, 1)])), (4, (1, [(4, 1), (7, 1), (10, 2), (17, 1)])), (5, (1, [(17, 1)]))] 0 (1, [(4, 1), (7, 1), (10, 2), (14, 2), (17, 1)]),
  .no [(0, (1, [(7, 1), (8, 1), (10, 2), (15, 1)])), (2, (1, [(7, 1), (12, 2), (15, 1)])), (3, (2, [(2, 2), (4, 1), (10, 2), (12, 2), (15, 1)])), (4, (1, [(4, 1), (7, 1), (10, 2), (15, 1)])), (5, (1, [(15, 1)]))] 0 (1, [(4, 1), (7, 1), (10, 2), (12, 2), (15, 1)]),
  .no [(0, (1, [(7, 1), (8, 1), (10, 2), (17, 1)])), (2, (1, [(8, 1), (12, 2), (17, 1)])), (3, (1, [(4, 1), (8, 1), (10, 2), (17, 1)])), (4, (1, [(15, 1)])), (5, (1, [(17, 1)]))] 0 (1, [(4, 1), (8, 1), (10, 2), (12, 2), (17, 1)]),
  .no [(0, (1, [(7, 1), (8, 1), (10, 2), (15, 1)])), (2, (1, [(8, 1), (12, 2), (15, 1)])), (3, (1, [(4, 1), (8, 1), (10, 2), (15, 1)])), (4, (2, [(3, 2), (4, 1), (10, 2), (12, 2), (15, 1)])), (5, (1, [(15, 1)]))] 0 (1, [(4, 1), (8, 1), (10, 2), (12, 2), (15, 1)]),
  .sub,
  .early [(2, (1, [(11, 1)])), (3, (1, [(6, 1), (12, 2), (15, 1)])), (5, (1, [(15, 1)]))] 42 [((1, [(6, 1)]), (1, [(11, 1)])), ((1, [(7, 1)]), (1, [(6, 1), (12, 2), (15, 1)])), ((1, [(12, 1)]), (1, [(3, 1)]))],
  .early [(2, (1, [(7, 1), (12, 2), (15, 1)])), (3, (1, [(11, 1)])), (5, (1, [(15, 1)]))] 42 [((1, [(6, 1)]), (1, [(7, 1), (12, 2), (15, 1)])), ((1, [(7, 1)]), (1, [(11, 1)])), ((1, [(12, 1)]), (1, [(3, 1)]))],
  .no [(2, (1, [(8, 1), (10, 2), (15, 1)])), (3, (1, [(8, 1), (10, 2), (15, 2), (16, 2)])), (4, (1, [(13, 1)])), (5, (1, [(15, 1)]))] 0 (1, [(8, 1), (10, 4), (15, 2), (16, 2)])]

theorem pairs43_ok : pairsOk 43 pairs43 = true := by decide +kernel

/-- The classes before class 44. -/
def pairs44 : List Pair := [
  .sub,
  .sub,
  .sub,
  .sub,
  .sub,
  .sub,
  .sub,
  .sub,
  .sub,
  .sub,
  .sub,
  .sub,
  .sub,
  .sub,
  .sub,
  .sub,
  .sub,
  .sub,
  .sub,
  .sub,
  .sub,
  .sub,
  .sub,
  .sub,
  .sub,
  .sub,
  .sub,
  .sub,
  .sub,
  .sub]

theorem pairs44_ok : pairsOk 44 pairs44 = true := by decide +kernel

theorem pairs_exist {j : ℕ} (hj : j ∈ classTable) : ∃ ps, pairsOk j ps = true := by
  have hj' : 1 ≤ j ∧ j ≤ 44 := by revert j; decide
  obtain ⟨h1, h2⟩ := hj'
  interval_cases j
  · exact ⟨_, pairs1_ok⟩
  · exact ⟨_, pairs2_ok⟩
  · exact ⟨_, pairs3_ok⟩
  · exact ⟨_, pairs4_ok⟩
  · exact ⟨_, pairs5_ok⟩
  · exact ⟨_, pairs6_ok⟩
  · exact ⟨_, pairs7_ok⟩
  · exact ⟨_, pairs8_ok⟩
  · exact ⟨_, pairs9_ok⟩
  · exact ⟨_, pairs10_ok⟩
  · exact ⟨_, pairs11_ok⟩
  · exact ⟨_, pairs12_ok⟩
  · exact ⟨_, pairs13_ok⟩
  · exact ⟨_, pairs14_ok⟩
  · exact ⟨_, pairs15_ok⟩
  · exact ⟨_, pairs16_ok⟩
  · exact ⟨_, pairs17_ok⟩
  · exact ⟨_, pairs18_ok⟩
  · exact ⟨_, pairs19_ok⟩
  · exact ⟨_, pairs20_ok⟩
  · exact ⟨_, pairs21_ok⟩
  · exact ⟨_, pairs22_ok⟩
  · exact ⟨_, pairs23_ok⟩
  · exact ⟨_, pairs24_ok⟩
  · exact ⟨_, pairs25_ok⟩
  · exact ⟨_, pairs26_ok⟩
  · exact ⟨_, pairs27_ok⟩
  · exact ⟨_, pairs28_ok⟩
  · exact ⟨_, pairs29_ok⟩
  · exact ⟨_, pairs30_ok⟩
  · exact ⟨_, pairs31_ok⟩
  · exact ⟨_, pairs32_ok⟩
  · exact ⟨_, pairs33_ok⟩
  · exact ⟨_, pairs34_ok⟩
  · exact ⟨_, pairs35_ok⟩
  · exact ⟨_, pairs36_ok⟩
  · exact ⟨_, pairs37_ok⟩
  · exact ⟨_, pairs38_ok⟩
  · exact ⟨_, pairs39_ok⟩
  · exact ⟨_, pairs40_ok⟩
  · exact ⟨_, pairs41_ok⟩
  · exact ⟨_, pairs42_ok⟩
  · exact ⟨_, pairs43_ok⟩
  · exact ⟨_, pairs44_ok⟩

/-- The matrix with these columns, as equations. -/
theorem witFix_iff {k : ℕ} {X : IntMat} :
    witFix k (X 0 0, X 1 0, X 2 0) (X 0 1, X 1 1, X 2 1) (X 0 2, X 1 2, X 2 2) = true ↔
      Xᵀ * (wit k).mat * X = (wit k).mat := by
  constructor
  · intro h
    simp only [witFix, Bool.and_eq_true, decide_eq_true_eq] at h
    simp only [Form.bil] at h
    obtain ⟨⟨⟨⟨⟨h1, h2⟩, h3⟩, h4⟩, h5⟩, h6⟩ := h
    ext i j
    fin_cases i <;> fin_cases j <;> simp [Form.mat, Matrix.mul_apply, Fin.sum_univ_three] <;> linarith
  · intro hX
    have h := fun i j => congrFun (congrFun hX i) j
    have h00 := h 0 0
    have h01 := h 0 1
    have h02 := h 0 2
    have h11 := h 1 1
    have h12 := h 1 2
    have h22 := h 2 2
    simp [Form.mat, Matrix.mul_apply, Fin.sum_univ_three] at h00 h01 h02 h11 h12 h22
    simp only [witFix, Bool.and_eq_true, decide_eq_true_eq]
    simp only [Form.bil]
    refine ⟨⟨⟨⟨⟨?_, ?_⟩, ?_⟩, ?_⟩, ?_⟩, ?_⟩ <;> linarith

theorem mem_takeWhile_ne {l : List ℕ} {j k : ℕ} (hj : j ∈ l) (hk : k ∈ l) (hn : l.Nodup) (hjk : j ≠ k) :
    k ∈ l.takeWhile (· ≠ j) ∨ j ∈ l.takeWhile (· ≠ k) := by
  induction l with
  | nil => cases hj
  | cons x l ih =>
    rw [List.nodup_cons] at hn
    by_cases hxj : x = j
    · subst hxj
      right
      rw [List.takeWhile_cons_of_pos (by simpa using hjk)]
      exact List.mem_cons_self
    · by_cases hxk : x = k
      · subst hxk
        left
        rw [List.takeWhile_cons_of_pos (by simpa using hxj)]
        exact List.mem_cons_self
      · rw [List.takeWhile_cons_of_pos (by simpa using hxj), List.takeWhile_cons_of_pos (by simpa using hxk)]
        rcases ih ((List.mem_cons.1 hj).resolve_left (Ne.symm hxj))
          ((List.mem_cons.1 hk).resolve_left (Ne.symm hxk)) hn.2 with h | h
        · exact .inl (List.mem_cons_of_mem _ h)
        · exact .inr (List.mem_cons_of_mem _ h)

/-- A symmetry of class `j` of a metric whose first class is `k` is a symmetry of class `k`. -/
theorem witFix_first {g : Six} (h : NiggliReduced g.A g.B g.C g.D g.E g.F) {k j : ℕ}
    (hk : IsClass k g.A g.B g.C g.D g.E g.F) (hj : j ∈ classTable) (hjc : NiggliClass j g.A g.B g.C g.D g.E g.F)
    {X : IntMat} (hX : Xᵀ * (wit j).mat * X = (wit j).mat) : Xᵀ * (wit k).mat * X = (wit k).mat := by
  obtain ⟨hkt, hkc, hkf⟩ := hk
  by_cases hjk : j = k
  · rw [← hjk]; exact hX
  rcases mem_takeWhile_ne hj hkt (by decide) hjk with hb | hb
  swap
  · exact absurd hjc (hkf j hb)
  obtain ⟨tj, ej⟩ := (classEqs_iff g hj).1 hjc
  obtain ⟨tk, ek⟩ := (classEqs_iff g hkt).1 hkc
  have htt : classType k = classType j := by
    cases h1 : classType k <;> cases h2 : classType j <;> rw [h1] at tk <;> rw [h2] at tj
    · obtain ⟨a1, a2, a3⟩ : TypeII g.D g.E g.F := by simpa [HasType] using tk
      obtain ⟨b1, b2, b3⟩ : TypeI g.D g.E g.F := by simpa [HasType] using tj
      linarith
    · obtain ⟨a1, a2, a3⟩ : TypeII g.D g.E g.F := by simpa [HasType] using tj
      obtain ⟨b1, b2, b3⟩ : TypeI g.D g.E g.F := by simpa [HasType] using tk
      linarith
  have hf : ∀ m ∈ pairFacts (classType j) k j, 0 ≤ m.val g := by
    intro m hm
    simp only [pairFacts, List.mem_append, List.mem_flatMap] at hm
    rcases hm with (hm | ⟨l, hl, hm⟩) | ⟨l, hl, hm⟩
    · exact ineqs_nonneg h tj m hm
    · exact both_nonneg (ek l hl) m hm
    · exact both_nonneg (ej l hl) m hm
  obtain ⟨ps, hps⟩ := pairs_exist hj
  simp only [pairsOk, Bool.and_eq_true, decide_eq_true_eq, List.all_eq_true] at hps
  obtain ⟨p, hp⟩ := exists_zip hps.1
    (List.mem_filter.2 ⟨hb, by simpa using htt⟩ :
      k ∈ (classTable.takeWhile (· ≠ j)).filter (fun k => classType k = classType j))
  have hc := hps.2 _ hp
  cases p with
  | sub =>
    simp only [Pair.check, Bool.and_eq_true, List.all_eq_true] at hc
    obtain ⟨Z, hZ, rfl⟩ := Form.mem_autos hc.1 hX
    exact witFix_iff.1 (hc.2 Z hZ)
  | no st s c =>
    rw [Pair.check, noOk_false h tj hf] at hc; cases hc
  | early st k' cs =>
    simp only [Pair.check, Bool.and_eq_true, decide_eq_true_eq] at hc
    exact absurd (yesOk_class h tj hf (List.takeWhile_subset _ hc.1) hc.2) (hkf k' hc.1)

end AutoGR
