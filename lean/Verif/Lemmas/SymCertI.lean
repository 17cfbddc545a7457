import Verif.Lemmas.SymTree

/-!
# Certificates for the symmetries of reduced cells of type I

One tree for each first column, up to the sign of the symmetry.
-/

namespace AutoGR

/-- All symmetries with first column `(0, 0, 0)`. -/
def treeI_0 : Tree1 :=
  .no [(3, (1, [(2, 2), (9, 1)])), (4, (1, [(3, 2), (9, 1)]))] 0 (1, [(9, 1)])

theorem treeI_0_ok : treeI_0.check true (0, 0, 0) = true := by decide +kernel

/-- All symmetries with first column `(0, 0, 1)`. -/
def treeI_1 : Tree1 :=
  .node [
    .no [(0, (1, [(5, 1), (10, 1)])), (1, (1, [(4, 1), (10, 1)])), (2, (1, [(1, 3), (2, 1), (3, 1), (5, 1), (11, 1)])), (3, (1, [(1, 1), (2, 3), (3, 1), (4, 1), (5, 1), (11, 1)])), (4, (1, [(1, 1), (2, 1), (3, 3), (4, 1), (5, 1), (11, 1)]))] 0 (1, [(1, 1), (2, 1), (3, 1), (4, 1), (5, 1), (11, 1)]),
    .no [(0, (1, [(5, 1), (10, 1)])), (1, (1, [(4, 1), (10, 1)])), (2, (1, [(1, 2), (3, 2), (5, 1), (10, 1), (14, 1)])), (3, (1, [(2, 2), (3, 2), (14, 1)])), (4, (1, [(3, 4), (14, 1)]))] 0 (1, [(3, 2), (14, 1)]),
    .no [(0, (1, [(5, 1), (10, 1)])), (1, (1, [(4, 1), (10, 1)])), (2, (1, [(3, 2), (5, 1), (7, 1), (14, 1)])), (3, (2, [(4, 1), (5, 3), (6, 2), (12, 2), (14, 1)])), (4, (2, [(4, 1), (5, 3), (6, 2), (12, 2), (14, 1), (16, 4)]))] 0 (1, [(5, 1), (6, 1), (14, 1), (16, 2)]),
    .no [(0, (1, [(5, 1), (10, 1)])), (1, (1, [(4, 1), (10, 1)])), (2, (1, [(1, 2), (2, 1), (3, 1), (5, 1), (11, 1)])), (3, (1, [(2, 3), (3, 1), (4, 1), (5, 1), (11, 1)])), (4, (1, [(2, 1), (3, 3), (4, 1), (5, 1), (11, 1)]))] 0 (1, [(2, 1), (3, 1), (4, 1), (5, 1), (11, 1)]),
    .no [(0, (1, [(5, 1), (10, 1)])), (1, (1, [(4, 1), (10, 1)]))] 1 (1, [(3, 1), (11, 1), (15, 1)]),
    .node [
      .no [(0, (1, [(5, 1), (10, 1)])), (1, (1, [(4, 1), (10, 1)])), (2, (1, [(1, 3), (2, 2), (5, 1), (15, 1)])), (3, (1, [(4, 2), (5, 2), (8, 1), (12, 2)])), (4, (1, [(4, 2), (5, 2), (7, 1), (12, 2)]))] 0 (1, [(1, 1), (2, 2), (4, 1), (5, 1), (15, 1)]),
      .no [(0, (1, [(5, 1), (10, 1)])), (1, (1, [(4, 1), (10, 1)])), (2, (1, [(1, 3), (4, 1), (5, 2), (8, 1), (12, 2), (15, 1)])), (3, (1, [(4, 2), (5, 2), (8, 1), (12, 2)])), (4, (1, [(4, 2), (5, 2), (7, 1), (12, 2)]))] 0 (1, [(1, 1), (4, 2), (5, 2), (8, 1), (12, 2), (15, 1)]),
      .no [(0, (1, [(5, 1), (10, 1)])), (1, (1, [(4, 1), (10, 1)])), (2, (1, [(3, 1), (5, 1), (7, 1), (18, 1)])), (3, (1, [(4, 2), (5, 2), (8, 1), (12, 2)])), (4, (1, [(4, 2), (5, 2), (7, 1), (12, 2)]))] 0 (1, [(4, 2), (5, 4), (6, 2), (7, 3), (12, 2), (18, 2)]),
      .no [(0, (1, [(5, 1), (10, 1)])), (1, (1, [(4, 1), (10, 1)])), (2, (1, [(1, 2), (2, 2), (5, 1), (15, 1)])), (3, (1, [(4, 2), (5, 2), (8, 1), (12, 2)])), (4, (1, [(4, 2), (5, 2), (7, 1), (12, 2)]))] 0 (1, [(2, 2), (4, 1), (5, 1), (15, 1)]),
      .no [(0, (1, [(5, 1), (10, 1)])), (1, (1, [(4, 1), (10, 1)])), (2, (1, [(1, 2), (4, 1), (5, 2), (8, 1), (12, 2), (15, 1)])), (3, (1, [(4, 2), (5, 2), (8, 1), (12, 2)])), (4, (1, [(4, 2), (5, 2), (7, 1), (12, 2)]))] 0 (1, [(4, 2), (5, 2), (8, 1), (12, 2), (15, 1)]),
      .no [(0, (1, [(5, 1), (10, 1)])), (1, (1, [(4, 1), (10, 1)])), (2, (1, [(1, 1), (5, 1), (7, 1), (18, 1)])), (3, (1, [(4, 2), (5, 2), (8, 1), (12, 2)])), (4, (1, [(4, 2), (5, 2), (7, 1), (12, 2)]))] 0 (1, [(4, 1), (5, 2), (6, 1), (7, 2), (18, 2)]),
      .no [(0, (1, [(5, 1), (10, 1)])), (1, (1, [(4, 1), (10, 1)])), (2, (1, [(1, 1), (2, 2), (5, 1), (15, 1)])), (3, (1, [(4, 2), (5, 2), (8, 1), (12, 2)])), (4, (1, [(4, 2), (5, 2), (7, 1), (12, 2)]))] 0 (1, [(2, 4), (4, 1), (5, 2), (6, 1), (15, 2)]),
      .no [(0, (1, [(5, 1), (10, 1)])), (1, (1, [(4, 1), (10, 1)])), (2, (1, [(1, 1), (4, 1), (5, 2), (8, 1), (12, 2), (15, 1)])), (3, (1, [(4, 2), (5, 2), (8, 1), (12, 2)])), (4, (1, [(4, 2), (5, 2), (7, 1), (12, 2)]))] 0 (1, [(4, 3), (5, 4), (6, 1), (8, 2), (12, 4), (15, 2)]),
      .no [(0, (1, [(5, 1), (10, 1)])), (1, (1, [(4, 1), (10, 1)])), (2, (1, [(1, 2), (4, 1), (5, 2), (7, 2), (8, 1), (18, 2)])), (3, (1, [(4, 2), (5, 2), (8, 1), (12, 2)])), (4, (1, [(4, 2), (5, 2), (7, 1), (12, 2)]))] 0 (1, [(4, 2), (5, 2), (7, 2), (8, 1), (18, 2)]),
      .no [(0, (1, [(5, 1), (10, 1)])), (1, (1, [(4, 1), (10, 1)])), (2, (1, [(1, 3), (2, 1), (5, 1), (15, 1)])), (3, (1, [(4, 2), (5, 2), (8, 1), (12, 2)])), (4, (1, [(4, 2), (5, 2), (7, 1), (12, 2)]))] 0 (1, [(1, 1), (2, 1), (4, 1), (5, 1), (15, 1)]),
      .no [(0, (1, [(5, 1), (10, 1)])), (1, (1, [(4, 1), (10, 1)])), (2, (1, [(1, 4), (4, 1), (5, 2), (8, 1), (12, 2), (15, 2)])), (3, (1, [(4, 2), (5, 2), (8, 1), (12, 2)])), (4, (1, [(4, 2), (5, 2), (7, 1), (12, 2)]))] 0 (1, [(1, 2), (4, 2), (5, 2), (8, 1), (12, 2), (15, 2)]),
      .yes [(0, (1, [(5, 1), (10, 1)])), (1, (1, [(4, 1), (10, 1)])), (2, (1, [(4, 1), (5, 2), (7, 1), (16, 2)])), (3, (1, [(4, 2), (5, 2), (8, 1), (12, 2)])), (4, (1, [(4, 2), (5, 2), (7, 1), (12, 2)]))] 1 [((1, [(5, 1), (10, 1)]), (1, [(4, 1)])), ((1, [(4, 1), (10, 1)]), (1, [(5, 1)])), ((1, [(4, 2), (5, 2), (7, 1), (16, 2)]), (1, [(5, 1), (6, 1), (10, 1)])), ((1, [(4, 2), (5, 2), (8, 1), (12, 2)]), (1, [(7, 1)])), ((1, [(4, 2), (5, 2), (7, 1), (12, 2)]), (1, [(8, 1)]))],
      .no [(0, (1, [(5, 1), (10, 1)])), (1, (1, [(4, 1), (10, 1)])), (2, (1, [(1, 2), (2, 1), (5, 1), (15, 1)])), (3, (1, [(4, 2), (5, 2), (8, 1), (12, 2)])), (4, (1, [(4, 2), (5, 2), (7, 1), (12, 2)]))] 0 (1, [(2, 1), (4, 1), (5, 1), (15, 1)]),
      .no [(0, (1, [(5, 1), (10, 1)])), (1, (1, [(4, 1), (10, 1)])), (2, (1, [(1, 2), (4, 1), (5, 2), (8, 1), (12, 2), (15, 2)])), (3, (1, [(4, 2), (5, 2), (8, 1), (12, 2)])), (4, (1, [(4, 2), (5, 2), (7, 1), (12, 2)]))] 0 (1, [(4, 2), (5, 2), (8, 1), (12, 2), (15, 2)]),
      .no [(0, (1, [(5, 1), (10, 1)])), (1, (1, [(4, 1), (10, 1)])), (2, (1, [(1, 2), (4, 1), (5, 2), (7, 1), (16, 2)])), (3, (1, [(4, 2), (5, 2), (8, 1), (12, 2)])), (4, (1, [(4, 2), (5, 2), (7, 1), (12, 2)]))] 0 (1, [(4, 2), (5, 2), (7, 1), (16, 2)]),
      .no [(0, (1, [(5, 1), (10, 1)])), (1, (1, [(4, 1), (10, 1)])), (2, (1, [(1, 1), (2, 1), (5, 1), (15, 1)])), (3, (1, [(4, 2), (5, 2), (8, 1), (12, 2)])), (4, (1, [(4, 2), (5, 2), (7, 1), (12, 2)]))] 0 (1, [(2, 2), (4, 1), (5, 2), (6, 1), (15, 2)]),
      .no [(0, (1, [(5, 1), (10, 1)])), (1, (1, [(4, 1), (10, 1)])), (2, (1, [(4, 1), (5, 2), (8, 1), (12, 2), (15, 2)])), (3, (1, [(4, 2), (5, 2), (8, 1), (12, 2)])), (4, (1, [(4, 2), (5, 2), (7, 1), (12, 2)]))] 0 (1, [(4, 2), (5, 2), (7, 1), (12, 2), (17, 2)]),
      .no [(0, (1, [(5, 1), (10, 1)])), (1, (1, [(4, 1), (10, 1)])), (2, (1, [(1, 4), (4, 1), (5, 2), (7, 1), (16, 2)])), (3, (1, [(4, 2), (5, 2), (8, 1), (12, 2)])), (4, (1, [(4, 2), (5, 2), (7, 1), (12, 2)]))] 0 (1, [(1, 2), (4, 2), (5, 2), (7, 1), (16, 2)]),
      .no [(0, (1, [(5, 1), (10, 1)])), (1, (1, [(4, 1), (10, 1)])), (2, (1, [(1, 3), (5, 1), (15, 1)])), (3, (1, [(4, 2), (5, 2), (8, 1), (12, 2)])), (4, (1, [(4, 2), (5, 2), (7, 1), (12, 2)]))] 0 (1, [(1, 1), (4, 1), (5, 1), (15, 1)]),
      .no [(0, (1, [(5, 1), (10, 1)])), (1, (1, [(4, 1), (10, 1)])), (3, (1, [(4, 2), (5, 2), (8, 1), (12, 2)])), (4, (1, [(4, 2), (5, 2), (7, 1), (12, 2)])), (2, (1, [(4, 1), (5, 2), (7, 1), (12, 2), (15, 2), (23, 2)]))] 0 (1, [(4, 2), (5, 2), (7, 1), (12, 2), (15, 4), (23, 2)]),
      .no [(0, (1, [(5, 1), (10, 1)])), (1, (1, [(4, 1), (10, 1)])), (2, (1, [(1, 1), (5, 1), (16, 1)])), (3, (1, [(4, 2), (5, 2), (8, 1), (12, 2)])), (4, (1, [(4, 2), (5, 2), (7, 1), (12, 2)]))] 0 (1, [(4, 1), (5, 2), (6, 1), (16, 2)]),
      .no [(0, (1, [(5, 1), (10, 1)])), (1, (1, [(4, 1), (10, 1)])), (2, (1, [(1, 2), (5, 1), (15, 1)])), (3, (1, [(4, 2), (5, 2), (8, 1), (12, 2)])), (4, (1, [(4, 2), (5, 2), (7, 1), (12, 2)]))] 0 (1, [(4, 1), (5, 1), (15, 1)]),
      .no [(0, (1, [(5, 1), (10, 1)])), (1, (1, [(4, 1), (10, 1)])), (2, (1, [(1, 4), (5, 1), (7, 1), (10, 1), (17, 2)])), (3, (1, [(4, 2), (5, 2), (8, 1), (12, 2)])), (4, (1, [(4, 2), (5, 2), (7, 1), (12, 2)]))] 0 (1, [(1, 2), (7, 1), (17, 2)]),
      .no [(0, (1, [(5, 1), (10, 1)])), (1, (1, [(4, 1), (10, 1)])), (2, (1, [(1, 2), (5, 1), (16, 1)])), (3, (1, [(4, 2), (5, 2), (8, 1), (12, 2)])), (4, (1, [(4, 2), (5, 2), (7, 1), (12, 2)]))] 0 (1, [(4, 1), (5, 1), (16, 1)]),
      .no [(0, (1, [(5, 1), (10, 1)])), (1, (1, [(4, 1), (10, 1)])), (2, (1, [(1, 1), (5, 1), (15, 1)])), (3, (1, [(4, 2), (5, 2), (8, 1), (12, 2)])), (4, (1, [(4, 2), (5, 2), (7, 1), (12, 2)]))] 0 (1, [(4, 1), (5, 2), (6, 1), (15, 2)]),
      .no [(0, (1, [(5, 1), (10, 1)])), (1, (1, [(4, 1), (10, 1)])), (2, (1, [(1, 2), (5, 1), (7, 1), (12, 1), (17, 1)])), (3, (1, [(4, 2), (5, 2), (8, 1), (12, 2)])), (4, (1, [(4, 2), (5, 2), (7, 1), (12, 2)]))] 0 (1, [(4, 1), (5, 1), (7, 1), (12, 1), (17, 1)]),
      .no [(0, (1, [(5, 1), (10, 1)])), (1, (1, [(4, 1), (10, 1)])), (2, (1, [(1, 3), (5, 1), (16, 1)])), (3, (1, [(4, 2), (5, 2), (8, 1), (12, 2)])), (4, (1, [(4, 2), (5, 2), (7, 1), (12, 2)]))] 0 (1, [(1, 1), (4, 1), (5, 1), (16, 1)])],
    .no [(0, (1, [(5, 1), (10, 1)])), (1, (1, [(4, 1), (10, 1)])), (2, (1, [(1, 1), (2, 1), (3, 1), (5, 1), (11, 1)])), (3, (1, [(2, 4), (3, 2), (4, 1), (5, 2), (6, 1), (11, 2)])), (4, (1, [(2, 2), (3, 4), (4, 1), (5, 2), (6, 1), (11, 2)]))] 0 (1, [(2, 2), (3, 2), (4, 1), (5, 2), (6, 1), (11, 2)]),
    .no [(0, (1, [(5, 1), (10, 1)])), (1, (1, [(4, 1), (10, 1)])), (2, (1, [(2, 2), (5, 1), (10, 1), (11, 2), (14, 1)])), (3, (1, [(2, 2), (11, 2), (14, 1), (15, 2)])), (4, (1, [(14, 1)]))] 0 (1, [(11, 2), (14, 1), (15, 2)]),
    .no [(0, (1, [(5, 1), (10, 1)])), (1, (1, [(4, 1), (10, 1)])), (3, (1, [(1, 2), (4, 2), (5, 2), (8, 1), (12, 2)])), (4, (1, [(1, 2), (4, 2), (5, 2), (7, 1), (12, 2)])), (2, (1, [(4, 1), (5, 2), (7, 1), (12, 2), (17, 2)]))] 0 (1, [(4, 4), (5, 4), (7, 2), (8, 1), (12, 4), (17, 2)]),
    .no [(0, (1, [(5, 1), (10, 1)])), (1, (1, [(4, 1), (10, 1)])), (2, (1, [(1, 3), (3, 1), (5, 1), (11, 1)])), (3, (1, [(1, 1), (2, 2), (3, 1), (4, 1), (5, 1), (11, 1)])), (4, (1, [(1, 1), (3, 3), (4, 1), (5, 1), (11, 1)]))] 0 (1, [(1, 1), (3, 1), (4, 1), (5, 1), (11, 1)]),
    .no [(0, (1, [(5, 1), (10, 1)])), (1, (1, [(4, 1), (10, 1)]))] 1 (1, [(3, 1), (11, 1)]),
    .node [
      .no [(0, (1, [(5, 1), (10, 1)])), (1, (1, [(4, 1), (10, 1)])), (2, (1, [(4, 1), (5, 2), (8, 1), (12, 2)])), (3, (1, [(1, 1), (2, 4), (4, 1), (5, 1), (15, 1)])), (4, (1, [(4, 1), (5, 2), (6, 1), (12, 2)]))] 0 (1, [(1, 1), (2, 2), (4, 1), (5, 1), (15, 1)]),
      .no [(0, (1, [(5, 1), (10, 1)])), (1, (1, [(4, 1), (10, 1)])), (2, (1, [(4, 1), (5, 2), (8, 1), (12, 2)])), (3, (1, [(2, 6), (4, 2), (5, 2), (8, 1), (12, 2), (15, 2)])), (4, (1, [(4, 1), (5, 2), (6, 1), (12, 2)]))] 0 (1, [(2, 4), (4, 2), (5, 2), (8, 1), (12, 2), (15, 2)]),
      .no [(0, (1, [(5, 1), (10, 1)])), (1, (1, [(4, 1), (10, 1)])), (2, (1, [(4, 1), (5, 2), (8, 1), (12, 2)])), (3, (3, [(4, 3), (5, 6), (6, 5), (12, 2), (16, 2), (18, 2)])), (4, (1, [(4, 1), (5, 2), (6, 1), (12, 2)]))] 0 (1, [(4, 2), (5, 4), (6, 4), (7, 1), (12, 2), (18, 2)]),
      .no [(0, (1, [(5, 1), (10, 1)])), (1, (1, [(4, 1), (10, 1)])), (2, (1, [(4, 1), (5, 2), (8, 1), (12, 2)])), (3, (1, [(2, 4), (4, 1), (5, 1), (15, 1)])), (4, (1, [(4, 1), (5, 2), (6, 1), (12, 2)]))] 0 (1, [(2, 2), (4, 1), (5, 1), (15, 1)]),
      .no [(0, (1, [(5, 1), (10, 1)])), (1, (1, [(4, 1), (10, 1)])), (2, (1, [(4, 1), (5, 2), (8, 1), (12, 2)])), (3, (1, [(4, 2), (5, 2), (8, 1), (12, 2), (21, 2)])), (4, (1, [(4, 1), (5, 2), (6, 1), (12, 2)]))] 0 (1, [(4, 2), (5, 2), (8, 1), (12, 2), (15, 1), (21, 2)]),
      .yes [(0, (1, [(5, 1), (10, 1)])), (1, (1, [(4, 1), (10, 1)])), (2, (1, [(4, 1), (5, 2), (8, 1), (12, 2)])), (3, (1, [(4, 1), (5, 1), (16, 1)])), (4, (1, [(4, 1), (5, 2), (6, 1), (12, 2)]))] 1 [((1, [(5, 1), (10, 1)]), (1, [(4, 1)])), ((1, [(4, 1), (10, 1)]), (1, [(5, 1)])), ((1, [(4, 2), (5, 2), (8, 1), (12, 2)]), (1, [(5, 1), (6, 1), (10, 1)])), ((1, [(4, 1), (5, 1), (16, 1)]), (1, [(7, 1)])), ((1, [(4, 1), (5, 2), (6, 1), (12, 2)]), (1, [(8, 1)]))],
      .no [(0, (1, [(5, 1), (10, 1)])), (1, (1, [(4, 1), (10, 1)])), (2, (1, [(4, 1), (5, 2), (8, 1), (12, 2)])), (3, (1, [(2, 6), (4, 1), (5, 2), (6, 1), (15, 2)])), (4, (1, [(4, 1), (5, 2), (6, 1), (12, 2)]))] 0 (1, [(2, 4), (4, 1), (5, 2), (6, 1), (15, 2)]),
      .no [(0, (1, [(5, 1), (10, 1)])), (1, (1, [(4, 1), (10, 1)])), (2, (1, [(4, 1), (5, 2), (8, 1), (12, 2)])), (3, (3, [(4, 6), (5, 4), (8, 3), (12, 4), (16, 4), (17, 2)])), (4, (1, [(4, 1), (5, 2), (6, 1), (12, 2)]))] 0 (1, [(1, 1), (4, 2), (8, 1), (16, 1), (17, 2)]),
      .no [(0, (1, [(5, 1), (10, 1)])), (1, (1, [(4, 1), (10, 1)])), (2, (1, [(4, 1), (5, 2), (8, 1), (12, 2)])), (3, (1, [(1, 1), (4, 1), (5, 1), (16, 1)])), (4, (1, [(4, 1), (5, 2), (6, 1), (12, 2)]))] 0 (1, [(4, 4), (5, 4), (7, 2), (8, 1), (12, 2), (16, 2)]),
      .no [(0, (1, [(5, 1), (10, 1)])), (1, (1, [(4, 1), (10, 1)])), (2, (1, [(4, 1), (5, 2), (8, 1), (12, 2)])), (3, (1, [(1, 1), (2, 3), (4, 1), (5, 1), (15, 1)])), (4, (1, [(4, 1), (5, 2), (6, 1), (12, 2)]))] 0 (1, [(1, 1), (2, 1), (4, 1), (5, 1), (15, 1)]),
      .no [(0, (1, [(5, 1), (10, 1)])), (1, (1, [(4, 1), (10, 1)])), (2, (1, [(4, 1), (5, 2), (8, 1), (12, 2)])), (3, (1, [(2, 4), (4, 2), (5, 2), (8, 1), (12, 2), (15, 2)])), (4, (1, [(4, 1), (5, 2), (6, 1), (12, 2)]))] 0 (1, [(2, 2), (4, 2), (5, 2), (8, 1), (12, 2), (15, 2)]),
      .no [(0, (1, [(5, 1), (10, 1)])), (1, (1, [(4, 1), (10, 1)])), (2, (1, [(4, 1), (5, 2), (8, 1), (12, 2)])), (3, (1, [(4, 1), (5, 2), (6, 1), (16, 2)])), (4, (1, [(4, 1), (5, 2), (6, 1), (12, 2)]))] 0 (1, [(4, 1), (5, 2), (6, 3), (18, 2)]),
      .no [(0, (1, [(5, 1), (10, 1)])), (1, (1, [(4, 1), (10, 1)])), (2, (1, [(4, 1), (5, 2), (8, 1), (12, 2)])), (3, (1, [(2, 3), (4, 1), (5, 1), (15, 1)])), (4, (1, [(4, 1), (5, 2), (6, 1), (12, 2)]))] 0 (1, [(2, 1), (4, 1), (5, 1), (15, 1)]),
      .no [(0, (1, [(5, 1), (10, 1)])), (1, (1, [(4, 1), (10, 1)])), (2, (1, [(4, 1), (5, 2), (8, 1), (12, 2)])), (3, (1, [(2, 2), (4, 2), (5, 2), (8, 1), (12, 2), (17, 2)])), (4, (1, [(4, 1), (5, 2), (6, 1), (12, 2)]))] 0 (1, [(4, 2), (5, 2), (8, 1), (12, 2), (17, 2)]),
      .no [(0, (1, [(5, 1), (10, 1)])), (1, (1, [(4, 1), (10, 1)])), (2, (1, [(4, 1), (5, 2), (8, 1), (12, 2)])), (3, (1, [(2, 1), (4, 1), (5, 1), (16, 1)])), (4, (1, [(4, 1), (5, 2), (6, 1), (12, 2)]))] 0 (1, [(4, 2), (5, 2), (7, 1), (16, 2)]),
      .no [(0, (1, [(5, 1), (10, 1)])), (1, (1, [(4, 1), (10, 1)])), (2, (1, [(4, 1), (5, 2), (8, 1), (12, 2)])), (3, (1, [(2, 4), (4, 1), (5, 2), (6, 1), (15, 2)])), (4, (1, [(4, 1), (5, 2), (6, 1), (12, 2)]))] 0 (1, [(2, 2), (4, 1), (5, 2), (6, 1), (15, 2)]),
      .no [(0, (1, [(5, 1), (10, 1)])), (1, (1, [(4, 1), (10, 1)])), (2, (1, [(4, 1), (5, 2), (8, 1), (12, 2)])), (3, (1, [(4, 2), (5, 2), (8, 1), (12, 2), (16, 2)])), (4, (1, [(4, 1), (5, 2), (6, 1), (12, 2)]))] 0 (1, [(4, 1), (17, 1)]),
      .no [(0, (1, [(5, 1), (10, 1)])), (1, (1, [(4, 1), (10, 1)])), (2, (1, [(4, 1), (5, 2), (8, 1), (12, 2)])), (3, (1, [(1, 1), (2, 1), (4, 1), (5, 1), (16, 1)])), (4, (1, [(4, 1), (5, 2), (6, 1), (12, 2)]))] 0 (1, [(1, 2), (4, 2), (5, 2), (7, 1), (16, 2)]),
      .no [(0, (1, [(5, 1), (10, 1)])), (1, (1, [(4, 1), (10, 1)])), (2, (1, [(4, 1), (5, 2), (8, 1), (12, 2)])), (3, (1, [(1, 1), (2, 2), (4, 1), (5, 1), (15, 1)])), (4, (1, [(4, 1), (5, 2), (6, 1), (12, 2)]))] 0 (1, [(1, 1), (4, 1), (5, 1), (15, 1)]),
      .no [(0, (1, [(5, 1), (10, 1)])), (1, (1, [(4, 1), (10, 1)])), (2, (1, [(4, 1), (5, 2), (8, 1), (12, 2)])), (3, (1, [(2, 2), (4, 2), (5, 2), (8, 1), (12, 2), (15, 2)])), (4, (1, [(4, 1), (5, 2), (6, 1), (12, 2)]))] 0 (1, [(4, 2), (5, 2), (8, 1), (12, 2), (15, 2)]),
      .no [(0, (1, [(5, 1), (10, 1)])), (1, (1, [(4, 1), (10, 1)])), (2, (1, [(4, 1), (5, 2), (8, 1), (12, 2)])), (3, (1, [(2, 2), (4, 1), (5, 2), (6, 1), (16, 2)])), (4, (1, [(4, 1), (5, 2), (6, 1), (12, 2)]))] 0 (1, [(4, 1), (5, 2), (6, 1), (16, 2)]),
      .no [(0, (1, [(5, 1), (10, 1)])), (1, (1, [(4, 1), (10, 1)])), (2, (1, [(4, 1), (5, 2), (8, 1), (12, 2)])), (3, (1, [(2, 2), (4, 1), (5, 1), (15, 1)])), (4, (1, [(4, 1), (5, 2), (6, 1), (12, 2)]))] 0 (1, [(4, 1), (5, 1), (15, 1)]),
      .no [(0, (1, [(5, 1), (10, 1)])), (1, (1, [(4, 1), (10, 1)])), (2, (1, [(4, 1), (5, 2), (8, 1), (12, 2)])), (3, (1, [(2, 1), (4, 1), (5, 1), (12, 1), (17, 1)])), (4, (1, [(4, 1), (5, 2), (6, 1), (12, 2)]))] 0 (1, [(4, 2), (5, 2), (7, 1), (12, 2), (17, 2)]),
      .no [(0, (1, [(5, 1), (10, 1)])), (1, (1, [(4, 1), (10, 1)])), (2, (1, [(4, 1), (5, 2), (8, 1), (12, 2)])), (3, (1, [(2, 2), (4, 1), (5, 1), (16, 1)])), (4, (1, [(4, 1), (5, 2), (6, 1), (12, 2)]))] 0 (1, [(4, 1), (5, 1), (16, 1)]),
      .no [(0, (1, [(5, 1), (10, 1)])), (1, (1, [(4, 1), (10, 1)])), (2, (1, [(4, 1), (5, 2), (8, 1), (12, 2)])), (3, (1, [(2, 2), (4, 1), (5, 2), (6, 1), (15, 2)])), (4, (1, [(4, 1), (5, 2), (6, 1), (12, 2)]))] 0 (1, [(4, 1), (5, 2), (6, 1), (15, 2)]),
      .no [(0, (1, [(5, 1), (10, 1)])), (1, (1, [(4, 1), (10, 1)])), (2, (1, [(4, 1), (5, 2), (8, 1), (12, 2)])), (3, (1, [(2, 2), (4, 2), (5, 2), (8, 1), (12, 2), (16, 2)])), (4, (1, [(4, 1), (5, 2), (6, 1), (12, 2)]))] 0 (1, [(4, 2), (5, 2), (8, 1), (12, 2), (16, 2)]),
      .no [(0, (1, [(5, 1), (10, 1)])), (1, (1, [(4, 1), (10, 1)])), (2, (1, [(4, 1), (5, 2), (8, 1), (12, 2)])), (3, (1, [(1, 1), (2, 2), (4, 1), (5, 1), (16, 1)])), (4, (1, [(4, 1), (5, 2), (6, 1), (12, 2)]))] 0 (1, [(1, 1), (4, 1), (5, 1), (16, 1)])],
    .no [(0, (1, [(5, 1), (10, 1)])), (1, (1, [(4, 1), (10, 1)])), (2, (1, [(1, 2), (3, 1), (5, 1), (11, 1)])), (3, (1, [(2, 2), (3, 1), (4, 1), (5, 1), (11, 1)])), (4, (1, [(3, 3), (4, 1), (5, 1), (11, 1)]))] 0 (1, [(3, 1), (4, 1), (5, 1), (11, 1)]),
    .no [(0, (1, [(5, 1), (10, 1)])), (1, (1, [(4, 1), (10, 1)])), (2, (1, [(1, 2), (13, 1)])), (3, (1, [(2, 2), (4, 1), (13, 1)])), (4, (1, [(3, 2), (4, 1), (13, 1)]))] 0 (1, [(4, 1), (13, 1)]),
    .no [(0, (1, [(5, 1), (10, 1)])), (1, (1, [(4, 1), (10, 1)])), (2, (1, [(1, 2), (4, 1), (5, 2), (8, 1), (12, 2)])), (3, (1, [(2, 2), (4, 2), (5, 2), (8, 1), (12, 2)])), (4, (1, [(3, 1), (4, 1), (5, 1), (12, 1)]))] 0 (1, [(4, 2), (5, 2), (8, 1), (12, 2)]),
    .no [(0, (1, [(5, 1), (10, 1)])), (1, (1, [(4, 1), (10, 1)])), (2, (1, [(1, 1), (3, 1), (5, 1), (11, 1)])), (3, (1, [(2, 2), (3, 2), (4, 1), (5, 2), (6, 1), (11, 2)])), (4, (1, [(3, 4), (4, 1), (5, 2), (6, 1), (11, 2)]))] 0 (1, [(3, 2), (4, 1), (5, 2), (6, 1), (11, 2)]),
    .node [
      .no [(0, (1, [(5, 1), (10, 1)])), (1, (1, [(4, 1), (10, 1)])), (2, (1, [(1, 3), (2, 2), (5, 1), (15, 1)])), (3, (1, [(1, 1), (2, 4), (4, 1), (5, 1), (15, 1)])), (4, (1, [(1, 1), (2, 2), (3, 2), (4, 1), (5, 1), (15, 1)]))] 0 (1, [(1, 1), (2, 2), (4, 1), (5, 1), (15, 1)]),
      .no [(0, (1, [(5, 1), (10, 1)])), (1, (1, [(4, 1), (10, 1)])), (2, (1, [(1, 3), (3, 1), (17, 1)])), (3, (1, [(1, 1), (2, 2), (3, 1), (4, 1), (17, 1)])), (4, (1, [(1, 1), (3, 3), (4, 1), (17, 1)]))] 0 (1, [(1, 1), (3, 1), (4, 1), (17, 1)]),
      .no [(0, (1, [(5, 1), (10, 1)])), (1, (1, [(4, 1), (10, 1)])), (2, (1, [(1, 2), (3, 1), (17, 1)])), (3, (3, [(4, 3), (5, 3), (6, 1), (12, 1), (16, 3), (17, 1)])), (4, (1, [(3, 3), (4, 1), (17, 1)]))] 0 (1, [(1, 1), (4, 1), (12, 1), (17, 1)]),
      .no [(0, (1, [(5, 1), (10, 1)])), (1, (1, [(4, 1), (10, 1)])), (2, (1, [(1, 2), (2, 2), (5, 1), (15, 1)])), (3, (1, [(2, 4), (4, 1), (5, 1), (15, 1)])), (4, (1, [(2, 2), (3, 2), (4, 1), (5, 1), (15, 1)]))] 0 (1, [(2, 2), (4, 1), (5, 1), (15, 1)]),
      .no [(0, (1, [(5, 1), (10, 1)])), (1, (1, [(4, 1), (10, 1)]))] 1 (2, [(12, 1), (17, 1)]),
      .no [(0, (1, [(5, 1), (10, 1)])), (1, (1, [(4, 1), (10, 1)])), (2, (1, [(5, 1), (11, 2), (16, 1), (22, 2)])), (3, (1, [(4, 1), (5, 1), (16, 1)])), (4, (1, [(4, 1), (5, 1), (16, 1), (22, 2)]))] 0 (1, [(4, 1), (5, 1), (16, 1), (17, 2), (22, 2)]),
      .no [(0, (1, [(5, 1), (10, 1)])), (1, (1, [(4, 1), (10, 1)])), (2, (1, [(1, 1), (2, 2), (5, 1), (15, 1)])), (3, (1, [(2, 6), (4, 1), (5, 2), (6, 1), (15, 2)])), (4, (1, [(2, 4), (3, 2), (4, 1), (5, 2), (6, 1), (15, 2)]))] 0 (1, [(2, 4), (4, 1), (5, 2), (6, 1), (15, 2)]),
      .no [(0, (1, [(5, 1), (10, 1)])), (1, (1, [(4, 1), (10, 1)])), (2, (1, [(4, 1), (8, 1), (18, 2)])), (3, (1, [(4, 2), (8, 1), (18, 2), (21, 2)])), (4, (1, [(4, 1), (6, 1), (18, 2)]))] 0 (1, [(4, 2), (8, 1), (15, 2), (18, 2), (21, 4)]),
      .no [(0, (1, [(5, 1), (10, 1)])), (1, (1, [(4, 1), (10, 1)])), (2, (1, [(1, 2), (4, 1), (8, 1), (18, 2)])), (3, (1, [(1, 1), (4, 1), (5, 1), (16, 1)])), (4, (1, [(3, 1), (4, 1), (18, 1)]))] 0 (1, [(4, 2), (8, 1), (18, 2)]),
      .no [(0, (1, [(5, 1), (10, 1)])), (1, (1, [(4, 1), (10, 1)])), (2, (1, [(1, 3), (2, 1), (5, 1), (15, 1)])), (3, (1, [(1, 1), (2, 3), (4, 1), (5, 1), (15, 1)])), (4, (1, [(1, 1), (2, 1), (3, 2), (4, 1), (5, 1), (15, 1)]))] 0 (1, [(1, 1), (2, 1), (4, 1), (5, 1), (15, 1)]),
      .no [(0, (1, [(5, 1), (10, 1)])), (1, (1, [(4, 1), (10, 1)])), (2, (1, [(1, 3), (17, 1)])), (3, (1, [(1, 1), (2, 2), (4, 1), (17, 1)])), (4, (1, [(1, 1), (3, 2), (4, 1), (17, 1)]))] 0 (1, [(1, 1), (4, 1), (17, 1)]),
      .no [(0, (1, [(5, 1), (10, 1)])), (1, (1, [(4, 1), (10, 1)])), (2, (1, [(4, 1), (5, 2), (7, 1), (16, 2)])), (3, (1, [(4, 1), (5, 2), (6, 1), (16, 2)])), (4, (1, [(4, 2), (5, 2), (7, 1), (12, 2), (16, 2)]))] 0 (1, [(4, 1), (17, 1)]),
      .no [(0, (1, [(5, 1), (10, 1)])), (1, (1, [(4, 1), (10, 1)])), (2, (1, [(1, 2), (2, 1), (5, 1), (15, 1)])), (3, (1, [(2, 3), (4, 1), (5, 1), (15, 1)])), (4, (1, [(2, 1), (3, 2), (4, 1), (5, 1), (15, 1)]))] 0 (1, [(2, 1), (4, 1), (5, 1), (15, 1)]),
      .no [(0, (1, [(5, 1), (10, 1)])), (1, (1, [(4, 1), (10, 1)])), (2, (1, [(1, 2), (5, 1), (19, 1)])), (3, (1, [(2, 2), (4, 1), (5, 1), (19, 1)])), (4, (1, [(3, 2), (4, 1), (5, 1), (19, 1)]))] 0 (1, [(4, 1), (5, 1), (19, 1)]),
      .no [(0, (1, [(5, 1), (10, 1)])), (1, (1, [(4, 1), (10, 1)])), (2, (1, [(1, 2), (4, 1), (5, 2), (7, 1), (16, 2)])), (3, (1, [(2, 1), (4, 1), (5, 1), (16, 1)])), (4, (1, [(3, 2), (4, 2), (5, 2), (7, 1), (16, 2)]))] 0 (1, [(4, 2), (5, 2), (7, 1), (16, 2)]),
      .no [(0, (1, [(5, 1), (10, 1)])), (1, (1, [(4, 1), (10, 1)])), (2, (1, [(1, 1), (2, 1), (5, 1), (15, 1)])), (3, (1, [(2, 4), (4, 1), (5, 2), (6, 1), (15, 2)])), (4, (1, [(2, 2), (3, 2), (4, 1), (5, 2), (6, 1), (15, 2)]))] 0 (1, [(2, 2), (4, 1), (5, 2), (6, 1), (15, 2)]),
      .no [(0, (1, [(5, 1), (10, 1)])), (1, (1, [(4, 1), (10, 1)])), (2, (1, [(1, 1), (18, 1)])), (3, (1, [(2, 2), (4, 1), (6, 1), (18, 2)])), (4, (1, [(3, 2), (4, 1), (6, 1), (18, 2)]))] 0 (1, [(4, 1), (6, 1), (18, 2)]),
      .no [(0, (1, [(5, 1), (10, 1)])), (1, (1, [(4, 1), (10, 1)])), (2, (1, [(1, 4), (4, 1), (5, 2), (7, 1), (16, 2)])), (3, (1, [(1, 1), (2, 1), (4, 1), (5, 1), (16, 1)])), (4, (1, [(1, 2), (3, 2), (4, 2), (5, 2), (7, 1), (16, 2)]))] 0 (1, [(1, 2), (4, 2), (5, 2), (7, 1), (16, 2)]),
      .no [(0, (1, [(5, 1), (10, 1)])), (1, (1, [(4, 1), (10, 1)])), (2, (1, [(1, 3), (5, 1), (15, 1)])), (3, (1, [(1, 1), (2, 2), (4, 1), (5, 1), (15, 1)])), (4, (1, [(1, 1), (3, 2), (4, 1), (5, 1), (15, 1)]))] 0 (1, [(1, 1), (4, 1), (5, 1), (15, 1)]),
      .no [(0, (1, [(5, 1), (10, 1)])), (1, (1, [(4, 1), (10, 1)])), (2, (1, [(1, 4), (4, 1), (8, 1), (17, 2)])), (3, (1, [(1, 2), (2, 2), (4, 2), (8, 1), (17, 2)])), (4, (1, [(1, 1), (3, 1), (4, 1), (17, 1)]))] 0 (1, [(1, 2), (4, 2), (8, 1), (17, 2)]),
      .no [(0, (1, [(5, 1), (10, 1)])), (1, (1, [(4, 1), (10, 1)])), (2, (1, [(1, 1), (5, 1), (16, 1)])), (3, (1, [(2, 2), (4, 1), (5, 2), (6, 1), (16, 2)])), (4, (1, [(3, 2), (4, 1), (5, 2), (6, 1), (16, 2)]))] 0 (1, [(4, 1), (5, 2), (6, 1), (16, 2)]),
      .no [(0, (1, [(5, 1), (10, 1)])), (1, (1, [(4, 1), (10, 1)])), (2, (1, [(1, 2), (5, 1), (15, 1)])), (3, (1, [(2, 2), (4, 1), (5, 1), (15, 1)])), (4, (1, [(3, 2), (4, 1), (5, 1), (15, 1)]))] 0 (1, [(4, 1), (5, 1), (15, 1)]),
      .yes [(0, (1, [(5, 1), (10, 1)])), (1, (1, [(4, 1), (10, 1)]))] 2 [((1, [(5, 1), (10, 1)]), (1, [(4, 1)])), ((1, [(4, 1), (10, 1)]), (1, [(5, 1)])), ((1, [(21, 1)]), (1, [(11, 1), (22, 1)])), ((1, [(12, 1)]), (1, [(11, 1)]))],
      .no [(0, (1, [(5, 1), (10, 1)])), (1, (1, [(4, 1), (10, 1)])), (2, (1, [(1, 2), (5, 1), (16, 1)])), (3, (1, [(2, 2), (4, 1), (5, 1), (16, 1)])), (4, (1, [(3, 2), (4, 1), (5, 1), (16, 1)]))] 0 (1, [(4, 1), (5, 1), (16, 1)]),
      .no [(0, (1, [(5, 1), (10, 1)])), (1, (1, [(4, 1), (10, 1)])), (2, (1, [(1, 1), (5, 1), (15, 1)])), (3, (1, [(2, 2), (4, 1), (5, 2), (6, 1), (15, 2)])), (4, (1, [(3, 2), (4, 1), (5, 2), (6, 1), (15, 2)]))] 0 (1, [(4, 1), (5, 2), (6, 1), (15, 2)]),
      .no [(0, (1, [(5, 1), (10, 1)])), (1, (1, [(4, 1), (10, 1)])), (2, (1, [(1, 1), (3, 1), (18, 1)])), (3, (1, [(2, 2), (3, 2), (4, 1), (6, 1), (18, 2)])), (4, (1, [(3, 4), (4, 1), (6, 1), (18, 2)]))] 0 (1, [(3, 2), (4, 1), (6, 1), (18, 2)]),
      .no [(0, (1, [(5, 1), (10, 1)])), (1, (1, [(4, 1), (10, 1)])), (2, (1, [(1, 3), (5, 1), (16, 1)])), (3, (1, [(1, 1), (2, 2), (4, 1), (5, 1), (16, 1)])), (4, (1, [(1, 1), (3, 2), (4, 1), (5, 1), (16, 1)]))] 0 (1, [(1, 1), (4, 1), (5, 1), (16, 1)])],
    .no [(0, (1, [(5, 1), (10, 1)])), (1, (1, [(4, 1), (10, 1)])), (2, (1, [(1, 4), (4, 1), (5, 2), (8, 1), (12, 2)])), (3, (1, [(1, 2), (2, 2), (4, 2), (5, 2), (8, 1), (12, 2)])), (4, (1, [(1, 1), (3, 1), (4, 1), (5, 1), (12, 1)]))] 0 (1, [(1, 2), (4, 2), (5, 2), (8, 1), (12, 2)]),
    .no [(0, (1, [(5, 1), (10, 1)])), (1, (1, [(4, 1), (10, 1)])), (2, (1, [(1, 4), (3, 2), (4, 1), (5, 2), (7, 1), (11, 2)])), (3, (1, [(1, 1), (2, 1), (3, 1), (4, 1), (5, 1), (11, 1)])), (4, (1, [(1, 2), (3, 4), (4, 2), (5, 2), (7, 1), (11, 2)]))] 0 (1, [(1, 2), (3, 2), (4, 2), (5, 2), (7, 1), (11, 2)]),
    .no [(0, (1, [(5, 1), (10, 1)])), (1, (1, [(4, 1), (10, 1)])), (3, (1, [(1, 2), (11, 2), (14, 1)])), (4, (1, [(14, 1)])), (2, (1, [(5, 1), (7, 1), (10, 1), (11, 2), (14, 2), (17, 2)]))] 0 (1, [(7, 2), (11, 4), (14, 3), (17, 2)]),
    .no [(0, (1, [(5, 1), (10, 1)])), (1, (1, [(4, 1), (10, 1)])), (2, (1, [(2, 2), (4, 1), (5, 2), (8, 1), (12, 2)])), (3, (1, [(2, 2), (4, 2), (5, 2), (8, 1), (12, 2), (15, 2)])), (4, (1, [(2, 2), (4, 1), (5, 2), (6, 1), (12, 2)]))] 0 (1, [(4, 2), (5, 2), (8, 1), (12, 2), (15, 2)]),
    .no [(0, (1, [(5, 1), (10, 1)])), (1, (1, [(4, 1), (10, 1)])), (2, (1, [(1, 2), (3, 2), (4, 1), (5, 2), (7, 1), (11, 2)])), (3, (1, [(2, 1), (3, 1), (4, 1), (5, 1), (11, 1)])), (4, (1, [(3, 4), (4, 2), (5, 2), (7, 1), (11, 2)]))] 0 (1, [(3, 2), (4, 2), (5, 2), (7, 1), (11, 2)]),
    .node [
      .no [(0, (1, [(5, 1), (10, 1)])), (1, (1, [(4, 1), (10, 1)])), (2, (1, [(1, 3), (2, 2), (5, 1), (15, 1)])), (3, (1, [(1, 1), (2, 4), (4, 1), (5, 1), (15, 1)])), (4, (1, [(1, 1), (2, 2), (3, 2), (4, 1), (5, 1), (15, 1)]))] 0 (1, [(1, 1), (2, 2), (4, 1), (5, 1), (15, 1)]),
      .no [(0, (1, [(5, 1), (10, 1)])), (1, (1, [(4, 1), (10, 1)])), (2, (1, [(1, 3), (3, 1), (5, 1), (10, 1), (17, 1)])), (3, (1, [(1, 1), (2, 2), (3, 1), (17, 1)])), (4, (1, [(1, 1), (3, 3), (17, 1)]))] 0 (1, [(1, 1), (3, 1), (17, 1)]),
      .no [(0, (1, [(5, 1), (10, 1)])), (1, (1, [(4, 1), (10, 1)])), (2, (1, [(1, 3), (5, 1), (10, 1), (12, 1), (17, 1)])), (3, (3, [(4, 2), (5, 3), (6, 1), (12, 1), (16, 3), (17, 1)])), (4, (3, [(4, 2), (5, 3), (6, 1), (12, 7), (16, 3), (17, 1)]))] 0 (1, [(1, 1), (12, 1), (17, 1)]),
      .no [(0, (1, [(5, 1), (10, 1)])), (1, (1, [(4, 1), (10, 1)])), (2, (1, [(1, 2), (2, 2), (5, 1), (15, 1)])), (3, (1, [(2, 4), (4, 1), (5, 1), (15, 1)])), (4, (1, [(2, 2), (3, 2), (4, 1), (5, 1), (15, 1)]))] 0 (1, [(2, 2), (4, 1), (5, 1), (15, 1)]),
      .no [(0, (1, [(5, 1), (10, 1)])), (1, (1, [(4, 1), (10, 1)])), (2, (1, [(1, 3), (5, 1), (10, 1), (17, 1)])), (3, (1, [(1, 1), (2, 2), (17, 1)])), (4, (1, [(1, 1), (3, 2), (17, 1)]))] 0 (1, [(1, 1), (17, 1)]),
      .no [(0, (1, [(5, 1), (10, 1)])), (1, (1, [(4, 1), (10, 1)])), (2, (1, [(1, 4), (5, 1), (7, 1), (10, 1), (17, 2)])), (3, (1, [(4, 1), (5, 1), (16, 1)])), (4, (1, [(4, 1), (5, 1), (12, 2), (16, 1)]))] 0 (1, [(1, 2), (7, 1), (17, 2)]),
      .no [(0, (1, [(5, 1), (10, 1)])), (1, (1, [(4, 1), (10, 1)])), (2, (1, [(1, 1), (2, 2), (5, 1), (15, 1)])), (3, (1, [(2, 6), (4, 1), (5, 2), (6, 1), (15, 2)])), (4, (1, [(2, 4), (3, 2), (4, 1), (5, 2), (6, 1), (15, 2)]))] 0 (1, [(2, 4), (4, 1), (5, 2), (6, 1), (15, 2)]),
      .no [(0, (1, [(5, 1), (10, 1)])), (1, (1, [(4, 1), (10, 1)])), (2, (1, [(1, 4), (5, 1), (8, 1), (10, 1), (17, 2)])), (3, (1, [(1, 2), (2, 2), (8, 1), (17, 2)])), (4, (1, [(1, 1), (3, 1), (17, 1)]))] 0 (1, [(1, 2), (8, 1), (17, 2)]),
      .no [(0, (1, [(5, 1), (10, 1)])), (1, (1, [(4, 1), (10, 1)])), (3, (1, [(1, 1), (4, 1), (5, 1), (16, 1)])), (4, (1, [(1, 1), (4, 1), (5, 1), (12, 2), (16, 1)])), (2, (1, [(4, 1), (5, 2), (7, 1), (12, 2), (16, 2), (23, 2)]))] 0 (1, [(4, 4), (5, 4), (7, 3), (12, 2), (16, 4), (23, 2)]),
      .no [(0, (1, [(5, 1), (10, 1)])), (1, (1, [(4, 1), (10, 1)])), (2, (1, [(1, 3), (2, 1), (5, 1), (15, 1)])), (3, (1, [(1, 1), (2, 3), (4, 1), (5, 1), (15, 1)])), (4, (1, [(1, 1), (2, 1), (3, 2), (4, 1), (5, 1), (15, 1)]))] 0 (1, [(1, 1), (2, 1), (4, 1), (5, 1), (15, 1)]),
      .no [(0, (1, [(5, 1), (10, 1)])), (1, (1, [(4, 1), (10, 1)]))] 1 (1, [(2, 1), (15, 1)]),
      .no [(0, (1, [(5, 1), (10, 1)])), (1, (1, [(4, 1), (10, 1)])), (2, (1, [(4, 1), (5, 2), (7, 1), (16, 2)])), (3, (1, [(4, 1), (5, 2), (6, 1), (16, 2)])), (4, (1, [(4, 1), (5, 2), (6, 1), (12, 2), (16, 2)]))] 0 (1, [(4, 2), (5, 2), (7, 1), (12, 2), (16, 2), (17, 2)]),
      .no [(0, (1, [(5, 1), (10, 1)])), (1, (1, [(4, 1), (10, 1)])), (2, (1, [(1, 2), (2, 1), (5, 1), (15, 1)])), (3, (1, [(2, 3), (4, 1), (5, 1), (15, 1)])), (4, (1, [(2, 1), (3, 2), (4, 1), (5, 1), (15, 1)]))] 0 (1, [(2, 1), (4, 1), (5, 1), (15, 1)]),
      .no [(0, (1, [(5, 1), (10, 1)])), (1, (1, [(4, 1), (10, 1)])), (2, (1, [(1, 2), (5, 1), (19, 1)])), (3, (1, [(2, 2), (4, 1), (5, 1), (19, 1)])), (4, (1, [(3, 2), (4, 1), (5, 1), (19, 1)]))] 0 (1, [(4, 1), (5, 1), (19, 1)]),
      .no [(0, (1, [(5, 1), (10, 1)])), (1, (1, [(4, 1), (10, 1)])), (2, (1, [(1, 2), (4, 1), (5, 2), (7, 1), (16, 2)])), (3, (1, [(2, 1), (4, 1), (5, 1), (16, 1)])), (4, (1, [(3, 2), (4, 2), (5, 2), (7, 1), (16, 2)]))] 0 (1, [(4, 2), (5, 2), (7, 1), (16, 2)]),
      .no [(0, (1, [(5, 1), (10, 1)])), (1, (1, [(4, 1), (10, 1)])), (2, (1, [(1, 1), (2, 1), (5, 1), (15, 1)])), (3, (1, [(2, 4), (4, 1), (5, 2), (6, 1), (15, 2)])), (4, (1, [(2, 2), (3, 2), (4, 1), (5, 2), (6, 1), (15, 2)]))] 0 (1, [(2, 2), (4, 1), (5, 2), (6, 1), (15, 2)]),
      .yes [(0, (1, [(5, 1), (10, 1)])), (1, (1, [(4, 1), (10, 1)]))] 2 [((1, [(5, 1), (10, 1)]), (1, [(4, 1)])), ((1, [(4, 1), (10, 1)]), (1, [(5, 1)])), ((1, [(16, 1)]), (1, [(15, 1)])), ((1, [(12, 1), (16, 1)]), (1, [(11, 1), (15, 1)]))],
      .no [(0, (1, [(5, 1), (10, 1)])), (1, (1, [(4, 1), (10, 1)])), (2, (1, [(1, 4), (4, 1), (5, 2), (7, 1), (16, 2)])), (3, (1, [(1, 1), (2, 1), (4, 1), (5, 1), (16, 1)])), (4, (1, [(1, 2), (3, 2), (4, 2), (5, 2), (7, 1), (16, 2)]))] 0 (1, [(1, 2), (4, 2), (5, 2), (7, 1), (16, 2)]),
      .no [(0, (1, [(5, 1), (10, 1)])), (1, (1, [(4, 1), (10, 1)])), (2, (1, [(1, 3), (5, 1), (15, 1)])), (3, (1, [(1, 1), (2, 2), (4, 1), (5, 1), (15, 1)])), (4, (1, [(1, 1), (3, 2), (4, 1), (5, 1), (15, 1)]))] 0 (1, [(1, 1), (4, 1), (5, 1), (15, 1)]),
      .no [(0, (1, [(5, 1), (10, 1)])), (1, (1, [(4, 1), (10, 1)])), (2, (1, [(5, 1), (8, 1), (10, 1), (18, 2)])), (3, (1, [(5, 1), (6, 1), (10, 1), (11, 2), (18, 2)])), (4, (1, [(5, 1), (6, 1), (10, 1), (18, 2)]))] 0 (1, [(7, 1), (11, 2), (15, 2), (18, 2)]),
      .no [(0, (1, [(5, 1), (10, 1)])), (1, (1, [(4, 1), (10, 1)])), (2, (1, [(1, 1), (5, 1), (16, 1)])), (3, (1, [(2, 2), (4, 1), (5, 2), (6, 1), (16, 2)])), (4, (1, [(3, 2), (4, 1), (5, 2), (6, 1), (16, 2)]))] 0 (1, [(4, 1), (5, 2), (6, 1), (16, 2)]),
      .no [(0, (1, [(5, 1), (10, 1)])), (1, (1, [(4, 1), (10, 1)])), (2, (1, [(1, 2), (5, 1), (15, 1)])), (3, (1, [(2, 2), (4, 1), (5, 1), (15, 1)])), (4, (1, [(3, 2), (4, 1), (5, 1), (15, 1)]))] 0 (1, [(4, 1), (5, 1), (15, 1)]),
      .no [(0, (1, [(5, 1), (10, 1)])), (1, (1, [(4, 1), (10, 1)])), (2, (1, [(1, 1), (5, 1), (10, 1), (18, 1)])), (3, (1, [(2, 2), (5, 1), (6, 1), (10, 1), (18, 2)])), (4, (1, [(3, 2), (5, 1), (6, 1), (10, 1), (18, 2)]))] 0 (1, [(5, 1), (6, 1), (10, 1), (18, 2)]),
      .no [(0, (1, [(5, 1), (10, 1)])), (1, (1, [(4, 1), (10, 1)])), (2, (1, [(1, 2), (5, 1), (16, 1)])), (3, (1, [(2, 2), (4, 1), (5, 1), (16, 1)])), (4, (1, [(3, 2), (4, 1), (5, 1), (16, 1)]))] 0 (1, [(4, 1), (5, 1), (16, 1)]),
      .no [(0, (1, [(5, 1), (10, 1)])), (1, (1, [(4, 1), (10, 1)])), (2, (1, [(1, 1), (5, 1), (15, 1)])), (3, (1, [(2, 2), (4, 1), (5, 2), (6, 1), (15, 2)])), (4, (1, [(3, 2), (4, 1), (5, 2), (6, 1), (15, 2)]))] 0 (1, [(4, 1), (5, 2), (6, 1), (15, 2)]),
      .no [(0, (1, [(5, 1), (10, 1)])), (1, (1, [(4, 1), (10, 1)])), (2, (1, [(1, 1), (3, 1), (5, 1), (10, 1), (18, 1)])), (3, (1, [(2, 2), (3, 2), (5, 1), (6, 1), (10, 1), (18, 2)])), (4, (1, [(3, 4), (5, 1), (6, 1), (10, 1), (18, 2)]))] 0 (1, [(3, 2), (5, 1), (6, 1), (10, 1), (18, 2)]),
      .no [(0, (1, [(5, 1), (10, 1)])), (1, (1, [(4, 1), (10, 1)])), (2, (1, [(1, 3), (5, 1), (16, 1)])), (3, (1, [(1, 1), (2, 2), (4, 1), (5, 1), (16, 1)])), (4, (1, [(1, 1), (3, 2), (4, 1), (5, 1), (16, 1)]))] 0 (1, [(1, 1), (4, 1), (5, 1), (16, 1)])],
    .no [(0, (1, [(5, 1), (10, 1)])), (1, (1, [(4, 1), (10, 1)])), (2, (1, [(1, 2), (2, 2), (4, 1), (5, 2), (8, 1), (12, 2)])), (3, (1, [(2, 4), (4, 2), (5, 2), (8, 1), (12, 2)])), (4, (1, [(2, 1), (3, 1), (4, 1), (5, 1), (12, 1)]))] 0 (1, [(2, 2), (4, 2), (5, 2), (8, 1), (12, 2)]),
    .no [(0, (1, [(5, 1), (10, 1)])), (1, (1, [(4, 1), (10, 1)])), (2, (1, [(3, 2), (4, 1), (5, 2), (7, 1), (11, 2)])), (3, (1, [(3, 2), (4, 1), (5, 2), (6, 1), (11, 2)])), (4, (1, [(3, 2), (4, 1), (5, 2), (6, 1), (11, 2), (16, 2)]))] 0 (1, [(4, 1), (5, 2), (6, 1), (11, 2), (16, 2)]),
    .no [(0, (1, [(5, 1), (10, 1)])), (1, (1, [(4, 1), (10, 1)])), (2, (1, [(1, 2), (3, 2), (5, 1), (10, 1), (14, 1)])), (3, (1, [(2, 2), (3, 2), (14, 1)])), (4, (1, [(3, 4), (14, 1)]))] 0 (1, [(3, 2), (14, 1)]),
    .no [(0, (1, [(5, 1), (10, 1)])), (1, (1, [(4, 1), (10, 1)])), (2, (1, [(1, 4), (2, 2), (4, 1), (5, 2), (8, 1), (12, 2)])), (3, (1, [(1, 2), (2, 4), (4, 2), (5, 2), (8, 1), (12, 2)])), (4, (1, [(1, 1), (2, 1), (3, 1), (4, 1), (5, 1), (12, 1)]))] 0 (1, [(1, 2), (2, 2), (4, 2), (5, 2), (8, 1), (12, 2)])]

theorem treeI_1_ok : treeI_1.check true (0, 0, 1) = true := by decide +kernel

/-- All symmetries with first column `(0, 1, -1)`. -/
def treeI_2 : Tree1 :=
  .node [
    .no [(0, (1, [(5, 1), (6, 1), (10, 1)])), (1, (1, [(4, 1), (6, 1), (10, 1)])), (2, (1, [(4, 1), (5, 1), (10, 1)])), (3, (3, [(2, 8), (3, 2), (4, 3), (5, 2), (10, 1), (14, 1)])), (4, (3, [(2, 2), (3, 8), (4, 3), (5, 2), (10, 1), (14, 1)]))] 0 (3, [(2, 2), (3, 2), (4, 3), (5, 2), (10, 1), (14, 1)]),
    .no [(0, (1, [(5, 1), (6, 1), (10, 1)])), (1, (1, [(4, 1), (6, 1), (10, 1)])), (2, (1, [(4, 1), (5, 1), (10, 1)])), (3, (1, [(3, 4), (4, 1), (6, 1), (11, 2)])), (4, (1, [(3, 4), (14, 1)]))] 0 (1, [(3, 2), (14, 1)]),
    .no [(0, (1, [(5, 1), (6, 1), (10, 1)])), (1, (1, [(4, 1), (6, 1), (10, 1)])), (2, (1, [(4, 1), (5, 1), (10, 1)])), (3, (1, [(2, 1), (3, 2), (4, 1), (5, 1), (6, 1), (11, 1)])), (4, (1, [(3, 6), (4, 2), (5, 2), (6, 2), (7, 1), (11, 2)]))] 0 (1, [(3, 4), (4, 2), (5, 2), (6, 2), (7, 1), (11, 2)]),
    .no [(0, (1, [(5, 1), (6, 1), (10, 1)])), (1, (1, [(4, 1), (6, 1), (10, 1)])), (2, (1, [(4, 1), (5, 1), (10, 1)])), (3, (1, [(2, 4), (5, 1), (14, 1)])), (4, (2, [(2, 4), (4, 1), (5, 3), (6, 1), (12, 2), (14, 1)]))] 0 (1, [(2, 2), (5, 1), (14, 1)]),
    .no [(0, (1, [(5, 1), (6, 1), (10, 1)])), (1, (1, [(4, 1), (6, 1), (10, 1)])), (2, (1, [(4, 1), (5, 1), (10, 1)])), (3, (1, [(4, 2), (5, 1), (10, 1), (15, 2)])), (4, (1, [(4, 2), (5, 1), (10, 1), (15, 2), (16, 2)]))] 0 (1, [(4, 2), (5, 1), (10, 1), (11, 2), (15, 2), (16, 4)]),
    .no [(0, (1, [(5, 1), (6, 1), (10, 1)])), (1, (1, [(4, 1), (6, 1), (10, 1)])), (2, (1, [(4, 1), (5, 1), (10, 1)])), (3, (1, [(3, 4), (4, 1), (5, 2), (6, 1), (11, 2)])), (4, (1, [(3, 4), (4, 1), (5, 2), (6, 1), (11, 2), (16, 2)]))] 0 (1, [(3, 2), (4, 1), (5, 2), (6, 1), (11, 2), (16, 2)]),
    .no [(0, (1, [(5, 1), (6, 1), (10, 1)])), (1, (1, [(4, 1), (6, 1), (10, 1)])), (2, (1, [(4, 1), (5, 1), (10, 1)])), (3, (1, [(4, 2), (5, 1), (10, 1), (15, 2)])), (4, (1, [(2, 1), (4, 1), (5, 1), (6, 1), (12, 1)]))] 0 (1, [(4, 3), (5, 2), (6, 1), (8, 2), (12, 2), (15, 2)]),
    .node [
      .no [(0, (1, [(5, 1), (6, 1), (10, 1)])), (1, (1, [(4, 1), (6, 1), (10, 1)])), (2, (1, [(4, 1), (5, 1), (10, 1)])), (3, (1, [(5, 1), (10, 1), (11, 2), (14, 2)])), (4, (1, [(14, 1)]))] 0 (1, [(4, 2), (6, 2), (10, 2), (14, 1), (15, 2)]),
      .no [(0, (1, [(5, 1), (6, 1), (10, 1)])), (1, (1, [(4, 1), (6, 1), (10, 1)])), (2, (1, [(4, 1), (5, 1), (10, 1)])), (3, (1, [(5, 1), (10, 1), (11, 2), (14, 2)])), (4, (1, [(14, 1)]))] 0 (2, [(4, 1), (6, 1), (14, 1), (15, 2)]),
      .no [(0, (1, [(5, 1), (6, 1), (10, 1)])), (1, (1, [(4, 1), (6, 1), (10, 1)])), (2, (1, [(4, 1), (5, 1), (10, 1)])), (3, (1, [(5, 1), (10, 1), (11, 2), (14, 2)])), (4, (1, [(14, 1)]))] 0 (3, [(4, 2), (5, 2), (6, 2), (14, 1), (15, 2)]),
      .no [(0, (1, [(5, 1), (6, 1), (10, 1)])), (1, (1, [(4, 1), (6, 1), (10, 1)])), (2, (1, [(4, 1), (5, 1), (10, 1)])), (3, (1, [(5, 1), (10, 1), (11, 2), (14, 2)])), (4, (1, [(14, 1)]))] 0 (1, [(2, 2), (20, 1)]),
      .no [(0, (1, [(5, 1), (6, 1), (10, 1)])), (1, (1, [(4, 1), (6, 1), (10, 1)])), (2, (1, [(4, 1), (5, 1), (10, 1)])), (3, (1, [(5, 1), (10, 1), (11, 2), (14, 2)])), (4, (1, [(14, 1)]))] 0 (1, [(14, 1), (15, 2)]),
      .no [(0, (1, [(5, 1), (6, 1), (10, 1)])), (1, (1, [(4, 1), (6, 1), (10, 1)])), (2, (1, [(4, 1), (5, 1), (10, 1)])), (3, (1, [(5, 1), (10, 1), (11, 2), (14, 2)])), (4, (1, [(14, 1)]))] 0 (2, [(4, 1), (5, 2), (6, 1), (14, 1), (15, 2)]),
      .no [(0, (1, [(5, 1), (6, 1), (10, 1)])), (1, (1, [(4, 1), (6, 1), (10, 1)])), (2, (1, [(4, 1), (5, 1), (10, 1)])), (3, (1, [(5, 1), (10, 1), (11, 2), (14, 2)])), (4, (1, [(14, 1)]))] 0 (1, [(4, 2), (5, 2), (6, 2), (8, 1), (16, 2)]),
      .no [(0, (1, [(5, 1), (6, 1), (10, 1)])), (1, (1, [(4, 1), (6, 1), (10, 1)])), (2, (1, [(4, 1), (5, 1), (10, 1)])), (3, (1, [(5, 1), (10, 1), (11, 2), (14, 2)])), (4, (1, [(14, 1)]))] 0 (1, [(4, 1), (6, 1), (8, 2), (18, 2)]),
      .no [(0, (1, [(5, 1), (6, 1), (10, 1)])), (1, (1, [(4, 1), (6, 1), (10, 1)])), (2, (1, [(4, 1), (5, 1), (10, 1)])), (3, (1, [(5, 1), (10, 1), (11, 2), (14, 2)])), (4, (1, [(14, 1)]))] 0 (1, [(5, 2), (14, 1), (15, 2)]),
      .no [(0, (1, [(5, 1), (6, 1), (10, 1)])), (1, (1, [(4, 1), (6, 1), (10, 1)])), (2, (1, [(4, 1), (5, 1), (10, 1)])), (3, (1, [(5, 1), (10, 1), (11, 2), (14, 2)])), (4, (1, [(14, 1)]))] 0 (1, [(4, 1), (6, 1), (10, 2), (11, 2), (14, 2), (15, 2)]),
      .no [(0, (1, [(5, 1), (6, 1), (10, 1)])), (1, (1, [(4, 1), (6, 1), (10, 1)])), (2, (1, [(4, 1), (5, 1), (10, 1)])), (3, (1, [(5, 1), (10, 1), (11, 2), (14, 2)])), (4, (1, [(14, 1)]))] 0 (1, [(2, 2), (4, 1), (6, 1), (15, 2)]),
      .no [(0, (1, [(5, 1), (6, 1), (10, 1)])), (1, (1, [(4, 1), (6, 1), (10, 1)])), (2, (1, [(4, 1), (5, 1), (10, 1)])), (3, (1, [(5, 1), (10, 1), (11, 2), (14, 2)])), (4, (1, [(14, 1)]))] 0 (1, [(2, 1), (4, 1), (5, 1), (6, 1), (15, 1)]),
      .no [(0, (1, [(5, 1), (6, 1), (10, 1)])), (1, (1, [(4, 1), (6, 1), (10, 1)])), (2, (1, [(4, 1), (5, 1), (10, 1)])), (3, (1, [(5, 1), (10, 1), (11, 2), (14, 2)])), (4, (1, [(14, 1)]))] 0 (1, [(4, 4), (5, 2), (7, 1), (10, 2), (17, 2)]),
      .no [(0, (1, [(5, 1), (6, 1), (10, 1)])), (1, (1, [(4, 1), (6, 1), (10, 1)])), (2, (1, [(4, 1), (5, 1), (10, 1)])), (3, (1, [(5, 1), (10, 1), (11, 2), (14, 2)])), (4, (1, [(14, 1)]))] 0 (1, [(5, 1), (10, 1), (11, 2), (14, 2), (15, 2)]),
      .no [(0, (1, [(5, 1), (6, 1), (10, 1)])), (1, (1, [(4, 1), (6, 1), (10, 1)])), (2, (1, [(4, 1), (5, 1), (10, 1)])), (3, (1, [(5, 1), (10, 1), (11, 2), (14, 2)])), (4, (1, [(14, 1)]))] 0 (1, [(2, 2), (4, 1), (5, 2), (6, 1), (15, 2)]),
      .no [(0, (1, [(5, 1), (6, 1), (10, 1)])), (1, (1, [(4, 1), (6, 1), (10, 1)])), (2, (1, [(4, 1), (5, 1), (10, 1)])), (3, (1, [(5, 1), (10, 1), (11, 2), (14, 2)])), (4, (1, [(14, 1)]))] 0 (1, [(4, 2), (5, 2), (6, 2), (7, 1), (16, 2)]),
      .yes [(0, (1, [(5, 1), (6, 1), (10, 1)])), (1, (1, [(4, 1), (6, 1), (10, 1)])), (2, (1, [(4, 1), (5, 1), (10, 1)])), (3, (1, [(5, 1), (10, 1), (11, 2), (14, 2)])), (4, (1, [(14, 1)]))] 1 [((1, [(5, 1), (6, 1), (10, 1)]), (1, [(4, 1)])), ((1, [(4, 1), (6, 1), (10, 1)]), (1, [(5, 1)])), ((1, [(4, 2), (5, 1), (10, 1)]), (1, [(5, 1), (6, 2), (10, 1)])), ((1, [(5, 1), (10, 1), (11, 2), (14, 2)]), (1, [(7, 1)])), ((1, [(14, 1)]), (1, [(8, 1)]))],
      .no [(0, (1, [(5, 1), (6, 1), (10, 1)])), (1, (1, [(4, 1), (6, 1), (10, 1)])), (2, (1, [(4, 1), (5, 1), (10, 1)])), (3, (1, [(5, 1), (10, 1), (11, 2), (14, 2)])), (4, (1, [(14, 1)]))] 0 (1, [(5, 3), (10, 1), (11, 2), (14, 2), (15, 2)]),
      .no [(0, (1, [(5, 1), (6, 1), (10, 1)])), (1, (1, [(4, 1), (6, 1), (10, 1)])), (2, (1, [(4, 1), (5, 1), (10, 1)])), (3, (1, [(5, 1), (10, 1), (11, 2), (14, 2)])), (4, (1, [(14, 1)]))] 0 (1, [(10, 2), (11, 4), (14, 3), (15, 2)]),
      .no [(0, (1, [(5, 1), (6, 1), (10, 1)])), (1, (1, [(4, 1), (6, 1), (10, 1)])), (2, (1, [(4, 1), (5, 1), (10, 1)])), (3, (1, [(5, 1), (10, 1), (11, 2), (14, 2)])), (4, (1, [(14, 1)]))] 0 (2, [(5, 1), (10, 1), (11, 4), (14, 3), (15, 2)]),
      .no [(0, (1, [(5, 1), (6, 1), (10, 1)])), (1, (1, [(4, 1), (6, 1), (10, 1)])), (2, (1, [(4, 1), (5, 1), (10, 1)])), (3, (1, [(5, 1), (10, 1), (11, 2), (14, 2)])), (4, (1, [(14, 1)]))] 0 (1, [(2, 4), (4, 2), (5, 2), (6, 2), (8, 1), (15, 2)]),
      .no [(0, (1, [(5, 1), (6, 1), (10, 1)])), (1, (1, [(4, 1), (6, 1), (10, 1)])), (2, (1, [(4, 1), (5, 1), (10, 1)])), (3, (1, [(5, 1), (10, 1), (11, 2), (14, 2)])), (4, (1, [(14, 1)]))] 0 (2, [(4, 4), (5, 2), (7, 1), (8, 1), (10, 2), (17, 2)]),
      .no [(0, (1, [(5, 1), (6, 1), (10, 1)])), (1, (1, [(4, 1), (6, 1), (10, 1)])), (2, (1, [(4, 1), (5, 1), (10, 1)])), (3, (1, [(5, 1), (10, 1), (11, 2), (14, 2)])), (4, (1, [(14, 1)]))] 0 (1, [(5, 2), (10, 2), (11, 4), (14, 3), (15, 2)]),
      .no [(0, (1, [(5, 1), (6, 1), (10, 1)])), (1, (1, [(4, 1), (6, 1), (10, 1)])), (2, (1, [(4, 1), (5, 1), (10, 1)])), (3, (1, [(5, 1), (10, 1), (11, 2), (14, 2)])), (4, (1, [(14, 1)]))] 0 (2, [(5, 3), (10, 1), (11, 4), (14, 3), (15, 2)]),
      .no [(0, (1, [(5, 1), (6, 1), (10, 1)])), (1, (1, [(4, 1), (6, 1), (10, 1)])), (2, (1, [(4, 1), (5, 1), (10, 1)])), (3, (1, [(5, 1), (10, 1), (11, 2), (14, 2)])), (4, (1, [(14, 1)]))] 0 (2, [(4, 5), (5, 4), (6, 5), (7, 3), (12, 2), (16, 4)]),
      .no [(0, (1, [(5, 1), (6, 1), (10, 1)])), (1, (1, [(4, 1), (6, 1), (10, 1)])), (2, (1, [(4, 1), (5, 1), (10, 1)])), (3, (1, [(5, 1), (10, 1), (11, 2), (14, 2)])), (4, (1, [(14, 1)]))] 0 (1, [(5, 1), (10, 1), (17, 2)]),
      .no [(0, (1, [(5, 1), (6, 1), (10, 1)])), (1, (1, [(4, 1), (6, 1), (10, 1)])), (2, (1, [(4, 1), (5, 1), (10, 1)])), (3, (1, [(5, 1), (10, 1), (11, 2), (14, 2)])), (4, (1, [(14, 1)]))] 0 (1, [(5, 4), (10, 2), (11, 4), (14, 3), (15, 2)])],
    .no [(0, (1, [(5, 1), (6, 1), (10, 1)])), (1, (1, [(4, 1), (6, 1), (10, 1)])), (2, (1, [(4, 1), (5, 1), (10, 1)])), (3, (2, [(2, 2), (4, 3), (5, 2), (8, 1), (10, 1), (14, 1)])), (4, (2, [(3, 2), (4, 3), (5, 2), (7, 1), (10, 1), (14, 1)]))] 0 (1, [(4, 3), (5, 2), (7, 1), (8, 1), (10, 1), (14, 1)]),
    .no [(0, (1, [(5, 1), (6, 1), (10, 1)])), (1, (1, [(4, 1), (6, 1), (10, 1)])), (2, (1, [(4, 1), (5, 1), (10, 1)])), (3, (2, [(2, 4), (4, 3), (5, 2), (10, 1), (14, 1)])), (4, (2, [(3, 4), (4, 3), (5, 2), (10, 1), (14, 1)]))] 0 (2, [(4, 3), (5, 2), (10, 1), (14, 1)]),
    .no [(0, (1, [(5, 1), (6, 1), (10, 1)])), (1, (1, [(4, 1), (6, 1), (10, 1)])), (2, (1, [(4, 1), (5, 1), (10, 1)])), (3, (1, [(2, 2), (3, 2), (4, 1), (6, 1), (11, 2)])), (4, (1, [(3, 4), (4, 1), (6, 1), (11, 2)]))] 0 (1, [(3, 2), (4, 1), (6, 1), (11, 2)]),
    .no [(0, (1, [(5, 1), (6, 1), (10, 1)])), (1, (1, [(4, 1), (6, 1), (10, 1)])), (2, (1, [(4, 1), (5, 1), (10, 1)])), (3, (1, [(2, 2), (3, 1), (4, 1), (5, 1), (6, 1), (11, 1)])), (4, (1, [(3, 3), (4, 1), (5, 1), (6, 1), (11, 1)]))] 0 (1, [(3, 1), (4, 1), (5, 1), (6, 1), (11, 1)]),
    .node [
      .no [(0, (1, [(5, 1), (6, 1), (10, 1)])), (1, (1, [(4, 1), (6, 1), (10, 1)])), (2, (1, [(4, 1), (5, 1), (10, 1)])), (3, (1, [(2, 2), (4, 1), (6, 1), (12, 2), (15, 2)])), (4, (1, [(4, 1), (5, 2), (6, 1), (12, 2)]))] 0 (1, [(4, 1), (6, 1), (12, 2), (15, 2)]),
      .no [(0, (1, [(5, 1), (6, 1), (10, 1)])), (1, (1, [(4, 1), (6, 1), (10, 1)])), (2, (1, [(4, 1), (5, 1), (10, 1)])), (3, (1, [(2, 2), (4, 1), (5, 1), (6, 1), (12, 1), (15, 1)])), (4, (1, [(4, 1), (5, 2), (6, 1), (12, 2)]))] 0 (1, [(4, 1), (5, 1), (6, 1), (12, 1), (15, 1)]),
      .no [(0, (1, [(5, 1), (6, 1), (10, 1)])), (1, (1, [(4, 1), (6, 1), (10, 1)])), (2, (1, [(4, 1), (5, 1), (10, 1)])), (3, (3, [(2, 6), (4, 3), (5, 4), (6, 3), (12, 2), (15, 2)])), (4, (1, [(4, 1), (5, 2), (6, 1), (12, 2)]))] 0 (3, [(4, 3), (5, 4), (6, 3), (12, 2), (15, 2)]),
      .no [(0, (1, [(5, 1), (6, 1), (10, 1)])), (1, (1, [(4, 1), (6, 1), (10, 1)])), (2, (1, [(4, 1), (5, 1), (10, 1)])), (3, (1, [(2, 4), (4, 1), (5, 2), (6, 1), (18, 2)])), (4, (1, [(4, 1), (5, 2), (6, 1), (12, 2)]))] 0 (1, [(2, 2), (4, 1), (5, 2), (6, 1), (18, 2)]),
      .no [(0, (1, [(5, 1), (6, 1), (10, 1)])), (1, (1, [(4, 1), (6, 1), (10, 1)])), (2, (1, [(4, 1), (5, 1), (10, 1)])), (3, (1, [(2, 2), (4, 1), (5, 2), (6, 1), (12, 2), (15, 2)])), (4, (1, [(4, 1), (5, 2), (6, 1), (12, 2)]))] 0 (1, [(4, 1), (5, 2), (6, 1), (12, 2), (15, 2)]),
      .no [(0, (1, [(5, 1), (6, 1), (10, 1)])), (1, (1, [(4, 1), (6, 1), (10, 1)])), (2, (1, [(4, 1), (5, 1), (10, 1)])), (3, (1, [(2, 2), (4, 1), (5, 2), (6, 1), (12, 1), (15, 1)])), (4, (1, [(4, 1), (5, 2), (6, 1), (12, 2)]))] 0 (1, [(4, 1), (5, 2), (6, 1), (12, 1), (15, 1)]),
      .no [(0, (1, [(5, 1), (6, 1), (10, 1)])), (1, (1, [(4, 1), (6, 1), (10, 1)])), (2, (1, [(4, 1), (5, 1), (10, 1)])), (3, (1, [(2, 2), (4, 2), (5, 2), (6, 2), (8, 1), (16, 2)])), (4, (1, [(4, 1), (5, 2), (6, 1), (12, 2)]))] 0 (1, [(4, 2), (5, 2), (6, 2), (8, 1), (16, 2)]),
      .no [(0, (1, [(5, 1), (6, 1), (10, 1)])), (1, (1, [(4, 1), (6, 1), (10, 1)])), (2, (1, [(4, 1), (5, 1), (10, 1)])), (3, (1, [(2, 1), (4, 2), (5, 1), (10, 1), (17, 1)])), (4, (1, [(4, 1), (5, 2), (6, 1), (12, 2)]))] 0 (1, [(4, 4), (5, 2), (7, 1), (10, 2), (17, 2)]),
      .no [(0, (1, [(5, 1), (6, 1), (10, 1)])), (1, (1, [(4, 1), (6, 1), (10, 1)])), (2, (1, [(4, 1), (5, 1), (10, 1)])), (3, (1, [(2, 2), (4, 1), (5, 4), (6, 1), (12, 2), (15, 2)])), (4, (1, [(4, 1), (5, 2), (6, 1), (12, 2)]))] 0 (1, [(4, 1), (5, 4), (6, 1), (12, 2), (15, 2)]),
      .no [(0, (1, [(5, 1), (6, 1), (10, 1)])), (1, (1, [(4, 1), (6, 1), (10, 1)])), (2, (1, [(4, 1), (5, 1), (10, 1)])), (3, (1, [(2, 2), (4, 1), (5, 1), (18, 1)])), (4, (1, [(4, 1), (5, 2), (6, 1), (12, 2)]))] 0 (1, [(4, 1), (5, 1), (18, 1)]),
      .no [(0, (1, [(5, 1), (6, 1), (10, 1)])), (1, (1, [(4, 1), (6, 1), (10, 1)])), (2, (1, [(4, 1), (5, 1), (10, 1)])), (3, (1, [(2, 4), (4, 1), (6, 1), (15, 2)])), (4, (1, [(4, 1), (5, 2), (6, 1), (12, 2)]))] 0 (1, [(2, 2), (4, 1), (6, 1), (15, 2)]),
      .no [(0, (1, [(5, 1), (6, 1), (10, 1)])), (1, (1, [(4, 1), (6, 1), (10, 1)])), (2, (1, [(4, 1), (5, 1), (10, 1)])), (3, (1, [(2, 3), (4, 1), (5, 1), (6, 1), (15, 1)])), (4, (1, [(4, 1), (5, 2), (6, 1), (12, 2)]))] 0 (1, [(2, 1), (4, 1), (5, 1), (6, 1), (15, 1)]),
      .no [(0, (1, [(5, 1), (6, 1), (10, 1)])), (1, (1, [(4, 1), (6, 1), (10, 1)])), (2, (1, [(4, 1), (5, 1), (10, 1)])), (3, (1, [(4, 1), (5, 2), (6, 1), (16, 2)])), (4, (1, [(4, 1), (5, 2), (6, 1), (12, 2)]))] 0 (1, [(4, 1), (5, 2), (6, 1), (18, 2)]),
      .no [(0, (1, [(5, 1), (6, 1), (10, 1)])), (1, (1, [(4, 1), (6, 1), (10, 1)])), (2, (1, [(4, 1), (5, 1), (10, 1)])), (3, (1, [(2, 2), (4, 2), (5, 1), (10, 1), (17, 2)])), (4, (1, [(4, 1), (5, 2), (6, 1), (12, 2)]))] 0 (1, [(4, 2), (5, 1), (10, 1), (17, 2)]),
      .no [(0, (1, [(5, 1), (6, 1), (10, 1)])), (1, (1, [(4, 1), (6, 1), (10, 1)])), (2, (1, [(4, 1), (5, 1), (10, 1)])), (3, (1, [(2, 4), (4, 1), (5, 2), (6, 1), (15, 2)])), (4, (1, [(4, 1), (5, 2), (6, 1), (12, 2)]))] 0 (1, [(2, 2), (4, 1), (5, 2), (6, 1), (15, 2)]),
      .no [(0, (1, [(5, 1), (6, 1), (10, 1)])), (1, (1, [(4, 1), (6, 1), (10, 1)])), (2, (1, [(4, 1), (5, 1), (10, 1)])), (3, (1, [(2, 1), (4, 1), (5, 1), (6, 1), (16, 1)])), (4, (1, [(4, 1), (5, 2), (6, 1), (12, 2)]))] 0 (1, [(4, 2), (5, 2), (6, 2), (7, 1), (16, 2)]),
      .no [(0, (1, [(5, 1), (6, 1), (10, 1)])), (1, (1, [(4, 1), (6, 1), (10, 1)])), (2, (1, [(4, 1), (5, 1), (10, 1)])), (3, (1, [(4, 1), (6, 1), (16, 2)])), (4, (1, [(4, 1), (5, 2), (6, 1), (12, 2)]))] 0 (1, [(4, 2), (5, 1), (10, 1), (17, 1)]),
      .no [(0, (1, [(5, 1), (6, 1), (10, 1)])), (1, (1, [(4, 1), (6, 1), (10, 1)])), (2, (1, [(4, 1), (5, 1), (10, 1)])), (3, (2, [(2, 4), (4, 3), (5, 2), (10, 1), (17, 1)])), (4, (1, [(4, 1), (5, 2), (6, 1), (12, 2)]))] 0 (2, [(4, 3), (5, 2), (10, 1), (17, 1)]),
      .no [(0, (1, [(5, 1), (6, 1), (10, 1)])), (1, (1, [(4, 1), (6, 1), (10, 1)])), (2, (1, [(4, 1), (5, 1), (10, 1)])), (3, (3, [(4, 3), (5, 6), (6, 1), (12, 2), (16, 2), (18, 2)])), (4, (1, [(4, 1), (5, 2), (6, 1), (12, 2)]))] 0 (1, [(4, 2), (5, 2), (7, 1), (18, 2)]),
      .no [(0, (1, [(5, 1), (6, 1), (10, 1)])), (1, (1, [(4, 1), (6, 1), (10, 1)])), (2, (1, [(4, 1), (5, 1), (10, 1)])), (3, (1, [(4, 2), (5, 1), (10, 1), (21, 2)])), (4, (1, [(4, 1), (5, 2), (6, 1), (12, 2)]))] 0 (2, [(4, 4), (5, 1), (8, 1), (10, 1), (15, 2), (21, 4)]),
      .no [(0, (1, [(5, 1), (6, 1), (10, 1)])), (1, (1, [(4, 1), (6, 1), (10, 1)])), (2, (1, [(4, 1), (5, 1), (10, 1)])), (3, (1, [(2, 6), (4, 2), (5, 2), (6, 2), (8, 1), (15, 2)])), (4, (1, [(4, 1), (5, 2), (6, 1), (12, 2)]))] 0 (1, [(2, 4), (4, 2), (5, 2), (6, 2), (8, 1), (15, 2)]),
      .yes [(0, (1, [(5, 1), (6, 1), (10, 1)])), (1, (1, [(4, 1), (6, 1), (10, 1)])), (2, (1, [(4, 1), (5, 1), (10, 1)])), (3, (1, [(4, 1), (5, 2), (6, 1), (12, 1), (16, 1)])), (4, (1, [(4, 1), (5, 2), (6, 1), (12, 2)]))] 1 [((1, [(5, 1), (6, 1), (10, 1)]), (1, [(4, 1)])), ((1, [(4, 1), (6, 1), (10, 1)]), (1, [(5, 1)])), ((1, [(4, 2), (5, 1), (10, 1)]), (1, [(5, 1), (6, 2), (10, 1)])), ((1, [(4, 1), (5, 2), (6, 1), (12, 1), (16, 1)]), (1, [(7, 1)])), ((1, [(4, 1), (5, 2), (6, 1), (12, 2)]), (1, [(8, 1)]))],
      .no [(0, (1, [(5, 1), (6, 1), (10, 1)])), (1, (1, [(4, 1), (6, 1), (10, 1)])), (2, (1, [(4, 1), (5, 1), (10, 1)])), (3, (3, [(4, 3), (5, 4), (6, 1), (12, 4), (16, 4), (17, 2)])), (4, (1, [(4, 1), (5, 2), (6, 1), (12, 2)]))] 0 (3, [(4, 4), (5, 3), (10, 1), (12, 2), (16, 2), (17, 4)]),
      .no [(0, (1, [(5, 1), (6, 1), (10, 1)])), (1, (1, [(4, 1), (6, 1), (10, 1)])), (2, (1, [(4, 1), (5, 1), (10, 1)])), (3, (3, [(2, 8), (4, 4), (5, 3), (10, 1), (17, 2)])), (4, (1, [(4, 1), (5, 2), (6, 1), (12, 2)]))] 0 (3, [(2, 2), (4, 4), (5, 3), (10, 1), (17, 2)]),
      .no [(0, (1, [(5, 1), (6, 1), (10, 1)])), (1, (1, [(4, 1), (6, 1), (10, 1)])), (2, (1, [(4, 1), (5, 1), (10, 1)])), (3, (3, [(2, 2), (4, 3), (5, 4), (6, 3), (12, 2), (16, 2)])), (4, (1, [(4, 1), (5, 2), (6, 1), (12, 2)]))] 0 (1, [(4, 3), (5, 4), (6, 3), (7, 2), (12, 2), (16, 2)]),
      .no [(0, (1, [(5, 1), (6, 1), (10, 1)])), (1, (1, [(4, 1), (6, 1), (10, 1)])), (2, (1, [(4, 1), (5, 1), (10, 1)])), (3, (1, [(4, 1), (5, 1), (6, 1), (12, 1), (16, 1)])), (4, (1, [(4, 1), (5, 2), (6, 1), (12, 2)]))] 0 (3, [(4, 4), (5, 2), (10, 1), (12, 1), (16, 1), (17, 2)]),
      .no [(0, (1, [(5, 1), (6, 1), (10, 1)])), (1, (1, [(4, 1), (6, 1), (10, 1)])), (2, (1, [(4, 1), (5, 1), (10, 1)])), (3, (7, [(3, 2), (4, 7), (6, 1), (12, 6), (16, 8), (17, 2)])), (4, (1, [(4, 1), (5, 2), (6, 1), (12, 2)]))] 0 (9, [(4, 12), (5, 7), (10, 3), (12, 2), (16, 2), (17, 4)])],
    .no [(0, (1, [(5, 1), (6, 1), (10, 1)])), (1, (1, [(4, 1), (6, 1), (10, 1)])), (2, (1, [(4, 1), (5, 1), (10, 1)])), (3, (1, [(2, 2), (4, 1), (13, 1)])), (4, (1, [(3, 2), (4, 1), (13, 1)]))] 0 (1, [(4, 1), (13, 1)]),
    .no [(0, (1, [(5, 1), (6, 1), (10, 1)])), (1, (1, [(4, 1), (6, 1), (10, 1)])), (2, (1, [(4, 1), (5, 1), (10, 1)])), (3, (1, [(2, 2), (3, 2), (4, 1), (5, 2), (6, 1), (11, 2)])), (4, (1, [(3, 4), (4, 1), (5, 2), (6, 1), (11, 2)]))] 0 (1, [(3, 2), (4, 1), (5, 2), (6, 1), (11, 2)]),
    .no [(0, (1, [(5, 1), (6, 1), (10, 1)])), (1, (1, [(4, 1), (6, 1), (10, 1)])), (2, (1, [(4, 1), (5, 1), (10, 1)])), (3, (1, [(2, 2), (4, 2), (5, 2), (6, 2), (8, 1), (12, 2)])), (4, (1, [(3, 1), (4, 1), (5, 1), (6, 1), (12, 1)]))] 0 (1, [(4, 2), (5, 2), (6, 2), (8, 1), (12, 2)]),
    .node [
      .no [(0, (1, [(5, 1), (6, 1), (10, 1)])), (1, (1, [(4, 1), (6, 1), (10, 1)])), (2, (1, [(4, 1), (5, 1), (10, 1)])), (3, (1, [(2, 2), (4, 3), (6, 3), (10, 2), (12, 2), (15, 2)])), (4, (1, [(4, 1), (6, 1), (12, 2)]))] 0 (1, [(4, 3), (6, 3), (10, 2), (12, 2), (15, 2)]),
      .no [(0, (1, [(5, 1), (6, 1), (10, 1)])), (1, (1, [(4, 1), (6, 1), (10, 1)])), (2, (1, [(4, 1), (5, 1), (10, 1)])), (3, (1, [(2, 2), (4, 1), (6, 1), (12, 1), (15, 1)])), (4, (1, [(4, 1), (6, 1), (12, 2)]))] 0 (1, [(4, 1), (6, 1), (12, 1), (15, 1)]),
      .no [(0, (1, [(5, 1), (6, 1), (10, 1)])), (1, (1, [(4, 1), (6, 1), (10, 1)])), (2, (1, [(4, 1), (5, 1), (10, 1)])), (3, (3, [(2, 6), (4, 3), (5, 2), (6, 3), (12, 2), (15, 2)])), (4, (1, [(4, 1), (6, 1), (12, 2)]))] 0 (3, [(4, 3), (5, 2), (6, 3), (12, 2), (15, 2)]),
      .no [(0, (1, [(5, 1), (6, 1), (10, 1)])), (1, (1, [(4, 1), (6, 1), (10, 1)])), (2, (1, [(4, 1), (5, 1), (10, 1)])), (3, (3, [(2, 6), (4, 4), (5, 1), (10, 1), (12, 2), (17, 2)])), (4, (1, [(4, 1), (6, 1), (12, 2)]))] 0 (3, [(4, 4), (5, 1), (10, 1), (12, 2), (17, 2)]),
      .no [(0, (1, [(5, 1), (6, 1), (10, 1)])), (1, (1, [(4, 1), (6, 1), (10, 1)])), (2, (1, [(4, 1), (5, 1), (10, 1)])), (3, (1, [(2, 2), (4, 1), (6, 1), (12, 2), (15, 2)])), (4, (1, [(4, 1), (6, 1), (12, 2)]))] 0 (1, [(4, 1), (6, 1), (12, 2), (15, 2)]),
      .no [(0, (1, [(5, 1), (6, 1), (10, 1)])), (1, (1, [(4, 1), (6, 1), (10, 1)])), (2, (1, [(4, 1), (5, 1), (10, 1)])), (3, (1, [(2, 2), (4, 1), (5, 1), (6, 1), (12, 1), (15, 1)])), (4, (1, [(4, 1), (6, 1), (12, 2)]))] 0 (1, [(4, 1), (5, 1), (6, 1), (12, 1), (15, 1)]),
      .no [(0, (1, [(5, 1), (6, 1), (10, 1)])), (1, (1, [(4, 1), (6, 1), (10, 1)])), (2, (1, [(4, 1), (5, 1), (10, 1)])), (3, (1, [(2, 2), (4, 2), (5, 2), (6, 2), (8, 1), (16, 2)])), (4, (1, [(4, 1), (6, 1), (12, 2)]))] 0 (1, [(4, 2), (5, 2), (6, 2), (8, 1), (16, 2)]),
      .yes [(0, (1, [(5, 1), (6, 1), (10, 1)])), (1, (1, [(4, 1), (6, 1), (10, 1)])), (2, (1, [(4, 1), (5, 1), (10, 1)])), (3, (1, [(4, 2), (5, 1), (10, 1), (21, 2)])), (4, (1, [(4, 1), (6, 1), (12, 2)]))] 1 [((1, [(5, 1), (6, 1), (10, 1)]), (1, [(4, 1)])), ((1, [(4, 1), (6, 1), (10, 1)]), (1, [(5, 1)])), ((1, [(4, 2), (5, 1), (10, 1)]), (1, [(5, 1), (6, 2), (10, 1)])), ((1, [(4, 2), (5, 1), (10, 1), (21, 2)]), (1, [(7, 1)])), ((1, [(4, 1), (6, 1), (12, 2)]), (1, [(8, 1)]))],
      .no [(0, (1, [(5, 1), (6, 1), (10, 1)])), (1, (1, [(4, 1), (6, 1), (10, 1)])), (2, (1, [(4, 1), (5, 1), (10, 1)])), (3, (1, [(2, 2), (4, 1), (5, 2), (6, 1), (12, 2), (15, 2)])), (4, (1, [(4, 1), (6, 1), (12, 2)]))] 0 (1, [(4, 1), (5, 2), (6, 1), (12, 2), (15, 2)]),
      .no [(0, (1, [(5, 1), (6, 1), (10, 1)])), (1, (1, [(4, 1), (6, 1), (10, 1)])), (2, (1, [(4, 1), (5, 1), (10, 1)])), (3, (2, [(2, 4), (4, 3), (5, 1), (10, 1), (17, 1)])), (4, (1, [(4, 1), (6, 1), (12, 2)]))] 0 (2, [(4, 3), (5, 1), (10, 1), (17, 1)]),
      .no [(0, (1, [(5, 1), (6, 1), (10, 1)])), (1, (1, [(4, 1), (6, 1), (10, 1)])), (2, (1, [(4, 1), (5, 1), (10, 1)])), (3, (1, [(2, 4), (4, 1), (6, 1), (15, 2)])), (4, (1, [(4, 1), (6, 1), (12, 2)]))] 0 (1, [(2, 2), (4, 1), (6, 1), (15, 2)]),
      .no [(0, (1, [(5, 1), (6, 1), (10, 1)])), (1, (1, [(4, 1), (6, 1), (10, 1)])), (2, (1, [(4, 1), (5, 1), (10, 1)])), (3, (1, [(2, 3), (4, 1), (5, 1), (6, 1), (15, 1)])), (4, (1, [(4, 1), (6, 1), (12, 2)]))] 0 (1, [(2, 1), (4, 1), (5, 1), (6, 1), (15, 1)]),
      .no [(0, (1, [(5, 1), (6, 1), (10, 1)])), (1, (1, [(4, 1), (6, 1), (10, 1)])), (2, (1, [(4, 1), (5, 1), (10, 1)])), (3, (1, [(4, 1), (5, 2), (6, 1), (16, 2)])), (4, (1, [(4, 1), (6, 1), (12, 2)]))] 0 (1, [(4, 2), (5, 1), (10, 1), (17, 1)]),
      .no [(0, (1, [(5, 1), (6, 1), (10, 1)])), (1, (1, [(4, 1), (6, 1), (10, 1)])), (2, (1, [(4, 1), (5, 1), (10, 1)])), (3, (1, [(2, 2), (4, 2), (5, 1), (10, 1), (17, 2)])), (4, (1, [(4, 1), (6, 1), (12, 2)]))] 0 (1, [(4, 2), (5, 1), (10, 1), (17, 2)]),
      .no [(0, (1, [(5, 1), (6, 1), (10, 1)])), (1, (1, [(4, 1), (6, 1), (10, 1)])), (2, (1, [(4, 1), (5, 1), (10, 1)])), (3, (1, [(2, 4), (4, 1), (5, 2), (6, 1), (15, 2)])), (4, (1, [(4, 1), (6, 1), (12, 2)]))] 0 (1, [(2, 2), (4, 1), (5, 2), (6, 1), (15, 2)]),
      .no [(0, (1, [(5, 1), (6, 1), (10, 1)])), (1, (1, [(4, 1), (6, 1), (10, 1)])), (2, (1, [(4, 1), (5, 1), (10, 1)])), (3, (1, [(2, 1), (4, 1), (5, 1), (6, 1), (16, 1)])), (4, (1, [(4, 1), (6, 1), (12, 2)]))] 0 (1, [(4, 2), (5, 2), (6, 2), (7, 1), (16, 2)]),
      .no [(0, (1, [(5, 1), (6, 1), (10, 1)])), (1, (1, [(4, 1), (6, 1), (10, 1)])), (2, (1, [(4, 1), (5, 1), (10, 1)])), (3, (1, [(4, 1), (6, 1), (16, 2)])), (4, (1, [(4, 1), (6, 1), (12, 2)]))] 0 (1, [(4, 1), (6, 1), (18, 2)]),
      .no [(0, (1, [(5, 1), (6, 1), (10, 1)])), (1, (1, [(4, 1), (6, 1), (10, 1)])), (2, (1, [(4, 1), (5, 1), (10, 1)])), (3, (1, [(2, 2), (4, 1), (18, 1)])), (4, (1, [(4, 1), (6, 1), (12, 2)]))] 0 (1, [(4, 1), (18, 1)]),
      .no [(0, (1, [(5, 1), (6, 1), (10, 1)])), (1, (1, [(4, 1), (6, 1), (10, 1)])), (2, (1, [(4, 1), (5, 1), (10, 1)])), (3, (3, [(4, 3), (5, 3), (12, 2), (16, 3), (17, 1)])), (4, (1, [(4, 1), (6, 1), (12, 2)]))] 0 (1, [(4, 3), (5, 2), (7, 1), (10, 1), (16, 1), (17, 1)]),
      .no [(0, (1, [(5, 1), (6, 1), (10, 1)])), (1, (1, [(4, 1), (6, 1), (10, 1)])), (2, (1, [(4, 1), (5, 1), (10, 1)])), (3, (2, [(2, 4), (4, 4), (5, 1), (8, 1), (10, 1), (17, 2)])), (4, (1, [(4, 1), (6, 1), (12, 2)]))] 0 (2, [(4, 4), (5, 1), (8, 1), (10, 1), (17, 2)]),
      .no [(0, (1, [(5, 1), (6, 1), (10, 1)])), (1, (1, [(4, 1), (6, 1), (10, 1)])), (2, (1, [(4, 1), (5, 1), (10, 1)])), (3, (1, [(2, 6), (4, 2), (5, 2), (6, 2), (8, 1), (15, 2)])), (4, (1, [(4, 1), (6, 1), (12, 2)]))] 0 (1, [(2, 4), (4, 2), (5, 2), (6, 2), (8, 1), (15, 2)]),
      .no [(0, (1, [(5, 1), (6, 1), (10, 1)])), (1, (1, [(4, 1), (6, 1), (10, 1)])), (2, (1, [(4, 1), (5, 1), (10, 1)])), (3, (1, [(4, 1), (5, 1), (6, 1), (12, 1), (16, 1)])), (4, (1, [(4, 1), (6, 1), (12, 2)]))] 0 (1, [(4, 4), (5, 3), (7, 2), (10, 1), (16, 2), (17, 2)]),
      .no [(0, (1, [(5, 1), (6, 1), (10, 1)])), (1, (1, [(4, 1), (6, 1), (10, 1)])), (2, (1, [(4, 1), (5, 1), (10, 1)])), (3, (1, [(4, 2), (5, 1), (10, 1), (21, 2)])), (4, (1, [(4, 1), (6, 1), (12, 2)]))] 0 (1, [(4, 4), (5, 2), (8, 1), (10, 2), (15, 2), (21, 4)]),
      .no [(0, (1, [(5, 1), (6, 1), (10, 1)])), (1, (1, [(4, 1), (6, 1), (10, 1)])), (2, (1, [(4, 1), (5, 1), (10, 1)])), (3, (1, [(2, 2), (4, 1), (6, 1), (12, 2), (18, 2)])), (4, (1, [(4, 1), (6, 1), (12, 2)]))] 0 (1, [(4, 1), (6, 1), (12, 2), (18, 2)]),
      .no [(0, (1, [(5, 1), (6, 1), (10, 1)])), (1, (1, [(4, 1), (6, 1), (10, 1)])), (2, (1, [(4, 1), (5, 1), (10, 1)])), (3, (3, [(2, 2), (4, 3), (5, 2), (6, 3), (12, 2), (16, 2)])), (4, (1, [(4, 1), (6, 1), (12, 2)]))] 0 (1, [(4, 3), (5, 2), (6, 3), (7, 2), (12, 2), (16, 2)]),
      .no [(0, (1, [(5, 1), (6, 1), (10, 1)])), (1, (1, [(4, 1), (6, 1), (10, 1)])), (2, (1, [(4, 1), (5, 1), (10, 1)])), (3, (1, [(4, 1), (6, 1), (12, 1), (16, 1)])), (4, (1, [(4, 1), (6, 1), (12, 2)]))] 0 (1, [(4, 1), (6, 1), (12, 1), (18, 1)]),
      .no [(0, (1, [(5, 1), (6, 1), (10, 1)])), (1, (1, [(4, 1), (6, 1), (10, 1)])), (2, (1, [(4, 1), (5, 1), (10, 1)])), (3, (3, [(4, 6), (6, 5), (10, 3), (12, 4), (16, 3), (18, 1)])), (4, (1, [(4, 1), (6, 1), (12, 2)]))] 0 (1, [(3, 1), (4, 1), (18, 1)])],
    .no [(0, (1, [(5, 1), (6, 1), (10, 1)])), (1, (1, [(4, 1), (6, 1), (10, 1)])), (2, (1, [(4, 1), (5, 1), (10, 1)])), (3, (2, [(2, 4), (4, 3), (5, 2), (10, 1), (14, 1)])), (4, (2, [(3, 4), (4, 3), (5, 2), (10, 1), (14, 1)]))] 0 (2, [(4, 3), (5, 2), (10, 1), (14, 1)]),
    .no [(0, (1, [(5, 1), (6, 1), (10, 1)])), (1, (1, [(4, 1), (6, 1), (10, 1)])), (2, (1, [(4, 1), (5, 1), (10, 1)])), (3, (2, [(2, 2), (4, 3), (5, 2), (8, 1), (10, 1), (14, 1)])), (4, (2, [(3, 2), (4, 3), (5, 2), (7, 1), (10, 1), (14, 1)]))] 0 (1, [(4, 3), (5, 2), (7, 1), (8, 1), (10, 1), (14, 1)]),
    .no [(0, (1, [(5, 1), (6, 1), (10, 1)])), (1, (1, [(4, 1), (6, 1), (10, 1)])), (2, (1, [(4, 1), (5, 1), (10, 1)])), (3, (1, [(2, 4), (4, 1), (6, 1), (11, 2)])), (4, (1, [(2, 2), (3, 2), (4, 1), (6, 1), (11, 2)]))] 0 (1, [(2, 2), (4, 1), (6, 1), (11, 2)]),
    .no [(0, (1, [(5, 1), (6, 1), (10, 1)])), (1, (1, [(4, 1), (6, 1), (10, 1)])), (2, (1, [(4, 1), (5, 1), (10, 1)])), (3, (1, [(2, 3), (4, 1), (5, 1), (6, 1), (11, 1)])), (4, (1, [(2, 1), (3, 2), (4, 1), (5, 1), (6, 1), (11, 1)]))] 0 (1, [(2, 1), (4, 1), (5, 1), (6, 1), (11, 1)]),
    .node [
      .no [(0, (1, [(5, 1), (6, 1), (10, 1)])), (1, (1, [(4, 1), (6, 1), (10, 1)])), (2, (1, [(4, 1), (5, 1), (10, 1)])), (3, (1, [(4, 1), (5, 2), (6, 1), (12, 2)])), (4, (4, [(3, 10), (4, 3), (5, 2), (12, 2), (20, 1)]))] 0 (4, [(3, 2), (4, 3), (5, 2), (12, 2), (20, 1)]),
      .no [(0, (1, [(5, 1), (6, 1), (10, 1)])), (1, (1, [(4, 1), (6, 1), (10, 1)])), (2, (1, [(4, 1), (5, 1), (10, 1)])), (3, (1, [(4, 1), (5, 2), (6, 1), (12, 2)])), (4, (1, [(3, 4), (4, 1), (6, 1), (15, 2)]))] 0 (1, [(3, 2), (4, 1), (6, 1), (15, 2)]),
      .no [(0, (1, [(5, 1), (6, 1), (10, 1)])), (1, (1, [(4, 1), (6, 1), (10, 1)])), (2, (1, [(4, 1), (5, 1), (10, 1)])), (3, (1, [(4, 1), (5, 2), (6, 1), (12, 2)])), (4, (1, [(3, 3), (4, 1), (5, 1), (6, 1), (15, 1)]))] 0 (1, [(3, 1), (4, 1), (5, 1), (6, 1), (15, 1)]),
      .no [(0, (1, [(5, 1), (6, 1), (10, 1)])), (1, (1, [(4, 1), (6, 1), (10, 1)])), (2, (1, [(4, 1), (5, 1), (10, 1)])), (3, (1, [(4, 1), (5, 2), (6, 1), (12, 2)])), (4, (1, [(4, 1), (5, 2), (6, 1), (16, 2)]))] 0 (1, [(4, 1), (6, 1), (10, 2), (17, 2)]),
      .no [(0, (1, [(5, 1), (6, 1), (10, 1)])), (1, (1, [(4, 1), (6, 1), (10, 1)])), (2, (1, [(4, 1), (5, 1), (10, 1)])), (3, (1, [(4, 1), (5, 2), (6, 1), (12, 2)])), (4, (2, [(3, 4), (4, 2), (5, 1), (7, 1), (10, 1), (17, 2)]))] 0 (2, [(4, 2), (5, 1), (7, 1), (10, 1), (17, 2)]),
      .no [(0, (1, [(5, 1), (6, 1), (10, 1)])), (1, (1, [(4, 1), (6, 1), (10, 1)])), (2, (1, [(4, 1), (5, 1), (10, 1)])), (3, (1, [(4, 1), (5, 2), (6, 1), (12, 2)])), (4, (1, [(3, 4), (4, 1), (5, 2), (6, 1), (15, 2)]))] 0 (1, [(3, 2), (4, 1), (5, 2), (6, 1), (15, 2)]),
      .no [(0, (1, [(5, 1), (6, 1), (10, 1)])), (1, (1, [(4, 1), (6, 1), (10, 1)])), (2, (1, [(4, 1), (5, 1), (10, 1)])), (3, (1, [(4, 1), (5, 2), (6, 1), (12, 2)])), (4, (1, [(3, 1), (4, 1), (5, 1), (6, 1), (16, 1)]))] 0 (1, [(4, 2), (5, 2), (6, 2), (8, 1), (16, 2)]),
      .no [(0, (1, [(5, 1), (6, 1), (10, 1)])), (1, (1, [(4, 1), (6, 1), (10, 1)])), (2, (1, [(4, 1), (5, 1), (10, 1)])), (3, (1, [(4, 1), (5, 2), (6, 1), (12, 2)])), (4, (1, [(4, 1), (6, 1), (16, 2)]))] 0 (2, [(4, 4), (5, 2), (7, 1), (8, 1), (10, 2), (17, 2)]),
      .no [(0, (1, [(5, 1), (6, 1), (10, 1)])), (1, (1, [(4, 1), (6, 1), (10, 1)])), (2, (1, [(4, 1), (5, 1), (10, 1)])), (3, (1, [(4, 1), (5, 2), (6, 1), (12, 2)])), (4, (2, [(3, 3), (4, 3), (5, 2), (7, 1), (10, 1), (17, 1)]))] 0 (3, [(4, 6), (5, 4), (7, 2), (8, 1), (10, 2), (17, 2)]),
      .no [(0, (1, [(5, 1), (6, 1), (10, 1)])), (1, (1, [(4, 1), (6, 1), (10, 1)])), (2, (1, [(4, 1), (5, 1), (10, 1)])), (3, (1, [(4, 1), (5, 2), (6, 1), (12, 2)])), (4, (1, [(3, 2), (4, 1), (6, 1), (12, 2), (15, 2)]))] 0 (1, [(4, 1), (6, 1), (12, 2), (15, 2)]),
      .no [(0, (1, [(5, 1), (6, 1), (10, 1)])), (1, (1, [(4, 1), (6, 1), (10, 1)])), (2, (1, [(4, 1), (5, 1), (10, 1)])), (3, (1, [(4, 1), (5, 2), (6, 1), (12, 2)])), (4, (1, [(3, 2), (4, 1), (5, 1), (6, 1), (12, 1), (15, 1)]))] 0 (1, [(4, 1), (5, 1), (6, 1), (12, 1), (15, 1)]),
      .no [(0, (1, [(5, 1), (6, 1), (10, 1)])), (1, (1, [(4, 1), (6, 1), (10, 1)])), (2, (1, [(4, 1), (5, 1), (10, 1)])), (3, (1, [(4, 1), (5, 2), (6, 1), (12, 2)])), (4, (3, [(3, 6), (4, 3), (5, 4), (6, 3), (12, 2), (15, 2)]))] 0 (3, [(4, 3), (5, 4), (6, 3), (12, 2), (15, 2)]),
      .yes [(0, (1, [(5, 1), (6, 1), (10, 1)])), (1, (1, [(4, 1), (6, 1), (10, 1)])), (2, (1, [(4, 1), (5, 1), (10, 1)])), (3, (1, [(4, 1), (5, 2), (6, 1), (12, 2)])), (4, (1, [(4, 1), (5, 2), (6, 1), (12, 2), (22, 2)]))] 1 [((1, [(5, 1), (6, 1), (10, 1)]), (1, [(4, 1)])), ((1, [(4, 1), (6, 1), (10, 1)]), (1, [(5, 1)])), ((1, [(4, 2), (5, 1), (10, 1)]), (1, [(5, 1), (6, 2), (10, 1)])), ((1, [(4, 1), (5, 2), (6, 1), (12, 2)]), (1, [(7, 1)])), ((1, [(4, 1), (5, 2), (6, 1), (12, 2), (22, 2)]), (1, [(8, 1)]))],
      .no [(0, (1, [(5, 1), (6, 1), (10, 1)])), (1, (1, [(4, 1), (6, 1), (10, 1)])), (2, (1, [(4, 1), (5, 1), (10, 1)])), (3, (1, [(4, 1), (5, 2), (6, 1), (12, 2)])), (4, (1, [(3, 2), (4, 1), (5, 2), (6, 1), (12, 2), (15, 2)]))] 0 (1, [(4, 1), (5, 2), (6, 1), (12, 2), (15, 2)]),
      .no [(0, (1, [(5, 1), (6, 1), (10, 1)])), (1, (1, [(4, 1), (6, 1), (10, 1)])), (2, (1, [(4, 1), (5, 1), (10, 1)])), (3, (1, [(4, 1), (5, 2), (6, 1), (12, 2)])), (4, (1, [(3, 2), (4, 1), (5, 2), (6, 1), (12, 1), (15, 1)]))] 0 (1, [(4, 1), (5, 2), (6, 1), (12, 1), (15, 1)]),
      .no [(0, (1, [(5, 1), (6, 1), (10, 1)])), (1, (1, [(4, 1), (6, 1), (10, 1)])), (2, (1, [(4, 1), (5, 1), (10, 1)])), (3, (1, [(4, 1), (5, 2), (6, 1), (12, 2)])), (4, (1, [(3, 2), (4, 2), (5, 2), (6, 2), (7, 1), (16, 2)]))] 0 (1, [(4, 2), (5, 2), (6, 2), (7, 1), (16, 2)]),
      .no [(0, (1, [(5, 1), (6, 1), (10, 1)])), (1, (1, [(4, 1), (6, 1), (10, 1)])), (2, (1, [(4, 1), (5, 1), (10, 1)])), (3, (1, [(4, 1), (5, 2), (6, 1), (12, 2)])), (4, (1, [(3, 1), (4, 2), (5, 1), (10, 1), (17, 1)]))] 0 (1, [(4, 4), (5, 2), (8, 1), (10, 2), (17, 2)]),
      .no [(0, (1, [(5, 1), (6, 1), (10, 1)])), (1, (1, [(4, 1), (6, 1), (10, 1)])), (2, (1, [(4, 1), (5, 1), (10, 1)])), (3, (1, [(4, 1), (5, 2), (6, 1), (12, 2)])), (4, (1, [(3, 2), (4, 1), (5, 4), (6, 1), (12, 2), (15, 2)]))] 0 (1, [(4, 1), (5, 4), (6, 1), (12, 2), (15, 2)]),
      .no [(0, (1, [(5, 1), (6, 1), (10, 1)])), (1, (1, [(4, 1), (6, 1), (10, 1)])), (2, (1, [(4, 1), (5, 1), (10, 1)])), (3, (1, [(4, 1), (5, 2), (6, 1), (12, 2)])), (4, (1, [(3, 1), (4, 1), (5, 1), (6, 1), (12, 2), (15, 1)]))] 0 (1, [(4, 2), (5, 2), (6, 2), (8, 1), (12, 4), (15, 2)]),
      .no [(0, (1, [(5, 1), (6, 1), (10, 1)])), (1, (1, [(4, 1), (6, 1), (10, 1)])), (2, (1, [(4, 1), (5, 1), (10, 1)])), (3, (1, [(4, 1), (5, 2), (6, 1), (12, 2)])), (4, (3, [(3, 4), (4, 3), (5, 4), (6, 3), (12, 4), (15, 2)]))] 0 (2, [(4, 3), (5, 4), (6, 3), (8, 1), (12, 4), (15, 2)]),
      .no [(0, (1, [(5, 1), (6, 1), (10, 1)])), (1, (1, [(4, 1), (6, 1), (10, 1)])), (2, (1, [(4, 1), (5, 1), (10, 1)])), (3, (1, [(4, 1), (5, 2), (6, 1), (12, 2)])), (4, (2, [(3, 3), (4, 2), (5, 3), (6, 2), (12, 2), (15, 1)]))] 0 (3, [(4, 4), (5, 6), (6, 4), (8, 1), (12, 4), (15, 2)]),
      .no [(0, (1, [(5, 1), (6, 1), (10, 1)])), (1, (1, [(4, 1), (6, 1), (10, 1)])), (2, (1, [(4, 1), (5, 1), (10, 1)])), (3, (1, [(4, 1), (5, 2), (6, 1), (12, 2)])), (4, (1, [(4, 1), (5, 2), (6, 1), (12, 4), (15, 2)]))] 0 (1, [(4, 1), (5, 2), (6, 1), (7, 2), (18, 2)]),
      .no [(0, (1, [(5, 1), (6, 1), (10, 1)])), (1, (1, [(4, 1), (6, 1), (10, 1)])), (2, (1, [(4, 1), (5, 1), (10, 1)])), (3, (1, [(4, 1), (5, 2), (6, 1), (12, 2)])), (4, (1, [(3, 1), (4, 1), (5, 2), (6, 1), (12, 2), (15, 1)]))] 0 (1, [(4, 2), (5, 4), (6, 2), (8, 1), (12, 4), (15, 2)]),
      .no [(0, (1, [(5, 1), (6, 1), (10, 1)])), (1, (1, [(4, 1), (6, 1), (10, 1)])), (2, (1, [(4, 1), (5, 1), (10, 1)])), (3, (1, [(4, 1), (5, 2), (6, 1), (12, 2)])), (4, (3, [(3, 4), (4, 3), (5, 6), (6, 3), (12, 4), (15, 2)]))] 0 (2, [(4, 3), (5, 6), (6, 3), (8, 1), (12, 4), (15, 2)]),
      .no [(0, (1, [(5, 1), (6, 1), (10, 1)])), (1, (1, [(4, 1), (6, 1), (10, 1)])), (2, (1, [(4, 1), (5, 1), (10, 1)])), (3, (1, [(4, 1), (5, 2), (6, 1), (12, 2)])), (4, (1, [(4, 1), (5, 2), (6, 1), (12, 2), (22, 2)]))] 0 (1, [(4, 2), (5, 2), (6, 2), (7, 1), (16, 2), (22, 2)]),
      .no [(0, (1, [(5, 1), (6, 1), (10, 1)])), (1, (1, [(4, 1), (6, 1), (10, 1)])), (2, (1, [(4, 1), (5, 1), (10, 1)])), (3, (1, [(4, 1), (5, 2), (6, 1), (12, 2)])), (4, (1, [(4, 1), (5, 4), (6, 1), (12, 4), (15, 2)]))] 0 (1, [(2, 2), (5, 1), (12, 2), (15, 2), (20, 1)]),
      .no [(0, (1, [(5, 1), (6, 1), (10, 1)])), (1, (1, [(4, 1), (6, 1), (10, 1)])), (2, (1, [(4, 1), (5, 1), (10, 1)])), (3, (1, [(4, 1), (5, 2), (6, 1), (12, 2)])), (4, (1, [(3, 1), (4, 1), (5, 3), (6, 1), (12, 2), (15, 1)]))] 0 (1, [(4, 2), (5, 6), (6, 2), (8, 1), (12, 4), (15, 2)])],
    .no [(0, (1, [(5, 1), (6, 1), (10, 1)])), (1, (1, [(4, 1), (6, 1), (10, 1)])), (2, (1, [(4, 1), (5, 1), (10, 1)])), (3, (1, [(4, 2), (5, 1), (10, 1), (15, 2)])), (4, (1, [(3, 2), (4, 2), (5, 1), (10, 1), (11, 2), (15, 2)]))] 0 (1, [(4, 2), (5, 1), (10, 1), (11, 2), (15, 2)]),
    .no [(0, (1, [(5, 1), (6, 1), (10, 1)])), (1, (1, [(4, 1), (6, 1), (10, 1)])), (2, (1, [(4, 1), (5, 1), (10, 1)])), (3, (1, [(2, 4), (4, 1), (5, 2), (6, 1), (11, 2)])), (4, (1, [(2, 2), (3, 2), (4, 1), (5, 2), (6, 1), (11, 2)]))] 0 (1, [(2, 2), (4, 1), (5, 2), (6, 1), (11, 2)]),
    .no [(0, (1, [(5, 1), (6, 1), (10, 1)])), (1, (1, [(4, 1), (6, 1), (10, 1)])), (2, (1, [(4, 1), (5, 1), (10, 1)])), (3, (1, [(2, 1), (4, 1), (5, 1), (6, 1), (12, 1)])), (4, (1, [(3, 2), (4, 2), (5, 2), (6, 2), (7, 1), (12, 2)]))] 0 (1, [(4, 2), (5, 2), (6, 2), (7, 1), (12, 2)]),
    .no [(0, (1, [(5, 1), (6, 1), (10, 1)])), (1, (1, [(4, 1), (6, 1), (10, 1)])), (2, (1, [(4, 1), (5, 1), (10, 1)])), (3, (1, [(4, 1), (6, 1), (12, 2)])), (4, (1, [(3, 4), (14, 1)]))] 0 (1, [(3, 2), (14, 1)]),
    .no [(0, (1, [(5, 1), (6, 1), (10, 1)])), (1, (1, [(4, 1), (6, 1), (10, 1)])), (2, (1, [(4, 1), (5, 1), (10, 1)])), (3, (3, [(2, 8), (3, 2), (4, 3), (5, 2), (10, 1), (14, 1)])), (4, (3, [(2, 2), (3, 8), (4, 3), (5, 2), (10, 1), (14, 1)]))] 0 (3, [(2, 2), (3, 2), (4, 3), (5, 2), (10, 1), (14, 1)])]

theorem treeI_2_ok : treeI_2.check true (0, 1, -1) = true := by decide +kernel

/-- All symmetries with first column `(0, 1, 0)`. -/
def treeI_3 : Tree1 :=
  .node [
    .no [(0, (1, [(10, 1)])), (1, (1, [(0, 2), (1, 2), (2, 2), (3, 2), (4, 1), (14, 1)])), (2, (1, [(1, 3), (3, 2), (11, 1)])), (3, (1, [(1, 1), (2, 2), (3, 2), (4, 1), (11, 1)])), (4, (1, [(1, 1), (3, 4), (4, 1), (11, 1)]))] 0 (1, [(1, 1), (3, 2), (4, 1), (11, 1)]),
    .no [(0, (1, [(10, 1)])), (2, (1, [(1, 2), (3, 2), (11, 1)])), (3, (1, [(2, 2), (3, 2), (4, 1), (11, 1)])), (4, (1, [(3, 4), (4, 1), (11, 1)]))] 0 (1, [(3, 2), (4, 1), (11, 1)]),
    .no [(0, (1, [(10, 1)])), (1, (1, [(3, 2), (6, 1), (7, 1), (14, 1)])), (2, (1, [(1, 1), (3, 2), (11, 1)])), (3, (1, [(2, 2), (3, 4), (4, 1), (6, 1), (11, 2)])), (4, (1, [(3, 6), (4, 1), (6, 1), (11, 2)]))] 0 (1, [(3, 4), (4, 1), (6, 1), (11, 2)]),
    .no [(0, (1, [(10, 1)])), (1, (1, [(0, 1), (2, 2), (14, 1)])), (2, (1, [(1, 2), (2, 2), (5, 1), (10, 1), (14, 1)])), (3, (1, [(2, 4), (5, 1), (14, 1)])), (4, (1, [(2, 2), (3, 2), (5, 1), (14, 1)]))] 0 (1, [(2, 2), (5, 1), (14, 1)]),
    .no [(0, (1, [(10, 1)]))] 3 (2, [(11, 1)]),
    .no [(0, (1, [(10, 1)])), (1, (1, [(7, 1), (14, 1)])), (2, (1, [(1, 1), (5, 1), (10, 1), (11, 1), (14, 1), (16, 2)])), (3, (1, [(5, 1), (14, 1)])), (4, (1, [(5, 1), (14, 1), (16, 2)]))] 0 (1, [(5, 2), (6, 1), (10, 1), (11, 2), (14, 2), (16, 4)]),
    .no [(0, (1, [(10, 1)])), (1, (1, [(2, 2), (6, 1), (8, 1), (14, 1)])), (2, (1, [(2, 2), (5, 1), (8, 1), (14, 1)])), (3, (1, [(2, 6), (5, 2), (6, 1), (10, 1), (11, 2), (14, 2)])), (4, (1, [(2, 2), (5, 1), (6, 1), (14, 1)]))] 0 (1, [(2, 4), (5, 2), (6, 1), (10, 1), (11, 2), (14, 2)]),
    .node [
      .no [(0, (1, [(10, 1)])), (2, (3, [(1, 8), (2, 2), (12, 1), (15, 2)])), (3, (3, [(1, 2), (2, 8), (4, 3), (12, 1), (15, 2)])), (4, (1, [(4, 1), (12, 1)]))] 0 (3, [(1, 2), (2, 2), (4, 3), (12, 1), (15, 2)]),
      .no [(0, (1, [(10, 1)])), (1, (3, [(2, 4), (4, 4), (8, 1), (15, 4), (19, 3)])), (2, (3, [(1, 6), (2, 2), (12, 1), (15, 2)])), (3, (3, [(2, 8), (4, 3), (12, 1), (15, 2)])), (4, (1, [(4, 1), (12, 1)]))] 0 (3, [(2, 2), (4, 3), (12, 1), (15, 2)]),
      .no [(0, (1, [(10, 1)])), (2, (3, [(1, 4), (2, 2), (12, 1), (15, 2)])), (3, (2, [(2, 6), (4, 2), (6, 1), (12, 1), (15, 2)])), (4, (1, [(4, 1), (12, 1)]))] 0 (2, [(2, 2), (4, 2), (6, 1), (12, 1), (15, 2)]),
      .no [(0, (1, [(10, 1)])), (2, (1, [(1, 4), (2, 2), (12, 1), (15, 2)])), (3, (1, [(1, 2), (2, 4), (4, 1), (12, 1), (15, 2)])), (4, (1, [(4, 1), (12, 1)]))] 0 (1, [(1, 2), (2, 2), (4, 1), (12, 1), (15, 2)]),
      .no [(0, (1, [(10, 1)])), (1, (1, [(4, 1), (19, 1)])), (2, (1, [(1, 2), (2, 2), (12, 1), (15, 2)])), (3, (1, [(2, 4), (4, 1), (12, 1), (15, 2)])), (4, (1, [(4, 1), (12, 1)]))] 0 (1, [(2, 2), (4, 1), (12, 1), (15, 2)]),
      .no [(0, (1, [(10, 1)])), (2, (1, [(2, 2), (12, 1), (15, 2)])), (3, (1, [(8, 1), (18, 2)])), (4, (1, [(4, 1), (12, 1)]))] 0 (1, [(6, 1), (8, 1), (12, 1), (15, 2), (18, 2)]),
      .no [(0, (1, [(10, 1)])), (2, (1, [(2, 1), (8, 1), (18, 1)])), (3, (3, [(4, 4), (8, 3), (16, 2), (18, 2), (21, 6)])), (4, (1, [(4, 1), (12, 1)]))] 0 (1, [(4, 1), (6, 1), (8, 2), (18, 2), (21, 2)]),
      .no [(0, (1, [(10, 1)])), (1, (1, [(4, 1), (12, 1), (19, 1)])), (2, (1, [(1, 1), (8, 1), (18, 1)])), (3, (1, [(4, 2), (8, 1), (16, 2)])), (4, (1, [(4, 1), (12, 1)]))] 0 (1, [(4, 1), (6, 1), (8, 2), (18, 2)]),
      .no [(0, (1, [(10, 1)])), (2, (1, [(1, 2), (4, 1), (7, 1), (8, 2), (18, 2)])), (3, (1, [(1, 2), (4, 2), (8, 1), (16, 2)])), (4, (1, [(4, 1), (12, 1)]))] 0 (1, [(4, 2), (7, 1), (8, 2), (18, 2)]),
      .no [(0, (1, [(10, 1)])), (2, (1, [(1, 3), (2, 1), (15, 1)])), (3, (1, [(1, 1), (2, 3), (4, 1), (15, 1)])), (4, (1, [(4, 1), (12, 1)]))] 0 (1, [(1, 1), (2, 1), (4, 1), (15, 1)]),
      .no [(0, (1, [(10, 1)])), (1, (1, [(19, 1)])), (2, (1, [(1, 2), (2, 1), (15, 1)])), (3, (1, [(2, 3), (4, 1), (15, 1)])), (4, (1, [(4, 1), (12, 1)]))] 0 (1, [(2, 1), (4, 1), (15, 1)]),
      .no [(0, (1, [(10, 1)])), (2, (1, [(1, 1), (2, 1), (15, 1)])), (3, (1, [(2, 4), (4, 1), (6, 1), (15, 2)])), (4, (1, [(4, 1), (12, 1)]))] 0 (1, [(2, 2), (4, 1), (6, 1), (15, 2)]),
      .no [(0, (1, [(10, 1)])), (4, (1, [(4, 1), (12, 1)]))] 1 (1, [(2, 1), (15, 1)]),
      .no [(0, (1, [(10, 1)])), (1, (1, [(0, 1), (4, 1), (19, 1)])), (2, (1, [(1, 2), (5, 1), (19, 1)])), (3, (1, [(2, 2), (4, 1), (5, 1), (19, 1)])), (4, (1, [(4, 1), (12, 1)]))] 0 (1, [(4, 1), (5, 1), (19, 1)]),
      .no [(0, (1, [(10, 1)])), (4, (1, [(4, 1), (12, 1)]))] 1 (1, [(16, 1), (17, 1)]),
      .yes [(0, (1, [(10, 1)])), (2, (1, [(4, 1), (7, 1), (16, 2)])), (3, (1, [(4, 1), (6, 1), (16, 2)])), (4, (1, [(4, 1), (12, 1)]))] 9 [((1, [(10, 1)]), (1, [(4, 1)])), ((1, [(4, 2), (7, 1), (16, 2)]), (1, [(6, 1), (10, 1)])), ((1, [(4, 1), (6, 1), (16, 2)]), (1, [(7, 1)])), ((1, [(4, 1), (12, 1)]), (1, [(8, 1)]))],
      .no [(0, (1, [(10, 1)])), (1, (1, [(19, 1)])), (2, (1, [(1, 2), (4, 1), (7, 1), (16, 2)])), (3, (1, [(2, 1), (4, 1), (16, 1)])), (4, (1, [(4, 1), (12, 1)]))] 0 (1, [(4, 2), (7, 1), (16, 2)]),
      .no [(0, (1, [(10, 1)])), (2, (1, [(1, 4), (4, 1), (7, 1), (16, 2)])), (3, (1, [(1, 1), (2, 1), (4, 1), (16, 1)])), (4, (1, [(4, 1), (12, 1)]))] 0 (1, [(1, 2), (4, 2), (7, 1), (16, 2)]),
      .no [(0, (1, [(10, 1)])), (2, (1, [(1, 4), (2, 2), (4, 1), (8, 1), (15, 2)])), (3, (1, [(1, 2), (2, 4), (4, 2), (8, 1), (15, 2)])), (4, (1, [(4, 1), (12, 1)]))] 0 (1, [(1, 2), (2, 2), (4, 2), (8, 1), (15, 2)]),
      .no [(0, (1, [(10, 1)])), (1, (1, [(4, 1), (12, 1), (19, 1)])), (2, (1, [(1, 2), (2, 2), (4, 1), (8, 1), (15, 2)])), (3, (1, [(2, 4), (4, 2), (8, 1), (15, 2)])), (4, (1, [(4, 1), (12, 1)]))] 0 (1, [(2, 2), (4, 2), (8, 1), (15, 2)]),
      .no [(0, (1, [(10, 1)])), (2, (1, [(2, 2), (4, 1), (8, 1), (15, 2)])), (3, (1, [(2, 3), (4, 1), (8, 1), (17, 1)])), (4, (1, [(4, 1), (12, 1)]))] 0 (1, [(2, 1), (4, 1), (8, 1), (17, 1)]),
      .no [(0, (1, [(10, 1)])), (3, (3, [(4, 1), (12, 1), (16, 4), (17, 2)])), (4, (1, [(4, 1), (12, 1)])), (2, (2, [(7, 1), (10, 1), (12, 1), (17, 2), (22, 4)]))] 0 (1, [(7, 1), (17, 2), (22, 2)]),
      .no [(0, (1, [(10, 1)])), (1, (1, [(4, 1), (19, 1)])), (2, (1, [(1, 4), (7, 1), (10, 1), (16, 2), (17, 2)])), (3, (1, [(4, 1), (12, 1), (16, 2)])), (4, (1, [(4, 1), (12, 1)]))] 0 (1, [(1, 2), (7, 1), (16, 2), (17, 2)]),
      .no [(0, (1, [(10, 1)])), (2, (1, [(1, 3), (10, 1), (16, 1), (17, 1)])), (3, (1, [(1, 2), (4, 1), (12, 1), (16, 2)])), (4, (1, [(4, 1), (12, 1)]))] 0 (1, [(1, 1), (16, 1), (17, 1)]),
      .no [(0, (1, [(10, 1)])), (2, (2, [(1, 2), (4, 1), (7, 1), (12, 1), (16, 2)])), (3, (2, [(2, 2), (4, 2), (6, 1), (12, 1), (16, 2)])), (4, (1, [(4, 1), (12, 1)]))] 0 (1, [(4, 2), (6, 1), (7, 1), (12, 1), (16, 2)]),
      .no [(0, (1, [(10, 1)])), (1, (1, [(4, 2), (7, 1), (16, 2), (19, 1)])), (2, (2, [(1, 4), (4, 1), (7, 1), (12, 1), (16, 2)])), (3, (3, [(2, 4), (4, 3), (12, 1), (16, 2)])), (4, (1, [(4, 1), (12, 1)]))] 0 (2, [(4, 3), (7, 1), (12, 1), (16, 2)]),
      .no [(0, (1, [(10, 1)])), (2, (2, [(1, 6), (4, 1), (7, 1), (12, 1), (16, 2)])), (3, (3, [(1, 2), (2, 4), (4, 3), (12, 1), (16, 2)])), (4, (1, [(4, 1), (12, 1)]))] 0 (2, [(1, 2), (4, 3), (7, 1), (12, 1), (16, 2)])],
    .no [(0, (1, [(10, 1)])), (1, (1, [(1, 2), (4, 1), (7, 1), (8, 1), (14, 1)])), (3, (1, [(1, 2), (4, 1), (5, 1), (8, 1), (14, 1)])), (4, (1, [(1, 1), (4, 1), (12, 1)])), (2, (1, [(5, 1), (7, 1), (14, 1), (17, 2)]))] 0 (1, [(4, 2), (5, 2), (7, 2), (8, 1), (14, 2), (17, 2)]),
    .no [(0, (1, [(10, 1)])), (1, (1, [(0, 1), (1, 2), (4, 1), (14, 1)])), (2, (1, [(1, 3), (3, 1), (11, 1)])), (3, (1, [(1, 1), (2, 2), (3, 1), (4, 1), (11, 1)])), (4, (1, [(1, 1), (3, 3), (4, 1), (11, 1)]))] 0 (1, [(1, 1), (3, 1), (4, 1), (11, 1)]),
    .no [(0, (1, [(10, 1)])), (2, (1, [(1, 2), (3, 1), (11, 1)])), (3, (1, [(2, 2), (3, 1), (4, 1), (11, 1)])), (4, (1, [(3, 3), (4, 1), (11, 1)]))] 0 (1, [(3, 1), (4, 1), (11, 1)]),
    .no [(0, (1, [(10, 1)])), (1, (1, [(6, 1), (14, 1)])), (2, (1, [(1, 1), (3, 1), (11, 1)])), (3, (1, [(2, 2), (3, 2), (4, 1), (6, 1), (11, 2)])), (4, (1, [(3, 4), (4, 1), (6, 1), (11, 2)]))] 0 (1, [(3, 2), (4, 1), (6, 1), (11, 2)]),
    .no [(0, (1, [(10, 1)])), (1, (1, [(14, 1)]))] 1 (1, [(3, 1), (11, 1)]),
    .no [(0, (1, [(10, 1)])), (2, (1, [(1, 2), (13, 1)])), (3, (1, [(2, 2), (4, 1), (13, 1)])), (4, (1, [(3, 2), (4, 1), (13, 1)]))] 0 (1, [(4, 1), (13, 1)]),
    .node [
      .no [(0, (1, [(10, 1)])), (1, (1, [(14, 1)])), (2, (1, [(1, 3), (2, 1), (3, 1), (15, 1)])), (3, (1, [(1, 1), (2, 3), (3, 1), (4, 1), (15, 1)])), (4, (1, [(1, 1), (2, 1), (3, 3), (4, 1), (15, 1)]))] 0 (1, [(1, 1), (2, 1), (3, 1), (4, 1), (15, 1)]),
      .no [(0, (1, [(10, 1)])), (1, (1, [(14, 1)])), (2, (1, [(1, 2), (2, 1), (3, 1), (15, 1)])), (3, (1, [(2, 3), (3, 1), (4, 1), (15, 1)])), (4, (1, [(2, 1), (3, 3), (4, 1), (15, 1)]))] 0 (1, [(2, 1), (3, 1), (4, 1), (15, 1)]),
      .no [(0, (1, [(10, 1)])), (1, (1, [(14, 1)])), (2, (1, [(1, 1), (2, 1), (3, 1), (15, 1)])), (3, (1, [(2, 4), (3, 2), (4, 1), (6, 1), (15, 2)])), (4, (1, [(2, 2), (3, 4), (4, 1), (6, 1), (15, 2)]))] 0 (1, [(2, 2), (3, 2), (4, 1), (6, 1), (15, 2)]),
      .no [(0, (1, [(10, 1)])), (1, (1, [(14, 1)])), (2, (1, [(1, 3), (2, 1), (5, 1), (17, 1)])), (3, (1, [(1, 1), (2, 3), (4, 1), (5, 1), (17, 1)])), (4, (1, [(1, 1), (2, 1), (3, 2), (4, 1), (5, 1), (17, 1)]))] 0 (1, [(1, 1), (2, 1), (4, 1), (5, 1), (17, 1)]),
      .no [(0, (1, [(10, 1)])), (1, (1, [(14, 1)]))] 1 (1, [(2, 1), (12, 1), (15, 1)]),
      .no [(0, (1, [(10, 1)])), (1, (1, [(14, 1)])), (2, (1, [(4, 1), (5, 2), (7, 1), (18, 2)])), (3, (1, [(4, 1), (5, 2), (6, 1), (18, 2)])), (4, (1, [(4, 2), (5, 2), (7, 1), (12, 2), (18, 2)]))] 0 (1, [(4, 1), (5, 2), (6, 1), (12, 2), (15, 2), (18, 2)]),
      .no [(0, (1, [(10, 1)])), (1, (1, [(14, 1)])), (2, (3, [(4, 1), (5, 1), (7, 1), (11, 3), (16, 3), (17, 1)])), (3, (1, [(2, 3), (4, 1), (5, 1), (17, 1)])), (4, (3, [(4, 4), (5, 1), (7, 1), (12, 3), (16, 3), (17, 1)]))] 0 (1, [(2, 1), (4, 1), (5, 1), (17, 1)]),
      .no [(0, (1, [(10, 1)])), (1, (1, [(14, 1)])), (2, (1, [(4, 1), (7, 1), (11, 2), (16, 2)])), (3, (1, [(4, 2), (8, 1), (16, 2)])), (4, (1, [(4, 2), (7, 1), (16, 2)]))] 0 (1, [(4, 1), (6, 1), (11, 2), (16, 2), (17, 2)]),
      .no [(0, (1, [(10, 1)])), (1, (1, [(14, 1)])), (2, (1, [(1, 2), (4, 1), (7, 1), (11, 2), (16, 2)])), (3, (1, [(1, 2), (4, 2), (8, 1), (16, 2)])), (4, (1, [(1, 2), (4, 2), (7, 1), (16, 2)]))] 0 (1, [(4, 2), (7, 1), (11, 2), (16, 2)]),
      .no [(0, (1, [(10, 1)])), (1, (1, [(14, 1)])), (2, (1, [(1, 3), (2, 1), (15, 1)])), (3, (1, [(1, 1), (2, 3), (4, 1), (15, 1)])), (4, (1, [(1, 1), (2, 1), (3, 2), (4, 1), (15, 1)]))] 0 (1, [(1, 1), (2, 1), (4, 1), (15, 1)]),
      .no [(0, (1, [(10, 1)])), (1, (1, [(14, 1)])), (2, (1, [(1, 2), (2, 1), (15, 1)])), (3, (1, [(2, 3), (4, 1), (15, 1)])), (4, (1, [(2, 1), (3, 2), (4, 1), (15, 1)]))] 0 (1, [(2, 1), (4, 1), (15, 1)]),
      .no [(0, (1, [(10, 1)])), (1, (1, [(14, 1)])), (2, (1, [(1, 1), (2, 1), (15, 1)])), (3, (1, [(2, 4), (4, 1), (6, 1), (15, 2)])), (4, (1, [(2, 2), (3, 2), (4, 1), (6, 1), (15, 2)]))] 0 (1, [(2, 2), (4, 1), (6, 1), (15, 2)]),
      .no [(0, (1, [(10, 1)])), (1, (1, [(14, 1)])), (2, (1, [(1, 3), (5, 1), (17, 1)])), (3, (1, [(1, 1), (2, 2), (4, 1), (5, 1), (17, 1)])), (4, (1, [(1, 1), (3, 2), (4, 1), (5, 1), (17, 1)]))] 0 (1, [(1, 1), (4, 1), (5, 1), (17, 1)]),
      .no [(0, (1, [(10, 1)])), (1, (1, [(14, 1)])), (2, (1, [(1, 2), (5, 1), (19, 1)])), (3, (1, [(2, 2), (4, 1), (5, 1), (19, 1)])), (4, (1, [(3, 2), (4, 1), (5, 1), (19, 1)]))] 0 (1, [(4, 1), (5, 1), (19, 1)]),
      .no [(0, (1, [(10, 1)])), (1, (1, [(14, 1)])), (2, (1, [(1, 1), (5, 1), (18, 1)])), (3, (1, [(2, 2), (4, 1), (5, 2), (6, 1), (18, 2)])), (4, (1, [(3, 2), (4, 1), (5, 2), (6, 1), (18, 2)]))] 0 (1, [(4, 1), (5, 2), (6, 1), (18, 2)]),
      .no [(0, (1, [(10, 1)])), (1, (1, [(14, 1)])), (2, (1, [(4, 1), (7, 1), (16, 2)])), (3, (1, [(4, 1), (6, 1), (16, 2)])), (4, (1, [(4, 2), (7, 1), (12, 2), (16, 2)]))] 0 (1, [(4, 1), (5, 1), (17, 1)]),
      .no [(0, (1, [(10, 1)])), (1, (1, [(14, 1)])), (2, (1, [(1, 2), (4, 1), (7, 1), (16, 2)])), (3, (1, [(2, 1), (4, 1), (16, 1)])), (4, (1, [(3, 2), (4, 2), (7, 1), (16, 2)]))] 0 (1, [(4, 2), (7, 1), (16, 2)]),
      .no [(0, (1, [(10, 1)])), (1, (1, [(14, 1)])), (2, (1, [(1, 4), (4, 1), (7, 1), (16, 2)])), (3, (1, [(1, 1), (2, 1), (4, 1), (16, 1)])), (4, (1, [(1, 2), (3, 2), (4, 2), (7, 1), (16, 2)]))] 0 (1, [(1, 2), (4, 2), (7, 1), (16, 2)]),
      .no [(0, (1, [(10, 1)])), (1, (1, [(14, 1)])), (2, (1, [(1, 4), (2, 2), (4, 1), (8, 1), (15, 2)])), (3, (1, [(1, 2), (2, 4), (4, 2), (8, 1), (15, 2)])), (4, (1, [(1, 1), (2, 1), (3, 1), (4, 1), (15, 1)]))] 0 (1, [(1, 2), (2, 2), (4, 2), (8, 1), (15, 2)]),
      .no [(0, (1, [(10, 1)])), (1, (1, [(14, 1)])), (2, (1, [(1, 2), (2, 2), (4, 1), (8, 1), (15, 2)])), (3, (1, [(2, 4), (4, 2), (8, 1), (15, 2)])), (4, (1, [(2, 1), (3, 1), (4, 1), (15, 1)]))] 0 (1, [(2, 2), (4, 2), (8, 1), (15, 2)]),
      .no [(0, (1, [(10, 1)])), (1, (1, [(14, 1)])), (2, (1, [(2, 2), (4, 1), (8, 1), (15, 2)])), (3, (1, [(2, 2), (4, 2), (8, 1), (15, 2), (21, 2)])), (4, (1, [(2, 2), (4, 1), (6, 1), (15, 2)]))] 0 (1, [(4, 2), (8, 1), (15, 2), (21, 2)]),
      .no [(0, (1, [(10, 1)])), (1, (1, [(14, 1)])), (2, (1, [(1, 4), (4, 1), (5, 2), (7, 1), (17, 2)])), (3, (1, [(1, 1), (2, 1), (4, 1), (5, 1), (17, 1)])), (4, (1, [(1, 2), (3, 2), (4, 2), (5, 2), (7, 1), (17, 2)]))] 0 (1, [(1, 2), (4, 2), (5, 2), (7, 1), (17, 2)]),
      .yes [(0, (1, [(10, 1)])), (1, (1, [(14, 1)]))] 2 [((1, [(10, 1)]), (1, [(4, 1)])), ((1, [(14, 1)]), (1, [(5, 1)])), ((1, [(12, 1), (16, 1)]), (1, [(11, 1), (15, 1)])), ((1, [(12, 1)]), (1, [(11, 1)]))],
      .no [(0, (1, [(10, 1)])), (1, (1, [(14, 1)])), (2, (1, [(1, 1), (2, 1), (5, 1), (18, 1)])), (3, (1, [(2, 4), (4, 1), (5, 2), (6, 1), (18, 2)])), (4, (1, [(2, 2), (3, 2), (4, 1), (5, 2), (6, 1), (18, 2)]))] 0 (1, [(2, 2), (4, 1), (5, 2), (6, 1), (18, 2)]),
      .no [(0, (1, [(10, 1)])), (1, (1, [(14, 1)])), (2, (1, [(3, 2), (4, 1), (7, 1), (16, 2)])), (3, (1, [(3, 2), (4, 1), (6, 1), (16, 2)])), (4, (1, [(3, 2), (4, 2), (7, 1), (12, 2), (16, 2)]))] 0 (1, [(4, 2), (7, 1), (12, 2), (16, 2)]),
      .no [(0, (1, [(10, 1)])), (1, (1, [(14, 1)])), (2, (1, [(1, 2), (3, 2), (4, 1), (7, 1), (16, 2)])), (3, (1, [(2, 1), (3, 1), (4, 1), (16, 1)])), (4, (1, [(3, 4), (4, 2), (7, 1), (16, 2)]))] 0 (1, [(3, 2), (4, 2), (7, 1), (16, 2)]),
      .no [(0, (1, [(10, 1)])), (1, (1, [(14, 1)])), (2, (1, [(1, 4), (3, 2), (4, 1), (7, 1), (16, 2)])), (3, (1, [(1, 1), (2, 1), (3, 1), (4, 1), (16, 1)])), (4, (1, [(1, 2), (3, 4), (4, 2), (7, 1), (16, 2)]))] 0 (1, [(1, 2), (3, 2), (4, 2), (7, 1), (16, 2)])],
    .node [
      .no [(0, (1, [(10, 1)])), (1, (1, [(6, 1), (14, 1)])), (2, (1, [(4, 1), (8, 1), (12, 2)])), (3, (2, [(2, 5), (4, 2), (12, 1), (15, 1)])), (4, (1, [(4, 1), (6, 1), (12, 2)]))] 0 (2, [(2, 1), (4, 2), (12, 1), (15, 1)]),
      .no [(0, (1, [(10, 1)])), (1, (1, [(6, 1), (14, 1)])), (2, (1, [(4, 1), (8, 1), (12, 2)])), (3, (3, [(2, 8), (4, 3), (6, 1), (12, 2), (15, 2)])), (4, (1, [(4, 1), (6, 1), (12, 2)]))] 0 (3, [(2, 2), (4, 3), (6, 1), (12, 2), (15, 2)]),
      .no [(0, (1, [(10, 1)])), (1, (1, [(6, 1), (14, 1)])), (2, (1, [(4, 1), (8, 1), (12, 2)])), (3, (1, [(2, 3), (4, 1), (6, 1), (12, 1), (15, 1)])), (4, (1, [(4, 1), (6, 1), (12, 2)]))] 0 (1, [(2, 1), (4, 1), (6, 1), (12, 1), (15, 1)]),
      .no [(0, (1, [(10, 1)])), (1, (1, [(6, 1), (14, 1)])), (2, (1, [(4, 1), (8, 1), (12, 2)])), (3, (1, [(2, 3), (4, 1), (12, 1), (15, 1)])), (4, (1, [(4, 1), (6, 1), (12, 2)]))] 0 (1, [(2, 1), (4, 1), (12, 1), (15, 1)]),
      .no [(0, (1, [(10, 1)])), (1, (1, [(6, 1), (14, 1)])), (2, (1, [(4, 1), (8, 1), (12, 2)])), (3, (1, [(2, 4), (4, 1), (6, 1), (12, 2), (15, 2)])), (4, (1, [(4, 1), (6, 1), (12, 2)]))] 0 (1, [(2, 2), (4, 1), (6, 1), (12, 2), (15, 2)]),
      .no [(0, (1, [(10, 1)])), (1, (1, [(6, 1), (14, 1)])), (2, (1, [(4, 1), (8, 1), (12, 2)])), (3, (3, [(2, 4), (4, 3), (5, 2), (6, 1), (12, 2), (17, 2)])), (4, (1, [(4, 1), (6, 1), (12, 2)]))] 0 (2, [(4, 3), (5, 2), (6, 1), (7, 1), (12, 2), (17, 2)]),
      .no [(0, (1, [(10, 1)])), (1, (1, [(6, 1), (14, 1)])), (2, (1, [(4, 1), (8, 1), (12, 2)])), (3, (1, [(4, 2), (8, 1), (12, 2), (21, 2)])), (4, (1, [(4, 1), (6, 1), (12, 2)]))] 0 (1, [(4, 2), (8, 1), (12, 4), (15, 2), (21, 2)]),
      .yes [(0, (1, [(10, 1)])), (1, (1, [(6, 1), (14, 1)])), (2, (1, [(4, 1), (8, 1), (12, 2)])), (3, (1, [(4, 2), (8, 1), (16, 2)])), (4, (1, [(4, 1), (6, 1), (12, 2)]))] 1 [((1, [(10, 1)]), (1, [(4, 1)])), ((1, [(6, 1), (14, 1)]), (1, [(5, 1)])), ((1, [(4, 2), (8, 1), (12, 2)]), (1, [(6, 1), (10, 1)])), ((1, [(4, 2), (8, 1), (16, 2)]), (1, [(7, 1)])), ((1, [(4, 1), (6, 1), (12, 2)]), (1, [(8, 1)]))],
      .no [(0, (1, [(10, 1)])), (1, (1, [(6, 1), (14, 1)])), (2, (1, [(4, 1), (8, 1), (12, 2)])), (3, (1, [(2, 1), (4, 2), (8, 1), (12, 1), (16, 1)])), (4, (1, [(4, 1), (6, 1), (12, 2)]))] 0 (1, [(4, 4), (7, 1), (8, 2), (12, 2), (16, 2)]),
      .no [(0, (1, [(10, 1)])), (1, (1, [(6, 1), (14, 1)])), (2, (1, [(4, 1), (8, 1), (12, 2)])), (3, (1, [(1, 1), (2, 3), (4, 1), (15, 1)])), (4, (1, [(4, 1), (6, 1), (12, 2)]))] 0 (1, [(1, 1), (2, 1), (4, 1), (15, 1)]),
      .no [(0, (1, [(10, 1)])), (1, (1, [(6, 1), (14, 1)])), (2, (1, [(4, 1), (8, 1), (12, 2)])), (3, (1, [(2, 3), (4, 1), (15, 1)])), (4, (1, [(4, 1), (6, 1), (12, 2)]))] 0 (1, [(2, 1), (4, 1), (15, 1)]),
      .no [(0, (1, [(10, 1)])), (1, (1, [(6, 1), (14, 1)])), (2, (1, [(4, 1), (8, 1), (12, 2)])), (3, (1, [(2, 4), (4, 1), (6, 1), (15, 2)])), (4, (1, [(4, 1), (6, 1), (12, 2)]))] 0 (1, [(2, 2), (4, 1), (6, 1), (15, 2)]),
      .no [(0, (1, [(10, 1)])), (1, (1, [(6, 1), (14, 1)])), (2, (1, [(4, 1), (8, 1), (12, 2)])), (3, (1, [(2, 4), (4, 2), (8, 1), (12, 2), (15, 2)])), (4, (1, [(4, 1), (6, 1), (12, 2)]))] 0 (1, [(2, 2), (4, 2), (8, 1), (12, 2), (15, 2)]),
      .no [(0, (1, [(10, 1)])), (1, (1, [(6, 1), (14, 1)])), (2, (1, [(4, 1), (8, 1), (12, 2)])), (3, (1, [(2, 2), (4, 2), (8, 1), (12, 2), (17, 2)])), (4, (1, [(4, 1), (6, 1), (12, 2)]))] 0 (1, [(4, 2), (8, 1), (12, 2), (17, 2)]),
      .no [(0, (1, [(10, 1)])), (1, (1, [(6, 1), (14, 1)])), (2, (1, [(4, 1), (8, 1), (12, 2)])), (3, (1, [(4, 2), (8, 1), (12, 2), (16, 2)])), (4, (1, [(4, 1), (6, 1), (12, 2)]))] 0 (1, [(4, 1), (5, 1), (17, 1)]),
      .no [(0, (1, [(10, 1)])), (1, (1, [(6, 1), (14, 1)])), (2, (1, [(4, 1), (8, 1), (12, 2)])), (3, (1, [(4, 1), (6, 1), (16, 2)])), (4, (1, [(4, 1), (6, 1), (12, 2)]))] 0 (1, [(4, 1), (5, 2), (6, 3), (18, 2)]),
      .no [(0, (1, [(10, 1)])), (1, (1, [(6, 1), (14, 1)])), (2, (1, [(4, 1), (8, 1), (12, 2)])), (3, (1, [(2, 1), (4, 1), (16, 1)])), (4, (1, [(4, 1), (6, 1), (12, 2)]))] 0 (1, [(4, 2), (7, 1), (16, 2)]),
      .no [(0, (1, [(10, 1)])), (1, (1, [(6, 1), (14, 1)])), (2, (1, [(4, 1), (8, 1), (12, 2)])), (3, (1, [(1, 1), (2, 1), (4, 1), (16, 1)])), (4, (1, [(4, 1), (6, 1), (12, 2)]))] 0 (1, [(1, 2), (4, 2), (7, 1), (16, 2)]),
      .no [(0, (1, [(10, 1)])), (1, (1, [(6, 1), (14, 1)])), (2, (1, [(4, 1), (8, 1), (12, 2)])), (3, (1, [(2, 3), (4, 2), (8, 1), (12, 1), (15, 1)])), (4, (1, [(4, 1), (6, 1), (12, 2)]))] 0 (1, [(2, 1), (4, 2), (8, 1), (12, 1), (15, 1)]),
      .no [(0, (1, [(10, 1)])), (1, (1, [(6, 1), (14, 1)])), (2, (1, [(4, 1), (8, 1), (12, 2)])), (3, (1, [(2, 4), (4, 2), (8, 1), (15, 2)])), (4, (1, [(4, 1), (6, 1), (12, 2)]))] 0 (1, [(2, 2), (4, 2), (8, 1), (15, 2)]),
      .no [(0, (1, [(10, 1)])), (1, (1, [(6, 1), (14, 1)])), (2, (1, [(4, 1), (8, 1), (12, 2)])), (3, (2, [(2, 6), (4, 3), (5, 2), (6, 1), (8, 1), (17, 2)])), (4, (1, [(4, 1), (6, 1), (12, 2)]))] 0 (2, [(2, 2), (4, 3), (5, 2), (6, 1), (8, 1), (17, 2)]),
      .no [(0, (1, [(10, 1)])), (1, (1, [(6, 1), (14, 1)])), (2, (1, [(4, 1), (8, 1), (12, 2)])), (3, (1, [(4, 1), (5, 2), (6, 3), (12, 2), (18, 2)])), (4, (1, [(4, 1), (6, 1), (12, 2)]))] 0 (1, [(4, 1), (5, 2), (6, 1), (15, 2), (18, 2)]),
      .no [(0, (1, [(10, 1)])), (1, (1, [(6, 1), (14, 1)])), (2, (1, [(4, 1), (8, 1), (12, 2)])), (3, (1, [(4, 1), (6, 1), (12, 2), (16, 2)])), (4, (1, [(4, 1), (6, 1), (12, 2)]))] 0 (1, [(4, 2), (7, 1), (12, 2), (16, 4), (17, 2)]),
      .no [(0, (1, [(10, 1)])), (1, (1, [(6, 1), (14, 1)])), (2, (1, [(4, 1), (8, 1), (12, 2)])), (3, (1, [(2, 1), (4, 1), (12, 1), (16, 1)])), (4, (1, [(4, 1), (6, 1), (12, 2)]))] 0 (1, [(4, 2), (7, 1), (12, 2), (16, 2)]),
      .no [(0, (1, [(10, 1)])), (1, (1, [(6, 1), (14, 1)])), (2, (1, [(4, 1), (8, 1), (12, 2)])), (3, (1, [(2, 1), (4, 1), (6, 1), (12, 1), (16, 1)])), (4, (1, [(4, 1), (6, 1), (12, 2)]))] 0 (1, [(4, 2), (6, 2), (7, 1), (12, 2), (16, 2)]),
      .no [(0, (1, [(10, 1)])), (1, (1, [(6, 1), (14, 1)])), (2, (1, [(4, 1), (8, 1), (12, 2)])), (3, (3, [(2, 4), (4, 3), (6, 1), (12, 2), (16, 2)])), (4, (1, [(4, 1), (6, 1), (12, 2)]))] 0 (2, [(4, 3), (6, 1), (7, 1), (12, 2), (16, 2)]),
      .no [(0, (1, [(10, 1)])), (1, (1, [(6, 1), (14, 1)])), (2, (1, [(4, 1), (8, 1), (12, 2)])), (3, (2, [(2, 3), (4, 2), (12, 1), (16, 1)])), (4, (1, [(4, 1), (6, 1), (12, 2)]))] 0 (3, [(4, 4), (7, 1), (12, 2), (16, 2)])],
    .no [(0, (1, [(10, 1)])), (2, (1, [(1, 2), (4, 1), (8, 1), (12, 2)])), (3, (1, [(2, 2), (4, 2), (8, 1), (12, 2)])), (4, (1, [(3, 1), (4, 1), (12, 1)]))] 0 (1, [(4, 2), (8, 1), (12, 2)]),
    .no [(0, (1, [(10, 1)])), (1, (1, [(0, 1), (1, 2), (4, 1), (14, 1)])), (2, (1, [(1, 4), (4, 1), (8, 1), (12, 2)])), (3, (1, [(1, 2), (2, 2), (4, 2), (8, 1), (12, 2)])), (4, (1, [(1, 1), (3, 1), (4, 1), (12, 1)]))] 0 (1, [(1, 2), (4, 2), (8, 1), (12, 2)]),
    .no [(0, (1, [(10, 1)])), (1, (1, [(1, 2), (4, 1), (7, 1), (8, 1), (14, 1)])), (2, (1, [(1, 3), (11, 1)])), (3, (1, [(1, 1), (2, 2), (4, 1), (11, 1)])), (4, (1, [(1, 1), (3, 2), (4, 1), (11, 1)]))] 0 (1, [(1, 1), (4, 1), (11, 1)]),
    .no [(0, (1, [(10, 1)])), (2, (1, [(1, 2), (11, 1)])), (3, (1, [(2, 2), (4, 1), (11, 1)])), (4, (1, [(3, 2), (4, 1), (11, 1)]))] 0 (1, [(4, 1), (11, 1)]),
    .no [(0, (1, [(10, 1)])), (1, (1, [(2, 2), (6, 1), (8, 1), (14, 1)])), (2, (1, [(1, 1), (11, 1)])), (3, (1, [(2, 2), (4, 1), (6, 1), (11, 2)])), (4, (1, [(3, 2), (4, 1), (6, 1), (11, 2)]))] 0 (1, [(4, 1), (6, 1), (11, 2)]),
    .no [(0, (1, [(10, 1)])), (1, (1, [(7, 1), (14, 1)])), (3, (1, [(5, 1), (14, 1)])), (4, (1, [(5, 1), (14, 1), (16, 2)])), (2, (1, [(5, 1), (10, 1), (11, 2), (14, 1), (16, 2), (17, 2)]))] 0 (1, [(5, 1), (11, 4), (14, 1), (16, 2), (17, 2)]),
    .node [
      .no [(0, (1, [(10, 1)])), (2, (1, [(1, 3), (2, 1), (3, 1), (15, 1)])), (3, (1, [(1, 1), (2, 3), (3, 1), (4, 1), (15, 1)])), (4, (1, [(1, 1), (2, 1), (3, 3), (4, 1), (15, 1)]))] 0 (1, [(1, 1), (2, 1), (3, 1), (4, 1), (15, 1)]),
      .no [(0, (1, [(10, 1)])), (1, (3, [(2, 4), (4, 4), (8, 1), (15, 4), (19, 3)])), (2, (1, [(1, 2), (2, 1), (3, 1), (15, 1)])), (3, (1, [(2, 3), (3, 1), (4, 1), (15, 1)])), (4, (1, [(2, 1), (3, 3), (4, 1), (15, 1)]))] 0 (1, [(2, 1), (3, 1), (4, 1), (15, 1)]),
      .no [(0, (1, [(10, 1)])), (2, (1, [(1, 1), (2, 1), (3, 1), (15, 1)])), (3, (1, [(2, 4), (3, 2), (4, 1), (6, 1), (15, 2)])), (4, (1, [(2, 2), (3, 4), (4, 1), (6, 1), (15, 2)]))] 0 (1, [(2, 2), (3, 2), (4, 1), (6, 1), (15, 2)]),
      .no [(0, (1, [(10, 1)])), (2, (1, [(1, 3), (2, 1), (10, 1), (17, 1)])), (3, (1, [(1, 1), (2, 3), (17, 1)])), (4, (1, [(1, 1), (2, 1), (3, 2), (17, 1)]))] 0 (1, [(1, 1), (2, 1), (17, 1)]),
      .no [(0, (1, [(10, 1)])), (1, (1, [(4, 1), (19, 1)])), (2, (1, [(1, 3), (10, 1), (17, 1)])), (3, (1, [(1, 1), (2, 2), (17, 1)])), (4, (1, [(1, 1), (3, 2), (17, 1)]))] 0 (1, [(1, 1), (17, 1)]),
      .no [(0, (1, [(10, 1)])), (2, (1, [(1, 4), (7, 1), (10, 1), (17, 2)])), (3, (1, [(1, 1), (2, 1), (17, 1)])), (4, (1, [(1, 2), (3, 2), (7, 1), (17, 2)]))] 0 (1, [(1, 2), (7, 1), (17, 2)]),
      .no [(0, (1, [(10, 1)])), (2, (1, [(1, 2), (8, 1), (16, 1), (17, 1)])), (3, (1, [(2, 2), (4, 1), (8, 1), (16, 1), (17, 1)])), (4, (2, [(3, 2), (4, 1), (16, 1), (17, 1)]))] 0 (1, [(4, 1), (8, 1), (16, 1), (17, 1)]),
      .no [(0, (1, [(10, 1)])), (1, (1, [(4, 2), (7, 1), (16, 2), (19, 1)])), (2, (1, [(1, 4), (8, 1), (10, 1), (17, 2)])), (3, (1, [(4, 2), (8, 1), (16, 2)])), (4, (1, [(4, 2), (7, 1), (16, 2)]))] 0 (1, [(1, 2), (8, 1), (17, 2)]),
      .no [(0, (1, [(10, 1)])), (3, (1, [(1, 2), (4, 2), (8, 1), (16, 2)])), (4, (1, [(1, 2), (4, 2), (7, 1), (16, 2)])), (2, (1, [(4, 1), (7, 1), (16, 2), (22, 2)]))] 0 (1, [(4, 4), (7, 2), (8, 1), (16, 4), (22, 2)]),
      .no [(0, (1, [(10, 1)])), (2, (1, [(1, 3), (2, 1), (15, 1)])), (3, (1, [(1, 1), (2, 3), (4, 1), (15, 1)])), (4, (1, [(1, 1), (2, 1), (3, 2), (4, 1), (15, 1)]))] 0 (1, [(1, 1), (2, 1), (4, 1), (15, 1)]),
      .no [(0, (1, [(10, 1)])), (1, (1, [(19, 1)])), (2, (1, [(1, 2), (2, 1), (15, 1)])), (3, (1, [(2, 3), (4, 1), (15, 1)])), (4, (1, [(2, 1), (3, 2), (4, 1), (15, 1)]))] 0 (1, [(2, 1), (4, 1), (15, 1)]),
      .no [(0, (1, [(10, 1)])), (2, (1, [(1, 1), (2, 1), (15, 1)])), (3, (1, [(2, 4), (4, 1), (6, 1), (15, 2)])), (4, (1, [(2, 2), (3, 2), (4, 1), (6, 1), (15, 2)]))] 0 (1, [(2, 2), (4, 1), (6, 1), (15, 2)]),
      .no [(0, (1, [(10, 1)]))] 1 (1, [(2, 1), (15, 1)]),
      .no [(0, (1, [(10, 1)])), (1, (1, [(0, 1), (4, 1), (19, 1)])), (2, (1, [(1, 2), (5, 1), (19, 1)])), (3, (1, [(2, 2), (4, 1), (5, 1), (19, 1)])), (4, (1, [(3, 2), (4, 1), (5, 1), (19, 1)]))] 0 (1, [(4, 1), (5, 1), (19, 1)]),
      .yes [(0, (1, [(10, 1)]))] 10 [((1, [(10, 1)]), (1, [(4, 1)])), ((1, [(16, 1)]), (1, [(15, 1)]))],
      .no [(0, (1, [(10, 1)])), (2, (1, [(4, 1), (7, 1), (16, 2)])), (3, (1, [(4, 1), (6, 1), (16, 2)])), (4, (1, [(3, 1), (4, 1), (16, 1), (17, 1)]))] 0 (1, [(4, 2), (8, 1), (16, 2), (17, 2)]),
      .no [(0, (1, [(10, 1)])), (1, (1, [(19, 1)])), (2, (1, [(1, 2), (4, 1), (7, 1), (16, 2)])), (3, (1, [(2, 1), (4, 1), (16, 1)])), (4, (1, [(3, 2), (4, 2), (7, 1), (16, 2)]))] 0 (1, [(4, 2), (7, 1), (16, 2)]),
      .no [(0, (1, [(10, 1)])), (2, (1, [(1, 4), (4, 1), (7, 1), (16, 2)])), (3, (1, [(1, 1), (2, 1), (4, 1), (16, 1)])), (4, (1, [(1, 2), (3, 2), (4, 2), (7, 1), (16, 2)]))] 0 (1, [(1, 2), (4, 2), (7, 1), (16, 2)]),
      .no [(0, (1, [(10, 1)])), (2, (1, [(1, 4), (2, 2), (4, 1), (8, 1), (15, 2)])), (3, (1, [(1, 2), (2, 4), (4, 2), (8, 1), (15, 2)])), (4, (1, [(1, 1), (2, 1), (3, 1), (4, 1), (15, 1)]))] 0 (1, [(1, 2), (2, 2), (4, 2), (8, 1), (15, 2)]),
      .no [(0, (1, [(10, 1)])), (1, (1, [(2, 1), (3, 1), (4, 1), (15, 1), (19, 1)])), (2, (1, [(1, 2), (2, 2), (4, 1), (8, 1), (15, 2)])), (3, (1, [(2, 4), (4, 2), (8, 1), (15, 2)])), (4, (1, [(2, 1), (3, 1), (4, 1), (15, 1)]))] 0 (1, [(2, 2), (4, 2), (8, 1), (15, 2)]),
      .no [(0, (1, [(10, 1)])), (2, (1, [(2, 2), (4, 1), (8, 1), (15, 2)])), (3, (1, [(2, 2), (4, 2), (8, 1), (15, 2), (21, 2)])), (4, (1, [(2, 2), (4, 1), (6, 1), (15, 2)]))] 0 (1, [(4, 2), (8, 1), (15, 2), (21, 2)]),
      .no [(0, (1, [(10, 1)])), (2, (1, [(7, 1), (10, 1), (18, 2)])), (3, (1, [(6, 1), (10, 1), (18, 2)])), (4, (1, [(3, 1), (15, 1), (18, 1)]))] 0 (1, [(8, 1), (15, 2), (18, 2)]),
      .no [(0, (1, [(10, 1)])), (1, (1, [(4, 1), (19, 1)])), (2, (1, [(1, 1), (10, 1), (18, 1)])), (3, (1, [(2, 2), (6, 1), (10, 1), (18, 2)])), (4, (1, [(3, 2), (6, 1), (10, 1), (18, 2)]))] 0 (1, [(6, 1), (10, 1), (18, 2)]),
      .no [(0, (1, [(10, 1)])), (2, (1, [(1, 1), (2, 1), (10, 1), (18, 1)])), (3, (1, [(2, 4), (6, 1), (10, 1), (18, 2)])), (4, (1, [(2, 2), (3, 2), (6, 1), (10, 1), (18, 2)]))] 0 (1, [(2, 2), (6, 1), (10, 1), (18, 2)]),
      .no [(0, (1, [(10, 1)])), (2, (1, [(3, 2), (4, 1), (7, 1), (16, 2)])), (3, (1, [(3, 2), (4, 1), (6, 1), (16, 2)]))] 3 (2, [(4, 1), (6, 1), (7, 1), (16, 2)]),
      .no [(0, (1, [(10, 1)])), (1, (1, [(4, 2), (7, 1), (16, 2), (19, 1)])), (2, (1, [(1, 2), (3, 2), (4, 1), (7, 1), (16, 2)])), (3, (1, [(2, 1), (3, 1), (4, 1), (16, 1)])), (4, (1, [(3, 4), (4, 2), (7, 1), (16, 2)]))] 0 (1, [(3, 2), (4, 2), (7, 1), (16, 2)]),
      .no [(0, (1, [(10, 1)])), (2, (1, [(1, 4), (3, 2), (4, 1), (7, 1), (16, 2)])), (3, (1, [(1, 1), (2, 1), (3, 1), (4, 1), (16, 1)])), (4, (1, [(1, 2), (3, 4), (4, 2), (7, 1), (16, 2)]))] 0 (1, [(1, 2), (3, 2), (4, 2), (7, 1), (16, 2)])],
    .no [(0, (1, [(10, 1)])), (1, (1, [(0, 1), (2, 2), (14, 1)])), (2, (1, [(1, 2), (2, 2), (5, 1), (10, 1), (14, 1)])), (3, (1, [(2, 4), (5, 1), (14, 1)])), (4, (1, [(2, 2), (3, 2), (5, 1), (14, 1)]))] 0 (1, [(2, 2), (5, 1), (14, 1)]),
    .no [(0, (1, [(10, 1)])), (1, (1, [(3, 2), (6, 1), (7, 1), (14, 1)])), (2, (1, [(1, 1), (12, 1)])), (3, (1, [(2, 2), (4, 1), (6, 1), (12, 2)])), (4, (1, [(3, 2), (4, 1), (6, 1), (12, 2)]))] 0 (1, [(4, 1), (6, 1), (12, 2)]),
    .no [(0, (1, [(10, 1)])), (2, (1, [(1, 2), (12, 1)])), (3, (1, [(2, 2), (4, 1), (12, 1)])), (4, (1, [(3, 2), (4, 1), (12, 1)]))] 0 (1, [(4, 1), (12, 1)]),
    .no [(0, (1, [(10, 1)])), (1, (1, [(0, 2), (1, 2), (2, 2), (3, 2), (4, 1), (14, 1)])), (2, (1, [(1, 3), (12, 1)])), (3, (1, [(1, 1), (2, 2), (4, 1), (12, 1)])), (4, (1, [(1, 1), (3, 2), (4, 1), (12, 1)]))] 0 (1, [(1, 1), (4, 1), (12, 1)])]

theorem treeI_3_ok : treeI_3.check true (0, 1, 0) = true := by decide +kernel

/-- All symmetries with first column `(0, 1, 1)`. -/
def treeI_4 : Tree1 :=
  .no [(0, (2, [(0, 1), (1, 2), (5, 1), (10, 1)])), (1, (1, [(0, 1), (1, 2), (4, 2), (10, 1)])), (2, (1, [(1, 4), (4, 1), (5, 1), (10, 1)])), (3, (1, [(1, 2), (2, 2), (4, 2), (5, 1), (10, 1)])), (4, (1, [(1, 2), (3, 2), (4, 2), (5, 1), (10, 1)]))] 0 (1, [(1, 2), (4, 2), (5, 1), (10, 1)])

theorem treeI_4_ok : treeI_4.check true (0, 1, 1) = true := by decide +kernel

/-- All symmetries with first column `(1, -1, -1)`. -/
def treeI_5 : Tree1 :=
  .no [(0, (2, [(1, 2), (5, 1), (7, 1), (8, 1), (10, 1)])), (1, (1, [(1, 2), (4, 2), (7, 1), (8, 1), (10, 1)])), (3, (1, [(1, 2), (4, 2), (5, 1), (8, 1), (10, 1)])), (4, (1, [(1, 2), (4, 2), (5, 1), (7, 1), (10, 1)])), (2, (1, [(4, 1), (5, 1), (7, 1), (10, 1), (13, 2)]))] 0 (1, [(4, 4), (5, 2), (7, 2), (8, 1), (10, 2), (13, 2)])

theorem treeI_5_ok : treeI_5.check true (1, -1, -1) = true := by decide +kernel

/-- All symmetries with first column `(1, -1, 0)`. -/
def treeI_6 : Tree1 :=
  .node [
    .no [(0, (1, [(8, 1), (10, 1)])), (1, (1, [(0, 2), (1, 2), (2, 2), (3, 2), (4, 1), (14, 1)])), (2, (1, [(2, 2), (8, 2), (10, 3), (11, 2)])), (3, (4, [(2, 12), (4, 1), (5, 1), (10, 2), (11, 2), (14, 1)])), (4, (1, [(4, 1), (10, 1)]))] 0 (4, [(2, 4), (4, 1), (5, 1), (10, 2), (11, 2), (14, 1)]),
    .no [(0, (1, [(8, 1), (10, 1)])), (2, (1, [(1, 2), (8, 2), (10, 3), (11, 2)])), (3, (1, [(2, 2), (8, 1), (10, 2), (11, 2)])), (4, (1, [(4, 1), (10, 1)]))] 0 (1, [(8, 1), (10, 2), (11, 2)]),
    .no [(0, (1, [(8, 1), (10, 1)])), (1, (1, [(3, 2), (6, 1), (7, 1), (14, 1)])), (2, (2, [(1, 2), (5, 1), (7, 1), (10, 1), (14, 1)])), (3, (1, [(1, 2), (8, 1), (10, 2), (11, 2)])), (4, (1, [(4, 1), (10, 1)]))] 0 (2, [(4, 1), (5, 1), (7, 2), (10, 2), (11, 2), (14, 1)]),
    .no [(0, (1, [(8, 1), (10, 1)])), (1, (1, [(0, 1), (2, 2), (14, 1)])), (2, (1, [(1, 1), (2, 1), (8, 1), (10, 1), (11, 1)])), (3, (1, [(2, 4), (6, 1), (8, 1), (10, 1), (11, 2)])), (4, (1, [(4, 1), (10, 1)]))] 0 (1, [(2, 2), (6, 1), (8, 1), (10, 1), (11, 2)]),
    .no [(0, (1, [(8, 1), (10, 1)])), (2, (1, [(1, 2), (8, 1), (10, 1), (11, 1)])), (3, (1, [(2, 2), (11, 1)])), (4, (1, [(4, 1), (10, 1)]))] 0 (1, [(11, 1)]),
    .no [(0, (1, [(8, 1), (10, 1)])), (1, (1, [(7, 1), (14, 1)])), (2, (1, [(1, 4), (7, 1), (8, 1), (10, 1), (11, 2)])), (3, (1, [(1, 1), (2, 1), (11, 1)])), (4, (1, [(4, 1), (10, 1)]))] 0 (1, [(1, 2), (7, 1), (11, 2)]),
    .no [(0, (1, [(8, 1), (10, 1)])), (1, (1, [(2, 2), (6, 1), (8, 1), (14, 1)])), (2, (3, [(1, 4), (2, 2), (8, 2), (10, 1), (11, 2)])), (3, (2, [(2, 6), (4, 1), (6, 1), (8, 1), (11, 2)])), (4, (1, [(4, 1), (10, 1)]))] 0 (2, [(2, 2), (4, 1), (6, 1), (8, 1), (11, 2)]),
    .no [(0, (1, [(8, 1), (10, 1)])), (2, (3, [(1, 6), (8, 2), (10, 1), (11, 2)])), (3, (3, [(2, 6), (4, 2), (8, 1), (11, 2)])), (4, (1, [(4, 1), (10, 1)]))] 0 (3, [(4, 2), (8, 1), (11, 2)]),
    .no [(0, (1, [(8, 1), (10, 1)])), (1, (1, [(1, 2), (4, 1), (7, 1), (8, 1), (14, 1)])), (2, (2, [(1, 6), (7, 1), (8, 1), (11, 2)])), (3, (3, [(1, 2), (2, 4), (4, 2), (8, 1), (11, 2)])), (4, (1, [(4, 1), (10, 1)]))] 0 (2, [(1, 2), (4, 2), (7, 1), (8, 1), (11, 2)]),
    .no [(0, (1, [(8, 1), (10, 1)])), (1, (1, [(0, 1), (1, 2), (4, 1), (14, 1)])), (2, (1, [(1, 4), (5, 1), (14, 1)])), (3, (1, [(1, 2), (2, 2), (4, 1), (5, 1), (14, 1)])), (4, (1, [(4, 1), (10, 1)]))] 0 (1, [(1, 2), (4, 1), (5, 1), (14, 1)]),
    .node [
      .no [(0, (1, [(8, 1), (10, 1)])), (2, (3, [(1, 6), (10, 1), (18, 2)])), (3, (3, [(2, 6), (4, 3), (10, 1), (18, 2)])), (4, (1, [(4, 1), (10, 1)]))] 0 (3, [(4, 3), (10, 1), (18, 2)]),
      .no [(0, (1, [(8, 1), (10, 1)])), (1, (1, [(4, 1), (6, 1), (18, 2), (19, 1)])), (2, (3, [(1, 4), (10, 1), (18, 2)])), (3, (2, [(2, 4), (4, 2), (6, 1), (10, 1), (18, 2)])), (4, (1, [(4, 1), (10, 1)]))] 0 (2, [(4, 2), (6, 1), (10, 1), (18, 2)]),
      .no [(0, (1, [(8, 1), (10, 1)])), (2, (3, [(1, 2), (10, 1), (18, 2)])), (3, (1, [(2, 2), (4, 1), (6, 2), (10, 1), (18, 2)])), (4, (1, [(4, 1), (10, 1)]))] 0 (1, [(4, 1), (6, 2), (10, 1), (18, 2)]),
      .no [(0, (1, [(8, 1), (10, 1)])), (2, (1, [(2, 4), (8, 2), (10, 1), (15, 2)])), (3, (1, [(2, 2), (4, 1), (10, 1), (18, 2)])), (4, (1, [(4, 1), (10, 1)]))] 0 (1, [(4, 1), (10, 1), (18, 2)]),
      .no [(0, (1, [(8, 1), (10, 1)])), (1, (1, [(4, 1), (19, 1)])), (2, (1, [(1, 2), (2, 2), (8, 2), (10, 1), (15, 2)])), (3, (1, [(2, 4), (8, 1), (15, 2)])), (4, (1, [(4, 1), (10, 1)]))] 0 (1, [(2, 2), (8, 1), (15, 2)]),
      .no [(0, (1, [(8, 1), (10, 1)])), (2, (1, [(1, 4), (8, 2), (10, 1), (15, 2)])), (3, (1, [(1, 2), (2, 2), (8, 1), (15, 2)])), (4, (1, [(4, 1), (10, 1)]))] 0 (1, [(1, 2), (8, 1), (15, 2)]),
      .no [(0, (1, [(8, 1), (10, 1)])), (2, (1, [(1, 1), (2, 2), (8, 1), (15, 1)])), (3, (1, [(2, 6), (4, 1), (6, 1), (8, 2), (15, 2)])), (4, (1, [(4, 1), (10, 1)]))] 0 (1, [(2, 4), (4, 1), (6, 1), (8, 2), (15, 2)]),
      .no [(0, (1, [(8, 1), (10, 1)])), (1, (1, [(4, 1), (10, 1), (19, 1)])), (2, (1, [(1, 2), (2, 1), (8, 1), (15, 1)])), (3, (1, [(2, 3), (4, 1), (8, 1), (15, 1)])), (4, (1, [(4, 1), (10, 1)]))] 0 (1, [(2, 1), (4, 1), (8, 1), (15, 1)]),
      .no [(0, (1, [(8, 1), (10, 1)])), (2, (1, [(1, 3), (8, 1), (15, 1)])), (3, (1, [(1, 1), (2, 2), (4, 1), (8, 1), (15, 1)])), (4, (1, [(4, 1), (10, 1)]))] 0 (1, [(1, 1), (4, 1), (8, 1), (15, 1)]),
      .no [(0, (1, [(8, 1), (10, 1)])), (2, (1, [(1, 2), (18, 1)])), (3, (2, [(1, 2), (4, 3), (8, 1), (16, 2), (18, 1)])), (4, (1, [(4, 1), (10, 1)]))] 0 (1, [(4, 1), (18, 1)]),
      .no [(0, (1, [(8, 1), (10, 1)])), (1, (1, [(19, 1)])), (2, (1, [(1, 1), (18, 1)])), (3, (1, [(4, 2), (8, 1), (16, 2)])), (4, (1, [(4, 1), (10, 1)]))] 0 (1, [(4, 1), (6, 1), (18, 2)]),
      .yes [(0, (1, [(8, 1), (10, 1)])), (2, (1, [(4, 1), (8, 1), (16, 2)])), (3, (1, [(4, 2), (8, 1), (16, 2), (21, 2)])), (4, (1, [(4, 1), (10, 1)]))] 9 [((1, [(8, 1), (10, 1)]), (1, [(4, 1)])), ((1, [(4, 2), (8, 1), (16, 2)]), (1, [(6, 1), (8, 1), (10, 1)])), ((1, [(4, 2), (8, 1), (16, 2), (21, 2)]), (1, [(7, 1)])), ((1, [(4, 1), (10, 1)]), (1, [(8, 1)]))],
      .no [(0, (1, [(8, 1), (10, 1)])), (4, (1, [(4, 1), (10, 1)]))] 1 (1, [(15, 1), (21, 2)]),
      .no [(0, (1, [(8, 1), (10, 1)])), (1, (1, [(0, 1), (4, 1), (19, 1)])), (2, (1, [(1, 2), (5, 1), (19, 1)])), (3, (1, [(2, 2), (4, 1), (5, 1), (19, 1)])), (4, (1, [(4, 1), (10, 1)]))] 0 (1, [(4, 1), (5, 1), (19, 1)]),
      .no [(0, (1, [(8, 1), (10, 1)])), (4, (1, [(4, 1), (10, 1)]))] 1 (1, [(15, 1)]),
      .no [(0, (1, [(8, 1), (10, 1)])), (2, (1, [(2, 4), (4, 1), (8, 1), (15, 2)])), (3, (1, [(2, 2), (4, 1), (17, 1)])), (4, (1, [(4, 1), (10, 1)]))] 0 (1, [(4, 1), (17, 1)]),
      .no [(0, (1, [(8, 1), (10, 1)])), (1, (1, [(19, 1)])), (2, (1, [(1, 2), (2, 2), (4, 1), (8, 1), (15, 2)])), (3, (1, [(2, 4), (4, 2), (8, 1), (15, 2)])), (4, (1, [(4, 1), (10, 1)]))] 0 (1, [(2, 2), (4, 2), (8, 1), (15, 2)]),
      .no [(0, (1, [(8, 1), (10, 1)])), (2, (1, [(1, 4), (4, 1), (8, 1), (15, 2)])), (3, (1, [(1, 2), (2, 2), (4, 2), (8, 1), (15, 2)])), (4, (1, [(4, 1), (10, 1)]))] 0 (1, [(1, 2), (4, 2), (8, 1), (15, 2)]),
      .no [(0, (1, [(8, 1), (10, 1)])), (2, (1, [(1, 2), (4, 1), (8, 1), (18, 2)])), (3, (1, [(1, 1), (4, 1), (8, 1), (16, 1)])), (4, (1, [(4, 1), (10, 1)]))] 0 (1, [(4, 2), (8, 1), (18, 2)]),
      .no [(0, (1, [(8, 1), (10, 1)])), (1, (1, [(4, 1), (10, 1), (19, 1)])), (2, (1, [(1, 2), (4, 1), (7, 1), (8, 2), (16, 2)])), (3, (1, [(2, 1), (4, 1), (8, 1), (16, 1)])), (4, (1, [(4, 1), (10, 1)]))] 0 (1, [(4, 2), (7, 1), (8, 2), (16, 2)]),
      .no [(0, (1, [(8, 1), (10, 1)])), (2, (1, [(1, 1), (8, 1), (16, 1)])), (3, (1, [(2, 2), (4, 1), (6, 1), (8, 2), (16, 2)])), (4, (1, [(4, 1), (10, 1)]))] 0 (1, [(4, 1), (6, 1), (8, 2), (16, 2)]),
      .no [(0, (1, [(8, 1), (10, 1)])), (2, (1, [(1, 2), (10, 1), (17, 2)])), (3, (1, [(1, 1), (16, 1), (17, 1)])), (4, (1, [(4, 1), (10, 1)]))] 0 (1, [(4, 1), (10, 1), (17, 2)]),
      .no [(0, (1, [(8, 1), (10, 1)])), (1, (1, [(4, 1), (19, 1)])), (2, (1, [(1, 4), (10, 1), (17, 2)])), (3, (1, [(8, 1), (16, 2)])), (4, (1, [(4, 1), (10, 1)]))] 0 (1, [(1, 2), (4, 1), (10, 1), (17, 2)]),
      .no [(0, (1, [(8, 1), (10, 1)])), (2, (1, [(8, 2), (10, 1), (16, 2)])), (3, (1, [(1, 1), (2, 2), (16, 1), (17, 1)])), (4, (1, [(4, 1), (10, 1)]))] 0 (1, [(1, 1), (16, 1), (17, 1)]),
      .no [(0, (1, [(8, 1), (10, 1)])), (2, (3, [(1, 6), (10, 1), (17, 2)])), (3, (3, [(2, 6), (4, 3), (10, 1), (17, 2)])), (4, (1, [(4, 1), (10, 1)]))] 0 (3, [(4, 3), (10, 1), (17, 2)]),
      .no [(0, (1, [(8, 1), (10, 1)])), (1, (3, [(1, 4), (4, 4), (8, 1), (17, 4), (19, 3)])), (2, (3, [(1, 8), (10, 1), (17, 2)])), (3, (3, [(1, 2), (2, 6), (4, 3), (10, 1), (17, 2)])), (4, (1, [(4, 1), (10, 1)]))] 0 (3, [(1, 2), (4, 3), (10, 1), (17, 2)]),
      .no [(0, (1, [(8, 1), (10, 1)])), (2, (3, [(1, 10), (10, 1), (17, 2)])), (3, (3, [(1, 4), (2, 6), (4, 3), (10, 1), (17, 2)])), (4, (1, [(4, 1), (10, 1)]))] 0 (3, [(1, 4), (4, 3), (10, 1), (17, 2)])],
    .node [
      .no [(0, (1, [(8, 1), (10, 1)])), (1, (1, [(6, 1), (14, 1)])), (2, (1, [(5, 1), (14, 1)])), (3, (1, [(4, 1), (5, 1), (10, 2), (11, 2), (14, 1)])), (4, (1, [(4, 1), (10, 1)]))] 0 (1, [(5, 2), (7, 1), (10, 6), (11, 6), (14, 2), (15, 2)]),
      .no [(0, (1, [(8, 1), (10, 1)])), (1, (1, [(6, 1), (14, 1)])), (2, (1, [(5, 1), (14, 1)])), (3, (1, [(4, 1), (5, 1), (10, 2), (11, 2), (14, 1)])), (4, (1, [(4, 1), (10, 1)]))] 0 (1, [(5, 2), (7, 1), (10, 4), (11, 4), (14, 2), (15, 2)]),
      .no [(0, (1, [(8, 1), (10, 1)])), (1, (1, [(6, 1), (14, 1)])), (2, (1, [(5, 1), (14, 1)])), (3, (1, [(4, 1), (5, 1), (10, 2), (11, 2), (14, 1)])), (4, (1, [(4, 1), (10, 1)]))] 0 (1, [(5, 2), (7, 1), (10, 2), (11, 2), (14, 2), (15, 2)]),
      .no [(0, (1, [(8, 1), (10, 1)])), (1, (1, [(6, 1), (14, 1)])), (2, (1, [(5, 1), (14, 1)])), (3, (1, [(4, 1), (5, 1), (10, 2), (11, 2), (14, 1)])), (4, (1, [(4, 1), (10, 1)]))] 0 (2, [(5, 1), (10, 3), (11, 4), (14, 1), (15, 2)]),
      .no [(0, (1, [(8, 1), (10, 1)])), (1, (1, [(6, 1), (14, 1)])), (2, (1, [(5, 1), (14, 1)])), (3, (1, [(4, 1), (5, 1), (10, 2), (11, 2), (14, 1)])), (4, (1, [(4, 1), (10, 1)]))] 0 (2, [(5, 1), (10, 1), (11, 2), (14, 1), (15, 2)]),
      .no [(0, (1, [(8, 1), (10, 1)])), (1, (1, [(6, 1), (14, 1)])), (2, (1, [(5, 1), (14, 1)])), (3, (1, [(4, 1), (5, 1), (10, 2), (11, 2), (14, 1)])), (4, (1, [(4, 1), (10, 1)]))] 0 (4, [(4, 1), (5, 3), (7, 1), (11, 2), (14, 3), (15, 4)]),
      .no [(0, (1, [(8, 1), (10, 1)])), (1, (1, [(6, 1), (14, 1)])), (2, (1, [(5, 1), (14, 1)])), (3, (1, [(4, 1), (5, 1), (10, 2), (11, 2), (14, 1)])), (4, (1, [(4, 1), (10, 1)]))] 0 (3, [(4, 1), (5, 1), (10, 2), (11, 4), (14, 1), (15, 2)]),
      .no [(0, (1, [(8, 1), (10, 1)])), (1, (1, [(6, 1), (14, 1)])), (2, (1, [(5, 1), (14, 1)])), (3, (1, [(4, 1), (5, 1), (10, 2), (11, 2), (14, 1)])), (4, (1, [(4, 1), (10, 1)]))] 0 (3, [(4, 1), (5, 1), (11, 2), (14, 1), (15, 2)]),
      .no [(0, (1, [(8, 1), (10, 1)])), (1, (1, [(6, 1), (14, 1)])), (2, (1, [(5, 1), (14, 1)])), (3, (1, [(4, 1), (5, 1), (10, 2), (11, 2), (14, 1)])), (4, (1, [(4, 1), (10, 1)]))] 0 (3, [(4, 2), (5, 2), (7, 1), (11, 2), (14, 2), (15, 2)]),
      .no [(0, (1, [(8, 1), (10, 1)])), (1, (1, [(6, 1), (14, 1)])), (2, (1, [(5, 1), (14, 1)])), (3, (1, [(4, 1), (5, 1), (10, 2), (11, 2), (14, 1)])), (4, (1, [(4, 1), (10, 1)]))] 0 (1, [(4, 1), (5, 3), (14, 1), (17, 2)]),
      .yes [(0, (1, [(8, 1), (10, 1)])), (1, (1, [(6, 1), (14, 1)])), (2, (1, [(5, 1), (14, 1)])), (3, (1, [(4, 1), (5, 1), (10, 2), (11, 2), (14, 1)])), (4, (1, [(4, 1), (10, 1)]))] 1 [((1, [(8, 1), (10, 1)]), (1, [(4, 1)])), ((1, [(6, 1), (14, 1)]), (1, [(5, 1)])), ((1, [(4, 1), (5, 1), (14, 1)]), (1, [(6, 1), (8, 1), (10, 1)])), ((1, [(4, 1), (5, 1), (10, 2), (11, 2), (14, 1)]), (1, [(7, 1)])), ((1, [(4, 1), (10, 1)]), (1, [(8, 1)]))],
      .no [(0, (1, [(8, 1), (10, 1)])), (1, (1, [(6, 1), (14, 1)])), (2, (1, [(5, 1), (14, 1)])), (3, (1, [(4, 1), (5, 1), (10, 2), (11, 2), (14, 1)])), (4, (1, [(4, 1), (10, 1)]))] 0 (1, [(4, 1), (5, 2), (6, 3), (18, 2)]),
      .no [(0, (1, [(8, 1), (10, 1)])), (1, (1, [(6, 1), (14, 1)])), (2, (1, [(5, 1), (14, 1)])), (3, (1, [(4, 1), (5, 1), (10, 2), (11, 2), (14, 1)])), (4, (1, [(4, 1), (10, 1)]))] 0 (1, [(4, 1), (5, 1), (10, 4), (11, 4), (14, 1), (15, 2)]),
      .no [(0, (1, [(8, 1), (10, 1)])), (1, (1, [(6, 1), (14, 1)])), (2, (1, [(5, 1), (14, 1)])), (3, (1, [(4, 1), (5, 1), (10, 2), (11, 2), (14, 1)])), (4, (1, [(4, 1), (10, 1)]))] 0 (1, [(4, 1), (5, 1), (10, 2), (11, 2), (14, 1), (15, 2)]),
      .no [(0, (1, [(8, 1), (10, 1)])), (1, (1, [(6, 1), (14, 1)])), (2, (1, [(5, 1), (14, 1)])), (3, (1, [(4, 1), (5, 1), (10, 2), (11, 2), (14, 1)])), (4, (1, [(4, 1), (10, 1)]))] 0 (1, [(4, 1), (5, 1), (14, 1), (15, 2)]),
      .no [(0, (1, [(8, 1), (10, 1)])), (1, (1, [(6, 1), (14, 1)])), (2, (1, [(5, 1), (14, 1)])), (3, (1, [(4, 1), (5, 1), (10, 2), (11, 2), (14, 1)])), (4, (1, [(4, 1), (10, 1)]))] 0 (2, [(4, 2), (5, 1), (10, 3), (11, 4), (14, 1), (15, 2)]),
      .no [(0, (1, [(8, 1), (10, 1)])), (1, (1, [(6, 1), (14, 1)])), (2, (1, [(5, 1), (14, 1)])), (3, (1, [(4, 1), (5, 1), (10, 2), (11, 2), (14, 1)])), (4, (1, [(4, 1), (10, 1)]))] 0 (2, [(4, 2), (5, 1), (10, 1), (11, 2), (14, 1), (15, 2)]),
      .no [(0, (1, [(8, 1), (10, 1)])), (1, (1, [(6, 1), (14, 1)])), (2, (1, [(5, 1), (14, 1)])), (3, (1, [(4, 1), (5, 1), (10, 2), (11, 2), (14, 1)])), (4, (1, [(4, 1), (10, 1)]))] 0 (4, [(4, 5), (5, 3), (7, 1), (11, 2), (14, 3), (15, 4)]),
      .no [(0, (1, [(8, 1), (10, 1)])), (1, (1, [(6, 1), (14, 1)])), (2, (1, [(5, 1), (14, 1)])), (3, (1, [(4, 1), (5, 1), (10, 2), (11, 2), (14, 1)])), (4, (1, [(4, 1), (10, 1)]))] 0 (1, [(4, 2), (5, 2), (7, 3), (11, 2), (14, 2), (16, 2)]),
      .no [(0, (1, [(8, 1), (10, 1)])), (1, (1, [(6, 1), (14, 1)])), (2, (1, [(5, 1), (14, 1)])), (3, (1, [(4, 1), (5, 1), (10, 2), (11, 2), (14, 1)])), (4, (1, [(4, 1), (10, 1)]))] 0 (1, [(4, 1), (5, 1), (7, 2), (11, 2), (14, 1), (16, 2)]),
      .no [(0, (1, [(8, 1), (10, 1)])), (1, (1, [(6, 1), (14, 1)])), (2, (1, [(5, 1), (14, 1)])), (3, (1, [(4, 1), (5, 1), (10, 2), (11, 2), (14, 1)])), (4, (1, [(4, 1), (10, 1)]))] 0 (1, [(7, 1), (11, 2), (16, 2)]),
      .no [(0, (1, [(8, 1), (10, 1)])), (1, (1, [(6, 1), (14, 1)])), (2, (1, [(5, 1), (14, 1)])), (3, (1, [(4, 1), (5, 1), (10, 2), (11, 2), (14, 1)])), (4, (1, [(4, 1), (10, 1)]))] 0 (1, [(3, 2), (4, 2), (5, 2), (7, 1), (17, 2)]),
      .no [(0, (1, [(8, 1), (10, 1)])), (1, (1, [(6, 1), (14, 1)])), (2, (1, [(5, 1), (14, 1)])), (3, (1, [(4, 1), (5, 1), (10, 2), (11, 2), (14, 1)])), (4, (1, [(4, 1), (10, 1)]))] 0 (1, [(4, 2), (5, 1), (7, 1), (10, 1), (14, 1), (17, 2)]),
      .no [(0, (1, [(8, 1), (10, 1)])), (1, (1, [(6, 1), (14, 1)])), (2, (1, [(5, 1), (14, 1)])), (3, (1, [(4, 1), (5, 1), (10, 2), (11, 2), (14, 1)])), (4, (1, [(4, 1), (10, 1)]))] 0 (2, [(4, 1), (5, 1), (10, 2), (11, 2), (14, 1), (20, 1)]),
      .no [(0, (1, [(8, 1), (10, 1)])), (1, (1, [(6, 1), (14, 1)])), (2, (1, [(5, 1), (14, 1)])), (3, (1, [(4, 1), (5, 1), (10, 2), (11, 2), (14, 1)])), (4, (1, [(4, 1), (10, 1)]))] 0 (1, [(4, 3), (5, 1), (10, 4), (11, 4), (14, 1), (15, 2)]),
      .no [(0, (1, [(8, 1), (10, 1)])), (1, (1, [(6, 1), (14, 1)])), (2, (1, [(5, 1), (14, 1)])), (3, (1, [(4, 1), (5, 1), (10, 2), (11, 2), (14, 1)])), (4, (1, [(4, 1), (10, 1)]))] 0 (1, [(4, 3), (5, 1), (10, 2), (11, 2), (14, 1), (15, 2)]),
      .no [(0, (1, [(8, 1), (10, 1)])), (1, (1, [(6, 1), (14, 1)])), (2, (1, [(5, 1), (14, 1)])), (3, (1, [(4, 1), (5, 1), (10, 2), (11, 2), (14, 1)])), (4, (1, [(4, 1), (10, 1)]))] 0 (1, [(4, 3), (5, 1), (14, 1), (15, 2)])],
    .no [(0, (1, [(8, 1), (10, 1)])), (1, (1, [(14, 1)])), (2, (1, [(2, 2), (10, 1), (11, 2)])), (3, (1, [(2, 2), (4, 1), (10, 1), (11, 2), (15, 2)])), (4, (1, [(4, 1), (10, 1)]))] 0 (1, [(4, 1), (10, 1), (11, 2), (15, 2)]),
    .no [(0, (1, [(8, 1), (10, 1)])), (2, (1, [(1, 2), (10, 1), (11, 2)])), (3, (1, [(2, 2), (4, 1), (10, 1), (11, 2)])), (4, (1, [(4, 1), (10, 1)]))] 0 (1, [(4, 1), (10, 1), (11, 2)]),
    .no [(0, (1, [(8, 1), (10, 1)])), (1, (1, [(14, 1)])), (3, (1, [(1, 2), (4, 1), (10, 1), (11, 2)])), (4, (1, [(4, 1), (10, 1)])), (2, (1, [(4, 1), (7, 1), (10, 2), (11, 2), (17, 2)]))] 0 (1, [(4, 3), (7, 2), (10, 3), (11, 4), (17, 2)]),
    .no [(0, (1, [(8, 1), (10, 1)])), (1, (1, [(6, 1), (14, 1)])), (2, (1, [(1, 1), (2, 1), (11, 1)])), (3, (1, [(2, 4), (4, 1), (6, 1), (11, 2)])), (4, (1, [(4, 1), (10, 1)]))] 0 (1, [(2, 2), (4, 1), (6, 1), (11, 2)]),
    .no [(0, (1, [(8, 1), (10, 1)])), (2, (1, [(1, 2), (11, 1)])), (3, (1, [(2, 2), (4, 1), (11, 1)])), (4, (1, [(4, 1), (10, 1)]))] 0 (1, [(4, 1), (11, 1)]),
    .no [(0, (1, [(8, 1), (10, 1)])), (1, (1, [(0, 1), (1, 2), (4, 1), (14, 1)])), (2, (1, [(1, 4), (4, 1), (7, 1), (11, 2)])), (3, (1, [(1, 1), (2, 1), (4, 1), (11, 1)])), (4, (1, [(4, 1), (10, 1)]))] 0 (1, [(1, 2), (4, 2), (7, 1), (11, 2)]),
    .no [(0, (1, [(8, 1), (10, 1)])), (1, (1, [(1, 2), (4, 1), (7, 1), (8, 1), (14, 1)])), (3, (1, [(1, 2), (4, 2), (8, 3), (12, 2)])), (4, (1, [(4, 1), (10, 1)])), (2, (1, [(4, 1), (7, 1), (8, 2), (12, 2), (17, 2)]))] 0 (1, [(4, 4), (7, 2), (8, 5), (12, 4), (17, 2)]),
    .no [(0, (1, [(8, 1), (10, 1)])), (2, (1, [(1, 2), (4, 1), (8, 3), (12, 2)])), (3, (1, [(2, 2), (4, 2), (8, 3), (12, 2)])), (4, (1, [(4, 1), (10, 1)]))] 0 (1, [(4, 2), (8, 3), (12, 2)]),
    .no [(0, (1, [(8, 1), (10, 1)])), (1, (1, [(2, 2), (6, 1), (8, 1), (14, 1)])), (2, (1, [(2, 2), (4, 1), (8, 3), (12, 2)])), (3, (1, [(2, 2), (4, 2), (8, 3), (12, 2), (15, 2)])), (4, (1, [(4, 1), (10, 1)]))] 0 (1, [(4, 2), (8, 3), (12, 2), (15, 2)]),
    .node [
      .no [(0, (1, [(8, 1), (10, 1)])), (1, (1, [(7, 1), (14, 1)])), (2, (1, [(4, 1), (5, 1), (10, 2), (11, 2), (14, 1)])), (3, (1, [(5, 1), (14, 1)])), (4, (1, [(4, 1), (10, 1)]))] 0 (1, [(5, 5), (6, 4), (10, 6), (11, 6), (14, 5), (15, 2)]),
      .no [(0, (1, [(8, 1), (10, 1)])), (1, (1, [(7, 1), (14, 1)])), (2, (1, [(4, 1), (5, 1), (10, 2), (11, 2), (14, 1)])), (3, (1, [(5, 1), (14, 1)])), (4, (1, [(4, 1), (10, 1)]))] 0 (1, [(5, 3), (6, 2), (10, 4), (11, 4), (14, 3), (15, 2)]),
      .no [(0, (1, [(8, 1), (10, 1)])), (1, (1, [(7, 1), (14, 1)])), (2, (1, [(4, 1), (5, 1), (10, 2), (11, 2), (14, 1)])), (3, (1, [(5, 1), (14, 1)])), (4, (1, [(4, 1), (10, 1)]))] 0 (1, [(5, 1), (10, 2), (11, 2), (14, 1), (15, 2)]),
      .no [(0, (1, [(8, 1), (10, 1)])), (1, (1, [(7, 1), (14, 1)])), (2, (1, [(4, 1), (5, 1), (10, 2), (11, 2), (14, 1)])), (3, (1, [(5, 1), (14, 1)])), (4, (1, [(4, 1), (10, 1)]))] 0 (2, [(5, 4), (6, 3), (10, 3), (11, 4), (14, 4), (15, 2)]),
      .no [(0, (1, [(8, 1), (10, 1)])), (1, (1, [(7, 1), (14, 1)])), (2, (1, [(4, 1), (5, 1), (10, 2), (11, 2), (14, 1)])), (3, (1, [(5, 1), (14, 1)])), (4, (1, [(4, 1), (10, 1)]))] 0 (2, [(5, 2), (6, 1), (10, 1), (11, 2), (14, 2), (15, 2)]),
      .no [(0, (1, [(8, 1), (10, 1)])), (1, (1, [(7, 1), (14, 1)])), (2, (1, [(4, 1), (5, 1), (10, 2), (11, 2), (14, 1)])), (3, (1, [(5, 1), (14, 1)])), (4, (1, [(4, 1), (10, 1)]))] 0 (2, [(4, 1), (5, 1), (10, 1), (11, 2), (14, 1), (15, 2)]),
      .no [(0, (1, [(8, 1), (10, 1)])), (1, (1, [(7, 1), (14, 1)])), (2, (1, [(4, 1), (5, 1), (10, 2), (11, 2), (14, 1)])), (3, (1, [(5, 1), (14, 1)])), (4, (1, [(4, 1), (10, 1)]))] 0 (3, [(5, 3), (6, 2), (11, 2), (14, 3), (15, 2)]),
      .no [(0, (1, [(8, 1), (10, 1)])), (1, (1, [(7, 1), (14, 1)])), (2, (1, [(4, 1), (5, 1), (10, 2), (11, 2), (14, 1)])), (3, (1, [(5, 1), (14, 1)])), (4, (1, [(4, 1), (10, 1)]))] 0 (3, [(4, 1), (5, 2), (6, 1), (11, 2), (14, 2), (15, 2)]),
      .no [(0, (1, [(8, 1), (10, 1)])), (1, (1, [(7, 1), (14, 1)])), (2, (1, [(4, 1), (5, 1), (10, 2), (11, 2), (14, 1)])), (3, (1, [(5, 1), (14, 1)])), (4, (1, [(4, 1), (10, 1)]))] 0 (3, [(4, 2), (5, 1), (11, 2), (14, 1), (15, 2)]),
      .no [(0, (1, [(8, 1), (10, 1)])), (1, (1, [(7, 1), (14, 1)])), (2, (1, [(4, 1), (5, 1), (10, 2), (11, 2), (14, 1)])), (3, (1, [(5, 1), (14, 1)])), (4, (1, [(4, 1), (10, 1)]))] 0 (2, [(4, 3), (5, 1), (10, 2), (11, 2), (14, 1), (20, 1)]),
      .no [(0, (1, [(8, 1), (10, 1)])), (1, (1, [(7, 1), (14, 1)])), (2, (1, [(4, 1), (5, 1), (10, 2), (11, 2), (14, 1)])), (3, (1, [(5, 1), (14, 1)])), (4, (1, [(4, 1), (10, 1)]))] 0 (1, [(4, 1), (10, 1), (17, 2)]),
      .no [(0, (1, [(8, 1), (10, 1)])), (1, (1, [(7, 1), (14, 1)])), (2, (1, [(4, 1), (5, 1), (10, 2), (11, 2), (14, 1)])), (3, (1, [(5, 1), (14, 1)])), (4, (1, [(4, 1), (10, 1)]))] 0 (2, [(4, 4), (5, 2), (6, 1), (10, 3), (11, 2), (17, 2)]),
      .no [(0, (1, [(8, 1), (10, 1)])), (1, (1, [(7, 1), (14, 1)])), (2, (1, [(4, 1), (5, 1), (10, 2), (11, 2), (14, 1)])), (3, (1, [(5, 1), (14, 1)])), (4, (1, [(4, 1), (10, 1)]))] 0 (1, [(5, 3), (6, 2), (10, 2), (11, 2), (14, 3), (15, 2)]),
      .no [(0, (1, [(8, 1), (10, 1)])), (1, (1, [(7, 1), (14, 1)])), (2, (1, [(4, 1), (5, 1), (10, 2), (11, 2), (14, 1)])), (3, (1, [(5, 1), (14, 1)])), (4, (1, [(4, 1), (10, 1)]))] 0 (1, [(5, 1), (14, 1), (15, 2)]),
      .no [(0, (1, [(8, 1), (10, 1)])), (1, (1, [(7, 1), (14, 1)])), (2, (1, [(4, 1), (5, 1), (10, 2), (11, 2), (14, 1)])), (3, (1, [(5, 1), (14, 1)])), (4, (1, [(4, 1), (10, 1)]))] 0 (1, [(4, 2), (5, 1), (10, 2), (11, 2), (14, 1), (15, 2)]),
      .no [(0, (1, [(8, 1), (10, 1)])), (1, (1, [(7, 1), (14, 1)])), (2, (1, [(4, 1), (5, 1), (10, 2), (11, 2), (14, 1)])), (3, (1, [(5, 1), (14, 1)])), (4, (1, [(4, 1), (10, 1)]))] 0 (3, [(1, 2), (5, 5), (6, 4), (11, 2), (14, 5), (15, 4)]),
      .no [(0, (1, [(8, 1), (10, 1)])), (1, (1, [(7, 1), (14, 1)])), (2, (1, [(4, 1), (5, 1), (10, 2), (11, 2), (14, 1)])), (3, (1, [(5, 1), (14, 1)])), (4, (1, [(4, 1), (10, 1)]))] 0 (4, [(4, 3), (5, 3), (6, 1), (11, 2), (14, 3), (15, 4)]),
      .no [(0, (1, [(8, 1), (10, 1)])), (1, (1, [(7, 1), (14, 1)])), (2, (1, [(4, 1), (5, 1), (10, 2), (11, 2), (14, 1)])), (3, (1, [(5, 1), (14, 1)])), (4, (1, [(4, 1), (10, 1)]))] 0 (2, [(4, 3), (5, 1), (10, 1), (11, 2), (14, 1), (15, 2)]),
      .no [(0, (1, [(8, 1), (10, 1)])), (1, (1, [(7, 1), (14, 1)])), (2, (1, [(4, 1), (5, 1), (10, 2), (11, 2), (14, 1)])), (3, (1, [(5, 1), (14, 1)])), (4, (1, [(4, 1), (10, 1)]))] 0 (1, [(4, 3), (6, 1), (10, 2), (11, 4), (16, 2)]),
      .no [(0, (1, [(8, 1), (10, 1)])), (1, (1, [(7, 1), (14, 1)])), (2, (1, [(4, 1), (5, 1), (10, 2), (11, 2), (14, 1)])), (3, (1, [(5, 1), (14, 1)])), (4, (1, [(4, 1), (10, 1)]))] 0 (1, [(4, 1), (6, 1), (11, 2), (16, 2)]),
      .no [(0, (1, [(8, 1), (10, 1)])), (1, (1, [(7, 1), (14, 1)])), (2, (1, [(4, 1), (5, 1), (10, 2), (11, 2), (14, 1)])), (3, (1, [(5, 1), (14, 1)])), (4, (1, [(4, 1), (10, 1)]))] 0 (1, [(5, 1), (6, 2), (11, 2), (14, 1), (16, 2)]),
      .no [(0, (1, [(8, 1), (10, 1)])), (1, (1, [(7, 1), (14, 1)])), (2, (1, [(4, 1), (5, 1), (10, 2), (11, 2), (14, 1)])), (3, (1, [(5, 1), (14, 1)])), (4, (1, [(4, 1), (10, 1)]))] 0 (1, [(4, 3), (5, 2), (6, 3), (10, 4), (11, 4), (18, 2)]),
      .yes [(0, (1, [(8, 1), (10, 1)])), (1, (1, [(7, 1), (14, 1)])), (2, (1, [(4, 1), (5, 1), (10, 2), (11, 2), (14, 1)])), (3, (1, [(5, 1), (14, 1)])), (4, (1, [(4, 1), (10, 1)]))] 1 [((1, [(8, 1), (10, 1)]), (1, [(4, 1)])), ((1, [(7, 1), (14, 1)]), (1, [(5, 1)])), ((1, [(4, 2), (5, 1), (10, 2), (11, 2), (14, 1)]), (1, [(6, 1), (8, 1), (10, 1)])), ((1, [(5, 1), (14, 1)]), (1, [(7, 1)])), ((1, [(4, 1), (10, 1)]), (1, [(8, 1)]))],
      .no [(0, (1, [(8, 1), (10, 1)])), (1, (1, [(7, 1), (14, 1)])), (2, (1, [(4, 1), (5, 1), (10, 2), (11, 2), (14, 1)])), (3, (1, [(5, 1), (14, 1)])), (4, (1, [(4, 1), (10, 1)]))] 0 (1, [(4, 4), (5, 3), (10, 2), (11, 2), (14, 1), (17, 2)]),
      .no [(0, (1, [(8, 1), (10, 1)])), (1, (1, [(7, 1), (14, 1)])), (2, (1, [(4, 1), (5, 1), (10, 2), (11, 2), (14, 1)])), (3, (1, [(5, 1), (14, 1)])), (4, (1, [(4, 1), (10, 1)]))] 0 (1, [(4, 1), (5, 2), (6, 1), (14, 2), (15, 2)]),
      .no [(0, (1, [(8, 1), (10, 1)])), (1, (1, [(7, 1), (14, 1)])), (2, (1, [(4, 1), (5, 1), (10, 2), (11, 2), (14, 1)])), (3, (1, [(5, 1), (14, 1)])), (4, (1, [(4, 1), (10, 1)]))] 0 (1, [(4, 2), (5, 1), (14, 1), (15, 2)]),
      .no [(0, (1, [(8, 1), (10, 1)])), (1, (1, [(7, 1), (14, 1)])), (2, (1, [(4, 1), (5, 1), (10, 2), (11, 2), (14, 1)])), (3, (1, [(5, 1), (14, 1)])), (4, (1, [(4, 1), (10, 1)]))] 0 (1, [(4, 4), (5, 1), (10, 2), (11, 2), (14, 1), (15, 2)])],
    .node [
      .no [(0, (1, [(8, 1), (10, 1)])), (2, (3, [(1, 8), (2, 2), (8, 2), (10, 3), (17, 2)])), (3, (3, [(1, 2), (2, 8), (4, 1), (10, 1), (17, 2)])), (4, (1, [(4, 1), (10, 1)]))] 0 (3, [(1, 2), (2, 2), (4, 1), (10, 1), (17, 2)]),
      .no [(0, (1, [(8, 1), (10, 1)])), (1, (3, [(1, 4), (8, 1), (17, 4), (19, 3)])), (2, (3, [(1, 8), (8, 2), (10, 3), (17, 2)])), (3, (3, [(1, 2), (2, 6), (4, 1), (10, 1), (17, 2)])), (4, (1, [(4, 1), (10, 1)]))] 0 (3, [(1, 2), (4, 1), (10, 1), (17, 2)]),
      .no [(0, (1, [(8, 1), (10, 1)])), (2, (2, [(1, 6), (7, 1), (8, 1), (10, 2), (17, 2)])), (3, (3, [(1, 2), (2, 4), (4, 1), (10, 1), (17, 2)])), (4, (1, [(4, 1), (10, 1)]))] 0 (2, [(1, 2), (4, 1), (7, 1), (10, 1), (17, 2)]),
      .no [(0, (1, [(8, 1), (10, 1)])), (2, (1, [(2, 4), (8, 2), (10, 1), (15, 2)])), (3, (1, [(1, 1), (2, 3), (17, 1)])), (4, (1, [(4, 1), (10, 1)]))] 0 (1, [(1, 1), (2, 1), (17, 1)]),
      .no [(0, (1, [(8, 1), (10, 1)])), (1, (1, [(4, 1), (19, 1)])), (2, (1, [(1, 2), (2, 2), (8, 2), (10, 1), (15, 2)])), (3, (1, [(2, 4), (8, 1), (15, 2)])), (4, (1, [(4, 1), (10, 1)]))] 0 (1, [(2, 2), (8, 1), (15, 2)]),
      .no [(0, (1, [(8, 1), (10, 1)])), (2, (1, [(1, 4), (8, 2), (10, 1), (15, 2)])), (3, (1, [(1, 2), (2, 2), (8, 1), (15, 2)])), (4, (1, [(4, 1), (10, 1)]))] 0 (1, [(1, 2), (8, 1), (15, 2)]),
      .no [(0, (1, [(8, 1), (10, 1)])), (2, (1, [(1, 1), (2, 2), (8, 1), (15, 1)])), (3, (1, [(2, 6), (4, 1), (6, 1), (8, 2), (15, 2)])), (4, (1, [(4, 1), (10, 1)]))] 0 (1, [(2, 4), (4, 1), (6, 1), (8, 2), (15, 2)]),
      .no [(0, (1, [(8, 1), (10, 1)])), (1, (1, [(4, 1), (10, 1), (19, 1)])), (2, (1, [(1, 2), (2, 1), (8, 1), (15, 1)])), (3, (1, [(2, 3), (4, 1), (8, 1), (15, 1)])), (4, (1, [(4, 1), (10, 1)]))] 0 (1, [(2, 1), (4, 1), (8, 1), (15, 1)]),
      .no [(0, (1, [(8, 1), (10, 1)])), (2, (1, [(1, 3), (8, 1), (15, 1)])), (3, (1, [(1, 1), (2, 2), (4, 1), (8, 1), (15, 1)])), (4, (1, [(4, 1), (10, 1)]))] 0 (1, [(1, 1), (4, 1), (8, 1), (15, 1)]),
      .no [(0, (1, [(8, 1), (10, 1)])), (2, (3, [(1, 12), (10, 1), (16, 2), (17, 4)])), (3, (3, [(1, 6), (4, 4), (8, 1), (16, 4), (17, 2)])), (4, (1, [(4, 1), (10, 1)]))] 0 (3, [(1, 6), (4, 3), (10, 1), (16, 2), (17, 4)]),
      .no [(0, (1, [(8, 1), (10, 1)])), (1, (1, [(19, 1)])), (2, (1, [(1, 4), (10, 1), (17, 2)])), (3, (1, [(4, 2), (8, 1), (16, 2)])), (4, (1, [(4, 1), (10, 1)]))] 0 (1, [(1, 2), (4, 1), (10, 1), (17, 2)]),
      .no [(0, (1, [(8, 1), (10, 1)])), (2, (1, [(4, 1), (8, 1), (16, 2)])), (3, (1, [(2, 1), (4, 1), (16, 1), (17, 1)])), (4, (1, [(4, 1), (10, 1)]))] 0 (1, [(4, 2), (7, 1), (16, 2), (17, 2)]),
      .no [(0, (1, [(8, 1), (10, 1)])), (4, (1, [(4, 1), (10, 1)]))] 1 (3, [(16, 1), (17, 2)]),
      .no [(0, (1, [(8, 1), (10, 1)])), (1, (1, [(0, 1), (4, 1), (19, 1)])), (2, (1, [(1, 2), (5, 1), (19, 1)])), (3, (1, [(2, 2), (4, 1), (5, 1), (19, 1)])), (4, (1, [(4, 1), (10, 1)]))] 0 (1, [(4, 1), (5, 1), (19, 1)]),
      .no [(0, (1, [(8, 1), (10, 1)])), (4, (1, [(4, 1), (10, 1)]))] 1 (1, [(15, 1)]),
      .no [(0, (1, [(8, 1), (10, 1)])), (2, (1, [(2, 4), (4, 1), (8, 1), (15, 2)])), (3, (1, [(2, 4), (4, 2), (8, 1), (15, 2), (21, 2)])), (4, (1, [(4, 1), (10, 1)]))] 0 (1, [(2, 2), (4, 2), (8, 1), (15, 2), (21, 2)]),
      .no [(0, (1, [(8, 1), (10, 1)])), (1, (1, [(19, 1)])), (2, (1, [(1, 2), (2, 2), (4, 1), (8, 1), (15, 2)])), (3, (1, [(2, 4), (4, 2), (8, 1), (15, 2)])), (4, (1, [(4, 1), (10, 1)]))] 0 (1, [(2, 2), (4, 2), (8, 1), (15, 2)]),
      .no [(0, (1, [(8, 1), (10, 1)])), (2, (1, [(1, 4), (4, 1), (8, 1), (15, 2)])), (3, (1, [(1, 2), (2, 2), (4, 2), (8, 1), (15, 2)])), (4, (1, [(4, 1), (10, 1)]))] 0 (1, [(1, 2), (4, 2), (8, 1), (15, 2)]),
      .no [(0, (1, [(8, 1), (10, 1)])), (3, (1, [(1, 1), (4, 1), (8, 1), (16, 1)])), (4, (1, [(4, 1), (10, 1)])), (2, (1, [(4, 1), (7, 2), (8, 1), (16, 2), (22, 2)]))] 0 (1, [(4, 4), (7, 4), (8, 3), (16, 4), (22, 2)]),
      .no [(0, (1, [(8, 1), (10, 1)])), (1, (1, [(4, 1), (10, 1), (19, 1)])), (2, (1, [(1, 2), (4, 1), (7, 1), (8, 2), (16, 2)])), (3, (1, [(2, 1), (4, 1), (8, 1), (16, 1)])), (4, (1, [(4, 1), (10, 1)]))] 0 (1, [(4, 2), (7, 1), (8, 2), (16, 2)]),
      .no [(0, (1, [(8, 1), (10, 1)])), (2, (1, [(1, 1), (8, 1), (16, 1)])), (3, (1, [(2, 2), (4, 1), (6, 1), (8, 2), (16, 2)])), (4, (1, [(4, 1), (10, 1)]))] 0 (1, [(4, 1), (6, 1), (8, 2), (16, 2)]),
      .yes [(0, (1, [(8, 1), (10, 1)])), (2, (1, [(7, 1), (8, 1), (10, 1), (18, 2)])), (3, (3, [(8, 1), (16, 2), (18, 2)])), (4, (1, [(4, 1), (10, 1)]))] 9 [((1, [(8, 1), (10, 1)]), (1, [(4, 1)])), ((1, [(7, 1), (18, 2)]), (1, [(6, 1), (8, 1), (10, 1)])), ((3, [(8, 1), (16, 2), (18, 2)]), (1, [(7, 1)])), ((1, [(4, 1), (10, 1)]), (1, [(8, 1)]))],
      .no [(0, (1, [(8, 1), (10, 1)])), (1, (1, [(4, 1), (19, 1)])), (2, (1, [(1, 1), (8, 1), (10, 1), (18, 1)])), (3, (1, [(8, 1), (16, 2)])), (4, (1, [(4, 1), (10, 1)]))] 0 (1, [(6, 1), (8, 1), (10, 1), (18, 2)]),
      .no [(0, (1, [(8, 1), (10, 1)])), (2, (1, [(8, 2), (10, 1), (16, 2)])), (3, (1, [(2, 4), (6, 1), (8, 1), (10, 1), (18, 2)])), (4, (1, [(4, 1), (10, 1)]))] 0 (1, [(2, 2), (6, 1), (8, 1), (10, 1), (18, 2)]),
      .no [(0, (1, [(8, 1), (10, 1)])), (2, (2, [(1, 2), (7, 1), (8, 1), (10, 2), (18, 2)])), (3, (2, [(2, 2), (6, 1), (10, 1), (18, 2)])), (4, (1, [(4, 1), (10, 1)]))] 0 (1, [(6, 1), (7, 1), (10, 1), (18, 2)]),
      .no [(0, (1, [(8, 1), (10, 1)])), (1, (1, [(6, 1), (8, 1), (10, 1), (18, 2), (19, 1)])), (2, (3, [(1, 4), (8, 2), (10, 3), (18, 2)])), (3, (2, [(2, 4), (6, 1), (10, 1), (18, 2)])), (4, (1, [(4, 1), (10, 1)]))] 0 (2, [(6, 1), (10, 1), (18, 2)]),
      .no [(0, (1, [(8, 1), (10, 1)])), (2, (3, [(1, 4), (2, 2), (8, 2), (10, 3), (18, 2)])), (3, (2, [(2, 6), (6, 1), (10, 1), (18, 2)])), (4, (1, [(4, 1), (10, 1)]))] 0 (2, [(2, 2), (6, 1), (10, 1), (18, 2)])],
    .no [(0, (1, [(8, 1), (10, 1)])), (1, (1, [(0, 1), (2, 2), (14, 1)])), (2, (1, [(1, 2), (2, 2), (5, 1), (8, 1), (10, 1), (14, 1)])), (3, (1, [(2, 4), (5, 1), (14, 1)])), (4, (1, [(4, 1), (10, 1)]))] 0 (1, [(2, 2), (5, 1), (14, 1)]),
    .no [(0, (1, [(8, 1), (10, 1)])), (1, (1, [(3, 2), (6, 1), (7, 1), (14, 1)])), (2, (1, [(2, 2), (4, 2), (10, 1), (11, 2)])), (3, (1, [(1, 2), (5, 1), (6, 2), (10, 1), (14, 1)])), (4, (1, [(4, 1), (10, 1)]))] 0 (2, [(4, 3), (5, 1), (6, 2), (10, 2), (11, 2), (14, 1)]),
    .no [(0, (1, [(8, 1), (10, 1)])), (2, (1, [(1, 2), (4, 2), (10, 1), (11, 2)])), (3, (1, [(2, 2), (4, 3), (10, 1), (11, 2)])), (4, (1, [(4, 1), (10, 1)]))] 0 (1, [(4, 3), (10, 1), (11, 2)]),
    .no [(0, (1, [(8, 1), (10, 1)])), (1, (1, [(0, 2), (1, 2), (2, 2), (3, 2), (4, 1), (14, 1)])), (2, (7, [(1, 20), (2, 2), (5, 2), (10, 3), (11, 2), (14, 2)])), (3, (1, [(1, 2), (4, 3), (10, 1), (11, 2)])), (4, (1, [(4, 1), (10, 1)]))] 0 (4, [(1, 4), (4, 5), (5, 1), (10, 2), (11, 2), (14, 1)])]

theorem treeI_6_ok : treeI_6.check true (1, -1, 0) = true := by decide +kernel

/-- All symmetries with first column `(1, -1, 1)`. -/
def treeI_7 : Tree1 :=
  .no [(0, (1, [(2, 2), (5, 1), (6, 1), (8, 1), (10, 1)])), (1, (1, [(2, 2), (4, 1), (6, 1), (8, 1), (10, 1)])), (2, (1, [(2, 2), (4, 1), (5, 1), (8, 1), (10, 1)])), (3, (1, [(2, 2), (4, 2), (5, 1), (8, 1), (10, 1), (11, 2)])), (4, (1, [(2, 2), (4, 1), (5, 1), (6, 1), (10, 1)]))] 0 (1, [(4, 2), (5, 1), (8, 1), (10, 1), (11, 2)])

theorem treeI_7_ok : treeI_7.check true (1, -1, 1) = true := by decide +kernel

/-- All symmetries with first column `(1, 0, -1)`. -/
def treeI_8 : Tree1 :=
  .node [
    .no [(0, (1, [(5, 1), (7, 1), (10, 1)])), (1, (1, [(4, 1), (7, 1), (10, 1)])), (2, (3, [(1, 8), (3, 2), (5, 3), (7, 1), (10, 2), (14, 1)])), (3, (1, [(4, 1), (5, 1), (10, 1)])), (4, (3, [(1, 2), (3, 8), (4, 2), (5, 2), (10, 1), (14, 1)]))] 0 (3, [(1, 2), (3, 2), (4, 2), (5, 2), (10, 1), (14, 1)]),
    .no [(0, (1, [(5, 1), (7, 1), (10, 1)])), (1, (1, [(4, 1), (7, 1), (10, 1)])), (2, (1, [(3, 4), (5, 1), (7, 2), (10, 1), (11, 2)])), (3, (1, [(4, 1), (5, 1), (10, 1)])), (4, (1, [(3, 4), (14, 1)]))] 0 (1, [(3, 2), (14, 1)]),
    .no [(0, (1, [(5, 1), (7, 1), (10, 1)])), (1, (1, [(4, 1), (7, 1), (10, 1)])), (2, (1, [(1, 1), (3, 2), (5, 1), (7, 1), (11, 1)])), (3, (1, [(4, 1), (5, 1), (10, 1)])), (4, (1, [(3, 6), (4, 1), (5, 2), (6, 1), (7, 2), (11, 2)]))] 0 (1, [(3, 4), (4, 1), (5, 2), (6, 1), (7, 2), (11, 2)]),
    .no [(0, (1, [(5, 1), (7, 1), (10, 1)])), (1, (1, [(4, 1), (7, 1), (10, 1)])), (2, (2, [(1, 4), (5, 3), (7, 1), (10, 2), (14, 1)])), (3, (1, [(4, 1), (5, 1), (10, 1)])), (4, (2, [(3, 4), (4, 1), (5, 2), (10, 1), (14, 1)]))] 0 (2, [(4, 1), (5, 2), (10, 1), (14, 1)]),
    .no [(0, (1, [(5, 1), (7, 1), (10, 1)])), (1, (1, [(4, 1), (7, 1), (10, 1)])), (2, (1, [(1, 2), (3, 2), (5, 1), (7, 2), (10, 1), (11, 2)])), (3, (1, [(4, 1), (5, 1), (10, 1)])), (4, (1, [(3, 4), (7, 1), (11, 2)]))] 0 (1, [(3, 2), (7, 1), (11, 2)]),
    .no [(0, (1, [(5, 1), (7, 1), (10, 1)])), (1, (1, [(4, 1), (7, 1), (10, 1)])), (2, (1, [(1, 2), (3, 1), (5, 1), (7, 1), (11, 1)])), (3, (1, [(4, 1), (5, 1), (10, 1)])), (4, (1, [(3, 3), (4, 1), (5, 1), (7, 1), (11, 1)]))] 0 (1, [(3, 1), (4, 1), (5, 1), (7, 1), (11, 1)]),
    .no [(0, (1, [(5, 1), (7, 1), (10, 1)])), (1, (1, [(4, 1), (7, 1), (10, 1)])), (2, (2, [(1, 2), (5, 2), (8, 1), (10, 1), (14, 1)])), (3, (1, [(4, 1), (5, 1), (10, 1)])), (4, (2, [(3, 2), (4, 1), (5, 2), (6, 1), (10, 1), (14, 1)]))] 0 (1, [(4, 1), (5, 2), (6, 1), (8, 1), (10, 1), (14, 1)]),
    .no [(0, (1, [(5, 1), (7, 1), (10, 1)])), (1, (1, [(4, 1), (7, 1), (10, 1)])), (2, (1, [(1, 4), (5, 1), (7, 2), (10, 1), (11, 2)])), (3, (1, [(4, 1), (5, 1), (10, 1)])), (4, (1, [(1, 2), (3, 2), (7, 1), (11, 2)]))] 0 (1, [(1, 2), (7, 1), (11, 2)]),
    .no [(0, (1, [(5, 1), (7, 1), (10, 1)])), (1, (1, [(4, 1), (7, 1), (10, 1)])), (2, (1, [(1, 3), (5, 1), (7, 1), (11, 1)])), (3, (1, [(4, 1), (5, 1), (10, 1)])), (4, (1, [(1, 1), (3, 2), (4, 1), (5, 1), (7, 1), (11, 1)]))] 0 (1, [(1, 1), (4, 1), (5, 1), (7, 1), (11, 1)]),
    .no [(0, (1, [(5, 1), (7, 1), (10, 1)])), (1, (1, [(4, 1), (7, 1), (10, 1)])), (2, (1, [(1, 4), (5, 1), (14, 1)])), (3, (1, [(4, 1), (5, 1), (10, 1)])), (4, (2, [(1, 4), (4, 3), (5, 3), (7, 1), (12, 2), (14, 1)]))] 0 (1, [(1, 2), (4, 1), (5, 1), (14, 1)]),
    .no [(0, (1, [(5, 1), (7, 1), (10, 1)])), (1, (1, [(4, 1), (7, 1), (10, 1)])), (2, (1, [(1, 1), (5, 1), (10, 1), (11, 1), (16, 2)])), (3, (1, [(4, 1), (5, 1), (10, 1)])), (4, (1, [(4, 1), (5, 1), (10, 1), (16, 2)]))] 0 (1, [(4, 1), (5, 2), (6, 1), (10, 2), (11, 2), (16, 4)]),
    .no [(0, (1, [(5, 1), (7, 1), (10, 1)])), (1, (1, [(4, 1), (7, 1), (10, 1)])), (2, (1, [(3, 4), (4, 1), (5, 2), (7, 1), (11, 2)])), (3, (1, [(4, 1), (5, 1), (10, 1)])), (4, (1, [(4, 1), (5, 1), (10, 1), (16, 2)]))] 0 (2, [(4, 2), (5, 3), (6, 1), (10, 1), (11, 2), (16, 4)]),
    .node [
      .no [(0, (1, [(5, 1), (7, 1), (10, 1)])), (1, (1, [(4, 1), (7, 1), (10, 1)])), (2, (1, [(1, 1), (5, 1), (7, 1), (10, 1), (12, 1), (15, 1)])), (3, (1, [(4, 1), (5, 1), (10, 1)])), (4, (1, [(4, 2), (5, 2), (7, 1), (12, 2)]))] 0 (1, [(5, 1), (6, 1), (7, 1), (10, 1), (12, 2), (15, 2)]),
      .no [(0, (1, [(5, 1), (7, 1), (10, 1)])), (1, (1, [(4, 1), (7, 1), (10, 1)])), (2, (3, [(1, 4), (5, 3), (7, 2), (10, 1), (12, 2), (15, 2)])), (3, (1, [(4, 1), (5, 1), (10, 1)])), (4, (1, [(4, 2), (5, 2), (7, 1), (12, 2)]))] 0 (3, [(3, 2), (5, 2), (6, 2), (7, 1), (12, 2), (15, 4)]),
      .no [(0, (1, [(5, 1), (7, 1), (10, 1)])), (1, (1, [(4, 1), (7, 1), (10, 1)])), (2, (2, [(1, 3), (5, 2), (7, 1), (12, 1), (15, 1)])), (3, (1, [(4, 1), (5, 1), (10, 1)])), (4, (1, [(4, 2), (5, 2), (7, 1), (12, 2)]))] 0 (1, [(1, 2), (3, 2), (5, 2), (6, 2), (7, 1), (15, 2)]),
      .no [(0, (1, [(5, 1), (7, 1), (10, 1)])), (1, (1, [(4, 1), (7, 1), (10, 1)])), (2, (1, [(1, 2), (5, 1), (7, 2), (10, 3), (15, 2)])), (3, (1, [(4, 1), (5, 1), (10, 1)])), (4, (1, [(4, 2), (5, 2), (7, 1), (12, 2)]))] 0 (1, [(7, 1), (10, 2), (15, 2)]),
      .no [(0, (1, [(5, 1), (7, 1), (10, 1)])), (1, (1, [(4, 1), (7, 1), (10, 1)])), (2, (1, [(1, 2), (5, 1), (7, 1), (10, 1), (15, 1)])), (3, (1, [(4, 1), (5, 1), (10, 1)])), (4, (1, [(4, 2), (5, 2), (7, 1), (12, 2)]))] 0 (1, [(15, 1)]),
      .no [(0, (1, [(5, 1), (7, 1), (10, 1)])), (1, (1, [(4, 1), (7, 1), (10, 1)])), (2, (3, [(1, 6), (5, 3), (7, 2), (10, 1), (15, 2)])), (3, (1, [(4, 1), (5, 1), (10, 1)])), (4, (1, [(4, 2), (5, 2), (7, 1), (12, 2)]))] 0 (3, [(4, 2), (5, 2), (7, 1), (15, 2)]),
      .no [(0, (1, [(5, 1), (7, 1), (10, 1)])), (1, (1, [(4, 1), (7, 1), (10, 1)])), (2, (3, [(1, 2), (5, 3), (10, 1), (18, 2)])), (3, (1, [(4, 1), (5, 1), (10, 1)])), (4, (1, [(4, 2), (5, 2), (7, 1), (12, 2)]))] 0 (1, [(4, 1), (5, 3), (6, 2), (10, 1), (18, 2)]),
      .no [(0, (1, [(5, 1), (7, 1), (10, 1)])), (1, (1, [(4, 1), (7, 1), (10, 1)])), (2, (1, [(1, 4), (5, 1), (7, 1), (8, 1), (10, 1), (15, 2)])), (3, (1, [(4, 1), (5, 1), (10, 1)])), (4, (1, [(4, 2), (5, 2), (7, 1), (12, 2)]))] 0 (1, [(1, 2), (8, 1), (15, 2)]),
      .no [(0, (1, [(5, 1), (7, 1), (10, 1)])), (1, (1, [(4, 1), (7, 1), (10, 1)])), (2, (2, [(1, 6), (5, 2), (7, 1), (8, 1), (15, 2)])), (3, (1, [(4, 1), (5, 1), (10, 1)])), (4, (1, [(4, 2), (5, 2), (7, 1), (12, 2)]))] 0 (2, [(1, 2), (4, 2), (5, 2), (7, 1), (8, 1), (15, 2)]),
      .no [(0, (1, [(5, 1), (7, 1), (10, 1)])), (1, (1, [(4, 1), (7, 1), (10, 1)])), (2, (1, [(5, 1), (10, 1), (12, 2), (15, 2)])), (3, (1, [(4, 1), (5, 1), (10, 1)])), (4, (1, [(4, 2), (5, 2), (7, 1), (12, 2)]))] 0 (1, [(4, 1), (5, 1), (18, 1)]),
      .no [(0, (1, [(5, 1), (7, 1), (10, 1)])), (1, (1, [(4, 1), (7, 1), (10, 1)])), (2, (1, [(1, 1), (5, 1), (12, 1), (15, 1)])), (3, (1, [(4, 1), (5, 1), (10, 1)])), (4, (1, [(4, 2), (5, 2), (7, 1), (12, 2)]))] 0 (1, [(4, 1), (5, 2), (6, 1), (12, 2), (15, 2)]),
      .no [(0, (1, [(5, 1), (7, 1), (10, 1)])), (1, (1, [(4, 1), (7, 1), (10, 1)])), (2, (1, [(1, 1), (3, 1), (5, 1), (15, 1)])), (3, (1, [(4, 1), (5, 1), (10, 1)])), (4, (1, [(4, 2), (5, 2), (7, 1), (12, 2)]))] 0 (1, [(3, 2), (4, 1), (5, 2), (6, 1), (15, 2)]),
      .no [(0, (1, [(5, 1), (7, 1), (10, 1)])), (1, (1, [(4, 1), (7, 1), (10, 1)])), (2, (1, [(1, 1), (5, 1), (18, 1)])), (3, (1, [(4, 1), (5, 1), (10, 1)])), (4, (1, [(4, 2), (5, 2), (7, 1), (12, 2)]))] 0 (1, [(4, 1), (5, 2), (6, 1), (18, 2)]),
      .no [(0, (1, [(5, 1), (7, 1), (10, 1)])), (1, (1, [(4, 1), (7, 1), (10, 1)])), (2, (1, [(1, 2), (5, 1), (10, 1), (15, 2)])), (3, (1, [(4, 1), (5, 1), (10, 1)])), (4, (1, [(4, 2), (5, 2), (7, 1), (12, 2)]))] 0 (1, [(4, 1), (5, 1), (10, 1), (15, 2)]),
      .no [(0, (1, [(5, 1), (7, 1), (10, 1)])), (1, (1, [(4, 1), (7, 1), (10, 1)])), (2, (1, [(1, 2), (5, 1), (15, 1)])), (3, (1, [(4, 1), (5, 1), (10, 1)])), (4, (1, [(4, 2), (5, 2), (7, 1), (12, 2)]))] 0 (1, [(4, 1), (5, 1), (15, 1)]),
      .yes [(0, (1, [(5, 1), (7, 1), (10, 1)])), (1, (1, [(4, 1), (7, 1), (10, 1)])), (2, (1, [(4, 3), (5, 4), (7, 3), (12, 2), (16, 2)])), (3, (1, [(4, 1), (5, 1), (10, 1)])), (4, (1, [(4, 2), (5, 2), (7, 1), (12, 2)]))] 1 [((1, [(5, 1), (7, 1), (10, 1)]), (1, [(4, 1)])), ((1, [(4, 1), (7, 1), (10, 1)]), (1, [(5, 1)])), ((1, [(4, 4), (5, 4), (7, 3), (12, 2), (16, 2)]), (1, [(5, 1), (6, 1), (7, 1), (10, 1)])), ((1, [(4, 1), (5, 1), (10, 1)]), (1, [(7, 1)])), ((1, [(4, 2), (5, 2), (7, 1), (12, 2)]), (1, [(8, 1)]))],
      .no [(0, (1, [(5, 1), (7, 1), (10, 1)])), (1, (1, [(4, 1), (7, 1), (10, 1)])), (3, (1, [(4, 1), (5, 1), (10, 1)])), (4, (1, [(4, 2), (5, 2), (7, 1), (12, 2)])), (2, (1, [(4, 1), (5, 2), (8, 1), (12, 2), (15, 2), (23, 2)]))] 0 (1, [(4, 2), (5, 2), (8, 1), (10, 2), (15, 4), (23, 2)]),
      .no [(0, (1, [(5, 1), (7, 1), (10, 1)])), (1, (1, [(4, 1), (7, 1), (10, 1)])), (2, (1, [(1, 4), (4, 1), (5, 2), (8, 1), (15, 2)])), (3, (1, [(4, 1), (5, 1), (10, 1)])), (4, (1, [(4, 2), (5, 2), (7, 1), (12, 2)]))] 0 (1, [(1, 2), (4, 2), (5, 2), (8, 1), (15, 2)]),
      .no [(0, (1, [(5, 1), (7, 1), (10, 1)])), (1, (1, [(4, 1), (7, 1), (10, 1)])), (2, (1, [(1, 2), (4, 1), (5, 2), (7, 1), (18, 2)])), (3, (1, [(4, 1), (5, 1), (10, 1)])), (4, (1, [(4, 2), (5, 2), (7, 1), (12, 2)]))] 0 (1, [(4, 2), (5, 2), (7, 1), (18, 2)]),
      .no [(0, (1, [(5, 1), (7, 1), (10, 1)])), (1, (1, [(4, 1), (7, 1), (10, 1)])), (2, (1, [(4, 2), (5, 3), (10, 1), (12, 2), (15, 2)])), (3, (1, [(4, 1), (5, 1), (10, 1)])), (4, (1, [(4, 2), (5, 2), (7, 1), (12, 2)]))] 0 (1, [(4, 1), (5, 1), (10, 1), (17, 2)]),
      .no [(0, (1, [(5, 1), (7, 1), (10, 1)])), (1, (1, [(4, 1), (7, 1), (10, 1)])), (2, (1, [(1, 1), (4, 1), (5, 2), (12, 1), (15, 1)])), (3, (1, [(4, 1), (5, 1), (10, 1)])), (4, (1, [(4, 2), (5, 2), (7, 1), (12, 2)]))] 0 (1, [(4, 3), (5, 4), (6, 1), (12, 2), (15, 2)]),
      .no [(0, (1, [(5, 1), (7, 1), (10, 1)])), (1, (1, [(4, 1), (7, 1), (10, 1)])), (2, (1, [(1, 2), (4, 1), (5, 2), (7, 3), (16, 2)])), (3, (1, [(4, 1), (5, 1), (10, 1)])), (4, (1, [(4, 2), (5, 2), (7, 1), (12, 2)]))] 0 (1, [(4, 2), (5, 2), (7, 3), (16, 2)]),
      .no [(0, (1, [(5, 1), (7, 1), (10, 1)])), (1, (1, [(4, 1), (7, 1), (10, 1)])), (2, (1, [(1, 4), (5, 1), (10, 1), (17, 2)])), (3, (1, [(4, 1), (5, 1), (10, 1)])), (4, (1, [(4, 2), (5, 2), (7, 1), (12, 2)]))] 0 (1, [(1, 2), (4, 1), (5, 1), (10, 1), (17, 2)]),
      .no [(0, (1, [(5, 1), (7, 1), (10, 1)])), (1, (1, [(4, 1), (7, 1), (10, 1)])), (2, (1, [(1, 2), (4, 2), (5, 3), (10, 1), (15, 2)])), (3, (1, [(4, 1), (5, 1), (10, 1)])), (4, (1, [(4, 2), (5, 2), (7, 1), (12, 2)]))] 0 (1, [(4, 3), (5, 3), (10, 1), (15, 2)]),
      .no [(0, (1, [(5, 1), (7, 1), (10, 1)])), (1, (1, [(4, 1), (7, 1), (10, 1)])), (2, (1, [(1, 1), (4, 1), (5, 2), (7, 2), (12, 1), (16, 1)])), (3, (1, [(4, 1), (5, 1), (10, 1)])), (4, (1, [(4, 2), (5, 2), (7, 1), (12, 2)]))] 0 (1, [(4, 3), (5, 4), (6, 1), (7, 4), (12, 2), (16, 2)]),
      .no [(0, (1, [(5, 1), (7, 1), (10, 1)])), (1, (1, [(4, 1), (7, 1), (10, 1)])), (2, (1, [(4, 1), (5, 2), (7, 3), (12, 2), (16, 2)])), (3, (1, [(4, 1), (5, 1), (10, 1)])), (4, (1, [(4, 2), (5, 2), (7, 1), (12, 2)]))] 0 (1, [(1, 3), (3, 1), (16, 1), (17, 2)]),
      .no [(0, (1, [(5, 1), (7, 1), (10, 1)])), (1, (1, [(4, 1), (7, 1), (10, 1)])), (2, (3, [(1, 10), (5, 3), (10, 1), (17, 2)])), (3, (1, [(4, 1), (5, 1), (10, 1)])), (4, (1, [(4, 2), (5, 2), (7, 1), (12, 2)]))] 0 (3, [(1, 4), (4, 3), (5, 3), (10, 1), (17, 2)])],
    .no [(0, (1, [(5, 1), (7, 1), (10, 1)])), (1, (1, [(4, 1), (7, 1), (10, 1)])), (2, (1, [(1, 2), (13, 1)])), (3, (1, [(4, 1), (5, 1), (10, 1)])), (4, (1, [(3, 2), (4, 1), (13, 1)]))] 0 (1, [(4, 1), (13, 1)]),
    .no [(0, (1, [(5, 1), (7, 1), (10, 1)])), (1, (1, [(4, 1), (7, 1), (10, 1)])), (2, (1, [(1, 2), (3, 2), (4, 1), (5, 2), (7, 1), (11, 2)])), (3, (1, [(4, 1), (5, 1), (10, 1)])), (4, (1, [(3, 4), (4, 2), (5, 2), (7, 1), (11, 2)]))] 0 (1, [(3, 2), (4, 2), (5, 2), (7, 1), (11, 2)]),
    .node [
      .no [(0, (1, [(5, 1), (7, 1), (10, 1)])), (1, (1, [(4, 1), (7, 1), (10, 1)])), (2, (1, [(4, 1), (5, 2), (7, 1), (12, 2)])), (3, (1, [(4, 1), (5, 1), (10, 1)])), (4, (4, [(3, 10), (4, 3), (5, 2), (12, 2), (20, 1)]))] 0 (4, [(3, 2), (4, 3), (5, 2), (12, 2), (20, 1)]),
      .no [(0, (1, [(5, 1), (7, 1), (10, 1)])), (1, (1, [(4, 1), (7, 1), (10, 1)])), (2, (1, [(4, 1), (5, 2), (7, 1), (12, 2)])), (3, (1, [(4, 1), (5, 1), (10, 1)])), (4, (1, [(3, 4), (5, 1), (6, 1), (7, 1), (10, 1), (15, 2)]))] 0 (1, [(3, 2), (5, 1), (6, 1), (7, 1), (10, 1), (15, 2)]),
      .no [(0, (1, [(5, 1), (7, 1), (10, 1)])), (1, (1, [(4, 1), (7, 1), (10, 1)])), (2, (1, [(4, 1), (5, 2), (7, 1), (12, 2)])), (3, (1, [(4, 1), (5, 1), (10, 1)])), (4, (2, [(3, 6), (4, 1), (5, 2), (6, 1), (7, 1), (15, 2)]))] 0 (2, [(3, 2), (4, 1), (5, 2), (6, 1), (7, 1), (15, 2)]),
      .no [(0, (1, [(5, 1), (7, 1), (10, 1)])), (1, (1, [(4, 1), (7, 1), (10, 1)])), (2, (1, [(4, 1), (5, 2), (7, 1), (12, 2)])), (3, (1, [(4, 1), (5, 1), (10, 1)])), (4, (1, [(3, 2), (7, 1), (10, 2), (15, 2)]))] 0 (1, [(7, 1), (10, 2), (15, 2)]),
      .no [(0, (1, [(5, 1), (7, 1), (10, 1)])), (1, (1, [(4, 1), (7, 1), (10, 1)])), (2, (1, [(4, 1), (5, 2), (7, 1), (12, 2)])), (3, (1, [(4, 1), (5, 1), (10, 1)])), (4, (1, [(3, 2), (15, 1)]))] 0 (1, [(15, 1)]),
      .no [(0, (1, [(5, 1), (7, 1), (10, 1)])), (1, (1, [(4, 1), (7, 1), (10, 1)])), (2, (1, [(4, 1), (5, 2), (7, 1), (12, 2)])), (3, (1, [(4, 1), (5, 1), (10, 1)])), (4, (3, [(3, 6), (4, 2), (5, 2), (7, 1), (15, 2)]))] 0 (3, [(4, 2), (5, 2), (7, 1), (15, 2)]),
      .no [(0, (1, [(5, 1), (7, 1), (10, 1)])), (1, (1, [(4, 1), (7, 1), (10, 1)])), (2, (1, [(4, 1), (5, 2), (7, 1), (12, 2)])), (3, (1, [(4, 1), (5, 1), (10, 1)])), (4, (1, [(3, 1), (12, 1), (15, 1)]))] 0 (1, [(8, 1), (12, 2), (15, 2)]),
      .no [(0, (1, [(5, 1), (7, 1), (10, 1)])), (1, (1, [(4, 1), (7, 1), (10, 1)])), (2, (1, [(4, 1), (5, 2), (7, 1), (12, 2)])), (3, (1, [(4, 1), (5, 1), (10, 1)])), (4, (1, [(1, 1), (3, 1), (15, 1)]))] 0 (1, [(1, 2), (8, 1), (15, 2)]),
      .no [(0, (1, [(5, 1), (7, 1), (10, 1)])), (1, (1, [(4, 1), (7, 1), (10, 1)])), (2, (1, [(4, 1), (5, 2), (7, 1), (12, 2)])), (3, (1, [(4, 1), (5, 1), (10, 1)])), (4, (3, [(1, 2), (3, 4), (4, 2), (5, 2), (7, 1), (15, 2)]))] 0 (2, [(1, 2), (4, 2), (5, 2), (7, 1), (8, 1), (15, 2)]),
      .no [(0, (1, [(5, 1), (7, 1), (10, 1)])), (1, (1, [(4, 1), (7, 1), (10, 1)])), (2, (1, [(4, 1), (5, 2), (7, 1), (12, 2)])), (3, (1, [(4, 1), (5, 1), (10, 1)])), (4, (1, [(4, 4), (5, 4), (7, 3), (12, 2), (16, 2)]))] 0 (1, [(4, 2), (7, 1), (12, 2), (17, 2)]),
      .no [(0, (1, [(5, 1), (7, 1), (10, 1)])), (1, (1, [(4, 1), (7, 1), (10, 1)])), (2, (1, [(4, 1), (5, 2), (7, 1), (12, 2)])), (3, (1, [(4, 1), (5, 1), (10, 1)])), (4, (1, [(3, 2), (4, 1), (17, 1)]))] 0 (1, [(4, 1), (17, 1)]),
      .no [(0, (1, [(5, 1), (7, 1), (10, 1)])), (1, (1, [(4, 1), (7, 1), (10, 1)])), (2, (1, [(4, 1), (5, 2), (7, 1), (12, 2)])), (3, (1, [(4, 1), (5, 1), (10, 1)])), (4, (1, [(3, 4), (4, 1), (5, 2), (6, 1), (15, 2)]))] 0 (1, [(3, 2), (4, 1), (5, 2), (6, 1), (15, 2)]),
      .yes [(0, (1, [(5, 1), (7, 1), (10, 1)])), (1, (1, [(4, 1), (7, 1), (10, 1)])), (2, (1, [(4, 1), (5, 2), (7, 1), (12, 2)])), (3, (1, [(4, 1), (5, 1), (10, 1)])), (4, (1, [(4, 1), (5, 1), (10, 1), (22, 2)]))] 1 [((1, [(5, 1), (7, 1), (10, 1)]), (1, [(4, 1)])), ((1, [(4, 1), (7, 1), (10, 1)]), (1, [(5, 1)])), ((1, [(4, 2), (5, 2), (7, 1), (12, 2)]), (1, [(5, 1), (6, 1), (7, 1), (10, 1)])), ((1, [(4, 1), (5, 1), (10, 1)]), (1, [(7, 1)])), ((1, [(4, 1), (5, 1), (10, 1), (22, 2)]), (1, [(8, 1)]))],
      .no [(0, (1, [(5, 1), (7, 1), (10, 1)])), (1, (1, [(4, 1), (7, 1), (10, 1)])), (2, (1, [(4, 1), (5, 2), (7, 1), (12, 2)])), (3, (1, [(4, 1), (5, 1), (10, 1)])), (4, (1, [(3, 2), (4, 1), (5, 1), (10, 1), (15, 2)]))] 0 (1, [(4, 1), (5, 1), (10, 1), (15, 2)]),
      .no [(0, (1, [(5, 1), (7, 1), (10, 1)])), (1, (1, [(4, 1), (7, 1), (10, 1)])), (2, (1, [(4, 1), (5, 2), (7, 1), (12, 2)])), (3, (1, [(4, 1), (5, 1), (10, 1)])), (4, (1, [(3, 2), (4, 1), (5, 1), (15, 1)]))] 0 (1, [(4, 1), (5, 1), (15, 1)]),
      .no [(0, (1, [(5, 1), (7, 1), (10, 1)])), (1, (1, [(4, 1), (7, 1), (10, 1)])), (2, (1, [(4, 1), (5, 2), (7, 1), (12, 2)])), (3, (1, [(4, 1), (5, 1), (10, 1)])), (4, (1, [(4, 1), (5, 1), (10, 1), (12, 2), (15, 2)]))] 0 (1, [(4, 1), (5, 2), (6, 3), (18, 2)]),
      .no [(0, (1, [(5, 1), (7, 1), (10, 1)])), (1, (1, [(4, 1), (7, 1), (10, 1)])), (2, (1, [(4, 1), (5, 2), (7, 1), (12, 2)])), (3, (1, [(4, 1), (5, 1), (10, 1)])), (4, (1, [(3, 1), (4, 1), (5, 1), (12, 1), (15, 1)]))] 0 (1, [(4, 2), (5, 2), (8, 1), (12, 2), (15, 2)]),
      .no [(0, (1, [(5, 1), (7, 1), (10, 1)])), (1, (1, [(4, 1), (7, 1), (10, 1)])), (2, (1, [(4, 1), (5, 2), (7, 1), (12, 2)])), (3, (1, [(4, 1), (5, 1), (10, 1)])), (4, (1, [(1, 1), (3, 1), (4, 1), (5, 1), (15, 1)]))] 0 (1, [(1, 2), (4, 2), (5, 2), (8, 1), (15, 2)]),
      .no [(0, (1, [(5, 1), (7, 1), (10, 1)])), (1, (1, [(4, 1), (7, 1), (10, 1)])), (2, (1, [(4, 1), (5, 2), (7, 1), (12, 2)])), (3, (1, [(4, 1), (5, 1), (10, 1)])), (4, (1, [(3, 1), (4, 2), (5, 2), (7, 2), (12, 1), (16, 1)]))] 0 (1, [(4, 4), (5, 4), (7, 4), (8, 1), (12, 2), (16, 2)]),
      .no [(0, (1, [(5, 1), (7, 1), (10, 1)])), (1, (1, [(4, 1), (7, 1), (10, 1)])), (2, (1, [(4, 1), (5, 2), (7, 1), (12, 2)])), (3, (1, [(4, 1), (5, 1), (10, 1)])), (4, (1, [(4, 2), (5, 2), (7, 3), (12, 2), (16, 2)]))] 0 (2, [(4, 3), (5, 1), (8, 1), (10, 1), (17, 2)]),
      .no [(0, (1, [(5, 1), (7, 1), (10, 1)])), (1, (1, [(4, 1), (7, 1), (10, 1)])), (2, (1, [(4, 1), (5, 2), (7, 1), (12, 2)])), (3, (1, [(4, 1), (5, 1), (10, 1)])), (4, (4, [(3, 6), (4, 4), (5, 3), (6, 1), (10, 1), (17, 2)]))] 0 (3, [(4, 4), (5, 3), (6, 1), (8, 1), (10, 1), (17, 2)]),
      .no [(0, (1, [(5, 1), (7, 1), (10, 1)])), (1, (1, [(4, 1), (7, 1), (10, 1)])), (2, (1, [(4, 1), (5, 2), (7, 1), (12, 2)])), (3, (1, [(4, 1), (5, 1), (10, 1)])), (4, (1, [(3, 2), (4, 2), (5, 2), (7, 3), (16, 2)]))] 0 (1, [(4, 2), (5, 2), (7, 3), (16, 2)]),
      .no [(0, (1, [(5, 1), (7, 1), (10, 1)])), (1, (1, [(4, 1), (7, 1), (10, 1)])), (2, (1, [(4, 1), (5, 2), (7, 1), (12, 2)])), (3, (1, [(4, 1), (5, 1), (10, 1)])), (4, (1, [(3, 1), (4, 1), (5, 1), (12, 1), (17, 1)]))] 0 (1, [(4, 2), (5, 2), (8, 1), (12, 2), (17, 2)]),
      .no [(0, (1, [(5, 1), (7, 1), (10, 1)])), (1, (1, [(4, 1), (7, 1), (10, 1)])), (2, (1, [(4, 1), (5, 2), (7, 1), (12, 2)])), (3, (1, [(4, 1), (5, 1), (10, 1)])), (4, (1, [(3, 2), (4, 3), (5, 3), (10, 1), (15, 2)]))] 0 (1, [(4, 3), (5, 3), (10, 1), (15, 2)]),
      .no [(0, (1, [(5, 1), (7, 1), (10, 1)])), (1, (1, [(4, 1), (7, 1), (10, 1)])), (2, (1, [(4, 1), (5, 2), (7, 1), (12, 2)])), (3, (1, [(4, 1), (5, 1), (10, 1)])), (4, (1, [(4, 1), (5, 1), (10, 1), (22, 2)]))] 0 (1, [(4, 1), (5, 2), (6, 1), (7, 2), (16, 2), (22, 2)]),
      .no [(0, (1, [(5, 1), (7, 1), (10, 1)])), (1, (1, [(4, 1), (7, 1), (10, 1)])), (2, (1, [(4, 1), (5, 2), (7, 1), (12, 2)])), (3, (1, [(4, 1), (5, 1), (10, 1)])), (4, (1, [(4, 3), (5, 3), (10, 1), (12, 2), (15, 2)]))] 0 (2, [(4, 3), (5, 2), (10, 1), (12, 2), (15, 2), (20, 1)]),
      .no [(0, (1, [(5, 1), (7, 1), (10, 1)])), (1, (1, [(4, 1), (7, 1), (10, 1)])), (2, (1, [(4, 1), (5, 2), (7, 1), (12, 2)])), (3, (1, [(4, 1), (5, 1), (10, 1)])), (4, (1, [(3, 1), (4, 2), (5, 2), (12, 1), (15, 1)]))] 0 (1, [(4, 4), (5, 4), (8, 1), (12, 2), (15, 2)])],
    .no [(0, (1, [(5, 1), (7, 1), (10, 1)])), (1, (1, [(4, 1), (7, 1), (10, 1)])), (3, (1, [(4, 1), (5, 1), (10, 1)])), (4, (1, [(4, 1), (5, 1), (10, 1), (16, 2)])), (2, (1, [(5, 1), (10, 1), (11, 2), (16, 2), (17, 2)]))] 0 (1, [(4, 1), (5, 1), (10, 1), (11, 4), (16, 2), (17, 2)]),
    .no [(0, (1, [(5, 1), (7, 1), (10, 1)])), (1, (1, [(4, 1), (7, 1), (10, 1)])), (2, (1, [(1, 4), (4, 1), (5, 2), (7, 1), (11, 2)])), (3, (1, [(4, 1), (5, 1), (10, 1)])), (4, (1, [(1, 2), (3, 2), (4, 2), (5, 2), (7, 1), (11, 2)]))] 0 (1, [(1, 2), (4, 2), (5, 2), (7, 1), (11, 2)]),
    .no [(0, (1, [(5, 1), (7, 1), (10, 1)])), (1, (1, [(4, 1), (7, 1), (10, 1)])), (3, (1, [(4, 1), (5, 1), (10, 1)])), (4, (1, [(1, 1), (4, 1), (5, 1), (7, 1), (12, 1)])), (2, (1, [(4, 1), (5, 2), (7, 2), (8, 1), (12, 2), (17, 2)]))] 0 (1, [(4, 4), (5, 4), (7, 4), (8, 3), (12, 4), (17, 2)]),
    .node [
      .no [(0, (1, [(5, 1), (7, 1), (10, 1)])), (1, (1, [(4, 1), (7, 1), (10, 1)])), (2, (1, [(5, 1), (10, 1), (11, 2), (14, 2)])), (3, (1, [(4, 1), (5, 1), (10, 1)])), (4, (1, [(14, 1)]))] 0 (2, [(5, 1), (6, 1), (7, 4), (10, 5), (12, 2), (15, 4)]),
      .no [(0, (1, [(5, 1), (7, 1), (10, 1)])), (1, (1, [(4, 1), (7, 1), (10, 1)])), (2, (1, [(5, 1), (10, 1), (11, 2), (14, 2)])), (3, (1, [(4, 1), (5, 1), (10, 1)])), (4, (1, [(14, 1)]))] 0 (4, [(5, 1), (6, 1), (7, 2), (10, 1), (12, 2), (15, 4)]),
      .no [(0, (1, [(5, 1), (7, 1), (10, 1)])), (1, (1, [(4, 1), (7, 1), (10, 1)])), (2, (1, [(5, 1), (10, 1), (11, 2), (14, 2)])), (3, (1, [(4, 1), (5, 1), (10, 1)])), (4, (1, [(14, 1)]))] 0 (3, [(4, 1), (5, 2), (6, 1), (7, 1), (14, 1), (15, 2)]),
      .no [(0, (1, [(5, 1), (7, 1), (10, 1)])), (1, (1, [(4, 1), (7, 1), (10, 1)])), (2, (1, [(5, 1), (10, 1), (11, 2), (14, 2)])), (3, (1, [(4, 1), (5, 1), (10, 1)])), (4, (1, [(14, 1)]))] 0 (1, [(7, 1), (10, 2), (15, 2)]),
      .no [(0, (1, [(5, 1), (7, 1), (10, 1)])), (1, (1, [(4, 1), (7, 1), (10, 1)])), (2, (1, [(5, 1), (10, 1), (11, 2), (14, 2)])), (3, (1, [(4, 1), (5, 1), (10, 1)])), (4, (1, [(14, 1)]))] 0 (1, [(15, 1)]),
      .no [(0, (1, [(5, 1), (7, 1), (10, 1)])), (1, (1, [(4, 1), (7, 1), (10, 1)])), (2, (1, [(5, 1), (10, 1), (11, 2), (14, 2)])), (3, (1, [(4, 1), (5, 1), (10, 1)])), (4, (1, [(14, 1)]))] 0 (3, [(4, 2), (5, 2), (7, 1), (15, 2)]),
      .no [(0, (1, [(5, 1), (7, 1), (10, 1)])), (1, (1, [(4, 1), (7, 1), (10, 1)])), (2, (1, [(5, 1), (10, 1), (11, 2), (14, 2)])), (3, (1, [(4, 1), (5, 1), (10, 1)])), (4, (1, [(14, 1)]))] 0 (1, [(10, 2), (11, 2), (14, 1), (15, 2)]),
      .no [(0, (1, [(5, 1), (7, 1), (10, 1)])), (1, (1, [(4, 1), (7, 1), (10, 1)])), (2, (1, [(5, 1), (10, 1), (11, 2), (14, 2)])), (3, (1, [(4, 1), (5, 1), (10, 1)])), (4, (1, [(14, 1)]))] 0 (1, [(1, 2), (8, 1), (15, 2)]),
      .no [(0, (1, [(5, 1), (7, 1), (10, 1)])), (1, (1, [(4, 1), (7, 1), (10, 1)])), (2, (1, [(5, 1), (10, 1), (11, 2), (14, 2)])), (3, (1, [(4, 1), (5, 1), (10, 1)])), (4, (1, [(14, 1)]))] 0 (2, [(1, 2), (4, 2), (5, 2), (7, 1), (8, 1), (15, 2)]),
      .no [(0, (1, [(5, 1), (7, 1), (10, 1)])), (1, (1, [(4, 1), (7, 1), (10, 1)])), (2, (1, [(5, 1), (10, 1), (11, 2), (14, 2)])), (3, (1, [(4, 1), (5, 1), (10, 1)])), (4, (1, [(14, 1)]))] 0 (1, [(1, 2), (4, 1), (20, 1)]),
      .no [(0, (1, [(5, 1), (7, 1), (10, 1)])), (1, (1, [(4, 1), (7, 1), (10, 1)])), (2, (1, [(5, 1), (10, 1), (11, 2), (14, 2)])), (3, (1, [(4, 1), (5, 1), (10, 1)])), (4, (1, [(14, 1)]))] 0 (2, [(5, 1), (6, 1), (10, 1), (12, 2), (15, 4)]),
      .no [(0, (1, [(5, 1), (7, 1), (10, 1)])), (1, (1, [(4, 1), (7, 1), (10, 1)])), (2, (1, [(5, 1), (10, 1), (11, 2), (14, 2)])), (3, (1, [(4, 1), (5, 1), (10, 1)])), (4, (1, [(14, 1)]))] 0 (2, [(4, 1), (5, 2), (6, 1), (14, 1), (15, 2)]),
      .no [(0, (1, [(5, 1), (7, 1), (10, 1)])), (1, (1, [(4, 1), (7, 1), (10, 1)])), (2, (1, [(5, 1), (10, 1), (11, 2), (14, 2)])), (3, (1, [(4, 1), (5, 1), (10, 1)])), (4, (1, [(14, 1)]))] 0 (1, [(4, 1), (5, 1), (10, 1), (17, 2)]),
      .no [(0, (1, [(5, 1), (7, 1), (10, 1)])), (1, (1, [(4, 1), (7, 1), (10, 1)])), (2, (1, [(5, 1), (10, 1), (11, 2), (14, 2)])), (3, (1, [(4, 1), (5, 1), (10, 1)])), (4, (1, [(14, 1)]))] 0 (1, [(4, 1), (5, 1), (10, 1), (15, 2)]),
      .no [(0, (1, [(5, 1), (7, 1), (10, 1)])), (1, (1, [(4, 1), (7, 1), (10, 1)])), (2, (1, [(5, 1), (10, 1), (11, 2), (14, 2)])), (3, (1, [(4, 1), (5, 1), (10, 1)])), (4, (1, [(14, 1)]))] 0 (1, [(4, 1), (5, 1), (15, 1)]),
      .no [(0, (1, [(5, 1), (7, 1), (10, 1)])), (1, (1, [(4, 1), (7, 1), (10, 1)])), (2, (1, [(5, 1), (10, 1), (11, 2), (14, 2)])), (3, (1, [(4, 1), (5, 1), (10, 1)])), (4, (1, [(14, 1)]))] 0 (2, [(4, 3), (5, 1), (8, 1), (10, 1), (17, 2)]),
      .no [(0, (1, [(5, 1), (7, 1), (10, 1)])), (1, (1, [(4, 1), (7, 1), (10, 1)])), (2, (1, [(5, 1), (10, 1), (11, 2), (14, 2)])), (3, (1, [(4, 1), (5, 1), (10, 1)])), (4, (1, [(14, 1)]))] 0 (1, [(4, 2), (5, 2), (10, 2), (11, 2), (14, 1), (15, 2)]),
      .no [(0, (1, [(5, 1), (7, 1), (10, 1)])), (1, (1, [(4, 1), (7, 1), (10, 1)])), (2, (1, [(5, 1), (10, 1), (11, 2), (14, 2)])), (3, (1, [(4, 1), (5, 1), (10, 1)])), (4, (1, [(14, 1)]))] 0 (1, [(1, 2), (4, 2), (5, 2), (8, 1), (15, 2)]),
      .no [(0, (1, [(5, 1), (7, 1), (10, 1)])), (1, (1, [(4, 1), (7, 1), (10, 1)])), (2, (1, [(5, 1), (10, 1), (11, 2), (14, 2)])), (3, (1, [(4, 1), (5, 1), (10, 1)])), (4, (1, [(14, 1)]))] 0 (1, [(4, 2), (5, 2), (7, 2), (11, 2), (14, 1), (16, 2)]),
      .no [(0, (1, [(5, 1), (7, 1), (10, 1)])), (1, (1, [(4, 1), (7, 1), (10, 1)])), (2, (1, [(5, 1), (10, 1), (11, 2), (14, 2)])), (3, (1, [(4, 1), (5, 1), (10, 1)])), (4, (1, [(14, 1)]))] 0 (1, [(4, 1), (6, 1), (8, 2), (18, 2)]),
      .no [(0, (1, [(5, 1), (7, 1), (10, 1)])), (1, (1, [(4, 1), (7, 1), (10, 1)])), (2, (1, [(5, 1), (10, 1), (11, 2), (14, 2)])), (3, (1, [(4, 1), (5, 1), (10, 1)])), (4, (1, [(14, 1)]))] 0 (2, [(4, 4), (5, 5), (6, 1), (10, 1), (12, 2), (15, 4)]),
      .no [(0, (1, [(5, 1), (7, 1), (10, 1)])), (1, (1, [(4, 1), (7, 1), (10, 1)])), (2, (1, [(5, 1), (10, 1), (11, 2), (14, 2)])), (3, (1, [(4, 1), (5, 1), (10, 1)])), (4, (1, [(14, 1)]))] 0 (1, [(4, 2), (5, 2), (7, 3), (16, 2)]),
      .yes [(0, (1, [(5, 1), (7, 1), (10, 1)])), (1, (1, [(4, 1), (7, 1), (10, 1)])), (2, (1, [(5, 1), (10, 1), (11, 2), (14, 2)])), (3, (1, [(4, 1), (5, 1), (10, 1)])), (4, (1, [(14, 1)]))] 1 [((1, [(5, 1), (7, 1), (10, 1)]), (1, [(4, 1)])), ((1, [(4, 1), (7, 1), (10, 1)]), (1, [(5, 1)])), ((1, [(4, 1), (5, 1), (10, 1), (11, 2), (14, 2)]), (1, [(5, 1), (6, 1), (7, 1), (10, 1)])), ((1, [(4, 1), (5, 1), (10, 1)]), (1, [(7, 1)])), ((1, [(14, 1)]), (1, [(8, 1)]))],
      .no [(0, (1, [(5, 1), (7, 1), (10, 1)])), (1, (1, [(4, 1), (7, 1), (10, 1)])), (2, (1, [(5, 1), (10, 1), (11, 2), (14, 2)])), (3, (1, [(4, 1), (5, 1), (10, 1)])), (4, (1, [(14, 1)]))] 0 (1, [(4, 3), (5, 3), (10, 1), (15, 2)]),
      .no [(0, (1, [(5, 1), (7, 1), (10, 1)])), (1, (1, [(4, 1), (7, 1), (10, 1)])), (2, (1, [(5, 1), (10, 1), (11, 2), (14, 2)])), (3, (1, [(4, 1), (5, 1), (10, 1)])), (4, (1, [(14, 1)]))] 0 (2, [(4, 3), (5, 4), (6, 1), (7, 7), (12, 2), (16, 4)]),
      .no [(0, (1, [(5, 1), (7, 1), (10, 1)])), (1, (1, [(4, 1), (7, 1), (10, 1)])), (2, (1, [(5, 1), (10, 1), (11, 2), (14, 2)])), (3, (1, [(4, 1), (5, 1), (10, 1)])), (4, (1, [(14, 1)]))] 0 (1, [(4, 3), (5, 1), (10, 1), (11, 2), (14, 2), (17, 2)]),
      .no [(0, (1, [(5, 1), (7, 1), (10, 1)])), (1, (1, [(4, 1), (7, 1), (10, 1)])), (2, (1, [(5, 1), (10, 1), (11, 2), (14, 2)])), (3, (1, [(4, 1), (5, 1), (10, 1)])), (4, (1, [(14, 1)]))] 0 (1, [(4, 4), (5, 4), (10, 2), (11, 2), (14, 1), (15, 2)])],
    .no [(0, (1, [(5, 1), (7, 1), (10, 1)])), (1, (1, [(4, 1), (7, 1), (10, 1)])), (2, (2, [(1, 2), (5, 2), (8, 1), (10, 1), (14, 1)])), (3, (1, [(4, 1), (5, 1), (10, 1)])), (4, (2, [(3, 2), (4, 1), (5, 2), (6, 1), (10, 1), (14, 1)]))] 0 (1, [(4, 1), (5, 2), (6, 1), (8, 1), (10, 1), (14, 1)]),
    .no [(0, (1, [(5, 1), (7, 1), (10, 1)])), (1, (1, [(4, 1), (7, 1), (10, 1)])), (2, (1, [(1, 2), (4, 1), (5, 2), (7, 2), (8, 1), (12, 2)])), (3, (1, [(4, 1), (5, 1), (10, 1)])), (4, (1, [(3, 1), (4, 1), (5, 1), (7, 1), (12, 1)]))] 0 (1, [(4, 2), (5, 2), (7, 2), (8, 1), (12, 2)]),
    .node [
      .no [(0, (1, [(5, 1), (7, 1), (10, 1)])), (1, (1, [(4, 1), (7, 1), (10, 1)])), (2, (1, [(1, 1), (5, 1), (7, 2), (10, 2), (12, 1), (15, 1)])), (3, (1, [(4, 1), (5, 1), (10, 1)])), (4, (1, [(7, 1), (12, 2)]))] 0 (1, [(5, 1), (6, 1), (7, 3), (10, 3), (12, 2), (15, 2)]),
      .no [(0, (1, [(5, 1), (7, 1), (10, 1)])), (1, (1, [(4, 1), (7, 1), (10, 1)])), (2, (3, [(1, 4), (5, 3), (7, 4), (10, 3), (12, 2), (15, 2)])), (3, (1, [(4, 1), (5, 1), (10, 1)])), (4, (1, [(7, 1), (12, 2)]))] 0 (2, [(5, 1), (6, 1), (7, 2), (10, 1), (12, 2), (15, 2)]),
      .no [(0, (1, [(5, 1), (7, 1), (10, 1)])), (1, (1, [(4, 1), (7, 1), (10, 1)])), (2, (2, [(1, 3), (5, 2), (7, 2), (10, 1), (12, 1), (15, 1)])), (3, (1, [(4, 1), (5, 1), (10, 1)])), (4, (1, [(7, 1), (12, 2)]))] 0 (2, [(3, 2), (4, 1), (5, 2), (6, 1), (7, 1), (15, 2)]),
      .no [(0, (1, [(5, 1), (7, 1), (10, 1)])), (1, (1, [(4, 1), (7, 1), (10, 1)])), (2, (1, [(1, 2), (5, 1), (7, 2), (10, 3), (15, 2)])), (3, (1, [(4, 1), (5, 1), (10, 1)])), (4, (1, [(7, 1), (12, 2)]))] 0 (1, [(7, 1), (10, 2), (15, 2)]),
      .no [(0, (1, [(5, 1), (7, 1), (10, 1)])), (1, (1, [(4, 1), (7, 1), (10, 1)])), (2, (1, [(1, 2), (5, 1), (7, 1), (10, 1), (15, 1)])), (3, (1, [(4, 1), (5, 1), (10, 1)])), (4, (1, [(7, 1), (12, 2)]))] 0 (1, [(15, 1)]),
      .no [(0, (1, [(5, 1), (7, 1), (10, 1)])), (1, (1, [(4, 1), (7, 1), (10, 1)])), (2, (3, [(1, 6), (5, 3), (7, 2), (10, 1), (15, 2)])), (3, (1, [(4, 1), (5, 1), (10, 1)])), (4, (1, [(7, 1), (12, 2)]))] 0 (3, [(4, 2), (5, 2), (7, 1), (15, 2)]),
      .no [(0, (1, [(5, 1), (7, 1), (10, 1)])), (1, (1, [(4, 1), (7, 1), (10, 1)])), (2, (2, [(1, 6), (5, 2), (7, 1), (8, 1), (10, 2), (17, 2)])), (3, (1, [(4, 1), (5, 1), (10, 1)])), (4, (1, [(7, 1), (12, 2)]))] 0 (2, [(1, 2), (4, 1), (5, 1), (8, 1), (10, 1), (17, 2)]),
      .no [(0, (1, [(5, 1), (7, 1), (10, 1)])), (1, (1, [(4, 1), (7, 1), (10, 1)])), (2, (1, [(1, 4), (5, 1), (7, 1), (8, 1), (10, 1), (15, 2)])), (3, (1, [(4, 1), (5, 1), (10, 1)])), (4, (1, [(7, 1), (12, 2)]))] 0 (1, [(1, 2), (8, 1), (15, 2)]),
      .no [(0, (1, [(5, 1), (7, 1), (10, 1)])), (1, (1, [(4, 1), (7, 1), (10, 1)])), (2, (2, [(1, 6), (5, 2), (7, 1), (8, 1), (15, 2)])), (3, (1, [(4, 1), (5, 1), (10, 1)])), (4, (1, [(7, 1), (12, 2)]))] 0 (2, [(1, 2), (4, 2), (5, 2), (7, 1), (8, 1), (15, 2)]),
      .no [(0, (1, [(5, 1), (7, 1), (10, 1)])), (1, (1, [(4, 1), (7, 1), (10, 1)])), (2, (1, [(5, 1), (7, 2), (10, 3), (12, 2), (15, 2)])), (3, (1, [(4, 1), (5, 1), (10, 1)])), (4, (1, [(7, 1), (12, 2)]))] 0 (1, [(1, 1), (12, 1), (17, 1)]),
      .no [(0, (1, [(5, 1), (7, 1), (10, 1)])), (1, (1, [(4, 1), (7, 1), (10, 1)])), (2, (1, [(1, 1), (5, 1), (7, 1), (10, 1), (12, 1), (15, 1)])), (3, (1, [(4, 1), (5, 1), (10, 1)])), (4, (1, [(7, 1), (12, 2)]))] 0 (1, [(5, 1), (6, 1), (7, 1), (10, 1), (12, 2), (15, 2)]),
      .no [(0, (1, [(5, 1), (7, 1), (10, 1)])), (1, (1, [(4, 1), (7, 1), (10, 1)])), (2, (3, [(1, 4), (5, 3), (7, 2), (10, 1), (12, 2), (15, 2)])), (3, (1, [(4, 1), (5, 1), (10, 1)])), (4, (1, [(7, 1), (12, 2)]))] 0 (1, [(3, 2), (4, 1), (5, 2), (6, 1), (15, 2)]),
      .no [(0, (1, [(5, 1), (7, 1), (10, 1)])), (1, (1, [(4, 1), (7, 1), (10, 1)])), (2, (1, [(1, 4), (5, 1), (10, 1), (17, 2)])), (3, (1, [(4, 1), (5, 1), (10, 1)])), (4, (1, [(7, 1), (12, 2)]))] 0 (1, [(1, 2), (4, 1), (5, 1), (10, 1), (17, 2)]),
      .no [(0, (1, [(5, 1), (7, 1), (10, 1)])), (1, (1, [(4, 1), (7, 1), (10, 1)])), (2, (1, [(1, 2), (5, 1), (10, 1), (15, 2)])), (3, (1, [(4, 1), (5, 1), (10, 1)])), (4, (1, [(7, 1), (12, 2)]))] 0 (1, [(4, 1), (5, 1), (10, 1), (15, 2)]),
      .no [(0, (1, [(5, 1), (7, 1), (10, 1)])), (1, (1, [(4, 1), (7, 1), (10, 1)])), (2, (1, [(1, 2), (5, 1), (15, 1)])), (3, (1, [(4, 1), (5, 1), (10, 1)])), (4, (1, [(7, 1), (12, 2)]))] 0 (1, [(4, 1), (5, 1), (15, 1)]),
      .no [(0, (1, [(5, 1), (7, 1), (10, 1)])), (1, (1, [(4, 1), (7, 1), (10, 1)])), (2, (1, [(4, 1), (5, 2), (7, 3), (12, 2), (16, 2)])), (3, (1, [(4, 1), (5, 1), (10, 1)])), (4, (1, [(7, 1), (12, 2)]))] 0 (1, [(4, 2), (5, 2), (7, 1), (16, 2), (17, 2)]),
      .no [(0, (1, [(5, 1), (7, 1), (10, 1)])), (1, (1, [(4, 1), (7, 1), (10, 1)])), (2, (1, [(5, 1), (7, 2), (10, 1), (12, 2), (18, 2)])), (3, (1, [(4, 1), (5, 1), (10, 1)])), (4, (1, [(7, 1), (12, 2)]))] 0 (1, [(4, 1), (5, 1), (10, 1), (15, 2), (18, 2)]),
      .no [(0, (1, [(5, 1), (7, 1), (10, 1)])), (1, (1, [(4, 1), (7, 1), (10, 1)])), (2, (1, [(1, 4), (4, 1), (5, 2), (8, 1), (15, 2)])), (3, (1, [(4, 1), (5, 1), (10, 1)])), (4, (1, [(7, 1), (12, 2)]))] 0 (1, [(1, 2), (4, 2), (5, 2), (8, 1), (15, 2)]),
      .no [(0, (1, [(5, 1), (7, 1), (10, 1)])), (1, (1, [(4, 1), (7, 1), (10, 1)])), (3, (1, [(4, 1), (5, 1), (10, 1)])), (4, (1, [(7, 1), (12, 2)])), (2, (1, [(4, 1), (5, 2), (7, 3), (16, 2), (23, 2)]))] 0 (1, [(4, 4), (5, 4), (7, 6), (8, 1), (16, 4), (23, 2)]),
      .yes [(0, (1, [(5, 1), (7, 1), (10, 1)])), (1, (1, [(4, 1), (7, 1), (10, 1)])), (2, (1, [(5, 1), (10, 1), (12, 2), (15, 2)])), (3, (1, [(4, 1), (5, 1), (10, 1)])), (4, (1, [(7, 1), (12, 2)]))] 1 [((1, [(5, 1), (7, 1), (10, 1)]), (1, [(4, 1)])), ((1, [(4, 1), (7, 1), (10, 1)]), (1, [(5, 1)])), ((1, [(4, 1), (5, 1), (10, 1), (12, 2), (15, 2)]), (1, [(5, 1), (6, 1), (7, 1), (10, 1)])), ((1, [(4, 1), (5, 1), (10, 1)]), (1, [(7, 1)])), ((1, [(7, 1), (12, 2)]), (1, [(8, 1)]))],
      .no [(0, (1, [(5, 1), (7, 1), (10, 1)])), (1, (1, [(4, 1), (7, 1), (10, 1)])), (2, (1, [(1, 1), (5, 1), (12, 1), (15, 1)])), (3, (1, [(4, 1), (5, 1), (10, 1)])), (4, (1, [(7, 1), (12, 2)]))] 0 (1, [(4, 1), (5, 2), (6, 1), (12, 2), (15, 2)]),
      .no [(0, (1, [(5, 1), (7, 1), (10, 1)])), (1, (1, [(4, 1), (7, 1), (10, 1)])), (2, (1, [(1, 2), (4, 1), (5, 2), (7, 3), (16, 2)])), (3, (1, [(4, 1), (5, 1), (10, 1)])), (4, (1, [(7, 1), (12, 2)]))] 0 (1, [(4, 2), (5, 2), (7, 3), (16, 2)]),
      .no [(0, (1, [(5, 1), (7, 1), (10, 1)])), (1, (1, [(4, 1), (7, 1), (10, 1)])), (2, (1, [(1, 1), (5, 1), (7, 1), (10, 1), (18, 1)])), (3, (1, [(4, 1), (5, 1), (10, 1)])), (4, (1, [(7, 1), (12, 2)]))] 0 (1, [(5, 1), (6, 1), (7, 1), (10, 1), (18, 2)]),
      .no [(0, (1, [(5, 1), (7, 1), (10, 1)])), (1, (1, [(4, 1), (7, 1), (10, 1)])), (2, (1, [(1, 2), (4, 2), (5, 3), (10, 1), (15, 2)])), (3, (1, [(4, 1), (5, 1), (10, 1)])), (4, (1, [(7, 1), (12, 2)]))] 0 (1, [(4, 3), (5, 3), (10, 1), (15, 2)]),
      .no [(0, (1, [(5, 1), (7, 1), (10, 1)])), (1, (1, [(4, 1), (7, 1), (10, 1)])), (2, (1, [(1, 1), (5, 1), (7, 2), (12, 1), (16, 1)])), (3, (1, [(4, 1), (5, 1), (10, 1)])), (4, (1, [(7, 1), (12, 2)]))] 0 (1, [(4, 1), (5, 2), (6, 1), (7, 4), (12, 2), (16, 2)]),
      .no [(0, (1, [(5, 1), (7, 1), (10, 1)])), (1, (1, [(4, 1), (7, 1), (10, 1)])), (2, (1, [(5, 1), (7, 4), (10, 1), (12, 2), (16, 2)])), (3, (1, [(4, 1), (5, 1), (10, 1)])), (4, (1, [(7, 1), (12, 2)]))] 0 (2, [(5, 1), (6, 1), (7, 2), (10, 1), (12, 2), (18, 2)]),
      .no [(0, (1, [(5, 1), (7, 1), (10, 1)])), (1, (1, [(4, 1), (7, 1), (10, 1)])), (2, (2, [(1, 3), (5, 2), (7, 2), (10, 2), (12, 1), (18, 1)])), (3, (1, [(4, 1), (5, 1), (10, 1)])), (4, (1, [(7, 1), (12, 2)]))] 0 (2, [(3, 2), (5, 1), (6, 1), (10, 1), (18, 2)])],
    .no [(0, (1, [(5, 1), (7, 1), (10, 1)])), (1, (1, [(4, 1), (7, 1), (10, 1)])), (2, (2, [(1, 4), (5, 3), (7, 1), (10, 2), (14, 1)])), (3, (1, [(4, 1), (5, 1), (10, 1)])), (4, (2, [(3, 4), (4, 1), (5, 2), (10, 1), (14, 1)]))] 0 (2, [(4, 1), (5, 2), (10, 1), (14, 1)]),
    .no [(0, (1, [(5, 1), (7, 1), (10, 1)])), (1, (1, [(4, 1), (7, 1), (10, 1)])), (2, (1, [(1, 1), (5, 1), (7, 1), (12, 1)])), (3, (1, [(4, 1), (5, 1), (10, 1)])), (4, (1, [(3, 2), (4, 1), (5, 2), (6, 1), (7, 2), (12, 2)]))] 0 (1, [(4, 1), (5, 2), (6, 1), (7, 2), (12, 2)]),
    .no [(0, (1, [(5, 1), (7, 1), (10, 1)])), (1, (1, [(4, 1), (7, 1), (10, 1)])), (2, (1, [(5, 1), (7, 2), (10, 1), (12, 2)])), (3, (1, [(4, 1), (5, 1), (10, 1)])), (4, (1, [(3, 4), (14, 1)]))] 0 (1, [(3, 2), (14, 1)]),
    .no [(0, (1, [(5, 1), (7, 1), (10, 1)])), (1, (1, [(4, 1), (7, 1), (10, 1)])), (2, (3, [(1, 8), (3, 2), (5, 3), (7, 1), (10, 2), (14, 1)])), (3, (1, [(4, 1), (5, 1), (10, 1)])), (4, (3, [(1, 2), (3, 8), (4, 2), (5, 2), (10, 1), (14, 1)]))] 0 (3, [(1, 2), (3, 2), (4, 2), (5, 2), (10, 1), (14, 1)])]

theorem treeI_8_ok : treeI_8.check true (1, 0, -1) = true := by decide +kernel

/-- All symmetries with first column `(1, 0, 0)`. -/
def treeI_9 : Tree1 :=
  .node [
    .no [(0, (1, [(0, 2), (1, 2), (2, 2), (3, 2), (5, 1), (14, 1)])), (1, (1, [(0, 2), (1, 2), (2, 2), (3, 2), (4, 1), (14, 1)])), (2, (1, [(0, 1), (1, 4), (2, 2), (3, 2), (5, 1), (14, 1)])), (3, (1, [(2, 3), (3, 2), (11, 1)])), (4, (1, [(2, 1), (3, 4), (11, 1)]))] 0 (1, [(2, 1), (3, 2), (11, 1)]),
    .no [(3, (1, [(2, 2), (3, 2), (11, 1)])), (4, (1, [(3, 4), (11, 1)]))] 0 (1, [(3, 2), (11, 1)]),
    .no [(1, (1, [(3, 2), (6, 1), (7, 1), (14, 1)])), (2, (1, [(3, 2), (5, 1), (7, 1), (14, 1)])), (3, (1, [(2, 1), (3, 2), (11, 1)])), (4, (1, [(3, 6), (7, 1), (11, 2)]))] 0 (1, [(3, 4), (7, 1), (11, 2)]),
    .no [(1, (1, [(0, 1), (2, 2), (14, 1)])), (3, (1, [(2, 3), (3, 1), (11, 1)])), (4, (1, [(2, 1), (3, 3), (11, 1)]))] 0 (1, [(2, 1), (3, 1), (11, 1)]),
    .no [(0, (1, [(13, 1)])), (2, (1, [(1, 2), (3, 1), (11, 1), (13, 1)])), (3, (1, [(2, 2), (3, 1), (11, 1)])), (4, (1, [(3, 3), (11, 1)]))] 0 (1, [(3, 1), (11, 1)]),
    .no [(1, (1, [(7, 1), (14, 1)])), (3, (1, [(2, 1), (3, 1), (11, 1)])), (4, (1, [(3, 4), (7, 1), (11, 2)]))] 0 (1, [(3, 2), (7, 1), (11, 2)]),
    .no [(1, (1, [(2, 2), (6, 1), (8, 1), (14, 1)])), (2, (1, [(2, 2), (5, 1), (8, 1), (14, 1)])), (3, (1, [(2, 3), (11, 1)])), (4, (1, [(2, 1), (3, 2), (11, 1)]))] 0 (1, [(2, 1), (11, 1)]),
    .no [(3, (1, [(2, 2), (11, 1)])), (4, (1, [(3, 2), (11, 1)]))] 0 (1, [(11, 1)]),
    .no [(0, (1, [(1, 2), (5, 1), (7, 1), (8, 1), (14, 1)])), (1, (1, [(1, 2), (4, 1), (7, 1), (8, 1), (14, 1)])), (2, (1, [(1, 4), (5, 1), (7, 2), (8, 1), (11, 2), (14, 1)])), (3, (1, [(2, 1), (11, 1)])), (4, (1, [(3, 2), (7, 1), (11, 2)]))] 0 (1, [(7, 1), (11, 2)]),
    .no [(0, (1, [(0, 1), (1, 2), (5, 1), (14, 1)])), (1, (1, [(0, 1), (1, 2), (4, 1), (14, 1)])), (2, (1, [(1, 4), (5, 1), (14, 1)])), (3, (1, [(1, 2), (2, 2), (4, 1), (5, 1), (14, 1)])), (4, (1, [(1, 2), (3, 2), (4, 1), (5, 1), (14, 1)]))] 0 (1, [(1, 2), (4, 1), (5, 1), (14, 1)]),
    .no [] 3 (2, [(11, 1)]),
    .no [(1, (1, [(6, 1), (14, 1)])), (2, (1, [(5, 1), (14, 1)]))] 2 (1, [(11, 1), (15, 2)]),
    .no [(1, (1, [(14, 1)]))] 2 (1, [(3, 1), (11, 1)]),
    .no [(0, (1, [(0, 1), (13, 1)])), (2, (1, [(1, 2), (13, 1)])), (3, (1, [(2, 2), (4, 1), (13, 1)])), (4, (1, [(3, 2), (4, 1), (13, 1)]))] 0 (1, [(4, 1), (13, 1)]),
    .node [
      .no [(0, (1, [(0, 1), (1, 2), (2, 1), (5, 1), (17, 1)])), (1, (1, [(14, 1)])), (2, (1, [(1, 4), (2, 1), (5, 1), (17, 1)])), (3, (1, [(2, 4), (3, 1), (15, 1)])), (4, (1, [(2, 2), (3, 3), (15, 1)]))] 0 (1, [(2, 2), (3, 1), (15, 1)]),
      .no [(1, (1, [(14, 1)])), (3, (1, [(2, 3), (3, 1), (15, 1)])), (4, (1, [(2, 1), (3, 3), (15, 1)]))] 0 (1, [(2, 1), (3, 1), (15, 1)]),
      .no [(1, (1, [(14, 1)])), (2, (3, [(5, 3), (7, 1), (12, 1), (15, 1), (18, 3)])), (3, (1, [(2, 2), (3, 1), (15, 1)])), (4, (1, [(3, 3), (15, 1)]))] 0 (1, [(3, 1), (15, 1)]),
      .no [(0, (1, [(0, 1), (1, 1), (2, 1), (5, 1), (17, 1)])), (1, (1, [(14, 1)])), (2, (1, [(1, 3), (2, 1), (5, 1), (17, 1)])), (3, (1, [(2, 4), (15, 1)])), (4, (1, [(2, 2), (3, 2), (15, 1)]))] 0 (1, [(2, 2), (15, 1)]),
      .no [(0, (1, [(5, 1), (19, 1)])), (1, (1, [(14, 1)])), (2, (1, [(1, 2), (2, 1), (5, 1), (15, 1), (19, 1)])), (3, (1, [(2, 3), (15, 1)])), (4, (1, [(2, 1), (3, 2), (15, 1)]))] 0 (1, [(2, 1), (15, 1)]),
      .no [(0, (1, [(5, 2), (6, 1), (7, 1), (18, 2)])), (1, (1, [(14, 1)])), (2, (1, [(4, 1), (5, 2), (7, 1), (18, 2)])), (3, (1, [(2, 2), (15, 1)])), (4, (1, [(3, 2), (15, 1)]))] 0 (1, [(15, 1)]),
      .no [(0, (1, [(0, 1), (2, 1), (5, 1), (17, 1)])), (1, (1, [(14, 1)])), (2, (1, [(1, 2), (2, 1), (5, 1), (17, 1)])), (3, (1, [(2, 6), (8, 1), (15, 2)])), (4, (1, [(2, 2), (3, 1), (15, 1)]))] 0 (1, [(2, 4), (8, 1), (15, 2)]),
      .no [(1, (1, [(14, 1)])), (3, (1, [(2, 4), (8, 1), (15, 2)])), (4, (1, [(2, 1), (3, 1), (15, 1)]))] 0 (1, [(2, 2), (8, 1), (15, 2)]),
      .no [(0, (2, [(0, 1), (5, 2), (7, 1), (18, 2)])), (1, (1, [(14, 1)])), (2, (1, [(1, 2), (4, 1), (5, 2), (7, 1), (18, 2)])), (3, (1, [(2, 2), (8, 1), (15, 2)])), (4, (1, [(3, 1), (15, 1)]))] 0 (1, [(8, 1), (15, 2)]),
      .no [(0, (1, [(0, 1), (1, 2), (5, 1), (17, 1)])), (1, (1, [(14, 1)])), (2, (1, [(1, 4), (5, 1), (17, 1)])), (3, (1, [(1, 2), (2, 2), (4, 1), (5, 1), (17, 1)])), (4, (1, [(1, 2), (3, 2), (4, 1), (5, 1), (17, 1)]))] 0 (1, [(1, 2), (4, 1), (5, 1), (17, 1)]),
      .no [(1, (1, [(14, 1)]))] 1 (2, [(17, 1)]),
      .no [(1, (1, [(14, 1)])), (2, (1, [(5, 1), (18, 1)]))] 2 (1, [(12, 1), (15, 1)]),
      .no [(0, (1, [(0, 1), (1, 1), (5, 1), (17, 1)])), (1, (1, [(14, 1)])), (2, (1, [(1, 3), (5, 1), (17, 1)])), (3, (1, [(1, 1), (2, 2), (4, 1), (5, 1), (17, 1)])), (4, (1, [(1, 1), (3, 2), (4, 1), (5, 1), (17, 1)]))] 0 (1, [(1, 1), (4, 1), (5, 1), (17, 1)]),
      .no [(0, (1, [(0, 1), (5, 1), (19, 1)])), (1, (1, [(14, 1)])), (2, (1, [(1, 2), (5, 1), (19, 1)])), (3, (1, [(2, 2), (4, 1), (5, 1), (19, 1)])), (4, (1, [(3, 2), (4, 1), (5, 1), (19, 1)]))] 0 (1, [(4, 1), (5, 1), (19, 1)]),
      .no [(0, (1, [(0, 1), (5, 2), (6, 1), (18, 2)])), (1, (1, [(14, 1)])), (2, (1, [(1, 1), (5, 1), (18, 1)])), (3, (1, [(2, 2), (4, 1), (5, 2), (6, 1), (18, 2)])), (4, (1, [(3, 2), (4, 1), (5, 2), (6, 1), (18, 2)]))] 0 (1, [(4, 1), (5, 2), (6, 1), (18, 2)]),
      .no [(0, (1, [(0, 1), (5, 1), (17, 1)])), (1, (1, [(14, 1)])), (2, (1, [(1, 2), (5, 1), (17, 1)])), (3, (1, [(2, 2), (4, 1), (5, 1), (17, 1)])), (4, (1, [(3, 2), (4, 1), (5, 1), (17, 1)]))] 0 (1, [(4, 1), (5, 1), (17, 1)]),
      .yes [(1, (1, [(14, 1)]))] 20 [((1, [(14, 1)]), (1, [(5, 1)])), ((1, [(12, 1)]), (1, [(11, 1)]))],
      .no [(0, (1, [(0, 1), (5, 1), (18, 1)])), (1, (1, [(14, 1)])), (2, (1, [(1, 2), (5, 1), (18, 1)])), (3, (1, [(2, 2), (4, 1), (5, 1), (18, 1)])), (4, (1, [(3, 2), (4, 1), (5, 1), (18, 1)]))] 0 (1, [(4, 1), (5, 1), (18, 1)]),
      .no [(0, (2, [(0, 1), (1, 4), (5, 2), (7, 1), (17, 2)])), (1, (1, [(14, 1)])), (2, (1, [(1, 6), (4, 1), (5, 2), (7, 1), (17, 2)])), (3, (2, [(1, 2), (4, 1), (5, 1), (11, 1), (16, 1), (17, 1)])), (4, (2, [(1, 2), (4, 1), (5, 1), (12, 3), (16, 1), (17, 1)]))] 0 (1, [(1, 4), (4, 2), (5, 2), (7, 1), (17, 2)]),
      .yes [(1, (1, [(14, 1)])), (3, (1, [(8, 1), (16, 2)])), (4, (1, [(7, 1), (16, 2)]))] 18 [((1, [(14, 1)]), (1, [(5, 1)])), ((1, [(8, 1), (16, 2), (18, 2)]), (1, [(7, 1), (17, 2)])), ((1, [(8, 1), (16, 2)]), (1, [(7, 1)])), ((1, [(7, 1), (16, 2)]), (1, [(8, 1)]))],
      .no [(1, (1, [(14, 1)])), (2, (1, [(2, 1), (5, 1), (18, 1)])), (3, (1, [(2, 2), (8, 1), (16, 2)])), (4, (1, [(3, 1), (16, 1)]))] 0 (1, [(8, 1), (16, 2)]),
      .no [(0, (2, [(0, 1), (1, 2), (5, 2), (7, 1), (17, 2)])), (1, (1, [(14, 1)])), (2, (1, [(1, 4), (4, 1), (5, 2), (7, 1), (17, 2)])), (3, (1, [(16, 1)])), (4, (1, [(12, 2), (16, 1)]))] 0 (1, [(1, 2), (4, 2), (5, 2), (7, 1), (17, 2)]),
      .no [(0, (1, [(5, 1), (19, 1)])), (1, (1, [(14, 1)])), (2, (1, [(1, 2), (5, 1), (7, 1), (16, 2), (19, 1)])), (3, (1, [(2, 1), (16, 1)])), (4, (1, [(3, 2), (7, 1), (16, 2)]))] 0 (1, [(7, 1), (16, 2)]),
      .no [(0, (1, [(0, 1), (2, 2), (5, 2), (6, 1), (18, 2)])), (1, (1, [(14, 1)])), (2, (1, [(1, 1), (2, 1), (5, 1), (18, 1)])), (3, (1, [(2, 2), (16, 1)])), (4, (1, [(3, 2), (16, 1)]))] 0 (1, [(16, 1)]),
      .no [(0, (2, [(0, 1), (5, 2), (7, 1), (17, 2)])), (1, (1, [(14, 1)])), (2, (1, [(1, 2), (4, 1), (5, 2), (7, 1), (17, 2)])), (3, (1, [(3, 1), (16, 1)])), (4, (1, [(3, 1), (12, 2), (16, 1)]))] 0 (1, [(7, 1), (12, 2), (16, 2)]),
      .no [(1, (1, [(14, 1)])), (3, (1, [(2, 1), (3, 1), (16, 1)])), (4, (1, [(3, 4), (7, 1), (16, 2)]))] 0 (1, [(3, 2), (7, 1), (16, 2)]),
      .no [(0, (1, [(0, 1), (2, 1), (5, 1), (18, 1)])), (1, (1, [(14, 1)])), (2, (1, [(1, 2), (2, 1), (5, 1), (18, 1)])), (3, (1, [(2, 2), (3, 1), (16, 1)])), (4, (1, [(3, 3), (16, 1)]))] 0 (1, [(3, 1), (16, 1)])],
    .no [(1, (1, [(6, 1), (14, 1)])), (2, (1, [(5, 1), (14, 1)]))] 2 (1, [(11, 1)]),
    .node [
      .no [(0, (1, [(0, 1), (1, 2), (3, 1), (17, 1)])), (2, (1, [(1, 4), (3, 1), (17, 1)])), (3, (1, [(2, 4), (3, 1), (15, 1)])), (4, (1, [(2, 2), (3, 3), (15, 1)]))] 0 (1, [(2, 2), (3, 1), (15, 1)]),
      .no [(0, (1, [(0, 1), (1, 1), (3, 1), (17, 1)])), (1, (3, [(2, 4), (8, 1), (15, 4), (19, 3)])), (2, (1, [(1, 3), (3, 1), (17, 1)])), (3, (1, [(2, 3), (3, 1), (15, 1)])), (4, (1, [(2, 1), (3, 3), (15, 1)]))] 0 (1, [(2, 1), (3, 1), (15, 1)]),
      .no [(0, (1, [(0, 1), (3, 1), (17, 1)])), (2, (1, [(1, 2), (3, 1), (17, 1)])), (3, (1, [(2, 2), (3, 1), (15, 1)])), (4, (1, [(3, 3), (15, 1)]))] 0 (1, [(3, 1), (15, 1)]),
      .no [(3, (1, [(2, 4), (15, 1)])), (4, (1, [(2, 2), (3, 2), (15, 1)]))] 0 (1, [(2, 2), (15, 1)]),
      .no [(0, (1, [(5, 1), (19, 1)])), (1, (1, [(4, 1), (19, 1)])), (2, (1, [(1, 2), (2, 1), (5, 1), (15, 1), (19, 1)])), (3, (1, [(2, 3), (15, 1)])), (4, (1, [(2, 1), (3, 2), (15, 1)]))] 0 (1, [(2, 1), (15, 1)]),
      .no [(3, (1, [(2, 2), (15, 1)])), (4, (1, [(3, 2), (15, 1)]))] 0 (1, [(15, 1)]),
      .no [(2, (1, [(2, 2), (8, 1), (15, 1), (18, 1)])), (3, (1, [(2, 6), (8, 1), (15, 2)])), (4, (1, [(2, 2), (3, 1), (15, 1)]))] 0 (1, [(2, 4), (8, 1), (15, 2)]),
      .no [(0, (1, [(6, 1), (8, 1), (18, 2)])), (1, (1, [(2, 1), (3, 1), (15, 1), (19, 1)])), (2, (1, [(4, 1), (8, 1), (18, 2)])), (3, (1, [(2, 4), (8, 1), (15, 2)])), (4, (1, [(2, 1), (3, 1), (15, 1)]))] 0 (1, [(2, 2), (8, 1), (15, 2)]),
      .no [(0, (2, [(0, 1), (8, 1), (18, 2)])), (2, (1, [(1, 2), (4, 1), (8, 1), (18, 2)])), (3, (1, [(2, 2), (8, 1), (15, 2)])), (4, (1, [(3, 1), (15, 1)]))] 0 (1, [(8, 1), (15, 2)]),
      .no [(0, (1, [(0, 1), (1, 2), (17, 1)])), (2, (1, [(1, 4), (17, 1)])), (3, (1, [(1, 2), (2, 2), (4, 1), (17, 1)])), (4, (1, [(1, 2), (3, 2), (4, 1), (17, 1)]))] 0 (1, [(1, 2), (4, 1), (17, 1)]),
      .no [(0, (1, [(0, 1), (1, 1), (17, 1)])), (1, (1, [(19, 1)])), (2, (1, [(1, 3), (17, 1)])), (3, (1, [(1, 1), (2, 2), (4, 1), (17, 1)])), (4, (1, [(1, 1), (3, 2), (4, 1), (17, 1)]))] 0 (1, [(1, 1), (4, 1), (17, 1)]),
      .no [(0, (1, [(0, 1), (17, 1)])), (2, (1, [(1, 2), (17, 1)])), (3, (1, [(2, 2), (4, 1), (17, 1)])), (4, (1, [(3, 2), (4, 1), (17, 1)]))] 0 (1, [(4, 1), (17, 1)]),
      .no [] 1 (2, [(17, 1)]),
      .no [(0, (1, [(0, 1), (5, 1), (19, 1)])), (1, (1, [(0, 1), (4, 1), (19, 1)])), (2, (1, [(1, 2), (5, 1), (19, 1)])), (3, (1, [(2, 2), (4, 1), (5, 1), (19, 1)])), (4, (1, [(3, 2), (4, 1), (5, 1), (19, 1)]))] 0 (1, [(4, 1), (5, 1), (19, 1)]),
      .yes [] 31 [],
      .yes [(2, (1, [(18, 1)]))] 30 [((1, [(18, 1)]), (1, [(6, 1)])), ((1, [(15, 1)]), (1, [(16, 1)]))],
      .no [(0, (1, [(0, 1), (6, 1), (18, 2)])), (1, (1, [(19, 1)])), (2, (1, [(1, 1), (18, 1)])), (3, (1, [(2, 2), (4, 1), (6, 1), (18, 2)])), (4, (1, [(3, 2), (4, 1), (6, 1), (18, 2)]))] 0 (1, [(4, 1), (6, 1), (18, 2)]),
      .no [(0, (1, [(0, 1), (18, 1)])), (2, (1, [(1, 2), (18, 1)])), (3, (1, [(2, 2), (4, 1), (18, 1)])), (4, (1, [(3, 2), (4, 1), (18, 1)]))] 0 (1, [(4, 1), (18, 1)]),
      .no [(0, (2, [(0, 1), (1, 4), (8, 1), (17, 2)])), (2, (1, [(1, 6), (4, 1), (8, 1), (17, 2)])), (3, (1, [(1, 2), (4, 1), (8, 1), (16, 1), (17, 1)])), (4, (1, [(1, 2), (3, 1), (4, 1), (17, 1)]))] 0 (1, [(1, 4), (4, 2), (8, 1), (17, 2)]),
      .no [(0, (2, [(0, 1), (1, 2), (8, 1), (17, 2)])), (1, (1, [(7, 1), (16, 2), (19, 1)])), (2, (1, [(1, 4), (4, 1), (8, 1), (17, 2)])), (3, (1, [(8, 1), (16, 2)])), (4, (1, [(7, 1), (16, 2)]))] 0 (1, [(1, 2), (4, 2), (8, 1), (17, 2)]),
      .no [(0, (2, [(0, 1), (8, 1), (17, 2)])), (2, (1, [(1, 2), (4, 1), (8, 1), (17, 2)])), (3, (1, [(2, 2), (8, 1), (16, 2)])), (4, (1, [(3, 1), (16, 1)]))] 0 (1, [(8, 1), (16, 2)]),
      .yes [(3, (1, [(16, 1)]))] 28 [((1, [(16, 1)]), (1, [(7, 1)])), ((1, [(17, 1)]), (1, [(18, 1)]))],
      .no [(0, (1, [(5, 1), (19, 1)])), (1, (1, [(4, 1), (19, 1)])), (2, (1, [(1, 2), (5, 1), (7, 1), (16, 2), (19, 1)])), (3, (1, [(2, 1), (16, 1)])), (4, (1, [(3, 2), (7, 1), (16, 2)]))] 0 (1, [(7, 1), (16, 2)]),
      .no [(3, (1, [(2, 2), (16, 1)])), (4, (1, [(3, 2), (16, 1)]))] 0 (1, [(16, 1)]),
      .no [(2, (1, [(3, 1), (18, 1)])), (3, (1, [(3, 1), (16, 1)]))] 3 (1, [(7, 1), (16, 1)]),
      .no [(0, (1, [(0, 1), (3, 2), (6, 1), (18, 2)])), (1, (1, [(7, 1), (16, 2), (19, 1)])), (2, (1, [(1, 1), (3, 1), (18, 1)])), (3, (1, [(2, 1), (3, 1), (16, 1)])), (4, (1, [(3, 4), (7, 1), (16, 2)]))] 0 (1, [(3, 2), (7, 1), (16, 2)]),
      .no [(0, (1, [(0, 1), (3, 1), (18, 1)])), (2, (1, [(1, 2), (3, 1), (18, 1)])), (3, (1, [(2, 2), (3, 1), (16, 1)])), (4, (1, [(3, 3), (16, 1)]))] 0 (1, [(3, 1), (16, 1)])],
    .no [(0, (1, [(0, 1), (1, 2), (5, 1), (14, 1)])), (1, (1, [(0, 1), (1, 2), (4, 1), (14, 1)])), (2, (1, [(1, 4), (5, 1), (14, 1)])), (3, (1, [(1, 2), (2, 2), (4, 1), (5, 1), (14, 1)])), (4, (1, [(1, 2), (3, 2), (4, 1), (5, 1), (14, 1)]))] 0 (1, [(1, 2), (4, 1), (5, 1), (14, 1)]),
    .no [(0, (1, [(1, 2), (5, 1), (7, 1), (8, 1), (14, 1)])), (1, (1, [(1, 2), (4, 1), (7, 1), (8, 1), (14, 1)])), (2, (1, [(1, 6), (4, 1), (5, 2), (7, 1), (11, 2), (14, 2)])), (3, (1, [(1, 2), (4, 1), (5, 1), (8, 1), (14, 1)])), (4, (1, [(1, 2), (4, 1), (5, 1), (7, 1), (14, 1)]))] 0 (1, [(1, 4), (4, 2), (5, 2), (7, 1), (11, 2), (14, 2)]),
    .node [
      .no [(0, (10, [(7, 3), (12, 1), (15, 2), (18, 10)])), (2, (3, [(1, 6), (2, 1), (12, 1), (15, 2), (18, 3)])), (3, (3, [(2, 10), (12, 1), (15, 2)])), (4, (1, [(12, 1)]))] 0 (3, [(2, 4), (12, 1), (15, 2)]),
      .no [(0, (3, [(2, 2), (6, 3), (12, 1), (15, 2), (18, 6)])), (1, (3, [(2, 4), (8, 1), (15, 4), (19, 3)])), (2, (3, [(1, 3), (2, 2), (12, 1), (15, 2), (18, 3)])), (3, (3, [(2, 8), (12, 1), (15, 2)])), (4, (1, [(12, 1)]))] 0 (3, [(2, 2), (12, 1), (15, 2)]),
      .no [(2, (3, [(2, 3), (12, 1), (15, 2), (18, 3)])), (3, (3, [(2, 6), (12, 1), (15, 2)])), (4, (1, [(12, 1)]))] 0 (3, [(12, 1), (15, 2)]),
      .no [(3, (1, [(2, 4), (15, 1)])), (4, (1, [(12, 1)]))] 0 (1, [(2, 2), (15, 1)]),
      .no [(0, (1, [(5, 1), (19, 1)])), (1, (1, [(4, 1), (19, 1)])), (2, (1, [(1, 2), (2, 1), (5, 1), (15, 1), (19, 1)])), (3, (1, [(2, 3), (15, 1)])), (4, (1, [(12, 1)]))] 0 (1, [(2, 1), (15, 1)]),
      .no [(3, (1, [(2, 2), (15, 1)])), (4, (1, [(12, 1)]))] 0 (1, [(15, 1)]),
      .no [(0, (1, [(0, 1), (2, 1), (8, 1), (17, 1)])), (2, (1, [(1, 2), (2, 1), (8, 1), (17, 1)])), (3, (1, [(2, 6), (8, 1), (15, 2)])), (4, (1, [(12, 1)]))] 0 (1, [(2, 4), (8, 1), (15, 2)]),
      .no [(0, (1, [(0, 1), (1, 1), (8, 1), (17, 1)])), (1, (1, [(12, 1), (19, 1)])), (2, (1, [(1, 3), (8, 1), (17, 1)])), (3, (1, [(2, 4), (8, 1), (15, 2)])), (4, (1, [(12, 1)]))] 0 (1, [(2, 2), (8, 1), (15, 2)]),
      .no [(0, (2, [(0, 1), (1, 4), (7, 1), (8, 2), (17, 2)])), (2, (1, [(1, 6), (4, 1), (7, 1), (8, 2), (17, 2)])), (3, (1, [(2, 2), (8, 1), (15, 2)])), (4, (1, [(12, 1)]))] 0 (1, [(8, 1), (15, 2)]),
      .no [(0, (2, [(7, 1), (8, 1), (18, 2)])), (2, (1, [(1, 2), (2, 1), (15, 1), (18, 1)])), (3, (1, [(2, 6), (12, 1), (15, 2)])), (4, (1, [(12, 1)]))] 0 (1, [(2, 4), (12, 1), (15, 2)]),
      .no [(0, (1, [(6, 1), (8, 1), (18, 2)])), (1, (1, [(19, 1)])), (2, (1, [(4, 1), (8, 1), (18, 2)])), (3, (1, [(2, 4), (12, 1), (15, 2)])), (4, (1, [(12, 1)]))] 0 (1, [(2, 2), (12, 1), (15, 2)]),
      .no [(2, (1, [(2, 1), (15, 1), (18, 1)])), (3, (1, [(2, 2), (12, 1), (15, 2)])), (4, (1, [(12, 1)]))] 0 (1, [(12, 1), (15, 2)]),
      .no [(4, (1, [(12, 1)]))] 2 (2, [(15, 1)]),
      .no [(0, (1, [(0, 1), (5, 1), (19, 1)])), (1, (1, [(0, 1), (4, 1), (19, 1)])), (2, (1, [(1, 2), (5, 1), (19, 1)])), (3, (1, [(2, 2), (4, 1), (5, 1), (19, 1)])), (4, (1, [(12, 1)]))] 0 (1, [(4, 1), (5, 1), (19, 1)]),
      .yes [(4, (1, [(12, 1)]))] 29 [((1, [(17, 1)]), (1, [(18, 1)])), ((1, [(12, 1)]), (1, [(8, 1)]))],
      .no [(0, (2, [(0, 1), (2, 2), (8, 1), (17, 2)])), (2, (1, [(1, 2), (2, 2), (4, 1), (8, 1), (17, 2)])), (3, (3, [(4, 2), (12, 1), (16, 4), (17, 2)])), (4, (1, [(12, 1)]))] 0 (1, [(4, 2), (7, 1), (16, 2), (17, 2)]),
      .no [(0, (2, [(0, 1), (1, 2), (8, 1), (17, 2)])), (1, (1, [(19, 1)])), (2, (1, [(1, 4), (4, 1), (8, 1), (17, 2)])), (3, (1, [(12, 1), (16, 2)])), (4, (1, [(12, 1)]))] 0 (1, [(1, 2), (4, 2), (7, 1), (16, 2), (17, 2)]),
      .no [(0, (2, [(1, 4), (7, 1), (8, 1), (17, 2)])), (2, (1, [(1, 6), (4, 1), (7, 1), (16, 2), (17, 2)])), (3, (1, [(2, 2), (12, 1), (16, 2)])), (4, (1, [(12, 1)]))] 0 (1, [(12, 1), (16, 2)]),
      .no [(0, (2, [(0, 1), (7, 1), (8, 2), (18, 2)])), (2, (1, [(1, 2), (4, 1), (7, 1), (8, 2), (18, 2)])), (3, (3, [(4, 2), (8, 3), (16, 2), (18, 2)])), (4, (1, [(12, 1)]))] 0 (1, [(4, 2), (7, 1), (8, 2), (18, 2)]),
      .no [(0, (1, [(0, 1), (6, 1), (8, 2), (18, 2)])), (1, (1, [(12, 1), (19, 1)])), (2, (1, [(1, 1), (8, 1), (18, 1)])), (3, (1, [(8, 1), (16, 2)])), (4, (1, [(12, 1)]))] 0 (1, [(4, 1), (6, 1), (8, 2), (18, 2)]),
      .no [(2, (1, [(2, 1), (8, 1), (18, 1)])), (3, (1, [(2, 2), (8, 1), (16, 2)])), (4, (1, [(12, 1)]))] 0 (1, [(8, 1), (16, 2)]),
      .yes [(3, (1, [(16, 1)])), (4, (1, [(12, 1)]))] 27 [((1, [(16, 1)]), (1, [(7, 1)])), ((1, [(12, 1)]), (1, [(8, 1)]))],
      .no [(0, (1, [(5, 1), (19, 1)])), (1, (1, [(4, 1), (19, 1)])), (2, (1, [(1, 2), (5, 1), (7, 1), (16, 2), (19, 1)])), (3, (1, [(2, 1), (16, 1)])), (4, (1, [(12, 1)]))] 0 (1, [(7, 1), (16, 2)]),
      .no [(3, (1, [(2, 2), (16, 1)])), (4, (1, [(12, 1)]))] 0 (1, [(16, 1)]),
      .no [(0, (1, [(2, 1), (17, 1)])), (2, (3, [(1, 6), (4, 1), (12, 1), (16, 2), (17, 4)])), (3, (3, [(2, 2), (12, 1), (16, 2)])), (4, (1, [(12, 1)]))] 0 (1, [(7, 2), (12, 1), (16, 2)]),
      .no [(0, (1, [(1, 1), (17, 1)])), (1, (1, [(7, 1), (16, 2), (19, 1)])), (2, (2, [(1, 6), (7, 1), (12, 1), (16, 2), (17, 2)])), (3, (3, [(2, 4), (12, 1), (16, 2)])), (4, (1, [(12, 1)]))] 0 (2, [(7, 1), (12, 1), (16, 2)]),
      .no [(0, (6, [(1, 12), (7, 3), (12, 1), (16, 2), (17, 6)])), (2, (2, [(1, 8), (7, 1), (12, 1), (16, 2), (17, 2)])), (3, (3, [(2, 6), (12, 1), (16, 2)])), (4, (1, [(12, 1)]))] 0 (3, [(12, 1), (16, 2)])],
    .no [(1, (1, [(2, 2), (6, 1), (8, 1), (14, 1)])), (2, (1, [(2, 2), (5, 1), (8, 1), (14, 1)])), (3, (1, [(5, 1), (6, 1), (14, 1), (16, 2)])), (4, (1, [(2, 1), (12, 1)]))] 0 (1, [(5, 2), (6, 2), (8, 1), (14, 2), (16, 2)]),
    .node [
      .no [(0, (5, [(5, 5), (8, 3), (12, 2), (15, 1), (18, 5)])), (1, (1, [(7, 1), (14, 1)])), (2, (1, [(1, 2), (2, 2), (5, 1), (15, 1), (18, 1)])), (3, (1, [(8, 1), (12, 2)])), (4, (1, [(7, 1), (12, 2)]))] 0 (2, [(2, 1), (12, 1), (15, 1)]),
      .no [(1, (1, [(7, 1), (14, 1)])), (3, (1, [(8, 1), (12, 2)])), (4, (1, [(7, 1), (12, 2)]))] 0 (2, [(12, 1), (15, 1)]),
      .no [(0, (1, [(0, 1), (3, 1), (5, 1), (7, 1), (17, 1)])), (1, (1, [(7, 1), (14, 1)])), (2, (1, [(1, 2), (3, 1), (5, 1), (7, 1), (17, 1)])), (3, (1, [(8, 1), (12, 2)])), (4, (1, [(7, 1), (12, 2)]))] 0 (3, [(7, 1), (12, 2), (15, 2)]),
      .no [(0, (1, [(2, 2), (5, 2), (6, 1), (15, 1), (18, 2)])), (1, (1, [(7, 1), (14, 1)])), (2, (1, [(1, 1), (2, 2), (5, 1), (15, 1), (18, 1)])), (3, (1, [(8, 1), (12, 2)])), (4, (1, [(7, 1), (12, 2)]))] 0 (1, [(2, 2), (15, 1)]),
      .no [(0, (1, [(5, 1), (19, 1)])), (1, (1, [(7, 1), (14, 1)])), (2, (1, [(1, 2), (2, 1), (5, 1), (15, 1), (19, 1)])), (3, (1, [(8, 1), (12, 2)])), (4, (1, [(7, 1), (12, 2)]))] 0 (1, [(2, 1), (15, 1)]),
      .no [(0, (1, [(0, 1), (1, 1), (5, 1), (7, 1), (17, 1)])), (1, (1, [(7, 1), (14, 1)])), (2, (1, [(1, 3), (5, 1), (7, 1), (17, 1)])), (3, (1, [(8, 1), (12, 2)])), (4, (1, [(7, 1), (12, 2)]))] 0 (1, [(15, 1)]),
      .no [(1, (1, [(7, 1), (14, 1)])), (2, (3, [(5, 3), (12, 2), (15, 1), (18, 3)])), (3, (1, [(8, 1), (12, 2)])), (4, (1, [(7, 1), (12, 2)]))] 0 (3, [(8, 3), (12, 4), (15, 2)]),
      .no [(1, (1, [(7, 1), (14, 1)])), (3, (1, [(8, 1), (12, 2)])), (4, (1, [(7, 1), (12, 2)]))] 0 (1, [(8, 1), (12, 1), (15, 1)]),
      .no [(0, (2, [(0, 1), (1, 4), (5, 2), (7, 2), (8, 1), (17, 2)])), (1, (1, [(7, 1), (14, 1)])), (2, (1, [(1, 6), (4, 1), (5, 2), (7, 2), (8, 1), (17, 2)])), (3, (1, [(8, 1), (12, 2)])), (4, (1, [(7, 1), (12, 2)]))] 0 (1, [(8, 1), (15, 2)]),
      .no [(0, (2, [(5, 2), (7, 1), (8, 1), (18, 2)])), (1, (1, [(7, 1), (14, 1)])), (2, (1, [(1, 2), (2, 1), (5, 1), (15, 1), (18, 1)])), (3, (1, [(8, 1), (12, 2)])), (4, (1, [(7, 1), (12, 2)]))] 0 (1, [(2, 1), (12, 1), (15, 1)]),
      .no [(1, (1, [(7, 1), (14, 1)])), (3, (1, [(8, 1), (12, 2)])), (4, (1, [(7, 1), (12, 2)]))] 0 (1, [(12, 1), (15, 1)]),
      .no [(0, (2, [(0, 1), (3, 2), (5, 2), (7, 1), (17, 2)])), (1, (1, [(7, 1), (14, 1)])), (2, (1, [(1, 2), (3, 2), (4, 1), (5, 2), (7, 1), (17, 2)])), (3, (1, [(8, 1), (12, 2)])), (4, (1, [(7, 1), (12, 2)]))] 0 (1, [(7, 1), (12, 2), (15, 2)]),
      .no [(0, (1, [(5, 2), (6, 1), (7, 1), (18, 2)])), (1, (1, [(7, 1), (14, 1)])), (2, (1, [(4, 1), (5, 2), (7, 1), (18, 2)])), (3, (1, [(8, 1), (12, 2)])), (4, (1, [(7, 1), (12, 2)]))] 0 (1, [(8, 1), (12, 2), (15, 1)]),
      .no [(0, (1, [(0, 1), (5, 1), (19, 1)])), (1, (1, [(7, 1), (14, 1)])), (2, (1, [(1, 2), (5, 1), (19, 1)])), (3, (1, [(8, 1), (12, 2)])), (4, (1, [(7, 1), (12, 2)]))] 0 (1, [(8, 1), (12, 2), (15, 2)]),
      .no [(0, (2, [(0, 1), (1, 2), (5, 2), (7, 1), (17, 2)])), (1, (1, [(7, 1), (14, 1)])), (2, (1, [(1, 4), (4, 1), (5, 2), (7, 1), (17, 2)])), (3, (1, [(8, 1), (12, 2)])), (4, (1, [(7, 1), (12, 2)]))] 0 (1, [(1, 2), (4, 2), (5, 2), (7, 1), (17, 2)]),
      .no [(1, (1, [(7, 1), (14, 1)])), (2, (1, [(5, 1), (7, 1), (12, 1), (18, 1)])), (3, (1, [(8, 1), (12, 2)])), (4, (1, [(7, 1), (12, 2)]))] 0 (1, [(8, 3), (12, 4), (15, 2)]),
      .yes [(1, (1, [(7, 1), (14, 1)])), (3, (1, [(8, 1), (12, 2)])), (4, (1, [(7, 1), (12, 2)]))] 18 [((1, [(7, 1), (14, 1)]), (1, [(5, 1)])), ((1, [(7, 1), (12, 2), (18, 2)]), (1, [(8, 1), (17, 2)])), ((1, [(8, 1), (12, 2)]), (1, [(7, 1)])), ((1, [(7, 1), (12, 2)]), (1, [(8, 1)]))],
      .no [(0, (2, [(1, 4), (5, 2), (7, 1), (8, 1), (17, 2)])), (1, (1, [(7, 1), (14, 1)])), (2, (1, [(1, 6), (4, 1), (5, 2), (7, 1), (16, 2), (17, 2)])), (3, (1, [(8, 1), (12, 2)])), (4, (1, [(7, 1), (12, 2)]))] 0 (1, [(7, 1), (12, 2), (16, 2)]),
      .no [(0, (2, [(0, 1), (5, 2), (7, 2), (8, 1), (18, 2)])), (1, (1, [(7, 1), (14, 1)])), (2, (1, [(1, 2), (4, 1), (5, 2), (7, 2), (8, 1), (18, 2)])), (3, (1, [(8, 1), (12, 2)])), (4, (1, [(7, 1), (12, 2)]))] 0 (1, [(8, 1), (12, 4), (15, 2)]),
      .yes [(1, (1, [(7, 1), (14, 1)])), (3, (1, [(8, 1), (12, 2)])), (4, (1, [(7, 1), (12, 2)]))] 19 [((1, [(7, 1), (14, 1)]), (1, [(5, 1)])), ((1, [(8, 1), (12, 2)]), (1, [(7, 1)])), ((1, [(7, 1), (12, 2)]), (1, [(8, 1)]))],
      .no [(0, (1, [(3, 1), (5, 1), (17, 1)])), (1, (1, [(7, 1), (14, 1)])), (2, (1, [(1, 2), (4, 1), (5, 2), (7, 1), (12, 2), (17, 2)])), (3, (1, [(8, 1), (12, 2)])), (4, (1, [(7, 1), (12, 2)]))] 0 (1, [(8, 1), (16, 2)]),
      .no [(0, (1, [(0, 1), (5, 2), (6, 1), (7, 2), (18, 2)])), (1, (1, [(7, 1), (14, 1)])), (2, (1, [(1, 1), (5, 1), (7, 1), (18, 1)])), (3, (1, [(8, 1), (12, 2)])), (4, (1, [(7, 1), (12, 2)]))] 0 (1, [(4, 1), (5, 2), (6, 1), (7, 2), (18, 2)]),
      .no [(0, (1, [(5, 1), (19, 1)])), (1, (1, [(7, 1), (14, 1)])), (2, (1, [(1, 2), (5, 1), (7, 1), (16, 2), (19, 1)])), (3, (1, [(8, 1), (12, 2)])), (4, (1, [(7, 1), (12, 2)]))] 0 (1, [(7, 1), (16, 2)]),
      .no [(0, (1, [(1, 1), (5, 1), (17, 1)])), (1, (1, [(7, 1), (14, 1)])), (2, (1, [(1, 3), (5, 1), (16, 1), (17, 1)])), (3, (1, [(8, 1), (12, 2)])), (4, (1, [(7, 1), (12, 2)]))] 0 (1, [(16, 1)]),
      .no [(1, (1, [(7, 1), (14, 1)])), (2, (1, [(3, 1), (5, 1), (7, 1), (18, 1)])), (3, (1, [(8, 1), (12, 2)])), (4, (1, [(7, 1), (12, 2)]))] 0 (1, [(7, 3), (12, 2), (16, 2)]),
      .no [(1, (1, [(7, 1), (14, 1)])), (3, (1, [(8, 1), (12, 2)])), (4, (1, [(7, 1), (12, 2)]))] 0 (1, [(7, 1), (12, 1), (16, 1)]),
      .no [(0, (3, [(1, 6), (5, 3), (8, 1), (16, 1), (17, 3)])), (1, (1, [(7, 1), (14, 1)])), (2, (1, [(1, 4), (5, 1), (16, 1), (17, 1)])), (3, (1, [(8, 1), (12, 2)])), (4, (1, [(7, 1), (12, 2)]))] 0 (3, [(7, 1), (12, 2), (16, 2)])],
    .no [(0, (1, [(13, 1)])), (2, (1, [(1, 2), (8, 1), (12, 2), (13, 1)])), (3, (1, [(2, 2), (8, 1), (12, 2)])), (4, (1, [(3, 1), (12, 1)]))] 0 (1, [(8, 1), (12, 2)]),
    .no [(1, (1, [(0, 1), (2, 2), (14, 1)])), (3, (1, [(2, 4), (8, 1), (12, 2)])), (4, (1, [(2, 1), (3, 1), (12, 1)]))] 0 (1, [(2, 2), (8, 1), (12, 2)]),
    .no [(1, (1, [(3, 2), (6, 1), (7, 1), (14, 1)])), (2, (1, [(3, 2), (5, 1), (7, 1), (14, 1)])), (3, (1, [(2, 1), (12, 1)])), (4, (1, [(3, 2), (7, 1), (12, 2)]))] 0 (1, [(7, 1), (12, 2)]),
    .no [(3, (1, [(2, 2), (12, 1)])), (4, (1, [(3, 2), (12, 1)]))] 0 (1, [(12, 1)]),
    .no [(0, (1, [(0, 2), (1, 2), (2, 2), (3, 2), (5, 1), (14, 1)])), (1, (1, [(0, 2), (1, 2), (2, 2), (3, 2), (4, 1), (14, 1)])), (2, (1, [(0, 1), (1, 4), (2, 2), (3, 2), (5, 1), (14, 1)])), (3, (1, [(2, 3), (12, 1)])), (4, (1, [(2, 1), (3, 2), (12, 1)]))] 0 (1, [(2, 1), (12, 1)])]

theorem treeI_9_ok : treeI_9.check true (1, 0, 0) = true := by decide +kernel

/-- All symmetries with first column `(1, 0, 1)`. -/
def treeI_10 : Tree1 :=
  .no [(0, (1, [(0, 1), (2, 2), (5, 1), (10, 1)])), (1, (1, [(0, 1), (2, 2), (4, 1), (10, 1)])), (2, (1, [(1, 2), (2, 2), (5, 1), (10, 1)])), (3, (1, [(2, 4), (4, 1), (5, 1), (10, 1)])), (4, (1, [(2, 2), (3, 2), (4, 1), (5, 1), (10, 1)]))] 0 (1, [(2, 2), (4, 1), (5, 1), (10, 1)])

theorem treeI_10_ok : treeI_10.check true (1, 0, 1) = true := by decide +kernel

/-- All symmetries with first column `(1, 1, -1)`. -/
def treeI_11 : Tree1 :=
  .no [(0, (1, [(3, 2), (5, 1), (6, 1), (7, 1), (10, 1)])), (1, (1, [(3, 2), (4, 1), (6, 1), (7, 1), (10, 1)])), (2, (1, [(3, 2), (4, 1), (5, 1), (7, 1), (10, 1)])), (3, (1, [(3, 2), (4, 1), (5, 1), (6, 1), (10, 1)])), (4, (1, [(3, 2), (4, 1), (5, 1), (6, 1), (10, 1), (12, 2)]))] 0 (1, [(4, 1), (5, 1), (6, 1), (10, 1), (12, 2)])

theorem treeI_11_ok : treeI_11.check true (1, 1, -1) = true := by decide +kernel

/-- All symmetries with first column `(1, 1, 0)`. -/
def treeI_12 : Tree1 :=
  .no [(0, (1, [(0, 1), (3, 2), (10, 1)])), (2, (1, [(1, 2), (3, 2), (10, 1)])), (3, (1, [(2, 2), (3, 2), (4, 1), (10, 1)])), (4, (1, [(3, 4), (4, 1), (10, 1)]))] 0 (1, [(3, 2), (4, 1), (10, 1)])

theorem treeI_12_ok : treeI_12.check true (1, 1, 0) = true := by decide +kernel

/-- All symmetries with first column `(1, 1, 1)`. -/
def treeI_13 : Tree1 :=
  .no [(0, (2, [(0, 2), (1, 2), (2, 2), (3, 2), (5, 1), (10, 1)])), (1, (1, [(0, 2), (1, 2), (2, 2), (3, 2), (4, 2), (10, 1)])), (2, (2, [(1, 6), (2, 2), (3, 2), (5, 1), (10, 1)])), (3, (2, [(1, 2), (2, 6), (3, 2), (4, 2), (5, 1), (10, 1)])), (4, (2, [(1, 2), (2, 2), (3, 6), (4, 2), (5, 1), (10, 1)]))] 0 (2, [(1, 2), (2, 2), (3, 2), (4, 2), (5, 1), (10, 1)])

theorem treeI_13_ok : treeI_13.check true (1, 1, 1) = true := by decide +kernel

theorem treeI {u : ℤ × ℤ × ℤ} (hu : u ∈ Form.vecs.drop 13) : ∃ T : Tree1, T.check true u = true := by
  have h : u ∈ ([(0, 0, 0), (0, 0, 1), (0, 1, -1), (0, 1, 0), (0, 1, 1), (1, -1, -1), (1, -1, 0), (1, -1, 1), (1, 0, -1), (1, 0, 0), (1, 0, 1), (1, 1, -1), (1, 1, 0), (1, 1, 1)] : List (ℤ × ℤ × ℤ)) := hu
  simp only [List.mem_cons, List.not_mem_nil, or_false] at h
  rcases h with rfl | rfl | rfl | rfl | rfl | rfl | rfl | rfl | rfl | rfl | rfl | rfl | rfl | rfl
  · exact ⟨_, treeI_0_ok⟩
  · exact ⟨_, treeI_1_ok⟩
  · exact ⟨_, treeI_2_ok⟩
  · exact ⟨_, treeI_3_ok⟩
  · exact ⟨_, treeI_4_ok⟩
  · exact ⟨_, treeI_5_ok⟩
  · exact ⟨_, treeI_6_ok⟩
  · exact ⟨_, treeI_7_ok⟩
  · exact ⟨_, treeI_8_ok⟩
  · exact ⟨_, treeI_9_ok⟩
  · exact ⟨_, treeI_10_ok⟩
  · exact ⟨_, treeI_11_ok⟩
  · exact ⟨_, treeI_12_ok⟩
  · exact ⟨_, treeI_13_ok⟩

end AutoGR
