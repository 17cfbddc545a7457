import Verif.Lemmas.SymTree

/-!
# Certificates for the symmetries of reduced cells of type II

One tree for each first column, up to the sign of the symmetry.
-/

namespace AutoGR

/-- All symmetries with first column `(0, 0, 0)`. -/
def treeII_0 : Tree1 :=
  .no [(3, (1, [(2, 2), (10, 1)])), (4, (1, [(3, 2), (10, 1)]))] 0 (1, [(10, 1)])

theorem treeII_0_ok : treeII_0.check false (0, 0, 0) = true := by decide +kernel

/-- All symmetries with first column `(0, 0, 1)`. -/
def treeII_1 : Tree1 :=
  .node [
    .node [
      .no [(0, (1, [(5, 1), (11, 1)])), (1, (1, [(4, 1), (11, 1)])), (2, (1, [(1, 1), (4, 1), (5, 1), (7, 1), (8, 1), (19, 1)])), (3, (3, [(4, 3), (5, 4), (6, 1), (9, 1), (16, 3), (19, 1)])), (4, (3, [(4, 2), (5, 2), (6, 1), (12, 4), (17, 3), (19, 1)])), (5, (1, [(4, 1), (5, 2), (12, 2)]))] 0 (1, [(1, 1), (4, 1), (5, 1), (9, 1), (19, 1)]),
      .no [(0, (1, [(5, 1), (11, 1)])), (1, (1, [(4, 1), (11, 1)])), (2, (1, [(1, 1), (4, 1), (5, 2), (8, 1), (12, 2), (17, 1)])), (3, (1, [(2, 4), (4, 2), (5, 2), (8, 1), (12, 2), (17, 2)])), (4, (1, [(2, 1), (3, 1), (4, 1), (5, 1), (12, 1), (17, 1)])), (5, (1, [(4, 1), (5, 2), (12, 2)]))] 0 (1, [(2, 2), (4, 2), (5, 2), (8, 1), (12, 2), (17, 2)]),
      .no [(0, (1, [(5, 1), (11, 1)])), (1, (1, [(4, 1), (11, 1)])), (2, (1, [(1, 3), (2, 2), (5, 1), (17, 1)])), (3, (1, [(1, 1), (2, 4), (4, 1), (5, 1), (17, 1)])), (4, (1, [(1, 1), (2, 2), (3, 2), (4, 1), (5, 1), (17, 1)])), (5, (1, [(4, 1), (5, 2), (12, 2)]))] 0 (1, [(1, 1), (2, 2), (4, 1), (5, 1), (17, 1)]),
      .no [(0, (1, [(5, 1), (11, 1)])), (1, (1, [(4, 1), (11, 1)])), (2, (1, [(1, 2), (4, 1), (5, 2), (7, 2), (8, 1), (19, 2)])), (3, (1, [(4, 1), (5, 1), (16, 1)])), (4, (1, [(3, 1), (4, 1), (5, 1), (7, 1), (19, 1)])), (5, (1, [(4, 1), (5, 2), (12, 2)]))] 0 (1, [(1, 2), (4, 1), (5, 2), (7, 1), (9, 1), (19, 2)]),
      .no [(0, (1, [(5, 1), (11, 1)])), (1, (1, [(4, 1), (11, 1)])), (2, (1, [(4, 1), (5, 2), (8, 1), (12, 2), (17, 1)])), (3, (1, [(1, 2), (8, 1), (19, 2)])), (4, (1, [(4, 1), (5, 2), (6, 1), (12, 2), (17, 1)])), (5, (1, [(4, 1), (5, 2), (12, 2)]))] 0 (1, [(1, 2), (8, 1), (17, 1), (19, 2)]),
      .no [(0, (1, [(5, 1), (11, 1)])), (1, (1, [(4, 1), (11, 1)])), (2, (1, [(1, 2), (2, 2), (5, 1), (17, 1)])), (3, (1, [(2, 4), (4, 1), (5, 1), (17, 1)])), (4, (1, [(2, 2), (3, 2), (4, 1), (5, 1), (17, 1)])), (5, (1, [(4, 1), (5, 2), (12, 2)]))] 0 (1, [(2, 2), (4, 1), (5, 1), (17, 1)]),
      .no [(0, (1, [(5, 1), (11, 1)])), (1, (1, [(4, 1), (11, 1)])), (2, (1, [(1, 4), (3, 2), (7, 1), (21, 1)])), (3, (1, [(1, 1), (4, 1), (5, 1), (16, 1)])), (4, (1, [(4, 4), (5, 4), (7, 3), (12, 2), (16, 2)])), (5, (1, [(4, 1), (5, 2), (12, 2)]))] 0 (1, [(1, 2), (3, 2), (4, 1), (7, 1), (21, 1)]),
      .no [(0, (1, [(5, 1), (11, 1)])), (1, (1, [(4, 1), (11, 1)])), (2, (3, [(4, 1), (5, 6), (8, 3), (12, 6), (17, 4), (19, 2)])), (3, (3, [(4, 2), (5, 6), (8, 3), (12, 6), (17, 2), (19, 4)])), (4, (3, [(4, 1), (5, 6), (6, 3), (12, 6), (17, 4), (19, 2)])), (5, (1, [(4, 1), (5, 2), (12, 2)]))] 0 (1, [(5, 2), (8, 1), (12, 2), (17, 2), (19, 2)]),
      .no [(0, (1, [(5, 1), (11, 1)])), (1, (1, [(4, 1), (11, 1)])), (2, (1, [(1, 1), (2, 2), (5, 1), (17, 1)])), (3, (1, [(2, 6), (4, 1), (5, 2), (6, 1), (17, 2)])), (4, (1, [(2, 4), (3, 2), (4, 1), (5, 2), (6, 1), (17, 2)])), (5, (1, [(4, 1), (5, 2), (12, 2)]))] 0 (1, [(2, 4), (4, 1), (5, 2), (6, 1), (17, 2)]),
      .no [(0, (1, [(5, 1), (11, 1)])), (1, (1, [(4, 1), (11, 1)])), (2, (1, [(4, 1), (5, 2), (7, 1), (16, 2)])), (3, (1, [(4, 1), (5, 2), (6, 1), (16, 2)])), (4, (2, [(3, 2), (4, 3), (5, 2), (6, 1), (7, 1), (19, 2)])), (5, (1, [(4, 1), (5, 2), (12, 2)]))] 0 (2, [(4, 3), (5, 2), (9, 1), (19, 2)]),
      .no [(0, (1, [(5, 1), (11, 1)])), (1, (1, [(4, 1), (11, 1)])), (2, (1, [(1, 2), (4, 1), (5, 2), (8, 1), (12, 2), (17, 2)])), (3, (1, [(2, 2), (4, 2), (5, 2), (8, 1), (12, 2), (17, 2)])), (4, (1, [(3, 1), (4, 1), (5, 1), (12, 1), (17, 1)])), (5, (1, [(4, 1), (5, 2), (12, 2)]))] 0 (1, [(4, 2), (5, 2), (8, 1), (12, 2), (17, 2)]),
      .no [(0, (1, [(5, 1), (11, 1)])), (1, (1, [(4, 1), (11, 1)])), (2, (1, [(1, 3), (2, 1), (5, 1), (17, 1)])), (3, (1, [(1, 1), (2, 3), (4, 1), (5, 1), (17, 1)])), (4, (1, [(1, 1), (2, 1), (3, 2), (4, 1), (5, 1), (17, 1)])), (5, (1, [(4, 1), (5, 2), (12, 2)]))] 0 (1, [(1, 1), (2, 1), (4, 1), (5, 1), (17, 1)]),
      .no [(0, (1, [(5, 1), (11, 1)])), (1, (1, [(4, 1), (11, 1)])), (2, (1, [(1, 2), (4, 1), (5, 2), (7, 1), (16, 2)])), (3, (1, [(2, 1), (4, 1), (5, 1), (16, 1)])), (4, (1, [(3, 2), (4, 2), (5, 2), (7, 1), (16, 2)])), (5, (1, [(4, 1), (5, 2), (12, 2)]))] 0 (1, [(4, 2), (5, 2), (7, 1), (16, 2)]),
      .no [(0, (1, [(5, 1), (11, 1)])), (1, (1, [(4, 1), (11, 1)])), (2, (1, [(4, 1), (5, 2), (8, 1), (12, 2), (17, 2)])), (3, (1, [(4, 2), (5, 2), (8, 1), (12, 2), (19, 2)])), (4, (1, [(4, 1), (5, 2), (6, 1), (12, 2), (17, 2)])), (5, (1, [(4, 1), (5, 2), (12, 2)]))] 0 (1, [(4, 2), (5, 2), (8, 1), (12, 2), (17, 2), (19, 2)]),
      .no [(0, (1, [(5, 1), (11, 1)])), (1, (1, [(4, 1), (11, 1)])), (2, (1, [(1, 2), (2, 1), (5, 1), (17, 1)])), (3, (1, [(2, 3), (4, 1), (5, 1), (17, 1)])), (4, (1, [(2, 1), (3, 2), (4, 1), (5, 1), (17, 1)])), (5, (1, [(4, 1), (5, 2), (12, 2)]))] 0 (1, [(2, 1), (4, 1), (5, 1), (17, 1)]),
      .no [(0, (1, [(5, 1), (11, 1)])), (1, (1, [(4, 1), (11, 1)])), (2, (1, [(1, 4), (4, 1), (5, 2), (7, 1), (16, 2)])), (3, (1, [(1, 1), (2, 1), (4, 1), (5, 1), (16, 1)])), (4, (1, [(1, 2), (3, 2), (4, 2), (5, 2), (7, 1), (16, 2)])), (5, (1, [(4, 1), (5, 2), (12, 2)]))] 0 (1, [(1, 2), (4, 2), (5, 2), (7, 1), (16, 2)]),
      .yes [(0, (1, [(5, 1), (11, 1)])), (1, (1, [(4, 1), (11, 1)])), (5, (1, [(4, 1), (5, 2), (12, 2)]))] 6 [((1, [(5, 1), (11, 1)]), (1, [(4, 1)])), ((1, [(4, 1), (11, 1)]), (1, [(5, 1)])), ((1, [(9, 1)]), (1, [(4, 1), (5, 2), (12, 2)])), ((1, [(17, 1)]), (1, [(16, 1)]))],
      .no [(0, (1, [(5, 1), (11, 1)])), (1, (1, [(4, 1), (11, 1)])), (2, (1, [(1, 1), (2, 1), (5, 1), (17, 1)])), (3, (1, [(2, 4), (4, 1), (5, 2), (6, 1), (17, 2)])), (4, (1, [(2, 2), (3, 2), (4, 1), (5, 2), (6, 1), (17, 2)])), (5, (1, [(4, 1), (5, 2), (12, 2)]))] 0 (1, [(2, 2), (4, 1), (5, 2), (6, 1), (17, 2)]),
      .no [(0, (1, [(5, 1), (11, 1)])), (1, (1, [(4, 1), (11, 1)])), (2, (1, [(1, 1), (5, 1), (16, 1)])), (3, (1, [(2, 2), (4, 1), (5, 2), (6, 1), (16, 2)])), (4, (1, [(3, 2), (4, 1), (5, 2), (6, 1), (16, 2)])), (5, (1, [(4, 1), (5, 2), (12, 2)]))] 0 (1, [(4, 1), (5, 2), (6, 1), (16, 2)]),
      .no [(0, (1, [(5, 1), (11, 1)])), (1, (1, [(4, 1), (11, 1)])), (2, (1, [(4, 3), (5, 2), (8, 1), (12, 2), (19, 2)])), (3, (1, [(4, 2), (5, 2), (8, 1), (12, 2), (17, 2)])), (4, (1, [(4, 2), (5, 2), (7, 1), (12, 2), (17, 2)])), (5, (1, [(4, 1), (5, 2), (12, 2)]))] 0 (1, [(4, 4), (5, 2), (8, 1), (12, 2), (17, 2), (19, 2)]),
      .no [(0, (1, [(5, 1), (11, 1)])), (1, (1, [(4, 1), (11, 1)])), (2, (1, [(1, 3), (5, 1), (17, 1)])), (3, (1, [(1, 1), (2, 2), (4, 1), (5, 1), (17, 1)])), (4, (1, [(1, 1), (3, 2), (4, 1), (5, 1), (17, 1)])), (5, (1, [(4, 1), (5, 2), (12, 2)]))] 0 (1, [(1, 1), (4, 1), (5, 1), (17, 1)]),
      .no [(0, (1, [(5, 1), (11, 1)])), (1, (1, [(4, 1), (11, 1)])), (2, (1, [(1, 2), (5, 1), (16, 1)])), (3, (1, [(2, 2), (4, 1), (5, 1), (16, 1)])), (4, (1, [(3, 2), (4, 1), (5, 1), (16, 1)])), (5, (1, [(4, 1), (5, 2), (12, 2)]))] 0 (1, [(4, 1), (5, 1), (16, 1)]),
      .yes [(0, (1, [(5, 1), (11, 1)])), (1, (1, [(4, 1), (11, 1)])), (5, (1, [(4, 1), (5, 2), (12, 2)]))] 8 [((1, [(5, 1), (11, 1)]), (1, [(4, 1)])), ((1, [(4, 1), (11, 1)]), (1, [(5, 1)])), ((1, [(9, 1)]), (1, [(4, 1), (5, 2), (12, 2)]))],
      .no [(0, (1, [(5, 1), (11, 1)])), (1, (1, [(4, 1), (11, 1)])), (2, (1, [(1, 2), (5, 1), (17, 1)])), (3, (1, [(2, 2), (4, 1), (5, 1), (17, 1)])), (4, (1, [(3, 2), (4, 1), (5, 1), (17, 1)])), (5, (1, [(4, 1), (5, 2), (12, 2)]))] 0 (1, [(4, 1), (5, 1), (17, 1)]),
      .no [(0, (1, [(5, 1), (11, 1)])), (1, (1, [(4, 1), (11, 1)])), (2, (1, [(1, 3), (5, 1), (16, 1)])), (3, (1, [(1, 1), (2, 2), (4, 1), (5, 1), (16, 1)])), (4, (1, [(1, 1), (3, 2), (4, 1), (5, 1), (16, 1)])), (5, (1, [(4, 1), (5, 2), (12, 2)]))] 0 (1, [(1, 1), (4, 1), (5, 1), (16, 1)]),
      .no [(0, (1, [(5, 1), (11, 1)])), (1, (1, [(4, 1), (11, 1)])), (2, (1, [(8, 1), (9, 1), (18, 2)])), (3, (1, [(4, 2), (5, 2), (8, 1), (12, 2), (16, 2)])), (4, (1, [(4, 2), (5, 2), (7, 1), (12, 2), (16, 2)])), (5, (1, [(4, 1), (5, 2), (12, 2)]))] 0 (1, [(4, 1), (8, 1), (9, 1), (16, 2), (18, 2)]),
      .no [(0, (1, [(5, 1), (11, 1)])), (1, (1, [(4, 1), (11, 1)])), (2, (1, [(1, 1), (5, 1), (17, 1)])), (3, (1, [(2, 2), (4, 1), (5, 2), (6, 1), (17, 2)])), (4, (1, [(3, 2), (4, 1), (5, 2), (6, 1), (17, 2)])), (5, (1, [(4, 1), (5, 2), (12, 2)]))] 0 (1, [(4, 1), (5, 2), (6, 1), (17, 2)])],
    .no [(0, (1, [(5, 1), (11, 1)])), (1, (1, [(4, 1), (11, 1)])), (2, (1, [(1, 4), (2, 2), (5, 1), (11, 1), (13, 2), (15, 1)])), (3, (1, [(1, 2), (2, 4), (13, 2), (15, 1)])), (4, (1, [(15, 1)])), (5, (1, [(1, 4), (2, 4), (5, 1), (11, 1), (13, 2), (15, 2)]))] 0 (1, [(1, 2), (2, 2), (13, 2), (15, 1)]),
    .no [(0, (1, [(5, 1), (11, 1)])), (1, (1, [(4, 1), (11, 1)])), (2, (1, [(1, 3), (2, 1), (3, 1), (5, 1), (13, 1)])), (3, (1, [(1, 1), (2, 3), (3, 1), (4, 1), (5, 1), (13, 1)])), (4, (1, [(1, 1), (2, 1), (3, 3), (4, 1), (5, 1), (13, 1)])), (5, (1, [(1, 4), (2, 4), (3, 4), (4, 1), (5, 2), (13, 2)]))] 0 (1, [(1, 1), (2, 1), (3, 1), (4, 1), (5, 1), (13, 1)]),
    .no [(0, (1, [(5, 1), (11, 1)])), (1, (1, [(4, 1), (11, 1)])), (3, (1, [(4, 2), (5, 2), (8, 1), (12, 2)])), (4, (1, [(4, 2), (5, 2), (7, 1), (12, 2)])), (5, (1, [(1, 2), (4, 1), (5, 2), (12, 2)])), (2, (1, [(1, 2), (4, 1), (5, 2), (7, 1), (12, 2), (18, 2)]))] 0 (1, [(4, 2), (5, 2), (7, 1), (12, 2), (18, 2)]),
    .node [
      .no [(0, (1, [(5, 1), (11, 1)])), (1, (1, [(4, 1), (11, 1)])), (2, (1, [(1, 1), (3, 2), (5, 1), (13, 2), (16, 1)])), (3, (1, [(3, 2), (4, 1), (5, 2), (6, 1), (13, 2), (16, 2)])), (4, (1, [(3, 6), (4, 1), (5, 2), (6, 1), (13, 4), (16, 2)])), (5, (1, [(3, 4), (4, 1), (5, 2), (13, 2), (16, 2)]))] 0 (1, [(3, 4), (4, 1), (5, 2), (6, 1), (13, 4), (16, 2)]),
      .no [(0, (1, [(5, 1), (11, 1)])), (1, (1, [(4, 1), (11, 1)])), (2, (1, [(1, 3), (2, 1), (5, 1), (11, 1), (13, 1), (19, 1)])), (3, (1, [(1, 1), (2, 3), (13, 1), (19, 1)])), (4, (1, [(1, 1), (3, 1), (19, 1)])), (5, (1, [(1, 4), (2, 2), (5, 1), (11, 1), (19, 2)]))] 0 (1, [(1, 1), (2, 1), (13, 1), (19, 1)]),
      .no [(0, (1, [(5, 1), (11, 1)])), (1, (1, [(4, 1), (11, 1)])), (2, (1, [(1, 3), (2, 2), (5, 1), (17, 1)])), (3, (1, [(1, 1), (2, 4), (4, 1), (5, 1), (17, 1)])), (4, (1, [(1, 1), (2, 2), (3, 2), (4, 1), (5, 1), (17, 1)])), (5, (1, [(1, 4), (2, 6), (3, 2), (4, 1), (5, 2), (17, 2)]))] 0 (1, [(1, 1), (2, 2), (4, 1), (5, 1), (17, 1)]),
      .no [(0, (1, [(5, 1), (11, 1)])), (1, (1, [(4, 1), (11, 1)])), (2, (1, [(1, 2), (3, 2), (5, 1), (13, 2), (16, 1)])), (3, (1, [(4, 1), (5, 1), (16, 1)])), (4, (1, [(3, 4), (4, 1), (5, 1), (13, 2), (16, 1)])), (5, (1, [(1, 2), (3, 4), (4, 1), (5, 2), (13, 2), (16, 2)]))] 0 (1, [(3, 2), (4, 1), (5, 1), (13, 2), (16, 1)]),
      .no [(0, (1, [(5, 1), (11, 1)])), (1, (1, [(4, 1), (11, 1)])), (2, (1, [(1, 3), (5, 1), (11, 1), (19, 1)])), (3, (1, [(1, 1), (2, 2), (19, 1)])), (4, (1, [(1, 1), (3, 2), (19, 1)])), (5, (1, [(1, 4), (2, 2), (3, 2), (5, 1), (11, 1), (19, 2)]))] 0 (1, [(1, 1), (19, 1)]),
      .no [(0, (1, [(5, 1), (11, 1)])), (1, (1, [(4, 1), (11, 1)])), (2, (1, [(1, 2), (2, 2), (5, 1), (17, 1)])), (3, (1, [(2, 4), (4, 1), (5, 1), (17, 1)])), (4, (1, [(2, 2), (3, 2), (4, 1), (5, 1), (17, 1)])), (5, (1, [(1, 2), (2, 6), (3, 2), (4, 1), (5, 2), (17, 2)]))] 0 (1, [(2, 2), (4, 1), (5, 1), (17, 1)]),
      .no [(0, (1, [(5, 1), (11, 1)])), (1, (1, [(4, 1), (11, 1)])), (2, (1, [(1, 3), (3, 2), (5, 1), (13, 2), (16, 1)])), (3, (1, [(1, 1), (4, 1), (5, 1), (16, 1)])), (4, (1, [(1, 1), (3, 4), (4, 1), (5, 1), (13, 2), (16, 1)])), (5, (1, [(1, 4), (3, 4), (4, 1), (5, 2), (13, 2), (16, 2)]))] 0 (1, [(1, 1), (3, 2), (4, 1), (5, 1), (13, 2), (16, 1)]),
      .no [(0, (1, [(5, 1), (11, 1)])), (1, (1, [(4, 1), (11, 1)])), (2, (1, [(1, 3), (3, 1), (5, 1), (11, 1), (19, 1)])), (3, (1, [(1, 1), (2, 2), (3, 1), (19, 1)])), (4, (1, [(1, 1), (3, 3), (19, 1)])), (5, (1, [(1, 4), (2, 2), (3, 4), (5, 1), (11, 1), (19, 2)]))] 0 (1, [(1, 1), (3, 1), (19, 1)]),
      .no [(0, (1, [(5, 1), (11, 1)])), (1, (1, [(4, 1), (11, 1)])), (2, (1, [(1, 1), (2, 2), (5, 1), (17, 1)])), (3, (1, [(2, 6), (4, 1), (5, 2), (6, 1), (17, 2)])), (4, (1, [(2, 4), (3, 2), (4, 1), (5, 2), (6, 1), (17, 2)])), (5, (1, [(2, 6), (3, 2), (4, 1), (5, 2), (17, 2)]))] 0 (1, [(2, 4), (4, 1), (5, 2), (6, 1), (17, 2)]),
      .no [(0, (1, [(5, 1), (11, 1)])), (1, (1, [(4, 1), (11, 1)])), (2, (1, [(1, 1), (3, 1), (5, 1), (13, 1), (16, 1)])), (3, (1, [(4, 1), (5, 2), (6, 1), (16, 2)])), (4, (1, [(3, 4), (4, 1), (5, 2), (6, 1), (13, 2), (16, 2)])), (5, (1, [(3, 2), (4, 1), (5, 2), (16, 2)]))] 0 (1, [(3, 2), (4, 1), (5, 2), (6, 1), (13, 2), (16, 2)]),
      .yes [(0, (1, [(5, 1), (11, 1)])), (1, (1, [(4, 1), (11, 1)]))] 3 [((1, [(5, 1), (11, 1)]), (1, [(4, 1)])), ((1, [(4, 1), (11, 1)]), (1, [(5, 1)])), ((1, [(2, 1), (17, 1)]), (1, [(1, 1)])), ((1, [(3, 1), (13, 1)]), (1, [(2, 1)])), ((1, [(2, 1), (13, 1)]), (1, [(3, 1)]))],
      .no [(0, (1, [(5, 1), (11, 1)])), (1, (1, [(4, 1), (11, 1)])), (2, (1, [(1, 3), (2, 1), (5, 1), (17, 1)])), (3, (1, [(1, 1), (2, 3), (4, 1), (5, 1), (17, 1)])), (4, (1, [(1, 1), (2, 1), (3, 2), (4, 1), (5, 1), (17, 1)])), (5, (1, [(1, 4), (2, 4), (3, 2), (4, 1), (5, 2), (17, 2)]))] 0 (1, [(1, 1), (2, 1), (4, 1), (5, 1), (17, 1)]),
      .no [(0, (1, [(5, 1), (11, 1)])), (1, (1, [(4, 1), (11, 1)])), (2, (1, [(1, 2), (3, 1), (5, 1), (13, 1), (16, 1)])), (3, (1, [(2, 1), (4, 1), (5, 1), (16, 1)])), (4, (1, [(3, 3), (4, 1), (5, 1), (13, 1), (16, 1)])), (5, (1, [(1, 2), (3, 2), (4, 1), (5, 2), (16, 2)]))] 0 (1, [(3, 1), (4, 1), (5, 1), (13, 1), (16, 1)]),
      .no [(0, (1, [(5, 1), (11, 1)])), (1, (1, [(4, 1), (11, 1)])), (2, (1, [(1, 2), (5, 1), (20, 1)])), (3, (1, [(2, 2), (4, 1), (5, 1), (20, 1)])), (4, (1, [(3, 2), (4, 1), (5, 1), (20, 1)])), (5, (1, [(1, 2), (2, 2), (3, 2), (4, 1), (5, 2), (20, 2)]))] 0 (1, [(4, 1), (5, 1), (20, 1)]),
      .no [(0, (1, [(5, 1), (11, 1)])), (1, (1, [(4, 1), (11, 1)])), (2, (1, [(1, 2), (2, 1), (5, 1), (17, 1)])), (3, (1, [(2, 3), (4, 1), (5, 1), (17, 1)])), (4, (1, [(2, 1), (3, 2), (4, 1), (5, 1), (17, 1)])), (5, (1, [(1, 2), (2, 4), (3, 2), (4, 1), (5, 2), (17, 2)]))] 0 (1, [(2, 1), (4, 1), (5, 1), (17, 1)]),
      .no [(0, (1, [(5, 1), (11, 1)])), (1, (1, [(4, 1), (11, 1)])), (2, (1, [(1, 3), (3, 1), (5, 1), (13, 1), (16, 1)])), (3, (1, [(1, 1), (2, 1), (4, 1), (5, 1), (16, 1)])), (4, (1, [(1, 1), (3, 3), (4, 1), (5, 1), (13, 1), (16, 1)])), (5, (1, [(1, 4), (3, 2), (4, 1), (5, 2), (16, 2)]))] 0 (1, [(1, 1), (3, 1), (4, 1), (5, 1), (13, 1), (16, 1)]),
      .yes [(0, (1, [(5, 1), (11, 1)])), (1, (1, [(4, 1), (11, 1)]))] 3 [((1, [(5, 1), (11, 1)]), (1, [(4, 1)])), ((1, [(4, 1), (11, 1)]), (1, [(5, 1)])), ((1, [(3, 1), (13, 1), (16, 1)]), (1, [(1, 1)])), ((1, [(3, 1), (13, 1)]), (1, [(2, 1)])), ((1, [(2, 1), (13, 1)]), (1, [(3, 1)]))],
      .no [(0, (1, [(5, 1), (11, 1)])), (1, (1, [(4, 1), (11, 1)])), (2, (1, [(1, 1), (2, 1), (5, 1), (17, 1)])), (3, (1, [(2, 4), (4, 1), (5, 2), (6, 1), (17, 2)])), (4, (1, [(2, 2), (3, 2), (4, 1), (5, 2), (6, 1), (17, 2)])), (5, (1, [(2, 4), (3, 2), (4, 1), (5, 2), (17, 2)]))] 0 (1, [(2, 2), (4, 1), (5, 2), (6, 1), (17, 2)]),
      .no [(0, (1, [(5, 1), (11, 1)])), (1, (1, [(4, 1), (11, 1)])), (2, (1, [(1, 1), (5, 1), (16, 1)])), (3, (1, [(2, 2), (4, 1), (5, 2), (6, 1), (16, 2)])), (4, (1, [(3, 2), (4, 1), (5, 2), (6, 1), (16, 2)])), (5, (1, [(2, 2), (3, 2), (4, 1), (5, 2), (16, 2)]))] 0 (1, [(4, 1), (5, 2), (6, 1), (16, 2)]),
      .no [(0, (1, [(5, 1), (11, 1)])), (1, (1, [(4, 1), (11, 1)])), (2, (1, [(1, 1), (3, 1), (5, 1), (11, 1), (18, 1)])), (3, (1, [(2, 2), (3, 1), (17, 1), (18, 1)])), (4, (1, [(3, 3), (17, 1), (18, 1)])), (5, (1, [(2, 2), (3, 4), (5, 1), (11, 1), (18, 2)]))] 0 (1, [(3, 1), (17, 1), (18, 1)]),
      .no [(0, (1, [(5, 1), (11, 1)])), (1, (1, [(4, 1), (11, 1)])), (2, (1, [(1, 3), (5, 1), (17, 1)])), (3, (1, [(1, 1), (2, 2), (4, 1), (5, 1), (17, 1)])), (4, (1, [(1, 1), (3, 2), (4, 1), (5, 1), (17, 1)])), (5, (1, [(1, 4), (2, 2), (3, 2), (4, 1), (5, 2), (17, 2)]))] 0 (1, [(1, 1), (4, 1), (5, 1), (17, 1)]),
      .no [(0, (1, [(5, 1), (11, 1)])), (1, (1, [(4, 1), (11, 1)])), (2, (1, [(1, 2), (5, 1), (16, 1)])), (3, (1, [(2, 2), (4, 1), (5, 1), (16, 1)])), (4, (1, [(3, 2), (4, 1), (5, 1), (16, 1)])), (5, (1, [(1, 2), (2, 2), (3, 2), (4, 1), (5, 2), (16, 2)]))] 0 (1, [(4, 1), (5, 1), (16, 1)]),
      .no [(0, (1, [(5, 1), (11, 1)])), (1, (1, [(4, 1), (11, 1)])), (2, (1, [(1, 1), (5, 1), (11, 1), (18, 1)])), (3, (1, [(2, 2), (5, 1), (6, 1), (11, 1), (18, 2)])), (4, (1, [(3, 2), (5, 1), (6, 1), (11, 1), (18, 2)])), (5, (1, [(2, 2), (3, 2), (5, 1), (11, 1), (18, 2)]))] 0 (1, [(5, 1), (6, 1), (11, 1), (18, 2)]),
      .no [(0, (1, [(5, 1), (11, 1)])), (1, (1, [(4, 1), (11, 1)])), (2, (1, [(1, 2), (5, 1), (17, 1)])), (3, (1, [(2, 2), (4, 1), (5, 1), (17, 1)])), (4, (1, [(3, 2), (4, 1), (5, 1), (17, 1)])), (5, (1, [(1, 2), (2, 2), (3, 2), (4, 1), (5, 2), (17, 2)]))] 0 (1, [(4, 1), (5, 1), (17, 1)]),
      .no [(0, (1, [(5, 1), (11, 1)])), (1, (1, [(4, 1), (11, 1)])), (2, (1, [(1, 3), (5, 1), (16, 1)])), (3, (1, [(1, 1), (2, 2), (4, 1), (5, 1), (16, 1)])), (4, (1, [(1, 1), (3, 2), (4, 1), (5, 1), (16, 1)])), (5, (1, [(1, 4), (2, 2), (3, 2), (4, 1), (5, 2), (16, 2)]))] 0 (1, [(1, 1), (4, 1), (5, 1), (16, 1)]),
      .no [(0, (1, [(5, 1), (11, 1)])), (1, (1, [(4, 1), (11, 1)])), (2, (1, [(1, 1), (2, 1), (5, 1), (11, 1), (13, 1), (18, 1)])), (3, (1, [(2, 3), (13, 1), (16, 1), (18, 1)])), (4, (1, [(3, 1), (16, 1), (18, 1)])), (5, (1, [(2, 2), (5, 1), (11, 1), (18, 2)]))] 0 (1, [(2, 1), (13, 1), (16, 1), (18, 1)]),
      .no [(0, (1, [(5, 1), (11, 1)])), (1, (1, [(4, 1), (11, 1)])), (2, (1, [(1, 1), (5, 1), (17, 1)])), (3, (1, [(2, 2), (4, 1), (5, 2), (6, 1), (17, 2)])), (4, (1, [(3, 2), (4, 1), (5, 2), (6, 1), (17, 2)])), (5, (1, [(2, 2), (3, 2), (4, 1), (5, 2), (17, 2)]))] 0 (1, [(4, 1), (5, 2), (6, 1), (17, 2)])],
    .no [(0, (1, [(5, 1), (11, 1)])), (1, (1, [(4, 1), (11, 1)])), (2, (1, [(1, 2), (2, 1), (3, 1), (5, 1), (13, 1)])), (3, (1, [(2, 3), (3, 1), (4, 1), (5, 1), (13, 1)])), (4, (1, [(2, 1), (3, 3), (4, 1), (5, 1), (13, 1)])), (5, (1, [(1, 2), (2, 4), (3, 4), (4, 1), (5, 2), (13, 2)]))] 0 (1, [(2, 1), (3, 1), (4, 1), (5, 1), (13, 1)]),
    .no [(0, (1, [(5, 1), (11, 1)])), (1, (1, [(4, 1), (11, 1)])), (2, (1, [(1, 4), (3, 2), (5, 1), (7, 1), (15, 1)])), (3, (1, [(1, 2), (4, 2), (5, 2), (8, 1), (12, 2)])), (4, (1, [(1, 2), (4, 2), (5, 2), (7, 1), (12, 2)])), (5, (1, [(1, 4), (4, 1), (5, 2), (12, 2)]))] 0 (1, [(1, 2), (3, 2), (4, 1), (5, 1), (7, 1), (15, 1)]),
    .no [(0, (1, [(5, 1), (11, 1)])), (1, (1, [(4, 1), (11, 1)])), (2, (1, [(1, 2), (3, 2), (5, 1), (11, 1), (15, 1)])), (3, (1, [(2, 2), (3, 2), (15, 1)])), (4, (1, [(3, 4), (15, 1)])), (5, (1, [(1, 2), (2, 2), (3, 6), (5, 1), (11, 1), (15, 2)]))] 0 (1, [(3, 2), (15, 1)]),
    .no [(0, (1, [(5, 1), (11, 1)])), (1, (1, [(4, 1), (11, 1)])), (2, (1, [(1, 1), (2, 1), (3, 1), (5, 1), (13, 1)])), (3, (1, [(2, 4), (3, 2), (4, 1), (5, 2), (6, 1), (13, 2)])), (4, (1, [(2, 2), (3, 4), (4, 1), (5, 2), (6, 1), (13, 2)])), (5, (1, [(2, 4), (3, 4), (4, 1), (5, 2), (13, 2)]))] 0 (1, [(2, 2), (3, 2), (4, 1), (5, 2), (6, 1), (13, 2)]),
    .no [(0, (1, [(5, 1), (11, 1)])), (1, (1, [(4, 1), (11, 1)])), (2, (1, [(4, 1), (5, 2), (8, 1), (12, 2)])), (3, (1, [(4, 2), (5, 2), (8, 1), (12, 2), (16, 2)])), (4, (1, [(4, 1), (5, 2), (6, 1), (12, 2)])), (5, (1, [(2, 2), (4, 1), (5, 2), (12, 2)]))] 0 (1, [(4, 3), (5, 4), (8, 1), (9, 1), (12, 4), (16, 2)]),
    .node [
      .no [(0, (1, [(5, 1), (11, 1)])), (1, (1, [(4, 1), (11, 1)])), (2, (1, [(1, 3), (13, 1), (19, 1)])), (3, (1, [(3, 1), (4, 1), (5, 1), (13, 1), (16, 1)])), (4, (1, [(3, 1), (4, 1), (19, 1)])), (5, (1, [(1, 1), (3, 1), (4, 1), (5, 1), (16, 1), (19, 1)]))] 0 (1, [(1, 1), (4, 1), (13, 1), (19, 1)]),
      .no [(0, (1, [(5, 1), (11, 1)])), (1, (1, [(4, 1), (11, 1)])), (2, (1, [(1, 4), (13, 1), (19, 1)])), (3, (1, [(1, 2), (2, 2), (4, 1), (13, 1), (19, 1)])), (4, (1, [(1, 1), (3, 1), (4, 1), (19, 1)])), (5, (1, [(1, 4), (2, 2), (4, 1), (19, 2)]))] 0 (1, [(1, 2), (4, 1), (13, 1), (19, 1)]),
      .no [(0, (1, [(5, 1), (11, 1)])), (1, (1, [(4, 1), (11, 1)])), (2, (1, [(1, 3), (2, 2), (5, 1), (17, 1)])), (3, (1, [(1, 1), (2, 4), (4, 1), (5, 1), (17, 1)])), (4, (1, [(1, 1), (2, 2), (3, 2), (4, 1), (5, 1), (17, 1)])), (5, (1, [(1, 4), (2, 6), (3, 2), (4, 1), (5, 2), (17, 2)]))] 0 (1, [(1, 1), (2, 2), (4, 1), (5, 1), (17, 1)]),
      .no [(0, (1, [(5, 1), (11, 1)])), (1, (1, [(4, 1), (11, 1)])), (2, (1, [(1, 4), (5, 1), (13, 2), (16, 1), (23, 2)])), (3, (1, [(4, 1), (5, 1), (16, 1)])), (4, (1, [(4, 1), (5, 1), (16, 1), (23, 2)])), (5, (1, [(1, 2), (4, 1), (5, 2), (16, 2), (23, 2)]))] 0 (1, [(1, 2), (4, 1), (5, 1), (13, 2), (16, 1), (23, 2)]),
      .yes [(0, (1, [(5, 1), (11, 1)])), (1, (1, [(4, 1), (11, 1)]))] 3 [((1, [(5, 1), (11, 1)]), (1, [(4, 1)])), ((1, [(4, 1), (11, 1)]), (1, [(5, 1)])), ((1, [(3, 1), (13, 1)]), (1, [(1, 1)])), ((2, [(17, 1)]), (1, [(2, 1)])), ((1, [(1, 1), (13, 1)]), (1, [(3, 1)]))],
      .no [(0, (1, [(5, 1), (11, 1)])), (1, (1, [(4, 1), (11, 1)])), (2, (1, [(1, 2), (2, 2), (5, 1), (17, 1)])), (3, (1, [(2, 4), (4, 1), (5, 1), (17, 1)])), (4, (1, [(2, 2), (3, 2), (4, 1), (5, 1), (17, 1)])), (5, (1, [(1, 2), (2, 6), (3, 2), (4, 1), (5, 2), (17, 2)]))] 0 (1, [(2, 2), (4, 1), (5, 1), (17, 1)]),
      .no [(0, (1, [(5, 1), (11, 1)])), (1, (1, [(4, 1), (11, 1)])), (2, (1, [(1, 2), (3, 1), (18, 1)])), (3, (1, [(1, 1), (4, 1), (5, 1), (16, 1)])), (4, (1, [(3, 3), (4, 1), (18, 1)])), (5, (1, [(1, 3), (3, 3), (4, 1), (5, 1), (16, 1), (18, 1)]))] 0 (1, [(3, 1), (4, 1), (18, 1)]),
      .no [(0, (1, [(5, 1), (11, 1)])), (1, (1, [(4, 1), (11, 1)])), (2, (1, [(1, 1), (3, 1), (18, 1)])), (3, (1, [(2, 2), (3, 2), (4, 1), (13, 1), (18, 1)])), (4, (1, [(3, 4), (4, 1), (13, 1), (18, 1)])), (5, (1, [(2, 2), (3, 4), (4, 1), (18, 2)]))] 0 (1, [(3, 2), (4, 1), (13, 1), (18, 1)]),
      .no [(0, (1, [(5, 1), (11, 1)])), (1, (1, [(4, 1), (11, 1)])), (2, (1, [(1, 1), (2, 2), (5, 1), (17, 1)])), (3, (1, [(2, 4), (3, 1), (4, 1), (5, 1), (13, 1), (17, 1)])), (4, (1, [(2, 2), (3, 3), (4, 1), (5, 1), (13, 1), (17, 1)])), (5, (1, [(2, 6), (3, 2), (4, 1), (5, 2), (17, 2)]))] 0 (1, [(2, 2), (3, 1), (4, 1), (5, 1), (13, 1), (17, 1)]),
      .no [(0, (1, [(5, 1), (11, 1)])), (1, (1, [(4, 1), (11, 1)])), (2, (1, [(4, 1), (5, 2), (7, 1), (16, 2)])), (3, (1, [(2, 1), (3, 1), (4, 1), (5, 1), (13, 1), (16, 1)])), (4, (1, [(3, 4), (4, 2), (5, 2), (7, 1), (13, 2), (16, 2)])), (5, (1, [(3, 2), (4, 1), (5, 2), (16, 2)]))] 0 (1, [(3, 2), (4, 2), (5, 2), (7, 1), (13, 2), (16, 2)]),
      .no [(0, (1, [(5, 1), (11, 1)])), (1, (1, [(4, 1), (11, 1)])), (2, (1, [(1, 3), (19, 1)])), (3, (1, [(1, 1), (2, 2), (4, 1), (19, 1)])), (4, (1, [(1, 1), (3, 2), (4, 1), (19, 1)])), (5, (1, [(1, 4), (2, 2), (3, 2), (4, 1), (19, 2)]))] 0 (1, [(1, 1), (4, 1), (19, 1)]),
      .no [(0, (1, [(5, 1), (11, 1)])), (1, (1, [(4, 1), (11, 1)])), (2, (1, [(1, 3), (2, 1), (5, 1), (17, 1)])), (3, (1, [(1, 1), (2, 3), (4, 1), (5, 1), (17, 1)])), (4, (1, [(1, 1), (2, 1), (3, 2), (4, 1), (5, 1), (17, 1)])), (5, (1, [(1, 4), (2, 4), (3, 2), (4, 1), (5, 2), (17, 2)]))] 0 (1, [(1, 1), (2, 1), (4, 1), (5, 1), (17, 1)]),
      .no [(0, (1, [(5, 1), (11, 1)])), (1, (1, [(4, 1), (11, 1)])), (2, (1, [(1, 2), (4, 1), (5, 2), (7, 1), (16, 2)])), (3, (1, [(2, 1), (4, 1), (5, 1), (16, 1)])), (4, (1, [(3, 2), (4, 2), (5, 2), (7, 1), (16, 2)])), (5, (1, [(1, 2), (3, 2), (4, 1), (5, 2), (16, 2)]))] 0 (1, [(4, 2), (5, 2), (7, 1), (16, 2)]),
      .no [(0, (1, [(5, 1), (11, 1)])), (1, (1, [(4, 1), (11, 1)])), (2, (1, [(1, 2), (5, 1), (20, 1)])), (3, (1, [(2, 2), (4, 1), (5, 1), (20, 1)])), (4, (1, [(3, 2), (4, 1), (5, 1), (20, 1)])), (5, (1, [(1, 2), (2, 2), (3, 2), (4, 1), (5, 2), (20, 2)]))] 0 (1, [(4, 1), (5, 1), (20, 1)]),
      .no [(0, (1, [(5, 1), (11, 1)])), (1, (1, [(4, 1), (11, 1)])), (2, (1, [(1, 2), (2, 1), (5, 1), (17, 1)])), (3, (1, [(2, 3), (4, 1), (5, 1), (17, 1)])), (4, (1, [(2, 1), (3, 2), (4, 1), (5, 1), (17, 1)])), (5, (1, [(1, 2), (2, 4), (3, 2), (4, 1), (5, 2), (17, 2)]))] 0 (1, [(2, 1), (4, 1), (5, 1), (17, 1)]),
      .no [(0, (1, [(5, 1), (11, 1)])), (1, (1, [(4, 1), (11, 1)])), (2, (1, [(1, 4), (4, 1), (5, 2), (7, 1), (16, 2)])), (3, (1, [(1, 1), (2, 1), (4, 1), (5, 1), (16, 1)])), (4, (1, [(1, 2), (3, 2), (4, 2), (5, 2), (7, 1), (16, 2)])), (5, (1, [(1, 4), (3, 2), (4, 1), (5, 2), (16, 2)]))] 0 (1, [(1, 2), (4, 2), (5, 2), (7, 1), (16, 2)]),
      .no [(0, (1, [(5, 1), (11, 1)])), (1, (1, [(4, 1), (11, 1)])), (2, (1, [(1, 1), (18, 1)])), (3, (1, [(2, 2), (3, 1), (4, 1), (13, 1), (18, 1)])), (4, (1, [(3, 3), (4, 1), (13, 1), (18, 1)])), (5, (1, [(2, 2), (3, 2), (4, 1), (18, 2)]))] 0 (1, [(3, 1), (4, 1), (13, 1), (18, 1)]),
      .no [(0, (1, [(5, 1), (11, 1)])), (1, (1, [(4, 1), (11, 1)])), (2, (1, [(1, 1), (2, 1), (5, 1), (17, 1)])), (3, (1, [(2, 3), (3, 1), (4, 1), (5, 1), (13, 1), (17, 1)])), (4, (1, [(2, 1), (3, 3), (4, 1), (5, 1), (13, 1), (17, 1)])), (5, (1, [(2, 4), (3, 2), (4, 1), (5, 2), (17, 2)]))] 0 (1, [(2, 1), (3, 1), (4, 1), (5, 1), (13, 1), (17, 1)]),
      .no [(0, (1, [(5, 1), (11, 1)])), (1, (1, [(4, 1), (11, 1)])), (2, (1, [(1, 1), (5, 1), (16, 1)])), (3, (1, [(2, 2), (3, 1), (4, 1), (5, 1), (13, 1), (16, 1)])), (4, (1, [(3, 3), (4, 1), (5, 1), (13, 1), (16, 1)])), (5, (1, [(2, 2), (3, 2), (4, 1), (5, 2), (16, 2)]))] 0 (1, [(3, 1), (4, 1), (5, 1), (13, 1), (16, 1)]),
      .no [(0, (1, [(5, 1), (11, 1)])), (1, (1, [(4, 1), (11, 1)])), (2, (1, [(1, 3), (3, 1), (19, 1)])), (3, (1, [(1, 1), (2, 2), (3, 1), (4, 1), (19, 1)])), (4, (1, [(1, 1), (3, 3), (4, 1), (19, 1)])), (5, (1, [(1, 4), (2, 2), (3, 4), (4, 1), (19, 2)]))] 0 (1, [(1, 1), (3, 1), (4, 1), (19, 1)]),
      .no [(0, (1, [(5, 1), (11, 1)])), (1, (1, [(4, 1), (11, 1)])), (2, (1, [(1, 3), (5, 1), (17, 1)])), (3, (1, [(1, 1), (2, 2), (4, 1), (5, 1), (17, 1)])), (4, (1, [(1, 1), (3, 2), (4, 1), (5, 1), (17, 1)])), (5, (1, [(1, 4), (2, 2), (3, 2), (4, 1), (5, 2), (17, 2)]))] 0 (1, [(1, 1), (4, 1), (5, 1), (17, 1)]),
      .no [(0, (1, [(5, 1), (11, 1)])), (1, (1, [(4, 1), (11, 1)])), (2, (1, [(1, 2), (5, 1), (16, 1)])), (3, (1, [(2, 2), (4, 1), (5, 1), (16, 1)])), (4, (1, [(3, 2), (4, 1), (5, 1), (16, 1)])), (5, (1, [(1, 2), (2, 2), (3, 2), (4, 1), (5, 2), (16, 2)]))] 0 (1, [(4, 1), (5, 1), (16, 1)]),
      .yes [(0, (1, [(5, 1), (11, 1)])), (1, (1, [(4, 1), (11, 1)]))] 3 [((1, [(5, 1), (11, 1)]), (1, [(4, 1)])), ((1, [(4, 1), (11, 1)]), (1, [(5, 1)])), ((1, [(3, 1), (13, 1)]), (1, [(1, 1)])), ((1, [(1, 1), (13, 1), (23, 1)]), (1, [(2, 1)])), ((1, [(1, 1), (13, 1)]), (1, [(3, 1)]))],
      .no [(0, (1, [(5, 1), (11, 1)])), (1, (1, [(4, 1), (11, 1)])), (2, (1, [(1, 2), (5, 1), (17, 1)])), (3, (1, [(2, 2), (4, 1), (5, 1), (17, 1)])), (4, (1, [(3, 2), (4, 1), (5, 1), (17, 1)])), (5, (1, [(1, 2), (2, 2), (3, 2), (4, 1), (5, 2), (17, 2)]))] 0 (1, [(4, 1), (5, 1), (17, 1)]),
      .no [(0, (1, [(5, 1), (11, 1)])), (1, (1, [(4, 1), (11, 1)])), (2, (1, [(1, 3), (5, 1), (16, 1)])), (3, (1, [(1, 1), (2, 2), (4, 1), (5, 1), (16, 1)])), (4, (1, [(1, 1), (3, 2), (4, 1), (5, 1), (16, 1)])), (5, (1, [(1, 4), (2, 2), (3, 2), (4, 1), (5, 2), (16, 2)]))] 0 (1, [(1, 1), (4, 1), (5, 1), (16, 1)]),
      .no [(0, (1, [(5, 1), (11, 1)])), (1, (1, [(4, 1), (11, 1)])), (2, (1, [(1, 2), (13, 1), (18, 1)])), (3, (1, [(2, 2), (4, 1), (13, 1), (18, 1)])), (4, (1, [(3, 2), (4, 1), (13, 1), (18, 1)])), (5, (1, [(2, 2), (4, 1), (18, 2)]))] 0 (1, [(4, 1), (13, 1), (18, 1)]),
      .no [(0, (1, [(5, 1), (11, 1)])), (1, (1, [(4, 1), (11, 1)])), (2, (1, [(1, 1), (5, 1), (17, 1)])), (3, (1, [(2, 2), (3, 1), (4, 1), (5, 1), (13, 1), (17, 1)])), (4, (1, [(3, 3), (4, 1), (5, 1), (13, 1), (17, 1)])), (5, (1, [(2, 2), (3, 2), (4, 1), (5, 2), (17, 2)]))] 0 (1, [(3, 1), (4, 1), (5, 1), (13, 1), (17, 1)])],
    .no [(0, (1, [(5, 1), (11, 1)])), (1, (1, [(4, 1), (11, 1)])), (2, (1, [(1, 3), (3, 1), (5, 1), (13, 1)])), (3, (1, [(1, 1), (2, 2), (3, 1), (4, 1), (5, 1), (13, 1)])), (4, (1, [(1, 1), (3, 3), (4, 1), (5, 1), (13, 1)])), (5, (1, [(1, 4), (2, 2), (3, 4), (4, 1), (5, 2), (13, 2)]))] 0 (1, [(1, 1), (3, 1), (4, 1), (5, 1), (13, 1)]),
    .no [(0, (1, [(5, 1), (11, 1)])), (1, (1, [(4, 1), (11, 1)])), (2, (1, [(1, 2), (4, 1), (5, 2), (8, 1), (12, 2)])), (3, (1, [(2, 2), (4, 2), (5, 2), (8, 1), (12, 2)])), (4, (1, [(3, 1), (4, 1), (5, 1), (12, 1)])), (5, (1, [(1, 2), (2, 2), (4, 1), (5, 2), (12, 2)]))] 0 (1, [(4, 2), (5, 2), (8, 1), (12, 2)]),
    .no [(0, (1, [(5, 1), (11, 1)])), (1, (1, [(4, 1), (11, 1)])), (2, (1, [(1, 2), (14, 1)])), (3, (1, [(2, 2), (4, 1), (14, 1)])), (4, (1, [(3, 2), (4, 1), (14, 1)])), (5, (1, [(1, 2), (2, 2), (3, 2), (4, 1), (14, 2)]))] 0 (1, [(4, 1), (14, 1)]),
    .no [(0, (1, [(5, 1), (11, 1)])), (1, (1, [(4, 1), (11, 1)])), (2, (1, [(1, 2), (3, 1), (5, 1), (13, 1)])), (3, (1, [(2, 2), (3, 1), (4, 1), (5, 1), (13, 1)])), (4, (1, [(3, 3), (4, 1), (5, 1), (13, 1)])), (5, (1, [(1, 2), (2, 2), (3, 4), (4, 1), (5, 2), (13, 2)]))] 0 (1, [(3, 1), (4, 1), (5, 1), (13, 1)]),
    .no [(0, (1, [(5, 1), (11, 1)])), (1, (1, [(4, 1), (11, 1)])), (2, (1, [(1, 4), (4, 1), (5, 2), (8, 1), (12, 2)])), (3, (1, [(1, 2), (2, 2), (4, 2), (5, 2), (8, 1), (12, 2)])), (4, (1, [(1, 1), (3, 1), (4, 1), (5, 1), (12, 1)])), (5, (1, [(1, 4), (2, 2), (4, 1), (5, 2), (12, 2)]))] 0 (1, [(1, 2), (4, 2), (5, 2), (8, 1), (12, 2)]),
    .node [
      .yes [(0, (1, [(5, 1), (11, 1)])), (1, (1, [(4, 1), (11, 1)])), (5, (1, [(4, 1), (5, 1), (12, 1), (16, 1), (18, 1)]))] 5 [((1, [(5, 1), (11, 1)]), (1, [(4, 1)])), ((1, [(4, 1), (11, 1)]), (1, [(5, 1)])), ((1, [(5, 1), (9, 1), (12, 2), (16, 1)]), (1, [(4, 1), (13, 1), (18, 1)])), ((2, [(4, 1), (11, 3), (13, 1), (17, 3), (18, 1)]), (2, [(4, 3), (5, 4), (9, 1), (12, 2), (16, 4)])), ((1, [(5, 1), (9, 1), (13, 1), (16, 1)]), (1, [(4, 1), (12, 2), (18, 1)]))],
      .no [(0, (1, [(5, 1), (11, 1)])), (1, (1, [(4, 1), (11, 1)])), (2, (1, [(13, 1), (18, 1)])), (3, (1, [(2, 6), (4, 1), (13, 1), (17, 2), (18, 1)])), (4, (1, [(4, 1), (12, 1), (18, 1)])), (5, (1, [(2, 2), (4, 1), (18, 2)]))] 0 (1, [(2, 4), (4, 1), (13, 1), (17, 2), (18, 1)]),
      .no [(0, (1, [(5, 1), (11, 1)])), (1, (1, [(4, 1), (11, 1)])), (2, (1, [(1, 3), (2, 2), (5, 1), (17, 1)])), (3, (1, [(1, 1), (2, 4), (4, 1), (5, 1), (17, 1)])), (4, (1, [(1, 1), (2, 2), (3, 2), (4, 1), (5, 1), (17, 1)])), (5, (1, [(1, 4), (2, 6), (3, 2), (4, 1), (5, 2), (17, 2)]))] 0 (1, [(1, 1), (2, 2), (4, 1), (5, 1), (17, 1)]),
      .no [(0, (1, [(5, 1), (11, 1)])), (1, (1, [(4, 1), (11, 1)])), (2, (1, [(5, 1), (13, 2), (16, 1), (23, 2)])), (3, (1, [(4, 1), (5, 1), (16, 1)])), (4, (1, [(4, 1), (5, 1), (16, 1), (23, 2)])), (5, (1, [(1, 2), (4, 1), (5, 2), (16, 2), (23, 2)]))] 0 (1, [(1, 4), (4, 1), (5, 1), (16, 1), (19, 2), (23, 2)]),
      .yes [(0, (1, [(5, 1), (11, 1)])), (1, (1, [(4, 1), (11, 1)]))] 3 [((1, [(5, 1), (11, 1)]), (1, [(4, 1)])), ((1, [(4, 1), (11, 1)]), (1, [(5, 1)])), ((1, [(3, 1), (19, 1)]), (1, [(1, 1)])), ((2, [(17, 1)]), (1, [(2, 1)])), ((1, [(1, 1), (19, 1)]), (1, [(3, 1)]))],
      .no [(0, (1, [(5, 1), (11, 1)])), (1, (1, [(4, 1), (11, 1)])), (2, (1, [(1, 2), (2, 2), (5, 1), (17, 1)])), (3, (1, [(2, 4), (4, 1), (5, 1), (17, 1)])), (4, (1, [(2, 2), (3, 2), (4, 1), (5, 1), (17, 1)])), (5, (1, [(1, 2), (2, 6), (3, 2), (4, 1), (5, 2), (17, 2)]))] 0 (1, [(2, 2), (4, 1), (5, 1), (17, 1)]),
      .no [(0, (1, [(5, 1), (11, 1)])), (1, (1, [(4, 1), (11, 1)])), (2, (1, [(1, 4), (3, 1), (19, 1)])), (3, (1, [(1, 1), (4, 1), (5, 1), (16, 1)])), (4, (1, [(1, 2), (3, 3), (4, 1), (19, 1)])), (5, (1, [(1, 5), (3, 3), (4, 1), (5, 1), (16, 1), (19, 1)]))] 0 (1, [(1, 2), (3, 1), (4, 1), (19, 1)]),
      .no [(0, (1, [(5, 1), (11, 1)])), (1, (1, [(4, 1), (11, 1)])), (2, (1, [(1, 3), (3, 1), (19, 1)])), (3, (1, [(1, 1), (2, 2), (3, 1), (4, 1), (19, 1)])), (4, (1, [(1, 1), (3, 3), (4, 1), (19, 1)])), (5, (1, [(1, 4), (2, 2), (3, 4), (4, 1), (19, 2)]))] 0 (1, [(1, 2), (4, 1), (12, 1), (19, 1)]),
      .no [(0, (1, [(5, 1), (11, 1)])), (1, (1, [(4, 1), (11, 1)])), (2, (1, [(1, 1), (2, 2), (5, 1), (17, 1)])), (3, (1, [(2, 6), (4, 1), (5, 2), (6, 1), (17, 2)])), (4, (1, [(2, 2), (3, 1), (4, 1), (5, 1), (12, 1), (17, 1)])), (5, (1, [(2, 6), (3, 2), (4, 1), (5, 2), (17, 2)]))] 0 (1, [(2, 4), (4, 1), (5, 2), (6, 1), (17, 2)]),
      .no [(0, (1, [(5, 1), (11, 1)])), (1, (1, [(4, 1), (11, 1)])), (2, (1, [(4, 1), (5, 2), (7, 1), (16, 2)])), (3, (1, [(4, 1), (5, 2), (6, 1), (16, 2)])), (4, (1, [(4, 2), (5, 2), (7, 1), (12, 2), (16, 2)])), (5, (1, [(3, 2), (4, 1), (5, 2), (16, 2)]))] 0 (1, [(4, 3), (5, 4), (7, 1), (9, 1), (12, 2), (16, 4)]),
      .no [(0, (1, [(5, 1), (11, 1)])), (1, (1, [(4, 1), (11, 1)])), (2, (1, [(1, 1), (18, 1)])), (3, (1, [(2, 3), (4, 1), (17, 1), (18, 1)])), (4, (1, [(3, 1), (4, 1), (12, 1), (18, 1)])), (5, (1, [(2, 2), (3, 2), (4, 1), (18, 2)]))] 0 (1, [(2, 1), (4, 1), (17, 1), (18, 1)]),
      .no [(0, (1, [(5, 1), (11, 1)])), (1, (1, [(4, 1), (11, 1)])), (2, (1, [(1, 3), (2, 1), (5, 1), (17, 1)])), (3, (1, [(1, 1), (2, 3), (4, 1), (5, 1), (17, 1)])), (4, (1, [(1, 1), (2, 1), (3, 2), (4, 1), (5, 1), (17, 1)])), (5, (1, [(1, 4), (2, 4), (3, 2), (4, 1), (5, 2), (17, 2)]))] 0 (1, [(1, 1), (2, 1), (4, 1), (5, 1), (17, 1)]),
      .no [(0, (1, [(5, 1), (11, 1)])), (1, (1, [(4, 1), (11, 1)])), (2, (1, [(1, 2), (4, 1), (5, 2), (7, 1), (16, 2)])), (3, (1, [(2, 1), (4, 1), (5, 1), (16, 1)])), (4, (1, [(3, 2), (4, 2), (5, 2), (7, 1), (16, 2)])), (5, (1, [(1, 2), (3, 2), (4, 1), (5, 2), (16, 2)]))] 0 (1, [(4, 2), (5, 2), (7, 1), (16, 2)]),
      .no [(0, (1, [(5, 1), (11, 1)])), (1, (1, [(4, 1), (11, 1)])), (2, (1, [(1, 2), (5, 1), (20, 1)])), (3, (1, [(2, 2), (4, 1), (5, 1), (20, 1)])), (4, (1, [(3, 2), (4, 1), (5, 1), (20, 1)])), (5, (1, [(1, 2), (2, 2), (3, 2), (4, 1), (5, 2), (20, 2)]))] 0 (1, [(4, 1), (5, 1), (20, 1)]),
      .no [(0, (1, [(5, 1), (11, 1)])), (1, (1, [(4, 1), (11, 1)])), (2, (1, [(1, 2), (2, 1), (5, 1), (17, 1)])), (3, (1, [(2, 3), (4, 1), (5, 1), (17, 1)])), (4, (1, [(2, 1), (3, 2), (4, 1), (5, 1), (17, 1)])), (5, (1, [(1, 2), (2, 4), (3, 2), (4, 1), (5, 2), (17, 2)]))] 0 (1, [(2, 1), (4, 1), (5, 1), (17, 1)]),
      .no [(0, (1, [(5, 1), (11, 1)])), (1, (1, [(4, 1), (11, 1)])), (2, (1, [(1, 4), (4, 1), (5, 2), (7, 1), (16, 2)])), (3, (1, [(1, 1), (2, 1), (4, 1), (5, 1), (16, 1)])), (4, (1, [(1, 2), (3, 2), (4, 2), (5, 2), (7, 1), (16, 2)])), (5, (1, [(1, 4), (3, 2), (4, 1), (5, 2), (16, 2)]))] 0 (1, [(1, 2), (4, 2), (5, 2), (7, 1), (16, 2)]),
      .no [(0, (1, [(5, 1), (11, 1)])), (1, (1, [(4, 1), (11, 1)])), (2, (1, [(1, 3), (19, 1)])), (3, (1, [(1, 1), (2, 2), (4, 1), (19, 1)])), (4, (1, [(1, 1), (3, 2), (4, 1), (19, 1)])), (5, (1, [(1, 4), (2, 2), (3, 2), (4, 1), (19, 2)]))] 0 (1, [(1, 1), (4, 1), (19, 1)]),
      .no [(0, (1, [(5, 1), (11, 1)])), (1, (1, [(4, 1), (11, 1)])), (2, (1, [(1, 1), (2, 1), (5, 1), (17, 1)])), (3, (1, [(2, 4), (4, 1), (5, 2), (6, 1), (17, 2)])), (4, (1, [(2, 1), (3, 1), (4, 1), (5, 1), (12, 1), (17, 1)])), (5, (1, [(2, 4), (3, 2), (4, 1), (5, 2), (17, 2)]))] 0 (1, [(2, 2), (4, 1), (5, 2), (6, 1), (17, 2)]),
      .no [(0, (1, [(5, 1), (11, 1)])), (1, (1, [(4, 1), (11, 1)])), (2, (1, [(1, 1), (5, 1), (16, 1)])), (3, (1, [(2, 2), (4, 1), (5, 2), (6, 1), (16, 2)])), (4, (1, [(3, 1), (4, 1), (5, 1), (12, 1), (16, 1)])), (5, (1, [(2, 2), (3, 2), (4, 1), (5, 2), (16, 2)]))] 0 (1, [(4, 1), (5, 2), (6, 1), (16, 2)]),
      .no [(0, (1, [(5, 1), (11, 1)])), (1, (1, [(4, 1), (11, 1)])), (2, (1, [(1, 1), (3, 1), (18, 1)])), (3, (1, [(2, 2), (3, 1), (4, 1), (17, 1), (18, 1)])), (4, (1, [(3, 2), (4, 1), (12, 1), (18, 1)])), (5, (1, [(2, 2), (3, 4), (4, 1), (18, 2)]))] 0 (1, [(3, 1), (4, 1), (17, 1), (18, 1)]),
      .no [(0, (1, [(5, 1), (11, 1)])), (1, (1, [(4, 1), (11, 1)])), (2, (1, [(1, 3), (5, 1), (17, 1)])), (3, (1, [(1, 1), (2, 2), (4, 1), (5, 1), (17, 1)])), (4, (1, [(1, 1), (3, 2), (4, 1), (5, 1), (17, 1)])), (5, (1, [(1, 4), (2, 2), (3, 2), (4, 1), (5, 2), (17, 2)]))] 0 (1, [(1, 1), (4, 1), (5, 1), (17, 1)]),
      .no [(0, (1, [(5, 1), (11, 1)])), (1, (1, [(4, 1), (11, 1)])), (2, (1, [(1, 2), (5, 1), (16, 1)])), (3, (1, [(2, 2), (4, 1), (5, 1), (16, 1)])), (4, (1, [(3, 2), (4, 1), (5, 1), (16, 1)])), (5, (1, [(1, 2), (2, 2), (3, 2), (4, 1), (5, 2), (16, 2)]))] 0 (1, [(4, 1), (5, 1), (16, 1)]),
      .yes [(0, (1, [(5, 1), (11, 1)])), (1, (1, [(4, 1), (11, 1)]))] 4 [((1, [(5, 1), (11, 1)]), (1, [(4, 1)])), ((1, [(4, 1), (11, 1)]), (1, [(5, 1)])), ((1, [(13, 1), (23, 1)]), (1, [(22, 1)])), ((1, [(13, 1)]), (1, [(12, 1)]))],
      .no [(0, (1, [(5, 1), (11, 1)])), (1, (1, [(4, 1), (11, 1)])), (2, (1, [(1, 2), (5, 1), (17, 1)])), (3, (1, [(2, 2), (4, 1), (5, 1), (17, 1)])), (4, (1, [(3, 2), (4, 1), (5, 1), (17, 1)])), (5, (1, [(1, 2), (2, 2), (3, 2), (4, 1), (5, 2), (17, 2)]))] 0 (1, [(4, 1), (5, 1), (17, 1)]),
      .no [(0, (1, [(5, 1), (11, 1)])), (1, (1, [(4, 1), (11, 1)])), (2, (1, [(1, 3), (5, 1), (16, 1)])), (3, (1, [(1, 1), (2, 2), (4, 1), (5, 1), (16, 1)])), (4, (1, [(1, 1), (3, 2), (4, 1), (5, 1), (16, 1)])), (5, (1, [(1, 4), (2, 2), (3, 2), (4, 1), (5, 2), (16, 2)]))] 0 (1, [(1, 1), (4, 1), (5, 1), (16, 1)]),
      .no [(0, (1, [(5, 1), (11, 1)])), (1, (1, [(4, 1), (11, 1)])), (2, (1, [(1, 2), (13, 1), (19, 1)])), (3, (1, [(2, 2), (4, 1), (13, 1), (19, 1)])), (4, (1, [(1, 1), (3, 1), (4, 1), (19, 1)])), (5, (1, [(1, 4), (2, 2), (4, 1), (19, 2)]))] 0 (1, [(4, 1), (13, 1), (19, 1)]),
      .no [(0, (1, [(5, 1), (11, 1)])), (1, (1, [(4, 1), (11, 1)])), (2, (1, [(1, 1), (5, 1), (17, 1)])), (3, (1, [(2, 2), (4, 1), (5, 2), (6, 1), (17, 2)])), (4, (1, [(3, 1), (4, 1), (5, 1), (12, 1), (17, 1)])), (5, (1, [(2, 2), (3, 2), (4, 1), (5, 2), (17, 2)]))] 0 (1, [(4, 1), (5, 2), (6, 1), (17, 2)])],
    .no [(0, (1, [(5, 1), (11, 1)])), (1, (1, [(4, 1), (11, 1)])), (2, (1, [(1, 1), (3, 1), (5, 1), (13, 1)])), (3, (1, [(2, 2), (3, 2), (4, 1), (5, 2), (6, 1), (13, 2)])), (4, (1, [(3, 4), (4, 1), (5, 2), (6, 1), (13, 2)])), (5, (1, [(2, 2), (3, 4), (4, 1), (5, 2), (13, 2)]))] 0 (1, [(3, 2), (4, 1), (5, 2), (6, 1), (13, 2)]),
    .no [(0, (1, [(5, 1), (11, 1)])), (1, (1, [(4, 1), (11, 1)])), (2, (1, [(2, 2), (4, 1), (5, 2), (8, 1), (12, 2)])), (3, (1, [(2, 4), (3, 2), (5, 1), (6, 1), (15, 1)])), (4, (1, [(2, 2), (4, 1), (5, 2), (6, 1), (12, 2)])), (5, (1, [(2, 4), (4, 1), (5, 2), (12, 2)]))] 0 (1, [(2, 2), (3, 2), (5, 1), (6, 1), (15, 1)]),
    .no [(0, (1, [(5, 1), (11, 1)])), (1, (1, [(4, 1), (11, 1)])), (2, (1, [(1, 2), (3, 2), (5, 1), (11, 1), (15, 1)])), (3, (1, [(2, 2), (3, 2), (15, 1)])), (4, (1, [(3, 4), (15, 1)])), (5, (1, [(1, 2), (2, 2), (3, 6), (5, 1), (11, 1), (15, 2)]))] 0 (1, [(3, 2), (15, 1)]),
    .no [(0, (1, [(5, 1), (11, 1)])), (1, (1, [(4, 1), (11, 1)])), (2, (1, [(1, 4), (3, 2), (4, 1), (5, 2), (7, 1), (13, 2)])), (3, (1, [(1, 1), (2, 1), (3, 1), (4, 1), (5, 1), (13, 1)])), (4, (1, [(1, 2), (3, 4), (4, 2), (5, 2), (7, 1), (13, 2)])), (5, (1, [(1, 4), (3, 4), (4, 1), (5, 2), (13, 2)]))] 0 (1, [(1, 2), (3, 2), (4, 2), (5, 2), (7, 1), (13, 2)]),
    .no [(0, (1, [(5, 1), (11, 1)])), (1, (1, [(4, 1), (11, 1)])), (2, (1, [(1, 2), (2, 2), (4, 1), (5, 2), (8, 1), (12, 2)])), (3, (1, [(2, 4), (4, 2), (5, 2), (8, 1), (12, 2)])), (4, (1, [(2, 1), (3, 1), (4, 1), (5, 1), (12, 1)])), (5, (1, [(1, 2), (2, 4), (4, 1), (5, 2), (12, 2)]))] 0 (1, [(2, 2), (4, 2), (5, 2), (8, 1), (12, 2)]),
    .node [
      .yes [(0, (1, [(5, 1), (11, 1)])), (1, (1, [(4, 1), (11, 1)])), (5, (1, [(4, 1), (5, 2), (12, 2), (16, 2)]))] 7 [((1, [(5, 1), (11, 1)]), (1, [(4, 1)])), ((1, [(4, 1), (11, 1)]), (1, [(5, 1)])), ((1, [(9, 1)]), (1, [(4, 1), (5, 2), (12, 2), (16, 2)])), ((1, [(13, 1)]), (1, [(12, 1)]))],
      .no [(0, (1, [(5, 1), (11, 1)])), (1, (1, [(4, 1), (11, 1)])), (2, (2, [(1, 3), (5, 2), (11, 2), (13, 2), (17, 1), (18, 2)])), (3, (1, [(2, 3), (13, 1), (17, 1), (18, 1)])), (4, (1, [(2, 2), (3, 1), (17, 1), (18, 1)])), (5, (1, [(2, 2), (5, 1), (11, 1), (18, 2)]))] 0 (1, [(2, 1), (13, 1), (17, 1), (18, 1)]),
      .no [(0, (1, [(5, 1), (11, 1)])), (1, (1, [(4, 1), (11, 1)])), (2, (1, [(1, 3), (2, 2), (5, 1), (17, 1)])), (3, (1, [(1, 1), (2, 4), (4, 1), (5, 1), (17, 1)])), (4, (1, [(1, 1), (2, 2), (3, 2), (4, 1), (5, 1), (17, 1)])), (5, (1, [(1, 4), (2, 6), (3, 2), (4, 1), (5, 2), (17, 2)]))] 0 (1, [(1, 1), (2, 2), (4, 1), (5, 1), (17, 1)]),
      .no [(0, (1, [(5, 1), (11, 1)])), (1, (1, [(4, 1), (11, 1)])), (2, (1, [(5, 1), (7, 1), (11, 1), (18, 2)])), (3, (1, [(4, 1), (5, 1), (16, 1)])), (4, (1, [(4, 1), (5, 1), (12, 2), (16, 1)])), (5, (1, [(1, 2), (4, 1), (5, 2), (12, 2), (16, 2)]))] 0 (1, [(5, 1), (9, 1), (12, 2), (16, 1), (18, 2)]),
      .no [(0, (1, [(5, 1), (11, 1)])), (1, (1, [(4, 1), (11, 1)])), (2, (1, [(1, 1), (5, 1), (11, 1), (18, 1)])), (3, (1, [(2, 2), (5, 1), (6, 1), (11, 1), (18, 2)])), (4, (1, [(3, 2), (5, 1), (6, 1), (11, 1), (18, 2)])), (5, (1, [(2, 2), (3, 2), (5, 1), (11, 1), (18, 2)]))] 0 (1, [(5, 1), (6, 1), (11, 1), (18, 2)]),
      .no [(0, (1, [(5, 1), (11, 1)])), (1, (1, [(4, 1), (11, 1)])), (2, (1, [(1, 2), (2, 2), (5, 1), (17, 1)])), (3, (1, [(2, 4), (4, 1), (5, 1), (17, 1)])), (4, (1, [(2, 2), (3, 2), (4, 1), (5, 1), (17, 1)])), (5, (1, [(1, 2), (2, 6), (3, 2), (4, 1), (5, 2), (17, 2)]))] 0 (1, [(2, 2), (4, 1), (5, 1), (17, 1)]),
      .no [(0, (1, [(5, 1), (11, 1)])), (1, (1, [(4, 1), (11, 1)])), (2, (1, [(3, 2), (5, 1), (7, 1), (11, 1), (18, 2)])), (3, (1, [(1, 1), (4, 1), (5, 1), (16, 1)])), (4, (1, [(1, 1), (4, 1), (5, 1), (12, 2), (16, 1)])), (5, (1, [(1, 4), (4, 1), (5, 2), (12, 2), (16, 2)]))] 0 (1, [(3, 10), (5, 2), (7, 3), (9, 2), (16, 2), (18, 6)]),
      .no [(0, (1, [(5, 1), (11, 1)])), (1, (1, [(4, 1), (11, 1)])), (2, (1, [(1, 1), (3, 1), (5, 1), (11, 1), (18, 1)])), (3, (1, [(3, 1), (16, 1), (18, 1)])), (4, (1, [(3, 1), (12, 2), (16, 1), (18, 1)])), (5, (1, [(2, 2), (3, 4), (5, 1), (11, 1), (18, 2)]))] 0 (1, [(3, 2), (5, 1), (6, 1), (11, 1), (18, 2)]),
      .no [(0, (1, [(5, 1), (11, 1)])), (1, (1, [(4, 1), (11, 1)])), (2, (1, [(1, 1), (2, 2), (5, 1), (17, 1)])), (3, (1, [(2, 6), (4, 1), (5, 2), (6, 1), (17, 2)])), (4, (1, [(2, 4), (3, 2), (4, 1), (5, 2), (6, 1), (17, 2)])), (5, (1, [(2, 6), (3, 2), (4, 1), (5, 2), (17, 2)]))] 0 (1, [(2, 4), (4, 1), (5, 2), (6, 1), (17, 2)]),
      .no [(0, (1, [(5, 1), (11, 1)])), (1, (1, [(4, 1), (11, 1)])), (2, (1, [(4, 1), (5, 2), (7, 1), (16, 2)])), (3, (1, [(4, 1), (5, 2), (6, 1), (16, 2)])), (4, (1, [(4, 1), (5, 2), (6, 1), (12, 2), (16, 2)])), (5, (1, [(3, 2), (4, 1), (5, 2), (16, 2)]))] 0 (1, [(4, 2), (5, 4), (6, 1), (9, 1), (12, 2), (16, 4)]),
      .yes [(0, (1, [(5, 1), (11, 1)])), (1, (1, [(4, 1), (11, 1)]))] 3 [((1, [(5, 1), (11, 1)]), (1, [(4, 1)])), ((1, [(4, 1), (11, 1)]), (1, [(5, 1)])), ((1, [(2, 1), (17, 1)]), (1, [(1, 1)])), ((1, [(1, 1), (17, 1)]), (1, [(2, 1)])), ((1, [(1, 1), (13, 1), (17, 1)]), (1, [(3, 1)]))],
      .no [(0, (1, [(5, 1), (11, 1)])), (1, (1, [(4, 1), (11, 1)])), (2, (1, [(1, 3), (2, 1), (5, 1), (17, 1)])), (3, (1, [(1, 1), (2, 3), (4, 1), (5, 1), (17, 1)])), (4, (1, [(1, 1), (2, 1), (3, 2), (4, 1), (5, 1), (17, 1)])), (5, (1, [(1, 4), (2, 4), (3, 2), (4, 1), (5, 2), (17, 2)]))] 0 (1, [(1, 1), (2, 1), (4, 1), (5, 1), (17, 1)]),
      .no [(0, (1, [(5, 1), (11, 1)])), (1, (1, [(4, 1), (11, 1)])), (2, (1, [(1, 2), (4, 1), (5, 2), (7, 1), (16, 2)])), (3, (1, [(2, 1), (4, 1), (5, 1), (16, 1)])), (4, (1, [(3, 1), (4, 1), (5, 1), (12, 1), (16, 1)])), (5, (1, [(1, 2), (3, 2), (4, 1), (5, 2), (16, 2)]))] 0 (1, [(4, 2), (5, 2), (7, 1), (16, 2)]),
      .no [(0, (1, [(5, 1), (11, 1)])), (1, (1, [(4, 1), (11, 1)])), (2, (1, [(1, 2), (5, 1), (20, 1)])), (3, (1, [(2, 2), (4, 1), (5, 1), (20, 1)])), (4, (1, [(3, 2), (4, 1), (5, 1), (20, 1)])), (5, (1, [(1, 2), (2, 2), (3, 2), (4, 1), (5, 2), (20, 2)]))] 0 (1, [(4, 1), (5, 1), (20, 1)]),
      .no [(0, (1, [(5, 1), (11, 1)])), (1, (1, [(4, 1), (11, 1)])), (2, (1, [(1, 2), (2, 1), (5, 1), (17, 1)])), (3, (1, [(2, 3), (4, 1), (5, 1), (17, 1)])), (4, (1, [(2, 1), (3, 2), (4, 1), (5, 1), (17, 1)])), (5, (1, [(1, 2), (2, 4), (3, 2), (4, 1), (5, 2), (17, 2)]))] 0 (1, [(2, 1), (4, 1), (5, 1), (17, 1)]),
      .no [(0, (1, [(5, 1), (11, 1)])), (1, (1, [(4, 1), (11, 1)])), (2, (1, [(1, 4), (4, 1), (5, 2), (7, 1), (16, 2)])), (3, (1, [(1, 1), (2, 1), (4, 1), (5, 1), (16, 1)])), (4, (1, [(1, 1), (3, 1), (4, 1), (5, 1), (12, 1), (16, 1)])), (5, (1, [(1, 4), (3, 2), (4, 1), (5, 2), (16, 2)]))] 0 (1, [(1, 2), (4, 2), (5, 2), (7, 1), (16, 2)]),
      .yes [(0, (1, [(5, 1), (11, 1)])), (1, (1, [(4, 1), (11, 1)]))] 4 [((1, [(5, 1), (11, 1)]), (1, [(4, 1)])), ((1, [(4, 1), (11, 1)]), (1, [(5, 1)])), ((1, [(17, 1)]), (1, [(16, 1)])), ((1, [(13, 1), (17, 1)]), (1, [(12, 1), (16, 1)]))],
      .no [(0, (1, [(5, 1), (11, 1)])), (1, (1, [(4, 1), (11, 1)])), (2, (1, [(1, 1), (2, 1), (5, 1), (17, 1)])), (3, (1, [(2, 4), (4, 1), (5, 2), (6, 1), (17, 2)])), (4, (1, [(2, 2), (3, 2), (4, 1), (5, 2), (6, 1), (17, 2)])), (5, (1, [(2, 4), (3, 2), (4, 1), (5, 2), (17, 2)]))] 0 (1, [(2, 2), (4, 1), (5, 2), (6, 1), (17, 2)]),
      .no [(0, (1, [(5, 1), (11, 1)])), (1, (1, [(4, 1), (11, 1)])), (2, (1, [(1, 1), (5, 1), (16, 1)])), (3, (1, [(2, 2), (4, 1), (5, 2), (6, 1), (16, 2)])), (4, (1, [(3, 2), (4, 1), (5, 2), (6, 1), (16, 2)])), (5, (1, [(2, 2), (3, 2), (4, 1), (5, 2), (16, 2)]))] 0 (1, [(4, 1), (5, 2), (6, 1), (16, 2)]),
      .no [(0, (1, [(5, 1), (11, 1)])), (1, (1, [(4, 1), (11, 1)])), (2, (1, [(1, 3), (3, 1), (5, 1), (11, 1), (19, 1)])), (3, (1, [(1, 1), (2, 2), (3, 1), (19, 1)])), (4, (1, [(1, 1), (3, 3), (19, 1)])), (5, (1, [(1, 4), (2, 2), (3, 4), (5, 1), (11, 1), (19, 2)]))] 0 (1, [(1, 1), (3, 1), (19, 1)]),
      .no [(0, (1, [(5, 1), (11, 1)])), (1, (1, [(4, 1), (11, 1)])), (2, (1, [(1, 3), (5, 1), (17, 1)])), (3, (1, [(1, 1), (2, 2), (4, 1), (5, 1), (17, 1)])), (4, (1, [(1, 1), (3, 2), (4, 1), (5, 1), (17, 1)])), (5, (1, [(1, 4), (2, 2), (3, 2), (4, 1), (5, 2), (17, 2)]))] 0 (1, [(1, 1), (4, 1), (5, 1), (17, 1)]),
      .no [(0, (1, [(5, 1), (11, 1)])), (1, (1, [(4, 1), (11, 1)])), (2, (1, [(1, 2), (5, 1), (16, 1)])), (3, (1, [(2, 2), (4, 1), (5, 1), (16, 1)])), (4, (1, [(3, 2), (4, 1), (5, 1), (16, 1)])), (5, (1, [(1, 2), (2, 2), (3, 2), (4, 1), (5, 2), (16, 2)]))] 0 (1, [(4, 1), (5, 1), (16, 1)]),
      .no [(0, (1, [(5, 1), (11, 1)])), (1, (1, [(4, 1), (11, 1)])), (2, (1, [(1, 3), (5, 1), (11, 1), (19, 1)])), (3, (1, [(1, 1), (2, 2), (19, 1)])), (4, (1, [(1, 1), (3, 2), (19, 1)])), (5, (1, [(1, 4), (2, 2), (3, 2), (5, 1), (11, 1), (19, 2)]))] 0 (1, [(1, 1), (19, 1)]),
      .no [(0, (1, [(5, 1), (11, 1)])), (1, (1, [(4, 1), (11, 1)])), (2, (1, [(1, 2), (5, 1), (17, 1)])), (3, (1, [(2, 2), (4, 1), (5, 1), (17, 1)])), (4, (1, [(3, 2), (4, 1), (5, 1), (17, 1)])), (5, (1, [(1, 2), (2, 2), (3, 2), (4, 1), (5, 2), (17, 2)]))] 0 (1, [(4, 1), (5, 1), (17, 1)]),
      .no [(0, (1, [(5, 1), (11, 1)])), (1, (1, [(4, 1), (11, 1)])), (2, (1, [(1, 3), (5, 1), (16, 1)])), (3, (1, [(1, 1), (2, 2), (4, 1), (5, 1), (16, 1)])), (4, (1, [(1, 1), (3, 2), (4, 1), (5, 1), (16, 1)])), (5, (1, [(1, 4), (2, 2), (3, 2), (4, 1), (5, 2), (16, 2)]))] 0 (1, [(1, 1), (4, 1), (5, 1), (16, 1)]),
      .no [(0, (1, [(5, 1), (11, 1)])), (1, (1, [(4, 1), (11, 1)])), (2, (1, [(1, 4), (5, 1), (8, 1), (11, 1), (19, 2)])), (3, (1, [(1, 1), (2, 1), (13, 1), (19, 1)])), (4, (1, [(1, 1), (3, 1), (19, 1)])), (5, (1, [(1, 4), (2, 2), (5, 1), (11, 1), (19, 2)]))] 0 (2, [(1, 6), (5, 1), (9, 1), (11, 1), (13, 2), (19, 4)]),
      .no [(0, (1, [(5, 1), (11, 1)])), (1, (1, [(4, 1), (11, 1)])), (2, (1, [(1, 1), (5, 1), (17, 1)])), (3, (1, [(2, 2), (4, 1), (5, 2), (6, 1), (17, 2)])), (4, (1, [(3, 2), (4, 1), (5, 2), (6, 1), (17, 2)])), (5, (1, [(2, 2), (3, 2), (4, 1), (5, 2), (17, 2)]))] 0 (1, [(4, 1), (5, 2), (6, 1), (17, 2)])],
    .no [(0, (1, [(5, 1), (11, 1)])), (1, (1, [(4, 1), (11, 1)])), (2, (1, [(1, 2), (3, 2), (4, 1), (5, 2), (7, 1), (13, 2)])), (3, (1, [(2, 1), (3, 1), (4, 1), (5, 1), (13, 1)])), (4, (1, [(3, 4), (4, 2), (5, 2), (7, 1), (13, 2)])), (5, (1, [(1, 2), (3, 4), (4, 1), (5, 2), (13, 2)]))] 0 (1, [(3, 2), (4, 2), (5, 2), (7, 1), (13, 2)]),
    .no [(0, (1, [(5, 1), (11, 1)])), (1, (1, [(4, 1), (11, 1)])), (2, (1, [(1, 4), (2, 2), (4, 1), (5, 2), (8, 1), (12, 2)])), (3, (1, [(1, 2), (2, 4), (4, 2), (5, 2), (8, 1), (12, 2)])), (4, (1, [(1, 1), (2, 1), (3, 1), (4, 1), (5, 1), (12, 1)])), (5, (1, [(1, 4), (2, 4), (4, 1), (5, 2), (12, 2)]))] 0 (1, [(1, 2), (2, 2), (4, 2), (5, 2), (8, 1), (12, 2)]),
    .no [(0, (1, [(5, 1), (11, 1)])), (1, (1, [(4, 1), (11, 1)])), (4, (1, [(15, 1)])), (5, (1, [(5, 1), (11, 1), (13, 2), (15, 2)])), (2, (1, [(5, 1), (11, 1), (13, 2), (15, 1), (18, 2)])), (3, (1, [(13, 2), (15, 1), (16, 2), (18, 2)]))] 0 (1, [(13, 2), (15, 1), (16, 2), (18, 4)]),
    .no [(0, (1, [(5, 1), (11, 1)])), (1, (1, [(4, 1), (11, 1)])), (2, (1, [(3, 2), (4, 1), (5, 2), (7, 1), (13, 2)])), (3, (1, [(3, 2), (4, 1), (5, 2), (6, 1), (13, 2)])), (4, (1, [(3, 2), (4, 1), (5, 2), (6, 1), (13, 2), (17, 2)])), (5, (1, [(3, 4), (4, 1), (5, 2), (13, 2)]))] 0 (1, [(4, 1), (5, 2), (6, 1), (13, 2), (17, 2)])]

theorem treeII_1_ok : treeII_1.check false (0, 0, 1) = true := by decide +kernel

/-- All symmetries with first column `(0, 1, -1)`. -/
def treeII_2 : Tree1 :=
  .no [(0, (2, [(0, 1), (1, 2), (5, 1), (11, 1)])), (1, (1, [(0, 1), (1, 2), (4, 2), (11, 1)])), (2, (1, [(1, 4), (4, 1), (5, 1), (11, 1)])), (3, (1, [(1, 2), (2, 2), (4, 2), (5, 1), (11, 1)])), (4, (1, [(1, 2), (3, 2), (4, 2), (5, 1), (11, 1)])), (5, (1, [(1, 6), (2, 2), (3, 2), (4, 3), (5, 2), (11, 2)]))] 0 (1, [(1, 2), (4, 2), (5, 1), (11, 1)])

theorem treeII_2_ok : treeII_2.check false (0, 1, -1) = true := by decide +kernel

/-- All symmetries with first column `(0, 1, 0)`. -/
def treeII_3 : Tree1 :=
  .node [
    .node [
      .no [(0, (1, [(11, 1)])), (1, (1, [(9, 1), (15, 1)])), (2, (1, [(1, 1), (4, 1), (5, 1), (7, 1), (8, 1), (19, 1)])), (3, (3, [(5, 3), (6, 1), (13, 3), (15, 2), (19, 1)])), (4, (3, [(4, 3), (5, 1), (6, 1), (9, 1), (12, 3), (19, 1)])), (5, (1, [(5, 1), (15, 1)]))] 0 (1, [(1, 1), (4, 1), (5, 1), (9, 1), (19, 1)]),
      .no [(0, (1, [(11, 1)])), (1, (1, [(9, 1), (15, 1)])), (2, (1, [(1, 2), (4, 1), (7, 1), (8, 2), (19, 2)])), (3, (2, [(4, 1), (5, 1), (13, 2), (15, 1), (16, 2)])), (4, (2, [(4, 3), (9, 1), (12, 2), (16, 2)])), (5, (1, [(5, 1), (15, 1)]))] 0 (1, [(1, 2), (7, 1), (13, 2), (19, 2)]),
      .no [(0, (1, [(11, 1)])), (1, (1, [(9, 1), (15, 1)])), (2, (1, [(1, 4), (2, 2), (8, 1), (21, 1)])), (3, (4, [(4, 1), (5, 3), (13, 4), (15, 3), (16, 2)])), (4, (4, [(4, 5), (9, 1), (12, 4), (16, 2)])), (5, (1, [(5, 1), (15, 1)]))] 0 (1, [(1, 3), (2, 2), (13, 1), (21, 1)]),
      .no [(0, (1, [(11, 1)])), (1, (1, [(9, 1), (15, 1)])), (2, (1, [(1, 3), (2, 2), (12, 1), (17, 2)])), (3, (4, [(5, 5), (6, 2), (11, 1), (13, 4), (15, 5), (17, 2)])), (4, (3, [(2, 2), (4, 3), (6, 1), (12, 4), (17, 2)])), (5, (1, [(5, 1), (15, 1)]))] 0 (1, [(1, 1), (2, 2), (4, 1), (12, 1), (17, 2)]),
      .no [(0, (1, [(11, 1)])), (1, (1, [(9, 1), (15, 1)])), (2, (1, [(1, 1), (2, 2), (12, 1), (17, 2)])), (3, (2, [(5, 3), (6, 2), (11, 1), (13, 2), (15, 3), (17, 2)])), (4, (1, [(2, 2), (4, 1), (6, 1), (12, 2), (17, 2)])), (5, (1, [(5, 1), (15, 1)]))] 0 (1, [(2, 4), (4, 1), (6, 1), (12, 2), (17, 4)]),
      .no [(0, (1, [(11, 1)])), (1, (1, [(9, 1), (15, 1)])), (2, (2, [(5, 1), (11, 1), (15, 1), (17, 2)])), (3, (6, [(5, 3), (11, 5), (13, 8), (15, 7), (17, 2), (19, 4)])), (4, (6, [(4, 1), (9, 3), (12, 4), (15, 4), (17, 2), (19, 4)])), (5, (1, [(5, 1), (15, 1)]))] 0 (6, [(9, 3), (11, 7), (13, 4), (15, 8), (17, 10), (19, 8)]),
      .no [(0, (1, [(11, 1)])), (1, (1, [(9, 1), (15, 1)])), (2, (1, [(1, 3), (2, 1), (3, 1), (17, 1)])), (3, (8, [(5, 9), (6, 4), (11, 1), (13, 8), (15, 9), (17, 2)])), (4, (7, [(2, 2), (4, 7), (6, 3), (12, 8), (17, 2)])), (5, (1, [(5, 1), (15, 1)]))] 0 (1, [(1, 1), (2, 1), (3, 1), (4, 1), (17, 1)]),
      .no [(0, (1, [(11, 1)])), (1, (1, [(9, 1), (15, 1)])), (2, (1, [(1, 2), (2, 1), (3, 1), (17, 1)])), (3, (6, [(5, 7), (6, 4), (11, 1), (13, 6), (15, 7), (17, 2)])), (4, (5, [(2, 2), (4, 5), (6, 3), (12, 6), (17, 2)])), (5, (1, [(5, 1), (15, 1)]))] 0 (1, [(2, 1), (3, 1), (4, 1), (17, 1)]),
      .no [(0, (1, [(11, 1)])), (1, (1, [(9, 1), (15, 1)])), (2, (1, [(1, 1), (2, 1), (3, 1), (17, 1)])), (3, (4, [(5, 5), (6, 4), (11, 1), (13, 4), (15, 5), (17, 2)])), (4, (3, [(2, 2), (4, 3), (6, 3), (12, 4), (17, 2)])), (5, (1, [(5, 1), (15, 1)]))] 0 (1, [(2, 2), (3, 2), (4, 1), (6, 1), (17, 2)]),
      .no [(0, (1, [(11, 1)])), (1, (1, [(9, 1), (15, 1)])), (2, (1, [(4, 1), (7, 1), (16, 2)])), (3, (1, [(4, 1), (6, 1), (16, 2)])), (4, (1, [(4, 2), (6, 1), (9, 1), (12, 2), (16, 2)])), (5, (1, [(5, 1), (15, 1)]))] 0 (1, [(4, 3), (6, 1), (9, 2), (12, 2), (16, 4)]),
      .no [(0, (1, [(11, 1)])), (1, (1, [(9, 1), (15, 1)])), (2, (1, [(1, 2), (4, 1), (7, 1), (16, 2)])), (3, (3, [(4, 1), (5, 2), (6, 1), (13, 2), (15, 2), (16, 2)])), (4, (3, [(4, 4), (6, 1), (9, 1), (12, 4), (16, 2)])), (5, (1, [(5, 1), (15, 1)]))] 0 (1, [(4, 2), (7, 1), (16, 2)]),
      .no [(0, (1, [(11, 1)])), (1, (1, [(9, 1), (15, 1)])), (2, (1, [(1, 4), (4, 1), (7, 1), (16, 2)])), (3, (5, [(4, 1), (5, 4), (6, 1), (13, 4), (15, 4), (16, 2)])), (4, (5, [(4, 6), (6, 1), (9, 1), (12, 6), (16, 2)])), (5, (1, [(5, 1), (15, 1)]))] 0 (1, [(1, 2), (4, 2), (7, 1), (16, 2)]),
      .no [(0, (1, [(11, 1)])), (1, (1, [(9, 1), (15, 1)])), (2, (1, [(1, 2), (5, 1), (8, 1), (15, 1), (17, 2)])), (3, (3, [(5, 4), (6, 1), (11, 1), (13, 4), (15, 4), (17, 2)])), (4, (1, [(2, 1), (4, 1), (12, 1), (17, 1)])), (5, (1, [(5, 1), (15, 1)]))] 0 (1, [(1, 1), (5, 1), (13, 1), (15, 1), (17, 2)]),
      .no [(0, (1, [(11, 1)])), (1, (1, [(9, 1), (15, 1)])), (2, (1, [(5, 1), (8, 1), (15, 1), (17, 2)])), (3, (1, [(5, 2), (6, 1), (11, 1), (13, 2), (15, 2), (17, 2)])), (4, (1, [(5, 1), (6, 1), (15, 1), (17, 2)])), (5, (1, [(5, 1), (15, 1)]))] 0 (1, [(5, 2), (6, 1), (11, 1), (13, 2), (15, 2), (17, 4)]),
      .yes [(0, (1, [(11, 1)])), (1, (1, [(9, 1), (15, 1)])), (5, (1, [(5, 1), (15, 1)]))] 5 [((1, [(11, 1)]), (1, [(4, 1)])), ((1, [(9, 1), (15, 1)]), (1, [(5, 1)])), ((1, [(9, 1), (12, 1), (16, 2)]), (1, [(5, 1), (13, 1), (15, 1), (17, 2)])), ((1, [(9, 1), (12, 1), (17, 1)]), (1, [(5, 1), (13, 1), (15, 1), (16, 1)])), ((2, [(5, 1), (11, 3), (13, 4), (15, 1), (17, 2)]), (2, [(4, 3), (9, 1), (12, 4), (16, 2)]))],
      .no [(0, (1, [(11, 1)])), (1, (1, [(9, 1), (15, 1)])), (2, (1, [(1, 3), (2, 1), (17, 1)])), (3, (7, [(5, 8), (6, 3), (11, 1), (13, 8), (15, 8), (17, 2)])), (4, (3, [(2, 1), (4, 3), (6, 1), (12, 3), (17, 1)])), (5, (1, [(5, 1), (15, 1)]))] 0 (1, [(1, 1), (2, 1), (4, 1), (17, 1)]),
      .no [(0, (1, [(11, 1)])), (1, (1, [(9, 1), (15, 1)])), (2, (1, [(1, 2), (2, 1), (17, 1)])), (3, (5, [(5, 6), (6, 3), (11, 1), (13, 6), (15, 6), (17, 2)])), (4, (2, [(2, 1), (4, 2), (6, 1), (12, 2), (17, 1)])), (5, (1, [(5, 1), (15, 1)]))] 0 (1, [(2, 1), (4, 1), (17, 1)]),
      .no [(0, (1, [(11, 1)])), (1, (1, [(9, 1), (15, 1)])), (2, (1, [(1, 1), (2, 1), (17, 1)])), (3, (3, [(5, 4), (6, 3), (11, 1), (13, 4), (15, 4), (17, 2)])), (4, (1, [(2, 1), (4, 1), (6, 1), (12, 1), (17, 1)])), (5, (1, [(5, 1), (15, 1)]))] 0 (1, [(2, 2), (4, 1), (6, 1), (17, 2)]),
      .no [(0, (1, [(11, 1)])), (1, (1, [(9, 1), (15, 1)])), (2, (1, [(3, 2), (4, 1), (7, 1), (16, 2)])), (3, (2, [(4, 1), (5, 1), (6, 2), (15, 1), (16, 2)])), (4, (2, [(4, 3), (6, 2), (9, 1), (12, 4), (16, 2)])), (5, (1, [(5, 1), (15, 1)]))] 0 (1, [(4, 2), (6, 1), (9, 1), (12, 2), (16, 2)]),
      .no [(0, (1, [(11, 1)])), (1, (1, [(9, 1), (15, 1)])), (2, (1, [(1, 2), (3, 2), (4, 1), (7, 1), (16, 2)])), (3, (4, [(4, 1), (5, 3), (6, 2), (13, 2), (15, 3), (16, 2)])), (4, (4, [(4, 5), (6, 2), (9, 1), (12, 6), (16, 2)])), (5, (1, [(5, 1), (15, 1)]))] 0 (1, [(3, 2), (4, 2), (7, 1), (16, 2)]),
      .no [(0, (1, [(11, 1)])), (1, (1, [(9, 1), (15, 1)])), (2, (1, [(1, 4), (3, 2), (4, 1), (7, 1), (16, 2)])), (3, (6, [(4, 1), (5, 5), (6, 2), (13, 4), (15, 5), (16, 2)])), (4, (6, [(4, 7), (6, 2), (9, 1), (12, 8), (16, 2)])), (5, (1, [(5, 1), (15, 1)]))] 0 (1, [(1, 2), (3, 2), (4, 2), (7, 1), (16, 2)]),
      .no [(0, (1, [(11, 1)])), (1, (1, [(9, 1), (15, 1)])), (2, (1, [(1, 1), (4, 2), (5, 2), (12, 1), (19, 2)])), (3, (2, [(5, 3), (11, 1), (13, 4), (15, 3), (17, 2)])), (4, (2, [(4, 1), (5, 1), (15, 1), (17, 2)])), (5, (1, [(5, 1), (15, 1)]))] 0 (1, [(2, 1), (4, 4), (5, 3), (12, 1), (17, 1), (19, 3)]),
      .yes [(0, (1, [(11, 1)])), (1, (1, [(9, 1), (15, 1)])), (5, (1, [(5, 1), (15, 1)]))] 7 [((1, [(11, 1)]), (1, [(4, 1)])), ((1, [(9, 1), (15, 1)]), (1, [(5, 1)])), ((1, [(9, 1)]), (1, [(5, 1), (15, 1)])), ((2, [(5, 1), (11, 1), (13, 2), (15, 1)]), (2, [(4, 1), (9, 1), (12, 2)]))],
      .no [(0, (1, [(11, 1)])), (1, (1, [(9, 1), (15, 1)])), (2, (1, [(5, 2), (7, 1), (9, 1), (18, 2)])), (3, (2, [(4, 1), (5, 1), (15, 1), (16, 2)])), (4, (2, [(4, 3), (9, 1), (12, 4), (16, 2)])), (5, (1, [(5, 1), (15, 1)]))] 0 (2, [(4, 3), (5, 4), (9, 5), (12, 4), (16, 2), (18, 4)]),
      .no [(0, (1, [(11, 1)])), (1, (1, [(9, 1), (15, 1)])), (2, (1, [(1, 4), (2, 2), (4, 1), (8, 1), (17, 2)])), (3, (6, [(5, 7), (6, 2), (11, 1), (13, 8), (15, 7), (17, 2)])), (4, (5, [(2, 2), (4, 5), (6, 1), (12, 4), (17, 2)])), (5, (1, [(5, 1), (15, 1)]))] 0 (1, [(1, 3), (2, 2), (4, 1), (13, 1), (17, 2)]),
      .no [(0, (1, [(11, 1)])), (1, (1, [(9, 1), (15, 1)])), (2, (1, [(1, 2), (2, 2), (4, 1), (8, 1), (17, 2)])), (3, (4, [(5, 5), (6, 2), (11, 1), (13, 6), (15, 5), (17, 2)])), (4, (3, [(2, 2), (4, 3), (6, 1), (12, 2), (17, 2)])), (5, (1, [(5, 1), (15, 1)]))] 0 (1, [(1, 1), (2, 2), (4, 1), (13, 1), (17, 2)]),
      .no [(0, (1, [(11, 1)])), (1, (1, [(9, 1), (15, 1)])), (2, (1, [(2, 2), (4, 1), (8, 1), (17, 2)])), (3, (2, [(5, 3), (6, 2), (11, 1), (13, 4), (15, 3), (17, 2)])), (4, (1, [(2, 2), (4, 1), (6, 1), (17, 2)])), (5, (1, [(5, 1), (15, 1)]))] 0 (1, [(2, 4), (4, 1), (6, 1), (13, 2), (17, 4)])],
    .node [
      .no [(0, (1, [(11, 1)])), (2, (1, [(1, 2), (4, 1), (7, 1), (8, 2), (19, 2)])), (3, (1, [(2, 1), (4, 1), (8, 1), (19, 1)])), (4, (1, [(4, 1), (12, 1)])), (5, (1, [(4, 1), (16, 2)]))] 0 (1, [(1, 2), (4, 1), (8, 1), (9, 1), (19, 2)]),
      .no [(0, (1, [(11, 1)])), (1, (1, [(4, 1), (12, 1), (20, 1)])), (2, (1, [(1, 3), (8, 1), (19, 1)])), (3, (1, [(4, 2), (8, 1), (16, 2)])), (4, (1, [(4, 1), (12, 1)])), (5, (1, [(1, 2), (4, 1), (16, 2)]))] 0 (1, [(1, 1), (4, 1), (8, 1), (19, 1)]),
      .no [(0, (1, [(11, 1)])), (2, (1, [(1, 4), (2, 1), (8, 1), (19, 1)])), (3, (1, [(1, 2), (4, 2), (8, 1), (16, 2)])), (4, (1, [(4, 1), (12, 1)])), (5, (1, [(1, 4), (4, 1), (16, 2)]))] 0 (1, [(1, 2), (2, 1), (4, 1), (8, 1), (19, 1)]),
      .no [(0, (1, [(11, 1)])), (2, (1, [(1, 4), (2, 2), (12, 1), (17, 2)])), (3, (1, [(1, 2), (2, 4), (4, 1), (12, 1), (17, 2)])), (4, (1, [(4, 1), (12, 1)])), (5, (1, [(1, 4), (2, 4), (4, 1), (12, 2), (17, 2)]))] 0 (1, [(1, 2), (2, 2), (4, 1), (12, 1), (17, 2)]),
      .no [(0, (1, [(11, 1)])), (1, (1, [(4, 1), (20, 1)])), (2, (1, [(1, 2), (2, 2), (12, 1), (17, 2)])), (3, (1, [(2, 4), (4, 1), (12, 1), (17, 2)])), (4, (1, [(4, 1), (12, 1)])), (5, (1, [(1, 2), (2, 4), (4, 1), (12, 2), (17, 2)]))] 0 (1, [(2, 2), (4, 1), (12, 1), (17, 2)]),
      .no [(0, (1, [(11, 1)])), (2, (1, [(2, 2), (12, 1), (17, 2)])), (3, (1, [(1, 4), (2, 4), (8, 1), (19, 2)])), (4, (1, [(4, 1), (12, 1)])), (5, (1, [(2, 4), (4, 1), (12, 2), (17, 2)]))] 0 (1, [(1, 4), (2, 2), (8, 1), (19, 2)]),
      .no [(0, (1, [(11, 1)])), (2, (1, [(1, 3), (2, 1), (3, 1), (17, 1)])), (3, (1, [(1, 1), (2, 3), (3, 1), (4, 1), (17, 1)])), (4, (1, [(4, 1), (12, 1)])), (5, (3, [(1, 8), (2, 8), (4, 3), (12, 4), (17, 2)]))] 0 (1, [(1, 1), (2, 1), (3, 1), (4, 1), (17, 1)]),
      .no [(0, (1, [(11, 1)])), (1, (3, [(2, 4), (4, 4), (8, 1), (17, 4), (20, 3)])), (2, (1, [(1, 2), (2, 1), (3, 1), (17, 1)])), (3, (1, [(2, 3), (3, 1), (4, 1), (17, 1)])), (4, (1, [(4, 1), (12, 1)])), (5, (3, [(1, 6), (2, 8), (4, 3), (12, 4), (17, 2)]))] 0 (1, [(2, 1), (3, 1), (4, 1), (17, 1)]),
      .no [(0, (1, [(11, 1)])), (2, (1, [(1, 1), (2, 1), (3, 1), (17, 1)])), (3, (1, [(2, 4), (3, 2), (4, 1), (6, 1), (17, 2)])), (4, (1, [(4, 1), (12, 1)])), (5, (3, [(1, 4), (2, 8), (4, 3), (12, 4), (17, 2)]))] 0 (1, [(2, 2), (3, 2), (4, 1), (6, 1), (17, 2)]),
      .no [(0, (1, [(11, 1)])), (2, (1, [(4, 1), (7, 1), (16, 2)])), (3, (1, [(4, 1), (6, 1), (16, 2)])), (4, (1, [(4, 1), (12, 1)])), (5, (1, [(1, 1), (2, 1), (4, 1), (12, 1), (16, 1)]))] 0 (1, [(4, 2), (9, 1), (12, 1), (16, 2)]),
      .no [(0, (1, [(11, 1)])), (1, (1, [(20, 1)])), (2, (1, [(1, 2), (4, 1), (7, 1), (16, 2)])), (3, (1, [(2, 1), (4, 1), (16, 1)])), (4, (1, [(4, 1), (12, 1)])), (5, (1, [(1, 2), (2, 1), (4, 1), (12, 1), (16, 1)]))] 0 (1, [(4, 2), (7, 1), (16, 2)]),
      .no [(0, (1, [(11, 1)])), (2, (1, [(1, 4), (4, 1), (7, 1), (16, 2)])), (3, (1, [(1, 1), (2, 1), (4, 1), (16, 1)])), (4, (1, [(4, 1), (12, 1)])), (5, (1, [(1, 3), (2, 1), (4, 1), (12, 1), (16, 1)]))] 0 (1, [(1, 2), (4, 2), (7, 1), (16, 2)]),
      .yes [(0, (1, [(11, 1)])), (4, (1, [(4, 1), (12, 1)]))] 12 [((1, [(11, 1)]), (1, [(4, 1)])), ((1, [(2, 1), (17, 1)]), (1, [(1, 1)])), ((1, [(1, 1), (17, 1)]), (1, [(2, 1)])), ((1, [(8, 1)]), (1, [(4, 1), (12, 1)]))],
      .no [(0, (1, [(11, 1)])), (1, (1, [(0, 1), (4, 1), (20, 1)])), (2, (1, [(1, 2), (5, 1), (20, 1)])), (3, (1, [(2, 2), (4, 1), (5, 1), (20, 1)])), (4, (1, [(4, 1), (12, 1)])), (5, (1, [(1, 2), (2, 2), (4, 1), (5, 1), (12, 1), (20, 1)]))] 0 (1, [(4, 1), (5, 1), (20, 1)]),
      .yes [(0, (1, [(11, 1)])), (4, (1, [(4, 1), (12, 1)]))] 12 [((1, [(11, 1)]), (1, [(4, 1)])), ((3, [(16, 1), (19, 1)]), (1, [(1, 1)])), ((3, [(17, 2), (19, 1)]), (1, [(2, 1)])), ((1, [(8, 1)]), (1, [(4, 1), (12, 1)]))],
      .no [(0, (1, [(11, 1)])), (2, (1, [(1, 3), (2, 1), (17, 1)])), (3, (1, [(1, 1), (2, 3), (4, 1), (17, 1)])), (4, (1, [(4, 1), (12, 1)])), (5, (1, [(1, 3), (2, 3), (4, 1), (12, 1), (17, 1)]))] 0 (1, [(1, 1), (2, 1), (4, 1), (17, 1)]),
      .no [(0, (1, [(11, 1)])), (1, (1, [(20, 1)])), (2, (1, [(1, 2), (2, 1), (17, 1)])), (3, (1, [(2, 3), (4, 1), (17, 1)])), (4, (1, [(4, 1), (12, 1)])), (5, (1, [(1, 2), (2, 3), (4, 1), (12, 1), (17, 1)]))] 0 (1, [(2, 1), (4, 1), (17, 1)]),
      .no [(0, (1, [(11, 1)])), (2, (1, [(1, 1), (2, 1), (17, 1)])), (3, (1, [(2, 4), (4, 1), (6, 1), (17, 2)])), (4, (1, [(4, 1), (12, 1)])), (5, (1, [(1, 1), (2, 3), (4, 1), (12, 1), (17, 1)]))] 0 (1, [(2, 2), (4, 1), (6, 1), (17, 2)]),
      .no [(0, (1, [(11, 1)])), (2, (1, [(3, 2), (4, 1), (7, 1), (16, 2)])), (3, (1, [(3, 2), (4, 1), (6, 1), (16, 2)])), (4, (1, [(4, 1), (12, 1)])), (5, (3, [(1, 4), (2, 4), (4, 3), (12, 4), (16, 2)]))] 0 (2, [(4, 3), (9, 1), (12, 2), (16, 2)]),
      .no [(0, (1, [(11, 1)])), (1, (1, [(4, 2), (7, 1), (16, 2), (20, 1)])), (2, (1, [(1, 2), (3, 2), (4, 1), (7, 1), (16, 2)])), (3, (1, [(2, 1), (3, 1), (4, 1), (16, 1)])), (4, (1, [(4, 1), (12, 1)])), (5, (3, [(1, 6), (2, 4), (4, 3), (12, 4), (16, 2)]))] 0 (1, [(3, 2), (4, 2), (7, 1), (16, 2)]),
      .no [(0, (1, [(11, 1)])), (2, (1, [(1, 4), (3, 2), (4, 1), (7, 1), (16, 2)])), (3, (1, [(1, 1), (2, 1), (3, 1), (4, 1), (16, 1)])), (4, (1, [(4, 1), (12, 1)])), (5, (3, [(1, 8), (2, 4), (4, 3), (12, 4), (16, 2)]))] 0 (1, [(1, 2), (3, 2), (4, 2), (7, 1), (16, 2)]),
      .no [(0, (1, [(11, 1)])), (2, (1, [(1, 2), (2, 2), (8, 1), (11, 1), (18, 2)])), (3, (1, [(2, 4), (8, 1), (18, 2)])), (4, (1, [(4, 1), (12, 1)])), (5, (1, [(4, 1), (12, 2), (16, 2)]))] 0 (1, [(2, 2), (8, 1), (18, 2)]),
      .no [(0, (1, [(11, 1)])), (1, (1, [(4, 1), (20, 1)])), (2, (1, [(8, 1), (11, 1), (18, 2)])), (3, (1, [(4, 1), (12, 1), (16, 2)])), (4, (1, [(4, 1), (12, 1)])), (5, (1, [(1, 2), (4, 1), (12, 2), (16, 2)]))] 0 (1, [(9, 1), (12, 1), (16, 2), (18, 2)]),
      .no [(0, (1, [(11, 1)])), (3, (1, [(1, 2), (4, 1), (12, 1), (16, 2)])), (4, (1, [(4, 1), (12, 1)])), (5, (1, [(1, 4), (4, 1), (12, 2), (16, 2)])), (2, (1, [(1, 2), (12, 1), (23, 2)]))] 0 (1, [(4, 1), (12, 1), (23, 2)]),
      .no [(0, (1, [(11, 1)])), (2, (1, [(1, 4), (2, 2), (4, 1), (8, 1), (17, 2)])), (3, (1, [(1, 2), (2, 4), (4, 2), (8, 1), (17, 2)])), (4, (1, [(4, 1), (12, 1)])), (5, (1, [(1, 4), (2, 4), (4, 1), (17, 2)]))] 0 (1, [(1, 2), (2, 2), (4, 2), (8, 1), (17, 2)]),
      .no [(0, (1, [(11, 1)])), (1, (1, [(4, 1), (12, 1), (20, 1)])), (2, (1, [(1, 2), (2, 2), (4, 1), (8, 1), (17, 2)])), (3, (1, [(2, 4), (4, 2), (8, 1), (17, 2)])), (4, (1, [(4, 1), (12, 1)])), (5, (1, [(1, 2), (2, 4), (4, 1), (17, 2)]))] 0 (1, [(2, 2), (4, 2), (8, 1), (17, 2)]),
      .no [(0, (1, [(11, 1)])), (2, (1, [(2, 2), (4, 1), (8, 1), (17, 2)])), (3, (1, [(2, 2), (4, 2), (8, 1), (17, 2), (22, 2)])), (4, (1, [(4, 1), (12, 1)])), (5, (1, [(2, 4), (4, 1), (17, 2)]))] 0 (1, [(4, 2), (8, 1), (17, 2), (22, 2)])],
    .no [(0, (1, [(11, 1)])), (1, (1, [(0, 1), (1, 2), (2, 2), (4, 1), (8, 1), (15, 1)])), (2, (1, [(1, 4), (2, 2), (5, 1), (8, 1), (15, 1)])), (3, (1, [(1, 2), (2, 4), (4, 1), (5, 1), (8, 1), (15, 1)])), (4, (1, [(1, 1), (4, 1), (12, 1)])), (5, (1, [(1, 4), (2, 4), (5, 1), (15, 1)]))] 0 (1, [(1, 2), (2, 2), (4, 1), (5, 1), (8, 1), (15, 1)]),
    .no [(0, (1, [(11, 1)])), (1, (1, [(7, 1), (15, 1)])), (2, (1, [(1, 3), (5, 1), (11, 1), (13, 1), (15, 1), (17, 2)])), (3, (1, [(5, 1), (15, 1)])), (4, (1, [(5, 1), (15, 1), (17, 2)])), (5, (1, [(1, 2), (5, 2), (11, 1), (15, 2), (17, 2)]))] 0 (1, [(1, 1), (5, 1), (13, 1), (15, 1), (17, 2)]),
    .node [
      .no [(0, (1, [(11, 1)])), (2, (1, [(4, 1), (7, 1), (13, 1), (16, 2)])), (3, (1, [(4, 1), (6, 1), (13, 1), (16, 2)])), (4, (1, [(1, 2), (7, 1), (19, 2)])), (5, (1, [(4, 1), (16, 2)]))] 0 (1, [(1, 2), (7, 1), (13, 1), (19, 2)]),
      .no [(0, (1, [(11, 1)])), (1, (1, [(4, 2), (7, 1), (16, 2), (20, 1)])), (2, (1, [(1, 2), (4, 1), (7, 1), (13, 1), (16, 2)])), (3, (2, [(2, 2), (4, 2), (13, 1), (16, 2)])), (4, (1, [(4, 2), (7, 1), (16, 2)])), (5, (1, [(1, 2), (4, 1), (16, 2)]))] 0 (1, [(4, 2), (7, 1), (13, 1), (16, 2)]),
      .no [(0, (1, [(11, 1)])), (2, (1, [(1, 4), (4, 1), (7, 1), (13, 1), (16, 2)])), (3, (2, [(1, 2), (2, 2), (4, 2), (13, 1), (16, 2)])), (4, (1, [(1, 2), (4, 2), (7, 1), (16, 2)])), (5, (1, [(1, 4), (4, 1), (16, 2)]))] 0 (1, [(1, 2), (4, 2), (7, 1), (13, 1), (16, 2)]),
      .no [(0, (1, [(11, 1)])), (2, (1, [(1, 4), (3, 1), (11, 1), (17, 1), (19, 1)])), (3, (1, [(1, 1), (2, 1), (19, 1)])), (4, (1, [(1, 2), (3, 3), (17, 1), (19, 1)])), (5, (1, [(1, 4), (3, 2), (11, 1), (19, 2)]))] 0 (1, [(1, 2), (3, 1), (17, 1), (19, 1)]),
      .no [(0, (1, [(11, 1)])), (1, (1, [(4, 1), (20, 1)])), (2, (1, [(1, 3), (11, 1), (19, 1)])), (3, (1, [(1, 1), (2, 2), (19, 1)])), (4, (1, [(1, 1), (3, 2), (19, 1)])), (5, (1, [(1, 4), (2, 2), (3, 2), (11, 1), (19, 2)]))] 0 (1, [(1, 1), (19, 1)]),
      .no [(0, (1, [(11, 1)])), (2, (1, [(1, 3), (2, 1), (11, 1), (19, 1)])), (3, (1, [(1, 1), (2, 3), (19, 1)])), (4, (1, [(1, 1), (2, 1), (3, 2), (19, 1)])), (5, (1, [(1, 4), (2, 4), (3, 2), (11, 1), (19, 2)]))] 0 (1, [(1, 1), (2, 1), (19, 1)]),
      .no [(0, (1, [(11, 1)])), (2, (1, [(1, 3), (2, 1), (3, 1), (17, 1)])), (3, (1, [(1, 1), (2, 3), (3, 1), (4, 1), (17, 1)])), (4, (1, [(1, 1), (2, 1), (3, 3), (4, 1), (17, 1)])), (5, (1, [(1, 4), (2, 4), (3, 4), (4, 1), (17, 2)]))] 0 (1, [(1, 1), (2, 1), (3, 1), (4, 1), (17, 1)]),
      .no [(0, (1, [(11, 1)])), (1, (2, [(2, 2), (4, 2), (13, 1), (17, 2), (20, 2)])), (2, (1, [(1, 2), (2, 1), (3, 1), (17, 1)])), (3, (1, [(2, 3), (3, 1), (4, 1), (17, 1)])), (4, (1, [(2, 1), (3, 3), (4, 1), (17, 1)])), (5, (1, [(1, 2), (2, 4), (3, 4), (4, 1), (17, 2)]))] 0 (1, [(2, 1), (3, 1), (4, 1), (17, 1)]),
      .no [(0, (1, [(11, 1)])), (2, (1, [(1, 1), (2, 1), (3, 1), (17, 1)])), (3, (1, [(2, 4), (3, 2), (4, 1), (6, 1), (17, 2)])), (4, (1, [(2, 2), (3, 4), (4, 1), (6, 1), (17, 2)])), (5, (1, [(2, 4), (3, 4), (4, 1), (17, 2)]))] 0 (1, [(2, 2), (3, 2), (4, 1), (6, 1), (17, 2)]),
      .yes [(0, (1, [(11, 1)])), (2, (1, [(4, 1), (7, 1), (16, 2)])), (3, (1, [(4, 1), (6, 1), (16, 2)])), (5, (1, [(3, 2), (4, 1), (16, 2)]))] 15 [((1, [(11, 1)]), (1, [(4, 1)])), ((1, [(6, 1), (11, 1)]), (1, [(4, 2), (7, 1), (16, 2)])), ((1, [(7, 1)]), (1, [(4, 1), (6, 1), (16, 2)])), ((2, [(13, 1)]), (1, [(3, 1)]))],
      .no [(0, (1, [(11, 1)])), (1, (1, [(20, 1)])), (2, (1, [(1, 2), (4, 1), (7, 1), (16, 2)])), (3, (1, [(2, 1), (4, 1), (16, 1)])), (4, (1, [(3, 2), (4, 2), (7, 1), (16, 2)])), (5, (1, [(1, 2), (3, 2), (4, 1), (16, 2)]))] 0 (1, [(4, 2), (7, 1), (16, 2)]),
      .no [(0, (1, [(11, 1)])), (2, (1, [(1, 4), (4, 1), (7, 1), (16, 2)])), (3, (1, [(1, 1), (2, 1), (4, 1), (16, 1)])), (4, (1, [(1, 2), (3, 2), (4, 2), (7, 1), (16, 2)])), (5, (1, [(1, 4), (3, 2), (4, 1), (16, 2)]))] 0 (1, [(1, 2), (4, 2), (7, 1), (16, 2)]),
      .yes [(0, (1, [(11, 1)]))] 11 [((1, [(11, 1)]), (1, [(4, 1)])), ((1, [(2, 1), (17, 1)]), (1, [(1, 1)])), ((1, [(1, 1), (17, 1)]), (1, [(2, 1)])), ((2, [(13, 1)]), (1, [(3, 1)]))],
      .no [(0, (1, [(11, 1)])), (1, (1, [(0, 1), (4, 1), (20, 1)])), (2, (1, [(1, 2), (5, 1), (20, 1)])), (3, (1, [(2, 2), (4, 1), (5, 1), (20, 1)])), (4, (1, [(3, 2), (4, 1), (5, 1), (20, 1)])), (5, (1, [(1, 2), (2, 2), (3, 2), (4, 1), (5, 2), (20, 2)]))] 0 (1, [(4, 1), (5, 1), (20, 1)]),
      .yes [(0, (1, [(11, 1)]))] 11 [((1, [(11, 1)]), (1, [(4, 1)])), ((1, [(2, 1), (19, 1)]), (1, [(1, 1)])), ((1, [(1, 1), (19, 1)]), (1, [(2, 1)])), ((2, [(13, 1)]), (1, [(3, 1)]))],
      .no [(0, (1, [(11, 1)])), (2, (1, [(1, 3), (2, 1), (17, 1)])), (3, (1, [(1, 1), (2, 3), (4, 1), (17, 1)])), (4, (1, [(1, 1), (2, 1), (3, 2), (4, 1), (17, 1)])), (5, (1, [(1, 4), (2, 4), (3, 2), (4, 1), (17, 2)]))] 0 (1, [(1, 1), (2, 1), (4, 1), (17, 1)]),
      .no [(0, (1, [(11, 1)])), (1, (1, [(20, 1)])), (2, (1, [(1, 2), (2, 1), (17, 1)])), (3, (1, [(2, 3), (4, 1), (17, 1)])), (4, (1, [(2, 1), (3, 2), (4, 1), (17, 1)])), (5, (1, [(1, 2), (2, 4), (3, 2), (4, 1), (17, 2)]))] 0 (1, [(2, 1), (4, 1), (17, 1)]),
      .no [(0, (1, [(11, 1)])), (2, (1, [(1, 1), (2, 1), (17, 1)])), (3, (1, [(2, 4), (4, 1), (6, 1), (17, 2)])), (4, (1, [(2, 2), (3, 2), (4, 1), (6, 1), (17, 2)])), (5, (1, [(2, 4), (3, 2), (4, 1), (17, 2)]))] 0 (1, [(2, 2), (4, 1), (6, 1), (17, 2)]),
      .no [(0, (1, [(11, 1)])), (2, (1, [(3, 2), (4, 1), (7, 1), (16, 2)])), (3, (1, [(3, 2), (4, 1), (6, 1), (16, 2)])), (4, (1, [(2, 2), (3, 4), (6, 1), (11, 1), (18, 2)])), (5, (1, [(3, 4), (4, 1), (16, 2)]))] 0 (1, [(2, 2), (3, 2), (6, 1), (11, 1), (18, 2)]),
      .no [(0, (1, [(11, 1)])), (1, (1, [(4, 2), (7, 1), (16, 2), (20, 1)])), (2, (1, [(1, 2), (3, 2), (4, 1), (7, 1), (16, 2)])), (3, (1, [(2, 1), (3, 1), (4, 1), (16, 1)])), (4, (1, [(3, 4), (4, 2), (7, 1), (16, 2)])), (5, (1, [(1, 2), (3, 4), (4, 1), (16, 2)]))] 0 (1, [(3, 2), (4, 2), (7, 1), (16, 2)]),
      .no [(0, (1, [(11, 1)])), (2, (1, [(1, 4), (3, 2), (4, 1), (7, 1), (16, 2)])), (3, (1, [(1, 1), (2, 1), (3, 1), (4, 1), (16, 1)])), (4, (1, [(1, 2), (3, 4), (4, 2), (7, 1), (16, 2)])), (5, (1, [(1, 4), (3, 4), (4, 1), (16, 2)]))] 0 (1, [(1, 2), (3, 2), (4, 2), (7, 1), (16, 2)]),
      .no [(0, (1, [(11, 1)])), (2, (1, [(1, 1), (2, 1), (11, 1), (18, 1)])), (3, (2, [(2, 8), (13, 1), (17, 2), (18, 2)])), (4, (1, [(2, 2), (3, 1), (17, 1), (18, 1)])), (5, (1, [(2, 4), (3, 2), (11, 1), (18, 2)]))] 0 (2, [(2, 4), (13, 1), (17, 2), (18, 2)]),
      .no [(0, (1, [(11, 1)])), (1, (1, [(4, 1), (20, 1)])), (2, (1, [(1, 1), (11, 1), (18, 1)])), (3, (1, [(2, 2), (6, 1), (11, 1), (18, 2)])), (4, (1, [(3, 2), (6, 1), (11, 1), (18, 2)])), (5, (1, [(2, 2), (3, 2), (11, 1), (18, 2)]))] 0 (1, [(6, 1), (11, 1), (18, 2)]),
      .yes [(0, (1, [(11, 1)])), (2, (2, [(11, 2), (13, 1), (17, 2), (18, 2)])), (3, (1, [(3, 1), (16, 1), (18, 1)])), (5, (1, [(3, 2), (11, 1), (18, 2)]))] 15 [((1, [(11, 1)]), (1, [(4, 1)])), ((1, [(6, 1), (11, 1)]), (2, [(13, 1), (17, 2), (18, 2)])), ((1, [(7, 1)]), (1, [(3, 1), (16, 1), (18, 1)])), ((2, [(13, 1)]), (1, [(3, 1)]))],
      .no [(0, (1, [(11, 1)])), (2, (2, [(1, 6), (2, 2), (13, 1), (17, 2)])), (3, (2, [(1, 2), (2, 6), (4, 2), (13, 1), (17, 2)])), (4, (1, [(1, 1), (2, 1), (3, 1), (4, 1), (17, 1)])), (5, (1, [(1, 4), (2, 4), (4, 1), (17, 2)]))] 0 (2, [(1, 2), (2, 2), (4, 2), (13, 1), (17, 2)]),
      .no [(0, (1, [(11, 1)])), (1, (1, [(2, 1), (3, 1), (4, 1), (17, 1), (20, 1)])), (2, (2, [(1, 4), (2, 2), (13, 1), (17, 2)])), (3, (2, [(2, 6), (4, 2), (13, 1), (17, 2)])), (4, (1, [(2, 1), (3, 1), (4, 1), (17, 1)])), (5, (1, [(1, 2), (2, 4), (4, 1), (17, 2)]))] 0 (2, [(2, 2), (4, 2), (13, 1), (17, 2)]),
      .no [(0, (1, [(11, 1)])), (2, (2, [(1, 2), (2, 2), (13, 1), (17, 2)])), (3, (1, [(2, 4), (4, 1), (6, 1), (13, 1), (17, 2)])), (4, (1, [(2, 2), (4, 1), (6, 1), (17, 2)])), (5, (1, [(2, 4), (4, 1), (17, 2)]))] 0 (1, [(2, 2), (4, 1), (6, 1), (13, 1), (17, 2)])],
    .no [(0, (1, [(11, 1)])), (1, (1, [(0, 1), (2, 2), (15, 1)])), (2, (1, [(1, 2), (2, 2), (5, 1), (11, 1), (15, 1)])), (3, (1, [(2, 4), (5, 1), (15, 1)])), (4, (1, [(2, 2), (3, 2), (5, 1), (15, 1)])), (5, (1, [(1, 2), (2, 6), (3, 2), (5, 2), (11, 1), (15, 2)]))] 0 (1, [(2, 2), (5, 1), (15, 1)]),
    .no [(0, (1, [(11, 1)])), (1, (1, [(0, 1), (1, 2), (3, 2), (4, 1), (7, 1), (15, 1)])), (2, (1, [(1, 3), (3, 2), (13, 1)])), (3, (1, [(1, 1), (2, 2), (3, 2), (4, 1), (13, 1)])), (4, (1, [(1, 1), (3, 4), (4, 1), (13, 1)])), (5, (1, [(1, 4), (2, 2), (3, 6), (4, 1), (13, 2)]))] 0 (1, [(1, 1), (3, 2), (4, 1), (13, 1)]),
    .no [(0, (1, [(11, 1)])), (2, (1, [(1, 2), (3, 2), (13, 1)])), (3, (1, [(2, 2), (3, 2), (4, 1), (13, 1)])), (4, (1, [(3, 4), (4, 1), (13, 1)])), (5, (1, [(1, 2), (2, 2), (3, 6), (4, 1), (13, 2)]))] 0 (1, [(3, 2), (4, 1), (13, 1)]),
    .no [(0, (1, [(11, 1)])), (1, (1, [(0, 1), (2, 2), (3, 2), (6, 1), (15, 1)])), (2, (1, [(1, 1), (3, 2), (13, 1)])), (3, (1, [(2, 2), (3, 4), (4, 1), (6, 1), (13, 2)])), (4, (1, [(3, 6), (4, 1), (6, 1), (13, 2)])), (5, (1, [(2, 2), (3, 6), (4, 1), (13, 2)]))] 0 (1, [(3, 4), (4, 1), (6, 1), (13, 2)]),
    .no [(0, (1, [(11, 1)])), (1, (1, [(6, 1), (15, 1)])), (2, (1, [(4, 1), (8, 1), (12, 2)])), (3, (1, [(4, 2), (8, 1), (12, 2), (16, 2)])), (4, (1, [(4, 1), (6, 1), (12, 2)])), (5, (1, [(2, 2), (4, 1), (12, 2)]))] 0 (1, [(4, 3), (8, 1), (9, 1), (12, 4), (16, 2)]),
    .no [(0, (1, [(11, 1)])), (2, (1, [(1, 2), (4, 1), (8, 1), (12, 2)])), (3, (1, [(2, 2), (4, 2), (8, 1), (12, 2)])), (4, (1, [(3, 1), (4, 1), (12, 1)])), (5, (1, [(1, 2), (2, 2), (4, 1), (12, 2)]))] 0 (1, [(4, 2), (8, 1), (12, 2)]),
    .no [(0, (1, [(11, 1)])), (1, (1, [(0, 1), (1, 2), (4, 1), (15, 1)])), (2, (1, [(1, 4), (4, 1), (8, 1), (12, 2)])), (3, (1, [(1, 2), (2, 2), (4, 2), (8, 1), (12, 2)])), (4, (1, [(1, 1), (3, 1), (4, 1), (12, 1)])), (5, (1, [(1, 4), (2, 2), (4, 1), (12, 2)]))] 0 (1, [(1, 2), (4, 2), (8, 1), (12, 2)]),
    .node [
      .no [(0, (1, [(11, 1)])), (1, (1, [(15, 1)])), (2, (1, [(1, 2), (4, 1), (7, 1), (13, 2), (16, 2)])), (3, (1, [(2, 1), (4, 1), (13, 1), (16, 1)])), (4, (1, [(3, 2), (4, 2), (7, 1), (13, 2), (16, 2)])), (5, (1, [(4, 1), (16, 2)]))] 0 (1, [(4, 2), (7, 1), (13, 2), (16, 2)]),
      .no [(0, (1, [(11, 1)])), (1, (1, [(15, 1)])), (2, (1, [(1, 4), (4, 1), (7, 1), (13, 2), (16, 2)])), (3, (1, [(1, 1), (2, 1), (4, 1), (13, 1), (16, 1)])), (4, (1, [(4, 2), (7, 1), (16, 2)])), (5, (1, [(1, 2), (4, 1), (16, 2)]))] 0 (1, [(1, 2), (4, 2), (7, 1), (13, 2), (16, 2)]),
      .no [(0, (1, [(11, 1)])), (1, (1, [(15, 1)])), (2, (1, [(1, 6), (4, 1), (7, 1), (13, 2), (16, 2)])), (3, (1, [(1, 2), (2, 1), (4, 1), (13, 1), (16, 1)])), (4, (1, [(1, 2), (4, 2), (7, 1), (16, 2)])), (5, (1, [(1, 4), (4, 1), (16, 2)]))] 0 (1, [(1, 4), (4, 2), (7, 1), (13, 2), (16, 2)]),
      .no [(0, (1, [(11, 1)])), (1, (1, [(15, 1)])), (2, (1, [(1, 4), (3, 1), (5, 1), (17, 1), (19, 1)])), (3, (1, [(1, 1), (2, 1), (4, 1), (5, 1), (19, 1)])), (4, (1, [(1, 2), (3, 3), (4, 1), (5, 1), (17, 1), (19, 1)])), (5, (1, [(1, 4), (3, 2), (4, 1), (5, 2), (19, 2)]))] 0 (1, [(1, 2), (3, 1), (4, 1), (5, 1), (17, 1), (19, 1)]),
      .yes [(0, (1, [(11, 1)])), (1, (1, [(15, 1)]))] 3 [((1, [(11, 1)]), (1, [(4, 1)])), ((1, [(15, 1)]), (1, [(5, 1)])), ((1, [(3, 1), (13, 1)]), (1, [(1, 1)])), ((1, [(3, 1), (17, 1)]), (1, [(2, 1)])), ((1, [(1, 1), (13, 1)]), (1, [(3, 1)]))],
      .no [(0, (1, [(11, 1)])), (1, (1, [(15, 1)])), (2, (1, [(1, 1), (2, 1), (5, 1), (18, 1)])), (3, (1, [(2, 3), (3, 1), (4, 1), (5, 1), (13, 1), (18, 1)])), (4, (1, [(2, 1), (3, 3), (4, 1), (5, 1), (13, 1), (18, 1)])), (5, (1, [(2, 4), (3, 2), (4, 1), (5, 2), (18, 2)]))] 0 (1, [(2, 1), (3, 1), (4, 1), (5, 1), (13, 1), (18, 1)]),
      .no [(0, (1, [(11, 1)])), (1, (1, [(15, 1)])), (2, (1, [(1, 3), (2, 1), (3, 1), (17, 1)])), (3, (1, [(1, 1), (2, 3), (3, 1), (4, 1), (17, 1)])), (4, (1, [(1, 1), (2, 1), (3, 3), (4, 1), (17, 1)])), (5, (1, [(1, 4), (2, 4), (3, 4), (4, 1), (17, 2)]))] 0 (1, [(1, 1), (2, 1), (3, 1), (4, 1), (17, 1)]),
      .no [(0, (1, [(11, 1)])), (1, (1, [(15, 1)])), (2, (1, [(1, 2), (2, 1), (3, 1), (17, 1)])), (3, (1, [(2, 3), (3, 1), (4, 1), (17, 1)])), (4, (1, [(2, 1), (3, 3), (4, 1), (17, 1)])), (5, (1, [(1, 2), (2, 4), (3, 4), (4, 1), (17, 2)]))] 0 (1, [(2, 1), (3, 1), (4, 1), (17, 1)]),
      .no [(0, (1, [(11, 1)])), (1, (1, [(15, 1)])), (2, (1, [(1, 1), (2, 1), (3, 1), (17, 1)])), (3, (1, [(2, 3), (3, 2), (4, 1), (13, 1), (17, 1)])), (4, (1, [(2, 1), (3, 4), (4, 1), (13, 1), (17, 1)])), (5, (1, [(2, 4), (3, 4), (4, 1), (17, 2)]))] 0 (1, [(2, 1), (3, 2), (4, 1), (13, 1), (17, 1)]),
      .no [(0, (1, [(11, 1)])), (1, (1, [(15, 1)])), (2, (1, [(4, 1), (7, 1), (16, 2)])), (3, (1, [(2, 1), (3, 1), (4, 1), (13, 1), (16, 1)])), (4, (1, [(3, 4), (4, 2), (7, 1), (13, 2), (16, 2)])), (5, (1, [(3, 2), (4, 1), (16, 2)]))] 0 (1, [(3, 2), (4, 2), (7, 1), (13, 2), (16, 2)]),
      .no [(0, (1, [(11, 1)])), (1, (1, [(15, 1)])), (2, (1, [(1, 2), (4, 1), (7, 1), (16, 2)])), (3, (1, [(2, 1), (4, 1), (16, 1)])), (4, (1, [(3, 2), (4, 2), (7, 1), (16, 2)])), (5, (1, [(1, 2), (3, 2), (4, 1), (16, 2)]))] 0 (1, [(4, 2), (7, 1), (16, 2)]),
      .no [(0, (1, [(11, 1)])), (1, (1, [(15, 1)])), (2, (1, [(1, 4), (4, 1), (7, 1), (16, 2)])), (3, (1, [(1, 1), (2, 1), (4, 1), (16, 1)])), (4, (1, [(1, 2), (3, 2), (4, 2), (7, 1), (16, 2)])), (5, (1, [(1, 4), (3, 2), (4, 1), (16, 2)]))] 0 (1, [(1, 2), (4, 2), (7, 1), (16, 2)]),
      .no [(0, (1, [(11, 1)])), (1, (1, [(15, 1)])), (2, (1, [(1, 3), (5, 1), (19, 1)])), (3, (1, [(1, 1), (2, 2), (4, 1), (5, 1), (19, 1)])), (4, (1, [(1, 1), (3, 2), (4, 1), (5, 1), (19, 1)])), (5, (1, [(1, 4), (2, 2), (3, 2), (4, 1), (5, 2), (19, 2)]))] 0 (1, [(1, 1), (4, 1), (5, 1), (19, 1)]),
      .no [(0, (1, [(11, 1)])), (1, (1, [(15, 1)])), (2, (1, [(1, 2), (5, 1), (20, 1)])), (3, (1, [(2, 2), (4, 1), (5, 1), (20, 1)])), (4, (1, [(3, 2), (4, 1), (5, 1), (20, 1)])), (5, (1, [(1, 2), (2, 2), (3, 2), (4, 1), (5, 2), (20, 2)]))] 0 (1, [(4, 1), (5, 1), (20, 1)]),
      .no [(0, (1, [(11, 1)])), (1, (1, [(15, 1)])), (2, (1, [(1, 1), (5, 1), (18, 1)])), (3, (1, [(2, 2), (3, 1), (4, 1), (5, 1), (13, 1), (18, 1)])), (4, (1, [(3, 3), (4, 1), (5, 1), (13, 1), (18, 1)])), (5, (1, [(2, 2), (3, 2), (4, 1), (5, 2), (18, 2)]))] 0 (1, [(3, 1), (4, 1), (5, 1), (13, 1), (18, 1)]),
      .no [(0, (1, [(11, 1)])), (1, (1, [(15, 1)])), (2, (1, [(1, 3), (2, 1), (17, 1)])), (3, (1, [(1, 1), (2, 3), (4, 1), (17, 1)])), (4, (1, [(1, 1), (2, 1), (3, 2), (4, 1), (17, 1)])), (5, (1, [(1, 4), (2, 4), (3, 2), (4, 1), (17, 2)]))] 0 (1, [(1, 1), (2, 1), (4, 1), (17, 1)]),
      .no [(0, (1, [(11, 1)])), (1, (1, [(15, 1)])), (2, (1, [(1, 2), (2, 1), (17, 1)])), (3, (1, [(2, 3), (4, 1), (17, 1)])), (4, (1, [(2, 1), (3, 2), (4, 1), (17, 1)])), (5, (1, [(1, 2), (2, 4), (3, 2), (4, 1), (17, 2)]))] 0 (1, [(2, 1), (4, 1), (17, 1)]),
      .no [(0, (1, [(11, 1)])), (1, (1, [(15, 1)])), (2, (1, [(1, 1), (2, 1), (17, 1)])), (3, (1, [(2, 3), (3, 1), (4, 1), (13, 1), (17, 1)])), (4, (1, [(2, 1), (3, 3), (4, 1), (13, 1), (17, 1)])), (5, (1, [(2, 4), (3, 2), (4, 1), (17, 2)]))] 0 (1, [(2, 1), (3, 1), (4, 1), (13, 1), (17, 1)]),
      .no [(0, (1, [(11, 1)])), (1, (1, [(15, 1)])), (2, (1, [(3, 2), (4, 1), (7, 1), (16, 2)])), (3, (1, [(2, 1), (3, 2), (4, 1), (13, 1), (16, 1)])), (4, (1, [(3, 6), (4, 2), (7, 1), (13, 2), (16, 2)])), (5, (1, [(3, 4), (4, 1), (16, 2)]))] 0 (1, [(3, 4), (4, 2), (7, 1), (13, 2), (16, 2)]),
      .no [(0, (1, [(11, 1)])), (1, (1, [(15, 1)])), (2, (1, [(1, 2), (3, 2), (4, 1), (7, 1), (16, 2)])), (3, (1, [(2, 1), (3, 1), (4, 1), (16, 1)])), (4, (1, [(3, 4), (4, 2), (7, 1), (16, 2)])), (5, (1, [(1, 2), (3, 4), (4, 1), (16, 2)]))] 0 (1, [(3, 2), (4, 2), (7, 1), (16, 2)]),
      .no [(0, (1, [(11, 1)])), (1, (1, [(15, 1)])), (2, (1, [(1, 4), (3, 2), (4, 1), (7, 1), (16, 2)])), (3, (1, [(1, 1), (2, 1), (3, 1), (4, 1), (16, 1)])), (4, (1, [(1, 2), (3, 4), (4, 2), (7, 1), (16, 2)])), (5, (1, [(1, 4), (3, 4), (4, 1), (16, 2)]))] 0 (1, [(1, 2), (3, 2), (4, 2), (7, 1), (16, 2)]),
      .no [(0, (1, [(11, 1)])), (1, (1, [(15, 1)])), (2, (1, [(1, 3), (2, 1), (5, 1), (19, 1)])), (3, (1, [(1, 1), (2, 3), (4, 1), (5, 1), (19, 1)])), (4, (1, [(1, 1), (2, 1), (3, 2), (4, 1), (5, 1), (19, 1)])), (5, (1, [(1, 4), (2, 4), (3, 2), (4, 1), (5, 2), (19, 2)]))] 0 (1, [(1, 1), (2, 1), (4, 1), (5, 1), (19, 1)]),
      .yes [(0, (1, [(11, 1)])), (1, (1, [(15, 1)]))] 3 [((1, [(11, 1)]), (1, [(4, 1)])), ((1, [(15, 1)]), (1, [(5, 1)])), ((1, [(3, 1), (13, 1)]), (1, [(1, 1)])), ((1, [(1, 1), (13, 1), (17, 1)]), (1, [(2, 1)])), ((1, [(1, 1), (13, 1)]), (1, [(3, 1)]))],
      .no [(0, (1, [(11, 1)])), (1, (1, [(15, 1)])), (2, (1, [(1, 1), (5, 1), (13, 1), (17, 1), (18, 1)])), (3, (1, [(2, 1), (3, 1), (4, 1), (5, 1), (13, 1), (18, 1)])), (4, (1, [(3, 3), (4, 1), (5, 1), (13, 2), (17, 1), (18, 1)])), (5, (1, [(3, 2), (4, 1), (5, 2), (18, 2)]))] 0 (1, [(3, 1), (4, 1), (5, 1), (13, 2), (17, 1), (18, 1)]),
      .no [(0, (1, [(11, 1)])), (1, (1, [(15, 1)])), (2, (1, [(1, 4), (2, 1), (13, 1), (17, 1)])), (3, (1, [(1, 2), (2, 3), (4, 1), (13, 1), (17, 1)])), (4, (1, [(1, 1), (2, 1), (3, 1), (4, 1), (17, 1)])), (5, (1, [(1, 4), (2, 4), (4, 1), (17, 2)]))] 0 (1, [(1, 2), (2, 1), (4, 1), (13, 1), (17, 1)]),
      .no [(0, (1, [(11, 1)])), (1, (1, [(15, 1)])), (2, (1, [(1, 3), (2, 1), (13, 1), (17, 1)])), (3, (1, [(1, 1), (2, 3), (4, 1), (13, 1), (17, 1)])), (4, (1, [(2, 1), (3, 1), (4, 1), (17, 1)])), (5, (1, [(1, 2), (2, 4), (4, 1), (17, 2)]))] 0 (1, [(1, 1), (2, 1), (4, 1), (13, 1), (17, 1)]),
      .no [(0, (1, [(11, 1)])), (1, (1, [(15, 1)])), (2, (1, [(1, 2), (2, 1), (13, 1), (17, 1)])), (3, (1, [(2, 3), (4, 1), (13, 1), (17, 1)])), (4, (1, [(2, 1), (3, 2), (4, 1), (13, 1), (17, 1)])), (5, (1, [(2, 4), (4, 1), (17, 2)]))] 0 (1, [(2, 1), (4, 1), (13, 1), (17, 1)])],
    .no [(0, (1, [(11, 1)])), (2, (1, [(1, 2), (14, 1)])), (3, (1, [(2, 2), (4, 1), (14, 1)])), (4, (1, [(3, 2), (4, 1), (14, 1)])), (5, (1, [(1, 2), (2, 2), (3, 2), (4, 1), (14, 2)]))] 0 (1, [(4, 1), (14, 1)]),
    .node [
      .yes [(0, (1, [(11, 1)])), (1, (1, [(15, 1)])), (5, (1, [(4, 1), (16, 2)]))] 5 [((1, [(11, 1)]), (1, [(4, 1)])), ((1, [(15, 1)]), (1, [(5, 1)])), ((2, [(9, 1), (11, 1), (12, 2), (22, 2)]), (1, [(4, 1), (13, 2), (16, 1), (23, 1)])), ((2, [(9, 1), (11, 1), (13, 2), (23, 4)]), (1, [(4, 1), (13, 1), (16, 1), (22, 2)])), ((2, [(9, 1), (11, 1), (13, 4), (22, 2)]), (1, [(4, 1), (12, 1), (16, 1), (23, 1)]))],
      .no [(0, (1, [(11, 1)])), (1, (1, [(15, 1)])), (2, (1, [(4, 1), (7, 1), (13, 2), (16, 2)])), (3, (1, [(4, 2), (8, 1), (16, 2)])), (4, (1, [(4, 2), (7, 1), (16, 2)])), (5, (1, [(1, 2), (4, 1), (16, 2)]))] 0 (1, [(4, 3), (7, 1), (9, 1), (13, 2), (16, 4)]),
      .no [(0, (1, [(11, 1)])), (1, (1, [(15, 1)])), (2, (1, [(1, 2), (4, 1), (7, 1), (13, 2), (16, 2)])), (3, (1, [(1, 2), (4, 2), (8, 1), (16, 2)])), (4, (1, [(1, 2), (4, 2), (7, 1), (16, 2)])), (5, (1, [(1, 4), (4, 1), (16, 2)]))] 0 (1, [(4, 2), (7, 1), (13, 2), (16, 2)]),
      .no [(0, (1, [(11, 1)])), (1, (1, [(15, 1)])), (2, (1, [(1, 2), (3, 1), (5, 1), (17, 1), (18, 1)])), (3, (1, [(2, 2), (3, 1), (4, 1), (5, 1), (17, 1), (18, 1)])), (4, (1, [(3, 3), (4, 1), (5, 1), (17, 1), (18, 1)])), (5, (1, [(3, 2), (4, 1), (5, 2), (18, 2)]))] 0 (1, [(3, 1), (4, 1), (5, 1), (17, 1), (18, 1)]),
      .yes [(0, (1, [(11, 1)])), (1, (1, [(15, 1)]))] 3 [((1, [(11, 1)]), (1, [(4, 1)])), ((1, [(15, 1)]), (1, [(5, 1)])), ((1, [(2, 1), (12, 1), (17, 1)]), (1, [(1, 1)])), ((1, [(3, 1), (17, 1)]), (1, [(2, 1)])), ((1, [(2, 1), (17, 1)]), (1, [(3, 1)]))],
      .no [(0, (1, [(11, 1)])), (1, (1, [(15, 1)])), (2, (1, [(1, 3), (2, 1), (5, 1), (19, 1)])), (3, (1, [(1, 1), (2, 3), (4, 1), (5, 1), (19, 1)])), (4, (1, [(1, 1), (2, 1), (3, 2), (4, 1), (5, 1), (19, 1)])), (5, (1, [(1, 4), (2, 4), (3, 2), (4, 1), (5, 2), (19, 2)]))] 0 (1, [(1, 1), (2, 1), (4, 1), (5, 1), (19, 1)]),
      .no [(0, (1, [(11, 1)])), (1, (1, [(15, 1)])), (2, (1, [(1, 3), (2, 1), (3, 1), (17, 1)])), (3, (1, [(1, 1), (2, 3), (3, 1), (4, 1), (17, 1)])), (4, (1, [(1, 1), (2, 1), (3, 3), (4, 1), (17, 1)])), (5, (1, [(1, 4), (2, 4), (3, 4), (4, 1), (17, 2)]))] 0 (1, [(1, 1), (2, 1), (3, 1), (4, 1), (17, 1)]),
      .no [(0, (1, [(11, 1)])), (1, (1, [(15, 1)])), (2, (1, [(1, 2), (2, 1), (3, 1), (17, 1)])), (3, (1, [(2, 3), (3, 1), (4, 1), (17, 1)])), (4, (1, [(2, 1), (3, 3), (4, 1), (17, 1)])), (5, (1, [(1, 2), (2, 4), (3, 4), (4, 1), (17, 2)]))] 0 (1, [(2, 1), (3, 1), (4, 1), (17, 1)]),
      .no [(0, (1, [(11, 1)])), (1, (1, [(15, 1)])), (2, (1, [(1, 1), (2, 1), (3, 1), (17, 1)])), (3, (1, [(2, 4), (3, 2), (4, 1), (6, 1), (17, 2)])), (4, (1, [(2, 1), (3, 2), (4, 1), (12, 1), (17, 1)])), (5, (1, [(2, 4), (3, 4), (4, 1), (17, 2)]))] 0 (1, [(2, 2), (3, 2), (4, 1), (6, 1), (17, 2)]),
      .no [(0, (1, [(11, 1)])), (1, (1, [(15, 1)])), (2, (1, [(4, 1), (7, 1), (16, 2)])), (3, (1, [(4, 1), (6, 1), (16, 2)])), (4, (1, [(4, 2), (7, 1), (12, 2), (16, 2)])), (5, (1, [(3, 2), (4, 1), (16, 2)]))] 0 (1, [(4, 3), (7, 1), (9, 1), (12, 2), (16, 4)]),
      .no [(0, (1, [(11, 1)])), (1, (1, [(15, 1)])), (2, (1, [(1, 2), (4, 1), (7, 1), (16, 2)])), (3, (1, [(2, 1), (4, 1), (16, 1)])), (4, (1, [(3, 2), (4, 2), (7, 1), (16, 2)])), (5, (1, [(1, 2), (3, 2), (4, 1), (16, 2)]))] 0 (1, [(4, 2), (7, 1), (16, 2)]),
      .no [(0, (1, [(11, 1)])), (1, (1, [(15, 1)])), (2, (1, [(1, 4), (4, 1), (7, 1), (16, 2)])), (3, (1, [(1, 1), (2, 1), (4, 1), (16, 1)])), (4, (1, [(1, 2), (3, 2), (4, 2), (7, 1), (16, 2)])), (5, (1, [(1, 4), (3, 2), (4, 1), (16, 2)]))] 0 (1, [(1, 2), (4, 2), (7, 1), (16, 2)]),
      .no [(0, (1, [(11, 1)])), (1, (1, [(15, 1)])), (2, (1, [(1, 1), (5, 1), (18, 1)])), (3, (1, [(2, 3), (4, 1), (5, 1), (17, 1), (18, 1)])), (4, (1, [(3, 1), (4, 1), (5, 1), (12, 1), (18, 1)])), (5, (1, [(2, 2), (3, 2), (4, 1), (5, 2), (18, 2)]))] 0 (1, [(2, 1), (4, 1), (5, 1), (17, 1), (18, 1)]),
      .no [(0, (1, [(11, 1)])), (1, (1, [(15, 1)])), (2, (1, [(1, 2), (5, 1), (20, 1)])), (3, (1, [(2, 2), (4, 1), (5, 1), (20, 1)])), (4, (1, [(3, 2), (4, 1), (5, 1), (20, 1)])), (5, (1, [(1, 2), (2, 2), (3, 2), (4, 1), (5, 2), (20, 2)]))] 0 (1, [(4, 1), (5, 1), (20, 1)]),
      .no [(0, (1, [(11, 1)])), (1, (1, [(15, 1)])), (2, (1, [(1, 3), (5, 1), (19, 1)])), (3, (1, [(1, 1), (2, 2), (4, 1), (5, 1), (19, 1)])), (4, (1, [(1, 1), (3, 2), (4, 1), (5, 1), (19, 1)])), (5, (1, [(1, 4), (2, 2), (3, 2), (4, 1), (5, 2), (19, 2)]))] 0 (1, [(1, 1), (4, 1), (5, 1), (19, 1)]),
      .no [(0, (1, [(11, 1)])), (1, (1, [(15, 1)])), (2, (1, [(1, 3), (2, 1), (17, 1)])), (3, (1, [(1, 1), (2, 3), (4, 1), (17, 1)])), (4, (1, [(1, 1), (2, 1), (3, 2), (4, 1), (17, 1)])), (5, (1, [(1, 4), (2, 4), (3, 2), (4, 1), (17, 2)]))] 0 (1, [(1, 1), (2, 1), (4, 1), (17, 1)]),
      .no [(0, (1, [(11, 1)])), (1, (1, [(15, 1)])), (2, (1, [(1, 2), (2, 1), (17, 1)])), (3, (1, [(2, 3), (4, 1), (17, 1)])), (4, (1, [(2, 1), (3, 2), (4, 1), (17, 1)])), (5, (1, [(1, 2), (2, 4), (3, 2), (4, 1), (17, 2)]))] 0 (1, [(2, 1), (4, 1), (17, 1)]),
      .no [(0, (1, [(11, 1)])), (1, (1, [(15, 1)])), (2, (1, [(1, 1), (2, 1), (17, 1)])), (3, (1, [(2, 4), (4, 1), (6, 1), (17, 2)])), (4, (1, [(2, 1), (3, 1), (4, 1), (12, 1), (17, 1)])), (5, (1, [(2, 4), (3, 2), (4, 1), (17, 2)]))] 0 (1, [(2, 2), (4, 1), (6, 1), (17, 2)]),
      .no [(0, (1, [(11, 1)])), (1, (1, [(15, 1)])), (2, (1, [(3, 2), (4, 1), (7, 1), (16, 2)])), (3, (1, [(3, 2), (4, 1), (6, 1), (16, 2)])), (4, (1, [(3, 2), (4, 2), (7, 1), (12, 2), (16, 2)])), (5, (1, [(3, 4), (4, 1), (16, 2)]))] 0 (1, [(4, 2), (7, 1), (12, 2), (16, 2)]),
      .no [(0, (1, [(11, 1)])), (1, (1, [(15, 1)])), (2, (1, [(1, 2), (3, 2), (4, 1), (7, 1), (16, 2)])), (3, (1, [(2, 1), (3, 1), (4, 1), (16, 1)])), (4, (1, [(3, 4), (4, 2), (7, 1), (16, 2)])), (5, (1, [(1, 2), (3, 4), (4, 1), (16, 2)]))] 0 (1, [(3, 2), (4, 2), (7, 1), (16, 2)]),
      .no [(0, (1, [(11, 1)])), (1, (1, [(15, 1)])), (2, (1, [(1, 4), (3, 2), (4, 1), (7, 1), (16, 2)])), (3, (1, [(1, 1), (2, 1), (3, 1), (4, 1), (16, 1)])), (4, (1, [(1, 2), (3, 4), (4, 2), (7, 1), (16, 2)])), (5, (1, [(1, 4), (3, 4), (4, 1), (16, 2)]))] 0 (1, [(1, 2), (3, 2), (4, 2), (7, 1), (16, 2)]),
      .no [(0, (1, [(11, 1)])), (1, (1, [(15, 1)])), (2, (1, [(1, 1), (2, 1), (5, 1), (18, 1)])), (3, (1, [(2, 4), (4, 1), (5, 2), (6, 1), (18, 2)])), (4, (1, [(2, 1), (3, 1), (4, 1), (5, 1), (12, 1), (18, 1)])), (5, (1, [(2, 4), (3, 2), (4, 1), (5, 2), (18, 2)]))] 0 (1, [(2, 2), (4, 1), (5, 2), (6, 1), (18, 2)]),
      .yes [(0, (1, [(11, 1)])), (1, (1, [(15, 1)]))] 4 [((1, [(11, 1)]), (1, [(4, 1)])), ((1, [(15, 1)]), (1, [(5, 1)])), ((1, [(13, 1), (17, 1)]), (1, [(12, 1), (16, 1)])), ((1, [(13, 1)]), (1, [(12, 1)]))],
      .no [(0, (1, [(11, 1)])), (1, (1, [(15, 1)])), (2, (1, [(1, 1), (5, 1), (13, 1), (17, 1), (19, 1)])), (3, (1, [(1, 1), (2, 1), (4, 1), (5, 1), (19, 1)])), (4, (1, [(3, 1), (4, 1), (5, 1), (17, 1), (19, 1)])), (5, (1, [(1, 4), (3, 2), (4, 1), (5, 2), (19, 2)]))] 0 (1, [(1, 2), (4, 2), (5, 2), (7, 1), (19, 2)]),
      .no [(0, (1, [(11, 1)])), (1, (1, [(15, 1)])), (2, (1, [(1, 2), (2, 1), (13, 1), (17, 1)])), (3, (1, [(1, 2), (2, 4), (4, 2), (8, 1), (17, 2)])), (4, (1, [(1, 1), (2, 1), (3, 1), (4, 1), (17, 1)])), (5, (1, [(1, 4), (2, 4), (4, 1), (17, 2)]))] 0 (1, [(1, 2), (2, 2), (4, 2), (8, 1), (17, 2)]),
      .no [(0, (1, [(11, 1)])), (1, (1, [(15, 1)])), (2, (1, [(1, 1), (2, 1), (13, 1), (17, 1)])), (3, (1, [(2, 4), (4, 2), (8, 1), (17, 2)])), (4, (1, [(2, 1), (3, 1), (4, 1), (17, 1)])), (5, (1, [(1, 2), (2, 4), (4, 1), (17, 2)]))] 0 (1, [(2, 2), (4, 2), (8, 1), (17, 2)]),
      .no [(0, (1, [(11, 1)])), (1, (1, [(15, 1)])), (2, (1, [(2, 1), (13, 1), (17, 1)])), (3, (1, [(2, 1), (4, 1), (5, 1), (19, 1)])), (4, (1, [(2, 1), (4, 1), (12, 1), (17, 1)])), (5, (1, [(2, 4), (4, 1), (17, 2)]))] 0 (1, [(4, 2), (5, 2), (7, 1), (19, 2)])],
    .no [(0, (1, [(11, 1)])), (1, (1, [(0, 1), (1, 2), (4, 1), (15, 1)])), (2, (1, [(1, 3), (3, 1), (13, 1)])), (3, (1, [(1, 1), (2, 2), (3, 1), (4, 1), (13, 1)])), (4, (1, [(1, 1), (3, 3), (4, 1), (13, 1)])), (5, (1, [(1, 4), (2, 2), (3, 4), (4, 1), (13, 2)]))] 0 (1, [(1, 1), (3, 1), (4, 1), (13, 1)]),
    .no [(0, (1, [(11, 1)])), (2, (1, [(1, 2), (3, 1), (13, 1)])), (3, (1, [(2, 2), (3, 1), (4, 1), (13, 1)])), (4, (1, [(3, 3), (4, 1), (13, 1)])), (5, (1, [(1, 2), (2, 2), (3, 4), (4, 1), (13, 2)]))] 0 (1, [(3, 1), (4, 1), (13, 1)]),
    .no [(0, (1, [(11, 1)])), (1, (1, [(6, 1), (15, 1)])), (2, (1, [(1, 1), (3, 1), (13, 1)])), (3, (1, [(2, 2), (3, 2), (4, 1), (6, 1), (13, 2)])), (4, (1, [(3, 4), (4, 1), (6, 1), (13, 2)])), (5, (1, [(2, 2), (3, 4), (4, 1), (13, 2)]))] 0 (1, [(3, 2), (4, 1), (6, 1), (13, 2)]),
    .no [(0, (1, [(11, 1)])), (1, (1, [(0, 1), (2, 2), (3, 2), (6, 1), (15, 1)])), (2, (1, [(1, 1), (12, 1)])), (3, (1, [(2, 2), (4, 1), (6, 1), (12, 2)])), (4, (1, [(3, 2), (4, 1), (6, 1), (12, 2)])), (5, (1, [(2, 2), (3, 2), (4, 1), (12, 2)]))] 0 (1, [(4, 1), (6, 1), (12, 2)]),
    .no [(0, (1, [(11, 1)])), (2, (1, [(1, 2), (12, 1)])), (3, (1, [(2, 2), (4, 1), (12, 1)])), (4, (1, [(3, 2), (4, 1), (12, 1)])), (5, (1, [(1, 2), (2, 2), (3, 2), (4, 1), (12, 2)]))] 0 (1, [(4, 1), (12, 1)]),
    .no [(0, (1, [(11, 1)])), (1, (1, [(0, 1), (1, 2), (3, 2), (4, 1), (7, 1), (15, 1)])), (2, (1, [(1, 3), (12, 1)])), (3, (1, [(1, 1), (2, 2), (4, 1), (12, 1)])), (4, (1, [(1, 1), (3, 2), (4, 1), (12, 1)])), (5, (1, [(1, 4), (2, 2), (3, 2), (4, 1), (12, 2)]))] 0 (1, [(1, 1), (4, 1), (12, 1)]),
    .no [(0, (1, [(11, 1)])), (1, (1, [(0, 1), (2, 2), (15, 1)])), (2, (1, [(1, 2), (2, 2), (5, 1), (11, 1), (15, 1)])), (3, (1, [(2, 4), (5, 1), (15, 1)])), (4, (1, [(2, 2), (3, 2), (5, 1), (15, 1)])), (5, (1, [(1, 2), (2, 6), (3, 2), (5, 2), (11, 1), (15, 2)]))] 0 (1, [(2, 2), (5, 1), (15, 1)]),
    .node [
      .yes [(0, (1, [(11, 1)])), (5, (1, [(4, 1), (16, 2)]))] 17 [((1, [(11, 1)]), (1, [(4, 1)])), ((1, [(9, 1)]), (1, [(4, 1), (16, 2)]))],
      .no [(0, (1, [(11, 1)])), (1, (1, [(4, 2), (7, 1), (16, 2), (20, 1)])), (2, (1, [(8, 1), (11, 1), (18, 2)])), (3, (1, [(4, 2), (8, 1), (16, 2)])), (4, (1, [(4, 2), (7, 1), (16, 2)])), (5, (1, [(1, 2), (4, 1), (16, 2)]))] 0 (1, [(2, 2), (8, 1), (9, 2), (16, 2), (18, 4)]),
      .no [(0, (1, [(11, 1)])), (2, (1, [(2, 2), (8, 1), (11, 1), (18, 2)])), (3, (1, [(1, 2), (4, 2), (8, 1), (16, 2)])), (4, (1, [(1, 2), (4, 2), (7, 1), (16, 2)])), (5, (1, [(1, 4), (4, 1), (16, 2)]))] 0 (1, [(2, 4), (8, 1), (9, 1), (16, 1), (18, 3)]),
      .no [(0, (1, [(11, 1)])), (2, (1, [(1, 2), (3, 1), (11, 1), (17, 1), (18, 1)])), (3, (1, [(2, 2), (3, 1), (17, 1), (18, 1)])), (4, (1, [(3, 3), (17, 1), (18, 1)])), (5, (1, [(3, 2), (11, 1), (18, 2)]))] 0 (1, [(3, 1), (17, 1), (18, 1)]),
      .no [(0, (1, [(11, 1)])), (1, (1, [(4, 1), (20, 1)])), (2, (1, [(1, 1), (11, 1), (18, 1)])), (3, (1, [(2, 2), (6, 1), (11, 1), (18, 2)])), (4, (1, [(3, 2), (6, 1), (11, 1), (18, 2)])), (5, (1, [(2, 2), (3, 2), (11, 1), (18, 2)]))] 0 (1, [(6, 1), (11, 1), (18, 2)]),
      .no [(0, (1, [(11, 1)])), (2, (1, [(1, 1), (2, 1), (11, 1), (18, 1)])), (3, (1, [(2, 4), (6, 1), (11, 1), (18, 2)])), (4, (1, [(2, 2), (3, 2), (6, 1), (11, 1), (18, 2)])), (5, (1, [(2, 4), (3, 2), (11, 1), (18, 2)]))] 0 (1, [(2, 2), (6, 1), (11, 1), (18, 2)]),
      .no [(0, (1, [(11, 1)])), (2, (1, [(1, 3), (2, 1), (3, 1), (17, 1)])), (3, (1, [(1, 1), (2, 3), (3, 1), (4, 1), (17, 1)])), (4, (1, [(1, 1), (2, 1), (3, 3), (4, 1), (17, 1)])), (5, (1, [(1, 4), (2, 4), (3, 4), (4, 1), (17, 2)]))] 0 (1, [(1, 1), (2, 1), (3, 1), (4, 1), (17, 1)]),
      .no [(0, (1, [(11, 1)])), (1, (3, [(2, 4), (4, 4), (8, 1), (17, 4), (20, 3)])), (2, (1, [(1, 2), (2, 1), (3, 1), (17, 1)])), (3, (1, [(2, 3), (3, 1), (4, 1), (17, 1)])), (4, (1, [(2, 1), (3, 3), (4, 1), (17, 1)])), (5, (1, [(1, 2), (2, 4), (3, 4), (4, 1), (17, 2)]))] 0 (1, [(2, 1), (3, 1), (4, 1), (17, 1)]),
      .no [(0, (1, [(11, 1)])), (2, (1, [(1, 1), (2, 1), (3, 1), (17, 1)])), (3, (1, [(2, 4), (3, 2), (4, 1), (6, 1), (17, 2)])), (4, (1, [(2, 2), (3, 4), (4, 1), (6, 1), (17, 2)])), (5, (1, [(2, 4), (3, 4), (4, 1), (17, 2)]))] 0 (1, [(2, 2), (3, 2), (4, 1), (6, 1), (17, 2)]),
      .no [(0, (1, [(11, 1)])), (2, (1, [(4, 1), (7, 1), (16, 2)])), (3, (1, [(4, 1), (6, 1), (16, 2)])), (4, (1, [(3, 3), (4, 1), (16, 1), (19, 1)])), (5, (1, [(3, 2), (4, 1), (16, 2)]))] 0 (1, [(3, 1), (4, 1), (16, 1), (19, 1)]),
      .no [(0, (1, [(11, 1)])), (1, (1, [(20, 1)])), (2, (1, [(1, 2), (4, 1), (7, 1), (16, 2)])), (3, (1, [(2, 1), (4, 1), (16, 1)])), (4, (1, [(3, 2), (4, 2), (7, 1), (16, 2)])), (5, (1, [(1, 2), (3, 2), (4, 1), (16, 2)]))] 0 (1, [(4, 2), (7, 1), (16, 2)]),
      .no [(0, (1, [(11, 1)])), (2, (1, [(1, 4), (4, 1), (7, 1), (16, 2)])), (3, (1, [(1, 1), (2, 1), (4, 1), (16, 1)])), (4, (1, [(1, 2), (3, 2), (4, 2), (7, 1), (16, 2)])), (5, (1, [(1, 4), (3, 2), (4, 1), (16, 2)]))] 0 (1, [(1, 2), (4, 2), (7, 1), (16, 2)]),
      .yes [(0, (1, [(11, 1)]))] 13 [((1, [(11, 1)]), (1, [(4, 1)])), ((1, [(2, 1), (17, 1)]), (1, [(1, 1)])), ((1, [(1, 1), (17, 1)]), (1, [(2, 1)]))],
      .no [(0, (1, [(11, 1)])), (1, (1, [(0, 1), (4, 1), (20, 1)])), (2, (1, [(1, 2), (5, 1), (20, 1)])), (3, (1, [(2, 2), (4, 1), (5, 1), (20, 1)])), (4, (1, [(3, 2), (4, 1), (5, 1), (20, 1)])), (5, (1, [(1, 2), (2, 2), (3, 2), (4, 1), (5, 2), (20, 2)]))] 0 (1, [(4, 1), (5, 1), (20, 1)]),
      .yes [(0, (1, [(11, 1)]))] 14 [((1, [(11, 1)]), (1, [(4, 1)])), ((1, [(17, 1)]), (1, [(16, 1)]))],
      .no [(0, (1, [(11, 1)])), (2, (1, [(1, 3), (2, 1), (17, 1)])), (3, (1, [(1, 1), (2, 3), (4, 1), (17, 1)])), (4, (1, [(1, 1), (2, 1), (3, 2), (4, 1), (17, 1)])), (5, (1, [(1, 4), (2, 4), (3, 2), (4, 1), (17, 2)]))] 0 (1, [(1, 1), (2, 1), (4, 1), (17, 1)]),
      .no [(0, (1, [(11, 1)])), (1, (1, [(20, 1)])), (2, (1, [(1, 2), (2, 1), (17, 1)])), (3, (1, [(2, 3), (4, 1), (17, 1)])), (4, (1, [(2, 1), (3, 2), (4, 1), (17, 1)])), (5, (1, [(1, 2), (2, 4), (3, 2), (4, 1), (17, 2)]))] 0 (1, [(2, 1), (4, 1), (17, 1)]),
      .no [(0, (1, [(11, 1)])), (2, (1, [(1, 1), (2, 1), (17, 1)])), (3, (1, [(2, 4), (4, 1), (6, 1), (17, 2)])), (4, (1, [(2, 2), (3, 2), (4, 1), (6, 1), (17, 2)])), (5, (1, [(2, 4), (3, 2), (4, 1), (17, 2)]))] 0 (1, [(2, 2), (4, 1), (6, 1), (17, 2)]),
      .no [(0, (1, [(11, 1)])), (2, (1, [(3, 2), (4, 1), (7, 1), (16, 2)])), (3, (1, [(3, 2), (4, 1), (6, 1), (16, 2)])), (4, (1, [(1, 1), (2, 1), (3, 3), (19, 1)])), (5, (1, [(3, 4), (4, 1), (16, 2)]))] 0 (1, [(1, 1), (2, 1), (3, 1), (19, 1)]),
      .no [(0, (1, [(11, 1)])), (1, (1, [(4, 2), (7, 1), (16, 2), (20, 1)])), (2, (1, [(1, 2), (3, 2), (4, 1), (7, 1), (16, 2)])), (3, (1, [(2, 1), (3, 1), (4, 1), (16, 1)])), (4, (1, [(3, 4), (4, 2), (7, 1), (16, 2)])), (5, (1, [(1, 2), (3, 4), (4, 1), (16, 2)]))] 0 (1, [(3, 2), (4, 2), (7, 1), (16, 2)]),
      .no [(0, (1, [(11, 1)])), (2, (1, [(1, 4), (3, 2), (4, 1), (7, 1), (16, 2)])), (3, (1, [(1, 1), (2, 1), (3, 1), (4, 1), (16, 1)])), (4, (1, [(1, 2), (3, 4), (4, 2), (7, 1), (16, 2)])), (5, (1, [(1, 4), (3, 4), (4, 1), (16, 2)]))] 0 (1, [(1, 2), (3, 2), (4, 2), (7, 1), (16, 2)]),
      .no [(0, (1, [(11, 1)])), (2, (1, [(1, 3), (2, 1), (11, 1), (19, 1)])), (3, (1, [(1, 1), (2, 3), (19, 1)])), (4, (1, [(1, 1), (2, 1), (3, 2), (19, 1)])), (5, (1, [(1, 4), (2, 4), (3, 2), (11, 1), (19, 2)]))] 0 (1, [(1, 1), (2, 1), (19, 1)]),
      .no [(0, (1, [(11, 1)])), (1, (1, [(4, 1), (20, 1)])), (2, (1, [(1, 3), (11, 1), (19, 1)])), (3, (1, [(1, 1), (2, 2), (19, 1)])), (4, (1, [(1, 1), (3, 2), (19, 1)])), (5, (1, [(1, 4), (2, 2), (3, 2), (11, 1), (19, 2)]))] 0 (1, [(1, 1), (19, 1)]),
      .no [(0, (1, [(11, 1)])), (2, (1, [(1, 4), (7, 1), (11, 1), (19, 2)])), (3, (1, [(1, 1), (2, 1), (19, 1)])), (4, (1, [(1, 2), (3, 2), (7, 1), (19, 2)])), (5, (1, [(1, 4), (3, 2), (11, 1), (19, 2)]))] 0 (1, [(1, 2), (7, 1), (19, 2)]),
      .no [(0, (1, [(11, 1)])), (2, (1, [(1, 4), (2, 2), (4, 1), (8, 1), (17, 2)])), (3, (1, [(1, 2), (2, 4), (4, 2), (8, 1), (17, 2)])), (4, (1, [(1, 1), (2, 1), (3, 1), (4, 1), (17, 1)])), (5, (1, [(1, 4), (2, 4), (4, 1), (17, 2)]))] 0 (1, [(1, 2), (2, 2), (4, 2), (8, 1), (17, 2)]),
      .no [(0, (1, [(11, 1)])), (1, (1, [(2, 1), (3, 1), (4, 1), (17, 1), (20, 1)])), (2, (1, [(1, 2), (2, 2), (4, 1), (8, 1), (17, 2)])), (3, (1, [(2, 4), (4, 2), (8, 1), (17, 2)])), (4, (1, [(2, 1), (3, 1), (4, 1), (17, 1)])), (5, (1, [(1, 2), (2, 4), (4, 1), (17, 2)]))] 0 (1, [(2, 2), (4, 2), (8, 1), (17, 2)]),
      .no [(0, (1, [(11, 1)])), (2, (1, [(2, 2), (4, 1), (8, 1), (17, 2)])), (3, (1, [(1, 2), (8, 1), (19, 2)])), (4, (1, [(2, 2), (4, 1), (6, 1), (17, 2)])), (5, (1, [(2, 4), (4, 1), (17, 2)]))] 0 (1, [(1, 4), (8, 1), (9, 1), (17, 1), (19, 3)])],
    .no [(0, (1, [(11, 1)])), (1, (1, [(7, 1), (15, 1)])), (3, (1, [(5, 1), (15, 1)])), (4, (1, [(5, 1), (15, 1), (17, 2)])), (5, (1, [(1, 2), (5, 2), (11, 1), (15, 2), (17, 2)])), (2, (1, [(1, 2), (5, 1), (11, 1), (15, 1), (17, 2), (18, 2)]))] 0 (1, [(5, 1), (15, 1), (17, 2), (18, 2)]),
    .no [(0, (1, [(11, 1)])), (1, (1, [(0, 1), (1, 2), (2, 2), (4, 1), (8, 1), (15, 1)])), (2, (1, [(1, 3), (13, 1)])), (3, (1, [(1, 1), (2, 2), (4, 1), (13, 1)])), (4, (1, [(1, 1), (3, 2), (4, 1), (13, 1)])), (5, (1, [(1, 4), (2, 2), (3, 2), (4, 1), (13, 2)]))] 0 (1, [(1, 1), (4, 1), (13, 1)]),
    .no [(0, (1, [(11, 1)])), (2, (1, [(1, 2), (13, 1)])), (3, (1, [(2, 2), (4, 1), (13, 1)])), (4, (1, [(3, 2), (4, 1), (13, 1)])), (5, (1, [(1, 2), (2, 2), (3, 2), (4, 1), (13, 2)]))] 0 (1, [(4, 1), (13, 1)]),
    .no [(0, (1, [(11, 1)])), (1, (1, [(9, 1), (15, 1)])), (2, (1, [(1, 1), (13, 1)])), (3, (1, [(2, 2), (4, 1), (6, 1), (13, 2)])), (4, (1, [(3, 2), (4, 1), (6, 1), (13, 2)])), (5, (1, [(2, 2), (3, 2), (4, 1), (13, 2)]))] 0 (1, [(4, 1), (6, 1), (13, 2)])]

theorem treeII_3_ok : treeII_3.check false (0, 1, 0) = true := by decide +kernel

/-- All symmetries with first column `(0, 1, 1)`. -/
def treeII_4 : Tree1 :=
  .no [(0, (1, [(5, 1), (6, 1), (11, 1)])), (1, (1, [(4, 1), (6, 1), (11, 1)])), (2, (1, [(4, 1), (5, 1), (11, 1)])), (3, (1, [(4, 2), (5, 1), (11, 1), (12, 2)])), (4, (1, [(4, 2), (5, 1), (11, 1), (12, 2), (13, 2)])), (5, (1, [(3, 2), (4, 3), (5, 2), (11, 2), (12, 2)]))] 0 (1, [(4, 5), (5, 3), (9, 1), (11, 3), (12, 4), (13, 2)])

theorem treeII_4_ok : treeII_4.check false (0, 1, 1) = true := by decide +kernel

/-- All symmetries with first column `(1, -1, -1)`. -/
def treeII_5 : Tree1 :=
  .no [(0, (1, [(0, 1), (2, 2), (3, 2), (5, 1), (6, 1), (11, 1)])), (1, (1, [(0, 1), (2, 2), (3, 2), (4, 1), (6, 1), (11, 1)])), (2, (2, [(1, 2), (2, 2), (3, 2), (5, 1), (11, 1)])), (3, (1, [(2, 4), (3, 2), (4, 1), (5, 1), (6, 1), (11, 1)])), (4, (1, [(2, 2), (3, 4), (4, 1), (5, 1), (6, 1), (11, 1)])), (5, (1, [(2, 4), (3, 4), (4, 1), (5, 1), (11, 1)]))] 0 (1, [(2, 2), (3, 2), (4, 1), (5, 1), (6, 1), (11, 1)])

theorem treeII_5_ok : treeII_5.check false (1, -1, -1) = true := by decide +kernel

/-- All symmetries with first column `(1, -1, 0)`. -/
def treeII_6 : Tree1 :=
  .no [(0, (1, [(0, 1), (3, 2), (11, 1)])), (2, (1, [(1, 2), (3, 2), (11, 1)])), (3, (1, [(2, 2), (3, 2), (4, 1), (11, 1)])), (4, (1, [(3, 4), (4, 1), (11, 1)])), (5, (1, [(1, 2), (2, 2), (3, 6), (4, 1), (11, 2)]))] 0 (1, [(3, 2), (4, 1), (11, 1)])

theorem treeII_6_ok : treeII_6.check false (1, -1, 0) = true := by decide +kernel

/-- All symmetries with first column `(1, -1, 1)`. -/
def treeII_7 : Tree1 :=
  .no [(0, (2, [(0, 1), (1, 2), (3, 2), (5, 1), (7, 1), (11, 1)])), (1, (1, [(0, 1), (1, 2), (3, 2), (4, 2), (7, 1), (11, 1)])), (2, (1, [(1, 4), (3, 2), (4, 1), (5, 1), (7, 1), (11, 1)])), (3, (2, [(1, 2), (2, 2), (3, 2), (4, 2), (5, 1), (11, 1)])), (4, (1, [(1, 2), (3, 4), (4, 2), (5, 1), (7, 1), (11, 1)])), (5, (1, [(1, 4), (3, 4), (4, 1), (5, 1), (11, 1)]))] 0 (1, [(1, 2), (3, 2), (4, 2), (5, 1), (7, 1), (11, 1)])

theorem treeII_7_ok : treeII_7.check false (1, -1, 1) = true := by decide +kernel

/-- All symmetries with first column `(1, 0, -1)`. -/
def treeII_8 : Tree1 :=
  .no [(0, (1, [(0, 1), (2, 2), (5, 1), (11, 1)])), (1, (1, [(0, 1), (2, 2), (4, 1), (11, 1)])), (2, (1, [(1, 2), (2, 2), (5, 1), (11, 1)])), (3, (1, [(2, 4), (4, 1), (5, 1), (11, 1)])), (4, (1, [(2, 2), (3, 2), (4, 1), (5, 1), (11, 1)])), (5, (1, [(1, 2), (2, 6), (3, 2), (4, 1), (5, 2), (11, 2)]))] 0 (1, [(2, 2), (4, 1), (5, 1), (11, 1)])

theorem treeII_8_ok : treeII_8.check false (1, 0, -1) = true := by decide +kernel

/-- All symmetries with first column `(1, 0, 0)`. -/
def treeII_9 : Tree1 :=
  .node [
    .node [
      .no [(0, (3, [(0, 1), (5, 2), (6, 1), (7, 2), (8, 2), (19, 2)])), (1, (1, [(9, 1), (15, 1)])), (2, (8, [(4, 3), (5, 9), (13, 6), (15, 7), (17, 6), (19, 2)])), (3, (1, [(1, 3), (5, 1), (9, 2), (16, 2), (19, 1)])), (4, (1, [(1, 3), (5, 1), (9, 2), (12, 2), (19, 1)])), (5, (1, [(5, 1), (15, 1)]))] 0 (1, [(1, 1), (4, 1), (5, 1), (9, 1), (19, 1)]),
      .no [(0, (2, [(0, 1), (7, 1), (8, 2), (19, 2)])), (1, (1, [(9, 1), (15, 1)])), (2, (1, [(5, 1), (7, 1), (13, 2), (15, 1), (16, 2)])), (3, (1, [(8, 1), (16, 2)])), (4, (1, [(7, 1), (16, 2)])), (5, (1, [(5, 1), (15, 1)]))] 0 (1, [(7, 1), (13, 2), (16, 4)]),
      .no [(0, (1, [(7, 1), (8, 3), (9, 1), (15, 2), (19, 2)])), (1, (1, [(9, 1), (15, 1)])), (2, (3, [(5, 3), (7, 1), (13, 4), (15, 3), (16, 2)])), (3, (1, [(2, 2), (8, 1), (16, 2)])), (4, (3, [(7, 1), (12, 2), (16, 2)])), (5, (1, [(5, 1), (15, 1)]))] 0 (1, [(8, 1), (16, 2)]),
      .no [(0, (2, [(0, 1), (5, 2), (7, 2), (8, 1), (19, 2)])), (1, (1, [(9, 1), (15, 1)])), (2, (3, [(4, 2), (5, 5), (7, 3), (13, 4), (15, 3), (19, 2)])), (3, (1, [(16, 1)])), (4, (1, [(1, 4), (5, 2), (7, 1), (9, 2), (12, 2), (19, 2)])), (5, (1, [(5, 1), (15, 1)]))] 0 (1, [(1, 2), (4, 1), (5, 2), (7, 1), (9, 1), (19, 2)]),
      .no [(0, (1, [(5, 1), (7, 2), (8, 2), (15, 1), (19, 2)])), (1, (1, [(9, 1), (15, 1)])), (2, (1, [(5, 1), (7, 1), (13, 1), (15, 1), (16, 1)])), (3, (1, [(2, 1), (16, 1)])), (4, (1, [(7, 1), (12, 1), (16, 1)])), (5, (1, [(5, 1), (15, 1)]))] 0 (1, [(7, 1), (16, 2)]),
      .no [(1, (1, [(9, 1), (15, 1)])), (2, (2, [(5, 2), (7, 1), (13, 2), (15, 2), (16, 1)])), (3, (1, [(2, 2), (16, 1)])), (4, (2, [(7, 1), (12, 2), (16, 1)])), (5, (1, [(5, 1), (15, 1)]))] 0 (1, [(16, 1)]),
      .no [(0, (1, [(5, 3), (7, 3), (8, 1), (15, 1), (19, 2)])), (1, (1, [(9, 1), (15, 1)])), (2, (1, [(5, 1), (7, 3), (15, 1), (16, 2)])), (3, (1, [(3, 1), (16, 1)])), (4, (1, [(7, 3), (12, 2), (16, 2)])), (5, (1, [(5, 1), (15, 1)]))] 0 (1, [(7, 5), (12, 2), (16, 4)]),
      .no [(1, (1, [(9, 1), (15, 1)])), (2, (3, [(5, 3), (7, 3), (13, 2), (15, 3), (16, 2)])), (3, (1, [(2, 1), (3, 1), (16, 1)])), (4, (3, [(7, 3), (12, 4), (16, 2)])), (5, (1, [(5, 1), (15, 1)]))] 0 (1, [(3, 2), (7, 1), (16, 2)]),
      .no [(0, (1, [(3, 1), (5, 2), (6, 3), (16, 1), (18, 2)])), (1, (1, [(9, 1), (15, 1)])), (2, (5, [(5, 5), (7, 3), (13, 4), (15, 5), (16, 2)])), (3, (1, [(2, 2), (3, 1), (16, 1)])), (4, (5, [(7, 3), (12, 6), (16, 2)])), (5, (1, [(5, 1), (15, 1)]))] 0 (1, [(3, 1), (16, 1)]),
      .no [(0, (3, [(0, 1), (5, 2), (6, 1), (7, 1), (8, 1), (19, 2)])), (1, (1, [(9, 1), (15, 1)])), (2, (5, [(5, 5), (7, 1), (13, 4), (15, 5), (17, 2)])), (3, (1, [(2, 5), (12, 1), (17, 2)])), (4, (5, [(7, 1), (12, 6), (17, 2)])), (5, (1, [(5, 1), (15, 1)]))] 0 (1, [(2, 3), (12, 1), (17, 2)]),
      .no [(0, (2, [(0, 1), (8, 1), (19, 2)])), (1, (1, [(9, 1), (15, 1)])), (2, (3, [(5, 3), (7, 1), (13, 2), (15, 3), (17, 2)])), (3, (1, [(2, 3), (12, 1), (17, 2)])), (4, (3, [(7, 1), (12, 4), (17, 2)])), (5, (1, [(5, 1), (15, 1)]))] 0 (1, [(2, 1), (12, 1), (17, 2)]),
      .no [(0, (1, [(8, 2), (9, 1), (15, 2), (19, 2)])), (1, (1, [(9, 1), (15, 1)])), (2, (1, [(5, 1), (7, 1), (15, 1), (17, 2)])), (3, (1, [(2, 1), (12, 1), (17, 2)])), (4, (1, [(7, 1), (12, 2), (17, 2)])), (5, (1, [(5, 1), (15, 1)]))] 0 (1, [(7, 1), (12, 2), (17, 4)]),
      .no [(0, (2, [(0, 1), (5, 2), (7, 1), (19, 2)])), (1, (1, [(9, 1), (15, 1)])), (2, (2, [(5, 2), (13, 2), (15, 2), (17, 1)])), (3, (1, [(2, 1), (4, 1), (5, 1), (19, 1)])), (4, (2, [(12, 2), (17, 1)])), (5, (1, [(5, 1), (15, 1)]))] 0 (1, [(4, 2), (5, 2), (7, 1), (19, 2)]),
      .no [(0, (1, [(5, 1), (7, 1), (8, 1), (15, 1), (19, 2)])), (1, (1, [(9, 1), (15, 1)])), (2, (1, [(5, 1), (13, 1), (15, 1), (17, 1)])), (3, (1, [(4, 1), (5, 1), (8, 1), (15, 1), (19, 2)])), (4, (1, [(12, 1), (17, 1)])), (5, (1, [(5, 1), (15, 1)]))] 0 (1, [(4, 2), (5, 2), (7, 1), (13, 2), (15, 2), (19, 4)]),
      .yes [(1, (1, [(9, 1), (15, 1)])), (5, (1, [(5, 1), (15, 1)]))] 24 [((1, [(9, 1), (15, 1)]), (1, [(5, 1)])), ((1, [(9, 1)]), (1, [(5, 1), (15, 1)])), ((1, [(13, 1), (22, 2)]), (1, [(13, 1), (23, 1)])), ((2, [(13, 4), (23, 1)]), (1, [(12, 1), (22, 1)]))],
      .no [(0, (1, [(5, 3), (7, 2), (15, 1), (19, 2)])), (1, (1, [(9, 1), (15, 1)])), (2, (6, [(4, 1), (5, 9), (13, 8), (15, 7), (17, 4), (19, 2)])), (3, (2, [(4, 1), (5, 3), (15, 1), (19, 2)])), (4, (1, [(1, 1), (5, 1), (12, 1), (17, 1), (19, 1)])), (5, (1, [(5, 1), (15, 1)]))] 0 (1, [(1, 5), (5, 5), (12, 1), (17, 3), (19, 5)]),
      .yes [(1, (1, [(9, 1), (15, 1)])), (5, (1, [(5, 1), (15, 1)]))] 24 [((1, [(9, 1), (15, 1)]), (1, [(5, 1)])), ((1, [(9, 1)]), (1, [(5, 1), (15, 1)])), ((1, [(13, 1), (17, 2)]), (1, [(12, 1), (16, 2)])), ((1, [(13, 1), (16, 1)]), (1, [(12, 1), (17, 1)]))],
      .no [(0, (1, [(5, 2), (6, 2), (9, 1), (18, 2)])), (1, (1, [(9, 1), (15, 1)])), (2, (1, [(5, 1), (7, 1), (15, 1), (16, 2)])), (3, (1, [(2, 1), (12, 1), (16, 2)])), (4, (1, [(7, 1), (12, 2), (16, 2)])), (5, (1, [(5, 1), (15, 1)]))] 0 (1, [(7, 1), (12, 2), (16, 4)]),
      .no [(0, (3, [(0, 1), (5, 2), (6, 1), (19, 2)])), (1, (1, [(9, 1), (15, 1)])), (2, (9, [(5, 9), (7, 3), (13, 8), (15, 9), (17, 2)])), (3, (1, [(2, 4), (3, 1), (17, 1)])), (4, (9, [(7, 3), (12, 10), (17, 2)])), (5, (1, [(5, 1), (15, 1)]))] 0 (1, [(2, 2), (3, 1), (17, 1)]),
      .no [(0, (1, [(2, 1), (19, 1)])), (1, (1, [(9, 1), (15, 1)])), (2, (7, [(5, 7), (7, 3), (13, 6), (15, 7), (17, 2)])), (3, (1, [(2, 3), (3, 1), (17, 1)])), (4, (7, [(7, 3), (12, 8), (17, 2)])), (5, (1, [(5, 1), (15, 1)]))] 0 (1, [(2, 1), (3, 1), (17, 1)]),
      .no [(0, (3, [(6, 3), (8, 5), (15, 6), (17, 2), (19, 6)])), (1, (1, [(9, 1), (15, 1)])), (2, (5, [(5, 5), (7, 3), (13, 4), (15, 5), (17, 2)])), (3, (1, [(2, 2), (3, 1), (17, 1)])), (4, (5, [(7, 3), (12, 6), (17, 2)])), (5, (1, [(5, 1), (15, 1)]))] 0 (1, [(3, 1), (17, 1)]),
      .no [(0, (1, [(3, 1), (5, 1), (19, 1)])), (1, (1, [(9, 1), (15, 1)])), (2, (4, [(5, 4), (7, 1), (13, 4), (15, 4), (17, 1)])), (3, (1, [(2, 4), (17, 1)])), (4, (4, [(7, 1), (12, 4), (17, 1)])), (5, (1, [(5, 1), (15, 1)]))] 0 (1, [(2, 2), (17, 1)]),
      .no [(0, (1, [(5, 1), (15, 1), (19, 2)])), (1, (1, [(9, 1), (15, 1)])), (2, (3, [(5, 3), (7, 1), (13, 3), (15, 3), (17, 1)])), (3, (1, [(2, 3), (17, 1)])), (4, (3, [(7, 1), (12, 3), (17, 1)])), (5, (1, [(5, 1), (15, 1)]))] 0 (1, [(2, 1), (17, 1)]),
      .no [(1, (1, [(9, 1), (15, 1)])), (2, (2, [(5, 2), (7, 1), (13, 2), (15, 2), (17, 1)])), (3, (1, [(2, 2), (17, 1)])), (4, (2, [(7, 1), (12, 2), (17, 1)])), (5, (1, [(5, 1), (15, 1)]))] 0 (1, [(17, 1)]),
      .no [(0, (7, [(5, 21), (7, 8), (12, 6), (15, 7), (17, 2), (19, 14)])), (1, (1, [(9, 1), (15, 1)])), (2, (7, [(5, 7), (7, 1), (13, 8), (15, 7), (17, 2)])), (3, (1, [(2, 6), (8, 1), (17, 2)])), (4, (7, [(7, 1), (12, 6), (17, 2)])), (5, (1, [(5, 1), (15, 1)]))] 0 (1, [(2, 4), (8, 1), (17, 2)]),
      .no [(1, (1, [(9, 1), (15, 1)])), (2, (5, [(5, 5), (7, 1), (13, 6), (15, 5), (17, 2)])), (3, (1, [(2, 4), (8, 1), (17, 2)])), (4, (5, [(7, 1), (12, 4), (17, 2)])), (5, (1, [(5, 1), (15, 1)]))] 0 (1, [(2, 2), (8, 1), (17, 2)]),
      .no [(0, (1, [(5, 2), (6, 2), (7, 1), (8, 1), (9, 1), (18, 2)])), (1, (1, [(9, 1), (15, 1)])), (2, (3, [(5, 3), (7, 1), (13, 4), (15, 3), (17, 2)])), (3, (1, [(2, 2), (8, 1), (17, 2)])), (4, (3, [(7, 1), (12, 2), (17, 2)])), (5, (1, [(5, 1), (15, 1)]))] 0 (1, [(8, 1), (17, 2)])],
    .node [
      .no [(0, (2, [(0, 1), (7, 1), (8, 2), (19, 2)])), (2, (3, [(1, 6), (4, 1), (8, 3), (17, 2), (19, 4)])), (3, (1, [(1, 4), (8, 1), (9, 2), (16, 2), (19, 2)])), (4, (1, [(12, 1)])), (5, (1, [(1, 2), (2, 1), (19, 1)]))] 0 (1, [(1, 2), (4, 1), (8, 1), (9, 1), (19, 2)]),
      .no [(0, (1, [(0, 1), (1, 1), (8, 1), (19, 1)])), (1, (1, [(12, 1), (20, 1)])), (2, (1, [(1, 3), (8, 1), (19, 1)])), (3, (1, [(8, 1), (16, 2)])), (4, (1, [(12, 1)])), (5, (1, [(1, 3), (2, 2), (19, 1)]))] 0 (1, [(1, 1), (4, 1), (8, 1), (19, 1)]),
      .no [(0, (1, [(0, 1), (1, 2), (2, 1), (8, 1), (19, 1)])), (2, (1, [(1, 4), (2, 1), (8, 1), (19, 1)])), (3, (1, [(2, 2), (8, 1), (16, 2)])), (4, (1, [(12, 1)])), (5, (1, [(1, 4), (2, 3), (19, 1)]))] 0 (1, [(8, 1), (16, 2)]),
      .no [(3, (1, [(16, 1)])), (4, (1, [(12, 1)]))] 0 (1, [(12, 1), (22, 2)]),
      .no [(0, (1, [(5, 1), (20, 1)])), (1, (1, [(4, 1), (20, 1)])), (2, (1, [(1, 2), (5, 1), (7, 1), (16, 2), (20, 1)])), (3, (1, [(2, 1), (16, 1)])), (4, (1, [(12, 1)])), (5, (1, [(1, 2), (2, 1), (5, 1), (12, 1), (16, 1), (20, 1)]))] 0 (1, [(7, 1), (16, 2)]),
      .no [(3, (1, [(2, 2), (16, 1)])), (4, (1, [(12, 1)]))] 0 (1, [(16, 1)]),
      .no [(0, (1, [(2, 1), (18, 1)])), (2, (1, [(1, 2), (3, 1), (4, 1), (16, 1), (18, 2)])), (3, (1, [(3, 1), (16, 1)])), (4, (1, [(12, 1)])), (5, (3, [(1, 6), (2, 5), (12, 4), (16, 2), (18, 3)]))] 0 (1, [(7, 2), (12, 1), (16, 2)]),
      .no [(0, (1, [(3, 4), (9, 1), (16, 2), (18, 2)])), (1, (1, [(7, 1), (16, 2), (20, 1)])), (2, (1, [(1, 1), (3, 2), (7, 1), (16, 2), (18, 1)])), (3, (1, [(2, 1), (3, 1), (16, 1)])), (4, (1, [(12, 1)])), (5, (3, [(1, 3), (2, 4), (12, 4), (16, 2), (18, 3)]))] 0 (1, [(3, 2), (7, 1), (16, 2)]),
      .no [(2, (2, [(3, 3), (7, 1), (16, 3), (18, 2)])), (3, (1, [(2, 2), (3, 1), (16, 1)])), (4, (1, [(12, 1)])), (5, (3, [(2, 3), (12, 4), (16, 2), (18, 3)]))] 0 (1, [(3, 1), (16, 1)]),
      .no [(0, (2, [(7, 1), (8, 1), (19, 2)])), (2, (1, [(1, 2), (2, 1), (17, 1), (19, 1)])), (3, (1, [(2, 6), (12, 1), (17, 2)])), (4, (1, [(12, 1)])), (5, (1, [(1, 2), (2, 3), (12, 1), (17, 1), (19, 1)]))] 0 (1, [(2, 4), (12, 1), (17, 2)]),
      .no [(0, (2, [(0, 1), (1, 2), (8, 1), (19, 2)])), (1, (1, [(20, 1)])), (2, (1, [(1, 3), (2, 1), (17, 1), (19, 1)])), (3, (1, [(2, 4), (12, 1), (17, 2)])), (4, (1, [(12, 1)])), (5, (1, [(1, 3), (2, 3), (12, 1), (17, 1), (19, 1)]))] 0 (1, [(2, 2), (12, 1), (17, 2)]),
      .no [(0, (2, [(0, 1), (1, 4), (2, 2), (8, 1), (19, 2)])), (2, (1, [(1, 4), (2, 1), (17, 1), (19, 1)])), (3, (1, [(2, 2), (12, 1), (17, 2)])), (4, (1, [(12, 1)])), (5, (1, [(1, 4), (2, 3), (12, 1), (17, 1), (19, 1)]))] 0 (1, [(12, 1), (17, 2)]),
      .yes [(4, (1, [(12, 1)]))] 39 [((2, [(17, 1)]), (1, [(2, 1)])), ((1, [(8, 1)]), (1, [(12, 1)]))],
      .no [(0, (1, [(0, 1), (5, 1), (20, 1)])), (1, (1, [(0, 1), (4, 1), (20, 1)])), (2, (1, [(1, 2), (5, 1), (20, 1)])), (3, (1, [(2, 2), (4, 1), (5, 1), (20, 1)])), (4, (1, [(12, 1)])), (5, (1, [(1, 2), (2, 2), (5, 1), (12, 1), (20, 1)]))] 0 (1, [(4, 1), (5, 1), (20, 1)]),
      .yes [(4, (1, [(12, 1)]))] 38 [((2, [(2, 1), (19, 1)]), (1, [(1, 1)])), ((1, [(1, 2), (19, 1)]), (1, [(2, 1)])), ((1, [(8, 1)]), (1, [(12, 1)]))],
      .no [(0, (2, [(0, 1), (2, 2), (8, 1), (18, 2)])), (2, (1, [(1, 2), (2, 2), (4, 1), (8, 1), (18, 2)])), (3, (1, [(1, 4), (9, 2), (12, 3), (16, 4), (18, 2)])), (4, (1, [(12, 1)])), (5, (1, [(1, 2), (2, 1), (12, 1), (16, 1), (18, 1)]))] 0 (1, [(2, 2), (4, 2), (8, 1), (18, 2)]),
      .no [(0, (1, [(6, 1), (8, 1), (18, 2)])), (1, (1, [(20, 1)])), (2, (1, [(4, 1), (8, 1), (18, 2)])), (3, (1, [(12, 1), (16, 2)])), (4, (1, [(12, 1)])), (5, (1, [(1, 1), (2, 1), (12, 1), (16, 1), (18, 1)]))] 0 (1, [(4, 2), (6, 1), (9, 1), (16, 2), (18, 4)]),
      .no [(2, (2, [(7, 1), (12, 1), (16, 4), (18, 2)])), (3, (1, [(2, 2), (12, 1), (16, 2)])), (4, (1, [(12, 1)])), (5, (1, [(2, 1), (12, 1), (16, 1), (18, 1)]))] 0 (1, [(12, 1), (16, 2)]),
      .no [(0, (4, [(3, 1), (7, 1), (17, 1), (19, 4)])), (2, (1, [(1, 2), (2, 1), (3, 1), (17, 1), (19, 1)])), (3, (1, [(2, 4), (3, 1), (17, 1)])), (4, (1, [(12, 1)])), (5, (3, [(1, 6), (2, 7), (12, 4), (17, 2), (19, 3)]))] 0 (1, [(2, 2), (3, 1), (17, 1)]),
      .no [(0, (1, [(1, 1), (19, 1)])), (1, (3, [(2, 4), (8, 1), (17, 4), (20, 3)])), (2, (1, [(1, 3), (2, 1), (3, 1), (17, 1), (19, 1)])), (3, (1, [(2, 3), (3, 1), (17, 1)])), (4, (1, [(12, 1)])), (5, (3, [(1, 9), (2, 8), (12, 4), (17, 2), (19, 3)]))] 0 (1, [(2, 1), (3, 1), (17, 1)]),
      .no [(0, (1, [(1, 2), (2, 1), (19, 1)])), (2, (1, [(1, 4), (2, 1), (3, 1), (17, 1), (19, 1)])), (3, (1, [(2, 2), (3, 1), (17, 1)])), (4, (1, [(12, 1)])), (5, (3, [(1, 12), (2, 9), (12, 4), (17, 2), (19, 3)]))] 0 (1, [(3, 1), (17, 1)]),
      .no [(3, (1, [(2, 4), (17, 1)])), (4, (1, [(12, 1)]))] 0 (1, [(2, 2), (17, 1)]),
      .no [(0, (1, [(5, 1), (20, 1)])), (1, (1, [(4, 1), (20, 1)])), (2, (1, [(1, 2), (2, 1), (5, 1), (17, 1), (20, 1)])), (3, (1, [(2, 3), (17, 1)])), (4, (1, [(12, 1)])), (5, (1, [(1, 2), (2, 3), (5, 1), (12, 1), (17, 1), (20, 1)]))] 0 (1, [(2, 1), (17, 1)]),
      .no [(3, (1, [(2, 2), (17, 1)])), (4, (1, [(12, 1)]))] 0 (1, [(17, 1)]),
      .no [(0, (1, [(0, 1), (2, 1), (8, 1), (18, 1)])), (2, (1, [(1, 2), (2, 1), (8, 1), (18, 1)])), (3, (1, [(2, 6), (8, 1), (17, 2)])), (4, (1, [(12, 1)])), (5, (1, [(1, 2), (2, 3), (18, 1)]))] 0 (1, [(2, 4), (8, 1), (17, 2)]),
      .no [(0, (1, [(0, 1), (6, 1), (8, 2), (18, 2)])), (1, (1, [(12, 1), (20, 1)])), (2, (1, [(1, 1), (8, 1), (18, 1)])), (3, (1, [(2, 4), (8, 1), (17, 2)])), (4, (1, [(12, 1)])), (5, (1, [(1, 1), (2, 2), (18, 1)]))] 0 (1, [(2, 2), (8, 1), (17, 2)]),
      .no [(2, (2, [(7, 1), (8, 3), (17, 2), (18, 2)])), (3, (1, [(2, 2), (8, 1), (17, 2)])), (4, (1, [(12, 1)])), (5, (1, [(2, 1), (18, 1)]))] 0 (1, [(8, 1), (17, 2)])],
    .no [(0, (1, [(0, 1), (1, 2), (2, 2), (5, 1), (8, 1), (15, 1)])), (1, (1, [(0, 1), (1, 2), (2, 2), (4, 1), (8, 1), (15, 1)])), (2, (1, [(1, 4), (2, 2), (5, 1), (8, 1), (15, 1)])), (3, (1, [(1, 2), (2, 4), (4, 1), (5, 1), (8, 1), (15, 1)])), (4, (1, [(2, 1), (12, 1)])), (5, (1, [(1, 4), (2, 4), (5, 1), (15, 1)]))] 0 (1, [(1, 2), (2, 2), (4, 1), (5, 1), (8, 1), (15, 1)]),
    .no [(1, (1, [(7, 1), (15, 1)])), (3, (1, [(8, 1), (12, 2)])), (4, (1, [(7, 1), (12, 2)]))] 0 (1, [(7, 1), (12, 2), (17, 2)]),
    .no [(0, (1, [(14, 1)])), (2, (1, [(1, 2), (8, 1), (12, 2), (14, 1)])), (3, (1, [(2, 2), (8, 1), (12, 2)])), (4, (1, [(3, 1), (12, 1)])), (5, (1, [(1, 2), (2, 2), (12, 2), (14, 1)]))] 0 (1, [(8, 1), (12, 2)]),
    .no [(1, (1, [(0, 1), (2, 2), (15, 1)])), (3, (1, [(2, 4), (8, 1), (12, 2)])), (4, (1, [(2, 1), (3, 1), (12, 1)]))] 0 (1, [(2, 2), (8, 1), (12, 2)]),
    .no [(0, (1, [(0, 1), (1, 2), (3, 2), (5, 1), (7, 1), (15, 1)])), (1, (1, [(0, 1), (1, 2), (3, 2), (4, 1), (7, 1), (15, 1)])), (2, (1, [(1, 4), (3, 2), (5, 1), (7, 1), (15, 1)])), (3, (1, [(2, 1), (12, 1)])), (4, (1, [(3, 2), (7, 1), (12, 2)])), (5, (1, [(1, 4), (3, 4), (5, 1), (15, 1)]))] 0 (1, [(7, 1), (12, 2)]),
    .no [(3, (1, [(2, 2), (12, 1)])), (4, (1, [(3, 2), (12, 1)]))] 0 (1, [(12, 1)]),
    .no [(1, (1, [(0, 1), (2, 2), (3, 2), (6, 1), (15, 1)])), (2, (1, [(0, 1), (2, 2), (3, 2), (5, 1), (15, 1)])), (3, (1, [(2, 3), (12, 1)])), (4, (1, [(2, 1), (3, 2), (12, 1)])), (5, (1, [(2, 4), (3, 4), (5, 1), (15, 1)]))] 0 (1, [(2, 1), (12, 1)]),
    .node [
      .no [(0, (3, [(0, 1), (5, 2), (6, 1), (7, 1), (8, 1), (19, 2)])), (1, (1, [(6, 1), (15, 1)])), (2, (1, [(5, 1), (15, 1)])), (3, (2, [(2, 1), (13, 1), (16, 2)])), (4, (1, [(3, 5), (13, 2), (16, 1)])), (5, (1, [(3, 1), (5, 1), (15, 1), (16, 1)]))] 0 (1, [(3, 3), (13, 2), (16, 1)]),
      .no [(0, (2, [(7, 1), (8, 1), (19, 2)])), (1, (1, [(6, 1), (15, 1)])), (2, (1, [(5, 1), (15, 1)])), (3, (2, [(2, 3), (13, 1), (16, 2)])), (4, (1, [(3, 3), (13, 1), (16, 1)])), (5, (1, [(2, 1), (3, 1), (5, 1), (15, 1), (16, 1)]))] 0 (1, [(3, 1), (13, 1), (16, 1)]),
      .no [(0, (1, [(9, 1), (15, 2), (19, 2)])), (1, (1, [(6, 1), (15, 1)])), (2, (1, [(5, 1), (15, 1)])), (3, (2, [(2, 5), (13, 1), (16, 2)])), (4, (1, [(3, 1), (16, 1)])), (5, (1, [(2, 2), (3, 1), (5, 1), (15, 1), (16, 1)]))] 0 (2, [(2, 1), (13, 1), (16, 2)]),
      .no [(0, (2, [(5, 2), (7, 1), (8, 1), (19, 2)])), (1, (1, [(6, 1), (15, 1)])), (2, (1, [(5, 1), (15, 1)])), (3, (1, [(16, 1)])), (4, (1, [(3, 6), (13, 2), (16, 1)])), (5, (1, [(3, 2), (5, 1), (15, 1), (16, 1)]))] 0 (1, [(3, 4), (13, 2), (16, 1)]),
      .no [(0, (1, [(5, 2), (9, 1), (15, 2), (19, 2)])), (1, (1, [(6, 1), (15, 1)])), (2, (1, [(5, 1), (15, 1)])), (3, (1, [(2, 1), (16, 1)])), (4, (1, [(3, 4), (13, 1), (16, 1)])), (5, (1, [(2, 1), (3, 2), (5, 1), (15, 1), (16, 1)]))] 0 (1, [(3, 2), (13, 1), (16, 1)]),
      .no [(1, (1, [(6, 1), (15, 1)])), (2, (1, [(5, 1), (15, 1)])), (3, (1, [(2, 2), (16, 1)])), (4, (1, [(3, 2), (16, 1)])), (5, (1, [(2, 2), (3, 2), (5, 1), (15, 1), (16, 1)]))] 0 (1, [(16, 1)]),
      .no [(0, (1, [(5, 4), (9, 1), (15, 2), (19, 2)])), (1, (1, [(6, 1), (15, 1)])), (2, (1, [(5, 1), (15, 1)])), (3, (1, [(3, 1), (16, 1)])), (4, (1, [(3, 7), (13, 2), (16, 1)])), (5, (1, [(3, 3), (5, 1), (15, 1), (16, 1)]))] 0 (1, [(3, 5), (13, 2), (16, 1)]),
      .no [(1, (1, [(6, 1), (15, 1)])), (2, (1, [(5, 1), (15, 1)])), (3, (1, [(2, 1), (3, 1), (16, 1)])), (4, (1, [(3, 5), (13, 1), (16, 1)])), (5, (1, [(2, 1), (3, 3), (5, 1), (15, 1), (16, 1)]))] 0 (1, [(3, 3), (13, 1), (16, 1)]),
      .no [(0, (1, [(0, 1), (2, 2), (3, 2), (5, 2), (6, 3), (18, 2)])), (1, (1, [(6, 1), (15, 1)])), (2, (1, [(5, 1), (15, 1)])), (3, (1, [(2, 2), (3, 1), (16, 1)])), (4, (1, [(3, 3), (16, 1)])), (5, (1, [(2, 2), (3, 3), (5, 1), (15, 1), (16, 1)]))] 0 (1, [(3, 1), (16, 1)]),
      .no [(0, (3, [(0, 3), (5, 2), (6, 1), (19, 2)])), (1, (1, [(6, 1), (15, 1)])), (2, (1, [(5, 1), (15, 1)])), (3, (3, [(2, 6), (4, 3), (5, 2), (6, 1), (19, 2)])), (4, (3, [(3, 6), (4, 3), (5, 2), (6, 1), (19, 2)])), (5, (3, [(2, 6), (3, 6), (4, 3), (5, 4), (15, 2), (19, 2)]))] 0 (3, [(4, 3), (5, 2), (6, 1), (19, 2)]),
      .no [(0, (1, [(0, 1), (19, 1)])), (1, (1, [(6, 1), (15, 1)])), (2, (1, [(5, 1), (15, 1)])), (3, (1, [(2, 2), (4, 1), (19, 1)])), (4, (1, [(3, 2), (4, 1), (19, 1)])), (5, (1, [(2, 2), (3, 2), (4, 1), (5, 1), (15, 1), (19, 1)]))] 0 (1, [(4, 1), (19, 1)]),
      .no [(0, (1, [(0, 1), (6, 1), (15, 2), (19, 2)])), (1, (1, [(6, 1), (15, 1)])), (2, (1, [(5, 1), (15, 1)])), (3, (1, [(2, 2), (4, 1), (6, 1), (15, 2), (19, 2)])), (4, (1, [(3, 2), (4, 1), (6, 1), (15, 2), (19, 2)])), (5, (1, [(2, 2), (3, 2), (4, 1), (15, 2), (19, 2)]))] 0 (1, [(4, 1), (6, 1), (15, 2), (19, 2)]),
      .no [(0, (1, [(0, 1), (5, 1), (19, 1)])), (1, (1, [(6, 1), (15, 1)])), (2, (1, [(5, 1), (15, 1)])), (3, (1, [(2, 2), (4, 1), (5, 1), (19, 1)])), (4, (1, [(3, 2), (4, 1), (5, 1), (19, 1)])), (5, (1, [(2, 2), (3, 2), (4, 1), (5, 2), (15, 1), (19, 1)]))] 0 (1, [(4, 1), (5, 1), (19, 1)]),
      .no [(0, (1, [(0, 1), (5, 1), (15, 1), (19, 2)])), (1, (1, [(6, 1), (15, 1)])), (2, (1, [(5, 1), (15, 1)])), (3, (1, [(2, 2), (4, 1), (5, 1), (15, 1), (19, 2)])), (4, (1, [(3, 2), (4, 1), (5, 1), (15, 1), (19, 2)])), (5, (1, [(2, 2), (3, 2), (4, 1), (5, 2), (15, 2), (19, 2)]))] 0 (1, [(4, 1), (5, 1), (15, 1), (19, 2)]),
      .yes [(1, (1, [(6, 1), (15, 1)])), (2, (1, [(5, 1), (15, 1)]))] 22 [((1, [(6, 1), (15, 1)]), (1, [(5, 1)])), ((1, [(6, 1)]), (1, [(5, 1), (15, 1)])), ((1, [(3, 2), (13, 1)]), (1, [(2, 1)])), ((2, [(2, 1), (13, 1)]), (1, [(3, 1)]))],
      .no [(0, (1, [(0, 1), (5, 3), (15, 1), (19, 2)])), (1, (1, [(6, 1), (15, 1)])), (2, (1, [(5, 1), (15, 1)])), (3, (1, [(2, 2), (4, 1), (5, 3), (15, 1), (19, 2)])), (4, (1, [(3, 2), (4, 1), (5, 3), (15, 1), (19, 2)])), (5, (1, [(2, 2), (3, 2), (4, 1), (5, 4), (15, 2), (19, 2)]))] 0 (1, [(4, 1), (5, 3), (15, 1), (19, 2)]),
      .yes [(1, (1, [(6, 1), (15, 1)])), (2, (1, [(5, 1), (15, 1)]))] 22 [((1, [(6, 1), (15, 1)]), (1, [(5, 1)])), ((1, [(6, 1)]), (1, [(5, 1), (15, 1)])), ((1, [(3, 2), (13, 1)]), (1, [(2, 1)])), ((2, [(2, 1), (13, 1)]), (1, [(3, 1)]))],
      .no [(0, (1, [(0, 1), (5, 2), (6, 3), (18, 2)])), (1, (1, [(6, 1), (15, 1)])), (2, (1, [(5, 1), (15, 1)])), (3, (1, [(2, 2), (4, 1), (5, 2), (6, 3), (18, 2)])), (4, (1, [(3, 2), (4, 1), (5, 2), (6, 3), (18, 2)])), (5, (1, [(2, 2), (3, 2), (4, 1), (5, 2), (6, 2), (18, 2)]))] 0 (1, [(4, 1), (5, 2), (6, 3), (18, 2)]),
      .no [(0, (3, [(0, 3), (2, 2), (3, 2), (5, 2), (6, 1), (19, 2)])), (1, (1, [(6, 1), (15, 1)])), (2, (1, [(5, 1), (15, 1)])), (3, (1, [(2, 4), (3, 1), (17, 1)])), (4, (1, [(2, 2), (3, 3), (17, 1)])), (5, (1, [(2, 4), (3, 3), (5, 1), (15, 1), (17, 1)]))] 0 (1, [(2, 2), (3, 1), (17, 1)]),
      .no [(0, (1, [(0, 1), (2, 1), (3, 1), (19, 1)])), (1, (1, [(6, 1), (15, 1)])), (2, (1, [(5, 1), (15, 1)])), (3, (1, [(2, 3), (3, 1), (17, 1)])), (4, (1, [(2, 1), (3, 3), (17, 1)])), (5, (1, [(2, 3), (3, 3), (5, 1), (15, 1), (17, 1)]))] 0 (1, [(2, 1), (3, 1), (17, 1)]),
      .no [(0, (1, [(0, 1), (2, 2), (3, 2), (6, 1), (15, 2), (19, 2)])), (1, (1, [(6, 1), (15, 1)])), (2, (1, [(5, 1), (15, 1)])), (3, (1, [(2, 2), (3, 1), (17, 1)])), (4, (1, [(3, 3), (17, 1)])), (5, (1, [(2, 2), (3, 3), (5, 1), (15, 1), (17, 1)]))] 0 (1, [(3, 1), (17, 1)]),
      .no [(0, (1, [(0, 1), (2, 1), (3, 1), (5, 1), (19, 1)])), (1, (1, [(6, 1), (15, 1)])), (2, (1, [(5, 1), (15, 1)])), (3, (1, [(2, 4), (17, 1)])), (4, (1, [(2, 2), (3, 2), (17, 1)])), (5, (1, [(2, 4), (3, 2), (5, 1), (15, 1), (17, 1)]))] 0 (1, [(2, 2), (17, 1)]),
      .no [(0, (1, [(0, 1), (2, 2), (3, 2), (5, 1), (15, 1), (19, 2)])), (1, (1, [(6, 1), (15, 1)])), (2, (1, [(5, 1), (15, 1)])), (3, (1, [(2, 3), (17, 1)])), (4, (1, [(2, 1), (3, 2), (17, 1)])), (5, (1, [(2, 3), (3, 2), (5, 1), (15, 1), (17, 1)]))] 0 (1, [(2, 1), (17, 1)]),
      .no [(1, (1, [(6, 1), (15, 1)])), (2, (1, [(5, 1), (15, 1)])), (3, (1, [(2, 2), (17, 1)])), (4, (1, [(3, 2), (17, 1)])), (5, (1, [(2, 2), (3, 2), (5, 1), (15, 1), (17, 1)]))] 0 (1, [(17, 1)]),
      .no [(0, (1, [(0, 1), (2, 2), (3, 2), (5, 3), (15, 1), (19, 2)])), (1, (1, [(6, 1), (15, 1)])), (2, (1, [(5, 1), (15, 1)])), (3, (2, [(2, 9), (13, 1), (17, 2)])), (4, (1, [(2, 2), (3, 1), (17, 1)])), (5, (1, [(2, 4), (3, 1), (5, 1), (15, 1), (17, 1)]))] 0 (2, [(2, 5), (13, 1), (17, 2)]),
      .no [(1, (1, [(6, 1), (15, 1)])), (2, (1, [(5, 1), (15, 1)])), (3, (2, [(2, 7), (13, 1), (17, 2)])), (4, (1, [(2, 1), (3, 1), (17, 1)])), (5, (1, [(2, 3), (3, 1), (5, 1), (15, 1), (17, 1)]))] 0 (2, [(2, 3), (13, 1), (17, 2)]),
      .no [(0, (1, [(5, 2), (6, 2), (9, 1), (18, 2)])), (1, (1, [(6, 1), (15, 1)])), (2, (1, [(5, 1), (15, 1)])), (3, (2, [(2, 5), (13, 1), (17, 2)])), (4, (1, [(3, 1), (17, 1)])), (5, (1, [(2, 2), (3, 1), (5, 1), (15, 1), (17, 1)]))] 0 (2, [(2, 1), (13, 1), (17, 2)])],
    .node [
      .no [(0, (2, [(0, 1), (8, 1), (19, 2)])), (2, (2, [(1, 4), (13, 1), (19, 2)])), (3, (2, [(13, 1), (16, 2)])), (4, (1, [(3, 1), (4, 1), (19, 1)])), (5, (1, [(1, 2), (16, 1), (19, 1)]))] 0 (1, [(4, 2), (8, 1), (19, 2)]),
      .no [(0, (2, [(0, 1), (1, 2), (8, 1), (19, 2)])), (1, (1, [(7, 1), (16, 2), (20, 1)])), (2, (2, [(1, 6), (13, 1), (19, 2)])), (3, (2, [(2, 2), (13, 1), (16, 2)])), (4, (1, [(7, 1), (16, 2)])), (5, (1, [(1, 3), (2, 1), (16, 1), (19, 1)]))] 0 (1, [(7, 1), (13, 1), (16, 2)]),
      .no [(0, (2, [(0, 1), (1, 4), (8, 1), (19, 2)])), (2, (2, [(1, 8), (13, 1), (19, 2)])), (3, (2, [(2, 4), (13, 1), (16, 2)])), (4, (1, [(3, 1), (16, 1)])), (5, (1, [(1, 4), (2, 2), (16, 1), (19, 1)]))] 0 (2, [(13, 1), (16, 2)]),
      .yes [(3, (1, [(16, 1)]))] 37 [((1, [(7, 1)]), (1, [(16, 1)])), ((2, [(13, 1)]), (1, [(3, 1)]))],
      .no [(0, (1, [(5, 1), (20, 1)])), (1, (1, [(4, 1), (20, 1)])), (2, (1, [(1, 2), (5, 1), (7, 1), (16, 2), (20, 1)])), (3, (1, [(2, 1), (16, 1)])), (4, (1, [(3, 2), (7, 1), (16, 2)])), (5, (1, [(1, 2), (3, 2), (5, 1), (16, 2), (20, 1)]))] 0 (1, [(7, 1), (16, 2)]),
      .no [(3, (1, [(2, 2), (16, 1)])), (4, (1, [(3, 2), (16, 1)]))] 0 (1, [(16, 1)]),
      .no [(0, (1, [(0, 1), (3, 1), (18, 1)])), (2, (1, [(1, 2), (3, 1), (18, 1)])), (3, (1, [(3, 1), (16, 1)])), (4, (1, [(3, 3), (4, 1), (18, 1)])), (5, (1, [(1, 2), (3, 4), (16, 1), (18, 1)]))] 0 (1, [(3, 1), (4, 1), (18, 1)]),
      .no [(0, (1, [(0, 1), (3, 2), (6, 1), (18, 2)])), (1, (1, [(7, 1), (16, 2), (20, 1)])), (2, (1, [(1, 1), (3, 1), (18, 1)])), (3, (1, [(2, 1), (3, 1), (16, 1)])), (4, (1, [(3, 4), (7, 1), (16, 2)])), (5, (1, [(1, 1), (2, 1), (3, 4), (16, 1), (18, 1)]))] 0 (1, [(3, 2), (7, 1), (16, 2)]),
      .no [(2, (1, [(3, 1), (18, 1)])), (3, (1, [(2, 2), (3, 1), (16, 1)])), (4, (1, [(3, 3), (16, 1)])), (5, (1, [(2, 2), (3, 4), (16, 1), (18, 1)]))] 0 (1, [(3, 1), (16, 1)]),
      .no [(0, (1, [(0, 1), (19, 1)])), (2, (1, [(1, 2), (19, 1)])), (3, (1, [(2, 2), (4, 1), (19, 1)])), (4, (1, [(3, 2), (4, 1), (19, 1)])), (5, (1, [(1, 2), (2, 2), (3, 2), (4, 1), (19, 2)]))] 0 (1, [(4, 1), (19, 1)]),
      .no [(0, (1, [(0, 1), (1, 1), (19, 1)])), (1, (1, [(20, 1)])), (2, (1, [(1, 3), (19, 1)])), (3, (1, [(1, 1), (2, 2), (4, 1), (19, 1)])), (4, (1, [(1, 1), (3, 2), (4, 1), (19, 1)])), (5, (1, [(1, 4), (2, 2), (3, 2), (4, 1), (19, 2)]))] 0 (1, [(1, 1), (4, 1), (19, 1)]),
      .no [(0, (1, [(0, 1), (1, 2), (19, 1)])), (2, (1, [(1, 4), (19, 1)])), (3, (1, [(1, 2), (2, 2), (4, 1), (19, 1)])), (4, (1, [(1, 2), (3, 2), (4, 1), (19, 1)])), (5, (1, [(1, 6), (2, 2), (3, 2), (4, 1), (19, 2)]))] 0 (1, [(1, 2), (4, 1), (19, 1)]),
      .yes [] 35 [((2, [(17, 1)]), (1, [(2, 1)])), ((2, [(13, 1)]), (1, [(3, 1)]))],
      .no [(0, (1, [(0, 1), (5, 1), (20, 1)])), (1, (1, [(0, 1), (4, 1), (20, 1)])), (2, (1, [(1, 2), (5, 1), (20, 1)])), (3, (1, [(2, 2), (4, 1), (5, 1), (20, 1)])), (4, (1, [(3, 2), (4, 1), (5, 1), (20, 1)])), (5, (1, [(1, 2), (2, 2), (3, 2), (4, 1), (5, 2), (20, 2)]))] 0 (1, [(4, 1), (5, 1), (20, 1)]),
      .yes [] 33 [((2, [(19, 1)]), (1, [(1, 1)])), ((2, [(13, 1)]), (1, [(3, 1)]))],
      .no [(0, (1, [(0, 1), (18, 1)])), (2, (1, [(1, 2), (18, 1)])), (3, (1, [(2, 2), (4, 1), (18, 1)])), (4, (1, [(3, 2), (4, 1), (18, 1)])), (5, (1, [(1, 2), (2, 2), (3, 2), (4, 1), (18, 2)]))] 0 (1, [(4, 1), (18, 1)]),
      .no [(0, (1, [(0, 1), (6, 1), (18, 2)])), (1, (1, [(20, 1)])), (2, (1, [(1, 1), (18, 1)])), (3, (1, [(2, 2), (4, 1), (6, 1), (18, 2)])), (4, (1, [(3, 2), (4, 1), (6, 1), (18, 2)])), (5, (1, [(2, 2), (3, 2), (4, 1), (18, 2)]))] 0 (1, [(4, 1), (6, 1), (18, 2)]),
      .yes [(2, (1, [(18, 1)]))] 41 [((1, [(6, 1)]), (1, [(18, 1)])), ((2, [(13, 1)]), (1, [(3, 1)]))],
      .no [(0, (1, [(0, 1), (3, 1), (19, 1)])), (2, (1, [(1, 2), (3, 1), (19, 1)])), (3, (1, [(2, 4), (3, 1), (17, 1)])), (4, (1, [(2, 2), (3, 3), (17, 1)])), (5, (1, [(1, 2), (2, 4), (3, 4), (17, 1), (19, 1)]))] 0 (1, [(2, 2), (3, 1), (17, 1)]),
      .no [(0, (1, [(0, 1), (1, 1), (3, 1), (19, 1)])), (1, (2, [(2, 2), (13, 1), (17, 2), (20, 2)])), (2, (1, [(1, 3), (3, 1), (19, 1)])), (3, (1, [(2, 3), (3, 1), (17, 1)])), (4, (1, [(2, 1), (3, 3), (17, 1)])), (5, (1, [(1, 3), (2, 3), (3, 4), (17, 1), (19, 1)]))] 0 (1, [(2, 1), (3, 1), (17, 1)]),
      .no [(0, (1, [(0, 1), (1, 2), (3, 1), (19, 1)])), (2, (1, [(1, 4), (3, 1), (19, 1)])), (3, (1, [(2, 2), (3, 1), (17, 1)])), (4, (1, [(3, 3), (17, 1)])), (5, (1, [(1, 4), (2, 2), (3, 4), (17, 1), (19, 1)]))] 0 (1, [(3, 1), (17, 1)]),
      .no [(3, (1, [(2, 4), (17, 1)])), (4, (1, [(2, 2), (3, 2), (17, 1)]))] 0 (1, [(2, 2), (17, 1)]),
      .no [(0, (1, [(5, 1), (20, 1)])), (1, (1, [(4, 1), (20, 1)])), (2, (1, [(1, 2), (2, 1), (5, 1), (17, 1), (20, 1)])), (3, (1, [(2, 3), (17, 1)])), (4, (1, [(2, 1), (3, 2), (17, 1)])), (5, (1, [(1, 2), (2, 4), (3, 2), (5, 1), (17, 2), (20, 1)]))] 0 (1, [(2, 1), (17, 1)]),
      .no [(3, (1, [(2, 2), (17, 1)])), (4, (1, [(3, 2), (17, 1)]))] 0 (1, [(17, 1)]),
      .no [(0, (2, [(0, 1), (8, 1), (18, 2)])), (2, (2, [(1, 4), (13, 1), (18, 2)])), (3, (2, [(2, 8), (13, 1), (17, 2)])), (4, (1, [(2, 2), (3, 1), (17, 1)])), (5, (1, [(1, 2), (2, 4), (17, 1), (18, 1)]))] 0 (2, [(2, 4), (13, 1), (17, 2)]),
      .no [(0, (1, [(6, 1), (8, 1), (18, 2)])), (1, (1, [(2, 1), (3, 1), (17, 1), (20, 1)])), (2, (2, [(1, 2), (13, 1), (18, 2)])), (3, (2, [(2, 6), (13, 1), (17, 2)])), (4, (1, [(2, 1), (3, 1), (17, 1)])), (5, (1, [(1, 1), (2, 3), (17, 1), (18, 1)]))] 0 (2, [(2, 2), (13, 1), (17, 2)]),
      .no [(2, (2, [(13, 1), (18, 2)])), (3, (2, [(2, 4), (13, 1), (17, 2)])), (4, (1, [(3, 1), (17, 1)])), (5, (1, [(2, 2), (17, 1), (18, 1)]))] 0 (2, [(13, 1), (17, 2)])],
    .no [(0, (1, [(0, 1), (1, 2), (5, 1), (15, 1)])), (1, (1, [(0, 1), (1, 2), (4, 1), (15, 1)])), (2, (1, [(1, 4), (5, 1), (15, 1)])), (3, (1, [(1, 2), (2, 2), (4, 1), (5, 1), (15, 1)])), (4, (1, [(1, 2), (3, 2), (4, 1), (5, 1), (15, 1)])), (5, (1, [(1, 6), (2, 2), (3, 2), (4, 1), (5, 2), (15, 2)]))] 0 (1, [(1, 2), (4, 1), (5, 1), (15, 1)]),
    .node [
      .no [(0, (2, [(0, 1), (5, 2), (7, 1), (19, 2)])), (1, (1, [(15, 1)])), (2, (1, [(1, 2), (3, 1), (5, 1), (13, 1), (19, 1)])), (3, (1, [(2, 1), (13, 1), (16, 1)])), (4, (1, [(3, 3), (13, 2), (16, 1)])), (5, (1, [(1, 2), (3, 2), (5, 1), (13, 1), (16, 1), (19, 1)]))] 0 (1, [(3, 1), (13, 2), (16, 1)]),
      .no [(1, (1, [(15, 1)])), (3, (1, [(2, 2), (13, 1), (16, 1)])), (4, (1, [(3, 2), (13, 1), (16, 1)]))] 0 (1, [(13, 1), (16, 1)]),
      .no [(0, (1, [(0, 1), (2, 1), (5, 1), (18, 1)])), (1, (1, [(15, 1)])), (2, (1, [(1, 2), (2, 1), (5, 1), (18, 1)])), (3, (1, [(2, 3), (13, 1), (16, 1)])), (4, (1, [(3, 1), (16, 1)])), (5, (1, [(1, 2), (2, 3), (3, 1), (5, 1), (16, 1), (18, 1)]))] 0 (1, [(2, 1), (13, 1), (16, 1)]),
      .no [(0, (2, [(0, 1), (1, 2), (5, 2), (7, 1), (19, 2)])), (1, (1, [(15, 1)])), (2, (1, [(1, 3), (3, 1), (5, 1), (13, 1), (19, 1)])), (3, (1, [(16, 1)])), (4, (1, [(3, 4), (13, 2), (16, 1)])), (5, (1, [(1, 3), (3, 3), (5, 1), (13, 1), (16, 1), (19, 1)]))] 0 (1, [(3, 2), (13, 2), (16, 1)]),
      .no [(0, (1, [(5, 1), (20, 1)])), (1, (1, [(15, 1)])), (2, (1, [(1, 2), (3, 1), (5, 1), (13, 1), (16, 1), (20, 1)])), (3, (1, [(2, 1), (16, 1)])), (4, (1, [(3, 3), (13, 1), (16, 1)])), (5, (1, [(1, 2), (3, 2), (5, 1), (16, 2), (20, 1)]))] 0 (1, [(3, 1), (13, 1), (16, 1)]),
      .no [(0, (1, [(0, 1), (2, 2), (5, 2), (6, 1), (18, 2)])), (1, (1, [(15, 1)])), (2, (1, [(1, 1), (2, 1), (5, 1), (18, 1)])), (3, (1, [(2, 2), (16, 1)])), (4, (1, [(3, 2), (16, 1)])), (5, (1, [(1, 1), (2, 3), (3, 2), (5, 1), (16, 1), (18, 1)]))] 0 (1, [(16, 1)]),
      .no [(0, (2, [(0, 1), (1, 4), (5, 2), (7, 1), (19, 2)])), (1, (1, [(15, 1)])), (2, (1, [(1, 4), (3, 1), (5, 1), (13, 1), (19, 1)])), (3, (1, [(3, 1), (16, 1)])), (4, (1, [(3, 5), (13, 2), (16, 1)])), (5, (1, [(1, 4), (3, 4), (5, 1), (13, 1), (16, 1), (19, 1)]))] 0 (1, [(3, 3), (13, 2), (16, 1)]),
      .no [(1, (1, [(15, 1)])), (3, (1, [(2, 1), (3, 1), (16, 1)])), (4, (1, [(3, 4), (13, 1), (16, 1)]))] 0 (1, [(3, 2), (13, 1), (16, 1)]),
      .no [(1, (1, [(15, 1)])), (2, (1, [(2, 1), (5, 1), (18, 1)])), (3, (1, [(2, 2), (3, 1), (16, 1)])), (4, (1, [(3, 3), (16, 1)])), (5, (1, [(2, 3), (3, 3), (5, 1), (16, 1), (18, 1)]))] 0 (1, [(3, 1), (16, 1)]),
      .no [(0, (1, [(0, 1), (5, 1), (19, 1)])), (1, (1, [(15, 1)])), (2, (1, [(1, 2), (5, 1), (19, 1)])), (3, (1, [(2, 2), (4, 1), (5, 1), (19, 1)])), (4, (1, [(3, 2), (4, 1), (5, 1), (19, 1)])), (5, (1, [(1, 2), (2, 2), (3, 2), (4, 1), (5, 2), (19, 2)]))] 0 (1, [(4, 1), (5, 1), (19, 1)]),
      .yes [(1, (1, [(15, 1)]))] 23 [((1, [(15, 1)]), (1, [(5, 1)])), ((1, [(3, 1), (13, 1)]), (1, [(2, 1)])), ((1, [(2, 1), (13, 1)]), (1, [(3, 1)]))],
      .no [(0, (1, [(0, 1), (5, 1), (18, 1)])), (1, (1, [(15, 1)])), (2, (1, [(1, 2), (5, 1), (18, 1)])), (3, (1, [(2, 2), (4, 1), (5, 1), (18, 1)])), (4, (1, [(3, 2), (4, 1), (5, 1), (18, 1)])), (5, (1, [(1, 2), (2, 2), (3, 2), (4, 1), (5, 2), (18, 2)]))] 0 (1, [(4, 1), (5, 1), (18, 1)]),
      .no [(0, (1, [(0, 1), (1, 1), (5, 1), (19, 1)])), (1, (1, [(15, 1)])), (2, (1, [(1, 3), (5, 1), (19, 1)])), (3, (1, [(1, 1), (2, 2), (4, 1), (5, 1), (19, 1)])), (4, (1, [(1, 1), (3, 2), (4, 1), (5, 1), (19, 1)])), (5, (1, [(1, 4), (2, 2), (3, 2), (4, 1), (5, 2), (19, 2)]))] 0 (1, [(1, 1), (4, 1), (5, 1), (19, 1)]),
      .no [(0, (1, [(0, 1), (5, 1), (20, 1)])), (1, (1, [(15, 1)])), (2, (1, [(1, 2), (5, 1), (20, 1)])), (3, (1, [(2, 2), (4, 1), (5, 1), (20, 1)])), (4, (1, [(3, 2), (4, 1), (5, 1), (20, 1)])), (5, (1, [(1, 2), (2, 2), (3, 2), (4, 1), (5, 2), (20, 2)]))] 0 (1, [(4, 1), (5, 1), (20, 1)]),
      .no [(0, (1, [(0, 1), (5, 2), (6, 1), (18, 2)])), (1, (1, [(15, 1)])), (2, (1, [(1, 1), (5, 1), (18, 1)])), (3, (1, [(2, 2), (4, 1), (5, 2), (6, 1), (18, 2)])), (4, (1, [(3, 2), (4, 1), (5, 2), (6, 1), (18, 2)])), (5, (1, [(2, 2), (3, 2), (4, 1), (5, 2), (18, 2)]))] 0 (1, [(4, 1), (5, 2), (6, 1), (18, 2)]),
      .no [(0, (1, [(0, 1), (1, 2), (5, 1), (19, 1)])), (1, (1, [(15, 1)])), (2, (1, [(1, 4), (5, 1), (19, 1)])), (3, (1, [(1, 2), (2, 2), (4, 1), (5, 1), (19, 1)])), (4, (1, [(1, 2), (3, 2), (4, 1), (5, 1), (19, 1)])), (5, (1, [(1, 6), (2, 2), (3, 2), (4, 1), (5, 2), (19, 2)]))] 0 (1, [(1, 2), (4, 1), (5, 1), (19, 1)]),
      .yes [(1, (1, [(15, 1)]))] 21 [((1, [(15, 1)]), (1, [(5, 1)])), ((2, [(19, 1)]), (1, [(1, 1)])), ((1, [(3, 1), (13, 1)]), (1, [(2, 1)])), ((1, [(2, 1), (13, 1)]), (1, [(3, 1)]))],
      .yes [(1, (1, [(15, 1)])), (2, (1, [(5, 1), (18, 1)]))] 22 [((1, [(15, 1)]), (1, [(5, 1)])), ((1, [(6, 1)]), (1, [(5, 1), (18, 1)])), ((1, [(3, 1), (13, 1)]), (1, [(2, 1)])), ((1, [(2, 1), (13, 1)]), (1, [(3, 1)]))],
      .no [(0, (1, [(0, 1), (2, 1), (5, 1), (19, 1)])), (1, (1, [(15, 1)])), (2, (1, [(1, 2), (2, 1), (5, 1), (19, 1)])), (3, (1, [(2, 4), (3, 1), (17, 1)])), (4, (1, [(2, 2), (3, 3), (17, 1)])), (5, (1, [(1, 2), (2, 5), (3, 3), (5, 1), (17, 1), (19, 1)]))] 0 (1, [(2, 2), (3, 1), (17, 1)]),
      .no [(1, (1, [(15, 1)])), (3, (1, [(2, 3), (3, 1), (17, 1)])), (4, (1, [(2, 1), (3, 3), (17, 1)]))] 0 (1, [(2, 1), (3, 1), (17, 1)]),
      .no [(0, (2, [(0, 1), (5, 2), (7, 1), (18, 2)])), (1, (1, [(15, 1)])), (2, (1, [(1, 2), (3, 1), (5, 1), (13, 1), (18, 1)])), (3, (1, [(2, 2), (3, 1), (17, 1)])), (4, (1, [(3, 3), (17, 1)])), (5, (1, [(1, 2), (2, 1), (3, 3), (5, 1), (17, 1), (18, 1)]))] 0 (1, [(3, 1), (17, 1)]),
      .no [(0, (1, [(0, 1), (1, 1), (2, 1), (5, 1), (19, 1)])), (1, (1, [(15, 1)])), (2, (1, [(1, 3), (2, 1), (5, 1), (19, 1)])), (3, (1, [(2, 4), (17, 1)])), (4, (1, [(2, 2), (3, 2), (17, 1)])), (5, (1, [(1, 3), (2, 5), (3, 2), (5, 1), (17, 1), (19, 1)]))] 0 (1, [(2, 2), (17, 1)]),
      .no [(0, (1, [(5, 1), (20, 1)])), (1, (1, [(15, 1)])), (2, (1, [(1, 2), (2, 1), (5, 1), (17, 1), (20, 1)])), (3, (1, [(2, 3), (17, 1)])), (4, (1, [(2, 1), (3, 2), (17, 1)])), (5, (1, [(1, 2), (2, 4), (3, 2), (5, 1), (17, 2), (20, 1)]))] 0 (1, [(2, 1), (17, 1)]),
      .no [(0, (1, [(5, 2), (6, 1), (7, 1), (18, 2)])), (1, (1, [(15, 1)])), (2, (1, [(1, 1), (3, 1), (5, 1), (13, 1), (18, 1)])), (3, (1, [(2, 2), (17, 1)])), (4, (1, [(3, 2), (17, 1)])), (5, (1, [(1, 1), (2, 1), (3, 2), (5, 1), (17, 1), (18, 1)]))] 0 (1, [(17, 1)]),
      .no [(0, (1, [(0, 1), (1, 2), (2, 1), (5, 1), (19, 1)])), (1, (1, [(15, 1)])), (2, (1, [(1, 4), (2, 1), (5, 1), (19, 1)])), (3, (1, [(2, 5), (13, 1), (17, 1)])), (4, (1, [(2, 2), (3, 1), (17, 1)])), (5, (1, [(1, 4), (2, 5), (3, 1), (5, 1), (17, 1), (19, 1)]))] 0 (1, [(2, 3), (13, 1), (17, 1)]),
      .no [(1, (1, [(15, 1)])), (3, (1, [(2, 4), (13, 1), (17, 1)])), (4, (1, [(2, 1), (3, 1), (17, 1)]))] 0 (1, [(2, 2), (13, 1), (17, 1)]),
      .no [(1, (1, [(15, 1)])), (2, (1, [(3, 1), (5, 1), (13, 1), (18, 1)])), (3, (1, [(2, 3), (13, 1), (17, 1)])), (4, (1, [(3, 1), (17, 1)])), (5, (1, [(2, 1), (3, 1), (5, 1), (17, 1), (18, 1)]))] 0 (1, [(2, 1), (13, 1), (17, 1)])],
    .no [(0, (1, [(0, 1), (14, 1)])), (2, (1, [(1, 2), (14, 1)])), (3, (1, [(2, 2), (4, 1), (14, 1)])), (4, (1, [(3, 2), (4, 1), (14, 1)])), (5, (1, [(1, 2), (2, 2), (3, 2), (4, 1), (14, 2)]))] 0 (1, [(4, 1), (14, 1)]),
    .node [
      .yes [(1, (1, [(15, 1)])), (5, (1, [(5, 1), (12, 1), (16, 1), (18, 1)]))] 24 [((1, [(15, 1)]), (1, [(5, 1)])), ((1, [(9, 1)]), (1, [(5, 1), (12, 1), (16, 1), (18, 1)])), ((1, [(12, 1), (17, 1)]), (1, [(13, 1), (16, 1)])), ((1, [(13, 2), (17, 1)]), (1, [(12, 2), (16, 1)]))],
      .no [(1, (1, [(15, 1)])), (3, (1, [(13, 1), (16, 1)])), (4, (1, [(12, 1), (16, 1)]))] 0 (1, [(1, 4), (13, 1), (16, 1), (19, 2)]),
      .no [(0, (1, [(0, 1), (1, 2), (2, 1), (5, 1), (19, 1)])), (1, (1, [(15, 1)])), (2, (1, [(1, 4), (2, 1), (5, 1), (19, 1)])), (3, (1, [(2, 1), (13, 1), (16, 1)])), (4, (1, [(3, 1), (16, 1)])), (5, (1, [(1, 4), (2, 3), (3, 1), (5, 1), (16, 1), (19, 1)]))] 0 (1, [(8, 1), (16, 2)]),
      .no [(0, (1, [(5, 2), (6, 1), (7, 1), (18, 2)])), (1, (1, [(15, 1)])), (2, (1, [(4, 1), (5, 2), (7, 1), (18, 2)])), (3, (1, [(16, 1)])), (4, (1, [(12, 2), (16, 1)])), (5, (1, [(1, 1), (3, 1), (5, 1), (12, 1), (16, 1), (18, 1)]))] 0 (1, [(4, 2), (5, 4), (6, 1), (9, 1), (12, 2), (18, 4)]),
      .no [(0, (1, [(5, 1), (20, 1)])), (1, (1, [(15, 1)])), (2, (1, [(1, 2), (5, 1), (7, 1), (16, 2), (20, 1)])), (3, (1, [(2, 1), (16, 1)])), (4, (1, [(3, 1), (12, 1), (16, 1)])), (5, (1, [(1, 2), (3, 2), (5, 1), (16, 2), (20, 1)]))] 0 (1, [(7, 1), (16, 2)]),
      .no [(0, (1, [(0, 1), (1, 1), (2, 1), (5, 1), (19, 1)])), (1, (1, [(15, 1)])), (2, (1, [(1, 3), (2, 1), (5, 1), (19, 1)])), (3, (1, [(2, 2), (16, 1)])), (4, (1, [(3, 2), (16, 1)])), (5, (1, [(1, 3), (2, 3), (3, 2), (5, 1), (16, 1), (19, 1)]))] 0 (1, [(16, 1)]),
      .no [(0, (2, [(0, 1), (5, 2), (7, 1), (18, 2)])), (1, (1, [(15, 1)])), (2, (1, [(1, 2), (4, 1), (5, 2), (7, 1), (18, 2)])), (3, (1, [(3, 1), (16, 1)])), (4, (1, [(3, 1), (12, 2), (16, 1)])), (5, (1, [(1, 2), (3, 2), (5, 1), (12, 1), (16, 1), (18, 1)]))] 0 (1, [(7, 1), (12, 2), (16, 2)]),
      .no [(1, (1, [(15, 1)])), (3, (1, [(2, 1), (3, 1), (16, 1)])), (4, (1, [(3, 2), (12, 1), (16, 1)]))] 0 (1, [(3, 2), (7, 1), (16, 2)]),
      .no [(0, (1, [(0, 1), (2, 1), (5, 1), (19, 1)])), (1, (1, [(15, 1)])), (2, (1, [(1, 2), (2, 1), (5, 1), (19, 1)])), (3, (1, [(2, 2), (3, 1), (16, 1)])), (4, (1, [(3, 3), (16, 1)])), (5, (1, [(1, 2), (2, 3), (3, 3), (5, 1), (16, 1), (19, 1)]))] 0 (1, [(3, 1), (16, 1)]),
      .yes [(1, (1, [(15, 1)])), (2, (1, [(5, 1), (18, 1)]))] 22 [((1, [(15, 1)]), (1, [(5, 1)])), ((1, [(6, 1)]), (1, [(5, 1), (18, 1)])), ((2, [(3, 1), (17, 1)]), (1, [(2, 1)])), ((1, [(2, 2), (17, 1)]), (1, [(3, 1)]))],
      .yes [(1, (1, [(15, 1)]))] 21 [((1, [(15, 1)]), (1, [(5, 1)])), ((2, [(19, 1)]), (1, [(1, 1)])), ((1, [(3, 1), (17, 1)]), (1, [(2, 1)])), ((1, [(2, 1), (17, 1)]), (1, [(3, 1)]))],
      .no [(0, (1, [(0, 1), (1, 2), (5, 1), (19, 1)])), (1, (1, [(15, 1)])), (2, (1, [(1, 4), (5, 1), (19, 1)])), (3, (1, [(1, 2), (2, 2), (4, 1), (5, 1), (19, 1)])), (4, (1, [(1, 2), (3, 2), (4, 1), (5, 1), (19, 1)])), (5, (1, [(1, 6), (2, 2), (3, 2), (4, 1), (5, 2), (19, 2)]))] 0 (1, [(1, 2), (4, 1), (5, 1), (19, 1)]),
      .no [(0, (1, [(0, 1), (5, 2), (6, 1), (18, 2)])), (1, (1, [(15, 1)])), (2, (1, [(1, 1), (5, 1), (18, 1)])), (3, (1, [(2, 2), (4, 1), (5, 2), (6, 1), (18, 2)])), (4, (1, [(3, 2), (4, 1), (5, 2), (6, 1), (18, 2)])), (5, (1, [(2, 2), (3, 2), (4, 1), (5, 2), (18, 2)]))] 0 (1, [(4, 1), (5, 2), (6, 1), (18, 2)]),
      .no [(0, (1, [(0, 1), (5, 1), (20, 1)])), (1, (1, [(15, 1)])), (2, (1, [(1, 2), (5, 1), (20, 1)])), (3, (1, [(2, 2), (4, 1), (5, 1), (20, 1)])), (4, (1, [(3, 2), (4, 1), (5, 1), (20, 1)])), (5, (1, [(1, 2), (2, 2), (3, 2), (4, 1), (5, 2), (20, 2)]))] 0 (1, [(4, 1), (5, 1), (20, 1)]),
      .no [(0, (1, [(0, 1), (1, 1), (5, 1), (19, 1)])), (1, (1, [(15, 1)])), (2, (1, [(1, 3), (5, 1), (19, 1)])), (3, (1, [(1, 1), (2, 2), (4, 1), (5, 1), (19, 1)])), (4, (1, [(1, 1), (3, 2), (4, 1), (5, 1), (19, 1)])), (5, (1, [(1, 4), (2, 2), (3, 2), (4, 1), (5, 2), (19, 2)]))] 0 (1, [(1, 1), (4, 1), (5, 1), (19, 1)]),
      .no [(0, (1, [(0, 1), (5, 1), (18, 1)])), (1, (1, [(15, 1)])), (2, (1, [(1, 2), (5, 1), (18, 1)])), (3, (1, [(2, 2), (4, 1), (5, 1), (18, 1)])), (4, (1, [(3, 2), (4, 1), (5, 1), (18, 1)])), (5, (1, [(1, 2), (2, 2), (3, 2), (4, 1), (5, 2), (18, 2)]))] 0 (1, [(4, 1), (5, 1), (18, 1)]),
      .yes [(1, (1, [(15, 1)]))] 25 [((1, [(15, 1)]), (1, [(5, 1)])), ((1, [(13, 1)]), (1, [(12, 1)]))],
      .no [(0, (1, [(0, 1), (5, 1), (19, 1)])), (1, (1, [(15, 1)])), (2, (1, [(1, 2), (5, 1), (19, 1)])), (3, (1, [(2, 2), (4, 1), (5, 1), (19, 1)])), (4, (1, [(3, 2), (4, 1), (5, 1), (19, 1)])), (5, (1, [(1, 2), (2, 2), (3, 2), (4, 1), (5, 2), (19, 2)]))] 0 (1, [(4, 1), (5, 1), (19, 1)]),
      .no [(1, (1, [(15, 1)])), (2, (1, [(2, 1), (5, 1), (18, 1)])), (3, (1, [(2, 4), (3, 1), (17, 1)])), (4, (1, [(2, 2), (3, 3), (17, 1)])), (5, (1, [(2, 5), (3, 3), (5, 1), (17, 1), (18, 1)]))] 0 (1, [(2, 2), (3, 1), (17, 1)]),
      .no [(1, (1, [(15, 1)])), (3, (1, [(2, 3), (3, 1), (17, 1)])), (4, (1, [(2, 1), (3, 3), (17, 1)]))] 0 (1, [(2, 1), (3, 1), (17, 1)]),
      .no [(0, (2, [(0, 1), (1, 4), (5, 2), (7, 1), (19, 2)])), (1, (1, [(15, 1)])), (2, (2, [(1, 8), (3, 1), (5, 2), (7, 1), (17, 1), (19, 2)])), (3, (1, [(2, 2), (3, 1), (17, 1)])), (4, (1, [(3, 3), (17, 1)])), (5, (1, [(1, 4), (2, 1), (3, 3), (5, 1), (17, 1), (19, 1)]))] 0 (1, [(3, 1), (17, 1)]),
      .no [(0, (1, [(0, 1), (2, 2), (5, 2), (6, 1), (18, 2)])), (1, (1, [(15, 1)])), (2, (1, [(1, 1), (2, 1), (5, 1), (18, 1)])), (3, (1, [(2, 4), (17, 1)])), (4, (1, [(2, 2), (3, 2), (17, 1)])), (5, (1, [(1, 1), (2, 5), (3, 2), (5, 1), (17, 1), (18, 1)]))] 0 (1, [(2, 2), (17, 1)]),
      .no [(0, (1, [(5, 1), (20, 1)])), (1, (1, [(15, 1)])), (2, (1, [(1, 2), (2, 1), (5, 1), (17, 1), (20, 1)])), (3, (1, [(2, 3), (17, 1)])), (4, (1, [(2, 1), (3, 2), (17, 1)])), (5, (1, [(1, 2), (2, 4), (3, 2), (5, 1), (17, 2), (20, 1)]))] 0 (1, [(2, 1), (17, 1)]),
      .no [(0, (2, [(0, 1), (1, 2), (5, 2), (7, 1), (19, 2)])), (1, (1, [(15, 1)])), (2, (2, [(1, 6), (5, 2), (7, 1), (17, 1), (19, 2)])), (3, (1, [(2, 2), (17, 1)])), (4, (1, [(3, 2), (17, 1)])), (5, (1, [(1, 3), (2, 1), (3, 2), (5, 1), (17, 1), (19, 1)]))] 0 (1, [(17, 1)]),
      .no [(0, (1, [(0, 1), (2, 1), (5, 1), (18, 1)])), (1, (1, [(15, 1)])), (2, (1, [(1, 2), (2, 1), (5, 1), (18, 1)])), (3, (1, [(2, 3), (13, 1), (17, 1)])), (4, (1, [(2, 2), (3, 1), (17, 1)])), (5, (1, [(1, 2), (2, 5), (3, 1), (5, 1), (17, 1), (18, 1)]))] 0 (1, [(2, 4), (8, 1), (17, 2)]),
      .no [(1, (1, [(15, 1)])), (3, (1, [(2, 2), (13, 1), (17, 1)])), (4, (1, [(2, 1), (3, 1), (17, 1)]))] 0 (1, [(2, 2), (8, 1), (17, 2)]),
      .no [(0, (2, [(0, 1), (5, 2), (7, 1), (19, 2)])), (1, (1, [(15, 1)])), (2, (2, [(1, 4), (5, 2), (7, 1), (8, 1), (17, 2), (19, 2)])), (3, (1, [(2, 1), (13, 1), (17, 1)])), (4, (1, [(3, 1), (17, 1)])), (5, (1, [(1, 2), (2, 1), (3, 1), (5, 1), (17, 1), (19, 1)]))] 0 (1, [(8, 1), (17, 2)])],
    .no [(0, (1, [(0, 1), (1, 2), (5, 1), (15, 1)])), (1, (1, [(0, 1), (1, 2), (4, 1), (15, 1)])), (2, (1, [(1, 4), (5, 1), (15, 1)])), (3, (1, [(1, 2), (2, 2), (4, 1), (5, 1), (15, 1)])), (4, (1, [(1, 2), (3, 2), (4, 1), (5, 1), (15, 1)])), (5, (1, [(1, 6), (2, 2), (3, 2), (4, 1), (5, 2), (15, 2)]))] 0 (1, [(1, 2), (4, 1), (5, 1), (15, 1)]),
    .node [
      .yes [(5, (1, [(16, 1), (18, 1)]))] 43 [((1, [(9, 1)]), (1, [(16, 1), (18, 1)])), ((1, [(9, 1), (16, 1)]), (1, [(18, 1)]))],
      .no [(0, (1, [(6, 1), (8, 1), (18, 2)])), (1, (1, [(7, 1), (16, 2), (20, 1)])), (2, (1, [(4, 1), (8, 1), (18, 2)])), (3, (1, [(8, 1), (16, 2)])), (4, (1, [(7, 1), (16, 2)])), (5, (1, [(1, 1), (2, 1), (16, 1), (18, 1)]))] 0 (1, [(1, 2), (8, 1), (9, 2), (16, 4), (18, 2)]),
      .no [(0, (2, [(0, 1), (8, 1), (18, 2)])), (2, (1, [(1, 2), (8, 1), (16, 1), (18, 1)])), (3, (1, [(2, 2), (8, 1), (16, 2)])), (4, (1, [(3, 1), (16, 1)])), (5, (1, [(1, 2), (2, 2), (16, 1), (18, 1)]))] 0 (1, [(8, 1), (16, 2)]),
      .yes [(3, (1, [(16, 1)]))] 36 [((2, [(3, 1), (19, 1)]), (1, [(1, 1)])), ((1, [(7, 1)]), (1, [(16, 1)])), ((1, [(1, 2), (19, 1)]), (1, [(3, 1)]))],
      .no [(0, (1, [(5, 1), (20, 1)])), (1, (1, [(4, 1), (20, 1)])), (2, (1, [(1, 2), (5, 1), (7, 1), (16, 2), (20, 1)])), (3, (1, [(2, 1), (16, 1)])), (4, (1, [(3, 2), (7, 1), (16, 2)])), (5, (1, [(1, 2), (3, 2), (5, 1), (16, 2), (20, 1)]))] 0 (1, [(7, 1), (16, 2)]),
      .no [(3, (1, [(2, 2), (16, 1)])), (4, (1, [(3, 2), (16, 1)]))] 0 (1, [(16, 1)]),
      .no [(0, (1, [(0, 1), (1, 2), (3, 1), (19, 1)])), (2, (1, [(1, 4), (3, 1), (19, 1)])), (3, (1, [(3, 1), (16, 1)])), (4, (1, [(1, 2), (3, 3), (4, 1), (19, 1)])), (5, (1, [(1, 4), (3, 4), (16, 1), (19, 1)]))] 0 (1, [(1, 2), (3, 1), (4, 1), (19, 1)]),
      .no [(0, (1, [(0, 1), (1, 1), (3, 1), (19, 1)])), (1, (1, [(7, 1), (16, 2), (20, 1)])), (2, (1, [(1, 3), (3, 1), (19, 1)])), (3, (1, [(2, 1), (3, 1), (16, 1)])), (4, (1, [(3, 4), (7, 1), (16, 2)])), (5, (1, [(1, 3), (2, 1), (3, 4), (16, 1), (19, 1)]))] 0 (1, [(3, 2), (7, 1), (16, 2)]),
      .no [(0, (1, [(0, 1), (3, 1), (19, 1)])), (2, (1, [(1, 2), (3, 1), (19, 1)])), (3, (1, [(2, 2), (3, 1), (16, 1)])), (4, (1, [(3, 3), (16, 1)])), (5, (1, [(1, 2), (2, 2), (3, 4), (16, 1), (19, 1)]))] 0 (1, [(3, 1), (16, 1)]),
      .yes [(2, (1, [(18, 1)]))] 40 [((1, [(6, 1)]), (1, [(18, 1)])), ((2, [(3, 1), (17, 1)]), (1, [(2, 1)])), ((1, [(2, 2), (17, 1)]), (1, [(3, 1)]))],
      .no [(0, (1, [(0, 1), (6, 1), (18, 2)])), (1, (1, [(20, 1)])), (2, (1, [(1, 1), (18, 1)])), (3, (1, [(2, 2), (4, 1), (6, 1), (18, 2)])), (4, (1, [(3, 2), (4, 1), (6, 1), (18, 2)])), (5, (1, [(2, 2), (3, 2), (4, 1), (18, 2)]))] 0 (1, [(4, 1), (6, 1), (18, 2)]),
      .no [(0, (1, [(0, 1), (18, 1)])), (2, (1, [(1, 2), (18, 1)])), (3, (1, [(2, 2), (4, 1), (18, 1)])), (4, (1, [(3, 2), (4, 1), (18, 1)])), (5, (1, [(1, 2), (2, 2), (3, 2), (4, 1), (18, 2)]))] 0 (1, [(4, 1), (18, 1)]),
      .yes [] 34 [((2, [(19, 1)]), (1, [(1, 1)])), ((2, [(17, 1)]), (1, [(2, 1)]))],
      .no [(0, (1, [(0, 1), (5, 1), (20, 1)])), (1, (1, [(0, 1), (4, 1), (20, 1)])), (2, (1, [(1, 2), (5, 1), (20, 1)])), (3, (1, [(2, 2), (4, 1), (5, 1), (20, 1)])), (4, (1, [(3, 2), (4, 1), (5, 1), (20, 1)])), (5, (1, [(1, 2), (2, 2), (3, 2), (4, 1), (5, 2), (20, 2)]))] 0 (1, [(4, 1), (5, 1), (20, 1)]),
      .yes [] 44 [],
      .no [(0, (1, [(0, 1), (1, 2), (19, 1)])), (2, (1, [(1, 4), (19, 1)])), (3, (1, [(1, 2), (2, 2), (4, 1), (19, 1)])), (4, (1, [(1, 2), (3, 2), (4, 1), (19, 1)])), (5, (1, [(1, 6), (2, 2), (3, 2), (4, 1), (19, 2)]))] 0 (1, [(1, 2), (4, 1), (19, 1)]),
      .no [(0, (1, [(0, 1), (1, 1), (19, 1)])), (1, (1, [(20, 1)])), (2, (1, [(1, 3), (19, 1)])), (3, (1, [(1, 1), (2, 2), (4, 1), (19, 1)])), (4, (1, [(1, 1), (3, 2), (4, 1), (19, 1)])), (5, (1, [(1, 4), (2, 2), (3, 2), (4, 1), (19, 2)]))] 0 (1, [(1, 1), (4, 1), (19, 1)]),
      .no [(0, (1, [(0, 1), (19, 1)])), (2, (1, [(1, 2), (19, 1)])), (3, (1, [(2, 2), (4, 1), (19, 1)])), (4, (1, [(3, 2), (4, 1), (19, 1)])), (5, (1, [(1, 2), (2, 2), (3, 2), (4, 1), (19, 2)]))] 0 (1, [(4, 1), (19, 1)]),
      .no [(2, (1, [(3, 1), (18, 1)])), (3, (1, [(2, 4), (3, 1), (17, 1)])), (4, (1, [(2, 2), (3, 3), (17, 1)])), (5, (1, [(2, 4), (3, 4), (17, 1), (18, 1)]))] 0 (1, [(2, 2), (3, 1), (17, 1)]),
      .no [(0, (1, [(0, 1), (3, 2), (6, 1), (18, 2)])), (1, (3, [(2, 4), (8, 1), (17, 4), (20, 3)])), (2, (1, [(1, 1), (3, 1), (18, 1)])), (3, (1, [(2, 3), (3, 1), (17, 1)])), (4, (1, [(2, 1), (3, 3), (17, 1)])), (5, (1, [(1, 1), (2, 3), (3, 4), (17, 1), (18, 1)]))] 0 (1, [(2, 1), (3, 1), (17, 1)]),
      .no [(0, (1, [(0, 1), (3, 1), (18, 1)])), (2, (1, [(1, 2), (3, 1), (18, 1)])), (3, (1, [(2, 2), (3, 1), (17, 1)])), (4, (1, [(3, 3), (17, 1)])), (5, (1, [(1, 2), (2, 2), (3, 4), (17, 1), (18, 1)]))] 0 (1, [(3, 1), (17, 1)]),
      .no [(3, (1, [(2, 4), (17, 1)])), (4, (1, [(2, 2), (3, 2), (17, 1)]))] 0 (1, [(2, 2), (17, 1)]),
      .no [(0, (1, [(5, 1), (20, 1)])), (1, (1, [(4, 1), (20, 1)])), (2, (1, [(1, 2), (2, 1), (5, 1), (17, 1), (20, 1)])), (3, (1, [(2, 3), (17, 1)])), (4, (1, [(2, 1), (3, 2), (17, 1)])), (5, (1, [(1, 2), (2, 4), (3, 2), (5, 1), (17, 2), (20, 1)]))] 0 (1, [(2, 1), (17, 1)]),
      .no [(3, (1, [(2, 2), (17, 1)])), (4, (1, [(3, 2), (17, 1)]))] 0 (1, [(17, 1)]),
      .no [(0, (2, [(0, 1), (1, 4), (8, 1), (19, 2)])), (2, (1, [(1, 4), (2, 2), (8, 1), (17, 1), (19, 1)])), (3, (1, [(2, 6), (8, 1), (17, 2)])), (4, (1, [(2, 2), (3, 1), (17, 1)])), (5, (1, [(1, 4), (2, 4), (17, 1), (19, 1)]))] 0 (1, [(2, 4), (8, 1), (17, 2)]),
      .no [(0, (2, [(0, 1), (1, 2), (8, 1), (19, 2)])), (1, (1, [(2, 1), (3, 1), (17, 1), (20, 1)])), (2, (1, [(1, 3), (2, 1), (8, 1), (17, 1), (19, 1)])), (3, (1, [(2, 4), (8, 1), (17, 2)])), (4, (1, [(2, 1), (3, 1), (17, 1)])), (5, (1, [(1, 3), (2, 3), (17, 1), (19, 1)]))] 0 (1, [(2, 2), (8, 1), (17, 2)]),
      .no [(0, (2, [(0, 1), (8, 1), (19, 2)])), (2, (1, [(1, 2), (8, 1), (17, 1), (19, 1)])), (3, (1, [(2, 2), (8, 1), (17, 2)])), (4, (1, [(3, 1), (17, 1)])), (5, (1, [(1, 2), (2, 2), (17, 1), (19, 1)]))] 0 (1, [(8, 1), (17, 2)])],
    .node [
      .no [(0, (1, [(5, 2), (6, 2), (9, 1), (18, 2)])), (1, (1, [(6, 1), (15, 1)])), (2, (1, [(5, 1), (15, 1)])), (3, (1, [(8, 1), (12, 2), (16, 2)])), (4, (1, [(3, 1), (12, 2), (16, 1)])), (5, (1, [(3, 1), (5, 1), (15, 1), (16, 1)]))] 0 (1, [(8, 1), (12, 4), (16, 2)]),
      .no [(1, (1, [(6, 1), (15, 1)])), (2, (1, [(5, 1), (15, 1)])), (3, (1, [(8, 1), (16, 2)])), (4, (1, [(3, 1), (12, 1), (16, 1)])), (5, (1, [(2, 1), (3, 1), (5, 1), (15, 1), (16, 1)]))] 0 (1, [(8, 1), (12, 2), (16, 2)]),
      .no [(0, (1, [(0, 1), (2, 2), (3, 2), (5, 3), (15, 1), (19, 2)])), (1, (1, [(6, 1), (15, 1)])), (2, (1, [(5, 1), (15, 1)])), (3, (1, [(2, 2), (8, 1), (16, 2)])), (4, (1, [(3, 1), (16, 1)])), (5, (1, [(2, 2), (3, 1), (5, 1), (15, 1), (16, 1)]))] 0 (1, [(8, 1), (16, 2)]),
      .no [(1, (1, [(6, 1), (15, 1)])), (2, (1, [(5, 1), (15, 1)])), (3, (1, [(16, 1)])), (4, (1, [(3, 2), (12, 2), (16, 1)])), (5, (1, [(3, 2), (5, 1), (15, 1), (16, 1)]))] 0 (1, [(12, 2), (16, 1)]),
      .no [(0, (1, [(0, 1), (2, 2), (3, 2), (5, 1), (15, 1), (19, 2)])), (1, (1, [(6, 1), (15, 1)])), (2, (1, [(5, 1), (15, 1)])), (3, (1, [(2, 1), (16, 1)])), (4, (1, [(3, 2), (12, 1), (16, 1)])), (5, (1, [(2, 1), (3, 2), (5, 1), (15, 1), (16, 1)]))] 0 (1, [(12, 1), (16, 1)]),
      .no [(0, (1, [(0, 1), (2, 1), (3, 1), (5, 1), (19, 1)])), (1, (1, [(6, 1), (15, 1)])), (2, (1, [(5, 1), (15, 1)])), (3, (1, [(2, 2), (16, 1)])), (4, (1, [(3, 2), (16, 1)])), (5, (1, [(2, 2), (3, 2), (5, 1), (15, 1), (16, 1)]))] 0 (1, [(16, 1)]),
      .no [(0, (1, [(0, 1), (2, 2), (3, 2), (6, 1), (15, 2), (19, 2)])), (1, (1, [(6, 1), (15, 1)])), (2, (1, [(5, 1), (15, 1)])), (3, (1, [(3, 1), (16, 1)])), (4, (1, [(3, 3), (12, 2), (16, 1)])), (5, (1, [(3, 3), (5, 1), (15, 1), (16, 1)]))] 0 (1, [(3, 1), (12, 2), (16, 1)]),
      .no [(0, (1, [(0, 1), (2, 1), (3, 1), (19, 1)])), (1, (1, [(6, 1), (15, 1)])), (2, (1, [(5, 1), (15, 1)])), (3, (1, [(2, 1), (3, 1), (16, 1)])), (4, (1, [(3, 3), (12, 1), (16, 1)])), (5, (1, [(2, 1), (3, 3), (5, 1), (15, 1), (16, 1)]))] 0 (1, [(3, 1), (12, 1), (16, 1)]),
      .no [(0, (3, [(0, 3), (2, 2), (3, 2), (5, 2), (6, 1), (19, 2)])), (1, (1, [(6, 1), (15, 1)])), (2, (1, [(5, 1), (15, 1)])), (3, (1, [(2, 2), (3, 1), (16, 1)])), (4, (1, [(3, 3), (16, 1)])), (5, (1, [(2, 2), (3, 3), (5, 1), (15, 1), (16, 1)]))] 0 (1, [(3, 1), (16, 1)]),
      .no [(0, (1, [(0, 1), (5, 2), (6, 3), (18, 2)])), (1, (1, [(6, 1), (15, 1)])), (2, (1, [(5, 1), (15, 1)])), (3, (1, [(2, 2), (4, 1), (5, 2), (6, 3), (18, 2)])), (4, (1, [(3, 2), (4, 1), (5, 2), (6, 3), (18, 2)])), (5, (1, [(2, 2), (3, 2), (4, 1), (5, 2), (6, 2), (18, 2)]))] 0 (1, [(4, 1), (5, 2), (6, 3), (18, 2)]),
      .yes [(1, (1, [(6, 1), (15, 1)])), (2, (1, [(5, 1), (15, 1)]))] 22 [((1, [(6, 1), (15, 1)]), (1, [(5, 1)])), ((1, [(6, 1)]), (1, [(5, 1), (15, 1)])), ((1, [(12, 1)]), (1, [(2, 1)])), ((1, [(2, 1), (17, 1)]), (1, [(3, 1)]))],
      .no [(0, (1, [(0, 1), (5, 3), (15, 1), (19, 2)])), (1, (1, [(6, 1), (15, 1)])), (2, (1, [(5, 1), (15, 1)])), (3, (1, [(2, 2), (4, 1), (5, 3), (15, 1), (19, 2)])), (4, (1, [(3, 2), (4, 1), (5, 3), (15, 1), (19, 2)])), (5, (1, [(2, 2), (3, 2), (4, 1), (5, 4), (15, 2), (19, 2)]))] 0 (1, [(4, 1), (5, 3), (15, 1), (19, 2)]),
      .yes [(1, (1, [(6, 1), (15, 1)])), (2, (1, [(5, 1), (15, 1)]))] 22 [((1, [(6, 1), (15, 1)]), (1, [(5, 1)])), ((1, [(6, 1)]), (1, [(5, 1), (15, 1)])), ((1, [(12, 1)]), (1, [(2, 1)])), ((1, [(23, 1)]), (1, [(3, 1)]))],
      .no [(0, (1, [(0, 1), (5, 1), (15, 1), (19, 2)])), (1, (1, [(6, 1), (15, 1)])), (2, (1, [(5, 1), (15, 1)])), (3, (1, [(2, 2), (4, 1), (5, 1), (15, 1), (19, 2)])), (4, (1, [(3, 2), (4, 1), (5, 1), (15, 1), (19, 2)])), (5, (1, [(2, 2), (3, 2), (4, 1), (5, 2), (15, 2), (19, 2)]))] 0 (1, [(4, 1), (5, 1), (15, 1), (19, 2)]),
      .no [(0, (1, [(0, 1), (5, 1), (19, 1)])), (1, (1, [(6, 1), (15, 1)])), (2, (1, [(5, 1), (15, 1)])), (3, (1, [(2, 2), (4, 1), (5, 1), (19, 1)])), (4, (1, [(3, 2), (4, 1), (5, 1), (19, 1)])), (5, (1, [(2, 2), (3, 2), (4, 1), (5, 2), (15, 1), (19, 1)]))] 0 (1, [(4, 1), (5, 1), (19, 1)]),
      .no [(0, (1, [(0, 1), (6, 1), (15, 2), (19, 2)])), (1, (1, [(6, 1), (15, 1)])), (2, (1, [(5, 1), (15, 1)])), (3, (1, [(2, 2), (4, 1), (6, 1), (15, 2), (19, 2)])), (4, (1, [(3, 2), (4, 1), (6, 1), (15, 2), (19, 2)])), (5, (1, [(2, 2), (3, 2), (4, 1), (15, 2), (19, 2)]))] 0 (1, [(4, 1), (6, 1), (15, 2), (19, 2)]),
      .no [(0, (1, [(0, 1), (19, 1)])), (1, (1, [(6, 1), (15, 1)])), (2, (1, [(5, 1), (15, 1)])), (3, (1, [(2, 2), (4, 1), (19, 1)])), (4, (1, [(3, 2), (4, 1), (19, 1)])), (5, (1, [(2, 2), (3, 2), (4, 1), (5, 1), (15, 1), (19, 1)]))] 0 (1, [(4, 1), (19, 1)]),
      .no [(0, (3, [(0, 3), (5, 2), (6, 1), (19, 2)])), (1, (1, [(6, 1), (15, 1)])), (2, (1, [(5, 1), (15, 1)])), (3, (3, [(2, 6), (4, 3), (5, 2), (6, 1), (19, 2)])), (4, (3, [(3, 6), (4, 3), (5, 2), (6, 1), (19, 2)])), (5, (3, [(2, 6), (3, 6), (4, 3), (5, 4), (15, 2), (19, 2)]))] 0 (3, [(4, 3), (5, 2), (6, 1), (19, 2)]),
      .no [(0, (1, [(0, 1), (2, 2), (3, 2), (5, 2), (6, 3), (18, 2)])), (1, (1, [(6, 1), (15, 1)])), (2, (1, [(5, 1), (15, 1)])), (3, (1, [(2, 4), (3, 1), (17, 1)])), (4, (1, [(2, 2), (3, 3), (17, 1)])), (5, (1, [(2, 4), (3, 3), (5, 1), (15, 1), (17, 1)]))] 0 (1, [(2, 2), (3, 1), (17, 1)]),
      .no [(1, (1, [(6, 1), (15, 1)])), (2, (1, [(5, 1), (15, 1)])), (3, (1, [(2, 3), (3, 1), (17, 1)])), (4, (1, [(2, 1), (3, 3), (17, 1)])), (5, (1, [(2, 3), (3, 3), (5, 1), (15, 1), (17, 1)]))] 0 (1, [(2, 1), (3, 1), (17, 1)]),
      .no [(0, (1, [(5, 4), (9, 1), (15, 2), (19, 2)])), (1, (1, [(6, 1), (15, 1)])), (2, (1, [(5, 1), (15, 1)])), (3, (1, [(2, 2), (3, 1), (17, 1)])), (4, (1, [(3, 3), (17, 1)])), (5, (1, [(2, 2), (3, 3), (5, 1), (15, 1), (17, 1)]))] 0 (1, [(3, 1), (17, 1)]),
      .no [(1, (1, [(6, 1), (15, 1)])), (2, (1, [(5, 1), (15, 1)])), (3, (1, [(2, 4), (17, 1)])), (4, (1, [(2, 2), (3, 2), (17, 1)])), (5, (1, [(2, 4), (3, 2), (5, 1), (15, 1), (17, 1)]))] 0 (1, [(2, 2), (17, 1)]),
      .no [(0, (1, [(5, 2), (9, 1), (15, 2), (19, 2)])), (1, (1, [(6, 1), (15, 1)])), (2, (1, [(5, 1), (15, 1)])), (3, (1, [(2, 3), (17, 1)])), (4, (1, [(2, 1), (3, 2), (17, 1)])), (5, (1, [(2, 3), (3, 2), (5, 1), (15, 1), (17, 1)]))] 0 (1, [(2, 1), (17, 1)]),
      .no [(0, (2, [(5, 2), (7, 1), (8, 1), (19, 2)])), (1, (1, [(6, 1), (15, 1)])), (2, (1, [(5, 1), (15, 1)])), (3, (1, [(2, 2), (17, 1)])), (4, (1, [(3, 2), (17, 1)])), (5, (1, [(2, 2), (3, 2), (5, 1), (15, 1), (17, 1)]))] 0 (1, [(17, 1)]),
      .no [(0, (1, [(9, 1), (15, 2), (19, 2)])), (1, (1, [(6, 1), (15, 1)])), (2, (1, [(5, 1), (15, 1)])), (3, (1, [(2, 6), (8, 1), (17, 2)])), (4, (1, [(2, 2), (3, 1), (17, 1)])), (5, (1, [(2, 4), (3, 1), (5, 1), (15, 1), (17, 1)]))] 0 (1, [(2, 4), (8, 1), (17, 2)]),
      .no [(0, (2, [(7, 1), (8, 1), (19, 2)])), (1, (1, [(6, 1), (15, 1)])), (2, (1, [(5, 1), (15, 1)])), (3, (1, [(2, 4), (8, 1), (17, 2)])), (4, (1, [(2, 1), (3, 1), (17, 1)])), (5, (1, [(2, 3), (3, 1), (5, 1), (15, 1), (17, 1)]))] 0 (1, [(2, 2), (8, 1), (17, 2)]),
      .no [(0, (3, [(0, 1), (5, 2), (6, 1), (7, 1), (8, 1), (19, 2)])), (1, (1, [(6, 1), (15, 1)])), (2, (1, [(5, 1), (15, 1)])), (3, (1, [(2, 2), (8, 1), (17, 2)])), (4, (1, [(3, 1), (17, 1)])), (5, (1, [(2, 2), (3, 1), (5, 1), (15, 1), (17, 1)]))] 0 (1, [(8, 1), (17, 2)])],
    .no [(1, (1, [(0, 1), (2, 2), (3, 2), (6, 1), (15, 1)])), (2, (1, [(0, 1), (2, 2), (3, 2), (5, 1), (15, 1)])), (3, (1, [(2, 3), (3, 2), (13, 1)])), (4, (1, [(2, 1), (3, 4), (13, 1)])), (5, (1, [(2, 4), (3, 4), (5, 1), (15, 1)]))] 0 (1, [(2, 1), (3, 2), (13, 1)]),
    .no [(3, (1, [(2, 2), (3, 2), (13, 1)])), (4, (1, [(3, 4), (13, 1)]))] 0 (1, [(3, 2), (13, 1)]),
    .no [(0, (1, [(0, 1), (1, 2), (3, 2), (5, 1), (7, 1), (15, 1)])), (1, (1, [(0, 1), (1, 2), (3, 2), (4, 1), (7, 1), (15, 1)])), (2, (1, [(1, 4), (3, 2), (5, 1), (7, 1), (15, 1)])), (3, (1, [(2, 1), (3, 2), (13, 1)])), (4, (1, [(3, 6), (7, 1), (13, 2)])), (5, (1, [(1, 4), (3, 4), (5, 1), (15, 1)]))] 0 (1, [(3, 4), (7, 1), (13, 2)]),
    .no [(1, (1, [(0, 1), (2, 2), (15, 1)])), (3, (1, [(2, 3), (3, 1), (13, 1)])), (4, (1, [(2, 1), (3, 3), (13, 1)]))] 0 (1, [(2, 1), (3, 1), (13, 1)]),
    .no [(0, (1, [(14, 1)])), (2, (1, [(1, 2), (3, 1), (13, 1), (14, 1)])), (3, (1, [(2, 2), (3, 1), (13, 1)])), (4, (1, [(3, 3), (13, 1)])), (5, (1, [(1, 2), (2, 2), (3, 4), (13, 2), (14, 1)]))] 0 (1, [(3, 1), (13, 1)]),
    .no [(1, (1, [(7, 1), (15, 1)])), (3, (1, [(2, 1), (3, 1), (13, 1)])), (4, (1, [(3, 4), (7, 1), (13, 2)]))] 0 (1, [(3, 2), (7, 1), (13, 2)]),
    .no [(0, (1, [(0, 1), (1, 2), (2, 2), (5, 1), (8, 1), (15, 1)])), (1, (1, [(0, 1), (1, 2), (2, 2), (4, 1), (8, 1), (15, 1)])), (2, (1, [(1, 4), (2, 2), (5, 1), (8, 1), (15, 1)])), (3, (1, [(2, 3), (13, 1)])), (4, (1, [(2, 1), (3, 2), (13, 1)])), (5, (1, [(1, 4), (2, 4), (5, 1), (15, 1)]))] 0 (1, [(2, 1), (13, 1)]),
    .no [(3, (1, [(2, 2), (13, 1)])), (4, (1, [(3, 2), (13, 1)]))] 0 (1, [(13, 1)]),
    .no [(1, (1, [(9, 1), (15, 1)])), (2, (1, [(5, 1), (7, 2), (8, 1), (13, 2), (15, 1)])), (3, (1, [(2, 1), (13, 1)])), (4, (1, [(3, 2), (7, 1), (13, 2)])), (5, (1, [(5, 1), (15, 1)]))] 0 (1, [(7, 1), (13, 2)])]

theorem treeII_9_ok : treeII_9.check false (1, 0, 0) = true := by decide +kernel

/-- All symmetries with first column `(1, 0, 1)`. -/
def treeII_10 : Tree1 :=
  .no [(0, (1, [(5, 1), (7, 1), (11, 1)])), (1, (1, [(4, 1), (7, 1), (11, 1)])), (3, (1, [(4, 1), (5, 1), (11, 1)])), (4, (1, [(4, 1), (5, 1), (11, 1), (13, 2)])), (5, (1, [(1, 2), (4, 1), (5, 2), (11, 2), (13, 2)])), (2, (1, [(1, 2), (5, 1), (11, 1), (13, 2), (14, 2)]))] 0 (1, [(4, 1), (5, 1), (11, 1), (13, 2), (14, 2)])

theorem treeII_10_ok : treeII_10.check false (1, 0, 1) = true := by decide +kernel

/-- All symmetries with first column `(1, 1, -1)`. -/
def treeII_11 : Tree1 :=
  .no [(0, (2, [(0, 1), (1, 2), (2, 2), (5, 1), (8, 1), (11, 1)])), (1, (1, [(0, 1), (1, 2), (2, 2), (4, 2), (8, 1), (11, 1)])), (2, (1, [(1, 4), (2, 2), (4, 1), (5, 1), (8, 1), (11, 1)])), (3, (1, [(1, 2), (2, 4), (4, 2), (5, 1), (8, 1), (11, 1)])), (4, (2, [(1, 2), (2, 2), (3, 2), (4, 2), (5, 1), (11, 1)])), (5, (1, [(1, 4), (2, 4), (4, 1), (5, 1), (11, 1)]))] 0 (1, [(1, 2), (2, 2), (4, 2), (5, 1), (8, 1), (11, 1)])

theorem treeII_11_ok : treeII_11.check false (1, 1, -1) = true := by decide +kernel

/-- All symmetries with first column `(1, 1, 0)`. -/
def treeII_12 : Tree1 :=
  .node [
    .no [(0, (1, [(8, 1), (11, 1)])), (1, (1, [(9, 1), (15, 1)])), (4, (1, [(4, 1), (11, 1)])), (5, (1, [(4, 1), (8, 2), (12, 2)])), (2, (1, [(4, 1), (8, 3), (12, 2), (18, 2)])), (3, (1, [(4, 2), (8, 3), (12, 2), (16, 2), (18, 2)]))] 0 (1, [(4, 2), (8, 3), (12, 2), (16, 2), (18, 4)]),
    .no [(0, (1, [(8, 1), (11, 1)])), (2, (1, [(1, 2), (4, 1), (8, 3), (12, 2)])), (3, (1, [(2, 2), (4, 2), (8, 3), (12, 2)])), (4, (1, [(4, 1), (11, 1)])), (5, (1, [(1, 2), (2, 2), (4, 1), (8, 2), (12, 2)]))] 0 (1, [(4, 2), (8, 3), (12, 2)]),
    .no [(0, (1, [(8, 1), (11, 1)])), (1, (1, [(0, 1), (1, 2), (2, 2), (4, 1), (8, 1), (15, 1)])), (2, (1, [(1, 4), (2, 2), (4, 1), (8, 3), (12, 2)])), (3, (1, [(1, 2), (2, 4), (4, 2), (8, 3), (12, 2)])), (4, (1, [(4, 1), (11, 1)])), (5, (1, [(1, 4), (2, 4), (4, 1), (8, 2), (12, 2)]))] 0 (1, [(1, 2), (2, 2), (4, 2), (8, 3), (12, 2)]),
    .no [(0, (1, [(8, 1), (11, 1)])), (1, (1, [(7, 1), (15, 1)])), (2, (1, [(1, 4), (4, 1), (5, 1), (11, 2), (13, 2), (15, 1)])), (3, (1, [(5, 1), (15, 1)])), (4, (1, [(4, 1), (11, 1)])), (5, (1, [(1, 2), (5, 1), (11, 1), (15, 1)]))] 0 (1, [(1, 2), (4, 2), (5, 1), (11, 2), (13, 2), (15, 1)]),
    .node [
      .no [(0, (1, [(8, 1), (11, 1)])), (3, (1, [(4, 1), (8, 1), (9, 1), (16, 2)])), (4, (1, [(4, 1), (11, 1)])), (5, (1, [(1, 1), (16, 1)])), (2, (1, [(1, 2), (11, 1), (23, 2)]))] 0 (1, [(4, 1), (11, 1), (23, 2)]),
      .no [(0, (1, [(8, 1), (11, 1)])), (1, (1, [(4, 1), (11, 1), (20, 1)])), (2, (1, [(1, 2), (4, 1), (7, 1), (8, 2), (16, 2)])), (3, (1, [(2, 1), (4, 1), (8, 1), (16, 1)])), (4, (1, [(4, 1), (11, 1)])), (5, (1, [(1, 2), (2, 1), (16, 1)]))] 0 (1, [(1, 2), (4, 1), (8, 1), (9, 1), (16, 2)]),
      .no [(0, (1, [(8, 1), (11, 1)])), (2, (1, [(1, 3), (8, 1), (16, 1)])), (3, (1, [(1, 1), (2, 2), (4, 1), (8, 1), (16, 1)])), (4, (1, [(4, 1), (11, 1)])), (5, (1, [(1, 3), (2, 2), (16, 1)]))] 0 (1, [(1, 1), (4, 1), (8, 1), (16, 1)]),
      .no [(0, (1, [(8, 1), (11, 1)])), (2, (3, [(1, 12), (8, 2), (11, 3), (17, 2), (19, 4)])), (3, (1, [(1, 1), (2, 1), (19, 1)])), (4, (1, [(4, 1), (11, 1)])), (5, (1, [(0, 1), (1, 4), (11, 1), (19, 2)]))] 0 (1, [(1, 4), (9, 1), (11, 1), (19, 2)]),
      .no [(0, (1, [(8, 1), (11, 1)])), (1, (1, [(4, 1), (20, 1)])), (2, (1, [(1, 3), (8, 1), (11, 1), (19, 1)])), (3, (1, [(8, 1), (16, 2)])), (4, (1, [(4, 1), (11, 1)])), (5, (1, [(1, 2), (8, 1), (11, 1), (16, 2)]))] 0 (1, [(1, 1), (19, 1)]),
      .no [(0, (1, [(8, 1), (11, 1)])), (2, (1, [(1, 4), (8, 2), (11, 1), (16, 2)])), (3, (1, [(1, 2), (2, 2), (8, 1), (16, 2)])), (4, (1, [(4, 1), (11, 1)])), (5, (1, [(1, 4), (2, 2), (8, 1), (11, 1), (16, 2)]))] 0 (1, [(1, 2), (8, 1), (16, 2)]),
      .no [(0, (1, [(8, 1), (11, 1)])), (2, (1, [(1, 4), (2, 1), (3, 1), (17, 1), (19, 1)])), (3, (1, [(1, 1), (2, 1), (3, 1), (19, 1)])), (4, (1, [(4, 1), (11, 1)])), (5, (1, [(1, 3), (2, 1), (3, 1), (11, 1), (19, 1)]))] 0 (3, [(1, 3), (4, 2), (11, 1), (17, 1), (19, 2)]),
      .no [(0, (1, [(8, 1), (11, 1)])), (1, (3, [(1, 4), (8, 1), (19, 4), (20, 3)])), (2, (1, [(1, 3), (2, 1), (3, 1), (17, 1), (19, 1)])), (3, (1, [(1, 1), (2, 2), (3, 1), (19, 1)])), (4, (1, [(4, 1), (11, 1)])), (5, (1, [(1, 3), (2, 2), (3, 1), (11, 1), (19, 1)]))] 0 (1, [(1, 1), (3, 1), (19, 1)]),
      .no [(0, (1, [(8, 1), (11, 1)])), (2, (3, [(1, 8), (2, 2), (8, 2), (11, 3), (19, 2)])), (3, (3, [(1, 3), (2, 8), (11, 1), (16, 1), (19, 2)])), (4, (1, [(4, 1), (11, 1)])), (5, (1, [(1, 3), (2, 3), (3, 1), (11, 1), (19, 1)]))] 0 (3, [(1, 3), (2, 2), (11, 1), (16, 1), (19, 2)]),
      .no [(0, (1, [(8, 1), (11, 1)])), (2, (1, [(2, 2), (11, 1), (18, 2)])), (3, (3, [(4, 3), (11, 1), (16, 2), (18, 4), (22, 6)])), (4, (1, [(4, 1), (11, 1)])), (5, (3, [(4, 3), (11, 2), (16, 4), (18, 2)]))] 0 (1, [(4, 1), (11, 1), (18, 2), (22, 2)]),
      .no [(0, (1, [(8, 1), (11, 1)])), (1, (1, [(20, 1)])), (2, (1, [(11, 1), (18, 2)])), (3, (1, [(4, 2), (8, 1), (16, 2)])), (4, (1, [(4, 1), (11, 1)])), (5, (1, [(1, 2), (4, 1), (16, 2)]))] 0 (1, [(4, 2), (9, 1), (11, 1), (16, 2), (18, 2)]),
      .no [(0, (1, [(8, 1), (11, 1)])), (2, (1, [(1, 4), (4, 1), (8, 1), (16, 2)])), (3, (1, [(1, 2), (2, 2), (4, 2), (8, 1), (16, 2)])), (4, (1, [(4, 1), (11, 1)])), (5, (1, [(1, 4), (2, 2), (4, 1), (16, 2)]))] 0 (1, [(1, 2), (4, 2), (8, 1), (16, 2)]),
      .yes [(0, (1, [(8, 1), (11, 1)])), (4, (1, [(4, 1), (11, 1)]))] 12 [((1, [(8, 1), (11, 1)]), (1, [(4, 1)])), ((1, [(2, 2), (17, 1)]), (1, [(1, 1)])), ((2, [(1, 1), (17, 1)]), (1, [(2, 1)])), ((1, [(8, 1)]), (1, [(4, 1), (11, 1)]))],
      .no [(0, (1, [(8, 1), (11, 1)])), (1, (1, [(0, 1), (4, 1), (20, 1)])), (2, (1, [(1, 2), (5, 1), (20, 1)])), (3, (1, [(2, 2), (4, 1), (5, 1), (20, 1)])), (4, (1, [(4, 1), (11, 1)])), (5, (1, [(1, 2), (2, 2), (4, 1), (5, 1), (11, 1), (20, 1)]))] 0 (1, [(4, 1), (5, 1), (20, 1)]),
      .yes [(0, (1, [(8, 1), (11, 1)])), (4, (1, [(4, 1), (11, 1)]))] 12 [((1, [(8, 1), (11, 1)]), (1, [(4, 1)])), ((1, [(16, 1)]), (1, [(1, 1)])), ((1, [(1, 1), (19, 1)]), (1, [(2, 1)])), ((1, [(8, 1)]), (1, [(4, 1), (11, 1)]))],
      .no [(0, (1, [(8, 1), (11, 1)])), (2, (1, [(1, 4), (2, 4), (4, 1), (8, 1), (17, 2)])), (3, (1, [(1, 2), (2, 6), (4, 2), (8, 1), (17, 2)])), (4, (1, [(4, 1), (11, 1)])), (5, (1, [(1, 4), (2, 6), (4, 1), (17, 2)]))] 0 (1, [(1, 2), (2, 4), (4, 2), (8, 1), (17, 2)]),
      .no [(0, (1, [(8, 1), (11, 1)])), (1, (1, [(20, 1)])), (2, (1, [(1, 2), (2, 2), (4, 1), (8, 1), (17, 2)])), (3, (1, [(2, 4), (4, 2), (8, 1), (17, 2)])), (4, (1, [(4, 1), (11, 1)])), (5, (1, [(1, 2), (2, 4), (4, 1), (17, 2)]))] 0 (1, [(2, 2), (4, 2), (8, 1), (17, 2)]),
      .no [(0, (1, [(8, 1), (11, 1)])), (2, (1, [(4, 1), (8, 1), (17, 2)])), (3, (1, [(1, 2), (2, 4), (4, 1), (11, 1), (19, 2)])), (4, (1, [(4, 1), (11, 1)])), (5, (1, [(2, 2), (4, 1), (17, 2)]))] 0 (1, [(1, 2), (2, 2), (4, 1), (11, 1), (19, 2)]),
      .no [(0, (1, [(8, 1), (11, 1)])), (2, (3, [(1, 4), (2, 2), (8, 2), (11, 3), (18, 2)])), (3, (3, [(2, 12), (8, 1), (11, 2), (17, 2), (18, 2)])), (4, (1, [(4, 1), (11, 1)])), (5, (1, [(1, 1), (2, 3), (3, 1), (11, 1), (18, 1)]))] 0 (3, [(2, 6), (8, 1), (11, 2), (17, 2), (18, 2)]),
      .no [(0, (1, [(8, 1), (11, 1)])), (1, (1, [(2, 2), (9, 1), (11, 1), (18, 2), (20, 1)])), (2, (3, [(1, 4), (8, 2), (11, 3), (18, 2)])), (3, (2, [(2, 4), (6, 1), (11, 1), (18, 2)])), (4, (1, [(4, 1), (11, 1)])), (5, (1, [(1, 1), (2, 2), (3, 1), (11, 1), (18, 1)]))] 0 (1, [(2, 2), (3, 2), (9, 1), (11, 1), (18, 2)]),
      .no [(0, (1, [(8, 1), (11, 1)])), (2, (2, [(1, 2), (7, 1), (8, 1), (11, 2), (18, 2)])), (3, (3, [(2, 4), (4, 3), (11, 1), (16, 2), (18, 2)])), (4, (1, [(4, 1), (11, 1)])), (5, (1, [(1, 1), (2, 1), (3, 1), (11, 1), (18, 1)]))] 0 (1, [(3, 2), (9, 1), (11, 1), (18, 2)]),
      .no [(0, (1, [(8, 1), (11, 1)])), (2, (1, [(1, 4), (2, 4), (8, 2), (11, 1), (17, 2)])), (3, (1, [(1, 2), (2, 6), (8, 1), (17, 2)])), (4, (1, [(4, 1), (11, 1)])), (5, (1, [(1, 4), (2, 6), (8, 1), (11, 1), (17, 2)]))] 0 (1, [(1, 2), (2, 4), (8, 1), (17, 2)]),
      .no [(0, (1, [(8, 1), (11, 1)])), (1, (1, [(4, 1), (20, 1)])), (2, (1, [(1, 2), (2, 2), (8, 2), (11, 1), (17, 2)])), (3, (1, [(2, 4), (8, 1), (17, 2)])), (4, (1, [(4, 1), (11, 1)])), (5, (1, [(1, 2), (2, 4), (8, 1), (11, 1), (17, 2)]))] 0 (1, [(2, 2), (8, 1), (17, 2)]),
      .no [(0, (1, [(8, 1), (11, 1)])), (2, (1, [(8, 2), (11, 1), (17, 2)])), (3, (1, [(6, 1), (8, 1), (11, 1), (18, 2)])), (4, (1, [(4, 1), (11, 1)])), (5, (1, [(2, 2), (8, 1), (11, 1), (17, 2)]))] 0 (1, [(9, 1), (11, 1), (18, 2)]),
      .no [(0, (1, [(8, 1), (11, 1)])), (2, (1, [(1, 3), (2, 2), (8, 1), (17, 1)])), (3, (1, [(1, 1), (2, 4), (4, 1), (8, 1), (17, 1)])), (4, (1, [(4, 1), (11, 1)])), (5, (1, [(1, 3), (2, 4), (17, 1)]))] 0 (1, [(1, 1), (2, 2), (4, 1), (8, 1), (17, 1)]),
      .no [(0, (1, [(8, 1), (11, 1)])), (1, (1, [(4, 1), (11, 1), (20, 1)])), (2, (1, [(1, 2), (2, 1), (8, 1), (17, 1)])), (3, (1, [(2, 3), (4, 1), (8, 1), (17, 1)])), (4, (1, [(4, 1), (11, 1)])), (5, (1, [(1, 2), (2, 3), (17, 1)]))] 0 (1, [(2, 1), (4, 1), (8, 1), (17, 1)]),
      .no [(0, (1, [(8, 1), (11, 1)])), (2, (1, [(1, 1), (8, 1), (17, 1)])), (3, (1, [(2, 2), (4, 1), (6, 1), (8, 2), (17, 2)])), (4, (1, [(4, 1), (11, 1)])), (5, (1, [(1, 1), (2, 2), (17, 1)]))] 0 (1, [(2, 2), (4, 1), (8, 1), (9, 1), (17, 2)])],
    .no [(0, (1, [(8, 1), (11, 1)])), (1, (1, [(0, 1), (2, 2), (15, 1)])), (2, (1, [(1, 2), (2, 2), (5, 1), (8, 1), (11, 1), (15, 1)])), (3, (1, [(2, 4), (5, 1), (15, 1)])), (4, (1, [(4, 1), (11, 1)])), (5, (1, [(1, 2), (2, 4), (5, 1), (11, 1), (15, 1)]))] 0 (1, [(2, 2), (5, 1), (15, 1)]),
    .no [(0, (1, [(8, 1), (11, 1)])), (1, (1, [(0, 1), (1, 2), (3, 2), (4, 1), (7, 1), (15, 1)])), (2, (1, [(1, 4), (2, 2), (4, 2), (11, 1), (13, 2)])), (3, (1, [(1, 2), (2, 4), (4, 3), (11, 1), (13, 2)])), (4, (1, [(4, 1), (11, 1)])), (5, (1, [(1, 4), (2, 4), (4, 3), (11, 2), (13, 2)]))] 0 (1, [(1, 2), (2, 2), (4, 3), (11, 1), (13, 2)]),
    .no [(0, (1, [(8, 1), (11, 1)])), (2, (1, [(1, 2), (4, 2), (11, 1), (13, 2)])), (3, (1, [(2, 2), (4, 3), (11, 1), (13, 2)])), (4, (1, [(4, 1), (11, 1)])), (5, (1, [(1, 2), (2, 2), (4, 3), (11, 2), (13, 2)]))] 0 (1, [(4, 3), (11, 1), (13, 2)]),
    .no [(0, (1, [(8, 1), (11, 1)])), (1, (1, [(0, 1), (2, 2), (3, 2), (6, 1), (15, 1)])), (2, (1, [(0, 1), (2, 2), (3, 2), (5, 1), (15, 1)])), (3, (1, [(1, 2), (2, 4), (5, 1), (6, 2), (11, 1), (15, 1)])), (4, (1, [(4, 1), (11, 1)])), (5, (1, [(4, 3), (11, 2), (13, 2)]))] 0 (2, [(2, 4), (4, 2), (5, 1), (9, 1), (11, 2), (15, 1)]),
    .no [(0, (1, [(8, 1), (11, 1)])), (1, (1, [(6, 1), (15, 1)])), (2, (1, [(5, 1), (15, 1)])), (3, (1, [(2, 4), (4, 1), (5, 1), (11, 2), (13, 2), (15, 1)])), (4, (1, [(4, 1), (11, 1)])), (5, (1, [(2, 2), (4, 1), (5, 1), (11, 1), (15, 1)]))] 0 (1, [(2, 2), (4, 1), (5, 1), (11, 2), (13, 2), (15, 1)]),
    .node [
      .no [(0, (1, [(8, 1), (11, 1)])), (2, (1, [(1, 2), (4, 1), (8, 1), (19, 2)])), (3, (1, [(4, 1), (8, 1), (9, 1), (16, 2)])), (4, (1, [(4, 1), (11, 1)])), (5, (1, [(1, 1), (16, 1)]))] 0 (1, [(4, 2), (8, 1), (19, 2)]),
      .no [(0, (1, [(8, 1), (11, 1)])), (1, (1, [(4, 1), (11, 1), (20, 1)])), (2, (1, [(1, 2), (4, 1), (7, 1), (8, 2), (16, 2)])), (3, (1, [(2, 1), (4, 1), (8, 1), (16, 1)])), (4, (1, [(4, 1), (11, 1)])), (5, (1, [(1, 2), (2, 1), (16, 1)]))] 0 (1, [(1, 2), (4, 1), (8, 1), (9, 1), (16, 2)]),
      .no [(0, (1, [(8, 1), (11, 1)])), (2, (1, [(1, 3), (8, 1), (16, 1)])), (3, (1, [(1, 1), (2, 2), (4, 1), (8, 1), (16, 1)])), (4, (1, [(4, 1), (11, 1)])), (5, (1, [(1, 3), (2, 2), (16, 1)]))] 0 (1, [(1, 1), (4, 1), (8, 1), (16, 1)]),
      .no [(0, (1, [(8, 1), (11, 1)])), (2, (1, [(1, 2), (11, 1), (18, 2)])), (3, (1, [(2, 2), (4, 1), (11, 1), (18, 2)])), (4, (1, [(4, 1), (11, 1)])), (5, (1, [(1, 1), (11, 1), (16, 1), (18, 1)]))] 0 (1, [(4, 1), (11, 1), (18, 2)]),
      .no [(0, (1, [(8, 1), (11, 1)])), (1, (1, [(4, 1), (20, 1)])), (2, (1, [(11, 1), (18, 2)])), (3, (1, [(8, 1), (16, 2)])), (4, (1, [(4, 1), (11, 1)])), (5, (1, [(1, 2), (8, 1), (11, 1), (16, 2)]))] 0 (1, [(9, 1), (11, 1), (16, 2), (18, 2)]),
      .no [(0, (1, [(8, 1), (11, 1)])), (2, (1, [(1, 4), (8, 2), (11, 1), (16, 2)])), (3, (1, [(1, 2), (2, 2), (8, 1), (16, 2)])), (4, (1, [(4, 1), (11, 1)])), (5, (1, [(1, 4), (2, 2), (8, 1), (11, 1), (16, 2)]))] 0 (1, [(1, 2), (8, 1), (16, 2)]),
      .no [(0, (1, [(8, 1), (11, 1)])), (2, (1, [(1, 2), (3, 1), (18, 1)])), (3, (3, [(2, 6), (4, 3), (11, 1), (18, 2)])), (4, (1, [(4, 1), (11, 1)])), (5, (3, [(1, 6), (2, 6), (4, 3), (11, 4), (18, 2)]))] 0 (3, [(4, 3), (11, 1), (18, 2)]),
      .no [(0, (1, [(8, 1), (11, 1)])), (1, (1, [(4, 1), (6, 1), (18, 2), (20, 1)])), (2, (1, [(1, 1), (3, 1), (18, 1)])), (3, (2, [(2, 4), (4, 2), (6, 1), (11, 1), (18, 2)])), (4, (1, [(4, 1), (11, 1)])), (5, (3, [(1, 4), (2, 6), (4, 3), (11, 4), (18, 2)]))] 0 (2, [(2, 2), (4, 3), (9, 1), (11, 2), (18, 2)]),
      .no [(0, (1, [(8, 1), (11, 1)])), (2, (1, [(3, 1), (18, 1)])), (3, (3, [(2, 6), (8, 1), (11, 2), (16, 4), (18, 2)])), (4, (1, [(4, 1), (11, 1)])), (5, (3, [(1, 2), (2, 6), (4, 3), (11, 4), (18, 2)]))] 0 (3, [(8, 1), (11, 2), (16, 4), (18, 2)]),
      .no [(0, (1, [(8, 1), (11, 1)])), (2, (1, [(1, 2), (19, 1)])), (3, (1, [(2, 2), (4, 1), (19, 1)])), (4, (1, [(4, 1), (11, 1)])), (5, (2, [(1, 2), (4, 2), (11, 1), (16, 2), (19, 1)]))] 0 (1, [(4, 1), (19, 1)]),
      .no [(0, (1, [(8, 1), (11, 1)])), (1, (1, [(20, 1)])), (2, (1, [(1, 3), (19, 1)])), (3, (1, [(4, 2), (8, 1), (16, 2)])), (4, (1, [(4, 1), (11, 1)])), (5, (1, [(1, 2), (4, 1), (16, 2)]))] 0 (1, [(1, 1), (4, 1), (19, 1)]),
      .no [(0, (1, [(8, 1), (11, 1)])), (2, (1, [(1, 4), (4, 1), (8, 1), (16, 2)])), (3, (1, [(1, 2), (2, 2), (4, 2), (8, 1), (16, 2)])), (4, (1, [(4, 1), (11, 1)])), (5, (1, [(1, 4), (2, 2), (4, 1), (16, 2)]))] 0 (1, [(1, 2), (4, 2), (8, 1), (16, 2)]),
      .yes [(0, (1, [(8, 1), (11, 1)])), (4, (1, [(4, 1), (11, 1)]))] 12 [((1, [(8, 1), (11, 1)]), (1, [(4, 1)])), ((1, [(2, 2), (17, 1)]), (1, [(1, 1)])), ((2, [(1, 1), (17, 1)]), (1, [(2, 1)])), ((1, [(8, 1)]), (1, [(4, 1), (11, 1)]))],
      .no [(0, (1, [(8, 1), (11, 1)])), (1, (1, [(0, 1), (4, 1), (20, 1)])), (2, (1, [(1, 2), (5, 1), (20, 1)])), (3, (1, [(2, 2), (4, 1), (5, 1), (20, 1)])), (4, (1, [(4, 1), (11, 1)])), (5, (1, [(1, 2), (2, 2), (4, 1), (5, 1), (11, 1), (20, 1)]))] 0 (1, [(4, 1), (5, 1), (20, 1)]),
      .yes [(0, (1, [(8, 1), (11, 1)])), (4, (1, [(4, 1), (11, 1)]))] 12 [((1, [(8, 1), (11, 1)]), (1, [(4, 1)])), ((1, [(16, 1)]), (1, [(1, 1)])), ((1, [(23, 1)]), (1, [(2, 1)])), ((1, [(8, 1)]), (1, [(4, 1), (11, 1)]))],
      .no [(0, (1, [(8, 1), (11, 1)])), (2, (1, [(1, 4), (2, 4), (4, 1), (8, 1), (17, 2)])), (3, (1, [(1, 2), (2, 6), (4, 2), (8, 1), (17, 2)])), (4, (1, [(4, 1), (11, 1)])), (5, (1, [(1, 4), (2, 6), (4, 1), (17, 2)]))] 0 (1, [(1, 2), (2, 4), (4, 2), (8, 1), (17, 2)]),
      .no [(0, (1, [(8, 1), (11, 1)])), (1, (1, [(20, 1)])), (2, (1, [(1, 2), (2, 2), (4, 1), (8, 1), (17, 2)])), (3, (1, [(2, 4), (4, 2), (8, 1), (17, 2)])), (4, (1, [(4, 1), (11, 1)])), (5, (1, [(1, 2), (2, 4), (4, 1), (17, 2)]))] 0 (1, [(2, 2), (4, 2), (8, 1), (17, 2)]),
      .no [(0, (1, [(8, 1), (11, 1)])), (2, (1, [(4, 1), (8, 1), (17, 2)])), (3, (1, [(4, 2), (8, 1), (17, 2), (22, 2)])), (4, (1, [(4, 1), (11, 1)])), (5, (1, [(2, 2), (4, 1), (17, 2)]))] 0 (1, [(4, 3), (8, 1), (9, 1), (17, 4), (22, 2)]),
      .no [(0, (1, [(8, 1), (11, 1)])), (2, (3, [(1, 6), (11, 1), (19, 2)])), (3, (3, [(1, 3), (2, 12), (11, 1), (17, 3), (19, 2)])), (4, (1, [(4, 1), (11, 1)])), (5, (3, [(1, 6), (2, 6), (4, 3), (11, 4), (19, 2)]))] 0 (3, [(1, 3), (2, 6), (11, 1), (17, 3), (19, 2)]),
      .no [(0, (1, [(8, 1), (11, 1)])), (1, (3, [(1, 4), (4, 4), (8, 1), (19, 4), (20, 3)])), (2, (3, [(1, 8), (11, 1), (19, 2)])), (3, (3, [(1, 2), (2, 6), (4, 3), (11, 1), (19, 2)])), (4, (1, [(4, 1), (11, 1)])), (5, (3, [(1, 8), (2, 6), (4, 3), (11, 4), (19, 2)]))] 0 (3, [(1, 2), (4, 3), (11, 1), (19, 2)]),
      .no [(0, (1, [(8, 1), (11, 1)])), (2, (1, [(1, 4), (3, 1), (19, 1)])), (3, (3, [(1, 4), (2, 6), (4, 3), (11, 1), (19, 2)])), (4, (1, [(4, 1), (11, 1)])), (5, (3, [(1, 10), (2, 6), (4, 3), (11, 4), (19, 2)]))] 0 (3, [(1, 4), (4, 3), (11, 1), (19, 2)]),
      .no [(0, (1, [(8, 1), (11, 1)])), (2, (1, [(1, 4), (2, 4), (8, 2), (11, 1), (17, 2)])), (3, (1, [(1, 2), (2, 6), (8, 1), (17, 2)])), (4, (1, [(4, 1), (11, 1)])), (5, (1, [(1, 4), (2, 6), (8, 1), (11, 1), (17, 2)]))] 0 (1, [(1, 2), (2, 4), (8, 1), (17, 2)]),
      .no [(0, (1, [(8, 1), (11, 1)])), (1, (1, [(4, 1), (20, 1)])), (2, (1, [(1, 2), (2, 2), (8, 2), (11, 1), (17, 2)])), (3, (1, [(2, 4), (8, 1), (17, 2)])), (4, (1, [(4, 1), (11, 1)])), (5, (1, [(1, 2), (2, 4), (8, 1), (11, 1), (17, 2)]))] 0 (1, [(2, 2), (8, 1), (17, 2)]),
      .no [(0, (1, [(8, 1), (11, 1)])), (2, (1, [(8, 2), (11, 1), (17, 2)])), (3, (1, [(1, 4), (2, 2), (4, 1), (11, 1), (19, 2)])), (4, (1, [(4, 1), (11, 1)])), (5, (1, [(2, 2), (8, 1), (11, 1), (17, 2)]))] 0 (1, [(1, 4), (4, 1), (11, 1), (19, 2)]),
      .no [(0, (1, [(8, 1), (11, 1)])), (2, (1, [(1, 3), (2, 2), (8, 1), (17, 1)])), (3, (1, [(1, 1), (2, 4), (4, 1), (8, 1), (17, 1)])), (4, (1, [(4, 1), (11, 1)])), (5, (1, [(1, 3), (2, 4), (17, 1)]))] 0 (1, [(1, 1), (2, 2), (4, 1), (8, 1), (17, 1)]),
      .no [(0, (1, [(8, 1), (11, 1)])), (1, (1, [(4, 1), (11, 1), (20, 1)])), (2, (1, [(1, 2), (2, 1), (8, 1), (17, 1)])), (3, (1, [(2, 3), (4, 1), (8, 1), (17, 1)])), (4, (1, [(4, 1), (11, 1)])), (5, (1, [(1, 2), (2, 3), (17, 1)]))] 0 (1, [(2, 1), (4, 1), (8, 1), (17, 1)]),
      .no [(0, (1, [(8, 1), (11, 1)])), (2, (1, [(1, 1), (8, 1), (17, 1)])), (3, (1, [(2, 2), (4, 1), (6, 1), (8, 2), (17, 2)])), (4, (1, [(4, 1), (11, 1)])), (5, (1, [(1, 1), (2, 2), (17, 1)]))] 0 (1, [(2, 2), (4, 1), (8, 1), (9, 1), (17, 2)])],
    .no [(0, (1, [(8, 1), (11, 1)])), (1, (1, [(0, 1), (1, 2), (4, 1), (15, 1)])), (2, (1, [(1, 4), (5, 1), (15, 1)])), (3, (1, [(1, 2), (2, 2), (4, 1), (5, 1), (15, 1)])), (4, (1, [(4, 1), (11, 1)])), (5, (1, [(1, 4), (2, 2), (4, 1), (5, 1), (11, 1), (15, 1)]))] 0 (1, [(1, 2), (4, 1), (5, 1), (15, 1)]),
    .no [(0, (1, [(8, 1), (11, 1)])), (1, (1, [(15, 1)])), (2, (1, [(1, 4), (2, 2), (11, 1), (13, 2)])), (3, (1, [(1, 2), (2, 4), (4, 1), (11, 1), (13, 2)])), (4, (1, [(4, 1), (11, 1)])), (5, (1, [(1, 4), (2, 4), (4, 1), (11, 2), (13, 2)]))] 0 (1, [(1, 2), (2, 2), (4, 1), (11, 1), (13, 2)]),
    .no [(0, (1, [(8, 1), (11, 1)])), (2, (1, [(1, 2), (11, 1), (13, 2)])), (3, (1, [(2, 2), (4, 1), (11, 1), (13, 2)])), (4, (1, [(4, 1), (11, 1)])), (5, (1, [(1, 2), (2, 2), (4, 1), (11, 2), (13, 2)]))] 0 (1, [(4, 1), (11, 1), (13, 2)]),
    .no [(0, (1, [(8, 1), (11, 1)])), (1, (1, [(15, 1)])), (4, (1, [(4, 1), (11, 1)])), (5, (1, [(4, 1), (11, 2), (13, 2)])), (2, (1, [(11, 1), (13, 2), (18, 2)])), (3, (1, [(4, 1), (11, 1), (13, 2), (16, 2), (18, 2)]))] 0 (1, [(4, 1), (11, 1), (13, 2), (16, 2), (18, 4)]),
    .no [(0, (1, [(8, 1), (11, 1)])), (1, (1, [(0, 1), (1, 2), (4, 1), (15, 1)])), (2, (1, [(1, 3), (2, 1), (13, 1)])), (3, (1, [(1, 1), (2, 3), (4, 1), (13, 1)])), (4, (1, [(4, 1), (11, 1)])), (5, (1, [(1, 3), (2, 3), (4, 1), (11, 1), (13, 1)]))] 0 (1, [(1, 1), (2, 1), (4, 1), (13, 1)]),
    .no [(0, (1, [(8, 1), (11, 1)])), (2, (1, [(1, 2), (13, 1)])), (3, (1, [(2, 2), (4, 1), (13, 1)])), (4, (1, [(4, 1), (11, 1)])), (5, (1, [(1, 2), (2, 2), (4, 1), (11, 1), (13, 1)]))] 0 (1, [(4, 1), (13, 1)]),
    .no [(0, (1, [(8, 1), (11, 1)])), (1, (1, [(6, 1), (15, 1)])), (2, (1, [(4, 1), (7, 1), (13, 2)])), (3, (1, [(4, 1), (6, 1), (13, 2)])), (4, (1, [(4, 1), (11, 1)])), (5, (1, [(1, 1), (2, 1), (4, 1), (11, 1), (13, 1)]))] 0 (1, [(4, 2), (9, 1), (11, 1), (13, 2)]),
    .no [(0, (1, [(8, 1), (11, 1)])), (1, (1, [(0, 1), (2, 2), (3, 2), (6, 1), (15, 1)])), (2, (1, [(1, 4), (2, 2), (8, 2), (11, 3), (13, 2)])), (3, (1, [(1, 2), (2, 4), (8, 1), (11, 2), (13, 2)])), (4, (1, [(4, 1), (11, 1)])), (5, (1, [(1, 4), (2, 4), (8, 1), (11, 3), (13, 2)]))] 0 (1, [(1, 2), (2, 2), (8, 1), (11, 2), (13, 2)]),
    .no [(0, (1, [(8, 1), (11, 1)])), (2, (1, [(1, 2), (8, 2), (11, 3), (13, 2)])), (3, (1, [(2, 2), (8, 1), (11, 2), (13, 2)])), (4, (1, [(4, 1), (11, 1)])), (5, (1, [(1, 2), (2, 2), (8, 1), (11, 3), (13, 2)]))] 0 (1, [(8, 1), (11, 2), (13, 2)]),
    .no [(0, (1, [(8, 1), (11, 1)])), (1, (1, [(0, 1), (1, 2), (3, 2), (4, 1), (7, 1), (15, 1)])), (2, (1, [(1, 4), (3, 2), (5, 1), (7, 1), (15, 1)])), (3, (2, [(1, 2), (2, 2), (3, 2), (4, 1), (5, 1), (15, 1)])), (4, (1, [(4, 1), (11, 1)])), (5, (1, [(8, 1), (11, 3), (13, 2)]))] 0 (2, [(1, 4), (4, 2), (5, 1), (9, 1), (11, 2), (15, 1)]),
    .no [(0, (1, [(8, 1), (11, 1)])), (1, (1, [(0, 1), (2, 2), (15, 1)])), (2, (1, [(1, 3), (2, 1), (8, 1), (11, 1), (13, 1)])), (3, (1, [(1, 1), (2, 3), (13, 1)])), (4, (1, [(4, 1), (11, 1)])), (5, (1, [(1, 3), (2, 3), (11, 1), (13, 1)]))] 0 (1, [(1, 1), (2, 1), (13, 1)]),
    .no [(0, (1, [(8, 1), (11, 1)])), (2, (1, [(1, 2), (8, 1), (11, 1), (13, 1)])), (3, (1, [(2, 2), (13, 1)])), (4, (1, [(4, 1), (11, 1)])), (5, (1, [(1, 2), (2, 2), (11, 1), (13, 1)]))] 0 (1, [(13, 1)]),
    .no [(0, (1, [(8, 1), (11, 1)])), (1, (1, [(7, 1), (15, 1)])), (2, (1, [(7, 1), (8, 1), (11, 1), (13, 2)])), (3, (1, [(6, 1), (8, 1), (11, 1), (13, 2)])), (4, (1, [(4, 1), (11, 1)])), (5, (1, [(1, 1), (2, 1), (11, 1), (13, 1)]))] 0 (1, [(9, 1), (11, 1), (13, 2)]),
    .no [(0, (1, [(8, 1), (11, 1)])), (1, (1, [(0, 1), (1, 2), (2, 2), (4, 1), (8, 1), (15, 1)])), (2, (2, [(0, 1), (1, 6), (2, 2), (8, 1), (13, 2)])), (3, (3, [(1, 2), (2, 8), (4, 2), (8, 1), (13, 2)])), (4, (1, [(4, 1), (11, 1)])), (5, (1, [(1, 3), (2, 3), (3, 1), (13, 1)]))] 0 (3, [(1, 2), (2, 2), (4, 2), (8, 1), (13, 2)]),
    .no [(0, (1, [(8, 1), (11, 1)])), (2, (2, [(0, 1), (1, 4), (8, 1), (13, 2)])), (3, (3, [(2, 6), (4, 2), (8, 1), (13, 2)])), (4, (1, [(4, 1), (11, 1)])), (5, (1, [(1, 2), (2, 2), (3, 1), (13, 1)]))] 0 (2, [(1, 2), (2, 2), (4, 1), (9, 1), (13, 2)]),
    .no [(0, (1, [(8, 1), (11, 1)])), (1, (1, [(9, 1), (15, 1)])), (2, (2, [(1, 2), (7, 1), (8, 1), (13, 2)])), (3, (1, [(1, 2), (6, 2), (8, 1), (13, 2)])), (4, (1, [(4, 1), (11, 1)])), (5, (1, [(1, 1), (2, 1), (3, 1), (13, 1)]))] 0 (2, [(4, 1), (9, 1), (13, 2)])]

theorem treeII_12_ok : treeII_12.check false (1, 1, 0) = true := by decide +kernel

/-- All symmetries with first column `(1, 1, 1)`. -/
def treeII_13 : Tree1 :=
  .node [
    .no [(0, (1, [(5, 1), (9, 1), (11, 1)])), (1, (1, [(4, 1), (9, 1), (11, 1)])), (2, (1, [(4, 2), (5, 2), (7, 1), (8, 2), (9, 1), (12, 2)])), (3, (1, [(4, 2), (5, 2), (6, 1), (8, 2), (9, 1), (12, 2)])), (4, (2, [(4, 2), (5, 2), (6, 1), (7, 1), (9, 1), (12, 2)])), (5, (1, [(4, 1), (5, 1), (11, 1)]))] 0 (1, [(4, 2), (5, 2), (8, 1), (9, 2), (12, 2)]),
    .no [(0, (1, [(5, 1), (9, 1), (11, 1)])), (1, (1, [(4, 1), (9, 1), (11, 1)])), (4, (2, [(4, 1), (9, 1), (12, 2)])), (5, (1, [(4, 1), (5, 1), (11, 1)])), (2, (1, [(4, 1), (5, 1), (8, 1), (11, 1), (18, 2)])), (3, (1, [(4, 2), (5, 1), (8, 1), (11, 1), (16, 2), (18, 2)]))] 0 (1, [(4, 2), (5, 1), (8, 1), (11, 1), (16, 2), (18, 4)]),
    .no [(0, (1, [(5, 1), (9, 1), (11, 1)])), (1, (1, [(4, 1), (9, 1), (11, 1)])), (2, (4, [(4, 7), (5, 10), (7, 4), (11, 5), (13, 4), (15, 1)])), (3, (4, [(4, 7), (5, 10), (6, 4), (11, 5), (13, 4), (15, 1)])), (4, (8, [(4, 5), (9, 2), (11, 3), (12, 4), (15, 1)])), (5, (1, [(4, 1), (5, 1), (11, 1)]))] 0 (4, [(1, 6), (2, 6), (4, 3), (5, 5), (13, 2), (15, 3)]),
    .no [(0, (1, [(5, 1), (9, 1), (11, 1)])), (1, (1, [(4, 1), (9, 1), (11, 1)])), (3, (1, [(4, 1), (5, 2), (8, 1), (9, 1), (12, 2)])), (4, (1, [(4, 1), (5, 2), (7, 1), (9, 1), (12, 2)])), (5, (1, [(4, 1), (5, 1), (11, 1)])), (2, (1, [(4, 1), (5, 1), (7, 1), (11, 1), (18, 2)]))] 0 (1, [(4, 1), (5, 2), (7, 1), (9, 1), (12, 2), (18, 2)]),
    .node [
      .no [(0, (1, [(5, 1), (9, 1), (11, 1)])), (1, (1, [(4, 1), (9, 1), (11, 1)])), (2, (1, [(4, 1), (5, 1), (7, 1), (13, 1), (16, 1)])), (3, (2, [(4, 2), (5, 2), (6, 1), (8, 1), (9, 1), (16, 2)])), (4, (1, [(4, 1), (5, 1), (7, 1), (9, 1), (12, 1), (16, 1)])), (5, (1, [(4, 1), (5, 1), (11, 1)]))] 0 (1, [(4, 2), (5, 2), (7, 1), (9, 2), (16, 2)]),
      .no [(0, (1, [(5, 1), (9, 1), (11, 1)])), (1, (1, [(4, 1), (9, 1), (11, 1)])), (2, (1, [(4, 1), (7, 1), (13, 2), (16, 2)])), (3, (1, [(4, 1), (8, 1), (9, 1), (16, 2)])), (4, (1, [(4, 1), (7, 1), (9, 1), (16, 2)])), (5, (1, [(4, 1), (5, 1), (11, 1)]))] 0 (1, [(4, 2), (7, 1), (9, 2), (13, 2), (16, 4)]),
      .no [(0, (1, [(5, 1), (9, 1), (11, 1)])), (1, (1, [(4, 1), (9, 1), (11, 1)])), (2, (6, [(4, 8), (5, 7), (7, 2), (11, 7), (13, 8), (19, 2)])), (3, (1, [(1, 2), (2, 4), (8, 1), (19, 2)])), (4, (5, [(1, 2), (7, 1), (12, 4), (19, 2)])), (5, (1, [(4, 1), (5, 1), (11, 1)]))] 0 (1, [(1, 2), (2, 2), (8, 1), (19, 2)]),
      .no [(0, (1, [(5, 1), (9, 1), (11, 1)])), (1, (1, [(4, 1), (9, 1), (11, 1)])), (2, (3, [(4, 5), (5, 4), (7, 3), (11, 4), (13, 4), (19, 2)])), (3, (2, [(4, 1), (5, 2), (9, 1), (16, 2)])), (4, (1, [(1, 1), (7, 1), (12, 1), (19, 1)])), (5, (1, [(4, 1), (5, 1), (11, 1)]))] 0 (1, [(1, 2), (7, 1), (19, 2)]),
      .no [(0, (1, [(5, 1), (9, 1), (11, 1)])), (1, (1, [(4, 1), (9, 1), (11, 1)])), (2, (8, [(4, 10), (5, 9), (11, 9), (13, 6), (17, 6), (19, 2)])), (3, (3, [(1, 1), (13, 2), (16, 4), (19, 1)])), (4, (3, [(1, 1), (12, 4), (17, 2), (19, 1)])), (5, (1, [(4, 1), (5, 1), (11, 1)]))] 0 (1, [(1, 1), (19, 1)]),
      .no [(0, (1, [(5, 1), (9, 1), (11, 1)])), (1, (1, [(4, 1), (9, 1), (11, 1)])), (2, (2, [(4, 2), (5, 3), (11, 1), (17, 2)])), (3, (1, [(1, 1), (2, 3), (19, 1)])), (4, (2, [(4, 1), (5, 2), (9, 1), (12, 4), (17, 2)])), (5, (1, [(4, 1), (5, 1), (11, 1)]))] 0 (1, [(1, 1), (2, 1), (19, 1)]),
      .no [(0, (1, [(5, 1), (9, 1), (11, 1)])), (1, (1, [(4, 1), (9, 1), (11, 1)])), (2, (8, [(4, 10), (5, 5), (11, 9), (13, 8), (17, 4), (19, 2)])), (3, (2, [(1, 1), (3, 1), (5, 1), (16, 1), (19, 1)])), (4, (8, [(4, 5), (9, 3), (11, 4), (12, 8), (17, 4), (19, 2)])), (5, (1, [(4, 1), (5, 1), (11, 1)]))] 0 (3, [(1, 4), (7, 3), (12, 2), (19, 4)]),
      .no [(0, (1, [(5, 1), (9, 1), (11, 1)])), (1, (1, [(4, 1), (9, 1), (11, 1)])), (2, (18, [(4, 20), (5, 15), (11, 15), (13, 14), (17, 8), (19, 2)])), (3, (14, [(1, 6), (5, 5), (11, 5), (13, 2), (16, 10), (19, 6)])), (4, (18, [(4, 5), (9, 3), (12, 22), (17, 8), (19, 2)])), (5, (1, [(4, 1), (5, 1), (11, 1)]))] 0 (1, [(1, 1), (3, 1), (19, 1)]),
      .no [(0, (1, [(5, 1), (9, 1), (11, 1)])), (1, (1, [(4, 1), (9, 1), (11, 1)])), (2, (2, [(4, 2), (5, 2), (11, 1), (13, 1), (17, 1)])), (3, (1, [(1, 1), (2, 3), (3, 1), (19, 1)])), (4, (2, [(4, 1), (5, 1), (9, 1), (12, 3), (17, 1)])), (5, (1, [(4, 1), (5, 1), (11, 1)]))] 0 (1, [(1, 1), (2, 1), (3, 1), (19, 1)]),
      .no [(0, (1, [(5, 1), (9, 1), (11, 1)])), (1, (1, [(4, 1), (9, 1), (11, 1)])), (2, (1, [(4, 2), (5, 2), (7, 1), (9, 1), (16, 2)])), (3, (1, [(4, 2), (5, 2), (6, 1), (9, 1), (16, 2)])), (4, (1, [(4, 2), (5, 2), (7, 1), (9, 2), (12, 2), (16, 2)])), (5, (1, [(4, 1), (5, 1), (11, 1)]))] 0 (1, [(4, 4), (5, 4), (7, 1), (9, 4), (12, 2), (16, 4)]),
      .yes [(0, (1, [(5, 1), (9, 1), (11, 1)])), (1, (1, [(4, 1), (9, 1), (11, 1)])), (5, (1, [(4, 1), (5, 1), (11, 1)]))] 5 [((1, [(5, 1), (9, 1), (11, 1)]), (1, [(4, 1)])), ((1, [(4, 1), (9, 1), (11, 1)]), (1, [(5, 1)])), ((1, [(5, 1), (9, 2), (11, 1), (12, 1), (22, 1)]), (2, [(4, 6), (5, 3), (11, 3), (13, 4), (23, 2)])), ((1, [(13, 1), (23, 2)]), (1, [(4, 2), (5, 1), (11, 1), (13, 1), (22, 2)])), ((2, [(4, 2), (5, 1), (11, 1), (13, 4), (22, 2)]), (1, [(12, 1), (23, 1)]))],
      .no [(0, (1, [(5, 1), (9, 1), (11, 1)])), (1, (1, [(4, 1), (9, 1), (11, 1)])), (2, (1, [(4, 1), (5, 3), (7, 1), (11, 1), (17, 2)])), (3, (1, [(4, 1), (5, 3), (6, 1), (11, 1), (17, 2)])), (4, (1, [(5, 2), (7, 1), (12, 2), (17, 2)])), (5, (1, [(4, 1), (5, 1), (11, 1)]))] 0 (1, [(5, 4), (7, 1), (12, 2), (17, 4)]),
      .yes [(0, (1, [(5, 1), (9, 1), (11, 1)])), (1, (1, [(4, 1), (9, 1), (11, 1)])), (5, (1, [(4, 1), (5, 1), (11, 1)]))] 5 [((1, [(5, 1), (9, 1), (11, 1)]), (1, [(4, 1)])), ((1, [(4, 1), (9, 1), (11, 1)]), (1, [(5, 1)])), ((1, [(5, 2), (9, 3), (11, 1), (12, 2), (16, 1)]), (1, [(4, 3), (5, 1), (11, 2), (13, 2), (17, 1)])), ((1, [(4, 1), (9, 1), (11, 2), (13, 1), (17, 2)]), (1, [(4, 1), (5, 2), (9, 1), (12, 1), (16, 2)])), ((2, [(4, 1), (5, 2), (9, 1), (13, 2), (16, 2)]), (2, [(4, 1), (9, 1), (11, 2), (12, 2), (17, 2)]))],
      .no [(0, (1, [(5, 1), (9, 1), (11, 1)])), (1, (1, [(4, 1), (9, 1), (11, 1)])), (2, (1, [(4, 1), (5, 1), (11, 1), (13, 1), (17, 1)])), (3, (1, [(4, 2), (5, 1), (8, 1), (11, 1), (19, 2)])), (4, (1, [(12, 1), (17, 1)])), (5, (1, [(4, 1), (5, 1), (11, 1)]))] 0 (1, [(4, 4), (5, 2), (7, 1), (11, 2), (13, 2), (19, 4)]),
      .no [(0, (1, [(5, 1), (9, 1), (11, 1)])), (1, (1, [(4, 1), (9, 1), (11, 1)])), (2, (3, [(4, 3), (5, 4), (7, 1), (11, 2), (13, 2), (17, 2)])), (3, (1, [(2, 2), (4, 1), (5, 2), (6, 1), (17, 2)])), (4, (1, [(1, 1), (5, 1), (9, 1), (12, 2), (17, 1)])), (5, (1, [(4, 1), (5, 1), (11, 1)]))] 0 (1, [(4, 1), (5, 2), (6, 1), (17, 2)]),
      .no [(0, (1, [(5, 1), (9, 1), (11, 1)])), (1, (1, [(4, 1), (9, 1), (11, 1)])), (2, (6, [(4, 8), (5, 3), (11, 7), (13, 8), (17, 4), (19, 2)])), (3, (2, [(4, 2), (5, 1), (11, 1), (19, 2)])), (4, (6, [(4, 5), (9, 3), (11, 4), (12, 4), (17, 4), (19, 2)])), (5, (1, [(4, 1), (5, 1), (11, 1)]))] 0 (6, [(4, 13), (9, 3), (11, 8), (13, 4), (17, 8), (19, 10)]),
      .no [(0, (1, [(5, 1), (9, 1), (11, 1)])), (1, (1, [(4, 1), (9, 1), (11, 1)])), (2, (4, [(4, 4), (5, 3), (11, 3), (13, 4), (17, 2)])), (3, (2, [(2, 2), (4, 2), (5, 1), (11, 1), (19, 2)])), (4, (4, [(4, 1), (9, 1), (12, 4), (17, 2)])), (5, (1, [(4, 1), (5, 1), (11, 1)]))] 0 (1, [(4, 2), (5, 1), (7, 1), (11, 1), (19, 2)]),
      .no [(0, (1, [(5, 1), (9, 1), (11, 1)])), (1, (1, [(4, 1), (9, 1), (11, 1)])), (2, (5, [(4, 5), (5, 5), (7, 1), (11, 3), (13, 4), (17, 2)])), (3, (1, [(2, 2), (4, 2), (5, 2), (6, 2), (8, 1), (17, 2)])), (4, (4, [(1, 2), (4, 1), (5, 2), (9, 3), (12, 6), (17, 2)])), (5, (1, [(4, 1), (5, 1), (11, 1)]))] 0 (1, [(4, 2), (5, 2), (6, 2), (8, 1), (17, 2)]),
      .no [(0, (1, [(5, 1), (9, 1), (11, 1)])), (1, (1, [(4, 1), (9, 1), (11, 1)])), (2, (6, [(4, 4), (5, 5), (7, 2), (11, 5), (13, 4), (18, 2)])), (3, (2, [(2, 4), (5, 1), (6, 2), (11, 1), (18, 2)])), (4, (6, [(5, 1), (7, 2), (9, 2), (11, 1), (12, 8), (18, 2)])), (5, (1, [(4, 1), (5, 1), (11, 1)]))] 0 (2, [(5, 1), (6, 2), (11, 1), (18, 2)]),
      .no [(0, (1, [(5, 1), (9, 1), (11, 1)])), (1, (1, [(4, 1), (9, 1), (11, 1)])), (2, (1, [(4, 1), (5, 2), (7, 1), (11, 2), (13, 2), (17, 2)])), (3, (1, [(5, 1), (8, 1), (11, 1), (17, 2)])), (4, (1, [(5, 1), (7, 1), (11, 1), (17, 2)])), (5, (1, [(4, 1), (5, 1), (11, 1)]))] 0 (1, [(5, 2), (7, 1), (11, 2), (13, 2), (17, 4)]),
      .no [(0, (1, [(5, 1), (9, 1), (11, 1)])), (1, (1, [(4, 1), (9, 1), (11, 1)])), (2, (1, [(4, 1), (5, 2), (7, 1), (11, 1), (13, 1), (17, 1)])), (3, (1, [(2, 1), (5, 1), (17, 1)])), (4, (1, [(5, 1), (7, 1), (12, 1), (17, 1)])), (5, (1, [(4, 1), (5, 1), (11, 1)]))] 0 (1, [(5, 2), (7, 1), (17, 2)]),
      .no [(0, (1, [(5, 1), (9, 1), (11, 1)])), (1, (1, [(4, 1), (9, 1), (11, 1)])), (2, (2, [(4, 2), (5, 1), (11, 3), (13, 4), (17, 2)])), (3, (1, [(2, 2), (5, 1), (6, 2), (8, 1), (11, 1), (18, 2)])), (4, (2, [(4, 1), (9, 1), (11, 2), (17, 2)])), (5, (1, [(4, 1), (5, 1), (11, 1)]))] 0 (1, [(2, 2), (5, 1), (6, 1), (9, 1), (11, 1), (18, 2)]),
      .no [(0, (1, [(5, 1), (9, 1), (11, 1)])), (1, (1, [(4, 1), (9, 1), (11, 1)])), (2, (3, [(4, 3), (5, 3), (7, 1), (11, 3), (13, 4), (17, 2)])), (3, (1, [(2, 2), (8, 1), (17, 2)])), (4, (3, [(7, 1), (12, 2), (17, 2)])), (5, (1, [(4, 1), (5, 1), (11, 1)]))] 0 (1, [(8, 1), (17, 2)]),
      .no [(0, (1, [(5, 1), (9, 1), (11, 1)])), (1, (1, [(4, 1), (9, 1), (11, 1)])), (2, (4, [(4, 4), (5, 5), (7, 2), (11, 3), (13, 4), (17, 2)])), (3, (1, [(1, 2), (5, 2), (6, 2), (8, 1), (17, 2)])), (4, (3, [(1, 2), (5, 2), (7, 1), (9, 2), (12, 4), (17, 2)])), (5, (1, [(4, 1), (5, 1), (11, 1)]))] 0 (1, [(1, 2), (5, 2), (6, 1), (9, 1), (17, 2)]),
      .no [(0, (1, [(5, 1), (9, 1), (11, 1)])), (1, (1, [(4, 1), (9, 1), (11, 1)])), (2, (2, [(4, 2), (5, 1), (11, 2), (13, 3), (17, 1)])), (3, (1, [(1, 2), (2, 4), (4, 1), (8, 1), (21, 1)])), (4, (2, [(4, 1), (9, 1), (11, 1), (12, 1), (17, 1)])), (5, (1, [(4, 1), (5, 1), (11, 1)]))] 0 (1, [(1, 2), (2, 2), (4, 1), (8, 1), (21, 1)]),
      .no [(0, (1, [(5, 1), (9, 1), (11, 1)])), (1, (1, [(4, 1), (9, 1), (11, 1)])), (2, (5, [(4, 5), (5, 4), (7, 1), (11, 4), (13, 6), (17, 2)])), (3, (1, [(2, 2), (4, 1), (6, 1), (8, 2), (17, 2)])), (4, (2, [(1, 1), (9, 1), (12, 2), (17, 1)])), (5, (1, [(4, 1), (5, 1), (11, 1)]))] 0 (1, [(2, 2), (4, 1), (8, 1), (9, 1), (17, 2)]),
      .no [(0, (1, [(5, 1), (9, 1), (11, 1)])), (1, (1, [(4, 1), (9, 1), (11, 1)])), (2, (3, [(4, 3), (5, 3), (7, 1), (11, 2), (13, 3), (17, 1)])), (3, (1, [(2, 1), (4, 1), (5, 1), (6, 1), (8, 1), (17, 1)])), (4, (2, [(1, 2), (5, 1), (9, 2), (12, 3), (17, 1)])), (5, (1, [(4, 1), (5, 1), (11, 1)]))] 0 (1, [(2, 1), (4, 1), (5, 1), (9, 1), (17, 1)])],
    .no [(0, (1, [(5, 1), (9, 1), (11, 1)])), (1, (1, [(4, 1), (9, 1), (11, 1)])), (2, (6, [(4, 6), (5, 9), (7, 3), (11, 4), (13, 4), (15, 1)])), (3, (3, [(4, 6), (5, 9), (6, 6), (11, 4), (13, 4), (15, 1)])), (4, (3, [(11, 1), (12, 2), (15, 1)])), (5, (1, [(4, 1), (5, 1), (11, 1)]))] 0 (1, [(2, 2), (5, 1), (15, 1)]),
    .no [(0, (1, [(5, 1), (9, 1), (11, 1)])), (1, (1, [(4, 1), (9, 1), (11, 1)])), (2, (6, [(4, 9), (8, 2), (11, 7), (13, 8), (15, 1)])), (3, (5, [(1, 2), (4, 1), (5, 5), (8, 1), (12, 4), (15, 1)])), (4, (1, [(1, 2), (3, 4), (4, 1), (5, 1), (7, 1), (15, 1)])), (5, (1, [(4, 1), (5, 1), (11, 1)]))] 0 (1, [(1, 2), (3, 2), (4, 1), (5, 1), (7, 1), (15, 1)]),
    .no [(0, (1, [(5, 1), (9, 1), (11, 1)])), (1, (1, [(4, 1), (9, 1), (11, 1)])), (2, (2, [(4, 2), (5, 1), (11, 1), (13, 2)])), (3, (1, [(1, 2), (5, 1), (6, 2), (11, 1), (15, 1)])), (4, (1, [(3, 4), (15, 1)])), (5, (1, [(4, 1), (5, 1), (11, 1)]))] 0 (1, [(3, 2), (15, 1)]),
    .no [(0, (1, [(5, 1), (9, 1), (11, 1)])), (1, (1, [(4, 1), (9, 1), (11, 1)])), (2, (1, [(3, 1), (4, 1), (5, 1), (13, 1)])), (3, (1, [(4, 3), (5, 3), (6, 3), (11, 1), (13, 2)])), (4, (1, [(1, 2), (3, 2), (5, 2), (6, 3), (11, 1), (15, 1)])), (5, (1, [(4, 1), (5, 1), (11, 1)]))] 0 (1, [(1, 2), (5, 2), (6, 3), (11, 1), (15, 1)]),
    .no [(0, (1, [(5, 1), (9, 1), (11, 1)])), (1, (1, [(4, 1), (9, 1), (11, 1)])), (2, (1, [(4, 2), (5, 2), (8, 1), (9, 1), (12, 2)])), (3, (1, [(4, 3), (5, 2), (8, 1), (9, 1), (12, 2), (16, 2)])), (4, (1, [(4, 2), (5, 2), (6, 1), (9, 1), (12, 2)])), (5, (1, [(4, 1), (5, 1), (11, 1)]))] 0 (1, [(4, 5), (5, 4), (8, 1), (9, 3), (12, 4), (16, 2)]),
    .node [
      .no [(0, (1, [(5, 1), (9, 1), (11, 1)])), (1, (1, [(4, 1), (9, 1), (11, 1)])), (2, (1, [(4, 2), (5, 2), (7, 2), (8, 1), (9, 1), (16, 2)])), (3, (3, [(4, 1), (5, 2), (6, 1), (13, 2), (16, 2)])), (4, (3, [(4, 4), (5, 2), (6, 1), (9, 3), (12, 4), (16, 2)])), (5, (1, [(4, 1), (5, 1), (11, 1)]))] 0 (1, [(4, 2), (5, 2), (7, 1), (9, 2), (16, 2)]),
      .no [(0, (1, [(5, 1), (9, 1), (11, 1)])), (1, (1, [(4, 1), (9, 1), (11, 1)])), (2, (1, [(1, 4), (4, 1), (8, 1), (19, 2)])), (3, (1, [(13, 1), (16, 1)])), (4, (1, [(4, 1), (9, 1), (12, 1), (16, 1)])), (5, (1, [(4, 1), (5, 1), (11, 1)]))] 0 (1, [(1, 3), (4, 1), (13, 1), (19, 2)]),
      .no [(0, (1, [(5, 1), (9, 1), (11, 1)])), (1, (1, [(4, 1), (9, 1), (11, 1)])), (2, (8, [(4, 14), (5, 21), (11, 7), (12, 6), (17, 14), (19, 2)])), (3, (3, [(1, 5), (4, 1), (11, 2), (13, 5), (16, 2), (19, 2)])), (4, (8, [(4, 9), (9, 3), (11, 2), (12, 6), (16, 2), (19, 2)])), (5, (1, [(4, 1), (5, 1), (11, 1)]))] 0 (1, [(1, 5), (4, 1), (13, 1), (19, 2)]),
      .no [(0, (1, [(5, 1), (9, 1), (11, 1)])), (1, (1, [(4, 1), (9, 1), (11, 1)])), (2, (1, [(4, 1), (5, 1), (7, 1), (11, 1), (18, 2)])), (3, (2, [(4, 1), (5, 2), (9, 1), (16, 2)])), (4, (2, [(4, 3), (5, 2), (9, 3), (12, 4), (16, 2)])), (5, (1, [(4, 1), (5, 1), (11, 1)]))] 0 (2, [(4, 3), (5, 2), (9, 3), (12, 4), (16, 2), (18, 4)]),
      .yes [(0, (1, [(5, 1), (9, 1), (11, 1)])), (1, (1, [(4, 1), (9, 1), (11, 1)])), (5, (1, [(4, 1), (5, 1), (11, 1)]))] 5 [((1, [(5, 1), (9, 1), (11, 1)]), (1, [(4, 1)])), ((1, [(4, 1), (9, 1), (11, 1)]), (1, [(5, 1)])), ((1, [(5, 1), (9, 3), (11, 1), (12, 1), (16, 2)]), (1, [(4, 3), (5, 2), (11, 2), (13, 1), (17, 2)])), ((2, [(4, 1), (9, 1), (12, 2), (17, 2)]), (2, [(5, 1), (11, 1), (13, 2), (16, 2)])), ((1, [(5, 1), (11, 1), (13, 2), (17, 1)]), (1, [(4, 1), (9, 1), (12, 2), (16, 1)]))],
      .no [(0, (1, [(5, 1), (9, 1), (11, 1)])), (1, (1, [(4, 1), (9, 1), (11, 1)])), (2, (2, [(4, 2), (5, 3), (11, 1), (17, 2)])), (3, (6, [(4, 8), (5, 9), (11, 7), (13, 8), (17, 2), (19, 4)])), (4, (6, [(4, 8), (5, 3), (11, 1), (12, 4), (17, 2), (19, 4)])), (5, (1, [(4, 1), (5, 1), (11, 1)]))] 0 (6, [(4, 16), (5, 15), (11, 5), (13, 4), (17, 10), (19, 8)]),
      .no [(0, (1, [(5, 1), (9, 1), (11, 1)])), (1, (1, [(4, 1), (9, 1), (11, 1)])), (2, (8, [(4, 10), (5, 5), (11, 15), (13, 14), (17, 10), (18, 2)])), (3, (3, [(3, 1), (4, 1), (5, 2), (16, 2), (18, 1)])), (4, (8, [(4, 11), (5, 6), (9, 9), (12, 18), (16, 6), (18, 2)])), (5, (1, [(4, 1), (5, 1), (11, 1)]))] 0 (1, [(3, 1), (4, 1), (18, 1)]),
      .no [(0, (1, [(5, 1), (9, 1), (11, 1)])), (1, (1, [(4, 1), (9, 1), (11, 1)])), (2, (1, [(4, 1), (5, 1), (11, 1), (13, 1), (17, 1)])), (3, (3, [(4, 3), (5, 3), (6, 3), (11, 3), (13, 2), (18, 2)])), (4, (3, [(4, 3), (6, 3), (12, 4), (18, 2)])), (5, (1, [(4, 1), (5, 1), (11, 1)]))] 0 (1, [(3, 2), (4, 1), (6, 1), (18, 2)]),
      .no [(0, (1, [(5, 1), (9, 1), (11, 1)])), (1, (1, [(4, 1), (9, 1), (11, 1)])), (2, (1, [(2, 1), (4, 1), (5, 1), (17, 1)])), (3, (1, [(4, 3), (5, 4), (6, 3), (11, 2), (13, 2), (17, 2)])), (4, (1, [(4, 3), (5, 3), (6, 3), (11, 1), (17, 2)])), (5, (1, [(4, 1), (5, 1), (11, 1)]))] 0 (1, [(4, 5), (5, 6), (6, 5), (11, 2), (13, 2), (17, 4)]),
      .no [(0, (1, [(5, 1), (9, 1), (11, 1)])), (1, (1, [(4, 1), (9, 1), (11, 1)])), (2, (1, [(4, 2), (5, 2), (7, 1), (9, 1), (16, 2)])), (3, (1, [(4, 2), (5, 2), (6, 1), (9, 1), (16, 2)])), (4, (1, [(4, 3), (5, 2), (6, 1), (9, 2), (12, 2), (16, 2)])), (5, (1, [(4, 1), (5, 1), (11, 1)]))] 0 (1, [(4, 5), (5, 4), (6, 1), (9, 4), (12, 2), (16, 4)]),
      .no [(0, (1, [(5, 1), (9, 1), (11, 1)])), (1, (1, [(4, 1), (9, 1), (11, 1)])), (2, (1, [(1, 3), (19, 1)])), (3, (3, [(4, 3), (5, 3), (6, 1), (11, 3), (13, 3), (19, 1)])), (4, (3, [(4, 3), (6, 1), (12, 3), (19, 1)])), (5, (1, [(4, 1), (5, 1), (11, 1)]))] 0 (1, [(1, 1), (4, 1), (19, 1)]),
      .no [(0, (1, [(5, 1), (9, 1), (11, 1)])), (1, (1, [(4, 1), (9, 1), (11, 1)])), (2, (1, [(4, 1), (5, 3), (7, 1), (11, 1), (17, 2)])), (3, (1, [(4, 1), (5, 3), (6, 1), (11, 1), (17, 2)])), (4, (1, [(4, 1), (5, 2), (6, 1), (12, 2), (17, 2)])), (5, (1, [(4, 1), (5, 1), (11, 1)]))] 0 (1, [(4, 1), (5, 4), (6, 1), (12, 2), (17, 4)]),
      .yes [(0, (1, [(5, 1), (9, 1), (11, 1)])), (1, (1, [(4, 1), (9, 1), (11, 1)])), (5, (1, [(4, 1), (5, 1), (11, 1)]))] 7 [((1, [(5, 1), (9, 1), (11, 1)]), (1, [(4, 1)])), ((1, [(4, 1), (9, 1), (11, 1)]), (1, [(5, 1)])), ((1, [(9, 1)]), (1, [(4, 1), (5, 1), (11, 1)])), ((2, [(5, 1), (11, 1), (13, 2)]), (2, [(4, 1), (9, 1), (12, 2)]))],
      .no [(0, (1, [(5, 1), (9, 1), (11, 1)])), (1, (1, [(4, 1), (9, 1), (11, 1)])), (2, (1, [(4, 1), (5, 1), (8, 1), (11, 1), (17, 2)])), (3, (1, [(4, 1), (5, 2), (6, 1), (11, 2), (13, 2), (17, 2)])), (4, (1, [(4, 1), (5, 1), (6, 1), (11, 1), (17, 2)])), (5, (1, [(4, 1), (5, 1), (11, 1)]))] 0 (1, [(4, 1), (5, 2), (6, 1), (11, 2), (13, 2), (17, 4)]),
      .no [(0, (1, [(5, 1), (9, 1), (11, 1)])), (1, (1, [(4, 1), (9, 1), (11, 1)])), (2, (1, [(1, 1), (5, 1), (17, 1)])), (3, (1, [(4, 1), (5, 2), (6, 1), (11, 1), (13, 1), (17, 1)])), (4, (1, [(4, 1), (5, 1), (6, 1), (12, 1), (17, 1)])), (5, (1, [(4, 1), (5, 1), (11, 1)]))] 0 (1, [(4, 1), (5, 2), (6, 1), (17, 2)]),
      .no [(0, (1, [(5, 1), (9, 1), (11, 1)])), (1, (1, [(4, 1), (9, 1), (11, 1)])), (2, (1, [(4, 1), (8, 1), (11, 2), (13, 2), (17, 2)])), (3, (1, [(4, 1), (5, 1), (6, 1), (11, 3), (13, 4), (17, 2)])), (4, (1, [(4, 1), (6, 1), (11, 2), (13, 2), (17, 2)])), (5, (1, [(4, 1), (5, 1), (11, 1)]))] 0 (1, [(4, 1), (6, 1), (11, 4), (13, 6), (17, 4)]),
      .no [(0, (1, [(5, 1), (9, 1), (11, 1)])), (1, (1, [(4, 1), (9, 1), (11, 1)])), (2, (1, [(2, 2), (4, 1), (8, 1), (17, 2)])), (3, (2, [(4, 2), (5, 3), (6, 2), (11, 3), (13, 4), (17, 2)])), (4, (1, [(2, 2), (4, 1), (6, 1), (17, 2)])), (5, (1, [(4, 1), (5, 1), (11, 1)]))] 0 (1, [(4, 1), (5, 1), (6, 1), (11, 1), (13, 2), (17, 2)]),
      .no [(0, (1, [(5, 1), (9, 1), (11, 1)])), (1, (1, [(4, 1), (9, 1), (11, 1)])), (2, (3, [(1, 2), (4, 1), (5, 2), (8, 1), (17, 2)])), (3, (3, [(4, 3), (5, 5), (6, 3), (11, 3), (13, 4), (17, 2)])), (4, (3, [(4, 3), (5, 2), (6, 3), (12, 2), (17, 2)])), (5, (1, [(4, 1), (5, 1), (11, 1)]))] 0 (3, [(4, 3), (5, 4), (6, 3), (13, 2), (17, 4)]),
      .no [(0, (1, [(5, 1), (9, 1), (11, 1)])), (1, (1, [(4, 1), (9, 1), (11, 1)])), (2, (8, [(4, 15), (5, 10), (9, 5), (12, 6), (16, 10), (19, 2)])), (3, (6, [(1, 2), (5, 3), (11, 9), (13, 8), (17, 6), (19, 2)])), (4, (8, [(4, 5), (9, 3), (11, 6), (12, 6), (17, 6), (19, 2)])), (5, (1, [(4, 1), (5, 1), (11, 1)]))] 0 (3, [(1, 7), (9, 3), (11, 6), (13, 1), (17, 6), (19, 4)]),
      .no [(0, (1, [(5, 1), (9, 1), (11, 1)])), (1, (1, [(4, 1), (9, 1), (11, 1)])), (2, (1, [(1, 3), (3, 1), (19, 1)])), (3, (1, [(5, 1), (11, 1), (13, 1), (17, 1)])), (4, (1, [(12, 1), (17, 1)])), (5, (1, [(4, 1), (5, 1), (11, 1)]))] 0 (1, [(1, 2), (3, 1), (17, 1), (19, 1)]),
      .no [(0, (1, [(5, 1), (9, 1), (11, 1)])), (1, (1, [(4, 1), (9, 1), (11, 1)])), (2, (2, [(1, 2), (5, 5), (7, 3), (8, 1), (11, 1), (17, 4)])), (3, (3, [(4, 1), (5, 4), (6, 1), (11, 2), (13, 2), (17, 2)])), (4, (2, [(4, 1), (5, 2), (6, 1), (7, 1), (12, 2), (17, 2)])), (5, (1, [(4, 1), (5, 1), (11, 1)]))] 0 (1, [(5, 2), (7, 1), (17, 2)]),
      .no [(0, (1, [(5, 1), (9, 1), (11, 1)])), (1, (1, [(4, 1), (9, 1), (11, 1)])), (2, (1, [(4, 1), (5, 1), (7, 1), (11, 1), (19, 2)])), (3, (2, [(5, 1), (11, 3), (13, 4), (17, 2)])), (4, (2, [(4, 1), (9, 1), (11, 2), (17, 2)])), (5, (1, [(4, 1), (5, 1), (11, 1)]))] 0 (1, [(1, 1), (9, 1), (11, 2), (13, 1), (17, 2), (19, 2)]),
      .no [(0, (1, [(5, 1), (9, 1), (11, 1)])), (1, (1, [(4, 1), (9, 1), (11, 1)])), (2, (2, [(1, 2), (5, 1), (7, 1), (8, 3), (11, 1), (17, 4)])), (3, (3, [(4, 1), (5, 3), (6, 1), (11, 3), (13, 4), (17, 2)])), (4, (3, [(4, 1), (6, 1), (12, 2), (17, 2)])), (5, (1, [(4, 1), (5, 1), (11, 1)]))] 0 (1, [(1, 1), (5, 1), (9, 1), (11, 1), (13, 1), (17, 2)]),
      .no [(0, (1, [(5, 1), (9, 1), (11, 1)])), (1, (1, [(4, 1), (9, 1), (11, 1)])), (2, (2, [(1, 2), (5, 2), (7, 1), (8, 1), (17, 2)])), (3, (4, [(4, 2), (5, 5), (6, 2), (11, 3), (13, 4), (17, 2)])), (4, (3, [(4, 2), (5, 2), (6, 2), (7, 1), (12, 2), (17, 2)])), (5, (1, [(4, 1), (5, 1), (11, 1)]))] 0 (1, [(1, 2), (5, 2), (6, 1), (9, 1), (17, 2)]),
      .no [(0, (1, [(5, 1), (9, 1), (11, 1)])), (1, (1, [(4, 1), (9, 1), (11, 1)])), (2, (1, [(4, 2), (8, 3), (9, 1), (11, 2), (17, 2)])), (3, (3, [(4, 1), (5, 2), (6, 1), (11, 4), (13, 6), (17, 2)])), (4, (3, [(4, 2), (6, 1), (9, 1), (11, 2), (17, 2)])), (5, (1, [(4, 1), (5, 1), (11, 1)]))] 0 (1, [(1, 1), (9, 1), (11, 2), (13, 3), (17, 2)]),
      .no [(0, (1, [(5, 1), (9, 1), (11, 1)])), (1, (1, [(4, 1), (9, 1), (11, 1)])), (2, (1, [(1, 1), (8, 1), (17, 1)])), (3, (2, [(4, 1), (5, 2), (6, 1), (11, 2), (13, 3), (17, 1)])), (4, (2, [(4, 1), (6, 1), (12, 1), (17, 1)])), (5, (1, [(4, 1), (5, 1), (11, 1)]))] 0 (1, [(13, 1), (17, 1)]),
      .no [(0, (1, [(5, 1), (9, 1), (11, 1)])), (1, (1, [(4, 1), (9, 1), (11, 1)])), (2, (3, [(1, 2), (4, 1), (5, 2), (7, 1), (8, 2), (17, 2)])), (3, (5, [(4, 3), (5, 6), (6, 3), (11, 4), (13, 6), (17, 2)])), (4, (4, [(4, 3), (5, 2), (6, 3), (7, 1), (12, 2), (17, 2)])), (5, (1, [(4, 1), (5, 1), (11, 1)]))] 0 (2, [(4, 1), (5, 2), (6, 1), (7, 1), (13, 2), (17, 2)])],
    .no [(0, (1, [(5, 1), (9, 1), (11, 1)])), (1, (1, [(4, 1), (9, 1), (11, 1)])), (2, (3, [(4, 6), (5, 9), (7, 6), (11, 4), (13, 4), (15, 1)])), (3, (6, [(4, 6), (5, 9), (6, 3), (11, 4), (13, 4), (15, 1)])), (4, (3, [(4, 3), (11, 1), (12, 2), (15, 1)])), (5, (1, [(4, 1), (5, 1), (11, 1)]))] 0 (1, [(1, 2), (4, 1), (5, 1), (15, 1)]),
    .node [
      .no [(0, (1, [(5, 1), (9, 1), (11, 1)])), (1, (1, [(4, 1), (9, 1), (11, 1)])), (2, (1, [(4, 2), (5, 2), (7, 2), (8, 1), (9, 1), (16, 2)])), (3, (2, [(4, 2), (5, 2), (6, 1), (8, 1), (9, 1), (16, 2)])), (4, (1, [(4, 2), (5, 2), (6, 1), (7, 2), (9, 1), (16, 2)])), (5, (1, [(4, 1), (5, 1), (11, 1)]))] 0 (1, [(4, 2), (5, 2), (7, 1), (9, 2), (16, 2)]),
      .no [(0, (1, [(5, 1), (9, 1), (11, 1)])), (1, (1, [(4, 1), (9, 1), (11, 1)])), (2, (1, [(4, 1), (5, 1), (8, 1), (11, 1), (18, 2)])), (3, (1, [(4, 1), (8, 1), (9, 1), (16, 2)])), (4, (1, [(4, 1), (7, 1), (9, 1), (16, 2)])), (5, (1, [(4, 1), (5, 1), (11, 1)]))] 0 (1, [(4, 1), (8, 1), (9, 1), (16, 2), (18, 2)]),
      .no [(0, (1, [(5, 1), (9, 1), (11, 1)])), (1, (1, [(4, 1), (9, 1), (11, 1)])), (2, (3, [(4, 4), (5, 7), (7, 1), (11, 3), (17, 3), (18, 1)])), (3, (1, [(2, 3), (4, 1), (5, 1), (18, 1)])), (4, (3, [(4, 3), (7, 1), (9, 2), (11, 2), (16, 3), (18, 1)])), (5, (1, [(4, 1), (5, 1), (11, 1)]))] 0 (1, [(2, 1), (4, 1), (5, 1), (18, 1)]),
      .no [(0, (1, [(5, 1), (9, 1), (11, 1)])), (1, (1, [(4, 1), (9, 1), (11, 1)])), (2, (1, [(1, 4), (4, 1), (5, 2), (7, 1), (19, 2)])), (3, (2, [(4, 1), (5, 2), (9, 1), (16, 2)])), (4, (2, [(3, 2), (4, 4), (5, 3), (7, 2), (11, 1), (19, 2)])), (5, (1, [(4, 1), (5, 1), (11, 1)]))] 0 (1, [(1, 2), (4, 2), (5, 2), (7, 1), (19, 2)]),
      .yes [(0, (1, [(5, 1), (9, 1), (11, 1)])), (1, (1, [(4, 1), (9, 1), (11, 1)])), (5, (1, [(4, 1), (5, 1), (11, 1)]))] 6 [((1, [(5, 1), (9, 1), (11, 1)]), (1, [(4, 1)])), ((1, [(4, 1), (9, 1), (11, 1)]), (1, [(5, 1)])), ((1, [(9, 1)]), (1, [(4, 1), (5, 1), (11, 1)])), ((2, [(4, 2), (5, 1), (11, 1), (17, 2)]), (2, [(5, 1), (9, 2), (11, 1), (16, 2)]))],
      .no [(0, (1, [(5, 1), (9, 1), (11, 1)])), (1, (1, [(4, 1), (9, 1), (11, 1)])), (2, (2, [(4, 2), (5, 3), (11, 1), (17, 2)])), (3, (1, [(2, 4), (4, 1), (5, 2), (6, 1), (18, 2)])), (4, (2, [(3, 2), (4, 2), (5, 3), (6, 2), (11, 1), (18, 2)])), (5, (1, [(4, 1), (5, 1), (11, 1)]))] 0 (1, [(2, 2), (4, 1), (5, 2), (6, 1), (18, 2)]),
      .no [(0, (1, [(5, 1), (9, 1), (11, 1)])), (1, (1, [(4, 1), (9, 1), (11, 1)])), (2, (3, [(4, 9), (5, 3), (8, 5), (11, 5), (17, 4), (19, 2)])), (3, (2, [(1, 2), (4, 1), (5, 2), (16, 1), (19, 1)])), (4, (5, [(4, 9), (5, 3), (6, 3), (11, 5), (17, 4), (19, 2)])), (5, (1, [(4, 1), (5, 1), (11, 1)]))] 0 (1, [(1, 4), (4, 2), (5, 2), (7, 1), (19, 2)]),
      .no [(0, (1, [(5, 1), (9, 1), (11, 1)])), (1, (1, [(4, 1), (9, 1), (11, 1)])), (2, (3, [(4, 7), (5, 3), (8, 3), (11, 3), (17, 4), (19, 2)])), (3, (3, [(4, 8), (5, 3), (8, 3), (11, 3), (17, 2), (19, 4)])), (4, (3, [(4, 7), (5, 3), (6, 3), (11, 3), (17, 4), (19, 2)])), (5, (1, [(4, 1), (5, 1), (11, 1)]))] 0 (1, [(4, 4), (5, 1), (8, 1), (11, 1), (17, 2), (19, 2)]),
      .no [(0, (1, [(5, 1), (9, 1), (11, 1)])), (1, (1, [(4, 1), (9, 1), (11, 1)])), (2, (1, [(2, 1), (4, 1), (5, 1), (17, 1)])), (3, (1, [(1, 2), (2, 2), (5, 1), (6, 3), (11, 1), (21, 1)])), (4, (1, [(4, 3), (5, 3), (6, 3), (11, 1), (17, 2)])), (5, (1, [(4, 1), (5, 1), (11, 1)]))] 0 (1, [(1, 2), (5, 1), (6, 3), (11, 1), (21, 1)]),
      .no [(0, (1, [(5, 1), (9, 1), (11, 1)])), (1, (1, [(4, 1), (9, 1), (11, 1)])), (2, (1, [(4, 2), (5, 2), (7, 1), (9, 1), (16, 2)])), (3, (1, [(4, 2), (5, 2), (6, 1), (9, 1), (16, 2)])), (4, (1, [(3, 2), (4, 1), (5, 1), (19, 1)])), (5, (1, [(4, 1), (5, 1), (11, 1)]))] 0 (1, [(4, 1), (5, 1), (19, 1)]),
      .yes [(0, (1, [(5, 1), (9, 1), (11, 1)])), (1, (1, [(4, 1), (9, 1), (11, 1)])), (5, (1, [(4, 1), (5, 1), (11, 1)]))] 8 [((1, [(5, 1), (9, 1), (11, 1)]), (1, [(4, 1)])), ((1, [(4, 1), (9, 1), (11, 1)]), (1, [(5, 1)])), ((1, [(9, 1)]), (1, [(4, 1), (5, 1), (11, 1)]))],
      .no [(0, (1, [(5, 1), (9, 1), (11, 1)])), (1, (1, [(4, 1), (9, 1), (11, 1)])), (2, (1, [(4, 1), (5, 3), (7, 1), (11, 1), (17, 2)])), (3, (1, [(4, 1), (5, 3), (6, 1), (11, 1), (17, 2)])), (4, (1, [(3, 2), (4, 1), (5, 1), (18, 1)])), (5, (1, [(4, 1), (5, 1), (11, 1)]))] 0 (1, [(4, 1), (5, 1), (18, 1)]),
      .no [(0, (1, [(5, 1), (9, 1), (11, 1)])), (1, (1, [(4, 1), (9, 1), (11, 1)])), (2, (1, [(1, 3), (5, 1), (19, 1)])), (3, (3, [(4, 3), (5, 4), (6, 1), (16, 3), (19, 1)])), (4, (2, [(2, 2), (4, 2), (11, 2), (17, 3), (19, 1)])), (5, (1, [(4, 1), (5, 1), (11, 1)]))] 0 (1, [(1, 1), (4, 1), (5, 1), (19, 1)]),
      .no [(0, (1, [(5, 1), (9, 1), (11, 1)])), (1, (1, [(4, 1), (9, 1), (11, 1)])), (2, (1, [(4, 1), (5, 1), (8, 1), (11, 1), (17, 2)])), (3, (1, [(4, 2), (5, 1), (8, 1), (11, 1), (19, 2)])), (4, (1, [(4, 1), (5, 1), (6, 1), (11, 1), (17, 2)])), (5, (1, [(4, 1), (5, 1), (11, 1)]))] 0 (1, [(4, 2), (5, 1), (8, 1), (11, 1), (17, 2), (19, 2)]),
      .no [(0, (1, [(5, 1), (9, 1), (11, 1)])), (1, (1, [(4, 1), (9, 1), (11, 1)])), (2, (1, [(1, 1), (5, 1), (17, 1)])), (3, (1, [(2, 2), (4, 1), (5, 2), (6, 1), (17, 2)])), (4, (1, [(3, 2), (4, 1), (5, 2), (6, 1), (17, 2)])), (5, (1, [(4, 1), (5, 1), (11, 1)]))] 0 (1, [(4, 1), (5, 2), (6, 1), (17, 2)]),
      .no [(0, (1, [(5, 1), (9, 1), (11, 1)])), (1, (1, [(4, 1), (9, 1), (11, 1)])), (2, (2, [(2, 2), (4, 5), (8, 5), (11, 3), (17, 4), (19, 1)])), (3, (3, [(4, 3), (5, 4), (11, 1), (16, 2), (19, 1)])), (4, (5, [(2, 2), (4, 5), (6, 2), (11, 3), (17, 4), (19, 1)])), (5, (1, [(4, 1), (5, 1), (11, 1)]))] 0 (1, [(1, 2), (4, 1), (5, 1), (19, 1)]),
      .no [(0, (1, [(5, 1), (9, 1), (11, 1)])), (1, (1, [(4, 1), (9, 1), (11, 1)])), (2, (1, [(2, 2), (4, 1), (8, 1), (17, 2)])), (3, (1, [(4, 2), (5, 1), (8, 1), (11, 1), (19, 1)])), (4, (1, [(2, 2), (4, 1), (6, 1), (17, 2)])), (5, (1, [(4, 1), (5, 1), (11, 1)]))] 0 (1, [(2, 2), (4, 2), (8, 1), (17, 2), (19, 1)]),
      .no [(0, (1, [(5, 1), (9, 1), (11, 1)])), (1, (1, [(4, 1), (9, 1), (11, 1)])), (2, (3, [(1, 2), (4, 1), (5, 2), (8, 1), (17, 2)])), (3, (1, [(2, 2), (4, 2), (5, 2), (6, 2), (8, 1), (17, 2)])), (4, (1, [(3, 1), (4, 1), (5, 1), (6, 1), (17, 1)])), (5, (1, [(4, 1), (5, 1), (11, 1)]))] 0 (1, [(4, 2), (5, 2), (6, 2), (8, 1), (17, 2)]),
      .no [(0, (1, [(5, 1), (9, 1), (11, 1)])), (1, (1, [(4, 1), (9, 1), (11, 1)])), (2, (3, [(4, 4), (5, 4), (7, 1), (16, 3), (19, 1)])), (3, (1, [(2, 3), (4, 1), (5, 1), (19, 1)])), (4, (5, [(1, 2), (5, 1), (7, 1), (11, 5), (17, 6), (19, 2)])), (5, (1, [(4, 1), (5, 1), (11, 1)]))] 0 (1, [(2, 1), (4, 1), (5, 1), (19, 1)]),
      .no [(0, (1, [(5, 1), (9, 1), (11, 1)])), (1, (1, [(4, 1), (9, 1), (11, 1)])), (2, (1, [(4, 1), (5, 1), (8, 1), (11, 1), (19, 2)])), (3, (1, [(5, 1), (8, 1), (11, 1), (17, 2)])), (4, (1, [(5, 1), (7, 1), (11, 1), (17, 2)])), (5, (1, [(4, 1), (5, 1), (11, 1)]))] 0 (1, [(5, 1), (8, 1), (11, 1), (17, 2), (19, 2)]),
      .no [(0, (1, [(5, 1), (9, 1), (11, 1)])), (1, (1, [(4, 1), (9, 1), (11, 1)])), (2, (2, [(1, 2), (5, 5), (7, 3), (8, 1), (11, 1), (17, 4)])), (3, (1, [(2, 1), (5, 1), (17, 1)])), (4, (1, [(3, 2), (5, 2), (7, 1), (17, 2)])), (5, (1, [(4, 1), (5, 1), (11, 1)]))] 0 (1, [(5, 2), (7, 1), (17, 2)]),
      .no [(0, (1, [(5, 1), (9, 1), (11, 1)])), (1, (1, [(4, 1), (9, 1), (11, 1)])), (2, (1, [(1, 3), (2, 1), (5, 1), (19, 1)])), (3, (1, [(1, 1), (2, 3), (4, 1), (5, 1), (19, 1)])), (4, (2, [(4, 1), (9, 1), (11, 2), (17, 2)])), (5, (1, [(4, 1), (5, 1), (11, 1)]))] 0 (1, [(1, 1), (2, 1), (4, 1), (5, 1), (19, 1)]),
      .no [(0, (1, [(5, 1), (9, 1), (11, 1)])), (1, (1, [(4, 1), (9, 1), (11, 1)])), (2, (2, [(1, 2), (5, 1), (7, 1), (8, 3), (11, 1), (17, 4)])), (3, (1, [(2, 2), (8, 1), (17, 2)])), (4, (1, [(3, 1), (17, 1)])), (5, (1, [(4, 1), (5, 1), (11, 1)]))] 0 (1, [(8, 1), (17, 2)]),
      .no [(0, (1, [(5, 1), (9, 1), (11, 1)])), (1, (1, [(4, 1), (9, 1), (11, 1)])), (2, (2, [(1, 2), (5, 2), (7, 1), (8, 1), (17, 2)])), (3, (1, [(1, 2), (5, 2), (6, 2), (8, 1), (17, 2)])), (4, (1, [(1, 2), (5, 2), (6, 2), (7, 1), (17, 2)])), (5, (1, [(4, 1), (5, 1), (11, 1)]))] 0 (1, [(1, 2), (5, 2), (6, 1), (9, 1), (17, 2)]),
      .no [(0, (1, [(5, 1), (9, 1), (11, 1)])), (1, (1, [(4, 1), (9, 1), (11, 1)])), (2, (1, [(4, 2), (8, 3), (9, 1), (11, 2), (17, 2)])), (3, (1, [(1, 2), (2, 3), (4, 1), (5, 1), (19, 1)])), (4, (3, [(4, 2), (6, 1), (9, 1), (11, 2), (17, 2)])), (5, (1, [(4, 1), (5, 1), (11, 1)]))] 0 (1, [(1, 2), (2, 1), (4, 1), (5, 1), (19, 1)]),
      .no [(0, (1, [(5, 1), (9, 1), (11, 1)])), (1, (1, [(4, 1), (9, 1), (11, 1)])), (2, (1, [(1, 1), (8, 1), (17, 1)])), (3, (1, [(2, 2), (4, 1), (6, 1), (8, 2), (17, 2)])), (4, (1, [(1, 1), (6, 1), (17, 1)])), (5, (1, [(4, 1), (5, 1), (11, 1)]))] 0 (1, [(2, 2), (4, 1), (8, 1), (9, 1), (17, 2)]),
      .no [(0, (1, [(5, 1), (9, 1), (11, 1)])), (1, (1, [(4, 1), (9, 1), (11, 1)])), (2, (3, [(1, 2), (4, 1), (5, 2), (7, 1), (8, 2), (17, 2)])), (3, (1, [(2, 1), (4, 1), (5, 1), (6, 1), (8, 1), (17, 1)])), (4, (3, [(3, 2), (4, 2), (5, 2), (6, 2), (7, 1), (17, 2)])), (5, (1, [(4, 1), (5, 1), (11, 1)]))] 0 (1, [(2, 1), (4, 1), (5, 1), (9, 1), (17, 1)])],
    .no [(0, (1, [(5, 1), (9, 1), (11, 1)])), (1, (1, [(4, 1), (9, 1), (11, 1)])), (2, (1, [(4, 1), (5, 1), (7, 1), (11, 1), (13, 2)])), (3, (1, [(4, 1), (5, 1), (6, 1), (11, 1), (13, 2)])), (4, (1, [(3, 2), (4, 1), (14, 1)])), (5, (1, [(4, 1), (5, 1), (11, 1)]))] 0 (1, [(4, 1), (14, 1)]),
    .no [(0, (1, [(5, 1), (9, 1), (11, 1)])), (1, (1, [(4, 1), (9, 1), (11, 1)])), (2, (1, [(3, 2), (4, 1), (5, 2), (7, 1), (13, 2)])), (3, (2, [(4, 2), (5, 3), (6, 2), (11, 1), (13, 2)])), (4, (2, [(4, 2), (5, 3), (6, 2), (11, 1), (13, 2), (17, 4)])), (5, (1, [(4, 1), (5, 1), (11, 1)]))] 0 (1, [(4, 1), (5, 2), (6, 1), (13, 2), (17, 2)]),
    .no [(0, (1, [(5, 1), (9, 1), (11, 1)])), (1, (1, [(4, 1), (9, 1), (11, 1)])), (2, (1, [(4, 2), (8, 1), (9, 1), (11, 2), (13, 2)])), (3, (1, [(1, 2), (2, 2), (4, 1), (5, 1), (15, 1)])), (4, (1, [(4, 2), (6, 1), (9, 1), (11, 2), (13, 2)])), (5, (1, [(4, 1), (5, 1), (11, 1)]))] 0 (1, [(1, 2), (4, 1), (5, 1), (15, 1)]),
    .no [(0, (1, [(5, 1), (9, 1), (11, 1)])), (1, (1, [(4, 1), (9, 1), (11, 1)])), (2, (1, [(1, 1), (13, 1)])), (3, (1, [(2, 2), (4, 1), (6, 1), (13, 2)])), (4, (1, [(3, 2), (4, 1), (6, 1), (13, 2)])), (5, (1, [(4, 1), (5, 1), (11, 1)]))] 0 (1, [(4, 1), (6, 1), (13, 2)]),
    .no [(0, (1, [(5, 1), (9, 1), (11, 1)])), (1, (1, [(4, 1), (9, 1), (11, 1)])), (2, (3, [(1, 2), (4, 1), (5, 2), (7, 1), (13, 2)])), (3, (1, [(2, 1), (4, 1), (5, 1), (6, 1), (13, 1)])), (4, (1, [(3, 2), (4, 2), (5, 2), (6, 2), (7, 1), (13, 2)])), (5, (1, [(4, 1), (5, 1), (11, 1)]))] 0 (1, [(4, 2), (5, 2), (6, 2), (7, 1), (13, 2)]),
    .no [(0, (1, [(5, 1), (9, 1), (11, 1)])), (1, (1, [(4, 1), (9, 1), (11, 1)])), (2, (5, [(2, 2), (4, 4), (5, 5), (8, 1), (12, 4), (15, 1)])), (3, (6, [(5, 1), (8, 2), (9, 1), (11, 8), (13, 8), (15, 1)])), (4, (1, [(1, 2), (3, 2), (5, 2), (6, 3), (11, 1), (15, 1)])), (5, (1, [(4, 1), (5, 1), (11, 1)]))] 0 (1, [(1, 2), (5, 2), (6, 3), (11, 1), (15, 1)]),
    .no [(0, (1, [(5, 1), (9, 1), (11, 1)])), (1, (1, [(4, 1), (9, 1), (11, 1)])), (2, (2, [(1, 2), (5, 1), (7, 1), (11, 1), (15, 1)])), (3, (2, [(5, 1), (11, 1), (13, 2)])), (4, (1, [(3, 4), (15, 1)])), (5, (1, [(4, 1), (5, 1), (11, 1)]))] 0 (1, [(3, 2), (15, 1)]),
    .no [(0, (1, [(5, 1), (9, 1), (11, 1)])), (1, (1, [(4, 1), (9, 1), (11, 1)])), (2, (1, [(4, 1), (5, 3), (7, 3), (11, 1), (13, 2)])), (3, (1, [(3, 1), (5, 1), (13, 1)])), (4, (1, [(1, 2), (3, 4), (4, 1), (5, 1), (7, 1), (15, 1)])), (5, (1, [(4, 1), (5, 1), (11, 1)]))] 0 (1, [(1, 2), (3, 2), (4, 1), (5, 1), (7, 1), (15, 1)]),
    .no [(0, (1, [(5, 1), (9, 1), (11, 1)])), (1, (1, [(4, 1), (9, 1), (11, 1)])), (2, (2, [(1, 2), (5, 2), (8, 1), (11, 1), (15, 1)])), (3, (1, [(4, 1), (8, 1), (9, 1), (11, 2), (13, 2)])), (4, (1, [(4, 1), (7, 1), (9, 1), (11, 2), (13, 2)])), (5, (1, [(4, 1), (5, 1), (11, 1)]))] 0 (2, [(8, 1), (11, 1), (13, 2), (15, 1)]),
    .no [(0, (1, [(5, 1), (9, 1), (11, 1)])), (1, (1, [(4, 1), (9, 1), (11, 1)])), (2, (2, [(1, 2), (5, 1), (7, 3), (8, 1), (11, 1), (13, 4)])), (3, (1, [(2, 1), (13, 1)])), (4, (1, [(3, 2), (7, 1), (13, 2)])), (5, (1, [(4, 1), (5, 1), (11, 1)]))] 0 (1, [(7, 1), (13, 2)]),
    .no [(0, (1, [(5, 1), (9, 1), (11, 1)])), (1, (1, [(4, 1), (9, 1), (11, 1)])), (2, (1, [(1, 1), (5, 1), (7, 1), (13, 1)])), (3, (1, [(1, 1), (5, 1), (6, 1), (13, 1)])), (4, (1, [(3, 2), (4, 1), (5, 2), (6, 1), (7, 2), (13, 2)])), (5, (1, [(4, 1), (5, 1), (11, 1)]))] 0 (1, [(3, 2), (4, 1), (5, 2), (7, 1), (9, 1), (13, 2)]),
    .no [(0, (1, [(5, 1), (9, 1), (11, 1)])), (1, (1, [(4, 1), (9, 1), (11, 1)])), (2, (1, [(4, 2), (7, 1), (8, 2), (9, 1), (11, 2), (13, 2)])), (3, (1, [(4, 2), (6, 1), (8, 2), (9, 1), (11, 2), (13, 2)])), (4, (2, [(4, 2), (6, 1), (7, 1), (9, 1), (11, 2), (13, 2)])), (5, (1, [(4, 1), (5, 1), (11, 1)]))] 0 (1, [(4, 2), (8, 1), (9, 2), (11, 2), (13, 2)]),
    .no [(0, (1, [(5, 1), (9, 1), (11, 1)])), (1, (1, [(4, 1), (9, 1), (11, 1)])), (2, (2, [(1, 2), (7, 1), (8, 1), (13, 2)])), (3, (1, [(1, 2), (6, 2), (8, 1), (13, 2)])), (4, (1, [(1, 2), (6, 2), (7, 1), (13, 2)])), (5, (1, [(4, 1), (5, 1), (11, 1)]))] 0 (1, [(1, 2), (6, 1), (9, 1), (13, 2)]),
    .no [(0, (1, [(5, 1), (9, 1), (11, 1)])), (1, (1, [(4, 1), (9, 1), (11, 1)])), (2, (3, [(1, 2), (4, 1), (5, 2), (7, 2), (8, 1), (13, 2)])), (3, (3, [(2, 2), (4, 2), (5, 2), (6, 2), (8, 1), (13, 2)])), (4, (1, [(3, 1), (4, 1), (5, 1), (6, 1), (7, 1), (13, 1)])), (5, (1, [(4, 1), (5, 1), (11, 1)]))] 0 (1, [(3, 1), (4, 1), (5, 1), (9, 1), (13, 1)])]

theorem treeII_13_ok : treeII_13.check false (1, 1, 1) = true := by decide +kernel

theorem treeII {u : ℤ × ℤ × ℤ} (hu : u ∈ Form.vecs.drop 13) : ∃ T : Tree1, T.check false u = true := by
  have h : u ∈ ([(0, 0, 0), (0, 0, 1), (0, 1, -1), (0, 1, 0), (0, 1, 1), (1, -1, -1), (1, -1, 0), (1, -1, 1), (1, 0, -1), (1, 0, 0), (1, 0, 1), (1, 1, -1), (1, 1, 0), (1, 1, 1)] : List (ℤ × ℤ × ℤ)) := hu
  simp only [List.mem_cons, List.not_mem_nil, or_false] at h
  rcases h with rfl | rfl | rfl | rfl | rfl | rfl | rfl | rfl | rfl | rfl | rfl | rfl | rfl | rfl
  · exact ⟨_, treeII_0_ok⟩
  · exact ⟨_, treeII_1_ok⟩
  · exact ⟨_, treeII_2_ok⟩
  · exact ⟨_, treeII_3_ok⟩
  · exact ⟨_, treeII_4_ok⟩
  · exact ⟨_, treeII_5_ok⟩
  · exact ⟨_, treeII_6_ok⟩
  · exact ⟨_, treeII_7_ok⟩
  · exact ⟨_, treeII_8_ok⟩
  · exact ⟨_, treeII_9_ok⟩
  · exact ⟨_, treeII_10_ok⟩
  · exact ⟨_, treeII_11_ok⟩
  · exact ⟨_, treeII_12_ok⟩
  · exact ⟨_, treeII_13_ok⟩

end AutoGR
