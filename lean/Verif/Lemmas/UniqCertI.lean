import Verif.Lemmas.UniqTree

/-!
# Certificates for two reduced bases of type I

One tree for each first vector, up to its sign.
-/

namespace AutoGR

/-- All second bases with first vector `(0, 0, 0)`. -/
def uniqI_0 : UTree1 :=
  .no [] 0 (1, [(9, 1)])

theorem uniqI_0_ok : uniqI_0.check true true (0, 0, 0) = true := by decide +kernel

/-- All second bases with first vector `(0, 0, 1)`. -/
def uniqI_1 : UTree1 :=
  .node [
    .no [] 0 (2, [(1, 2), (2, 2), (3, 2), (4, 1), (5, 1), (12, 1)]),
    .no [] 0 (1, [(3, 2), (12, 1)]),
    .no [] 3 (2, [(5, 1), (6, 1), (7, 1), (12, 1)]),
    .no [] 0 (1, [(2, 2), (5, 1), (12, 1)]),
    .no [] 2 (1, [(13, 1)]),
    .node [
      .no [] 0 (1, [(1, 1), (2, 1), (4, 1), (5, 1), (11, 1)]),
      .no [] 0 (3, [(1, 2), (3, 4), (5, 2), (11, 6), (15, 2), (17, 1)]),
      .no [] 3 (2, [(5, 2), (6, 1), (7, 2), (15, 1)]),
      .det,
      .det,
      .det,
      .no [] 0 (1, [(2, 2), (4, 1), (5, 2), (6, 1), (11, 2)]),
      .no [] 6 (4, [(5, 2), (6, 1), (8, 1), (15, 1), (17, 1)]),
      .no [] 1 (2, [(4, 1), (5, 2), (7, 2), (8, 1), (15, 1)]),
      .no [] 0 (1, [(1, 1), (4, 1), (5, 1), (11, 1)]),
      .no [] 1 (1, [(11, 1)]),
      .eq [(0, (1, [(5, 2), (6, 1), (16, 1)])), (1, (2, [(4, 1), (6, 1), (16, 1)]))] [(1, [(5, 1), (6, 1), (25, 1)]), (2, [(4, 1), (5, 2), (15, 1), (16, 1)]), (2, [(4, 1), (5, 2), (6, 1), (7, 1)]), (2, [(4, 2), (5, 2), (16, 1), (17, 1)]), (2, [(4, 2), (5, 2), (7, 1), (8, 1)]), (1, [(4, 1), (5, 1), (17, 1), (25, 1)])],
      .det,
      .det,
      .det,
      .no [] 0 (1, [(4, 1), (5, 2), (6, 1), (11, 2)]),
      .no [(0, (2, [(5, 2), (7, 1), (17, 1)])), (1, (2, [(4, 2), (7, 1), (17, 1)]))] 5 (2, [(4, 1), (5, 2), (6, 1), (17, 1), (25, 2)]),
      .no [] 0 (1, [(1, 2), (4, 2), (5, 2), (16, 1)]),
      .no [] 0 (1, [(1, 2), (4, 2), (5, 2), (7, 2), (8, 1), (10, 2)]),
      .no [] 1 (2, [(7, 1), (8, 1), (10, 2)]),
      .no [] 0 (1, [(4, 3), (5, 4), (6, 1), (16, 1), (17, 1)]),
      .det,
      .det,
      .det,
      .no [] 0 (1, [(3, 2), (4, 1), (5, 2), (6, 1), (7, 2), (10, 2)]),
      .no [] 0 (1, [(3, 2), (10, 2), (16, 1)]),
      .no [] 0 (1, [(1, 2), (2, 2), (4, 2), (5, 2), (16, 1)])],
    .no [] 0 (1, [(2, 2), (4, 1), (5, 2), (6, 1), (13, 2)]),
    .no [(0, (1, [(5, 1), (10, 1)]))] 4 (1, [(15, 1)]),
    .no [] 1 (2, [(4, 1), (5, 1), (7, 1), (8, 1), (12, 1)]),
    .no [] 0 (1, [(1, 2), (4, 1), (5, 1), (12, 1)]),
    .no [] 1 (1, [(13, 1)]),
    .node [
      .no [] 0 (1, [(1, 1), (2, 1), (4, 1), (5, 1), (11, 1)]),
      .no [] 0 (1, [(3, 2), (4, 1), (11, 2), (15, 1)]),
      .no [] 3 (2, [(4, 1), (5, 2), (6, 2), (7, 1), (15, 1)]),
      .no [] 0 (1, [(2, 1), (4, 1), (5, 1), (11, 1)]),
      .no [] 2 (1, [(11, 1)]),
      .eq [(0, (2, [(5, 2), (7, 1), (16, 1)])), (1, (2, [(4, 2), (7, 1), (16, 1)]))] [(1, [(5, 1), (6, 1), (25, 1)]), (2, [(4, 1), (5, 2), (15, 1), (17, 1)]), (1, [(4, 1), (5, 1), (7, 1)]), (1, [(4, 1), (5, 1), (16, 1)]), (2, [(4, 1), (5, 2), (6, 1), (8, 1)]), (2, [(4, 2), (5, 2), (16, 1), (17, 1), (25, 2)])],
      .no [] 0 (1, [(2, 2), (4, 2), (5, 2), (6, 2), (8, 1), (10, 2)]),
      .no [] 2 (2, [(4, 1), (6, 1), (8, 1), (10, 2)]),
      .no [] 0 (1, [(4, 4), (5, 4), (7, 1), (16, 1), (17, 1)]),
      .det,
      .det,
      .det,
      .det,
      .det,
      .det,
      .det,
      .det,
      .det,
      .no [] 0 (1, [(1, 2), (4, 2), (5, 2), (7, 1), (11, 2)]),
      .no [] 6 (2, [(4, 1), (8, 1), (15, 1)]),
      .no [] 2 (2, [(4, 1), (5, 2), (6, 2), (8, 1), (15, 1)]),
      .no [] 0 (1, [(4, 2), (5, 2), (7, 1), (11, 2)]),
      .no [(0, (1, [(5, 2), (6, 1), (17, 1)])), (1, (2, [(4, 1), (6, 1), (17, 1)]))] 5 (1, [(25, 1)]),
      .no [] 0 (1, [(2, 2), (4, 2), (5, 2), (16, 1)]),
      .no [] 0 (1, [(3, 2), (4, 2), (5, 2), (6, 2), (7, 1), (10, 2)]),
      .no [] 0 (1, [(3, 2), (4, 2), (10, 2), (16, 1)]),
      .no [] 0 (1, [(1, 2), (2, 2), (4, 2), (5, 2), (16, 1)])],
    .no [] 0 (1, [(4, 1), (5, 1), (13, 1)]),
    .no [] 0 (1, [(4, 1), (11, 1)]),
    .no [] 0 (1, [(4, 2), (5, 2), (14, 1)]),
    .no [] 0 (1, [(4, 1), (5, 2), (6, 1), (13, 2)]),
    .node [
      .no [] 0 (1, [(1, 1), (3, 1), (4, 1), (10, 1)]),
      .no [] 0 (1, [(3, 1), (4, 1), (10, 1)]),
      .no [] 0 (1, [(3, 2), (4, 1), (6, 1), (10, 2)]),
      .no [] 0 (1, [(2, 1), (4, 1), (5, 1), (11, 1)]),
      .no [] 2 (1, [(11, 1)]),
      .no [(0, (2, [(5, 2), (7, 1), (16, 1)])), (1, (2, [(4, 2), (7, 1), (16, 1)]))] 5 (2, [(4, 1), (5, 2), (6, 1), (16, 1), (25, 2)]),
      .no [] 0 (1, [(2, 2), (4, 1), (5, 2), (6, 1), (11, 2)]),
      .no [(0, (1, [(8, 1), (15, 1)]))] 6 (1, [(24, 1)]),
      .no [] 1 (2, [(4, 1), (8, 1), (15, 1)]),
      .det,
      .det,
      .det,
      .det,
      .det,
      .det,
      .det,
      .det,
      .det,
      .no [] 0 (1, [(1, 2), (4, 2), (8, 1), (10, 2)]),
      .no [] 0 (1, [(4, 2), (8, 1), (10, 2)]),
      .no [] 2 (2, [(4, 1), (5, 2), (6, 1), (16, 1)]),
      .no [] 0 (1, [(4, 2), (5, 2), (7, 1), (11, 2)]),
      .eq [(0, (1, [(5, 1), (19, 1)])), (1, (1, [(4, 1), (19, 1)])), (5, (1, [(5, 1), (19, 1)])), (6, (1, [(4, 1), (19, 1)]))] [(1, [(24, 1), (25, 1)]), (1, [(26, 1), (27, 1)]), (1, []), (1, []), (1, [(26, 1), (27, 1)]), (1, [(24, 1), (25, 1)])],
      .no [] 0 (1, [(2, 2), (4, 2), (5, 2), (16, 1)]),
      .no [] 3 (2, [(6, 1), (15, 1)]),
      .no [] 0 (1, [(3, 2), (4, 1), (15, 1)]),
      .no [] 0 (1, [(1, 2), (3, 2), (4, 1), (15, 1)])],
    .no [] 0 (1, [(1, 2), (4, 1), (5, 1), (12, 1)]),
    .no [] 0 (1, [(1, 2), (4, 2), (5, 2), (7, 1), (13, 2)]),
    .node [
      .det,
      .det,
      .det,
      .no [] 0 (1, [(2, 1), (4, 1), (5, 1), (11, 1)]),
      .no [] 0 (1, [(8, 1), (10, 2)]),
      .no [] 1 (2, [(7, 1), (8, 1), (10, 2)]),
      .det,
      .det,
      .det,
      .no [] 0 (1, [(1, 1), (4, 1), (5, 1), (11, 1)]),
      .no [] 1 (1, [(11, 1)]),
      .no [] 7 (2, [(4, 1), (8, 1), (15, 1)]),
      .det,
      .det,
      .det,
      .no [] 0 (1, [(4, 1), (5, 2), (6, 1), (11, 2)]),
      .no [] 0 (1, [(4, 2), (8, 1), (10, 2)]),
      .no [] 0 (1, [(1, 2), (4, 2), (5, 2), (16, 1)]),
      .det,
      .det,
      .det,
      .no [] 0 (1, [(4, 2), (5, 2), (7, 1), (11, 2)]),
      .no [(0, (1, [(5, 1), (19, 1)])), (1, (1, [(4, 1), (19, 1)])), (4, (1, [(5, 1), (15, 1), (19, 1)])), (5, (1, [(5, 1), (19, 1)])), (3, (1, [(8, 1), (27, 2)])), (6, (1, [(4, 1), (19, 1)]))] 0 (1, [(8, 1), (26, 2), (27, 2), (29, 4)]),
      .no [] 0 (1, [(2, 2), (4, 2), (5, 2), (16, 1)]),
      .det,
      .det,
      .det],
    .no [] 2 (2, [(5, 1), (6, 1), (8, 1), (12, 1)]),
    .no [] 0 (1, [(4, 2), (5, 2), (7, 1), (13, 2)]),
    .node [
      .no [] 0 (1, [(2, 1), (3, 1), (10, 1)]),
      .no [] 0 (1, [(3, 1), (10, 1)]),
      .no [] 0 (1, [(3, 2), (7, 1), (10, 2)]),
      .det,
      .det,
      .det,
      .no [] 0 (1, [(2, 2), (8, 1), (10, 2)]),
      .no [] 0 (1, [(8, 1), (10, 2)]),
      .no [] 1 (2, [(4, 2), (5, 2), (7, 1), (16, 1)]),
      .no [] 0 (1, [(1, 1), (4, 1), (5, 1), (11, 1)]),
      .no [] 1 (1, [(11, 1)]),
      .no [(0, (1, [(5, 2), (6, 1), (16, 1)])), (1, (2, [(4, 1), (6, 1), (16, 1)]))] 5 (1, [(25, 1)]),
      .det,
      .det,
      .det,
      .no [] 0 (1, [(4, 1), (5, 2), (6, 1), (11, 2)]),
      .eq [(0, (1, [(5, 1), (19, 1)])), (1, (1, [(4, 1), (19, 1)])), (5, (1, [(5, 1), (19, 1)]))] [(1, [(24, 1), (25, 1)]), (1, [(26, 1)]), (1, [(25, 1), (26, 1)]), (1, [(24, 1)]), (1, [(24, 1), (26, 1)]), (1, [(25, 1)])],
      .no [] 0 (1, [(1, 2), (4, 2), (5, 2), (16, 1)]),
      .no [] 0 (1, [(1, 2), (4, 2), (5, 2), (7, 1), (11, 2)]),
      .no [(0, (1, [(5, 1), (19, 1)])), (1, (1, [(4, 1), (19, 1)])), (4, (1, [(5, 1), (15, 1), (19, 1)])), (5, (1, [(5, 1), (19, 1)]))] 0 (1, [(7, 1), (8, 2), (26, 2), (27, 4)]),
      .no [] 2 (4, [(5, 2), (6, 1), (8, 1), (15, 1), (16, 1)]),
      .det,
      .det,
      .det,
      .no [] 3 (2, [(5, 2), (6, 1), (7, 2), (11, 2), (15, 1)]),
      .no [] 0 (1, [(3, 2), (5, 1), (15, 1), (19, 1)]),
      .no [] 0 (3, [(1, 2), (2, 6), (3, 4), (5, 2), (15, 2), (16, 1)])],
    .no [] 0 (1, [(2, 2), (5, 1), (12, 1)]),
    .no [] 3 (2, [(5, 1), (6, 1), (7, 1), (12, 1)]),
    .no [] 0 (1, [(3, 2), (12, 1)]),
    .no [] 0 (2, [(1, 2), (2, 2), (3, 2), (4, 1), (5, 1), (12, 1)])]

theorem uniqI_1_ok : uniqI_1.check true true (0, 0, 1) = true := by decide +kernel

/-- All second bases with first vector `(0, 1, -1)`. -/
def uniqI_2 : UTree1 :=
  .node [
    .no [] 0 (3, [(2, 2), (3, 2), (4, 3), (5, 2), (10, 1), (12, 1)]),
    .no [] 0 (1, [(3, 2), (12, 1)]),
    .no [] 0 (1, [(3, 2), (4, 2), (5, 2), (6, 2), (7, 1), (13, 2)]),
    .no [] 0 (1, [(2, 2), (5, 1), (12, 1)]),
    .no [(0, (1, [(5, 1), (6, 1), (10, 1)])), (1, (1, [(4, 1), (6, 1), (10, 1)]))] 4 (1, [(16, 1)]),
    .no [] 3 (2, [(4, 1), (5, 2), (6, 1), (7, 1), (13, 2)]),
    .no [] 2 (2, [(5, 1), (6, 1), (8, 1), (12, 1)]),
    .node [
      .det,
      .det,
      .no [] 0 (1, [(3, 2), (4, 2), (5, 2), (6, 2), (7, 1), (11, 2)]),
      .det,
      .no [] 6 (4, [(6, 1), (7, 1), (15, 1), (17, 1)]),
      .det,
      .no [] 2 (2, [(6, 1), (8, 2), (15, 1)]),
      .det,
      .no [] 0 (1, [(4, 3), (8, 3), (15, 1), (17, 1)]),
      .det,
      .no [] 0 (1, [(4, 2), (8, 1), (10, 2)]),
      .det,
      .no [] 5 (2, [(4, 2), (5, 2), (7, 1), (16, 1)]),
      .det,
      .no [] 0 (1, [(4, 1), (5, 2), (6, 1), (11, 2)]),
      .det,
      .eq [(0, (1, [(8, 1), (15, 1)]))] [(2, [(4, 1), (6, 1), (8, 1)]), (2, [(4, 1), (15, 1), (16, 1)]), (2, [(4, 1), (6, 1), (7, 1)]), (1, [(4, 1), (16, 1), (24, 1)]), (1, [(4, 1), (8, 1), (24, 1)]), (2, [(4, 2), (7, 1), (15, 2), (16, 1)])],
      .det,
      .no [] 0 (1, [(1, 2), (4, 2), (7, 1), (8, 2), (10, 2)]),
      .det,
      .no [] 0 (1, [(2, 2), (4, 1), (6, 1), (8, 2), (10, 2)]),
      .det,
      .no [] 0 (1, [(8, 1), (10, 2)]),
      .det,
      .no [] 0 (1, [(4, 3), (5, 2), (6, 3), (16, 1), (17, 1)]),
      .det,
      .det],
    .no [] 0 (1, [(4, 3), (5, 2), (7, 1), (8, 1), (10, 1), (12, 1)]),
    .no [] 0 (2, [(4, 3), (5, 2), (10, 1), (12, 1)]),
    .no [] 0 (1, [(4, 1), (6, 1), (13, 2)]),
    .no [] 0 (1, [(4, 1), (5, 1), (6, 1), (13, 1)]),
    .node [
      .no [] 0 (1, [(1, 2), (2, 2), (4, 1), (5, 2), (15, 1)]),
      .no [] 0 (1, [(3, 2), (4, 1), (11, 2), (15, 1)]),
      .no [] 0 (1, [(3, 2), (4, 2), (5, 2), (6, 2), (7, 1), (11, 2)]),
      .no [] 0 (1, [(2, 2), (4, 1), (5, 2), (15, 1)]),
      .no [(0, (1, [(5, 2), (6, 1), (17, 1)])), (1, (2, [(4, 1), (6, 1), (17, 1)]))] 6 (1, [(25, 1)]),
      .no [] 0 (1, [(4, 2), (5, 2), (7, 1), (10, 2)]),
      .no [] 2 (2, [(5, 2), (6, 1), (15, 1)]),
      .no [] 5 (2, [(4, 2), (8, 1), (16, 1)]),
      .no [] 0 (1, [(1, 2), (4, 2), (5, 2), (7, 1), (10, 2)]),
      .det,
      .det,
      .det,
      .det,
      .det,
      .det,
      .det,
      .det,
      .det,
      .no [] 0 (1, [(4, 3), (5, 4), (7, 1), (15, 1), (17, 1)]),
      .no [] 2 (2, [(4, 1), (6, 1), (8, 1), (11, 2)]),
      .no [] 0 (1, [(2, 2), (4, 1), (5, 2), (6, 1), (10, 2)]),
      .eq [(0, (1, [(5, 2), (7, 1), (15, 1)])), (1, (2, [(4, 1), (7, 1), (15, 1)]))] [(2, [(4, 1), (5, 2), (6, 1), (7, 1)]), (2, [(4, 1), (5, 2), (15, 1), (17, 1)]), (2, [(4, 1), (5, 2), (6, 1), (7, 1), (25, 2)]), (2, [(4, 1), (5, 2), (15, 1), (16, 1)]), (2, [(4, 1), (5, 2), (6, 1), (8, 1)]), (2, [(4, 1), (5, 2), (15, 1), (17, 1), (25, 2)])],
      .no [] 2 (1, [(10, 1)]),
      .no [] 0 (1, [(2, 1), (4, 1), (5, 1), (10, 1)]),
      .no [] 3 (2, [(4, 2), (5, 2), (6, 2), (7, 1), (16, 1)]),
      .no [] 0 (1, [(3, 2), (4, 2), (10, 2), (16, 1)]),
      .no [] 0 (1, [(1, 1), (2, 1), (4, 1), (5, 1), (10, 1)])],
    .no [] 0 (1, [(4, 1), (11, 1)]),
    .no [] 0 (1, [(4, 1), (5, 2), (6, 1), (13, 2)]),
    .no [] 0 (1, [(4, 2), (5, 2), (6, 2), (14, 1)]),
    .node [
      .no [] 0 (1, [(1, 1), (3, 1), (4, 1), (10, 1)]),
      .no [] 0 (1, [(3, 1), (4, 1), (10, 1)]),
      .no [] 0 (1, [(3, 2), (4, 1), (6, 1), (10, 2)]),
      .no [] 0 (1, [(2, 2), (4, 2), (5, 2), (10, 2), (16, 1)]),
      .no [] 3 (1, [(10, 1)]),
      .no [] 3 (2, [(4, 1), (5, 2), (6, 1), (7, 1), (11, 2)]),
      .no [] 2 (2, [(4, 2), (5, 2), (6, 2), (8, 1), (16, 1)]),
      .eq [] [(2, [(4, 1), (6, 1), (8, 1)]), (2, [(4, 1), (15, 1), (17, 1)]), (2, [(4, 1), (6, 1), (8, 1)]), (2, [(4, 1), (15, 1), (17, 1)]), (2, [(4, 1), (6, 1), (8, 1)]), (2, [(4, 1), (15, 1), (17, 1)])],
      .no [] 0 (1, [(4, 3), (5, 2), (7, 1), (11, 2), (15, 1), (17, 1)]),
      .det,
      .det,
      .det,
      .det,
      .det,
      .det,
      .det,
      .det,
      .det,
      .no [] 0 (1, [(1, 2), (4, 2), (8, 1), (10, 2)]),
      .no [] 0 (1, [(4, 2), (8, 1), (10, 2)]),
      .no [] 0 (1, [(2, 2), (4, 2), (5, 2), (6, 2), (8, 1), (11, 2)]),
      .no [] 5 (2, [(4, 2), (5, 2), (7, 1), (16, 1)]),
      .no [(0, (1, [(6, 1), (17, 1)]))] 6 (2, [(4, 2), (8, 1), (17, 1), (24, 2)]),
      .no [] 0 (1, [(2, 2), (4, 1), (5, 2), (11, 2), (15, 1)]),
      .no [] 3 (2, [(6, 1), (15, 1)]),
      .no [] 0 (1, [(3, 2), (4, 1), (15, 1)]),
      .no [] 0 (1, [(1, 2), (3, 2), (4, 1), (15, 1)])],
    .no [] 0 (2, [(4, 3), (5, 2), (10, 1), (12, 1)]),
    .no [] 0 (1, [(4, 3), (5, 2), (7, 1), (8, 1), (10, 1), (12, 1)]),
    .no [] 2 (2, [(4, 1), (6, 1), (8, 1), (13, 2)]),
    .no [] 0 (1, [(2, 2), (4, 2), (5, 2), (6, 2), (8, 1), (13, 2)]),
    .node [
      .det,
      .det,
      .no [] 0 (1, [(3, 2), (4, 1), (5, 2), (6, 1), (7, 2), (10, 2)]),
      .det,
      .no [] 0 (1, [(7, 1), (10, 2)]),
      .det,
      .no [] 0 (1, [(4, 3), (5, 4), (6, 3), (16, 1), (17, 1)]),
      .det,
      .no [] 0 (1, [(1, 2), (4, 2), (5, 2), (7, 2), (8, 1), (10, 2)]),
      .det,
      .no [] 0 (1, [(4, 1), (6, 1), (11, 2)]),
      .det,
      .eq [] [(2, [(4, 1), (5, 2), (6, 1), (7, 1)]), (2, [(4, 1), (5, 2), (15, 1), (16, 1)]), (2, [(4, 1), (5, 2), (6, 1), (7, 1)]), (2, [(4, 1), (5, 2), (15, 1), (16, 1)]), (2, [(4, 1), (5, 2), (6, 1), (7, 1)]), (2, [(4, 1), (5, 2), (15, 1), (16, 1)])],
      .det,
      .no [] 0 (1, [(4, 2), (5, 2), (7, 1), (10, 2)]),
      .det,
      .no [] 5 (2, [(4, 2), (8, 1), (16, 1)]),
      .det,
      .no [] 0 (1, [(4, 3), (5, 4), (7, 3), (15, 1), (17, 1)]),
      .det,
      .no [] 0 (1, [(2, 2), (4, 2), (5, 2), (6, 2), (8, 1), (11, 2)]),
      .det,
      .no [] 6 (4, [(5, 2), (6, 1), (8, 1), (15, 1), (17, 1)]),
      .det,
      .no [] 3 (2, [(5, 2), (6, 1), (7, 2), (15, 1)]),
      .det,
      .det],
    .no [(0, (1, [(5, 1), (6, 1), (10, 1)]))] 4 (2, [(4, 2), (5, 1), (8, 1), (10, 1), (15, 2)]),
    .no [] 0 (1, [(2, 2), (5, 1), (12, 1)]),
    .no [] 3 (2, [(5, 1), (6, 1), (7, 1), (12, 1)]),
    .no [] 0 (1, [(3, 2), (12, 1)]),
    .no [] 0 (3, [(2, 2), (3, 2), (4, 3), (5, 2), (10, 1), (12, 1)])]

theorem uniqI_2_ok : uniqI_2.check true true (0, 1, -1) = true := by decide +kernel

/-- All second bases with first vector `(0, 1, 0)`. -/
def uniqI_3 : UTree1 :=
  .node [
    .no [] 0 (2, [(1, 2), (2, 2), (3, 2), (4, 1), (5, 1), (12, 1)]),
    .no [] 0 (1, [(3, 2), (12, 1)]),
    .no [] 0 (1, [(3, 2), (4, 1), (6, 1), (13, 2)]),
    .no [] 0 (1, [(2, 2), (5, 1), (12, 1)]),
    .no [] 3 (1, [(13, 1)]),
    .no [(0, (1, [(10, 1)])), (1, (1, [(7, 1), (12, 1)]))] 4 (2, [(5, 1), (6, 1), (10, 1), (12, 1), (16, 2)]),
    .no [] 2 (2, [(5, 1), (6, 1), (8, 1), (12, 1)]),
    .node [
      .no [] 0 (1, [(1, 1), (3, 1), (4, 1), (11, 1)]),
      .det,
      .no [] 0 (1, [(3, 2), (4, 1), (6, 1), (11, 2)]),
      .no [] 0 (3, [(1, 2), (2, 4), (11, 6), (15, 2), (17, 1)]),
      .det,
      .no [] 6 (4, [(6, 1), (7, 1), (15, 1), (17, 1)]),
      .no [] 2 (2, [(6, 1), (8, 2), (15, 1)]),
      .det,
      .no [] 1 (2, [(4, 1), (7, 1), (8, 2), (15, 1)]),
      .no [] 0 (1, [(1, 1), (4, 1), (11, 1)]),
      .det,
      .no [] 0 (1, [(4, 1), (6, 1), (11, 2)]),
      .no [] 1 (1, [(11, 1)]),
      .det,
      .no [(0, (2, [(8, 1), (17, 1)]))] 5 (1, [(24, 1)]),
      .eq [(0, (1, [(6, 1), (16, 1)]))] [(2, [(4, 1), (6, 1), (8, 1), (24, 2)]), (2, [(4, 1), (15, 1), (16, 1)]), (2, [(4, 1), (6, 1), (7, 1)]), (1, [(4, 1), (16, 1), (24, 1)]), (1, [(4, 1), (8, 1)]), (1, [(4, 1), (17, 1)])],
      .det,
      .no [] 0 (1, [(1, 2), (4, 2), (16, 1)]),
      .no [] 0 (1, [(1, 2), (4, 2), (7, 1), (8, 2), (10, 2)]),
      .det,
      .no [] 0 (1, [(2, 2), (4, 1), (6, 1), (8, 2), (10, 2)]),
      .no [] 1 (2, [(7, 1), (8, 1), (10, 2)]),
      .det,
      .no [] 0 (1, [(2, 2), (10, 2), (16, 1)]),
      .no [] 0 (1, [(4, 3), (6, 1), (16, 1), (17, 1)]),
      .det,
      .no [] 0 (1, [(1, 2), (3, 2), (4, 2), (16, 1)])],
    .no [] 1 (2, [(4, 1), (5, 1), (7, 1), (8, 1), (12, 1)]),
    .no [] 0 (1, [(1, 2), (4, 1), (5, 1), (12, 1)]),
    .no [] 0 (1, [(4, 1), (13, 1)]),
    .no [] 0 (1, [(4, 1), (6, 1), (13, 2)]),
    .no [] 1 (1, [(13, 1)]),
    .no [] 0 (1, [(4, 1), (11, 1)]),
    .node [
      .no [] 0 (1, [(1, 1), (2, 1), (4, 1), (5, 1), (10, 1)]),
      .no [] 0 (1, [(3, 1), (4, 1), (11, 1)]),
      .no [] 0 (1, [(3, 2), (4, 1), (6, 1), (11, 2)]),
      .no [] 0 (1, [(2, 1), (4, 1), (5, 1), (10, 1)]),
      .no [] 2 (1, [(10, 1)]),
      .no [(0, (1, [(5, 2), (7, 1), (15, 1)])), (1, (2, [(4, 1), (7, 1), (15, 1)]))] 6 (2, [(5, 2), (6, 1), (15, 1), (25, 2)]),
      .no [] 0 (1, [(2, 2), (4, 1), (5, 2), (6, 1), (10, 2)]),
      .no [(0, (2, [(8, 1), (16, 1)]))] 5 (1, [(24, 1)]),
      .no [] 1 (2, [(4, 1), (5, 2), (7, 1), (15, 1)]),
      .det,
      .det,
      .det,
      .det,
      .det,
      .det,
      .det,
      .det,
      .det,
      .no [] 0 (1, [(1, 2), (4, 2), (5, 2), (7, 1), (10, 2)]),
      .no [] 0 (1, [(4, 2), (8, 1), (11, 2)]),
      .no [] 2 (2, [(5, 2), (6, 1), (15, 1)]),
      .no [] 0 (1, [(4, 2), (5, 2), (7, 1), (10, 2)]),
      .eq [(0, (1, [(19, 1)])), (1, (1, [(21, 1)])), (5, (1, [(19, 1)])), (6, (1, [(21, 1)]))] [(1, [(24, 1)]), (1, [(25, 1), (27, 1)]), (1, [(25, 1)]), (1, [(24, 1), (27, 1)]), (1, [(27, 1)]), (1, [(24, 1), (25, 1)])],
      .no [] 0 (1, [(2, 2), (4, 1), (5, 2), (15, 1)]),
      .no [] 3 (2, [(4, 1), (6, 1), (16, 1)]),
      .no [] 0 (1, [(3, 2), (4, 2), (16, 1)]),
      .no [] 0 (1, [(1, 2), (2, 2), (4, 1), (5, 2), (15, 1)])],
    .node [
      .no [] 0 (1, [(1, 1), (3, 1), (4, 1), (11, 1)]),
      .no [] 0 (1, [(3, 1), (4, 1), (11, 1)]),
      .no [] 0 (1, [(3, 2), (4, 2), (5, 2), (6, 2), (7, 1), (10, 2)]),
      .no [] 0 (1, [(2, 2), (4, 1), (5, 2), (11, 2), (15, 1)]),
      .no [] 3 (1, [(11, 1)]),
      .no [] 3 (2, [(4, 1), (5, 2), (6, 1), (7, 1), (10, 2)]),
      .no [] 2 (2, [(4, 1), (5, 2), (6, 2), (8, 1), (15, 1)]),
      .eq [(0, (2, [(8, 1), (16, 1)]))] [(2, [(4, 1), (6, 1), (8, 1), (24, 2)]), (2, [(4, 1), (15, 1), (17, 1)]), (2, [(4, 2), (7, 1), (8, 1)]), (2, [(4, 2), (16, 1), (17, 1), (24, 2)]), (2, [(4, 1), (6, 1), (8, 1)]), (2, [(4, 2), (16, 1), (17, 1)])],
      .no [] 0 (1, [(4, 4), (5, 2), (7, 1), (10, 2), (16, 1), (17, 1)]),
      .det,
      .det,
      .det,
      .det,
      .det,
      .det,
      .det,
      .det,
      .det,
      .no [] 0 (1, [(1, 2), (4, 2), (8, 1), (11, 2)]),
      .no [] 0 (1, [(4, 2), (8, 1), (11, 2)]),
      .no [] 0 (1, [(2, 2), (4, 2), (5, 2), (6, 2), (8, 1), (10, 2)]),
      .no [] 6 (2, [(4, 1), (5, 2), (7, 1), (15, 1)]),
      .no [(0, (1, [(6, 1), (17, 1)]))] 5 (2, [(4, 2), (8, 1), (17, 1), (24, 2)]),
      .no [] 0 (1, [(2, 2), (4, 2), (5, 2), (10, 2), (16, 1)]),
      .no [] 3 (2, [(4, 1), (5, 2), (6, 2), (7, 1), (15, 1)]),
      .no [] 0 (1, [(3, 2), (4, 2), (16, 1)]),
      .no [] 0 (1, [(1, 2), (3, 2), (4, 2), (16, 1)])],
    .no [] 0 (1, [(4, 2), (14, 1)]),
    .no [] 0 (1, [(1, 2), (4, 1), (5, 1), (12, 1)]),
    .no [] 0 (1, [(1, 2), (4, 2), (8, 1), (13, 2)]),
    .no [] 0 (1, [(4, 2), (8, 1), (13, 2)]),
    .no [] 2 (2, [(5, 1), (6, 1), (8, 1), (12, 1)]),
    .node [
      .det,
      .no [] 0 (1, [(3, 1), (4, 1), (11, 1)]),
      .det,
      .det,
      .no [] 0 (1, [(7, 1), (10, 2)]),
      .det,
      .det,
      .no [] 1 (2, [(7, 1), (8, 1), (10, 2)]),
      .det,
      .no [] 0 (1, [(1, 1), (4, 1), (11, 1)]),
      .det,
      .no [] 0 (1, [(4, 1), (6, 1), (11, 2)]),
      .no [] 1 (1, [(11, 1)]),
      .det,
      .no [] 0 (1, [(4, 2), (5, 2), (7, 1), (10, 2)]),
      .no [] 7 (2, [(4, 1), (5, 2), (7, 1), (15, 1)]),
      .det,
      .no [] 0 (1, [(1, 2), (4, 2), (16, 1)]),
      .det,
      .no [] 0 (1, [(4, 2), (8, 1), (11, 2)]),
      .det,
      .det,
      .no [(0, (1, [(19, 1)])), (1, (1, [(7, 1), (21, 1)])), (3, (1, [(15, 1), (19, 1)])), (4, (1, [(15, 1), (19, 1), (25, 2)])), (5, (1, [(19, 1)])), (6, (1, [(7, 1), (21, 1)]))] 0 (1, [(15, 1), (19, 1), (25, 2), (26, 2), (29, 4)]),
      .det,
      .det,
      .no [] 0 (1, [(3, 2), (4, 2), (16, 1)]),
      .det],
    .node [
      .no [] 0 (1, [(2, 1), (3, 1), (10, 1)]),
      .det,
      .no [] 0 (1, [(3, 2), (7, 1), (10, 2)]),
      .no [] 0 (1, [(2, 1), (10, 1)]),
      .det,
      .no [] 0 (1, [(7, 1), (10, 2)]),
      .no [] 0 (1, [(2, 2), (8, 1), (10, 2)]),
      .det,
      .no [] 1 (2, [(4, 2), (8, 1), (16, 1)]),
      .no [] 0 (1, [(1, 1), (4, 1), (11, 1)]),
      .det,
      .no [] 0 (1, [(4, 1), (6, 1), (11, 2)]),
      .no [] 1 (1, [(11, 1)]),
      .det,
      .eq [(0, (1, [(19, 1)])), (5, (1, [(19, 1)]))] [(1, [(24, 1)]), (1, [(25, 1)]), (1, [(25, 1)]), (1, [(24, 1)]), (1, []), (1, [])],
      .no [(0, (1, [(6, 1), (16, 1)]))] 5 (2, [(4, 2), (8, 1), (16, 1), (24, 2)]),
      .det,
      .no [] 0 (1, [(1, 2), (4, 2), (16, 1)]),
      .no [] 0 (1, [(1, 2), (4, 2), (8, 1), (11, 2)]),
      .det,
      .no [] 2 (2, [(6, 1), (8, 2), (11, 2), (15, 1)]),
      .no [(0, (1, [(19, 1)])), (3, (1, [(15, 1), (19, 1)])), (5, (1, [(19, 1)]))] 0 (1, [(7, 2), (8, 1), (25, 2), (26, 4)]),
      .det,
      .no [] 0 (1, [(2, 2), (15, 1), (19, 1)]),
      .no [] 3 (4, [(6, 1), (7, 1), (15, 1), (16, 1)]),
      .det,
      .no [] 0 (3, [(1, 2), (2, 4), (3, 6), (15, 2), (16, 1)])],
    .no [] 0 (1, [(2, 2), (5, 1), (12, 1)]),
    .no [] 3 (2, [(5, 1), (6, 1), (7, 1), (12, 1)]),
    .no [] 0 (1, [(3, 2), (12, 1)]),
    .no [] 0 (2, [(1, 2), (2, 2), (3, 2), (4, 1), (5, 1), (12, 1)])]

theorem uniqI_3_ok : uniqI_3.check true true (0, 1, 0) = true := by decide +kernel

/-- All second bases with first vector `(0, 1, 1)`. -/
def uniqI_4 : UTree1 :=
  .no [] 0 (1, [(1, 2), (4, 2), (5, 1), (10, 1)])

theorem uniqI_4_ok : uniqI_4.check true true (0, 1, 1) = true := by decide +kernel

/-- All second bases with first vector `(1, -1, -1)`. -/
def uniqI_5 : UTree1 :=
  .no [] 1 (2, [(4, 2), (5, 1), (7, 1), (8, 1), (10, 1)])

theorem uniqI_5_ok : uniqI_5.check true true (1, -1, -1) = true := by decide +kernel

/-- All second bases with first vector `(1, -1, 0)`. -/
def uniqI_6 : UTree1 :=
  .node [
    .no [] 0 (3, [(1, 2), (2, 2), (4, 2), (5, 1), (10, 1), (12, 1)]),
    .no [] 0 (2, [(4, 1), (10, 1), (12, 1)]),
    .no [] 0 (1, [(4, 1), (5, 1), (6, 1), (7, 1), (10, 1), (12, 1)]),
    .no [] 0 (1, [(2, 2), (5, 1), (12, 1)]),
    .no [] 0 (1, [(8, 1), (13, 2)]),
    .no [] 1 (2, [(7, 1), (8, 1), (13, 2)]),
    .no [] 0 (1, [(2, 2), (4, 1), (6, 1), (8, 2), (13, 2)]),
    .no [] 0 (1, [(4, 1), (8, 1), (13, 1)]),
    .no [] 0 (1, [(1, 2), (4, 2), (7, 1), (8, 2), (13, 2)]),
    .no [] 0 (1, [(1, 2), (4, 1), (5, 1), (12, 1)]),
    .node [
      .no [] 0 (1, [(1, 2), (3, 2), (4, 1), (15, 1)]),
      .det,
      .no [] 0 (1, [(4, 2), (6, 1), (15, 1), (17, 1)]),
      .no [] 0 (1, [(1, 2), (2, 2), (11, 2), (15, 2), (17, 1)]),
      .det,
      .no [] 1 (2, [(7, 1), (8, 1), (11, 2)]),
      .no [] 0 (1, [(2, 2), (4, 1), (6, 1), (8, 2), (11, 2)]),
      .det,
      .no [] 0 (1, [(1, 2), (4, 2), (8, 1), (10, 2)]),
      .no [] 0 (1, [(1, 2), (4, 1), (15, 1)]),
      .det,
      .eq [] [(1, [(6, 1)]), (1, [(15, 1)]), (2, [(4, 1), (6, 1), (8, 1)]), (2, [(4, 1), (15, 1), (17, 1)]), (1, [(4, 1), (8, 1)]), (1, [(4, 1), (17, 1)])],
      .no [(0, (2, [(8, 1), (17, 1)]))] 6 (1, [(24, 1)]),
      .det,
      .no [] 1 (1, [(10, 1)]),
      .no [] 0 (1, [(4, 1), (6, 1), (10, 2)]),
      .det,
      .no [] 0 (1, [(1, 1), (4, 1), (10, 1)]),
      .no [] 1 (2, [(4, 1), (8, 1), (15, 1)]),
      .det,
      .no [] 2 (2, [(4, 1), (6, 1), (8, 2), (16, 1)]),
      .no [] 5 (2, [(7, 1), (16, 1)]),
      .det,
      .no [] 0 (1, [(2, 2), (10, 2), (16, 1)]),
      .no [] 0 (1, [(3, 2), (4, 1), (6, 1), (10, 2)]),
      .det,
      .no [] 0 (1, [(1, 1), (3, 1), (4, 1), (10, 1)])],
    .node [
      .det,
      .det,
      .no [] 0 (1, [(4, 2), (5, 2), (6, 3), (15, 1), (17, 1)]),
      .det,
      .no [] 0 (1, [(8, 1), (11, 2)]),
      .det,
      .no [] 0 (1, [(2, 2), (4, 2), (5, 2), (6, 2), (8, 1), (10, 2)]),
      .det,
      .no [] 0 (1, [(1, 2), (4, 2), (7, 1), (8, 2), (11, 2)]),
      .det,
      .eq [(0, (2, [(8, 1), (16, 1)]))] [(1, [(6, 1)]), (1, [(15, 1)]), (2, [(4, 2), (7, 1), (8, 1)]), (2, [(4, 1), (15, 1), (16, 1), (24, 2)]), (1, [(4, 1), (8, 1), (24, 1)]), (2, [(4, 3), (7, 1), (15, 1), (16, 2)])],
      .det,
      .no [] 0 (1, [(4, 1), (5, 2), (6, 1), (10, 2)]),
      .det,
      .no [] 6 (2, [(4, 1), (5, 2), (7, 1), (15, 1)]),
      .det,
      .no [] 0 (1, [(4, 1), (6, 1), (10, 2)]),
      .det,
      .no [] 0 (1, [(4, 4), (8, 3), (16, 1), (17, 1)]),
      .det,
      .no [] 2 (2, [(4, 1), (5, 2), (6, 2), (8, 1), (15, 1)]),
      .det,
      .no [] 5 (2, [(7, 1), (16, 1)]),
      .det,
      .no [] 0 (1, [(3, 2), (4, 2), (5, 2), (6, 2), (7, 1), (10, 2)]),
      .det,
      .det],
    .no [(0, (1, [(8, 1), (10, 1)]))] 4 (1, [(15, 1)]),
    .no [] 0 (1, [(4, 1), (11, 1)]),
    .node [
      .det,
      .det,
      .det,
      .no [] 0 (1, [(2, 1), (4, 1), (5, 1), (10, 1)]),
      .no [] 0 (1, [(8, 1), (11, 2)]),
      .no [] 1 (2, [(7, 1), (8, 1), (11, 2)]),
      .det,
      .det,
      .det,
      .no [] 0 (1, [(1, 1), (4, 1), (5, 1), (10, 1)]),
      .no [] 1 (1, [(10, 1)]),
      .no [] 7 (2, [(4, 1), (5, 2), (7, 1), (15, 1)]),
      .det,
      .det,
      .det,
      .no [] 0 (1, [(4, 1), (5, 2), (6, 1), (10, 2)]),
      .no [] 0 (1, [(4, 2), (8, 1), (11, 2)]),
      .no [] 0 (1, [(1, 2), (4, 1), (5, 2), (15, 1)]),
      .det,
      .det,
      .det,
      .no [] 0 (1, [(4, 2), (5, 2), (7, 1), (10, 2)]),
      .no [(0, (1, [(8, 1), (19, 1)])), (1, (1, [(21, 1)])), (4, (1, [(16, 1)])), (5, (1, [(8, 1), (19, 1)])), (6, (1, [(21, 1)]))] 0 (1, [(7, 1), (8, 2), (26, 2), (28, 4)]),
      .no [] 0 (1, [(2, 2), (4, 1), (5, 2), (15, 1)]),
      .det,
      .det,
      .det],
    .no [] 2 (2, [(4, 1), (6, 1), (8, 1), (13, 2)]),
    .no [] 0 (1, [(4, 2), (8, 1), (13, 2)]),
    .no [] 0 (1, [(1, 2), (4, 1), (5, 1), (12, 1)]),
    .no [] 1 (2, [(4, 1), (5, 1), (7, 1), (8, 1), (12, 1)]),
    .no [] 0 (1, [(4, 2), (8, 2), (14, 1)]),
    .no [] 2 (2, [(5, 1), (6, 1), (8, 1), (12, 1)]),
    .node [
      .det,
      .det,
      .no [] 0 (1, [(3, 2), (4, 1), (5, 2), (6, 1), (7, 2), (10, 2)]),
      .det,
      .no [] 0 (1, [(7, 1), (10, 2)]),
      .det,
      .no [] 0 (1, [(2, 2), (4, 1), (6, 1), (8, 2), (11, 2)]),
      .det,
      .no [] 0 (1, [(1, 2), (4, 2), (5, 2), (7, 2), (8, 1), (10, 2)]),
      .det,
      .no [] 5 (2, [(4, 1), (6, 1), (16, 1)]),
      .det,
      .no [] 6 (2, [(5, 2), (6, 1), (15, 1)]),
      .det,
      .no [] 0 (1, [(4, 2), (5, 2), (7, 1), (10, 2)]),
      .det,
      .no [] 0 (1, [(4, 2), (8, 1), (11, 2)]),
      .det,
      .no [] 1 (2, [(4, 1), (5, 2), (7, 2), (8, 1), (15, 1)]),
      .det,
      .no [] 0 (1, [(4, 2), (8, 3), (16, 1), (17, 1)]),
      .det,
      .eq [(0, (1, [(8, 1), (19, 1)])), (1, (1, [(7, 1), (21, 1)])), (3, (1, [(8, 1), (15, 1), (19, 1)])), (4, (1, [(16, 1)])), (5, (1, [(8, 1), (19, 1)])), (6, (1, [(7, 1), (21, 1)]))] [(2, [(7, 2), (8, 1), (17, 1)]), (1, [(8, 1), (15, 1), (19, 1), (29, 1)]), (2, [(7, 1), (8, 1)]), (2, [(15, 1), (19, 1)]), (1, [(8, 1), (29, 1)]), (2, [(16, 1), (17, 1)])],
      .det,
      .no [] 0 (1, [(4, 1), (5, 2), (7, 3), (15, 1), (17, 1)]),
      .det,
      .det],
    .node [
      .no [] 0 (1, [(2, 1), (3, 1), (10, 1)]),
      .det,
      .no [] 0 (1, [(3, 2), (7, 1), (10, 2)]),
      .no [] 0 (1, [(2, 1), (10, 1)]),
      .det,
      .no [] 0 (1, [(7, 1), (10, 2)]),
      .no [] 0 (1, [(2, 2), (8, 1), (10, 2)]),
      .det,
      .no [] 0 (1, [(1, 2), (4, 2), (7, 1), (8, 2), (11, 2)]),
      .no [] 0 (1, [(1, 2), (4, 2), (10, 2), (16, 1)]),
      .det,
      .no [] 5 (2, [(4, 1), (6, 1), (16, 1)]),
      .no [] 2 (1, [(10, 1)]),
      .det,
      .no [(0, (1, [(8, 1), (19, 1)])), (4, (1, [(17, 1)])), (5, (1, [(8, 1), (19, 1)]))] 1 (1, [(26, 1)]),
      .no [] 2 (2, [(4, 1), (6, 1), (8, 1), (11, 2)]),
      .det,
      .no [] 0 (1, [(1, 2), (4, 1), (11, 2), (15, 1)]),
      .no [] 1 (2, [(4, 2), (7, 1), (8, 2), (16, 1)]),
      .det,
      .no [] 2 (4, [(6, 1), (8, 3), (15, 1), (16, 1)]),
      .eq [(0, (1, [(8, 1), (19, 1)])), (3, (1, [(8, 1), (15, 1), (19, 1)])), (4, (1, [(17, 1)])), (5, (1, [(8, 1), (19, 1)]))] [(2, [(7, 2), (8, 1), (16, 1)]), (2, [(15, 1), (19, 1), (27, 2)]), (1, [(7, 1), (27, 1)]), (2, [(8, 1), (15, 1), (16, 1), (19, 1)]), (1, [(8, 1)]), (1, [(17, 1)])],
      .det,
      .no [] 0 (1, [(2, 2), (8, 1), (15, 1), (19, 1)]),
      .no [] 0 (1, [(6, 1), (11, 2), (15, 1), (17, 1)]),
      .det,
      .no [] 0 (1, [(1, 1), (2, 1), (3, 2), (11, 1), (15, 1)])],
    .no [] 0 (1, [(2, 2), (5, 1), (12, 1)]),
    .no [] 0 (1, [(4, 1), (5, 1), (6, 1), (7, 1), (10, 1), (12, 1)]),
    .no [] 0 (2, [(4, 1), (10, 1), (12, 1)]),
    .no [] 0 (3, [(1, 2), (2, 2), (4, 2), (5, 1), (10, 1), (12, 1)])]

theorem uniqI_6_ok : uniqI_6.check true true (1, -1, 0) = true := by decide +kernel

/-- All second bases with first vector `(1, -1, 1)`. -/
def uniqI_7 : UTree1 :=
  .no [] 2 (2, [(4, 1), (5, 1), (6, 1), (8, 1), (10, 1)])

theorem uniqI_7_ok : uniqI_7.check true true (1, -1, 1) = true := by decide +kernel

/-- All second bases with first vector `(1, 0, -1)`. -/
def uniqI_8 : UTree1 :=
  .node [
    .no [] 0 (3, [(1, 2), (3, 2), (4, 2), (5, 2), (10, 1), (12, 1)]),
    .no [] 0 (1, [(3, 2), (12, 1)]),
    .no [] 0 (1, [(3, 2), (4, 1), (5, 2), (6, 1), (7, 2), (13, 2)]),
    .no [] 0 (2, [(4, 1), (5, 2), (10, 1), (12, 1)]),
    .no [] 0 (1, [(7, 1), (13, 2)]),
    .no [] 0 (1, [(4, 1), (5, 1), (7, 1), (13, 1)]),
    .no [] 0 (1, [(4, 1), (5, 2), (6, 1), (8, 1), (10, 1), (12, 1)]),
    .no [] 1 (2, [(7, 1), (8, 1), (13, 2)]),
    .no [] 0 (1, [(1, 2), (4, 2), (5, 2), (7, 2), (8, 1), (13, 2)]),
    .no [] 0 (1, [(1, 2), (4, 1), (5, 1), (12, 1)]),
    .no [(0, (1, [(5, 1), (7, 1), (10, 1)])), (1, (1, [(4, 1), (7, 1), (10, 1)]))] 4 (2, [(5, 1), (6, 1), (10, 1), (16, 2)]),
    .no [] 3 (2, [(4, 1), (5, 2), (6, 1), (7, 1), (13, 2)]),
    .node [
      .no [] 0 (1, [(1, 2), (2, 2), (4, 1), (5, 2), (15, 1)]),
      .no [] 0 (1, [(1, 2), (3, 2), (5, 2), (11, 2), (15, 2), (17, 1)]),
      .no [] 0 (1, [(3, 2), (4, 1), (5, 2), (6, 1), (7, 2), (11, 2)]),
      .det,
      .det,
      .det,
      .no [] 0 (1, [(4, 2), (5, 4), (6, 1), (15, 1), (17, 1)]),
      .no [] 1 (2, [(7, 1), (8, 1), (11, 2)]),
      .no [] 0 (1, [(1, 2), (4, 2), (5, 2), (7, 1), (10, 2)]),
      .no [] 0 (1, [(1, 2), (4, 1), (5, 2), (15, 1)]),
      .no [(0, (2, [(5, 2), (7, 1), (17, 1)])), (1, (2, [(4, 2), (7, 1), (17, 1)]))] 6 (2, [(4, 1), (5, 2), (6, 1), (17, 1), (25, 2)]),
      .no [] 0 (1, [(4, 1), (5, 2), (6, 1), (10, 2)]),
      .det,
      .det,
      .det,
      .eq [(0, (2, [(5, 2), (7, 1), (17, 1)])), (1, (2, [(6, 1), (15, 1)]))] [(1, [(5, 1), (6, 1)]), (1, [(5, 1), (15, 1)]), (2, [(4, 1), (5, 2), (6, 1), (7, 1), (25, 2)]), (2, [(4, 2), (5, 2), (16, 1), (17, 1)]), (2, [(4, 2), (5, 2), (7, 1), (8, 1)]), (1, [(4, 1), (5, 1), (17, 1), (25, 1)])],
      .no [] 1 (1, [(10, 1)]),
      .no [] 0 (1, [(1, 1), (4, 1), (5, 1), (10, 1)]),
      .no [] 1 (2, [(4, 1), (5, 2), (7, 1), (15, 1)]),
      .no [] 5 (2, [(8, 1), (16, 1)]),
      .no [] 0 (1, [(2, 2), (4, 1), (5, 2), (6, 1), (10, 2)]),
      .det,
      .det,
      .det,
      .no [] 3 (2, [(4, 1), (5, 2), (6, 1), (7, 2), (16, 1)]),
      .no [] 0 (1, [(3, 2), (10, 2), (16, 1)]),
      .no [] 0 (1, [(1, 1), (2, 1), (4, 1), (5, 1), (10, 1)])],
    .no [] 0 (1, [(4, 1), (11, 1)]),
    .no [] 0 (1, [(4, 2), (5, 2), (7, 1), (13, 2)]),
    .node [
      .det,
      .det,
      .no [] 0 (1, [(3, 2), (4, 2), (5, 2), (6, 2), (7, 1), (10, 2)]),
      .det,
      .no [] 0 (1, [(7, 1), (11, 2)]),
      .det,
      .no [] 0 (1, [(4, 2), (5, 4), (6, 3), (15, 1), (17, 1)]),
      .det,
      .no [] 0 (1, [(1, 2), (4, 2), (5, 2), (7, 2), (8, 1), (11, 2)]),
      .det,
      .no [] 0 (1, [(4, 1), (6, 1), (10, 2)]),
      .det,
      .eq [] [(1, [(5, 1), (6, 1)]), (1, [(5, 1), (15, 1)]), (1, [(4, 1), (5, 1), (7, 1)]), (1, [(4, 1), (5, 1), (16, 1)]), (2, [(4, 1), (5, 2), (6, 1), (7, 1)]), (2, [(4, 1), (5, 2), (15, 1), (16, 1)])],
      .det,
      .no [] 0 (1, [(4, 1), (5, 2), (6, 1), (10, 2)]),
      .det,
      .no [] 6 (2, [(4, 1), (8, 1), (15, 1)]),
      .det,
      .no [] 0 (1, [(4, 4), (5, 4), (7, 3), (16, 1), (17, 1)]),
      .det,
      .no [] 0 (1, [(2, 2), (4, 2), (5, 2), (6, 2), (8, 1), (10, 2)]),
      .det,
      .no [] 5 (2, [(8, 1), (16, 1)]),
      .det,
      .no [] 3 (2, [(4, 1), (5, 2), (6, 2), (7, 1), (15, 1)]),
      .det,
      .det],
    .node [
      .det,
      .no [] 0 (1, [(3, 1), (4, 1), (10, 1)]),
      .det,
      .det,
      .no [] 0 (1, [(7, 1), (11, 2)]),
      .det,
      .det,
      .no [] 1 (2, [(7, 1), (8, 1), (11, 2)]),
      .det,
      .no [] 0 (1, [(1, 1), (4, 1), (10, 1)]),
      .det,
      .no [] 0 (1, [(4, 1), (6, 1), (10, 2)]),
      .no [] 1 (1, [(10, 1)]),
      .det,
      .no [] 0 (1, [(4, 2), (5, 2), (7, 1), (11, 2)]),
      .no [] 7 (2, [(4, 1), (8, 1), (15, 1)]),
      .det,
      .no [] 0 (1, [(1, 2), (4, 1), (15, 1)]),
      .det,
      .no [] 0 (1, [(4, 2), (8, 1), (10, 2)]),
      .det,
      .det,
      .no [(0, (1, [(5, 1), (7, 1), (19, 1)])), (1, (1, [(4, 1), (7, 1), (19, 1)])), (3, (1, [(16, 1)])), (4, (1, [(16, 1), (25, 2)])), (5, (1, [(5, 1), (7, 1), (19, 1)])), (6, (1, [(4, 1), (7, 1), (19, 1)]))] 0 (1, [(7, 2), (8, 1), (26, 2), (29, 4)]),
      .det,
      .det,
      .no [] 0 (1, [(3, 2), (4, 1), (15, 1)]),
      .det],
    .no [] 0 (1, [(1, 2), (4, 1), (5, 1), (12, 1)]),
    .no [] 1 (2, [(4, 1), (5, 1), (7, 1), (8, 1), (12, 1)]),
    .node [
      .det,
      .det,
      .no [] 0 (1, [(3, 2), (4, 1), (5, 2), (6, 1), (7, 2), (11, 2)]),
      .det,
      .no [] 0 (1, [(8, 1), (10, 2)]),
      .det,
      .no [] 0 (1, [(2, 2), (4, 1), (6, 1), (8, 2), (10, 2)]),
      .det,
      .no [] 0 (1, [(1, 2), (4, 2), (7, 1), (8, 2), (10, 2)]),
      .det,
      .no [] 6 (2, [(6, 1), (15, 1)]),
      .det,
      .no [] 5 (2, [(4, 1), (5, 2), (6, 1), (16, 1)]),
      .det,
      .no [] 0 (1, [(4, 2), (5, 2), (7, 1), (11, 2)]),
      .det,
      .no [] 0 (1, [(4, 2), (8, 1), (10, 2)]),
      .det,
      .no [] 1 (2, [(4, 1), (7, 1), (8, 2), (15, 1)]),
      .det,
      .no [] 0 (1, [(4, 1), (8, 3), (15, 1), (17, 1)]),
      .det,
      .eq [(0, (1, [(5, 1), (7, 1), (19, 1)])), (1, (1, [(4, 1), (7, 1), (19, 1)])), (3, (1, [(16, 1)])), (4, (1, [(5, 1), (7, 1), (15, 1), (19, 1)])), (5, (1, [(5, 1), (7, 1), (19, 1)])), (6, (1, [(4, 1), (7, 1), (19, 1)]))] [(2, [(7, 1), (8, 2), (17, 1)]), (1, [(5, 1), (7, 1), (15, 1), (19, 1), (29, 1)]), (1, [(7, 1)]), (1, [(16, 1)]), (2, [(7, 1), (8, 1), (29, 2)]), (2, [(5, 1), (7, 1), (15, 1), (17, 1), (19, 1)])],
      .det,
      .no [] 0 (1, [(4, 2), (5, 2), (7, 3), (16, 1), (17, 1)]),
      .det,
      .det],
    .no [] 0 (1, [(4, 1), (5, 2), (6, 1), (8, 1), (10, 1), (12, 1)]),
    .no [] 0 (1, [(4, 2), (5, 2), (7, 2), (14, 1)]),
    .node [
      .no [] 0 (1, [(2, 1), (3, 1), (10, 1)]),
      .no [] 0 (1, [(3, 1), (10, 1)]),
      .no [] 0 (1, [(3, 2), (7, 1), (10, 2)]),
      .det,
      .det,
      .det,
      .no [] 0 (1, [(2, 2), (8, 1), (10, 2)]),
      .no [] 0 (1, [(8, 1), (10, 2)]),
      .no [] 0 (1, [(1, 2), (4, 2), (5, 2), (7, 2), (8, 1), (11, 2)]),
      .no [] 0 (1, [(1, 2), (4, 2), (5, 2), (10, 2), (16, 1)]),
      .no [] 3 (1, [(10, 1)]),
      .no [] 3 (2, [(4, 1), (5, 2), (6, 1), (7, 1), (11, 2)]),
      .det,
      .det,
      .det,
      .no [] 5 (2, [(4, 1), (5, 2), (6, 1), (16, 1)]),
      .no [(0, (1, [(5, 1), (7, 1), (19, 1)])), (1, (1, [(4, 1), (7, 1), (19, 1)])), (3, (1, [(17, 1)])), (4, (1, [(17, 1), (25, 2)])), (5, (1, [(5, 1), (7, 1), (19, 1)]))] 0 (1, [(17, 1), (25, 2), (26, 2), (28, 4)]),
      .no [] 0 (1, [(1, 2), (4, 1), (5, 2), (11, 2), (15, 1)]),
      .no [] 1 (2, [(4, 2), (5, 2), (7, 2), (8, 1), (16, 1)]),
      .eq [(0, (1, [(5, 1), (7, 1), (19, 1)])), (1, (1, [(4, 1), (7, 1), (19, 1)])), (3, (1, [(17, 1)])), (4, (1, [(5, 1), (7, 1), (15, 1), (19, 1)])), (5, (1, [(5, 1), (7, 1), (19, 1)]))] [(2, [(7, 1), (8, 2), (16, 1)]), (2, [(5, 1), (15, 1), (19, 1), (28, 2)]), (2, [(7, 1), (8, 1), (28, 2)]), (2, [(16, 1), (17, 1)]), (2, [(7, 1), (8, 1)]), (2, [(5, 1), (15, 1), (19, 1)])],
      .no [] 0 (1, [(5, 2), (6, 1), (11, 2), (15, 1), (17, 1)]),
      .det,
      .det,
      .det,
      .no [] 3 (4, [(5, 2), (6, 1), (7, 3), (15, 1), (16, 1)]),
      .no [] 0 (1, [(3, 2), (5, 1), (7, 1), (15, 1), (19, 1)]),
      .no [] 0 (1, [(1, 1), (2, 2), (3, 1), (5, 1), (11, 1), (15, 1)])],
    .no [] 0 (2, [(4, 1), (5, 2), (10, 1), (12, 1)]),
    .no [] 3 (2, [(5, 1), (6, 1), (7, 1), (12, 1)]),
    .no [] 0 (1, [(3, 2), (12, 1)]),
    .no [] 0 (3, [(1, 2), (3, 2), (4, 2), (5, 2), (10, 1), (12, 1)])]

theorem uniqI_8_ok : uniqI_8.check true true (1, 0, -1) = true := by decide +kernel

/-- All second bases with first vector `(1, 0, 0)`. -/
def uniqI_9 : UTree1 :=
  .node [
    .no [] 0 (2, [(1, 2), (2, 2), (3, 2), (4, 1), (5, 1), (12, 1)]),
    .no [] 0 (1, [(3, 2), (12, 1)]),
    .no [] 0 (1, [(3, 2), (7, 1), (13, 2)]),
    .no [] 0 (1, [(2, 2), (5, 1), (12, 1)]),
    .no [] 0 (1, [(13, 1)]),
    .no [] 0 (1, [(7, 1), (13, 2)]),
    .no [] 0 (1, [(2, 2), (8, 1), (13, 2)]),
    .no [] 0 (1, [(8, 1), (13, 2)]),
    .no [] 1 (2, [(4, 1), (5, 1), (7, 1), (8, 1), (12, 1)]),
    .no [] 0 (1, [(1, 2), (4, 1), (5, 1), (12, 1)]),
    .no [] 3 (1, [(13, 1)]),
    .no [(1, (1, [(6, 1), (12, 1)]))] 4 (1, [(15, 1)]),
    .no [] 2 (1, [(13, 1)]),
    .no [] 0 (1, [(4, 1), (11, 1)]),
    .node [
      .no [] 0 (1, [(1, 1), (2, 1), (4, 1), (5, 1), (10, 1)]),
      .no [] 0 (1, [(3, 1), (11, 1)]),
      .no [] 0 (1, [(3, 2), (7, 1), (11, 2)]),
      .det,
      .det,
      .det,
      .no [] 0 (1, [(2, 2), (4, 1), (5, 2), (6, 1), (10, 2)]),
      .no [] 0 (1, [(8, 1), (11, 2)]),
      .no [] 1 (2, [(4, 1), (5, 2), (7, 1), (15, 1)]),
      .no [] 0 (1, [(1, 1), (4, 1), (5, 1), (10, 1)]),
      .no [] 1 (1, [(10, 1)]),
      .no [(1, (2, [(6, 1), (15, 1)]))] 6 (1, [(24, 1)]),
      .det,
      .det,
      .det,
      .no [] 0 (1, [(4, 1), (5, 2), (6, 1), (10, 2)]),
      .eq [(1, (1, [(21, 1)])), (6, (1, [(21, 1)]))] [(1, []), (1, []), (1, [(24, 1)]), (1, [(25, 1)]), (1, [(25, 1)]), (1, [(24, 1)])],
      .no [] 0 (1, [(1, 2), (4, 1), (5, 2), (15, 1)]),
      .no [] 0 (1, [(1, 2), (4, 2), (5, 2), (7, 1), (10, 2)]),
      .eq [(1, (1, [(21, 1)])), (4, (1, [(16, 1)])), (6, (1, [(21, 1)])), (3, (1, [(8, 1), (26, 2)])), (8, (1, [(8, 1)]))] [(1, [(28, 1)]), (1, [(25, 1)]), (2, [(7, 1), (8, 1)]), (1, [(26, 1)]), (1, [(8, 1), (26, 1)]), (2, [(7, 1), (16, 1)])],
      .no [] 2 (2, [(5, 2), (6, 1), (15, 1)]),
      .det,
      .det,
      .det,
      .no [] 3 (2, [(7, 1), (16, 1)]),
      .no [] 0 (1, [(3, 2), (16, 1)]),
      .no [] 0 (1, [(1, 2), (2, 2), (4, 1), (5, 2), (15, 1)])],
    .node [
      .det,
      .no [] 0 (1, [(3, 1), (11, 1)]),
      .det,
      .no [] 0 (1, [(2, 1), (11, 1)]),
      .det,
      .no [] 0 (1, [(7, 1), (11, 2)]),
      .det,
      .no [] 0 (1, [(8, 1), (11, 2)]),
      .det,
      .det,
      .no [] 0 (1, [(4, 1), (6, 1), (10, 2)]),
      .det,
      .no [] 2 (1, [(11, 1)]),
      .det,
      .no [] 0 (1, [(4, 1), (5, 2), (6, 1), (10, 2)]),
      .det,
      .no [(1, (1, [(6, 1), (21, 1)])), (2, (1, [(15, 1)])), (6, (1, [(6, 1), (21, 1)]))] 2 (1, [(26, 1)]),
      .det,
      .det,
      .no [] 2 (2, [(4, 1), (6, 1), (8, 1), (10, 2)]),
      .det,
      .no [] 7 (2, [(5, 2), (6, 1), (15, 1)]),
      .det,
      .no [] 0 (1, [(2, 2), (16, 1)]),
      .det,
      .no [] 0 (1, [(3, 2), (16, 1)]),
      .det],
    .node [
      .no [] 0 (1, [(1, 1), (3, 1), (4, 1), (10, 1)]),
      .det,
      .no [] 0 (1, [(3, 2), (4, 1), (6, 1), (10, 2)]),
      .no [] 0 (1, [(2, 1), (11, 1)]),
      .det,
      .no [] 0 (1, [(7, 1), (11, 2)]),
      .no [] 0 (1, [(2, 2), (8, 1), (11, 2)]),
      .det,
      .no [] 1 (2, [(4, 1), (8, 1), (15, 1)]),
      .no [] 0 (1, [(1, 1), (4, 1), (10, 1)]),
      .det,
      .no [] 0 (1, [(4, 1), (6, 1), (10, 2)]),
      .no [] 1 (1, [(10, 1)]),
      .det,
      .eq [] [(1, []), (1, []), (1, []), (1, []), (1, []), (1, [])],
      .eq [(2, (1, [(15, 1)])), (7, (1, [(6, 1)]))] [(1, [(6, 1)]), (1, [(15, 1)]), (1, [(25, 1)]), (1, [(24, 1)]), (1, []), (1, [])],
      .det,
      .no [] 0 (1, [(1, 2), (4, 1), (15, 1)]),
      .no [] 0 (1, [(1, 2), (4, 2), (8, 1), (10, 2)]),
      .det,
      .no [] 2 (2, [(8, 1), (16, 1)]),
      .eq [(3, (1, [(16, 1)])), (8, (1, [(7, 1)]))] [(1, [(25, 1)]), (1, [(24, 1)]), (1, [(7, 1)]), (1, [(16, 1)]), (1, []), (1, [])],
      .det,
      .no [] 0 (1, [(2, 2), (16, 1)]),
      .no [] 3 (2, [(6, 1), (15, 1)]),
      .det,
      .no [] 0 (1, [(1, 2), (3, 2), (4, 1), (15, 1)])],
    .no [] 0 (1, [(1, 2), (4, 1), (5, 1), (12, 1)]),
    .no [] 1 (2, [(4, 1), (5, 1), (7, 1), (8, 1), (12, 1)]),
    .node [
      .no [] 0 (1, [(2, 1), (3, 1), (11, 1)]),
      .det,
      .no [] 0 (1, [(3, 2), (7, 1), (11, 2)]),
      .no [] 0 (1, [(2, 1), (11, 1)]),
      .det,
      .no [] 0 (1, [(7, 1), (11, 2)]),
      .no [] 0 (1, [(2, 2), (4, 1), (6, 1), (8, 2), (10, 2)]),
      .det,
      .no [] 0 (1, [(1, 2), (4, 2), (7, 1), (8, 2), (10, 2)]),
      .no [] 0 (1, [(1, 2), (4, 1), (11, 2), (15, 1)]),
      .det,
      .no [] 6 (2, [(6, 1), (15, 1)]),
      .no [] 2 (1, [(11, 1)]),
      .det,
      .eq [(4, (1, [(17, 1)])), (9, (1, [(8, 1)]))] [(1, [(25, 1)]), (1, [(24, 1)]), (1, []), (1, []), (1, [(8, 1)]), (1, [(17, 1)])],
      .no [] 2 (2, [(4, 1), (6, 1), (8, 1), (10, 2)]),
      .det,
      .no [] 0 (1, [(1, 2), (4, 2), (10, 2), (16, 1)]),
      .no [] 1 (2, [(4, 1), (7, 1), (8, 2), (15, 1)]),
      .det,
      .no [] 2 (2, [(6, 1), (8, 2), (15, 1)]),
      .eq [] [(2, [(7, 1), (8, 1)]), (2, [(16, 1), (17, 1)]), (1, [(7, 1)]), (1, [(16, 1)]), (1, [(8, 1)]), (1, [(17, 1)])],
      .det,
      .no [] 0 (1, [(2, 2), (16, 1)]),
      .no [] 0 (1, [(4, 1), (6, 1), (10, 2), (16, 1), (17, 1)]),
      .det,
      .no [] 0 (1, [(2, 2), (3, 2), (16, 1)])],
    .no [] 2 (2, [(5, 1), (6, 1), (8, 1), (12, 1)]),
    .node [
      .no [] 0 (1, [(2, 1), (3, 1), (11, 1)]),
      .no [] 0 (1, [(3, 1), (11, 1)]),
      .no [] 0 (1, [(3, 2), (4, 1), (5, 2), (6, 1), (7, 2), (10, 2)]),
      .det,
      .det,
      .det,
      .no [] 0 (1, [(2, 2), (8, 1), (11, 2)]),
      .no [] 0 (1, [(8, 1), (11, 2)]),
      .no [] 0 (1, [(1, 2), (4, 2), (5, 2), (7, 2), (8, 1), (10, 2)]),
      .no [] 0 (1, [(1, 2), (4, 1), (5, 2), (11, 2), (15, 1)]),
      .no [] 3 (1, [(11, 1)]),
      .no [] 3 (2, [(4, 1), (5, 2), (6, 1), (7, 1), (10, 2)]),
      .det,
      .det,
      .det,
      .no [] 6 (2, [(5, 2), (6, 1), (15, 1)]),
      .eq [(1, (1, [(7, 1), (21, 1)])), (3, (1, [(17, 1)])), (4, (1, [(17, 1), (24, 2)])), (6, (1, [(7, 1), (21, 1)])), (8, (1, [(17, 1), (24, 2)]))] [(2, [(7, 1), (8, 1), (28, 2)]), (1, [(25, 1)]), (1, [(24, 1)]), (2, [(8, 1), (17, 1)]), (2, [(7, 1), (8, 1)]), (1, [(17, 1), (24, 1)])],
      .no [] 0 (1, [(1, 2), (4, 2), (5, 2), (10, 2), (16, 1)]),
      .no [] 1 (2, [(4, 1), (5, 2), (7, 2), (8, 1), (15, 1)]),
      .eq [] [(2, [(7, 1), (8, 1)]), (2, [(16, 1), (17, 1)]), (2, [(7, 1), (8, 1)]), (2, [(16, 1), (17, 1)]), (2, [(7, 1), (8, 1)]), (2, [(16, 1), (17, 1)])],
      .no [] 0 (1, [(4, 1), (5, 2), (6, 1), (10, 2), (16, 1), (17, 1)]),
      .det,
      .det,
      .det,
      .no [] 3 (2, [(5, 2), (6, 1), (7, 2), (15, 1)]),
      .no [] 0 (1, [(3, 2), (16, 1)]),
      .no [] 0 (1, [(2, 2), (3, 2), (16, 1)])],
    .no [] 0 (1, [(14, 1)]),
    .no [] 0 (1, [(2, 2), (5, 1), (12, 1)]),
    .no [] 3 (2, [(5, 1), (6, 1), (7, 1), (12, 1)]),
    .no [] 0 (1, [(3, 2), (12, 1)]),
    .no [] 0 (2, [(1, 2), (2, 2), (3, 2), (4, 1), (5, 1), (12, 1)])]

theorem uniqI_9_ok : uniqI_9.check true true (1, 0, 0) = true := by decide +kernel

/-- All second bases with first vector `(1, 0, 1)`. -/
def uniqI_10 : UTree1 :=
  .no [] 0 (1, [(2, 2), (4, 1), (5, 1), (10, 1)])

theorem uniqI_10_ok : uniqI_10.check true true (1, 0, 1) = true := by decide +kernel

/-- All second bases with first vector `(1, 1, -1)`. -/
def uniqI_11 : UTree1 :=
  .no [] 3 (2, [(4, 1), (5, 1), (6, 1), (7, 1), (10, 1)])

theorem uniqI_11_ok : uniqI_11.check true true (1, 1, -1) = true := by decide +kernel

/-- All second bases with first vector `(1, 1, 0)`. -/
def uniqI_12 : UTree1 :=
  .no [] 0 (1, [(3, 2), (4, 1), (10, 1)])

theorem uniqI_12_ok : uniqI_12.check true true (1, 1, 0) = true := by decide +kernel

/-- All second bases with first vector `(1, 1, 1)`. -/
def uniqI_13 : UTree1 :=
  .no [] 0 (2, [(1, 2), (2, 2), (3, 2), (4, 2), (5, 1), (10, 1)])

theorem uniqI_13_ok : uniqI_13.check true true (1, 1, 1) = true := by decide +kernel

theorem uniqI {u : ℤ × ℤ × ℤ} (hu : u ∈ Form.vecs.drop 13) :
    ∃ T : UTree1, T.check true true u = true := by
  have h : u ∈ ([(0, 0, 0), (0, 0, 1), (0, 1, -1), (0, 1, 0), (0, 1, 1), (1, -1, -1), (1, -1, 0), (1, -1, 1), (1, 0, -1), (1, 0, 0), (1, 0, 1), (1, 1, -1), (1, 1, 0), (1, 1, 1)] : List (ℤ × ℤ × ℤ)) := hu
  simp only [List.mem_cons, List.not_mem_nil, or_false] at h
  rcases h with rfl | rfl | rfl | rfl | rfl | rfl | rfl | rfl | rfl | rfl | rfl | rfl | rfl | rfl
  · exact ⟨_, uniqI_0_ok⟩
  · exact ⟨_, uniqI_1_ok⟩
  · exact ⟨_, uniqI_2_ok⟩
  · exact ⟨_, uniqI_3_ok⟩
  · exact ⟨_, uniqI_4_ok⟩
  · exact ⟨_, uniqI_5_ok⟩
  · exact ⟨_, uniqI_6_ok⟩
  · exact ⟨_, uniqI_7_ok⟩
  · exact ⟨_, uniqI_8_ok⟩
  · exact ⟨_, uniqI_9_ok⟩
  · exact ⟨_, uniqI_10_ok⟩
  · exact ⟨_, uniqI_11_ok⟩
  · exact ⟨_, uniqI_12_ok⟩
  · exact ⟨_, uniqI_13_ok⟩

end AutoGR
