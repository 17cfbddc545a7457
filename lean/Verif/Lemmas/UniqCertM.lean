import Verif.Lemmas.UniqTree

/-!
# Certificates for two reduced bases of different types

One tree for each first vector, up to its sign.
-/

namespace AutoGR

/-- All second bases with first vector `(0, 0, 0)`. -/
def uniqM_0 : UTree1 :=
  .no [] 0 (1, [(9, 1)])

theorem uniqM_0_ok : uniqM_0.check true false (0, 0, 0) = true := by decide +kernel

/-- All second bases with first vector `(0, 0, 1)`. -/
def uniqM_1 : UTree1 :=
  .node [
    .no [] 0 (2, [(1, 2), (2, 2), (3, 2), (4, 1), (5, 1), (12, 1)]),
    .no [] 0 (1, [(3, 2), (12, 1)]),
    .no [] 3 (2, [(5, 1), (6, 1), (7, 1), (12, 1)]),
    .no [] 0 (1, [(2, 2), (5, 1), (12, 1)]),
    .node [
      .no [] 0 (1, [(2, 1), (3, 1), (10, 1)]),
      .no [] 0 (1, [(3, 1), (10, 1)]),
      .no [] 0 (1, [(3, 2), (7, 1), (10, 2)]),
      .det,
      .det,
      .det,
      .no [] 0 (1, [(2, 2), (8, 1), (10, 2)]),
      .no [] 0 (1, [(8, 1), (10, 2)]),
      .no [] 0 (1, [(1, 2), (4, 2), (5, 2), (7, 1), (11, 2)]),
      .no [] 0 (1, [(1, 2), (4, 2), (5, 2), (16, 1)]),
      .no [] 3 (1, [(10, 1)]),
      .no [] 0 (1, [(4, 1), (5, 2), (6, 1), (11, 2)]),
      .det,
      .det,
      .det,
      .no [(0, (1, [(5, 2), (6, 1), (16, 1)])), (1, (2, [(4, 1), (6, 1), (16, 1)])), (2, (1, [(4, 1), (5, 2), (16, 1)])), (3, (1, [(4, 2), (5, 2), (16, 1), (25, 2)])), (4, (1, [(4, 2), (5, 2), (10, 2), (16, 1), (25, 2)])), (5, (1, [(5, 2), (6, 1), (16, 1)])), (6, (2, [(4, 1), (6, 1), (16, 1)])), (8, (1, [(4, 1), (5, 2), (6, 1)]))] 0 (1, [(4, 2), (5, 2), (16, 1), (25, 2), (32, 2)]),
      .no [] 1 (1, [(11, 1)]),
      .no [] 0 (1, [(1, 1), (4, 1), (5, 1), (11, 1)]),
      .no [] 1 (2, [(4, 2), (5, 2), (7, 1), (16, 1)]),
      .no [(0, (1, [(5, 1), (20, 1)])), (1, (1, [(4, 1), (20, 1)])), (4, (1, [(5, 1), (15, 1), (20, 1)])), (5, (1, [(5, 1), (20, 1)]))] 0 (1, [(8, 1), (25, 2), (28, 2)]),
      .no [] 0 (1, [(2, 2), (4, 1), (5, 2), (6, 1), (11, 2)]),
      .det,
      .det,
      .det,
      .no [] 3 (2, [(5, 2), (6, 1), (7, 1), (18, 1)]),
      .no [] 0 (1, [(3, 2), (5, 1), (15, 1), (20, 1)]),
      .no [] 0 (1, [(1, 1), (2, 1), (4, 1), (5, 1), (11, 1)])],
    .no [] 0 (1, [(4, 2), (5, 2), (7, 1), (13, 2)]),
    .no [] 2 (2, [(5, 1), (6, 1), (8, 1), (12, 1)]),
    .node [
      .det,
      .det,
      .det,
      .no [] 0 (1, [(8, 1), (10, 2), (12, 2)]),
      .no [] 0 (1, [(8, 1), (10, 2)]),
      .no [] 0 (1, [(4, 2), (5, 2), (7, 1), (11, 2)]),
      .det,
      .det,
      .det,
      .no [] 0 (1, [(1, 2), (4, 2), (5, 2), (16, 1)]),
      .no [(0, (1, [(8, 1), (15, 1)])), (1, (1, [(4, 1), (20, 1)])), (4, (1, [(4, 1), (15, 1)])), (5, (1, [(8, 1), (15, 1)])), (2, (1, [(4, 1), (8, 1), (28, 2)])), (3, (1, [(4, 2), (8, 1), (12, 2), (28, 2)])), (6, (1, [(4, 1), (20, 1)]))] 0 (1, [(4, 4), (7, 1), (8, 2), (28, 4), (31, 2)]),
      .no [] 0 (1, [(4, 1), (5, 2), (6, 1), (11, 2)]),
      .det,
      .det,
      .det,
      .no [] 0 (1, [(4, 2), (8, 1), (10, 2), (12, 2)]),
      .no [] 0 (1, [(4, 2), (8, 1), (10, 2)]),
      .no [] 0 (1, [(1, 1), (4, 1), (5, 1), (11, 1)]),
      .det,
      .det,
      .det,
      .no [(0, (2, [(5, 2), (7, 1), (16, 1)])), (1, (2, [(4, 2), (7, 1), (16, 1)])), (3, (1, [(4, 2), (5, 2), (16, 1)])), (4, (1, [(4, 1), (5, 2), (7, 1), (18, 1)])), (5, (2, [(5, 2), (7, 1), (16, 1)])), (6, (2, [(4, 2), (7, 1), (16, 1)]))] 0 (1, [(4, 5), (5, 6), (7, 5), (18, 1), (27, 2), (30, 4)]),
      .no [] 1 (1, [(11, 1), (12, 1)]),
      .no [] 0 (1, [(2, 1), (4, 1), (5, 1), (11, 1)]),
      .det,
      .det,
      .det],
    .no [] 0 (1, [(1, 2), (4, 2), (5, 2), (7, 1), (13, 2)]),
    .no [] 0 (1, [(1, 2), (4, 1), (5, 1), (12, 1)]),
    .node [
      .no [] 0 (1, [(1, 1), (3, 1), (4, 1), (10, 1)]),
      .no [] 0 (1, [(3, 1), (4, 1), (10, 1)]),
      .no [] 0 (1, [(3, 2), (4, 1), (6, 1), (10, 2)]),
      .no [] 0 (1, [(2, 2), (4, 2), (5, 2), (16, 1)]),
      .no [] 3 (1, [(10, 1)]),
      .no [] 0 (1, [(4, 2), (5, 2), (7, 1), (11, 2)]),
      .no [] 2 (2, [(4, 1), (5, 2), (6, 1), (16, 1)]),
      .no [(0, (1, [(8, 1), (15, 1)])), (1, (1, [(4, 1), (20, 1)])), (4, (1, [(4, 1), (15, 1)])), (5, (1, [(8, 1), (15, 1)]))] 0 (1, [(4, 4), (7, 1), (8, 2), (27, 2), (28, 4)]),
      .no [] 0 (1, [(1, 2), (4, 2), (5, 2), (7, 1), (11, 2)]),
      .det,
      .det,
      .det,
      .det,
      .det,
      .det,
      .det,
      .det,
      .det,
      .no [] 0 (1, [(1, 2), (4, 2), (8, 1), (10, 2)]),
      .no [] 0 (1, [(4, 2), (8, 1), (10, 2)]),
      .no [] 0 (1, [(2, 2), (4, 1), (5, 2), (6, 1), (11, 2)]),
      .no [(0, (2, [(5, 2), (7, 1), (16, 1)])), (1, (2, [(4, 2), (7, 1), (16, 1)])), (3, (1, [(4, 2), (5, 2), (16, 1)])), (4, (1, [(4, 2), (5, 2), (16, 1), (26, 2)])), (5, (2, [(5, 2), (7, 1), (16, 1)])), (6, (2, [(4, 2), (7, 1), (16, 1)])), (2, (1, [(4, 1), (5, 2), (7, 1), (30, 2)])), (8, (1, [(4, 2), (5, 2), (7, 1)]))] 0 (1, [(4, 2), (5, 2), (7, 1), (30, 2), (32, 2)]),
      .no [] 2 (1, [(11, 1)]),
      .no [] 0 (1, [(2, 1), (4, 1), (5, 1), (11, 1)]),
      .no [] 3 (2, [(6, 1), (15, 1)]),
      .no [] 0 (1, [(3, 2), (4, 1), (15, 1)]),
      .no [] 0 (1, [(1, 1), (2, 1), (4, 1), (5, 1), (11, 1)])],
    .no [] 0 (1, [(4, 1), (5, 2), (6, 1), (13, 2)]),
    .no [] 0 (1, [(4, 2), (5, 2), (14, 1)]),
    .no [] 0 (1, [(4, 1), (11, 1)]),
    .no [] 0 (1, [(4, 1), (5, 1), (13, 1)]),
    .node [
      .no [] 0 (1, [(1, 2), (2, 2), (4, 2), (5, 2), (16, 1)]),
      .no [] 0 (1, [(3, 2), (4, 2), (5, 2), (6, 1), (18, 1)]),
      .no [] 3 (2, [(4, 1), (5, 2), (6, 2), (7, 1), (15, 1)]),
      .no [] 0 (1, [(2, 2), (4, 2), (5, 2), (16, 1)]),
      .no [(0, (1, [(5, 2), (6, 1), (17, 1)])), (1, (2, [(4, 1), (6, 1), (17, 1)])), (2, (1, [(4, 1), (5, 2), (17, 1)])), (3, (1, [(4, 2), (5, 2), (17, 1), (25, 2)])), (4, (1, [(4, 2), (5, 2), (10, 2), (17, 1), (25, 2)])), (5, (1, [(5, 2), (6, 1), (17, 1)])), (6, (2, [(4, 1), (6, 1), (17, 1)])), (8, (1, [(4, 2), (5, 2), (17, 1), (25, 2)]))] 0 (1, [(4, 1), (5, 2), (6, 1), (32, 2)]),
      .no [] 0 (1, [(4, 2), (5, 2), (7, 1), (11, 2)]),
      .no [] 0 (1, [(2, 2), (4, 2), (5, 2), (6, 2), (8, 1), (10, 2)]),
      .no [] 0 (1, [(4, 2), (8, 1), (10, 2), (11, 2)]),
      .no [] 0 (1, [(1, 2), (4, 2), (5, 2), (7, 1), (11, 2)]),
      .det,
      .det,
      .det,
      .det,
      .det,
      .det,
      .det,
      .det,
      .det,
      .no [] 0 (1, [(4, 4), (5, 4), (7, 1), (16, 1), (17, 1)]),
      .no [(0, (1, [(5, 2), (6, 1), (17, 1)])), (1, (2, [(4, 1), (6, 1), (17, 1)])), (2, (1, [(4, 1), (5, 2), (17, 1)])), (3, (1, [(4, 3), (5, 2), (8, 1), (18, 1), (25, 2)])), (4, (1, [(4, 2), (5, 2), (6, 1), (18, 1)])), (5, (1, [(5, 2), (6, 1), (17, 1)]))] 0 (1, [(4, 2), (8, 1), (25, 4), (30, 2)]),
      .no [] 0 (1, [(2, 2), (4, 1), (5, 2), (6, 1), (11, 2)]),
      .no [] 3 (2, [(4, 1), (5, 2), (6, 1), (7, 1), (10, 2)]),
      .no [] 2 (1, [(11, 1)]),
      .no [] 0 (1, [(2, 1), (4, 1), (5, 1), (11, 1)]),
      .no [] 0 (1, [(3, 2), (4, 2), (5, 2), (6, 2), (7, 1), (10, 2)]),
      .no [] 0 (1, [(3, 1), (4, 1), (10, 1), (11, 1)]),
      .no [] 0 (1, [(1, 1), (2, 1), (4, 1), (5, 1), (11, 1)])],
    .no [] 1 (1, [(13, 1)]),
    .no [] 0 (1, [(1, 2), (4, 1), (5, 1), (12, 1)]),
    .no [] 1 (2, [(4, 1), (5, 1), (7, 1), (8, 1), (12, 1)]),
    .node [
      .det,
      .det,
      .det,
      .no [] 0 (1, [(2, 2), (4, 2), (5, 2), (16, 1)]),
      .no [(0, (1, [(5, 1), (20, 1)])), (1, (1, [(4, 1), (20, 1)])), (4, (1, [(5, 1), (15, 1), (20, 1)])), (5, (1, [(5, 1), (20, 1)])), (2, (1, [(5, 1), (8, 1), (12, 2), (20, 1), (28, 2)])), (3, (1, [(8, 1), (28, 2)])), (6, (1, [(4, 1), (20, 1)]))] 0 (1, [(5, 1), (6, 1), (8, 2), (20, 1), (28, 4), (31, 2)]),
      .no [] 0 (1, [(4, 2), (5, 2), (7, 1), (11, 2)]),
      .det,
      .det,
      .det,
      .no [] 0 (1, [(4, 2), (8, 1), (10, 2), (12, 2)]),
      .no [] 0 (1, [(4, 2), (8, 1), (10, 2)]),
      .no [] 0 (1, [(4, 1), (5, 2), (6, 1), (11, 2)]),
      .det,
      .det,
      .det,
      .no [(0, (1, [(5, 2), (6, 1), (16, 1)])), (1, (2, [(4, 1), (6, 1), (16, 1)])), (2, (1, [(4, 1), (5, 2), (16, 1)])), (3, (1, [(4, 3), (5, 2), (8, 1), (18, 1), (25, 2)])), (4, (1, [(4, 2), (5, 2), (6, 1), (18, 1)])), (5, (1, [(5, 2), (6, 1), (16, 1)])), (6, (2, [(4, 1), (6, 1), (16, 1)]))] 0 (1, [(4, 1), (5, 2), (6, 1), (25, 2), (31, 2)]),
      .no [] 1 (1, [(11, 1)]),
      .no [] 0 (1, [(1, 1), (4, 1), (5, 1), (11, 1)]),
      .det,
      .det,
      .det,
      .no [] 0 (1, [(8, 1), (10, 2), (12, 2)]),
      .no [] 0 (1, [(8, 1), (10, 2)]),
      .no [] 0 (1, [(2, 1), (4, 1), (5, 1), (11, 1)]),
      .det,
      .det,
      .det],
    .no [] 0 (1, [(2, 2), (4, 1), (5, 2), (6, 1), (13, 2)]),
    .node [
      .no [] 0 (1, [(1, 2), (2, 2), (4, 2), (5, 2), (16, 1)]),
      .no [] 0 (1, [(3, 2), (4, 1), (5, 2), (7, 1), (18, 1)]),
      .no [] 3 (2, [(5, 2), (6, 1), (7, 2), (15, 1)]),
      .det,
      .det,
      .det,
      .no [] 0 (1, [(4, 3), (5, 4), (6, 1), (16, 1), (17, 1)]),
      .no [(0, (2, [(5, 2), (7, 1), (17, 1)])), (1, (2, [(4, 2), (7, 1), (17, 1)])), (3, (1, [(4, 2), (5, 2), (17, 1)])), (4, (1, [(4, 1), (5, 2), (7, 1), (18, 1)])), (5, (2, [(5, 2), (7, 1), (17, 1)])), (6, (2, [(4, 2), (7, 1), (17, 1)])), (9, (1, [(4, 2), (5, 2), (7, 1)]))] 0 (1, [(8, 1), (29, 2), (31, 4)]),
      .no [] 0 (1, [(1, 2), (4, 2), (5, 2), (7, 1), (11, 2)]),
      .no [] 0 (1, [(1, 2), (4, 2), (5, 2), (16, 1)]),
      .no [(0, (2, [(5, 2), (7, 1), (17, 1)])), (1, (2, [(4, 2), (7, 1), (17, 1)])), (3, (1, [(4, 2), (5, 2), (17, 1)])), (4, (1, [(4, 2), (5, 2), (17, 1), (26, 2)])), (5, (2, [(5, 2), (7, 1), (17, 1)])), (6, (2, [(4, 2), (7, 1), (17, 1)])), (9, (1, [(4, 2), (5, 2), (7, 1)]))] 0 (1, [(4, 2), (5, 2), (17, 1), (26, 2), (27, 2), (31, 4)]),
      .no [] 0 (1, [(4, 1), (5, 2), (6, 1), (11, 2)]),
      .det,
      .det,
      .det,
      .no [] 3 (2, [(4, 1), (5, 2), (6, 1), (7, 1), (10, 2)]),
      .no [] 1 (1, [(11, 1)]),
      .no [] 0 (1, [(1, 1), (4, 1), (5, 1), (11, 1)]),
      .no [] 0 (1, [(1, 2), (4, 2), (5, 2), (7, 2), (8, 1), (10, 2)]),
      .no [] 0 (1, [(8, 1), (10, 2), (11, 2)]),
      .no [] 0 (1, [(2, 2), (4, 1), (5, 2), (6, 1), (11, 2)]),
      .det,
      .det,
      .det,
      .no [] 0 (1, [(3, 2), (4, 1), (5, 2), (6, 1), (7, 2), (10, 2)]),
      .no [] 0 (1, [(3, 1), (10, 1), (11, 1)]),
      .no [] 0 (1, [(1, 1), (2, 1), (4, 1), (5, 1), (11, 1)])],
    .no [] 2 (1, [(13, 1)]),
    .no [] 0 (1, [(2, 2), (5, 1), (12, 1)]),
    .no [] 3 (2, [(5, 1), (6, 1), (7, 1), (12, 1)]),
    .no [] 0 (1, [(3, 2), (12, 1)]),
    .no [] 0 (2, [(1, 2), (2, 2), (3, 2), (4, 1), (5, 1), (12, 1)])]

theorem uniqM_1_ok : uniqM_1.check true false (0, 0, 1) = true := by decide +kernel

/-- All second bases with first vector `(0, 1, -1)`. -/
def uniqM_2 : UTree1 :=
  .node [
    .no [] 0 (3, [(2, 2), (3, 2), (4, 3), (5, 2), (10, 1), (12, 1)]),
    .no [] 0 (1, [(3, 2), (12, 1)]),
    .no [] 3 (2, [(5, 1), (6, 1), (7, 1), (12, 1)]),
    .no [] 0 (1, [(2, 2), (5, 1), (12, 1)]),
    .node [
      .det,
      .no [] 0 (1, [(3, 1), (10, 1)]),
      .det,
      .no [] 0 (1, [(2, 1), (10, 1)]),
      .det,
      .no [] 0 (1, [(7, 1), (10, 2)]),
      .det,
      .no [] 0 (1, [(8, 1), (10, 2)]),
      .det,
      .det,
      .no [] 2 (1, [(10, 1), (12, 1)]),
      .det,
      .no [] 0 (1, [(4, 1), (5, 2), (6, 1), (11, 2)]),
      .det,
      .no [(0, (1, [(5, 2), (6, 1), (16, 1)])), (1, (2, [(4, 1), (6, 1), (16, 1)])), (2, (1, [(4, 1), (5, 2), (16, 1)])), (3, (1, [(4, 2), (5, 2), (16, 1), (25, 2)])), (4, (1, [(4, 2), (5, 2), (12, 2), (16, 1), (25, 2)])), (5, (1, [(5, 2), (6, 1), (16, 1)])), (6, (2, [(4, 1), (6, 1), (16, 1)]))] 0 (1, [(4, 2), (5, 2), (8, 1), (25, 2), (31, 2)]),
      .det,
      .no [] 0 (1, [(4, 1), (6, 1), (11, 2)]),
      .det,
      .det,
      .no [(0, (1, [(5, 1), (6, 1), (20, 1)])), (1, (1, [(4, 1), (6, 1), (20, 1)])), (2, (1, [(8, 1), (18, 1)])), (3, (1, [(4, 1), (8, 1), (18, 1), (25, 2)])), (4, (1, [(6, 1), (18, 1)])), (5, (1, [(5, 1), (6, 1), (20, 1)])), (6, (1, [(4, 1), (6, 1), (20, 1)]))] 0 (1, [(4, 3), (8, 3), (18, 1), (25, 4), (31, 2)]),
      .det,
      .no [] 0 (1, [(4, 1), (5, 2), (6, 1), (11, 2), (12, 2)]),
      .det,
      .no [] 0 (1, [(2, 2), (5, 2), (6, 1), (18, 1)]),
      .det,
      .no [] 0 (1, [(4, 1), (6, 1), (11, 2), (12, 2)]),
      .det],
    .node [
      .det,
      .det,
      .no [] 0 (1, [(3, 2), (4, 1), (5, 2), (6, 1), (7, 2), (10, 2)]),
      .det,
      .no [] 0 (1, [(7, 1), (10, 2)]),
      .det,
      .no [] 0 (1, [(2, 2), (4, 2), (5, 2), (6, 2), (8, 1), (11, 2)]),
      .det,
      .no [] 0 (1, [(1, 2), (4, 2), (5, 2), (7, 2), (8, 1), (10, 2)]),
      .det,
      .no [(0, (1, [(6, 1), (16, 1)])), (1, (2, [(4, 2), (6, 1), (7, 1), (18, 1)])), (2, (1, [(4, 1), (16, 1)])), (3, (1, [(4, 2), (5, 2), (6, 1), (18, 1)])), (4, (1, [(4, 2), (5, 2), (6, 1), (18, 1), (26, 2)])), (5, (1, [(6, 1), (16, 1)])), (6, (2, [(4, 2), (6, 1), (7, 1), (18, 1)])), (8, (1, [(4, 1), (6, 1)]))] 0 (1, [(4, 1), (5, 2), (6, 1), (26, 2), (32, 2)]),
      .det,
      .no [] 0 (1, [(4, 1), (5, 2), (6, 1), (11, 2)]),
      .det,
      .no [] 0 (1, [(4, 2), (5, 2), (7, 1), (10, 2)]),
      .det,
      .no [] 0 (1, [(4, 1), (6, 1), (11, 2)]),
      .det,
      .no [] 0 (1, [(4, 3), (5, 4), (7, 3), (15, 1), (17, 1)]),
      .det,
      .no [] 0 (1, [(4, 3), (5, 4), (6, 3), (16, 1), (17, 1)]),
      .det,
      .no [(0, (1, [(5, 1), (6, 1), (20, 1)])), (1, (2, [(6, 1), (7, 1), (18, 1)])), (2, (1, [(5, 2), (7, 1), (18, 1)])), (3, (1, [(5, 2), (6, 1), (18, 1)])), (4, (1, [(5, 2), (6, 1), (18, 1), (26, 2)])), (5, (1, [(5, 1), (6, 1), (20, 1)]))] 0 (1, [(7, 1), (26, 2), (30, 2)]),
      .det,
      .no [] 0 (1, [(3, 2), (4, 2), (5, 2), (6, 2), (7, 1), (11, 2)]),
      .det,
      .det],
    .no [] 0 (1, [(2, 2), (4, 2), (5, 2), (6, 2), (8, 1), (13, 2)]),
    .no [] 2 (2, [(4, 1), (6, 1), (8, 1), (13, 2)]),
    .no [] 0 (1, [(4, 3), (5, 2), (7, 1), (8, 1), (10, 1), (12, 1)]),
    .no [] 0 (2, [(4, 3), (5, 2), (10, 1), (12, 1)]),
    .node [
      .no [] 0 (1, [(1, 1), (3, 1), (4, 1), (10, 1)]),
      .no [] 0 (1, [(3, 1), (4, 1), (10, 1)]),
      .no [] 0 (1, [(3, 2), (4, 1), (6, 1), (10, 2)]),
      .no [] 0 (1, [(2, 1), (4, 1), (5, 1), (10, 1), (11, 1)]),
      .no [] 2 (1, [(10, 1), (11, 1)]),
      .no [(0, (1, [(6, 1), (17, 1)])), (1, (2, [(4, 2), (6, 1), (7, 1), (18, 1)])), (2, (1, [(4, 1), (17, 1)])), (3, (1, [(4, 2), (5, 2), (6, 1), (18, 1)])), (4, (1, [(4, 2), (5, 2), (6, 1), (18, 1), (26, 2)])), (5, (1, [(6, 1), (17, 1)])), (6, (2, [(4, 2), (6, 1), (7, 1), (18, 1)])), (8, (1, [(4, 1), (5, 2), (6, 1), (26, 2)]))] 0 (1, [(4, 1), (6, 1), (32, 2)]),
      .no [] 0 (1, [(2, 2), (4, 2), (5, 2), (6, 2), (8, 1), (11, 2)]),
      .no [] 2 (2, [(4, 1), (6, 1), (8, 1), (11, 2)]),
      .no [] 0 (1, [(4, 3), (8, 1), (15, 1), (17, 1)]),
      .det,
      .det,
      .det,
      .det,
      .det,
      .det,
      .det,
      .det,
      .det,
      .no [] 0 (1, [(1, 2), (4, 2), (8, 1), (10, 2)]),
      .no [] 0 (1, [(4, 2), (8, 1), (10, 2)]),
      .no [] 2 (2, [(4, 2), (5, 2), (6, 2), (8, 1), (16, 1)]),
      .no [] 0 (1, [(4, 2), (5, 2), (7, 1), (10, 2), (11, 2)]),
      .no [(0, (1, [(6, 1), (17, 1)])), (1, (1, [(4, 1), (6, 1), (20, 1)])), (2, (1, [(4, 1), (17, 1)])), (3, (1, [(4, 2), (17, 1), (25, 2)])), (4, (1, [(4, 2), (17, 1), (25, 2), (26, 2)])), (5, (1, [(6, 1), (17, 1)]))] 0 (1, [(4, 2), (17, 1), (25, 2), (26, 4), (30, 2)]),
      .no [] 0 (1, [(2, 2), (4, 2), (5, 2), (6, 1), (18, 1)]),
      .no [] 0 (1, [(3, 2), (4, 2), (5, 2), (6, 2), (7, 1), (11, 2)]),
      .no [] 0 (1, [(3, 2), (4, 1), (15, 1)]),
      .no [] 0 (1, [(1, 2), (3, 2), (4, 1), (15, 1)])],
    .no [] 0 (1, [(4, 2), (5, 2), (6, 2), (14, 1)]),
    .no [] 0 (1, [(4, 1), (5, 2), (6, 1), (13, 2)]),
    .no [] 0 (1, [(4, 1), (11, 1)]),
    .node [
      .no [] 0 (1, [(1, 2), (2, 2), (4, 1), (5, 2), (15, 1)]),
      .no [] 0 (1, [(3, 2), (4, 2), (5, 2), (6, 1), (18, 1)]),
      .no [] 3 (2, [(4, 2), (5, 2), (6, 2), (7, 1), (16, 1)]),
      .no [] 0 (1, [(2, 2), (4, 1), (5, 2), (15, 1)]),
      .no [(0, (1, [(5, 2), (6, 1), (17, 1)])), (1, (2, [(4, 1), (6, 1), (17, 1)])), (2, (1, [(4, 1), (5, 2), (17, 1)])), (3, (1, [(4, 2), (5, 2), (17, 1), (25, 2)])), (4, (1, [(4, 2), (5, 2), (11, 2), (17, 1), (25, 2)])), (5, (1, [(5, 2), (6, 1), (17, 1)]))] 0 (1, [(4, 4), (5, 4), (8, 1), (17, 2), (25, 4), (30, 2)]),
      .no [] 0 (1, [(4, 2), (5, 2), (7, 1), (10, 2)]),
      .no [] 0 (1, [(2, 2), (4, 2), (5, 2), (6, 2), (8, 1), (11, 2)]),
      .no [] 0 (1, [(4, 2), (8, 1), (10, 2), (11, 2)]),
      .no [] 0 (1, [(1, 2), (4, 2), (5, 2), (7, 1), (10, 2)]),
      .det,
      .det,
      .det,
      .det,
      .det,
      .det,
      .det,
      .det,
      .det,
      .no [] 0 (1, [(4, 3), (5, 4), (7, 1), (15, 1), (17, 1)]),
      .no [(0, (1, [(5, 2), (6, 1), (17, 1)])), (1, (2, [(4, 1), (6, 1), (17, 1)])), (2, (1, [(4, 1), (5, 2), (17, 1)])), (3, (1, [(4, 3), (5, 2), (8, 1), (18, 1), (25, 2)])), (4, (1, [(4, 2), (5, 2), (6, 1), (18, 1)])), (5, (1, [(5, 2), (6, 1), (17, 1)])), (6, (2, [(4, 1), (6, 1), (17, 1)])), (8, (1, [(4, 2), (8, 1), (25, 2)]))] 0 (1, [(4, 1), (5, 2), (6, 1), (32, 2)]),
      .no [] 0 (1, [(2, 2), (4, 1), (5, 2), (6, 1), (10, 2)]),
      .no [] 3 (2, [(4, 1), (5, 2), (6, 1), (7, 1), (11, 2)]),
      .no [] 2 (1, [(10, 1)]),
      .no [] 0 (1, [(2, 1), (4, 1), (5, 1), (10, 1)]),
      .no [] 0 (1, [(3, 2), (4, 2), (5, 2), (6, 2), (7, 1), (11, 2)]),
      .no [] 0 (1, [(3, 1), (4, 1), (10, 1), (11, 1)]),
      .no [] 0 (1, [(1, 1), (2, 1), (4, 1), (5, 1), (10, 1)])],
    .no [] 0 (1, [(4, 1), (5, 1), (6, 1), (13, 1)]),
    .no [] 0 (1, [(4, 1), (6, 1), (13, 2)]),
    .no [] 0 (2, [(4, 3), (5, 2), (10, 1), (12, 1)]),
    .no [] 0 (1, [(4, 3), (5, 2), (7, 1), (8, 1), (10, 1), (12, 1)]),
    .node [
      .det,
      .det,
      .no [] 0 (1, [(4, 3), (5, 2), (6, 3), (16, 1), (17, 1)]),
      .det,
      .no [(0, (1, [(5, 1), (6, 1), (20, 1)])), (1, (1, [(4, 1), (6, 1), (20, 1)])), (2, (1, [(8, 1), (18, 1)])), (3, (1, [(4, 1), (8, 1), (18, 1), (25, 2)])), (4, (1, [(6, 1), (18, 1)])), (5, (1, [(5, 1), (6, 1), (20, 1)]))] 0 (1, [(4, 1), (8, 3), (18, 1), (25, 2), (30, 2)]),
      .det,
      .no [] 0 (1, [(2, 2), (4, 2), (5, 2), (6, 2), (8, 1), (11, 2)]),
      .det,
      .no [] 0 (1, [(4, 3), (8, 3), (15, 1), (17, 1)]),
      .det,
      .no [] 0 (1, [(4, 2), (8, 1), (10, 2)]),
      .det,
      .no [] 0 (1, [(4, 1), (5, 2), (6, 1), (11, 2)]),
      .det,
      .no [(0, (1, [(5, 2), (6, 1), (16, 1)])), (1, (2, [(4, 1), (6, 1), (16, 1)])), (2, (1, [(4, 1), (5, 2), (16, 1)])), (3, (1, [(4, 2), (5, 2), (16, 1), (25, 2)])), (4, (1, [(4, 2), (5, 2), (6, 1), (18, 1)])), (5, (1, [(5, 2), (6, 1), (16, 1)])), (6, (2, [(4, 1), (6, 1), (16, 1)])), (8, (1, [(4, 1), (5, 2), (6, 1)]))] 0 (1, [(4, 2), (8, 1), (25, 2), (32, 2)]),
      .det,
      .no [] 0 (1, [(4, 1), (6, 1), (11, 2)]),
      .det,
      .no [] 0 (1, [(1, 2), (4, 2), (7, 1), (8, 2), (10, 2)]),
      .det,
      .no [] 0 (1, [(2, 2), (4, 1), (6, 1), (8, 2), (10, 2)]),
      .det,
      .no [] 0 (1, [(8, 1), (10, 2)]),
      .det,
      .no [] 0 (1, [(3, 2), (4, 2), (5, 2), (6, 2), (7, 1), (11, 2)]),
      .det,
      .det],
    .no [] 2 (2, [(5, 1), (6, 1), (8, 1), (12, 1)]),
    .no [] 3 (2, [(4, 1), (5, 2), (6, 1), (7, 1), (13, 2)]),
    .node [
      .det,
      .no [] 0 (1, [(3, 2), (6, 1), (18, 1)]),
      .det,
      .no [] 0 (1, [(4, 1), (5, 2), (6, 1), (11, 2), (12, 2)]),
      .det,
      .no [(0, (1, [(5, 1), (6, 1), (20, 1)])), (1, (2, [(6, 1), (7, 1), (18, 1)])), (2, (1, [(5, 2), (7, 1), (18, 1)])), (3, (1, [(5, 2), (6, 1), (18, 1)])), (4, (1, [(5, 2), (6, 1), (18, 1), (26, 2)])), (5, (1, [(5, 1), (6, 1), (20, 1)])), (6, (2, [(6, 1), (7, 1), (18, 1)]))] 0 (1, [(4, 1), (5, 2), (6, 1), (26, 4), (31, 2)]),
      .det,
      .no [] 0 (1, [(4, 1), (6, 1), (11, 2), (12, 2)]),
      .det,
      .det,
      .no [(0, (1, [(6, 1), (16, 1)])), (1, (1, [(4, 1), (6, 1), (20, 1)])), (2, (1, [(4, 1), (16, 1)])), (3, (1, [(4, 2), (16, 1), (25, 2)])), (4, (1, [(4, 2), (16, 1), (25, 2), (26, 2)])), (5, (1, [(6, 1), (16, 1)])), (6, (1, [(4, 1), (6, 1), (20, 1)]))] 0 (1, [(4, 1), (6, 1), (26, 2), (31, 2)]),
      .det,
      .no [] 0 (1, [(4, 1), (5, 2), (6, 1), (11, 2)]),
      .det,
      .no [] 2 (1, [(10, 1)]),
      .det,
      .no [] 0 (1, [(4, 1), (6, 1), (11, 2)]),
      .det,
      .det,
      .no [] 0 (1, [(8, 1), (10, 2)]),
      .det,
      .no [] 0 (1, [(7, 1), (10, 2)]),
      .det,
      .no [] 0 (1, [(2, 1), (10, 1)]),
      .det,
      .no [] 0 (1, [(3, 1), (10, 1)]),
      .det],
    .no [] 0 (1, [(2, 2), (5, 1), (12, 1)]),
    .no [] 0 (1, [(3, 2), (4, 2), (5, 2), (6, 2), (7, 1), (13, 2)]),
    .no [] 0 (1, [(3, 2), (12, 1)]),
    .no [] 0 (3, [(2, 2), (3, 2), (4, 3), (5, 2), (10, 1), (12, 1)])]

theorem uniqM_2_ok : uniqM_2.check true false (0, 1, -1) = true := by decide +kernel

/-- All second bases with first vector `(0, 1, 0)`. -/
def uniqM_3 : UTree1 :=
  .node [
    .no [] 0 (2, [(1, 2), (2, 2), (3, 2), (4, 1), (5, 1), (12, 1)]),
    .no [] 0 (1, [(3, 2), (12, 1)]),
    .no [] 3 (2, [(5, 1), (6, 1), (7, 1), (12, 1)]),
    .no [] 0 (1, [(2, 2), (5, 1), (12, 1)]),
    .node [
      .no [] 0 (1, [(2, 1), (3, 1), (10, 1)]),
      .det,
      .no [] 0 (1, [(3, 2), (7, 1), (10, 2)]),
      .no [] 0 (1, [(2, 1), (10, 1)]),
      .det,
      .no [] 0 (1, [(7, 1), (10, 2)]),
      .no [] 0 (1, [(2, 2), (8, 1), (10, 2)]),
      .det,
      .no [] 0 (1, [(1, 2), (4, 2), (8, 1), (11, 2)]),
      .no [] 0 (1, [(1, 2), (4, 2), (16, 1)]),
      .det,
      .no [(0, (1, [(6, 1), (16, 1)])), (2, (1, [(4, 1), (16, 1)])), (3, (1, [(4, 2), (16, 1), (25, 2)])), (5, (1, [(6, 1), (16, 1)])), (8, (1, [(4, 1), (6, 1)]))] 3 (1, [(29, 1)]),
      .no [] 2 (1, [(10, 1)]),
      .det,
      .no [] 1 (1, [(11, 1)]),
      .no [] 0 (1, [(4, 1), (6, 1), (11, 2)]),
      .det,
      .no [] 0 (1, [(1, 1), (4, 1), (11, 1)]),
      .no [] 1 (2, [(4, 2), (8, 1), (16, 1)]),
      .det,
      .no [] 2 (2, [(6, 1), (8, 1), (18, 1)]),
      .no [(0, (1, [(20, 1)])), (3, (1, [(15, 1), (20, 1)])), (5, (1, [(20, 1)]))] 3 (2, [(6, 1), (7, 1), (20, 1), (27, 2)]),
      .det,
      .no [] 0 (1, [(2, 2), (15, 1), (20, 1)]),
      .no [] 0 (1, [(3, 2), (4, 1), (6, 1), (11, 2)]),
      .det,
      .no [] 0 (1, [(1, 1), (3, 1), (4, 1), (11, 1)])],
    .node [
      .det,
      .no [] 0 (1, [(7, 1), (10, 2), (12, 2)]),
      .det,
      .det,
      .no [] 0 (1, [(7, 1), (10, 2)]),
      .det,
      .det,
      .no [] 0 (1, [(4, 2), (8, 1), (11, 2)]),
      .det,
      .no [] 0 (1, [(1, 2), (4, 2), (16, 1)]),
      .det,
      .no [] 0 (1, [(4, 2), (5, 2), (7, 1), (10, 2), (12, 2)]),
      .no [(0, (1, [(5, 2), (7, 1), (15, 1)])), (1, (2, [(4, 1), (7, 1), (15, 1)])), (3, (1, [(4, 1), (5, 2), (15, 1)])), (4, (1, [(4, 1), (5, 2), (15, 1), (26, 2)])), (5, (1, [(5, 2), (7, 1), (15, 1)])), (2, (1, [(4, 1), (5, 2), (7, 1), (29, 2)])), (6, (2, [(4, 1), (7, 1), (15, 1)]))] 0 (1, [(4, 4), (5, 4), (7, 2), (8, 1), (29, 4), (31, 2)]),
      .det,
      .no [] 0 (1, [(4, 2), (5, 2), (7, 1), (10, 2)]),
      .no [] 0 (1, [(4, 1), (6, 1), (11, 2)]),
      .det,
      .no [] 0 (1, [(1, 1), (4, 1), (11, 1)]),
      .det,
      .no [(0, (2, [(8, 1), (16, 1)])), (1, (1, [(7, 1), (22, 1)])), (3, (1, [(4, 1), (8, 1), (18, 1)])), (4, (1, [(4, 2), (16, 1)])), (5, (2, [(8, 1), (16, 1)])), (6, (1, [(7, 1), (22, 1)]))] 0 (1, [(4, 4), (8, 3), (27, 2), (30, 4)]),
      .det,
      .det,
      .no [] 1 (1, [(11, 1), (12, 1)]),
      .det,
      .det,
      .no [] 0 (1, [(3, 1), (4, 1), (11, 1)]),
      .det],
    .no [] 2 (2, [(5, 1), (6, 1), (8, 1), (12, 1)]),
    .no [] 0 (1, [(4, 2), (8, 1), (13, 2)]),
    .no [] 0 (1, [(1, 2), (4, 2), (8, 1), (13, 2)]),
    .no [] 0 (1, [(1, 2), (4, 1), (5, 1), (12, 1)]),
    .no [] 0 (1, [(4, 2), (14, 1)]),
    .node [
      .no [] 0 (1, [(1, 2), (3, 2), (4, 2), (16, 1)]),
      .no [] 0 (1, [(3, 2), (4, 2), (16, 1)]),
      .no [] 0 (1, [(3, 2), (4, 2), (5, 2), (6, 2), (7, 1), (10, 2)]),
      .no [] 0 (1, [(2, 2), (4, 2), (5, 2), (6, 1), (18, 1)]),
      .no [(0, (1, [(6, 1), (17, 1)])), (1, (1, [(6, 1), (22, 1)])), (2, (1, [(4, 1), (17, 1)])), (3, (1, [(4, 2), (17, 1), (25, 2)])), (4, (1, [(4, 2), (17, 1), (25, 2), (26, 2)])), (5, (1, [(6, 1), (17, 1)])), (6, (1, [(6, 1), (22, 1)])), (8, (1, [(4, 2), (17, 1), (25, 2), (26, 2)]))] 0 (1, [(4, 1), (6, 1), (32, 2)]),
      .no [] 0 (1, [(4, 2), (5, 2), (7, 1), (10, 2), (11, 2)]),
      .no [] 2 (2, [(4, 1), (5, 2), (6, 2), (8, 1), (15, 1)]),
      .no [] 0 (1, [(4, 2), (8, 1), (11, 2)]),
      .no [] 0 (1, [(1, 2), (4, 2), (8, 1), (11, 2)]),
      .det,
      .det,
      .det,
      .det,
      .det,
      .det,
      .det,
      .det,
      .det,
      .no [] 0 (1, [(4, 4), (8, 1), (16, 1), (17, 1)]),
      .no [] 2 (2, [(4, 1), (6, 1), (8, 1), (10, 2)]),
      .no [] 0 (1, [(2, 2), (4, 2), (5, 2), (6, 2), (8, 1), (10, 2)]),
      .no [(0, (1, [(6, 1), (17, 1)])), (1, (2, [(4, 2), (6, 1), (7, 1), (18, 1)])), (2, (1, [(4, 1), (17, 1)])), (3, (1, [(4, 2), (5, 2), (6, 1), (18, 1)])), (4, (1, [(4, 2), (5, 2), (6, 1), (18, 1), (26, 2)])), (5, (1, [(6, 1), (17, 1)]))] 0 (1, [(4, 2), (5, 4), (6, 3), (18, 1), (26, 4), (30, 2)]),
      .no [] 2 (1, [(10, 1), (11, 1)]),
      .no [] 0 (1, [(2, 1), (4, 1), (5, 1), (10, 1), (11, 1)]),
      .no [] 0 (1, [(3, 2), (4, 1), (6, 1), (11, 2)]),
      .no [] 0 (1, [(3, 1), (4, 1), (11, 1)]),
      .no [] 0 (1, [(1, 1), (3, 1), (4, 1), (11, 1)])],
    .node [
      .no [] 0 (1, [(1, 1), (2, 1), (4, 1), (5, 1), (10, 1)]),
      .no [] 0 (1, [(3, 2), (4, 2), (16, 1)]),
      .no [] 3 (2, [(4, 1), (6, 1), (16, 1)]),
      .no [] 0 (1, [(2, 1), (4, 1), (5, 1), (10, 1)]),
      .no [] 2 (1, [(10, 1)]),
      .no [(0, (1, [(5, 2), (7, 1), (15, 1)])), (1, (2, [(4, 1), (7, 1), (15, 1)])), (3, (1, [(4, 1), (5, 2), (15, 1)])), (4, (1, [(4, 1), (5, 2), (15, 1), (26, 2)])), (5, (1, [(5, 2), (7, 1), (15, 1)]))] 0 (1, [(4, 4), (5, 4), (7, 2), (8, 1), (27, 2), (29, 4)]),
      .no [] 0 (1, [(2, 2), (4, 1), (5, 2), (6, 1), (10, 2)]),
      .no [] 0 (1, [(4, 2), (8, 1), (11, 2)]),
      .no [] 0 (1, [(1, 2), (4, 2), (8, 1), (11, 2)]),
      .det,
      .det,
      .det,
      .det,
      .det,
      .det,
      .det,
      .det,
      .det,
      .no [] 0 (1, [(1, 2), (4, 2), (5, 2), (7, 1), (10, 2)]),
      .no [(0, (2, [(8, 1), (16, 1)])), (1, (1, [(22, 1)])), (4, (1, [(4, 2), (16, 1)])), (5, (2, [(8, 1), (16, 1)])), (6, (1, [(22, 1)])), (2, (1, [(4, 1), (8, 1), (29, 2)])), (3, (1, [(4, 2), (8, 1), (10, 2), (29, 2)])), (8, (1, [(4, 2), (8, 1)]))] 0 (1, [(4, 2), (8, 1), (29, 2), (32, 2)]),
      .no [] 2 (2, [(5, 2), (6, 1), (15, 1)]),
      .no [] 0 (1, [(4, 2), (5, 2), (7, 1), (10, 2)]),
      .no [] 3 (1, [(11, 1)]),
      .no [] 0 (1, [(2, 2), (4, 1), (5, 2), (15, 1)]),
      .no [] 0 (1, [(3, 2), (4, 1), (6, 1), (11, 2)]),
      .no [] 0 (1, [(3, 1), (4, 1), (11, 1)]),
      .no [] 0 (1, [(1, 1), (3, 1), (4, 1), (11, 1)])],
    .no [] 0 (1, [(4, 1), (11, 1)]),
    .no [] 1 (1, [(13, 1)]),
    .no [] 0 (1, [(4, 1), (6, 1), (13, 2)]),
    .no [] 0 (1, [(4, 1), (13, 1)]),
    .no [] 0 (1, [(1, 2), (4, 1), (5, 1), (12, 1)]),
    .no [] 1 (2, [(4, 1), (5, 1), (7, 1), (8, 1), (12, 1)]),
    .node [
      .no [] 0 (1, [(1, 2), (3, 2), (4, 2), (16, 1)]),
      .det,
      .no [] 0 (1, [(4, 3), (6, 1), (16, 1), (17, 1)]),
      .no [] 0 (1, [(2, 2), (4, 1), (8, 1), (18, 1)]),
      .det,
      .no [(0, (2, [(8, 1), (17, 1)])), (3, (1, [(4, 1), (8, 1), (18, 1)])), (4, (1, [(4, 2), (17, 1)])), (5, (2, [(8, 1), (17, 1)])), (9, (1, [(4, 2), (8, 1)]))] 0 (1, [(7, 1), (28, 2), (29, 4)]),
      .no [] 2 (2, [(6, 1), (8, 2), (15, 1)]),
      .det,
      .no [] 0 (1, [(1, 2), (4, 2), (8, 1), (11, 2)]),
      .no [] 0 (1, [(1, 2), (4, 2), (16, 1)]),
      .det,
      .no [] 2 (2, [(4, 1), (6, 1), (8, 1), (10, 2)]),
      .no [(0, (2, [(8, 1), (17, 1)])), (4, (1, [(4, 2), (17, 1)])), (5, (2, [(8, 1), (17, 1)])), (9, (1, [(4, 2), (8, 1)]))] 1 (1, [(28, 1)]),
      .det,
      .no [] 1 (1, [(11, 1)]),
      .no [] 0 (1, [(4, 1), (6, 1), (11, 2)]),
      .det,
      .no [] 0 (1, [(1, 1), (4, 1), (11, 1)]),
      .no [] 0 (1, [(1, 2), (4, 2), (7, 1), (8, 2), (10, 2)]),
      .det,
      .no [] 0 (1, [(2, 2), (4, 1), (6, 1), (8, 2), (10, 2)]),
      .no [] 0 (1, [(7, 1), (10, 2), (11, 2)]),
      .det,
      .no [] 0 (1, [(2, 1), (10, 1), (11, 1)]),
      .no [] 0 (1, [(3, 2), (4, 1), (6, 1), (11, 2)]),
      .det,
      .no [] 0 (1, [(1, 1), (3, 1), (4, 1), (11, 1)])],
    .no [] 2 (2, [(5, 1), (6, 1), (8, 1), (12, 1)]),
    .node [
      .det,
      .no [] 0 (1, [(3, 2), (4, 2), (16, 1)]),
      .det,
      .det,
      .no [(0, (1, [(20, 1)])), (1, (1, [(7, 1), (22, 1)])), (2, (1, [(12, 2), (15, 1), (20, 2), (26, 2)])), (3, (1, [(15, 1), (20, 1)])), (4, (1, [(15, 1), (20, 1), (26, 2)])), (5, (1, [(20, 1)])), (6, (1, [(7, 1), (22, 1)]))] 0 (1, [(6, 1), (15, 2), (20, 3), (26, 4), (31, 2)]),
      .det,
      .det,
      .no [] 0 (1, [(4, 2), (8, 1), (11, 2)]),
      .det,
      .no [] 0 (1, [(4, 2), (5, 2), (7, 1), (10, 2), (12, 2)]),
      .det,
      .no [(0, (1, [(6, 1), (16, 1)])), (1, (2, [(4, 2), (6, 1), (7, 1), (18, 1)])), (2, (1, [(4, 1), (16, 1)])), (3, (1, [(4, 2), (5, 2), (6, 1), (18, 1)])), (4, (1, [(4, 2), (5, 2), (6, 1), (18, 1), (26, 2)])), (5, (1, [(6, 1), (16, 1)])), (6, (2, [(4, 2), (6, 1), (7, 1), (18, 1)]))] 0 (1, [(4, 2), (5, 2), (6, 3), (18, 1), (26, 2), (31, 2)]),
      .no [] 0 (1, [(4, 2), (5, 2), (7, 1), (10, 2)]),
      .det,
      .no [] 1 (1, [(11, 1)]),
      .no [] 0 (1, [(4, 1), (6, 1), (11, 2)]),
      .det,
      .no [] 0 (1, [(1, 1), (4, 1), (11, 1)]),
      .det,
      .no [] 0 (1, [(7, 1), (10, 2), (12, 2)]),
      .det,
      .det,
      .no [] 0 (1, [(7, 1), (10, 2)]),
      .det,
      .det,
      .no [] 0 (1, [(3, 1), (4, 1), (11, 1)]),
      .det],
    .no [] 3 (1, [(13, 1)]),
    .no [] 0 (1, [(2, 2), (5, 1), (12, 1)]),
    .no [] 0 (1, [(3, 2), (4, 1), (6, 1), (13, 2)]),
    .no [] 0 (1, [(3, 2), (12, 1)]),
    .no [] 0 (2, [(1, 2), (2, 2), (3, 2), (4, 1), (5, 1), (12, 1)])]

theorem uniqM_3_ok : uniqM_3.check true false (0, 1, 0) = true := by decide +kernel

/-- All second bases with first vector `(0, 1, 1)`. -/
def uniqM_4 : UTree1 :=
  .no [] 0 (1, [(1, 2), (4, 2), (5, 1), (10, 1)])

theorem uniqM_4_ok : uniqM_4.check true false (0, 1, 1) = true := by decide +kernel

/-- All second bases with first vector `(1, -1, -1)`. -/
def uniqM_5 : UTree1 :=
  .no [] 1 (2, [(4, 2), (5, 1), (7, 1), (8, 1), (10, 1)])

theorem uniqM_5_ok : uniqM_5.check true false (1, -1, -1) = true := by decide +kernel

/-- All second bases with first vector `(1, -1, 0)`. -/
def uniqM_6 : UTree1 :=
  .node [
    .no [] 0 (3, [(1, 2), (2, 2), (4, 2), (5, 1), (10, 1), (12, 1)]),
    .no [] 0 (2, [(4, 1), (10, 1), (12, 1)]),
    .no [] 0 (1, [(4, 1), (5, 1), (6, 1), (7, 1), (10, 1), (12, 1)]),
    .no [] 0 (1, [(2, 2), (5, 1), (12, 1)]),
    .node [
      .no [] 0 (1, [(2, 1), (3, 1), (10, 1)]),
      .det,
      .no [] 0 (1, [(3, 2), (7, 1), (10, 2)]),
      .no [] 0 (1, [(2, 1), (10, 1)]),
      .det,
      .no [] 0 (1, [(7, 1), (10, 2)]),
      .no [] 0 (1, [(2, 2), (8, 1), (10, 2)]),
      .det,
      .no [] 1 (2, [(4, 2), (7, 1), (8, 2), (16, 1)]),
      .no [] 0 (1, [(1, 1), (4, 1), (10, 1), (11, 1)]),
      .det,
      .no [] 0 (1, [(4, 1), (6, 1), (10, 2), (11, 2)]),
      .no [] 1 (1, [(10, 1), (11, 1)]),
      .det,
      .no [(0, (1, [(8, 1), (20, 1)])), (4, (1, [(17, 1)])), (5, (1, [(8, 1), (20, 1)]))] 1 (1, [(25, 2), (27, 1)]),
      .no [(0, (1, [(8, 1), (20, 1)])), (2, (1, [(8, 1), (18, 1)])), (3, (1, [(4, 1), (8, 1), (18, 1), (25, 2)])), (4, (1, [(17, 1)])), (5, (1, [(8, 1), (20, 1)])), (8, (1, [(4, 2), (8, 1), (25, 2)]))] 0 (1, [(8, 1), (30, 2)]),
      .det,
      .no [] 0 (1, [(1, 2), (4, 1), (8, 1), (18, 1)]),
      .no [] 0 (1, [(1, 2), (4, 2), (7, 1), (8, 2), (11, 2)]),
      .det,
      .no [] 0 (1, [(2, 2), (4, 1), (6, 1), (8, 2), (11, 2)]),
      .no [] 1 (2, [(7, 1), (8, 1), (11, 2)]),
      .det,
      .no [] 0 (1, [(2, 2), (8, 1), (15, 1), (20, 1)]),
      .no [] 0 (1, [(6, 1), (18, 1)]),
      .det,
      .no [] 0 (1, [(1, 2), (2, 2), (3, 4), (15, 2), (16, 1)])],
    .node [
      .det,
      .det,
      .no [] 0 (1, [(3, 2), (4, 1), (5, 2), (6, 1), (7, 2), (10, 2)]),
      .det,
      .no [] 0 (1, [(7, 1), (10, 2)]),
      .det,
      .no [] 0 (1, [(4, 2), (8, 3), (16, 1), (17, 1)]),
      .det,
      .no [] 0 (1, [(1, 2), (4, 2), (5, 2), (7, 2), (8, 1), (10, 2)]),
      .det,
      .no [] 0 (1, [(4, 2), (8, 1), (11, 2)]),
      .det,
      .no [(0, (1, [(5, 2), (7, 1), (15, 1)])), (1, (2, [(4, 1), (7, 1), (15, 1)])), (3, (1, [(4, 1), (5, 2), (15, 1)])), (4, (1, [(4, 1), (5, 2), (7, 1), (18, 1)])), (5, (1, [(5, 2), (7, 1), (15, 1)]))] 0 (1, [(4, 5), (5, 6), (7, 5), (18, 1), (27, 2), (29, 4)]),
      .det,
      .no [] 0 (1, [(4, 2), (5, 2), (7, 1), (10, 2)]),
      .det,
      .no [(0, (2, [(8, 1), (16, 1)])), (1, (1, [(7, 1), (22, 1)])), (3, (1, [(4, 1), (8, 1), (18, 1)])), (4, (1, [(4, 2), (16, 1)])), (5, (2, [(8, 1), (16, 1)])), (6, (1, [(7, 1), (22, 1)])), (2, (1, [(4, 2), (8, 1), (18, 1), (30, 2)])), (8, (1, [(4, 2), (8, 1)]))] 0 (1, [(4, 2), (8, 1), (30, 2), (32, 2)]),
      .det,
      .no [] 0 (1, [(1, 2), (4, 2), (7, 1), (8, 2), (11, 2)]),
      .det,
      .no [] 0 (1, [(2, 2), (4, 1), (6, 1), (8, 2), (11, 2)]),
      .det,
      .no [] 0 (1, [(8, 1), (11, 2)]),
      .det,
      .no [] 0 (1, [(4, 1), (5, 2), (7, 3), (15, 1), (17, 1)]),
      .det,
      .det],
    .no [] 2 (2, [(5, 1), (6, 1), (8, 1), (12, 1)]),
    .no [] 0 (1, [(4, 2), (8, 2), (14, 1)]),
    .no [] 1 (2, [(4, 1), (5, 1), (7, 1), (8, 1), (12, 1)]),
    .no [] 0 (1, [(1, 2), (4, 1), (5, 1), (12, 1)]),
    .no [] 0 (1, [(4, 2), (8, 1), (13, 2)]),
    .no [] 2 (2, [(4, 1), (6, 1), (8, 1), (13, 2)]),
    .node [
      .det,
      .det,
      .det,
      .no [] 0 (1, [(2, 1), (4, 1), (5, 1), (10, 1)]),
      .no [] 1 (1, [(10, 1), (12, 1)]),
      .no [(0, (1, [(5, 2), (7, 1), (15, 1)])), (1, (2, [(4, 1), (7, 1), (15, 1)])), (3, (1, [(4, 1), (5, 2), (15, 1)])), (4, (1, [(4, 1), (5, 2), (7, 1), (18, 1)])), (5, (1, [(5, 2), (7, 1), (15, 1)])), (2, (1, [(4, 2), (5, 4), (7, 1), (18, 1), (29, 2)])), (6, (2, [(4, 1), (7, 1), (15, 1)]))] 0 (1, [(4, 5), (5, 6), (7, 3), (18, 1), (29, 4), (31, 2)]),
      .det,
      .det,
      .det,
      .no [] 0 (1, [(1, 1), (4, 1), (5, 1), (10, 1)]),
      .no [] 0 (1, [(4, 2), (8, 1), (11, 2)]),
      .no [] 0 (1, [(4, 2), (8, 1), (11, 2), (12, 2)]),
      .det,
      .det,
      .det,
      .no [] 0 (1, [(4, 1), (5, 2), (6, 1), (10, 2)]),
      .no [(0, (2, [(8, 1), (16, 1)])), (1, (1, [(22, 1)])), (4, (1, [(4, 2), (16, 1)])), (5, (2, [(8, 1), (16, 1)])), (6, (1, [(22, 1)]))] 0 (1, [(4, 4), (7, 1), (8, 2), (27, 2), (29, 4)]),
      .no [] 0 (1, [(1, 2), (4, 1), (5, 2), (15, 1)]),
      .det,
      .det,
      .det,
      .no [] 0 (1, [(4, 2), (5, 2), (7, 1), (10, 2)]),
      .no [] 0 (1, [(8, 1), (11, 2)]),
      .no [] 0 (1, [(8, 1), (11, 2), (12, 2)]),
      .det,
      .det,
      .det],
    .no [] 0 (1, [(4, 1), (11, 1)]),
    .node [
      .det,
      .det,
      .det,
      .no [] 0 (1, [(2, 2), (4, 1), (5, 2), (15, 1)]),
      .no [(0, (1, [(8, 1), (20, 1)])), (1, (1, [(22, 1)])), (4, (1, [(16, 1)])), (5, (1, [(8, 1), (20, 1)])), (6, (1, [(22, 1)]))] 0 (1, [(8, 1), (25, 2), (29, 2)]),
      .no [] 0 (1, [(4, 2), (5, 2), (7, 1), (10, 2)]),
      .det,
      .det,
      .det,
      .no [] 0 (1, [(4, 2), (8, 1), (11, 2), (12, 2)]),
      .no [] 0 (1, [(4, 2), (8, 1), (11, 2)]),
      .no [] 0 (1, [(4, 1), (5, 2), (6, 1), (10, 2)]),
      .det,
      .det,
      .det,
      .no [(0, (2, [(5, 2), (6, 1), (8, 1), (18, 1)])), (1, (2, [(6, 1), (15, 1)])), (2, (1, [(5, 2), (15, 1)])), (3, (1, [(4, 1), (5, 2), (15, 1), (25, 2)])), (4, (1, [(4, 2), (5, 2), (6, 1), (18, 1)])), (5, (2, [(5, 2), (6, 1), (8, 1), (18, 1)])), (6, (2, [(6, 1), (15, 1)]))] 0 (1, [(4, 2), (8, 1), (25, 4), (31, 2)]),
      .no [] 1 (1, [(10, 1)]),
      .no [] 0 (1, [(1, 1), (4, 1), (5, 1), (10, 1)]),
      .det,
      .det,
      .det,
      .no [] 0 (1, [(8, 1), (11, 2), (12, 2)]),
      .no [] 0 (1, [(8, 1), (11, 2)]),
      .no [] 0 (1, [(2, 1), (4, 1), (5, 1), (10, 1)]),
      .det,
      .det,
      .det],
    .node [
      .det,
      .det,
      .no [] 0 (1, [(4, 2), (5, 2), (6, 3), (15, 1), (17, 1)]),
      .det,
      .no [(0, (1, [(8, 1), (20, 1)])), (1, (1, [(6, 1), (22, 1)])), (2, (1, [(8, 1), (18, 1)])), (3, (1, [(4, 1), (8, 1), (18, 1), (25, 2)])), (4, (1, [(16, 1)])), (5, (1, [(8, 1), (20, 1)])), (6, (1, [(6, 1), (22, 1)])), (8, (1, [(8, 1)]))] 0 (1, [(4, 2), (8, 1), (25, 2), (32, 2)]),
      .det,
      .no [] 0 (1, [(2, 2), (4, 2), (5, 2), (6, 2), (8, 1), (10, 2)]),
      .det,
      .no [] 0 (1, [(4, 4), (8, 3), (16, 1), (17, 1)]),
      .det,
      .no [] 0 (1, [(4, 2), (8, 1), (11, 2)]),
      .det,
      .no [] 0 (1, [(4, 1), (5, 2), (6, 1), (10, 2)]),
      .det,
      .no [(0, (2, [(5, 2), (6, 1), (8, 1), (18, 1)])), (1, (2, [(6, 1), (15, 1)])), (2, (1, [(5, 2), (15, 1)])), (3, (1, [(4, 1), (5, 2), (15, 1), (25, 2)])), (4, (1, [(4, 2), (5, 2), (6, 1), (18, 1)])), (5, (2, [(5, 2), (6, 1), (8, 1), (18, 1)]))] 0 (1, [(4, 1), (5, 2), (6, 1), (25, 2), (30, 2)]),
      .det,
      .no [] 0 (1, [(4, 1), (6, 1), (10, 2)]),
      .det,
      .no [] 0 (1, [(1, 2), (4, 2), (7, 1), (8, 2), (11, 2)]),
      .det,
      .no [] 0 (1, [(2, 2), (4, 1), (6, 1), (8, 2), (11, 2)]),
      .det,
      .no [] 0 (1, [(8, 1), (11, 2)]),
      .det,
      .no [] 0 (1, [(3, 2), (4, 2), (5, 2), (6, 2), (7, 1), (10, 2)]),
      .det,
      .det],
    .node [
      .no [] 0 (1, [(1, 2), (3, 2), (4, 1), (15, 1)]),
      .det,
      .no [] 0 (1, [(4, 2), (6, 1), (15, 1), (17, 1)]),
      .no [] 0 (1, [(2, 2), (4, 1), (8, 1), (18, 1)]),
      .det,
      .no [(0, (2, [(8, 1), (17, 1)])), (3, (1, [(4, 1), (8, 1), (18, 1)])), (4, (1, [(4, 2), (17, 1)])), (5, (2, [(8, 1), (17, 1)])), (9, (1, [(4, 2), (8, 1)]))] 0 (1, [(7, 2), (8, 1), (26, 2), (29, 4)]),
      .no [] 2 (2, [(4, 1), (6, 1), (8, 2), (16, 1)]),
      .det,
      .no [] 0 (1, [(1, 2), (4, 2), (8, 1), (10, 2)]),
      .no [] 0 (1, [(1, 2), (4, 1), (15, 1)]),
      .det,
      .no [] 2 (2, [(4, 1), (6, 1), (8, 1), (11, 2)]),
      .no [(0, (2, [(8, 1), (17, 1)])), (4, (1, [(4, 2), (17, 1)])), (5, (2, [(8, 1), (17, 1)])), (9, (1, [(4, 2), (8, 1)]))] 1 (1, [(27, 1), (28, 1)]),
      .det,
      .no [] 1 (1, [(10, 1)]),
      .no [] 0 (1, [(4, 1), (6, 1), (10, 2)]),
      .det,
      .no [] 0 (1, [(1, 1), (4, 1), (10, 1)]),
      .no [] 0 (1, [(1, 2), (4, 2), (7, 1), (8, 2), (11, 2)]),
      .det,
      .no [] 0 (1, [(2, 2), (4, 1), (6, 1), (8, 2), (11, 2)]),
      .no [] 0 (1, [(7, 1), (10, 2), (11, 2)]),
      .det,
      .no [] 0 (1, [(2, 1), (10, 1), (11, 1)]),
      .no [] 0 (1, [(3, 2), (4, 1), (6, 1), (10, 2)]),
      .det,
      .no [] 0 (1, [(1, 1), (3, 1), (4, 1), (10, 1)])],
    .no [] 0 (1, [(1, 2), (4, 1), (5, 1), (12, 1)]),
    .no [] 0 (1, [(1, 2), (4, 2), (7, 1), (8, 2), (13, 2)]),
    .no [] 0 (1, [(4, 1), (8, 1), (13, 1)]),
    .no [] 0 (1, [(2, 2), (4, 1), (6, 1), (8, 2), (13, 2)]),
    .no [] 1 (2, [(7, 1), (8, 1), (13, 2)]),
    .no [] 0 (1, [(8, 1), (13, 2)]),
    .no [] 0 (1, [(2, 2), (5, 1), (12, 1)]),
    .no [] 0 (1, [(4, 1), (5, 1), (6, 1), (7, 1), (10, 1), (12, 1)]),
    .no [] 0 (2, [(4, 1), (10, 1), (12, 1)]),
    .no [] 0 (3, [(1, 2), (2, 2), (4, 2), (5, 1), (10, 1), (12, 1)])]

theorem uniqM_6_ok : uniqM_6.check true false (1, -1, 0) = true := by decide +kernel

/-- All second bases with first vector `(1, -1, 1)`. -/
def uniqM_7 : UTree1 :=
  .no [] 2 (2, [(4, 1), (5, 1), (6, 1), (8, 1), (10, 1)])

theorem uniqM_7_ok : uniqM_7.check true false (1, -1, 1) = true := by decide +kernel

/-- All second bases with first vector `(1, 0, -1)`. -/
def uniqM_8 : UTree1 :=
  .node [
    .no [] 0 (3, [(1, 2), (3, 2), (4, 2), (5, 2), (10, 1), (12, 1)]),
    .no [] 0 (1, [(3, 2), (12, 1)]),
    .no [] 3 (2, [(5, 1), (6, 1), (7, 1), (12, 1)]),
    .no [] 0 (2, [(4, 1), (5, 2), (10, 1), (12, 1)]),
    .node [
      .no [] 0 (1, [(2, 1), (3, 1), (10, 1)]),
      .no [] 0 (1, [(3, 1), (10, 1)]),
      .no [] 0 (1, [(3, 2), (7, 1), (10, 2)]),
      .det,
      .det,
      .det,
      .no [] 0 (1, [(2, 2), (8, 1), (10, 2)]),
      .no [] 0 (1, [(8, 1), (10, 2)]),
      .no [] 1 (2, [(4, 2), (5, 2), (7, 2), (8, 1), (16, 1)]),
      .no [] 0 (1, [(1, 1), (4, 1), (5, 1), (10, 1), (11, 1)]),
      .no [] 1 (1, [(10, 1), (11, 1)]),
      .no [(0, (1, [(5, 1), (7, 1), (20, 1)])), (1, (2, [(6, 1), (7, 1), (18, 1)])), (2, (1, [(5, 2), (7, 1), (18, 1)])), (3, (1, [(17, 1)])), (4, (1, [(17, 1), (26, 2)])), (5, (1, [(5, 1), (7, 1), (20, 1)])), (6, (2, [(6, 1), (7, 1), (18, 1)])), (8, (1, [(4, 1), (5, 2), (6, 1), (26, 2)]))] 0 (1, [(7, 1), (32, 2)]),
      .det,
      .det,
      .det,
      .no [] 0 (1, [(4, 1), (5, 2), (6, 1), (10, 2), (11, 2)]),
      .no [(0, (1, [(5, 1), (7, 1), (20, 1)])), (1, (1, [(4, 1), (7, 1), (20, 1)])), (2, (1, [(5, 1), (11, 2), (20, 1), (26, 2)])), (3, (1, [(17, 1)])), (4, (1, [(17, 1), (26, 2)])), (5, (1, [(5, 1), (7, 1), (20, 1)]))] 0 (1, [(5, 1), (6, 1), (17, 1), (20, 1), (26, 4), (30, 2)]),
      .no [] 0 (1, [(1, 2), (4, 1), (5, 2), (7, 1), (18, 1)]),
      .no [] 0 (1, [(1, 2), (4, 2), (5, 2), (7, 2), (8, 1), (11, 2)]),
      .no [] 1 (2, [(7, 1), (8, 1), (11, 2)]),
      .no [] 0 (1, [(5, 2), (6, 1), (18, 1)]),
      .det,
      .det,
      .det,
      .no [] 0 (1, [(3, 2), (4, 1), (5, 2), (6, 1), (7, 2), (11, 2)]),
      .no [] 0 (1, [(3, 2), (5, 1), (7, 1), (15, 1), (20, 1)]),
      .no [] 0 (1, [(1, 2), (2, 4), (3, 2), (5, 2), (15, 2), (16, 1)])],
    .no [] 0 (1, [(4, 2), (5, 2), (7, 2), (14, 1)]),
    .no [] 0 (1, [(4, 1), (5, 2), (6, 1), (8, 1), (10, 1), (12, 1)]),
    .node [
      .det,
      .det,
      .no [] 0 (1, [(4, 2), (5, 2), (7, 3), (16, 1), (17, 1)]),
      .det,
      .no [] 0 (1, [(8, 1), (10, 2)]),
      .det,
      .no [] 0 (1, [(2, 2), (4, 1), (6, 1), (8, 2), (10, 2)]),
      .det,
      .no [] 0 (1, [(1, 2), (4, 2), (7, 1), (8, 2), (10, 2)]),
      .det,
      .no [(0, (1, [(8, 1), (15, 1)])), (1, (1, [(4, 1), (7, 1), (20, 1)])), (3, (1, [(4, 1), (8, 1), (18, 1)])), (4, (1, [(4, 1), (15, 1)])), (5, (1, [(8, 1), (15, 1)]))] 0 (1, [(4, 4), (8, 3), (27, 2), (29, 4)]),
      .det,
      .no [] 0 (1, [(4, 2), (5, 2), (7, 1), (11, 2)]),
      .det,
      .no [(0, (2, [(5, 2), (7, 1), (16, 1)])), (1, (2, [(4, 2), (7, 1), (16, 1)])), (3, (1, [(4, 2), (5, 2), (16, 1)])), (4, (1, [(4, 1), (5, 2), (7, 1), (18, 1)])), (5, (2, [(5, 2), (7, 1), (16, 1)])), (6, (2, [(4, 2), (7, 1), (16, 1)])), (2, (1, [(4, 2), (5, 4), (7, 1), (18, 1), (30, 2)])), (8, (1, [(4, 2), (5, 2), (7, 1)]))] 0 (1, [(4, 2), (5, 2), (7, 1), (30, 2), (32, 2)]),
      .det,
      .no [] 0 (1, [(4, 2), (8, 1), (10, 2)]),
      .det,
      .no [] 0 (1, [(1, 2), (4, 2), (5, 2), (7, 2), (8, 1), (11, 2)]),
      .det,
      .no [] 0 (1, [(4, 1), (8, 3), (15, 1), (17, 1)]),
      .det,
      .no [] 0 (1, [(7, 1), (11, 2)]),
      .det,
      .no [] 0 (1, [(3, 2), (4, 1), (5, 2), (6, 1), (7, 2), (11, 2)]),
      .det,
      .det],
    .no [] 1 (2, [(4, 1), (5, 1), (7, 1), (8, 1), (12, 1)]),
    .no [] 0 (1, [(1, 2), (4, 1), (5, 1), (12, 1)]),
    .node [
      .det,
      .no [] 0 (1, [(3, 1), (4, 1), (10, 1)]),
      .det,
      .det,
      .no [] 1 (1, [(10, 1), (12, 1)]),
      .det,
      .det,
      .no [(0, (1, [(8, 1), (15, 1)])), (1, (1, [(4, 1), (7, 1), (20, 1)])), (3, (1, [(4, 1), (8, 1), (18, 1)])), (4, (1, [(4, 1), (15, 1)])), (5, (1, [(8, 1), (15, 1)])), (2, (1, [(4, 2), (8, 1), (18, 1), (29, 2)])), (6, (1, [(4, 1), (7, 1), (20, 1)]))] 0 (1, [(4, 5), (8, 3), (18, 1), (29, 4), (31, 2)]),
      .det,
      .no [] 0 (1, [(1, 1), (4, 1), (10, 1)]),
      .det,
      .no [] 0 (1, [(4, 1), (6, 1), (10, 2)]),
      .no [] 0 (1, [(4, 2), (5, 2), (7, 1), (11, 2)]),
      .det,
      .no [(0, (2, [(5, 2), (7, 1), (16, 1)])), (1, (2, [(4, 2), (7, 1), (16, 1)])), (3, (1, [(4, 2), (5, 2), (16, 1)])), (4, (1, [(4, 2), (5, 2), (16, 1), (26, 2)])), (5, (2, [(5, 2), (7, 1), (16, 1)])), (6, (2, [(4, 2), (7, 1), (16, 1)]))] 0 (1, [(4, 4), (5, 4), (7, 2), (8, 1), (27, 2), (30, 4)]),
      .no [] 0 (1, [(4, 2), (5, 2), (7, 1), (11, 2), (12, 2)]),
      .det,
      .no [] 0 (1, [(1, 2), (4, 1), (15, 1)]),
      .det,
      .no [] 0 (1, [(4, 2), (8, 1), (10, 2)]),
      .det,
      .det,
      .no [] 0 (1, [(7, 1), (11, 2)]),
      .det,
      .det,
      .no [] 0 (1, [(7, 1), (11, 2), (12, 2)]),
      .det],
    .node [
      .det,
      .det,
      .no [] 0 (1, [(3, 2), (4, 2), (5, 2), (6, 2), (7, 1), (10, 2)]),
      .det,
      .no [(0, (1, [(5, 1), (7, 1), (20, 1)])), (1, (2, [(6, 1), (7, 1), (18, 1)])), (2, (1, [(5, 2), (7, 1), (18, 1)])), (3, (1, [(16, 1)])), (4, (1, [(16, 1), (26, 2)])), (5, (1, [(5, 1), (7, 1), (20, 1)])), (6, (2, [(6, 1), (7, 1), (18, 1)])), (8, (1, [(7, 1)]))] 0 (1, [(4, 1), (5, 2), (6, 1), (26, 2), (32, 2)]),
      .det,
      .no [] 0 (1, [(4, 2), (5, 4), (6, 3), (15, 1), (17, 1)]),
      .det,
      .no [] 0 (1, [(4, 4), (5, 4), (7, 3), (16, 1), (17, 1)]),
      .det,
      .no [] 0 (1, [(4, 1), (6, 1), (10, 2)]),
      .det,
      .no [] 0 (1, [(4, 2), (5, 2), (7, 1), (11, 2)]),
      .det,
      .no [] 0 (1, [(4, 1), (5, 2), (6, 1), (10, 2)]),
      .det,
      .no [(0, (2, [(5, 2), (6, 1), (7, 1), (18, 1)])), (1, (2, [(4, 2), (6, 1), (7, 1), (18, 1)])), (2, (1, [(15, 1)])), (3, (1, [(4, 2), (5, 2), (6, 1), (18, 1)])), (4, (1, [(4, 2), (5, 2), (6, 1), (18, 1), (26, 2)])), (5, (2, [(5, 2), (6, 1), (7, 1), (18, 1)]))] 0 (1, [(4, 2), (5, 2), (6, 3), (18, 1), (26, 2), (30, 2)]),
      .det,
      .no [] 0 (1, [(1, 2), (4, 2), (5, 2), (7, 2), (8, 1), (11, 2)]),
      .det,
      .no [] 0 (1, [(2, 2), (4, 2), (5, 2), (6, 2), (8, 1), (10, 2)]),
      .det,
      .no [] 0 (1, [(7, 1), (11, 2)]),
      .det,
      .no [] 0 (1, [(3, 2), (4, 1), (5, 2), (6, 1), (7, 2), (11, 2)]),
      .det,
      .det],
    .no [] 0 (1, [(4, 2), (5, 2), (7, 1), (13, 2)]),
    .no [] 0 (1, [(4, 1), (11, 1)]),
    .node [
      .no [] 0 (1, [(1, 2), (2, 2), (4, 1), (5, 2), (15, 1)]),
      .no [] 0 (1, [(3, 2), (4, 1), (5, 2), (7, 1), (18, 1)]),
      .no [] 3 (2, [(4, 1), (5, 2), (6, 1), (7, 2), (16, 1)]),
      .det,
      .det,
      .det,
      .no [] 0 (1, [(4, 2), (5, 4), (6, 1), (15, 1), (17, 1)]),
      .no [(0, (2, [(5, 2), (7, 1), (17, 1)])), (1, (2, [(4, 2), (7, 1), (17, 1)])), (3, (1, [(4, 2), (5, 2), (17, 1)])), (4, (1, [(4, 1), (5, 2), (7, 1), (18, 1)])), (5, (2, [(5, 2), (7, 1), (17, 1)])), (6, (2, [(4, 2), (7, 1), (17, 1)])), (9, (1, [(4, 2), (5, 2), (7, 1)]))] 0 (1, [(7, 2), (8, 1), (27, 2), (31, 4)]),
      .no [] 0 (1, [(1, 2), (4, 2), (5, 2), (7, 1), (10, 2)]),
      .no [] 0 (1, [(1, 2), (4, 1), (5, 2), (15, 1)]),
      .no [(0, (2, [(5, 2), (7, 1), (17, 1)])), (1, (2, [(4, 2), (7, 1), (17, 1)])), (3, (1, [(4, 2), (5, 2), (17, 1)])), (4, (1, [(4, 2), (5, 2), (17, 1), (26, 2)])), (5, (2, [(5, 2), (7, 1), (17, 1)])), (6, (2, [(4, 2), (7, 1), (17, 1)])), (9, (1, [(4, 2), (5, 2), (7, 1)]))] 0 (1, [(4, 2), (5, 2), (17, 1), (26, 2), (29, 2), (31, 4)]),
      .no [] 0 (1, [(4, 1), (5, 2), (6, 1), (10, 2)]),
      .det,
      .det,
      .det,
      .no [] 3 (2, [(4, 1), (5, 2), (6, 1), (7, 1), (11, 2)]),
      .no [] 1 (1, [(10, 1)]),
      .no [] 0 (1, [(1, 1), (4, 1), (5, 1), (10, 1)]),
      .no [] 0 (1, [(1, 2), (4, 2), (5, 2), (7, 2), (8, 1), (11, 2)]),
      .no [] 0 (1, [(8, 1), (10, 2), (11, 2)]),
      .no [] 0 (1, [(2, 2), (4, 1), (5, 2), (6, 1), (10, 2)]),
      .det,
      .det,
      .det,
      .no [] 0 (1, [(3, 2), (4, 1), (5, 2), (6, 1), (7, 2), (11, 2)]),
      .no [] 0 (1, [(3, 1), (10, 1), (11, 1)]),
      .no [] 0 (1, [(1, 1), (2, 1), (4, 1), (5, 1), (10, 1)])],
    .no [] 3 (2, [(4, 1), (5, 2), (6, 1), (7, 1), (13, 2)]),
    .node [
      .det,
      .no [] 0 (1, [(3, 2), (4, 1), (15, 1)]),
      .det,
      .det,
      .no [(0, (1, [(5, 1), (7, 1), (20, 1)])), (1, (1, [(4, 1), (7, 1), (20, 1)])), (2, (1, [(5, 1), (12, 2), (20, 1), (26, 2)])), (3, (1, [(16, 1)])), (4, (1, [(16, 1), (26, 2)])), (5, (1, [(5, 1), (7, 1), (20, 1)])), (6, (1, [(4, 1), (7, 1), (20, 1)]))] 0 (1, [(5, 1), (6, 1), (7, 1), (20, 1), (26, 2), (31, 2)]),
      .det,
      .det,
      .no [] 0 (1, [(4, 2), (8, 1), (10, 2)]),
      .det,
      .no [] 0 (1, [(4, 2), (5, 2), (7, 1), (11, 2), (12, 2)]),
      .det,
      .no [(0, (2, [(5, 2), (6, 1), (7, 1), (18, 1)])), (1, (2, [(4, 2), (6, 1), (7, 1), (18, 1)])), (2, (1, [(15, 1)])), (3, (1, [(4, 2), (5, 2), (6, 1), (18, 1)])), (4, (1, [(4, 2), (5, 2), (6, 1), (18, 1), (26, 2)])), (5, (2, [(5, 2), (6, 1), (7, 1), (18, 1)])), (6, (2, [(4, 2), (6, 1), (7, 1), (18, 1)]))] 0 (1, [(4, 2), (5, 4), (6, 3), (18, 1), (26, 4), (31, 2)]),
      .no [] 0 (1, [(4, 2), (5, 2), (7, 1), (11, 2)]),
      .det,
      .no [] 1 (1, [(10, 1)]),
      .no [] 0 (1, [(4, 1), (6, 1), (10, 2)]),
      .det,
      .no [] 0 (1, [(1, 1), (4, 1), (10, 1)]),
      .det,
      .no [] 0 (1, [(7, 1), (11, 2), (12, 2)]),
      .det,
      .det,
      .no [] 0 (1, [(7, 1), (11, 2)]),
      .det,
      .det,
      .no [] 0 (1, [(3, 1), (4, 1), (10, 1)]),
      .det],
    .no [] 0 (1, [(1, 2), (4, 1), (5, 1), (12, 1)]),
    .no [] 0 (1, [(1, 2), (4, 2), (5, 2), (7, 2), (8, 1), (13, 2)]),
    .no [] 1 (2, [(7, 1), (8, 1), (13, 2)]),
    .no [] 0 (1, [(4, 1), (5, 2), (6, 1), (8, 1), (10, 1), (12, 1)]),
    .no [] 0 (1, [(4, 1), (5, 1), (7, 1), (13, 1)]),
    .no [] 0 (1, [(7, 1), (13, 2)]),
    .no [] 0 (2, [(4, 1), (5, 2), (10, 1), (12, 1)]),
    .no [] 0 (1, [(3, 2), (4, 1), (5, 2), (6, 1), (7, 2), (13, 2)]),
    .no [] 0 (1, [(3, 2), (12, 1)]),
    .no [] 0 (3, [(1, 2), (3, 2), (4, 2), (5, 2), (10, 1), (12, 1)])]

theorem uniqM_8_ok : uniqM_8.check true false (1, 0, -1) = true := by decide +kernel

/-- All second bases with first vector `(1, 0, 0)`. -/
def uniqM_9 : UTree1 :=
  .node [
    .no [] 0 (2, [(1, 2), (2, 2), (3, 2), (4, 1), (5, 1), (12, 1)]),
    .no [] 0 (1, [(3, 2), (12, 1)]),
    .no [] 3 (2, [(5, 1), (6, 1), (7, 1), (12, 1)]),
    .no [] 0 (1, [(2, 2), (5, 1), (12, 1)]),
    .no [] 0 (1, [(14, 1)]),
    .node [
      .no [] 0 (1, [(2, 2), (3, 2), (16, 1)]),
      .no [] 0 (1, [(3, 2), (16, 1)]),
      .no [] 0 (1, [(3, 2), (4, 1), (5, 2), (6, 1), (7, 2), (10, 2)]),
      .det,
      .det,
      .det,
      .no [] 0 (1, [(8, 1), (16, 1), (17, 1)]),
      .no [] 1 (2, [(7, 1), (8, 1), (10, 2)]),
      .no [] 0 (1, [(1, 2), (4, 2), (5, 2), (7, 2), (8, 1), (10, 2)]),
      .no [] 0 (1, [(1, 2), (4, 1), (5, 2), (7, 1), (18, 1)]),
      .no [(1, (1, [(7, 1), (22, 1)])), (3, (1, [(17, 1)])), (4, (1, [(17, 1), (25, 2)])), (6, (1, [(7, 1), (22, 1)])), (8, (1, [(17, 1), (25, 2)]))] 0 (1, [(7, 1), (29, 2)]),
      .no [] 0 (1, [(4, 1), (5, 2), (6, 1), (10, 2), (11, 2)]),
      .det,
      .det,
      .det,
      .no [(1, (2, [(6, 1), (7, 1), (18, 1)])), (2, (1, [(5, 2), (7, 1), (18, 1)])), (3, (1, [(17, 1)])), (4, (1, [(17, 1), (25, 2)])), (6, (2, [(6, 1), (7, 1), (18, 1)])), (7, (1, [(5, 2), (6, 1), (25, 2)]))] 0 (1, [(7, 1), (30, 2)]),
      .no [] 1 (1, [(10, 1), (11, 1)]),
      .no [] 0 (1, [(1, 1), (4, 1), (5, 1), (10, 1), (11, 1)]),
      .no [] 1 (2, [(4, 1), (5, 2), (7, 2), (8, 1), (15, 1)]),
      .no [] 0 (1, [(8, 1), (11, 2)]),
      .no [] 0 (1, [(2, 2), (8, 1), (11, 2)]),
      .det,
      .det,
      .det,
      .no [] 0 (1, [(3, 2), (7, 1), (11, 2)]),
      .no [] 0 (1, [(3, 1), (11, 1)]),
      .no [] 0 (1, [(2, 1), (3, 1), (11, 1)])],
    .no [] 2 (2, [(5, 1), (6, 1), (8, 1), (12, 1)]),
    .node [
      .no [] 0 (1, [(2, 2), (3, 2), (16, 1)]),
      .det,
      .no [] 0 (1, [(7, 1), (16, 1), (17, 1)]),
      .no [] 0 (1, [(2, 2), (16, 1)]),
      .det,
      .no [] 1 (2, [(7, 1), (8, 1), (10, 2)]),
      .no [] 0 (1, [(2, 2), (4, 1), (6, 1), (8, 2), (10, 2)]),
      .det,
      .no [] 0 (1, [(1, 2), (4, 2), (7, 1), (8, 2), (10, 2)]),
      .no [] 0 (1, [(1, 2), (4, 1), (8, 1), (18, 1)]),
      .det,
      .no [(2, (1, [(8, 1), (18, 1)])), (4, (1, [(17, 1)])), (9, (1, [(8, 1)])), (3, (1, [(17, 1), (27, 2)])), (7, (1, [(6, 1), (27, 2)]))] 0 (1, [(8, 1), (29, 2)]),
      .no [(4, (1, [(17, 1)])), (9, (1, [(8, 1)]))] 2 (1, [(26, 1)]),
      .det,
      .no [] 1 (1, [(10, 1), (11, 1)]),
      .no [] 0 (1, [(4, 1), (6, 1), (10, 2), (11, 2)]),
      .det,
      .no [] 0 (1, [(1, 1), (4, 1), (10, 1), (11, 1)]),
      .no [] 1 (2, [(4, 1), (7, 1), (8, 2), (15, 1)]),
      .det,
      .no [] 0 (1, [(2, 2), (8, 1), (11, 2)]),
      .no [] 0 (1, [(7, 1), (11, 2)]),
      .det,
      .no [] 0 (1, [(2, 1), (11, 1)]),
      .no [] 0 (1, [(3, 2), (7, 1), (11, 2)]),
      .det,
      .no [] 0 (1, [(2, 1), (3, 1), (11, 1)])],
    .no [] 1 (2, [(4, 1), (5, 1), (7, 1), (8, 1), (12, 1)]),
    .no [] 0 (1, [(1, 2), (4, 1), (5, 1), (12, 1)]),
    .node [
      .no [] 0 (1, [(1, 1), (3, 1), (4, 1), (10, 1)]),
      .det,
      .no [] 0 (1, [(3, 2), (4, 1), (6, 1), (10, 2)]),
      .no [] 0 (1, [(2, 2), (16, 1)]),
      .det,
      .no [(3, (1, [(16, 1)])), (8, (1, [(7, 1)]))] 3 (1, [(26, 1)]),
      .no [] 2 (2, [(8, 1), (16, 1)]),
      .det,
      .no [] 1 (2, [(4, 1), (8, 1), (15, 1)]),
      .no [] 0 (1, [(1, 1), (4, 1), (10, 1)]),
      .det,
      .no [] 0 (1, [(4, 1), (6, 1), (10, 2)]),
      .no [] 1 (1, [(10, 1)]),
      .det,
      .no [] 2 (1, [(11, 1)]),
      .no [(2, (1, [(15, 1)])), (7, (1, [(6, 1)]))] 3 (1, [(26, 1)]),
      .det,
      .no [] 0 (1, [(1, 2), (4, 1), (15, 1)]),
      .no [] 0 (1, [(1, 2), (4, 2), (8, 1), (10, 2)]),
      .det,
      .no [] 0 (1, [(2, 2), (8, 1), (11, 2)]),
      .no [] 0 (1, [(7, 1), (11, 2)]),
      .det,
      .no [] 0 (1, [(2, 1), (11, 1)]),
      .no [] 0 (1, [(3, 2), (7, 1), (11, 2)]),
      .det,
      .no [] 0 (1, [(2, 1), (3, 1), (11, 1)])],
    .node [
      .det,
      .no [] 0 (1, [(4, 1), (6, 1), (10, 2), (12, 2)]),
      .det,
      .no [] 0 (1, [(2, 2), (16, 1)]),
      .det,
      .no [] 0 (1, [(4, 1), (5, 2), (6, 1), (10, 2), (12, 2)]),
      .det,
      .no [(1, (1, [(6, 1), (22, 1)])), (2, (1, [(8, 1), (18, 1)])), (4, (1, [(16, 1)])), (6, (1, [(6, 1), (22, 1)]))] 0 (1, [(8, 3), (26, 2), (28, 4)]),
      .det,
      .det,
      .no [] 0 (1, [(4, 1), (6, 1), (10, 2)]),
      .det,
      .no [(1, (2, [(6, 1), (15, 1)])), (2, (1, [(5, 2), (15, 1)])), (6, (2, [(6, 1), (15, 1)])), (7, (1, [(5, 2), (6, 1)]))] 2 (1, [(27, 1), (28, 1)]),
      .det,
      .no [] 0 (1, [(4, 1), (5, 2), (6, 1), (10, 2)]),
      .det,
      .no [] 2 (1, [(11, 1), (12, 1)]),
      .det,
      .det,
      .no [] 0 (1, [(8, 1), (11, 2)]),
      .det,
      .no [] 0 (1, [(7, 1), (11, 2)]),
      .det,
      .no [] 0 (1, [(2, 1), (11, 1)]),
      .det,
      .no [] 0 (1, [(3, 1), (11, 1)]),
      .det],
    .node [
      .no [] 0 (1, [(1, 1), (2, 1), (4, 1), (5, 1), (10, 1)]),
      .no [] 0 (1, [(3, 2), (16, 1)]),
      .no [] 3 (2, [(7, 1), (16, 1)]),
      .det,
      .det,
      .det,
      .no [] 0 (1, [(2, 2), (4, 1), (5, 2), (6, 1), (10, 2)]),
      .no [(1, (1, [(22, 1)])), (4, (1, [(16, 1)])), (6, (1, [(22, 1)])), (3, (1, [(8, 1), (27, 2)])), (8, (1, [(8, 1)]))] 0 (1, [(8, 1), (27, 2), (29, 2)]),
      .no [] 1 (2, [(4, 1), (5, 2), (7, 1), (15, 1)]),
      .no [] 0 (1, [(1, 1), (4, 1), (5, 1), (10, 1)]),
      .no [] 1 (1, [(10, 1)]),
      .no [(1, (2, [(6, 1), (15, 1)])), (2, (1, [(5, 2), (15, 1)])), (6, (2, [(6, 1), (15, 1)])), (7, (1, [(5, 2), (6, 1)]))] 2 (1, [(28, 1)]),
      .det,
      .det,
      .det,
      .no [] 0 (1, [(4, 1), (5, 2), (6, 1), (10, 2)]),
      .no [] 3 (1, [(11, 1)]),
      .no [] 0 (1, [(1, 2), (4, 1), (5, 2), (15, 1)]),
      .no [] 0 (1, [(1, 2), (4, 2), (5, 2), (7, 1), (10, 2)]),
      .no [] 0 (1, [(8, 1), (11, 2)]),
      .no [] 0 (1, [(2, 2), (8, 1), (11, 2)]),
      .det,
      .det,
      .det,
      .no [] 0 (1, [(3, 2), (7, 1), (11, 2)]),
      .no [] 0 (1, [(3, 1), (11, 1)]),
      .no [] 0 (1, [(2, 1), (3, 1), (11, 1)])],
    .no [] 0 (1, [(4, 1), (11, 1)]),
    .no [] 2 (1, [(13, 1)]),
    .node [
      .det,
      .no [] 0 (1, [(3, 2), (16, 1)]),
      .det,
      .no [] 0 (1, [(4, 1), (5, 2), (6, 1), (10, 2), (12, 2)]),
      .det,
      .no [(1, (2, [(6, 1), (7, 1), (18, 1)])), (2, (1, [(5, 2), (7, 1), (18, 1)])), (3, (1, [(16, 1)])), (4, (1, [(16, 1), (25, 2)])), (6, (2, [(6, 1), (7, 1), (18, 1)]))] 0 (1, [(7, 1), (25, 2), (29, 2)]),
      .det,
      .no [] 0 (1, [(4, 1), (6, 1), (10, 2), (12, 2)]),
      .det,
      .det,
      .no [(1, (1, [(6, 1), (22, 1)])), (2, (1, [(15, 1)])), (6, (1, [(6, 1), (22, 1)]))] 2 (1, [(25, 2), (27, 1)]),
      .det,
      .no [] 0 (1, [(4, 1), (5, 2), (6, 1), (10, 2)]),
      .det,
      .no [] 2 (1, [(11, 1)]),
      .det,
      .no [] 0 (1, [(4, 1), (6, 1), (10, 2)]),
      .det,
      .det,
      .no [] 0 (1, [(8, 1), (11, 2)]),
      .det,
      .no [] 0 (1, [(7, 1), (11, 2)]),
      .det,
      .no [] 0 (1, [(2, 1), (11, 1)]),
      .det,
      .no [] 0 (1, [(3, 1), (11, 1)]),
      .det],
    .no [] 3 (1, [(13, 1)]),
    .no [] 0 (1, [(1, 2), (4, 1), (5, 1), (12, 1)]),
    .no [] 1 (2, [(4, 1), (5, 1), (7, 1), (8, 1), (12, 1)]),
    .no [] 0 (1, [(8, 1), (13, 2)]),
    .no [] 0 (1, [(2, 2), (8, 1), (13, 2)]),
    .no [] 0 (1, [(7, 1), (13, 2)]),
    .no [] 0 (1, [(13, 1)]),
    .no [] 0 (1, [(2, 2), (5, 1), (12, 1)]),
    .no [] 0 (1, [(3, 2), (7, 1), (13, 2)]),
    .no [] 0 (1, [(3, 2), (12, 1)]),
    .no [] 0 (2, [(1, 2), (2, 2), (3, 2), (4, 1), (5, 1), (12, 1)])]

theorem uniqM_9_ok : uniqM_9.check true false (1, 0, 0) = true := by decide +kernel

/-- All second bases with first vector `(1, 0, 1)`. -/
def uniqM_10 : UTree1 :=
  .no [] 0 (1, [(2, 2), (4, 1), (5, 1), (10, 1)])

theorem uniqM_10_ok : uniqM_10.check true false (1, 0, 1) = true := by decide +kernel

/-- All second bases with first vector `(1, 1, -1)`. -/
def uniqM_11 : UTree1 :=
  .no [] 3 (2, [(4, 1), (5, 1), (6, 1), (7, 1), (10, 1)])

theorem uniqM_11_ok : uniqM_11.check true false (1, 1, -1) = true := by decide +kernel

/-- All second bases with first vector `(1, 1, 0)`. -/
def uniqM_12 : UTree1 :=
  .no [] 0 (1, [(3, 2), (4, 1), (10, 1)])

theorem uniqM_12_ok : uniqM_12.check true false (1, 1, 0) = true := by decide +kernel

/-- All second bases with first vector `(1, 1, 1)`. -/
def uniqM_13 : UTree1 :=
  .no [] 0 (2, [(1, 2), (2, 2), (3, 2), (4, 2), (5, 1), (10, 1)])

theorem uniqM_13_ok : uniqM_13.check true false (1, 1, 1) = true := by decide +kernel

theorem uniqM {u : ℤ × ℤ × ℤ} (hu : u ∈ Form.vecs.drop 13) :
    ∃ T : UTree1, T.check true false u = true := by
  have h : u ∈ ([(0, 0, 0), (0, 0, 1), (0, 1, -1), (0, 1, 0), (0, 1, 1), (1, -1, -1), (1, -1, 0), (1, -1, 1), (1, 0, -1), (1, 0, 0), (1, 0, 1), (1, 1, -1), (1, 1, 0), (1, 1, 1)] : List (ℤ × ℤ × ℤ)) := hu
  simp only [List.mem_cons, List.not_mem_nil, or_false] at h
  rcases h with rfl | rfl | rfl | rfl | rfl | rfl | rfl | rfl | rfl | rfl | rfl | rfl | rfl | rfl
  · exact ⟨_, uniqM_0_ok⟩
  · exact ⟨_, uniqM_1_ok⟩
  · exact ⟨_, uniqM_2_ok⟩
  · exact ⟨_, uniqM_3_ok⟩
  · exact ⟨_, uniqM_4_ok⟩
  · exact ⟨_, uniqM_5_ok⟩
  · exact ⟨_, uniqM_6_ok⟩
  · exact ⟨_, uniqM_7_ok⟩
  · exact ⟨_, uniqM_8_ok⟩
  · exact ⟨_, uniqM_9_ok⟩
  · exact ⟨_, uniqM_10_ok⟩
  · exact ⟨_, uniqM_11_ok⟩
  · exact ⟨_, uniqM_12_ok⟩
  · exact ⟨_, uniqM_13_ok⟩

end AutoGR
