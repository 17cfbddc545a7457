import Verif.Lemmas.UniqTree

/-!
# Certificates for two reduced bases of type II

One tree for each first vector, up to its sign.
-/

namespace AutoGR

/-- All second bases with first vector `(0, 0, 0)`. -/
def uniqII_0 : UTree1 :=
  .no [] 0 (1, [(10, 1)])

theorem uniqII_0_ok : uniqII_0.check false false (0, 0, 0) = true := by decide +kernel

/-- All second bases with first vector `(0, 0, 1)`. -/
def uniqII_1 : UTree1 :=
  .node [
    .node [
      .det,
      .det,
      .det,
      .no [] 0 (1, [(4, 1), (5, 2), (7, 1), (9, 1), (11, 2)]),
      .no [] 0 (1, [(8, 1), (11, 2), (12, 2)]),
      .no [] 0 (1, [(2, 1), (4, 1), (5, 1), (12, 1)]),
      .det,
      .det,
      .det,
      .no [] 0 (1, [(4, 2), (5, 2), (6, 1), (9, 1), (11, 2)]),
      .no [] 0 (1, [(4, 2), (8, 1), (11, 2), (12, 2)]),
      .no [] 0 (1, [(1, 1), (4, 1), (5, 1), (12, 1)]),
      .det,
      .det,
      .det,
      .no [] 0 (1, [(1, 2), (4, 2), (5, 2), (17, 1)]),
      .eq [(0, (2, [(5, 2), (9, 1), (19, 1)])), (1, (2, [(4, 2), (9, 1), (19, 1)])), (5, (1, [(4, 2), (5, 2), (19, 1)])), (6, (2, [(5, 2), (9, 1), (19, 1)]))] [(1, [(29, 1)]), (2, [(4, 1), (9, 1), (26, 2)]), (1, [(26, 1)]), (2, [(4, 1), (9, 1), (29, 2)]), (2, [(4, 1), (19, 1)]), (2, [(4, 1), (5, 2), (9, 1)])],
      .no [] 0 (1, [(4, 1), (5, 2), (6, 1), (12, 2)]),
      .det,
      .det,
      .det,
      .no [] 0 (1, [(2, 2), (4, 2), (5, 2), (17, 1)]),
      .eq [] [(2, [(4, 1), (5, 2), (19, 1)]), (2, [(5, 1), (9, 1), (21, 1)]), (1, []), (1, []), (2, [(5, 1), (19, 1), (21, 1)]), (2, [(4, 1), (5, 2), (9, 1)])],
      .no [] 0 (1, [(4, 2), (5, 2), (7, 1), (12, 2)]),
      .det,
      .det,
      .det],
    .node [
      .det,
      .det,
      .det,
      .no [] 0 (1, [(8, 1), (11, 2), (13, 2)]),
      .no [] 0 (1, [(8, 1), (11, 2)]),
      .no [] 0 (1, [(1, 2), (2, 2), (8, 1), (11, 2)]),
      .det,
      .det,
      .det,
      .no [] 0 (1, [(4, 2), (8, 1), (11, 2), (13, 2)]),
      .no [] 0 (1, [(4, 2), (8, 1), (11, 2)]),
      .no [] 0 (1, [(1, 2), (2, 2), (4, 2), (8, 1), (11, 2)]),
      .det,
      .det,
      .det,
      .no [] 0 (1, [(1, 2), (4, 2), (5, 2), (17, 1)]),
      .no [(0, (1, [(8, 1), (16, 1)])), (1, (1, [(4, 1), (21, 1)])), (4, (1, [(4, 1), (16, 1)])), (6, (1, [(8, 1), (16, 1)]))] 0 (1, [(2, 2), (4, 2), (8, 1), (13, 2), (29, 2)]),
      .no [] 0 (1, [(4, 1), (5, 2), (6, 1), (12, 2)]),
      .det,
      .det,
      .det,
      .no [] 0 (1, [(2, 2), (4, 2), (5, 2), (17, 1)]),
      .no [(0, (1, [(5, 1), (21, 1)])), (1, (1, [(4, 1), (21, 1)])), (4, (1, [(5, 1), (16, 1), (21, 1)])), (6, (1, [(5, 1), (21, 1)]))] 0 (1, [(1, 2), (8, 1), (13, 2), (29, 2)]),
      .no [] 0 (1, [(4, 2), (5, 2), (7, 1), (12, 2)]),
      .det,
      .det,
      .det],
    .no [] 0 (1, [(1, 2), (2, 2), (4, 1), (5, 1), (8, 1), (13, 1)]),
    .no [(0, (1, [(5, 1), (11, 1)])), (1, (1, [(4, 1), (11, 1)])), (3, (1, [(5, 1), (13, 1)]))] 0 (1, [(5, 1), (13, 1), (17, 2), (18, 2)]),
    .node [
      .no [] 0 (1, [(8, 1), (11, 2), (13, 2)]),
      .no [] 0 (1, [(8, 1), (11, 2)]),
      .no [] 0 (1, [(2, 2), (8, 1), (11, 2)]),
      .det,
      .det,
      .det,
      .no [] 0 (1, [(3, 2), (7, 1), (11, 2)]),
      .no [] 0 (1, [(3, 1), (11, 1)]),
      .no [] 0 (1, [(2, 1), (3, 1), (11, 1)]),
      .no [(0, (1, [(5, 2), (6, 1), (17, 1)]))] 0 (1, [(4, 2), (5, 2), (13, 2), (17, 1), (26, 2)]),
      .eq [(0, (1, [(5, 1), (21, 1)])), (1, (1, [(4, 1), (21, 1)])), (6, (1, [(5, 1), (21, 1)]))] [(1, [(1, 2), (28, 1)]), (1, [(3, 1), (12, 1)]), (1, [(1, 1), (2, 1)]), (1, [(12, 1), (13, 1)]), (1, [(2, 1), (3, 1)]), (1, [(1, 1), (13, 1), (28, 1)])],
      .no [] 0 (1, [(1, 1), (4, 1), (5, 1), (12, 1)]),
      .det,
      .det,
      .det,
      .no [] 0 (1, [(1, 2), (4, 2), (5, 2), (17, 1)]),
      .eq [(0, (1, [(5, 1), (21, 1)]))] [(1, [(1, 1), (3, 1)]), (1, [(11, 1), (13, 1), (26, 1)]), (1, [(26, 1)]), (1, [(1, 1), (13, 1)]), (1, [(2, 1), (3, 1)]), (1, [(11, 1), (13, 1)])],
      .no [] 0 (1, [(4, 1), (5, 2), (6, 1), (12, 2)]),
      .no [] 0 (1, [(2, 4), (3, 2), (5, 2), (6, 1), (16, 1), (17, 1)]),
      .no [] 0 (1, [(3, 2), (5, 1), (16, 1), (21, 1)]),
      .no [] 0 (1, [(1, 2), (4, 2), (5, 2), (7, 1), (12, 2)]),
      .det,
      .det,
      .det,
      .no [] 0 (1, [(1, 2), (2, 2), (4, 2), (5, 2), (17, 1)]),
      .no [(0, (1, [(5, 1), (21, 1)])), (1, (1, [(4, 1), (21, 1)])), (4, (1, [(5, 1), (16, 1), (21, 1)])), (6, (1, [(5, 1), (21, 1)]))] 0 (1, [(8, 1), (13, 4), (26, 2), (29, 2)]),
      .no [] 0 (1, [(4, 1), (5, 2), (6, 1), (12, 2), (13, 2)])],
    .no [] 0 (1, [(2, 2), (5, 1), (13, 1)]),
    .no [] 0 (1, [(1, 2), (3, 2), (4, 1), (5, 1), (7, 1), (13, 1)]),
    .no [] 0 (1, [(3, 2), (13, 1)]),
    .no [] 0 (1, [(2, 2), (3, 2), (5, 1), (6, 1), (13, 1)]),
    .no [(0, (1, [(5, 1), (11, 1)])), (1, (1, [(4, 1), (11, 1)]))] 0 (1, [(4, 2), (5, 3), (9, 1), (13, 3), (16, 4), (17, 2)]),
    .node [
      .no [] 0 (1, [(4, 2), (8, 1), (11, 2), (13, 2)]),
      .no [] 0 (1, [(4, 2), (8, 1), (11, 2)]),
      .no [] 0 (1, [(1, 2), (4, 2), (8, 1), (11, 2)]),
      .no [(0, (2, [(5, 2), (7, 1), (17, 1)])), (1, (2, [(4, 2), (7, 1), (17, 1)])), (3, (1, [(4, 2), (5, 2), (17, 1)]))] 0 (1, [(4, 2), (5, 2), (17, 1), (27, 2), (28, 2)]),
      .eq [(0, (1, [(5, 1), (21, 1)])), (1, (1, [(4, 1), (21, 1)])), (6, (1, [(5, 1), (21, 1)]))] [(1, [(1, 1), (2, 1), (28, 1)]), (1, [(3, 1), (13, 1)]), (1, [(2, 2)]), (1, [(12, 2)]), (1, [(1, 1), (3, 1)]), (1, [(2, 1), (13, 1), (28, 1)])],
      .no [] 0 (1, [(2, 1), (4, 1), (5, 1), (12, 1)]),
      .no [] 0 (1, [(1, 2), (3, 2), (4, 1), (16, 1)]),
      .no [] 0 (1, [(3, 2), (4, 1), (16, 1)]),
      .no [] 0 (1, [(2, 2), (4, 1), (5, 2), (6, 1), (12, 2)]),
      .det,
      .det,
      .det,
      .det,
      .det,
      .det,
      .det,
      .det,
      .det,
      .no [] 0 (1, [(3, 2), (4, 1), (6, 1), (11, 2)]),
      .no [] 0 (1, [(3, 1), (4, 1), (11, 1)]),
      .no [] 0 (1, [(1, 1), (3, 1), (4, 1), (11, 1)]),
      .no [] 0 (1, [(2, 2), (4, 2), (5, 2), (17, 1)]),
      .eq [] [(1, [(1, 1), (3, 1)]), (1, [(11, 1), (13, 1)]), (1, []), (1, []), (1, [(1, 1), (3, 1)]), (1, [(11, 1), (13, 1)])],
      .no [] 0 (1, [(4, 2), (5, 2), (7, 1), (12, 2)]),
      .no [] 0 (1, [(1, 2), (2, 2), (4, 2), (5, 2), (17, 1)]),
      .no [(0, (1, [(8, 1), (16, 1)])), (1, (1, [(4, 1), (21, 1)])), (4, (1, [(4, 1), (16, 1)])), (6, (1, [(8, 1), (16, 1)]))] 0 (1, [(4, 2), (8, 1), (13, 2), (28, 2), (29, 2)]),
      .no [] 0 (1, [(4, 2), (5, 2), (7, 1), (12, 2), (13, 2)])],
    .no [] 0 (1, [(1, 2), (4, 1), (5, 1), (13, 1)]),
    .no [] 0 (1, [(4, 2), (5, 2), (15, 1)]),
    .no [] 0 (1, [(4, 1), (12, 1)]),
    .no [] 0 (1, [(4, 1), (5, 1), (14, 1)]),
    .no [] 0 (1, [(1, 2), (4, 1), (5, 1), (13, 1)]),
    .node [
      .eq [(0, (2, [(5, 2), (9, 1), (19, 1)])), (1, (2, [(4, 2), (9, 1), (19, 1)])), (5, (1, [(4, 2), (5, 2), (19, 1)])), (6, (2, [(5, 2), (9, 1), (19, 1)])), (7, (2, [(4, 2), (9, 1), (19, 1)]))] [(1, [(5, 1), (27, 1), (30, 1)]), (2, [(4, 1), (9, 1), (26, 2)]), (1, [(26, 1), (30, 1)]), (2, [(4, 1), (5, 2), (9, 1), (27, 2)]), (1, [(26, 1), (27, 1)]), (2, [(4, 1), (5, 2), (9, 1), (30, 2)])],
      .no [(0, (1, [(8, 1), (16, 1)])), (1, (1, [(4, 1), (21, 1)])), (4, (1, [(4, 1), (16, 1)])), (6, (1, [(8, 1), (16, 1)]))] 0 (1, [(1, 2), (2, 2), (4, 2), (8, 1), (29, 2)]),
      .no [] 0 (1, [(1, 1), (2, 1), (4, 1), (5, 1), (12, 1)]),
      .eq [] [(1, [(1, 2), (3, 1)]), (1, [(3, 1), (11, 2)]), (1, [(4, 1), (5, 1), (17, 1)]), (1, [(4, 1), (5, 1), (7, 1)]), (1, [(3, 2), (11, 1)]), (1, [(1, 2), (11, 1)])],
      .eq [(0, (1, [(5, 1), (21, 1)]))] [(1, [(1, 1), (3, 1)]), (1, [(11, 1), (12, 1), (26, 1)]), (1, [(2, 2)]), (1, [(12, 2)]), (1, [(3, 1), (12, 1), (26, 1)]), (1, [(1, 1), (11, 1)])],
      .no [] 0 (1, [(2, 1), (4, 1), (5, 1), (12, 1)]),
      .no [] 0 (1, [(1, 1), (3, 1), (4, 1), (11, 1)]),
      .no [] 0 (1, [(3, 1), (4, 1), (11, 1)]),
      .no [] 0 (1, [(3, 2), (4, 1), (6, 1), (11, 2)]),
      .det,
      .det,
      .det,
      .det,
      .det,
      .det,
      .det,
      .det,
      .det,
      .no [] 0 (1, [(2, 2), (3, 2), (4, 2), (5, 2), (6, 1), (19, 1)]),
      .no [] 0 (1, [(3, 2), (4, 1), (16, 1)]),
      .no [] 0 (1, [(1, 2), (4, 2), (5, 2), (7, 1), (12, 2)]),
      .no [] 0 (1, [(2, 2), (4, 2), (5, 2), (17, 1)]),
      .eq [(0, (1, [(5, 1), (21, 1)])), (1, (1, [(4, 1), (21, 1)])), (6, (1, [(5, 1), (21, 1)])), (7, (1, [(4, 1), (21, 1)]))] [(1, [(28, 1), (29, 1)]), (1, [(26, 1), (27, 1)]), (1, []), (1, []), (1, [(26, 1), (27, 1)]), (1, [(28, 1), (29, 1)])],
      .no [] 0 (1, [(4, 2), (5, 2), (7, 1), (12, 2)]),
      .no [] 0 (1, [(1, 2), (4, 2), (8, 1), (11, 2)]),
      .no [] 0 (1, [(4, 2), (8, 1), (11, 2)]),
      .no [] 0 (1, [(4, 2), (5, 2), (6, 1), (9, 1), (11, 2), (12, 2)])],
    .no [] 0 (1, [(4, 1), (5, 2), (6, 1), (14, 2)]),
    .no [] 0 (1, [(2, 2), (3, 2), (5, 1), (6, 1), (13, 1)]),
    .no [] 0 (1, [(3, 2), (13, 1)]),
    .no [] 0 (1, [(1, 2), (3, 2), (4, 1), (5, 1), (7, 1), (13, 1)]),
    .no [] 0 (1, [(2, 2), (5, 1), (13, 1)]),
    .node [
      .eq [(0, (1, [(5, 1), (21, 1)])), (1, (2, [(9, 1), (19, 1)])), (5, (1, [(5, 2), (19, 1)])), (6, (1, [(5, 1), (21, 1)])), (7, (2, [(9, 1), (19, 1)]))] [(2, [(4, 1), (5, 2), (19, 1)]), (2, [(5, 1), (9, 1), (21, 1)]), (1, [(30, 1)]), (2, [(4, 1), (5, 2), (9, 1), (27, 2)]), (1, [(27, 1)]), (2, [(4, 1), (5, 2), (9, 1), (30, 2)])],
      .no [(0, (1, [(5, 1), (21, 1)])), (1, (1, [(4, 1), (21, 1)])), (4, (1, [(5, 1), (16, 1), (21, 1)])), (6, (1, [(5, 1), (21, 1)]))] 0 (1, [(1, 2), (2, 2), (8, 1), (29, 2)]),
      .no [] 0 (1, [(1, 1), (2, 1), (4, 1), (5, 1), (12, 1)]),
      .det,
      .det,
      .det,
      .no [] 0 (1, [(1, 2), (3, 2), (4, 1), (5, 2), (7, 1), (19, 1)]),
      .no [] 0 (1, [(3, 2), (5, 1), (16, 1), (21, 1)]),
      .no [] 0 (1, [(2, 2), (4, 1), (5, 2), (6, 1), (12, 2)]),
      .no [(0, (1, [(5, 2), (6, 1), (17, 1)]))] 0 (1, [(3, 2), (4, 2), (5, 2), (11, 2), (17, 1), (26, 2)]),
      .eq [(0, (1, [(5, 1), (21, 1)])), (1, (1, [(4, 1), (21, 1)]))] [(1, [(1, 1), (3, 1)]), (1, [(11, 1), (12, 1)]), (1, [(1, 1), (2, 1)]), (1, [(11, 1), (12, 1), (27, 1)]), (1, [(27, 1)]), (1, [(2, 1), (11, 1)])],
      .no [] 0 (1, [(1, 1), (4, 1), (5, 1), (12, 1)]),
      .det,
      .det,
      .det,
      .no [] 0 (1, [(1, 2), (4, 2), (5, 2), (17, 1)]),
      .eq [(0, (1, [(5, 1), (21, 1)])), (1, (1, [(4, 1), (21, 1)])), (6, (1, [(5, 1), (21, 1)]))] [(1, [(28, 1)]), (1, [(26, 1), (27, 1)]), (1, [(26, 1)]), (1, [(27, 1), (28, 1)]), (1, [(27, 1)]), (1, [(26, 1), (28, 1)])],
      .no [] 0 (1, [(4, 1), (5, 2), (6, 1), (12, 2)]),
      .no [] 0 (1, [(2, 1), (3, 1), (11, 1)]),
      .no [] 0 (1, [(3, 1), (11, 1)]),
      .no [] 0 (1, [(3, 2), (7, 1), (11, 2)]),
      .det,
      .det,
      .det,
      .no [] 0 (1, [(2, 2), (8, 1), (11, 2)]),
      .no [] 0 (1, [(8, 1), (11, 2)]),
      .no [] 0 (1, [(1, 2), (5, 2), (7, 1), (9, 2), (11, 4), (12, 2)])],
    .no [] 0 (1, [(4, 2), (5, 2), (7, 1), (14, 2)]),
    .no [] 0 (1, [(1, 2), (2, 2), (4, 1), (5, 1), (8, 1), (13, 1)]),
    .node [
      .det,
      .det,
      .det,
      .eq [] [(2, [(1, 4), (4, 1), (5, 2), (19, 1)]), (2, [(4, 1), (5, 2), (9, 1), (17, 1), (18, 1)]), (1, [(4, 1), (5, 1), (17, 1)]), (1, [(4, 1), (5, 1), (7, 1)]), (2, [(1, 2), (4, 1), (5, 2), (18, 2), (19, 1)]), (2, [(1, 2), (4, 2), (5, 2), (8, 1), (17, 1)])],
      .no [(0, (1, [(5, 1), (21, 1)])), (1, (1, [(4, 1), (21, 1)])), (4, (1, [(5, 1), (16, 1), (21, 1)])), (6, (1, [(5, 1), (21, 1)]))] 0 (1, [(1, 2), (8, 1), (26, 2), (29, 2)]),
      .no [] 0 (1, [(2, 1), (4, 1), (5, 1), (12, 1)]),
      .det,
      .det,
      .det,
      .no [(0, (1, [(5, 2), (6, 1), (17, 1)]))] 0 (1, [(4, 4), (5, 4), (17, 2), (18, 1), (26, 2)]),
      .no [(0, (1, [(8, 1), (16, 1)])), (1, (1, [(4, 1), (21, 1)])), (4, (1, [(4, 1), (16, 1)])), (6, (1, [(8, 1), (16, 1)]))] 0 (1, [(1, 2), (4, 2), (8, 1), (29, 2)]),
      .no [] 0 (1, [(1, 1), (4, 1), (5, 1), (12, 1)]),
      .det,
      .det,
      .det,
      .no [] 0 (1, [(1, 2), (2, 2), (4, 2), (8, 1), (11, 2)]),
      .no [] 0 (1, [(4, 2), (8, 1), (11, 2)]),
      .no [] 0 (1, [(4, 1), (5, 2), (6, 1), (12, 2)]),
      .det,
      .det,
      .det,
      .no [] 0 (1, [(1, 2), (2, 2), (8, 1), (11, 2)]),
      .no [] 0 (1, [(8, 1), (11, 2)]),
      .no [] 0 (1, [(4, 2), (5, 2), (7, 1), (12, 2)]),
      .det,
      .det,
      .det],
    .no [(0, (1, [(5, 1), (11, 1)])), (1, (1, [(4, 1), (11, 1)]))] 0 (1, [(4, 2), (5, 4), (6, 1), (9, 1), (14, 4), (17, 2)])]

theorem uniqII_1_ok : uniqII_1.check false false (0, 0, 1) = true := by decide +kernel

/-- All second bases with first vector `(0, 1, -1)`. -/
def uniqII_2 : UTree1 :=
  .no [] 0 (1, [(1, 2), (4, 2), (5, 1), (11, 1)])

theorem uniqII_2_ok : uniqII_2.check false false (0, 1, -1) = true := by decide +kernel

/-- All second bases with first vector `(0, 1, 0)`. -/
def uniqII_3 : UTree1 :=
  .node [
    .node [
      .det,
      .no [] 0 (1, [(4, 1), (8, 1), (9, 1), (11, 2)]),
      .det,
      .det,
      .no [] 0 (1, [(7, 1), (11, 2), (12, 2)]),
      .det,
      .det,
      .no [] 0 (1, [(3, 1), (4, 1), (12, 1)]),
      .det,
      .no [] 0 (1, [(4, 2), (5, 2), (6, 1), (9, 1), (11, 2)]),
      .det,
      .no [] 0 (1, [(1, 2), (4, 2), (17, 1)]),
      .no [] 0 (1, [(4, 2), (5, 2), (7, 1), (11, 2), (12, 2)]),
      .det,
      .eq [(0, (2, [(5, 2), (9, 1), (19, 1)])), (1, (2, [(4, 2), (9, 1), (19, 1)])), (5, (1, [(4, 2), (5, 2), (19, 1)])), (6, (2, [(5, 2), (9, 1), (19, 1)]))] [(1, [(29, 1)]), (2, [(4, 1), (5, 2), (9, 1), (26, 2), (27, 2)]), (1, [(26, 1)]), (2, [(4, 1), (5, 2), (9, 1), (27, 2), (29, 2)]), (2, [(4, 1), (5, 2), (19, 1), (27, 2)]), (1, [(4, 1), (5, 1), (9, 1), (26, 1), (29, 1)])],
      .no [] 0 (1, [(1, 1), (4, 1), (12, 1)]),
      .det,
      .no [] 0 (1, [(4, 1), (6, 1), (12, 2)]),
      .det,
      .no [] 0 (1, [(3, 2), (4, 2), (17, 1)]),
      .det,
      .det,
      .eq [(0, (1, [(21, 1)])), (1, (1, [(9, 1), (23, 1)])), (5, (1, [(19, 1)])), (6, (1, [(21, 1)])), (7, (1, [(9, 1), (23, 1)]))] [(2, [(4, 1), (19, 1)]), (2, [(9, 1), (21, 1)]), (2, [(19, 1), (21, 1), (30, 2)]), (1, [(27, 1)]), (2, [(19, 1), (21, 1), (27, 2)]), (1, [(30, 1)])],
      .det,
      .det,
      .no [] 0 (1, [(4, 2), (8, 1), (12, 2)]),
      .det],
    .node [
      .no [] 0 (1, [(4, 1), (8, 1), (9, 1), (11, 2)]),
      .det,
      .no [] 0 (1, [(1, 1), (2, 1), (4, 1), (8, 1), (11, 1)]),
      .no [] 0 (1, [(7, 1), (11, 2), (12, 2)]),
      .det,
      .no [] 0 (1, [(1, 2), (2, 2), (8, 1), (11, 2)]),
      .no [] 0 (1, [(1, 1), (3, 1), (4, 1), (12, 1)]),
      .det,
      .no [] 0 (1, [(3, 2), (4, 1), (6, 1), (12, 2)]),
      .no [(0, (1, [(9, 1), (11, 2)]))] 0 (1, [(4, 5), (9, 1), (17, 2), (18, 1), (26, 2)]),
      .det,
      .no [] 0 (1, [(1, 2), (2, 2), (4, 2), (8, 1), (11, 2)]),
      .eq [(0, (2, [(8, 1), (18, 1)])), (4, (1, [(4, 2), (18, 1)]))] [(1, [(27, 1)]), (1, [(2, 1)]), (1, [(1, 1), (2, 1)]), (1, [(12, 1), (27, 1)]), (1, [(4, 1), (18, 1)]), (1, [(4, 1), (8, 1)])],
      .det,
      .eq [] [(1, [(1, 2), (2, 1)]), (1, [(2, 1), (11, 2)]), (1, [(2, 2), (11, 1)]), (1, [(1, 2), (11, 1)]), (1, [(4, 1), (18, 1)]), (1, [(4, 1), (8, 1)])],
      .no [] 0 (1, [(1, 1), (4, 1), (12, 1)]),
      .det,
      .no [] 0 (1, [(4, 1), (6, 1), (12, 2)]),
      .no [] 0 (1, [(4, 3), (6, 1), (17, 1), (18, 1)]),
      .det,
      .no [] 0 (1, [(1, 2), (3, 2), (4, 2), (17, 1)]),
      .no [] 0 (1, [(1, 2), (2, 4), (8, 2), (16, 1), (19, 1)]),
      .det,
      .eq [] [(2, [(1, 4), (4, 1), (19, 1)]), (2, [(4, 1), (9, 1), (17, 1), (18, 1)]), (2, [(1, 2), (4, 1), (17, 2), (19, 1)]), (2, [(1, 2), (4, 2), (7, 1), (18, 1)]), (1, [(4, 1), (18, 1)]), (1, [(4, 1), (8, 1)])],
      .no [] 0 (1, [(1, 2), (4, 2), (8, 1), (12, 2)]),
      .det,
      .eq [] [(1, [(2, 1), (4, 1), (12, 2)]), (2, [(6, 1), (8, 1), (9, 1)]), (2, [(2, 2), (4, 1), (6, 1), (8, 1)]), (2, [(4, 1), (9, 1), (12, 4)]), (1, [(6, 1), (12, 2)]), (1, [(4, 1), (8, 1)])]],
    .no [] 0 (1, [(1, 2), (2, 2), (4, 1), (5, 1), (8, 1), (13, 1)]),
    .no [(0, (1, [(11, 1)])), (1, (1, [(7, 1), (13, 1)]))] 0 (1, [(1, 2), (5, 1), (13, 1), (14, 2), (17, 2)]),
    .node [
      .no [] 0 (1, [(7, 1), (11, 2), (13, 2)]),
      .det,
      .no [] 0 (1, [(2, 2), (8, 1), (11, 2)]),
      .no [] 0 (1, [(7, 1), (11, 2)]),
      .det,
      .no [] 0 (1, [(2, 1), (11, 1)]),
      .no [] 0 (1, [(3, 2), (7, 1), (11, 2)]),
      .det,
      .no [] 0 (1, [(2, 1), (3, 1), (11, 1)]),
      .eq [(0, (1, [(6, 1), (17, 1)]))] [(2, [(4, 2), (7, 1), (13, 2), (17, 1)]), (1, [(3, 1), (26, 1)]), (1, [(4, 1), (17, 1), (26, 1)]), (2, [(4, 1), (6, 1), (7, 1)]), (1, [(3, 2)]), (1, [(13, 2)])],
      .det,
      .no [] 0 (1, [(1, 2), (4, 2), (17, 1)]),
      .eq [(0, (1, [(21, 1)])), (6, (1, [(21, 1)]))] [(1, [(1, 2), (27, 1)]), (1, [(2, 1), (12, 1)]), (1, [(1, 1), (2, 1)]), (1, [(27, 1)]), (1, [(3, 2)]), (1, [(13, 2)])],
      .det,
      .eq [(0, (1, [(21, 1)]))] [(1, [(1, 1), (2, 1)]), (1, [(11, 2), (26, 1)]), (1, [(26, 1)]), (1, [(1, 1), (11, 1)]), (1, [(3, 2)]), (1, [(13, 2)])],
      .no [] 0 (1, [(1, 1), (4, 1), (12, 1)]),
      .det,
      .no [] 0 (1, [(4, 1), (6, 1), (12, 2)]),
      .no [] 0 (1, [(2, 2), (3, 4), (6, 1), (16, 1), (17, 1)]),
      .det,
      .no [] 0 (1, [(1, 2), (3, 2), (4, 2), (17, 1)]),
      .no [] 0 (1, [(2, 2), (16, 1), (21, 1)]),
      .det,
      .eq [(0, (1, [(21, 1)])), (3, (1, [(16, 1), (21, 1)])), (6, (1, [(21, 1)]))] [(1, [(13, 1), (28, 1)]), (2, [(3, 2), (7, 1), (17, 1)]), (2, [(16, 1), (17, 1), (21, 1)]), (1, [(7, 1), (28, 1)]), (1, [(3, 2)]), (1, [(13, 2)])],
      .no [] 0 (1, [(1, 2), (4, 2), (8, 1), (12, 2)]),
      .det,
      .no [] 0 (1, [(4, 1), (6, 1), (12, 2), (13, 2)])],
    .no [] 0 (1, [(2, 2), (5, 1), (13, 1)]),
    .no [] 0 (1, [(1, 2), (3, 2), (4, 1), (5, 1), (7, 1), (13, 1)]),
    .no [] 0 (1, [(3, 2), (13, 1)]),
    .no [] 0 (1, [(2, 2), (3, 2), (5, 1), (6, 1), (13, 1)]),
    .no [(0, (1, [(11, 1)])), (1, (1, [(6, 1), (13, 1)]))] 0 (1, [(4, 2), (5, 3), (9, 1), (13, 3), (16, 4), (17, 2)]),
    .no [] 0 (1, [(4, 2), (15, 1)]),
    .no [] 0 (1, [(1, 2), (4, 1), (5, 1), (13, 1)]),
    .node [
      .no [] 0 (1, [(4, 2), (5, 2), (7, 1), (11, 2), (13, 2)]),
      .no [(0, (2, [(8, 1), (17, 1)])), (1, (1, [(23, 1)])), (4, (1, [(4, 2), (17, 1)])), (6, (2, [(8, 1), (17, 1)])), (7, (1, [(23, 1)]))] 0 (1, [(1, 2), (4, 2), (8, 1), (30, 2)]),
      .no [] 0 (1, [(1, 2), (2, 2), (4, 1), (5, 2), (16, 1)]),
      .no [] 0 (1, [(4, 2), (5, 2), (7, 1), (11, 2)]),
      .eq [(0, (1, [(21, 1)])), (1, (1, [(23, 1)]))] [(1, [(1, 1), (12, 1), (27, 1)]), (1, [(2, 1), (13, 1)]), (1, [(2, 1), (3, 1)]), (1, [(12, 2), (27, 1)]), (1, [(1, 1), (3, 1)]), (1, [(12, 1), (13, 1)])],
      .no [] 0 (1, [(2, 2), (4, 1), (5, 2), (16, 1)]),
      .no [] 0 (1, [(1, 2), (4, 2), (5, 2), (7, 1), (11, 2)]),
      .no [] 0 (1, [(3, 1), (4, 1), (12, 1)]),
      .no [] 0 (1, [(3, 2), (4, 1), (6, 1), (12, 2)]),
      .det,
      .det,
      .det,
      .det,
      .det,
      .det,
      .det,
      .det,
      .det,
      .no [] 0 (1, [(2, 2), (4, 1), (5, 2), (6, 1), (11, 2)]),
      .no [] 0 (1, [(3, 2), (4, 2), (17, 1)]),
      .no [] 0 (1, [(1, 2), (3, 2), (4, 2), (17, 1)]),
      .no [] 0 (1, [(2, 1), (4, 1), (5, 1), (11, 1)]),
      .eq [(0, (1, [(21, 1)])), (1, (1, [(23, 1)])), (6, (1, [(21, 1)])), (7, (1, [(23, 1)]))] [(1, [(1, 1), (2, 1)]), (1, [(11, 1), (13, 1)]), (1, [(1, 1), (2, 1), (29, 1)]), (1, [(3, 1), (11, 1)]), (1, [(1, 1), (3, 1)]), (1, [(29, 1)])],
      .no [(0, (1, [(5, 2), (7, 1), (16, 1)])), (1, (2, [(4, 1), (7, 1), (16, 1)])), (3, (1, [(4, 1), (5, 2), (16, 1)]))] 0 (1, [(4, 1), (5, 2), (16, 1), (27, 2), (28, 2)]),
      .no [] 0 (1, [(1, 1), (2, 1), (4, 1), (5, 1), (11, 1)]),
      .no [] 0 (1, [(4, 2), (8, 1), (12, 2)]),
      .no [] 0 (1, [(4, 2), (8, 1), (12, 2), (13, 2)])],
    .no [] 0 (1, [(4, 1), (12, 1)]),
    .node [
      .eq [(0, (2, [(5, 2), (9, 1), (19, 1)])), (1, (2, [(4, 2), (9, 1), (19, 1)])), (5, (1, [(4, 2), (5, 2), (19, 1)])), (6, (2, [(5, 2), (9, 1), (19, 1)])), (7, (2, [(4, 2), (9, 1), (19, 1)]))] [(1, [(29, 1), (30, 1)]), (2, [(4, 1), (5, 2), (9, 1), (26, 2), (27, 2)]), (2, [(4, 1), (5, 2), (19, 1)]), (2, [(4, 1), (9, 1)]), (1, [(26, 1), (27, 1)]), (2, [(4, 1), (5, 2), (9, 1), (29, 2), (30, 2)])],
      .no [(0, (2, [(8, 1), (17, 1)])), (1, (1, [(23, 1)])), (4, (1, [(4, 2), (17, 1)])), (6, (2, [(8, 1), (17, 1)])), (7, (1, [(23, 1)]))] 0 (1, [(2, 2), (4, 2), (8, 1), (11, 2), (30, 2)]),
      .no [] 0 (1, [(1, 1), (2, 1), (4, 1), (5, 1), (11, 1)]),
      .no [(0, (1, [(5, 2), (7, 1), (16, 1)])), (1, (2, [(4, 1), (7, 1), (16, 1)]))] 0 (1, [(1, 2), (4, 1), (5, 2), (12, 2), (16, 1), (27, 2)]),
      .eq [(0, (1, [(21, 1)]))] [(1, [(1, 1), (2, 1)]), (1, [(11, 2), (26, 1)]), (1, [(2, 1), (3, 1)]), (1, [(11, 1), (12, 1)]), (1, [(3, 1), (11, 1), (26, 1)]), (1, [(1, 1), (12, 1)])],
      .no [] 0 (1, [(2, 1), (4, 1), (5, 1), (11, 1)]),
      .no [] 0 (1, [(1, 1), (3, 1), (4, 1), (12, 1)]),
      .no [] 0 (1, [(3, 1), (4, 1), (12, 1)]),
      .no [] 0 (1, [(2, 2), (4, 1), (5, 2), (6, 1), (11, 2)]),
      .det,
      .det,
      .det,
      .det,
      .det,
      .det,
      .det,
      .det,
      .det,
      .no [] 0 (1, [(2, 2), (3, 2), (4, 2), (5, 2), (6, 1), (19, 1)]),
      .no [] 0 (1, [(3, 2), (4, 2), (17, 1)]),
      .no [] 0 (1, [(1, 2), (4, 2), (5, 2), (7, 1), (11, 2)]),
      .no [] 0 (1, [(2, 2), (4, 1), (5, 2), (16, 1)]),
      .eq [(0, (1, [(21, 1)])), (1, (1, [(23, 1)])), (6, (1, [(21, 1)])), (7, (1, [(23, 1)]))] [(1, [(27, 1), (29, 1)]), (1, [(26, 1)]), (1, [(26, 1), (29, 1)]), (1, [(27, 1)]), (1, [(26, 1), (27, 1)]), (1, [(29, 1)])],
      .no [] 0 (1, [(4, 2), (5, 2), (7, 1), (11, 2)]),
      .no [] 0 (1, [(1, 2), (4, 2), (8, 1), (12, 2)]),
      .no [] 0 (1, [(4, 2), (8, 1), (12, 2)]),
      .no [] 0 (1, [(4, 2), (5, 2), (6, 1), (9, 1), (11, 2), (12, 2)])],
    .no [] 0 (1, [(1, 2), (4, 1), (5, 1), (13, 1)]),
    .no [] 0 (1, [(4, 1), (14, 1)]),
    .no [] 0 (1, [(4, 1), (6, 1), (14, 2)]),
    .no [] 0 (1, [(2, 2), (3, 2), (5, 1), (6, 1), (13, 1)]),
    .no [] 0 (1, [(3, 2), (13, 1)]),
    .no [] 0 (1, [(1, 2), (3, 2), (4, 1), (5, 1), (7, 1), (13, 1)]),
    .no [] 0 (1, [(2, 2), (5, 1), (13, 1)]),
    .node [
      .eq [] [(2, [(4, 1), (19, 1)]), (2, [(9, 1), (21, 1)]), (2, [(19, 1), (21, 1)]), (2, [(4, 1), (9, 1)]), (1, []), (1, [])],
      .det,
      .no [] 0 (1, [(1, 2), (2, 2), (4, 1), (8, 1), (19, 1)]),
      .no [(0, (1, [(21, 1)])), (3, (1, [(16, 1), (21, 1)])), (6, (1, [(21, 1)]))] 0 (1, [(1, 2), (3, 2), (7, 1), (28, 2)]),
      .det,
      .no [] 0 (1, [(2, 2), (16, 1), (21, 1)]),
      .no [] 0 (1, [(1, 1), (3, 1), (4, 1), (12, 1)]),
      .det,
      .no [] 0 (1, [(3, 2), (4, 1), (6, 1), (12, 2)]),
      .no [(0, (1, [(6, 1), (17, 1)]))] 0 (1, [(3, 2), (4, 2), (11, 2), (17, 1), (26, 2)]),
      .det,
      .no [] 0 (1, [(1, 2), (4, 2), (17, 1)]),
      .eq [] [(1, [(1, 1), (2, 1)]), (1, [(11, 1), (12, 1)]), (1, [(1, 1), (2, 1)]), (1, [(11, 1), (12, 1)]), (1, []), (1, [])],
      .det,
      .eq [(0, (1, [(21, 1)])), (6, (1, [(21, 1)]))] [(1, [(27, 1)]), (1, [(26, 1)]), (1, [(26, 1)]), (1, [(27, 1)]), (1, []), (1, [])],
      .no [] 0 (1, [(1, 1), (4, 1), (12, 1)]),
      .det,
      .no [] 0 (1, [(4, 1), (6, 1), (12, 2)]),
      .no [] 0 (1, [(2, 1), (3, 1), (11, 1)]),
      .det,
      .no [] 0 (1, [(3, 2), (7, 1), (11, 2)]),
      .no [] 0 (1, [(2, 1), (11, 1)]),
      .det,
      .no [] 0 (1, [(7, 1), (11, 2)]),
      .no [] 0 (1, [(2, 2), (8, 1), (11, 2)]),
      .det,
      .no [] 0 (1, [(1, 2), (8, 1), (9, 2), (11, 4), (12, 2)])],
    .no [(0, (1, [(11, 1)])), (1, (1, [(7, 1), (13, 1)])), (3, (1, [(5, 1), (13, 1)]))] 0 (1, [(5, 1), (13, 1), (17, 2), (18, 2)]),
    .no [] 0 (1, [(1, 2), (2, 2), (4, 1), (5, 1), (8, 1), (13, 1)]),
    .no [] 0 (1, [(4, 2), (8, 1), (14, 2)]),
    .no [(0, (1, [(11, 1)]))] 0 (1, [(4, 3), (8, 1), (9, 1), (14, 4), (16, 2)])]

theorem uniqII_3_ok : uniqII_3.check false false (0, 1, 0) = true := by decide +kernel

/-- All second bases with first vector `(0, 1, 1)`. -/
def uniqII_4 : UTree1 :=
  .no [(0, (1, [(5, 1), (6, 1), (11, 1)])), (1, (1, [(4, 1), (6, 1), (11, 1)]))] 0 (1, [(4, 5), (5, 3), (9, 1), (11, 3), (12, 4), (13, 2)])

theorem uniqII_4_ok : uniqII_4.check false false (0, 1, 1) = true := by decide +kernel

/-- All second bases with first vector `(1, -1, -1)`. -/
def uniqII_5 : UTree1 :=
  .no [] 0 (1, [(2, 2), (3, 2), (4, 1), (5, 1), (6, 1), (11, 1)])

theorem uniqII_5_ok : uniqII_5.check false false (1, -1, -1) = true := by decide +kernel

/-- All second bases with first vector `(1, -1, 0)`. -/
def uniqII_6 : UTree1 :=
  .no [] 0 (1, [(3, 2), (4, 1), (11, 1)])

theorem uniqII_6_ok : uniqII_6.check false false (1, -1, 0) = true := by decide +kernel

/-- All second bases with first vector `(1, -1, 1)`. -/
def uniqII_7 : UTree1 :=
  .no [] 0 (1, [(1, 2), (3, 2), (4, 2), (5, 1), (7, 1), (11, 1)])

theorem uniqII_7_ok : uniqII_7.check false false (1, -1, 1) = true := by decide +kernel

/-- All second bases with first vector `(1, 0, -1)`. -/
def uniqII_8 : UTree1 :=
  .no [] 0 (1, [(2, 2), (4, 1), (5, 1), (11, 1)])

theorem uniqII_8_ok : uniqII_8.check false false (1, 0, -1) = true := by decide +kernel

/-- All second bases with first vector `(1, 0, 0)`. -/
def uniqII_9 : UTree1 :=
  .node [
    .node [
      .det,
      .no [] 0 (1, [(4, 1), (8, 1), (9, 1), (11, 2)]),
      .det,
      .no [] 0 (1, [(4, 1), (5, 2), (7, 1), (9, 1), (11, 2)]),
      .det,
      .no [] 0 (1, [(2, 2), (17, 1)]),
      .det,
      .no [] 0 (1, [(3, 2), (17, 1)]),
      .det,
      .det,
      .no [] 0 (1, [(4, 1), (6, 1), (11, 2), (12, 2)]),
      .det,
      .no [] 0 (1, [(4, 1), (5, 2), (6, 1), (11, 2), (12, 2)]),
      .det,
      .eq [(1, (2, [(9, 1), (19, 1)])), (5, (1, [(5, 2), (19, 1)])), (7, (2, [(9, 1), (19, 1)])), (11, (1, [(5, 2), (9, 1)]))] [(2, [(5, 2), (19, 2), (28, 2), (29, 1)]), (2, [(5, 2), (9, 2), (26, 2), (27, 1)]), (1, []), (1, []), (2, [(26, 2), (27, 1)]), (2, [(28, 2), (29, 1)])],
      .det,
      .eq [(1, (1, [(9, 1), (23, 1)])), (5, (1, [(19, 1)])), (7, (1, [(9, 1), (23, 1)]))] [(1, [(19, 1), (26, 1), (28, 1)]), (2, [(9, 2), (27, 1)]), (2, [(27, 1), (28, 2)]), (1, [(26, 1)]), (2, [(26, 2), (27, 1)]), (1, [(28, 1)])],
      .det,
      .det,
      .no [] 0 (1, [(3, 1), (12, 1)]),
      .det,
      .no [] 0 (1, [(2, 1), (12, 1)]),
      .det,
      .no [] 0 (1, [(7, 1), (12, 2)]),
      .det,
      .no [] 0 (1, [(8, 1), (12, 2)]),
      .det],
    .node [
      .no [] 0 (1, [(4, 1), (8, 1), (9, 1), (11, 2)]),
      .det,
      .no [] 0 (1, [(1, 1), (2, 1), (4, 1), (8, 1), (11, 1)]),
      .eq [] [(2, [(7, 1), (8, 1)]), (2, [(17, 1), (18, 1)]), (1, [(17, 1)]), (1, [(7, 1)]), (1, [(18, 1)]), (1, [(8, 1)])],
      .det,
      .no [] 0 (1, [(1, 2), (2, 2), (8, 1), (11, 2)]),
      .no [] 0 (1, [(1, 2), (4, 1), (16, 1), (17, 1), (18, 1)]),
      .det,
      .no [] 0 (1, [(2, 2), (3, 2), (17, 1)]),
      .no [] 0 (1, [(4, 1), (6, 1), (11, 2), (12, 2)]),
      .det,
      .no [] 0 (1, [(1, 2), (2, 2), (4, 2), (8, 1), (11, 2)]),
      .eq [] [(1, [(12, 1)]), (1, [(2, 1)]), (1, [(2, 2)]), (1, [(12, 2)]), (1, [(18, 1)]), (1, [(8, 1)])],
      .det,
      .eq [] [(1, [(1, 2), (2, 1)]), (1, [(2, 1), (11, 2)]), (1, []), (1, []), (1, [(18, 1)]), (1, [(8, 1)])],
      .no [] 0 (1, [(1, 2), (4, 1), (8, 1), (19, 1)]),
      .det,
      .no [(2, (1, [(8, 1), (19, 1)]))] 0 (1, [(18, 1), (26, 2)]),
      .no [] 0 (1, [(2, 1), (3, 1), (12, 1)]),
      .det,
      .no [] 0 (1, [(1, 1), (3, 1), (4, 1), (11, 1), (12, 1)]),
      .no [] 0 (1, [(2, 1), (12, 1)]),
      .det,
      .no [] 0 (1, [(7, 1), (12, 2)]),
      .no [] 0 (1, [(2, 2), (8, 1), (12, 2)]),
      .det,
      .no [(3, (1, [(8, 1), (12, 2)]))] 0 (1, [(7, 1), (12, 2), (26, 2)])],
    .no [] 0 (1, [(1, 2), (2, 2), (4, 1), (5, 1), (8, 1), (13, 1)]),
    .no [(1, (1, [(7, 1), (13, 1)])), (3, (1, [(5, 1), (13, 1)]))] 0 (1, [(5, 1), (13, 1), (16, 2), (17, 2)]),
    .no [] 0 (1, [(15, 1)]),
    .no [] 0 (1, [(2, 2), (5, 1), (13, 1)]),
    .no [] 0 (1, [(1, 2), (3, 2), (4, 1), (5, 1), (7, 1), (13, 1)]),
    .no [] 0 (1, [(3, 2), (13, 1)]),
    .no [] 0 (1, [(2, 2), (3, 2), (5, 1), (6, 1), (13, 1)]),
    .node [
      .det,
      .no [] 0 (1, [(4, 1), (6, 1), (11, 2), (13, 2)]),
      .det,
      .no [] 0 (1, [(4, 1), (5, 2), (6, 1), (11, 2), (13, 2)]),
      .det,
      .no [] 0 (1, [(2, 2), (17, 1)]),
      .det,
      .no [] 0 (1, [(3, 2), (17, 1)]),
      .det,
      .det,
      .no [] 0 (1, [(4, 1), (6, 1), (11, 2)]),
      .det,
      .no [] 0 (1, [(4, 1), (5, 2), (6, 1), (11, 2)]),
      .det,
      .eq [] [(1, [(5, 1), (16, 1)]), (1, [(5, 1), (6, 1)]), (1, []), (1, []), (1, [(2, 1), (3, 2)]), (1, [(2, 1), (13, 2)])],
      .det,
      .eq [] [(1, [(16, 1)]), (1, [(6, 1)]), (1, [(2, 2), (13, 1)]), (1, [(3, 2), (13, 1)]), (1, [(2, 1), (3, 2)]), (1, [(2, 1), (13, 2)])],
      .det,
      .det,
      .no [] 0 (1, [(2, 2), (3, 2), (4, 1), (6, 1), (11, 2)]),
      .det,
      .no [] 0 (1, [(2, 2), (3, 2), (4, 1), (5, 2), (6, 1), (11, 2)]),
      .det,
      .no [] 0 (1, [(7, 1), (12, 2)]),
      .det,
      .no [] 0 (1, [(8, 1), (12, 2)]),
      .det],
    .node [
      .no [] 0 (1, [(4, 1), (6, 1), (11, 2), (13, 2)]),
      .det,
      .no [] 0 (1, [(1, 2), (4, 2), (8, 1), (11, 2)]),
      .eq [] [(1, [(13, 1)]), (1, [(3, 1)]), (1, [(17, 1)]), (1, [(7, 1)]), (1, [(3, 2)]), (1, [(13, 2)])],
      .det,
      .no [] 0 (1, [(2, 2), (17, 1)]),
      .no [] 0 (1, [(1, 2), (3, 2), (4, 1), (16, 1)]),
      .det,
      .no [] 0 (1, [(2, 2), (3, 2), (17, 1)]),
      .no [] 0 (1, [(4, 1), (6, 1), (11, 2)]),
      .det,
      .no [] 0 (1, [(1, 1), (4, 1), (11, 1)]),
      .eq [] [(1, []), (1, []), (1, [(2, 2)]), (1, [(12, 2)]), (1, [(3, 2)]), (1, [(13, 2)])],
      .det,
      .eq [] [(1, [(1, 2)]), (1, [(11, 2)]), (1, []), (1, []), (1, [(3, 2)]), (1, [(13, 2)])],
      .no [] 0 (1, [(1, 2), (4, 1), (16, 1)]),
      .det,
      .eq [] [(1, [(16, 1)]), (1, [(6, 1)]), (1, [(13, 1)]), (1, [(3, 1)]), (1, [(3, 2)]), (1, [(13, 2)])],
      .no [] 0 (1, [(3, 2), (4, 1), (6, 1), (11, 2)]),
      .det,
      .no [] 0 (1, [(1, 1), (3, 1), (4, 1), (11, 1)]),
      .no [] 0 (1, [(2, 1), (12, 1)]),
      .det,
      .no [] 0 (1, [(7, 1), (12, 2)]),
      .no [] 0 (1, [(2, 2), (8, 1), (12, 2)]),
      .det,
      .no [] 0 (1, [(7, 1), (12, 2), (13, 2)])],
    .no [] 0 (1, [(1, 2), (4, 1), (5, 1), (13, 1)]),
    .node [
      .no [] 0 (1, [(4, 1), (5, 2), (6, 1), (11, 2), (13, 2)]),
      .no [(1, (1, [(23, 1)])), (4, (1, [(17, 1)])), (7, (1, [(23, 1)]))] 0 (1, [(2, 2), (8, 1), (28, 2)]),
      .no [] 0 (1, [(1, 2), (2, 2), (4, 1), (5, 2), (16, 1)]),
      .det,
      .det,
      .det,
      .no [] 0 (1, [(1, 2), (4, 2), (5, 2), (7, 1), (11, 2)]),
      .no [] 0 (1, [(3, 2), (17, 1)]),
      .no [] 0 (1, [(2, 2), (3, 2), (17, 1)]),
      .no [] 0 (1, [(4, 1), (5, 2), (6, 1), (11, 2)]),
      .eq [] [(1, []), (1, []), (1, [(2, 1), (3, 1)]), (1, [(12, 1), (13, 1)]), (1, [(2, 1), (3, 1)]), (1, [(12, 1), (13, 1)])],
      .no [] 0 (1, [(1, 2), (4, 1), (5, 2), (16, 1)]),
      .det,
      .det,
      .det,
      .no [] 0 (1, [(1, 1), (4, 1), (5, 1), (11, 1)]),
      .eq [(1, (1, [(23, 1)])), (7, (1, [(23, 1)]))] [(1, [(1, 2)]), (1, [(11, 2)]), (1, [(2, 2), (27, 1)]), (1, [(3, 1), (13, 1)]), (1, [(2, 1), (3, 1)]), (1, [(27, 1)])],
      .eq [(1, (2, [(6, 1), (16, 1)])), (2, (1, [(5, 2), (16, 1)]))] [(1, [(5, 1), (16, 1)]), (1, [(5, 1), (6, 1)]), (1, [(27, 1)]), (1, [(3, 1)]), (1, [(2, 1), (3, 1)]), (1, [(13, 1), (27, 1)])],
      .no [] 0 (1, [(2, 2), (4, 1), (5, 2), (6, 1), (11, 2)]),
      .no [] 0 (1, [(3, 1), (12, 1)]),
      .no [] 0 (1, [(3, 2), (7, 1), (12, 2)]),
      .det,
      .det,
      .det,
      .no [] 0 (1, [(1, 1), (2, 1), (4, 1), (5, 1), (11, 1)]),
      .no [] 0 (1, [(8, 1), (12, 2)]),
      .no [] 0 (1, [(8, 1), (12, 2), (13, 2)])],
    .no [] 0 (1, [(4, 1), (12, 1)]),
    .node [
      .eq [(1, (2, [(9, 1), (19, 1)])), (5, (1, [(5, 2), (19, 1)])), (7, (2, [(9, 1), (19, 1)])), (11, (1, [(5, 2), (9, 1)]))] [(2, [(5, 2), (19, 2), (29, 1)]), (2, [(5, 2), (9, 2), (26, 2), (27, 1)]), (2, [(27, 1)]), (2, [(26, 2), (29, 1)]), (1, [(26, 1)]), (2, [(27, 1), (29, 1)])],
      .no [(1, (1, [(23, 1)])), (4, (1, [(17, 1)])), (7, (1, [(23, 1)]))] 0 (1, [(1, 2), (8, 1), (11, 2), (28, 2)]),
      .no [] 0 (1, [(1, 1), (2, 1), (4, 1), (5, 1), (11, 1)]),
      .det,
      .det,
      .det,
      .no [] 0 (1, [(1, 2), (3, 2), (4, 1), (5, 2), (7, 1), (19, 1)]),
      .no [] 0 (1, [(3, 2), (17, 1)]),
      .no [] 0 (1, [(2, 2), (4, 1), (5, 2), (6, 1), (11, 2)]),
      .eq [] [(1, [(5, 1), (16, 1)]), (1, [(5, 1), (6, 1)]), (1, [(2, 2), (3, 1)]), (1, [(3, 1), (12, 2)]), (1, [(3, 2), (12, 1)]), (1, [(2, 2), (12, 1)])],
      .eq [(1, (1, [(23, 1)]))] [(1, [(1, 2)]), (1, [(11, 2)]), (1, [(2, 1), (3, 1)]), (1, [(12, 2), (26, 1)]), (1, [(26, 1)]), (1, [(2, 1), (12, 1)])],
      .no [] 0 (1, [(1, 1), (4, 1), (5, 1), (11, 1)]),
      .det,
      .det,
      .det,
      .no [] 0 (1, [(1, 2), (4, 1), (5, 2), (16, 1)]),
      .eq [(1, (1, [(23, 1)])), (7, (1, [(23, 1)]))] [(1, []), (1, []), (1, [(27, 1)]), (1, [(26, 1)]), (1, [(26, 1)]), (1, [(27, 1)])],
      .no [] 0 (1, [(4, 1), (5, 2), (6, 1), (11, 2)]),
      .no [] 0 (1, [(2, 1), (3, 1), (12, 1)]),
      .no [] 0 (1, [(3, 1), (12, 1)]),
      .no [] 0 (1, [(1, 2), (4, 2), (5, 2), (7, 1), (11, 2)]),
      .det,
      .det,
      .det,
      .no [] 0 (1, [(2, 2), (8, 1), (12, 2)]),
      .no [] 0 (1, [(8, 1), (12, 2)]),
      .no [] 0 (1, [(1, 2), (5, 2), (7, 1), (9, 2), (11, 2), (12, 4)])],
    .no [] 0 (1, [(1, 2), (4, 1), (5, 1), (13, 1)]),
    .node [
      .eq [(5, (1, [(19, 1)])), (11, (1, [(9, 1)]))] [(2, [(19, 2), (27, 1)]), (2, [(9, 2), (26, 1)]), (2, [(26, 1)]), (2, [(27, 1)]), (1, []), (1, [])],
      .det,
      .no [] 0 (1, [(1, 2), (2, 2), (4, 1), (8, 1), (19, 1)]),
      .eq [] [(1, [(1, 2), (3, 1)]), (1, [(3, 1), (11, 2)]), (1, [(17, 1)]), (1, [(7, 1)]), (1, []), (1, [])],
      .det,
      .no [] 0 (1, [(2, 2), (17, 1)]),
      .no [] 0 (1, [(1, 1), (3, 1), (4, 1), (11, 1)]),
      .det,
      .no [] 0 (1, [(3, 2), (4, 1), (6, 1), (11, 2)]),
      .eq [] [(1, [(16, 1)]), (1, [(6, 1)]), (1, [(2, 2), (3, 1)]), (1, [(3, 1), (12, 2)]), (1, []), (1, [])],
      .det,
      .no [] 0 (1, [(1, 2), (4, 1), (16, 1)]),
      .eq [] [(1, [(1, 2)]), (1, [(11, 2)]), (1, [(2, 2)]), (1, [(12, 2)]), (1, []), (1, [])],
      .det,
      .eq [] [(1, []), (1, []), (1, []), (1, []), (1, []), (1, [])],
      .no [] 0 (1, [(1, 1), (4, 1), (11, 1)]),
      .det,
      .no [] 0 (1, [(4, 1), (6, 1), (11, 2)]),
      .no [] 0 (1, [(2, 1), (3, 1), (12, 1)]),
      .det,
      .no [] 0 (1, [(3, 2), (7, 1), (12, 2)]),
      .no [] 0 (1, [(2, 1), (12, 1)]),
      .det,
      .no [] 0 (1, [(7, 1), (12, 2)]),
      .no [] 0 (1, [(1, 2), (4, 2), (8, 1), (11, 2)]),
      .det,
      .no [] 0 (1, [(1, 2), (8, 1), (9, 2), (11, 2), (12, 4)])],
    .node [
      .det,
      .no [(1, (1, [(6, 1), (23, 1)])), (2, (1, [(8, 1), (19, 1)]))] 0 (1, [(17, 1), (27, 2)]),
      .det,
      .no [(1, (2, [(3, 2), (9, 1), (19, 1)]))] 0 (1, [(17, 2), (18, 1), (26, 2)]),
      .det,
      .no [] 0 (1, [(2, 2), (3, 2), (4, 1), (5, 2), (6, 1), (11, 2)]),
      .det,
      .no [] 0 (1, [(2, 2), (3, 2), (4, 1), (6, 1), (11, 2)]),
      .det,
      .det,
      .eq [(1, (1, [(6, 1), (23, 1)]))] [(1, [(16, 1)]), (1, [(6, 1)]), (1, [(2, 1), (3, 1)]), (1, [(12, 2), (26, 1)]), (1, [(12, 1), (26, 1)]), (1, [(2, 1)])],
      .det,
      .eq [] [(1, [(5, 1), (16, 1)]), (1, [(5, 1), (6, 1)]), (1, [(2, 2)]), (1, [(12, 2)]), (1, [(12, 1)]), (1, [(2, 1)])],
      .det,
      .no [] 0 (1, [(4, 1), (5, 2), (6, 1), (11, 2)]),
      .det,
      .no [] 0 (1, [(4, 1), (6, 1), (11, 2)]),
      .det,
      .det,
      .no [] 0 (1, [(3, 1), (12, 1)]),
      .det,
      .no [] 0 (1, [(2, 1), (12, 1)]),
      .det,
      .no [] 0 (1, [(7, 1), (12, 2)]),
      .det,
      .no [] 0 (1, [(8, 1), (12, 2)]),
      .det],
    .no [] 0 (1, [(2, 2), (3, 2), (5, 1), (6, 1), (13, 1)]),
    .no [] 0 (1, [(3, 2), (13, 1)]),
    .no [] 0 (1, [(1, 2), (3, 2), (4, 1), (5, 1), (7, 1), (13, 1)]),
    .no [] 0 (1, [(2, 2), (5, 1), (13, 1)]),
    .no [] 0 (1, [(14, 1)]),
    .no [] 0 (1, [(7, 1), (14, 2)]),
    .no [] 0 (1, [(1, 2), (2, 2), (4, 1), (5, 1), (8, 1), (13, 1)]),
    .no [] 0 (1, [(8, 1), (14, 2)]),
    .no [(1, (1, [(9, 1), (13, 1)])), (3, (1, [(8, 1), (14, 2)]))] 0 (1, [(7, 1), (14, 2), (17, 2)])]

theorem uniqII_9_ok : uniqII_9.check false false (1, 0, 0) = true := by decide +kernel

/-- All second bases with first vector `(1, 0, 1)`. -/
def uniqII_10 : UTree1 :=
  .no [(0, (1, [(5, 1), (7, 1), (11, 1)])), (1, (1, [(4, 1), (7, 1), (11, 1)])), (3, (1, [(4, 1), (5, 1), (11, 1)]))] 0 (1, [(4, 1), (5, 1), (11, 1), (13, 2), (14, 2)])

theorem uniqII_10_ok : uniqII_10.check false false (1, 0, 1) = true := by decide +kernel

/-- All second bases with first vector `(1, 1, -1)`. -/
def uniqII_11 : UTree1 :=
  .no [] 0 (1, [(1, 2), (2, 2), (4, 2), (5, 1), (8, 1), (11, 1)])

theorem uniqII_11_ok : uniqII_11.check false false (1, 1, -1) = true := by decide +kernel

/-- All second bases with first vector `(1, 1, 0)`. -/
def uniqII_12 : UTree1 :=
  .node [
    .no [(0, (1, [(8, 1), (11, 1)])), (1, (1, [(9, 1), (13, 1)])), (4, (1, [(4, 1), (11, 1)]))] 0 (1, [(4, 1), (5, 1), (8, 1), (13, 1), (16, 2), (18, 4)]),
    .no [] 0 (1, [(4, 2), (8, 2), (15, 1)]),
    .no [] 0 (1, [(1, 2), (2, 2), (4, 1), (5, 1), (8, 1), (13, 1)]),
    .no [(0, (1, [(8, 1), (11, 1)])), (1, (1, [(7, 1), (13, 1)])), (3, (1, [(5, 1), (13, 1)]))] 0 (1, [(4, 1), (11, 1), (18, 2)]),
    .node [
      .eq [] [(2, [(1, 2), (7, 1), (8, 1)]), (2, [(8, 1), (9, 2), (11, 4), (17, 1)]), (2, [(8, 1), (11, 2), (17, 1)]), (2, [(4, 1), (7, 1), (8, 1), (9, 1)]), (1, [(7, 1), (11, 2)]), (1, [(8, 1)])],
      .det,
      .no [] 0 (1, [(2, 2), (8, 1), (11, 2)]),
      .no [] 0 (1, [(7, 1), (11, 2)]),
      .det,
      .no [] 0 (1, [(2, 1), (11, 1)]),
      .no [] 0 (1, [(3, 2), (7, 1), (11, 2)]),
      .det,
      .no [] 0 (1, [(2, 1), (3, 1), (11, 1)]),
      .eq [] [(2, [(8, 1), (16, 1), (19, 1)]), (2, [(2, 2), (6, 1), (21, 1)]), (2, [(2, 4), (8, 1), (19, 1), (21, 1)]), (2, [(9, 1), (16, 1), (18, 1)]), (1, [(18, 1)]), (1, [(8, 1)])],
      .det,
      .no [] 0 (1, [(1, 2), (4, 1), (8, 1), (19, 1)]),
      .eq [] [(1, [(1, 2), (12, 1)]), (1, [(2, 2), (12, 1)]), (1, [(1, 1), (2, 2)]), (1, [(1, 1), (12, 2)]), (1, [(18, 1)]), (1, [(8, 1)])],
      .det,
      .eq [(0, (1, [(8, 1), (21, 1)]))] [(1, [(1, 1), (2, 1)]), (1, [(11, 2), (26, 1)]), (1, [(11, 1), (26, 1)]), (1, [(1, 1)]), (1, [(18, 1)]), (1, [(8, 1)])],
      .no [] 0 (1, [(1, 2), (2, 2), (4, 2), (8, 1), (12, 2)]),
      .det,
      .no [] 0 (1, [(4, 1), (6, 1), (11, 2), (12, 2)]),
      .no [] 0 (1, [(6, 1), (19, 1)]),
      .det,
      .no [] 0 (1, [(1, 2), (4, 1), (16, 1), (17, 1), (18, 1)]),
      .no [] 0 (1, [(1, 2), (2, 2), (8, 1), (12, 2)]),
      .det,
      .no [(0, (1, [(8, 1), (21, 1)])), (3, (1, [(8, 2), (12, 2), (19, 1), (21, 1)]))] 0 (1, [(1, 2), (19, 1), (21, 1), (27, 2)]),
      .no [] 0 (1, [(1, 1), (2, 1), (4, 1), (8, 1), (12, 1)]),
      .det,
      .no [] 0 (1, [(4, 1), (8, 1), (9, 1), (12, 2)])],
    .no [] 0 (1, [(2, 2), (5, 1), (13, 1)]),
    .no [] 0 (2, [(1, 4), (4, 2), (5, 1), (9, 1), (11, 2), (13, 1)]),
    .no [] 0 (1, [(3, 2), (13, 1)]),
    .no [] 0 (2, [(2, 4), (4, 2), (5, 1), (9, 1), (11, 2), (13, 1)]),
    .no [(0, (1, [(8, 1), (11, 1)]))] 0 (1, [(4, 2), (5, 2), (9, 1), (11, 1), (13, 2), (16, 2)]),
    .node [
      .no [(0, (1, [(6, 1), (8, 1), (11, 2)]))] 0 (1, [(4, 3), (8, 1), (9, 1), (11, 4), (26, 2)]),
      .det,
      .no [] 0 (1, [(1, 2), (4, 2), (8, 1), (11, 2)]),
      .no [(0, (2, [(8, 1), (18, 1)])), (3, (1, [(1, 2), (16, 1), (19, 1)]))] 0 (1, [(4, 2), (18, 1), (27, 2)]),
      .det,
      .no [] 0 (1, [(2, 2), (4, 1), (8, 1), (19, 1)]),
      .no [] 0 (1, [(1, 2), (3, 2), (4, 1), (16, 1)]),
      .det,
      .no [] 0 (1, [(4, 2), (6, 1), (16, 1), (18, 1)]),
      .no [] 0 (1, [(4, 1), (6, 1), (11, 2)]),
      .det,
      .no [] 0 (1, [(1, 1), (4, 1), (11, 1)]),
      .eq [] [(1, []), (1, []), (1, [(1, 1), (2, 2)]), (1, [(1, 1), (12, 2)]), (1, [(4, 1), (18, 1)]), (1, [(4, 1), (8, 1)])],
      .det,
      .eq [] [(1, [(1, 2)]), (1, [(11, 2)]), (1, [(11, 1)]), (1, [(1, 1)]), (1, [(4, 1), (18, 1)]), (1, [(4, 1), (8, 1)])],
      .no [] 0 (1, [(1, 2), (2, 2), (4, 2), (8, 1), (12, 2)]),
      .det,
      .eq [] [(1, [(16, 1)]), (1, [(6, 1)]), (2, [(4, 1), (6, 1), (8, 1)]), (2, [(4, 1), (16, 1), (18, 1)]), (1, [(4, 1), (18, 1)]), (1, [(4, 1), (8, 1)])],
      .no [] 0 (1, [(3, 2), (4, 1), (6, 1), (11, 2)]),
      .det,
      .no [] 0 (1, [(1, 1), (3, 1), (4, 1), (11, 1)]),
      .no [] 0 (1, [(1, 2), (2, 2), (8, 1), (12, 2)]),
      .det,
      .no [] 0 (1, [(7, 1), (11, 2), (12, 2)]),
      .no [] 0 (1, [(1, 1), (2, 1), (4, 1), (8, 1), (12, 1)]),
      .det,
      .no [] 0 (1, [(4, 1), (8, 1), (9, 1), (12, 2)])],
    .no [] 0 (1, [(1, 2), (4, 1), (5, 1), (13, 1)]),
    .node [
      .det,
      .det,
      .det,
      .no [] 0 (1, [(4, 2), (5, 2), (7, 1), (11, 2)]),
      .no [(0, (1, [(8, 1), (21, 1)])), (1, (1, [(23, 1)])), (4, (1, [(17, 1)])), (6, (1, [(8, 1), (21, 1)])), (7, (1, [(23, 1)]))] 0 (1, [(1, 2), (2, 2), (8, 1), (30, 2)]),
      .no [] 0 (1, [(2, 2), (4, 1), (5, 2), (16, 1)]),
      .det,
      .det,
      .det,
      .no [] 0 (1, [(4, 1), (5, 2), (6, 1), (11, 2)]),
      .no [(0, (2, [(8, 1), (17, 1)])), (1, (1, [(23, 1)])), (4, (1, [(4, 2), (17, 1)])), (6, (2, [(8, 1), (17, 1)])), (7, (1, [(23, 1)]))] 0 (1, [(1, 2), (2, 2), (4, 2), (8, 1), (30, 2)]),
      .no [] 0 (1, [(1, 2), (4, 1), (5, 2), (16, 1)]),
      .det,
      .det,
      .det,
      .no [] 0 (1, [(1, 1), (4, 1), (5, 1), (11, 1)]),
      .no [] 0 (1, [(4, 2), (8, 1), (12, 2)]),
      .no [] 0 (1, [(4, 2), (8, 1), (12, 2), (13, 2)]),
      .det,
      .det,
      .det,
      .no [] 0 (1, [(2, 1), (4, 1), (5, 1), (11, 1)]),
      .no [] 0 (1, [(8, 1), (12, 2)]),
      .no [] 0 (1, [(8, 1), (12, 2), (13, 2)]),
      .det,
      .det,
      .det],
    .no [] 0 (1, [(4, 1), (12, 1)]),
    .node [
      .det,
      .det,
      .det,
      .no [(0, (1, [(5, 2), (7, 1), (16, 1)])), (1, (2, [(4, 1), (7, 1), (16, 1)])), (3, (1, [(4, 1), (5, 2), (16, 1)]))] 0 (1, [(1, 2), (4, 1), (5, 2), (18, 1), (19, 1), (28, 2)]),
      .no [(0, (1, [(8, 1), (21, 1)])), (1, (1, [(23, 1)])), (4, (1, [(17, 1)])), (6, (1, [(8, 1), (21, 1)])), (7, (1, [(23, 1)]))] 0 (1, [(8, 1), (11, 4), (26, 2), (30, 2)]),
      .no [] 0 (1, [(2, 1), (4, 1), (5, 1), (11, 1)]),
      .det,
      .det,
      .det,
      .eq [] [(1, [(5, 1), (16, 1)]), (1, [(5, 1), (6, 1)]), (2, [(2, 4), (4, 1), (5, 2), (19, 1)]), (2, [(4, 2), (5, 2), (9, 1), (16, 1), (18, 1)]), (2, [(2, 2), (4, 3), (5, 2), (18, 2), (19, 1)]), (2, [(2, 2), (4, 1), (5, 2), (8, 1), (16, 1)])],
      .no [(0, (2, [(8, 1), (17, 1)])), (1, (1, [(23, 1)])), (4, (1, [(4, 2), (17, 1)])), (6, (2, [(8, 1), (17, 1)])), (7, (1, [(23, 1)]))] 0 (1, [(4, 2), (8, 1), (11, 2), (28, 2), (30, 2)]),
      .no [] 0 (1, [(1, 1), (4, 1), (5, 1), (11, 1)]),
      .det,
      .det,
      .det,
      .no [] 0 (1, [(1, 2), (2, 2), (4, 2), (8, 1), (12, 2)]),
      .no [] 0 (1, [(4, 2), (8, 1), (12, 2)]),
      .no [] 0 (1, [(4, 1), (5, 2), (6, 1), (11, 2)]),
      .det,
      .det,
      .det,
      .no [] 0 (1, [(1, 2), (2, 2), (8, 1), (12, 2)]),
      .no [] 0 (1, [(8, 1), (12, 2)]),
      .no [] 0 (1, [(4, 2), (5, 2), (7, 1), (11, 2)]),
      .det,
      .det,
      .det],
    .no [] 0 (1, [(1, 2), (4, 1), (5, 1), (13, 1)]),
    .no [] 0 (1, [(4, 2), (8, 1), (14, 2)]),
    .no [(0, (1, [(8, 1), (11, 1)]))] 0 (1, [(4, 2), (5, 2), (9, 1), (11, 1), (13, 2), (16, 2)]),
    .no [] 0 (2, [(2, 4), (4, 2), (5, 1), (9, 1), (11, 2), (13, 1)]),
    .no [] 0 (1, [(3, 2), (13, 1)]),
    .no [] 0 (2, [(1, 4), (4, 2), (5, 1), (9, 1), (11, 2), (13, 1)]),
    .no [] 0 (1, [(2, 2), (5, 1), (13, 1)]),
    .no [] 0 (1, [(8, 1), (14, 2)]),
    .no [(0, (1, [(8, 1), (11, 1)])), (1, (1, [(7, 1), (13, 1)])), (3, (1, [(5, 1), (13, 1)]))] 0 (1, [(4, 1), (11, 1), (18, 2)]),
    .no [] 0 (1, [(1, 2), (2, 2), (4, 1), (5, 1), (8, 1), (13, 1)]),
    .no [] 0 (1, [(4, 1), (8, 1), (14, 1)]),
    .no [] 0 (1, [(4, 1), (8, 1), (9, 1), (14, 2)])]

theorem uniqII_12_ok : uniqII_12.check false false (1, 1, 0) = true := by decide +kernel

/-- All second bases with first vector `(1, 1, 1)`. -/
def uniqII_13 : UTree1 :=
  .node [
    .no [] 0 (1, [(4, 2), (5, 2), (9, 2), (15, 1)]),
    .no [(0, (1, [(5, 1), (9, 1), (11, 1)])), (1, (1, [(4, 1), (9, 1), (11, 1)])), (4, (1, [(13, 1)]))] 0 (1, [(4, 2), (5, 1), (8, 1), (11, 1), (16, 2), (18, 4)]),
    .no [] 0 (1, [(1, 2), (2, 2), (4, 1), (5, 1), (8, 1), (13, 1)]),
    .no [(0, (1, [(5, 1), (9, 1), (11, 1)])), (1, (1, [(4, 1), (9, 1), (11, 1)])), (3, (1, [(5, 1), (13, 1)]))] 0 (1, [(5, 1), (13, 1), (17, 2), (18, 2)]),
    .node [
      .det,
      .no [] 0 (1, [(8, 1), (11, 2)]),
      .det,
      .no [] 0 (1, [(7, 1), (11, 2)]),
      .det,
      .no [] 0 (1, [(2, 1), (11, 1)]),
      .det,
      .no [] 0 (1, [(3, 1), (11, 1)]),
      .det,
      .det,
      .eq [(0, (1, [(5, 1), (9, 1), (21, 1)])), (1, (1, [(4, 1), (9, 1), (21, 1)])), (5, (1, [(19, 1)])), (6, (1, [(5, 1), (9, 1), (21, 1)])), (7, (1, [(4, 1), (9, 1), (21, 1)]))] [(2, [(4, 1), (19, 1), (29, 2), (30, 2)]), (1, [(26, 1), (27, 1)]), (2, [(5, 1), (21, 1)]), (2, [(4, 1), (9, 1)]), (2, [(4, 2), (5, 1), (21, 1), (26, 2), (27, 2)]), (1, [(29, 1), (30, 1)])],
      .det,
      .eq [(0, (1, [(5, 1), (9, 1), (21, 1)])), (1, (2, [(9, 1), (19, 1)])), (5, (1, [(5, 2), (19, 1)])), (6, (1, [(5, 1), (9, 1), (21, 1)])), (7, (2, [(9, 1), (19, 1)]))] [(1, [(4, 1), (5, 1), (27, 1), (30, 1)]), (1, [(26, 1)]), (2, [(4, 1), (5, 2), (19, 1), (26, 2), (30, 2)]), (2, [(4, 1), (5, 2), (9, 1), (27, 2)]), (2, [(4, 2), (5, 1), (21, 1), (26, 2), (27, 2)]), (2, [(4, 1), (5, 2), (9, 1), (30, 2)])],
      .det,
      .no [] 0 (1, [(4, 1), (5, 2), (6, 1), (11, 2), (12, 2)]),
      .det,
      .no [] 0 (1, [(4, 1), (6, 1), (11, 2), (12, 2)]),
      .det,
      .det,
      .no [] 0 (1, [(6, 1), (19, 1)]),
      .det,
      .no [] 0 (1, [(5, 2), (6, 1), (19, 1)]),
      .det,
      .no [] 0 (1, [(4, 1), (5, 2), (7, 1), (9, 1), (12, 2)]),
      .det,
      .no [] 0 (1, [(4, 1), (8, 1), (9, 1), (12, 2)]),
      .det],
    .no [] 0 (1, [(2, 2), (5, 1), (13, 1)]),
    .no [] 0 (1, [(1, 2), (3, 2), (4, 1), (5, 1), (7, 1), (13, 1)]),
    .no [] 0 (1, [(3, 2), (13, 1)]),
    .no [] 0 (1, [(1, 2), (5, 2), (6, 3), (11, 1), (13, 1)]),
    .no [(0, (1, [(5, 1), (9, 1), (11, 1)])), (1, (1, [(4, 1), (9, 1), (11, 1)]))] 0 (1, [(4, 2), (5, 3), (9, 1), (13, 3), (16, 4), (17, 2)]),
    .node [
      .det,
      .no [] 0 (1, [(4, 2), (8, 1), (11, 2)]),
      .det,
      .det,
      .eq [(0, (1, [(5, 1), (9, 1), (21, 1)])), (1, (1, [(4, 1), (9, 1), (21, 1)])), (5, (1, [(19, 1)])), (6, (1, [(5, 1), (9, 1), (21, 1)]))] [(2, [(4, 1), (19, 1), (29, 2)]), (1, [(26, 1), (27, 1)]), (2, [(4, 2), (5, 1), (21, 1), (26, 2)]), (1, [(27, 1), (29, 1)]), (2, [(5, 1), (21, 1), (27, 2)]), (1, [(4, 1), (26, 1), (29, 1)])],
      .det,
      .det,
      .no [] 0 (1, [(3, 2), (4, 1), (16, 1)]),
      .det,
      .no [] 0 (1, [(4, 1), (6, 1), (11, 2)]),
      .det,
      .no [] 0 (1, [(1, 1), (4, 1), (11, 1)]),
      .eq [(0, (2, [(5, 2), (9, 1), (19, 1)])), (1, (2, [(4, 2), (9, 1), (19, 1)])), (5, (1, [(4, 2), (5, 2), (19, 1)])), (6, (2, [(5, 2), (9, 1), (19, 1)])), (7, (2, [(4, 2), (9, 1), (19, 1)]))] [(1, []), (1, []), (2, [(4, 1), (5, 2), (19, 1), (30, 2)]), (2, [(4, 1), (5, 2), (9, 1), (27, 2)]), (2, [(4, 1), (5, 2), (19, 1), (27, 2)]), (2, [(4, 1), (5, 2), (9, 1), (30, 2)])],
      .det,
      .no [] 0 (1, [(4, 2), (5, 2), (7, 1), (11, 2), (12, 2)]),
      .no [] 0 (1, [(1, 2), (4, 1), (16, 1)]),
      .det,
      .no [] 0 (1, [(4, 2), (5, 2), (6, 1), (9, 1), (12, 2)]),
      .det,
      .no [] 0 (1, [(3, 1), (4, 1), (11, 1)]),
      .det,
      .det,
      .no [] 0 (1, [(7, 1), (11, 2), (12, 2)]),
      .det,
      .det,
      .no [] 0 (1, [(4, 1), (8, 1), (9, 1), (12, 2)]),
      .det],
    .no [] 0 (1, [(1, 2), (4, 1), (5, 1), (13, 1)]),
    .node [
      .det,
      .det,
      .det,
      .no [] 0 (1, [(4, 2), (5, 2), (7, 1), (11, 2)]),
      .eq [(0, (1, [(5, 1), (9, 1), (21, 1)])), (1, (2, [(9, 1), (19, 1)])), (5, (1, [(5, 2), (19, 1)])), (6, (1, [(5, 1), (9, 1), (21, 1)]))] [(2, [(4, 1), (5, 2), (19, 1), (29, 2)]), (1, [(26, 1)]), (2, [(4, 1), (5, 2), (19, 1), (26, 2)]), (1, [(29, 1)]), (4, [(9, 1), (19, 1), (21, 2)]), (2, [(4, 1), (5, 2), (9, 1)])],
      .no [] 0 (1, [(2, 2), (4, 1), (5, 2), (16, 1)]),
      .det,
      .det,
      .det,
      .no [] 0 (1, [(4, 1), (5, 2), (6, 1), (11, 2)]),
      .eq [] [(1, []), (1, []), (2, [(4, 1), (5, 2), (19, 1)]), (2, [(4, 1), (9, 1)]), (2, [(4, 1), (19, 1)]), (2, [(4, 1), (5, 2), (9, 1)])],
      .no [] 0 (1, [(1, 2), (4, 1), (5, 2), (16, 1)]),
      .det,
      .det,
      .det,
      .no [] 0 (1, [(1, 1), (4, 1), (5, 1), (11, 1)]),
      .no [] 0 (1, [(4, 2), (8, 1), (11, 2), (12, 2)]),
      .no [] 0 (1, [(4, 2), (5, 2), (6, 1), (9, 1), (12, 2)]),
      .det,
      .det,
      .det,
      .no [] 0 (1, [(2, 1), (4, 1), (5, 1), (11, 1)]),
      .no [] 0 (1, [(8, 1), (11, 2), (12, 2)]),
      .no [] 0 (1, [(4, 1), (5, 2), (7, 1), (9, 1), (12, 2)]),
      .det,
      .det,
      .det],
    .no [] 0 (1, [(4, 1), (12, 1)]),
    .no [(0, (1, [(5, 1), (9, 1), (11, 1)])), (1, (1, [(4, 1), (9, 1), (11, 1)]))] 0 (1, [(4, 2), (5, 4), (6, 1), (9, 1), (14, 4), (17, 2)]),
    .no [] 0 (1, [(1, 2), (4, 1), (5, 1), (13, 1)]),
    .no [(0, (1, [(5, 1), (9, 1), (11, 1)]))] 0 (1, [(4, 3), (8, 1), (9, 1), (14, 4), (16, 2)]),
    .no [] 0 (1, [(4, 2), (5, 2), (6, 1), (9, 1), (14, 2)]),
    .no [] 0 (1, [(1, 2), (5, 2), (6, 3), (11, 1), (13, 1)]),
    .no [] 0 (1, [(3, 2), (13, 1)]),
    .no [] 0 (1, [(1, 2), (3, 2), (4, 1), (5, 1), (7, 1), (13, 1)]),
    .no [] 0 (1, [(2, 2), (5, 1), (13, 1)]),
    .no [(0, (1, [(5, 1), (9, 1), (11, 1)])), (1, (1, [(4, 1), (9, 1), (11, 1)])), (3, (1, [(8, 1), (14, 2)]))] 0 (1, [(7, 1), (14, 2), (18, 2)]),
    .no [] 0 (1, [(4, 1), (5, 2), (7, 1), (9, 1), (14, 2)]),
    .no [] 0 (1, [(1, 2), (2, 2), (4, 1), (5, 1), (8, 1), (13, 1)]),
    .no [] 0 (1, [(4, 1), (8, 1), (9, 1), (14, 2)]),
    .no [] 0 (1, [(4, 1), (5, 1), (9, 1), (14, 1)])]

theorem uniqII_13_ok : uniqII_13.check false false (1, 1, 1) = true := by decide +kernel

theorem uniqII {u : ℤ × ℤ × ℤ} (hu : u ∈ Form.vecs.drop 13) :
    ∃ T : UTree1, T.check false false u = true := by
  have h : u ∈ ([(0, 0, 0), (0, 0, 1), (0, 1, -1), (0, 1, 0), (0, 1, 1), (1, -1, -1), (1, -1, 0), (1, -1, 1), (1, 0, -1), (1, 0, 0), (1, 0, 1), (1, 1, -1), (1, 1, 0), (1, 1, 1)] : List (ℤ × ℤ × ℤ)) := hu
  simp only [List.mem_cons, List.not_mem_nil, or_false] at h
  rcases h with rfl | rfl | rfl | rfl | rfl | rfl | rfl | rfl | rfl | rfl | rfl | rfl | rfl | rfl
  · exact ⟨_, uniqII_0_ok⟩
  · exact ⟨_, uniqII_1_ok⟩
  · exact ⟨_, uniqII_2_ok⟩
  · exact ⟨_, uniqII_3_ok⟩
  · exact ⟨_, uniqII_4_ok⟩
  · exact ⟨_, uniqII_5_ok⟩
  · exact ⟨_, uniqII_6_ok⟩
  · exact ⟨_, uniqII_7_ok⟩
  · exact ⟨_, uniqII_8_ok⟩
  · exact ⟨_, uniqII_9_ok⟩
  · exact ⟨_, uniqII_10_ok⟩
  · exact ⟨_, uniqII_11_ok⟩
  · exact ⟨_, uniqII_12_ok⟩
  · exact ⟨_, uniqII_13_ok⟩

end AutoGR
