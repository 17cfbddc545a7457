import Verif.Lemmas.MayPass
import Verif.Lemmas.ClassGroups

/-! # The canonical bases of `niggli.f90` for all tolerances from 9.9e-6 to 0.1, in rounded arithmetic -/

namespace AutoGR

/-- For every tolerance from `a` to `b` (times the cube root of the volume), and every rounding in question, the
reduction of the basis of class `k` goes through the matrices `S` and ends with one of `good`. -/
def storedOk (k : ℕ) (a b : ℚ) (S good : List IMat) : Bool :=
  match (fBasis k : Option (RMat ℚ)) with
  | none => false
  | some O =>
    let s := Arith.cbrt |rdet O|
    decide (1 / 2 ≤ s) && decide (s ≤ 4) && decide ((s - 1 / 10 ^ 8) ^ 3 + 1 / 10 ^ 10 ≤ |rdet O|) &&
      decide (|rdet O| + 1 / 10 ^ 10 ≤ (s + 1 / 10 ^ 8) ^ 3) &&
      closedSet O (a * s - 3 / 10 ^ 8) (b * s + 3 / 10 ^ 8) (1 / 10 ^ 8) S good

theorem stored_1 : storedOk 1 (99/10000000) (1/10)
    [⟨1, 0, 0, 0, 1, 0, 0, 0, 1⟩]
    [canonC 1] = true := by
  decide +kernel

theorem stored_2 : storedOk 2 (99/10000000) (1/10)
    [⟨1, 0, 0, 0, 1, 0, 0, 0, 1⟩, ⟨0, 1, 0, 1, 0, -1, 0, 0, -1⟩]
    [canonC 2] = true := by
  decide +kernel

theorem stored_3 : storedOk 3 (99/10000000) (1/10)
    [⟨1, 0, 0, 0, 1, 0, 0, 0, 1⟩]
    [canonC 3] = true := by
  decide +kernel

theorem stored_4 : storedOk 4 (99/10000000) (1/10)
    [⟨1, 0, 0, 0, 1, 0, 0, 0, 1⟩, ⟨-1, 0, 0, 0, 1, -1, 0, 0, -1⟩, ⟨0, 1, 0, -1, 0, 1, 0, 0, 1⟩,
      ⟨-1, 0, 0, 0, -1, 1, 0, 0, 1⟩, ⟨0, 1, 0, 1, 0, -1, 0, 0, -1⟩]
    [canonC 4, mulC (canonC 4) ⟨0, -1, 0, -1, 0, 0, 0, 0, -1⟩] = true := by
  decide +kernel

theorem stored_5 : storedOk 5 (99/10000000) (1/10)
    [⟨1, 0, 0, 0, 1, 0, 0, 0, 1⟩]
    [canonC 5] = true := by
  decide +kernel

theorem stored_7 : storedOk 7 (99/10000000) (1/10)
    [⟨1, 0, 0, 0, 1, 0, 0, 0, 1⟩, ⟨1, 0, 1, 0, -1, 0, 0, 0, -1⟩, ⟨-1, -1, 0, 0, 0, 1, 0, 1, 0⟩,
      ⟨1, 1, -1, 0, 0, 1, 0, -1, 1⟩, ⟨1, -1, -1, 0, 0, 1, -1, 0, 1⟩]
    [canonC 7] = true := by
  decide +kernel

theorem stored_8 : storedOk 8 (99/10000000) (1/10)
    [⟨1, 0, 0, 0, 1, 0, 0, 0, 1⟩, ⟨-1, 0, 0, 0, 1, -1, 0, 0, -1⟩, ⟨1, 0, 0, 0, 1, -1, 0, 1, 0⟩,
      ⟨1, 0, 1, 0, -1, 1, 0, -1, 0⟩, ⟨-1, -1, 0, 0, -1, 1, 0, 0, 1⟩, ⟨1, 1, -1, 0, 1, 0, 0, 0, 1⟩,
      ⟨1, -1, 1, 1, 0, 0, 0, 1, 0⟩, ⟨-1, 1, 1, -1, 0, 0, 0, -1, 0⟩]
    [canonC 8] = true := by
  decide +kernel

theorem stored_9 : storedOk 9 (99/10000000) (1/10)
    [⟨1, 0, 0, 0, 1, 0, 0, 0, 1⟩, ⟨0, -1, 1, -1, 0, 0, 0, 0, -1⟩, ⟨0, -1, 2, -1, 0, 0, 0, 0, -1⟩,
      ⟨-1, 2, 0, 0, 0, -1, 0, -1, 0⟩, ⟨2, -1, -1, 0, 0, 1, -1, 0, 0⟩, ⟨-2, 1, 1, 0, -1, 0, 1, 0, 0⟩,
      ⟨1, 1, 1, -1, 1, 0, 0, -1, 0⟩]
    [canonC 9] = true := by
  decide +kernel

theorem stored_10 : storedOk 10 (99/10000000) (1/10)
    [⟨1, 0, 0, 0, 1, 0, 0, 0, 1⟩, ⟨-1, 0, 0, 0, 0, -1, 0, -1, 0⟩, ⟨1, 1, 0, 0, 0, -1, 0, 1, 0⟩,
      ⟨-1, -1, 0, 0, 0, -1, 0, -1, 0⟩]
    [canonC 10] = true := by
  decide +kernel

theorem stored_11 : storedOk 11 (99/10000000) (1/10)
    [⟨1, 0, 0, 0, 1, 0, 0, 0, 1⟩]
    [canonC 11] = true := by
  decide +kernel

theorem stored_12 : storedOk 12 (99/10000000) (1/10)
    [⟨1, 0, 0, 0, 1, 0, 0, 0, 1⟩, ⟨1, 0, 0, 0, -1, 0, 0, 0, -1⟩]
    [canonC 12] = true := by
  decide +kernel

theorem stored_13 : storedOk 13 (99/10000000) (1/10)
    [⟨1, 0, 0, 0, 1, 0, 0, 0, 1⟩]
    [canonC 13] = true := by
  decide +kernel

theorem stored_14 : storedOk 14 (99/10000000) (1/10)
    [⟨1, 0, 0, 0, 1, 0, 0, 0, 1⟩, ⟨-1, 0, 0, 0, 0, -1, 0, -1, 0⟩, ⟨-1, -1, 0, 0, 0, -1, 0, -1, 0⟩]
    [canonC 14] = true := by
  decide +kernel

theorem stored_15 : storedOk 15 (99/10000000) (1/10)
    [⟨1, 0, 0, 0, 1, 0, 0, 0, 1⟩, ⟨0, 0, 1, 1, 0, 0, 0, 1, 0⟩, ⟨0, 0, 1, -1, 0, 0, 0, -1, 0⟩]
    [canonC 15] = true := by
  decide +kernel

theorem stored_16 : storedOk 16 (99/10000000) (1/10)
    [⟨1, 0, 0, 0, 1, 0, 0, 0, 1⟩, ⟨0, 0, 1, 1, 0, 0, 0, 1, 0⟩, ⟨0, 0, 1, 1, 0, 0, 0, 1, -1⟩,
      ⟨0, 0, 1, 1, -1, 0, 0, 1, 0⟩, ⟨0, 0, 1, -1, 0, 0, 0, -1, 0⟩, ⟨0, 0, 1, -1, 1, 0, 0, -1, -1⟩,
      ⟨0, 0, 1, -1, 1, 0, 0, -1, 0⟩, ⟨0, 0, -1, 1, -1, 0, -1, 0, 1⟩, ⟨0, 0, 1, 1, -1, 0, 0, 1, -1⟩]
    [canonC 16, mulC (canonC 16) ⟨-1, 0, 1, 0, -1, 1, 0, 0, 1⟩, mulC (canonC 16) ⟨0, 1, -1, 1, 0, -1, 0, 0, -1⟩] = true := by
  decide +kernel

theorem stored_17 : storedOk 17 (99/10000000) (1/10)
    [⟨1, 0, 0, 0, 1, 0, 0, 0, 1⟩, ⟨-1, 0, 0, 0, 0, -1, 0, -1, 0⟩, ⟨0, -1, -1, 0, 0, 1, -1, 0, 0⟩,
      ⟨0, 1, 1, 0, -1, 0, 1, 0, 0⟩, ⟨1, 0, 1, -1, 0, 0, 0, -1, 1⟩, ⟨-1, 1, 1, 1, -1, 0, 0, 1, 1⟩,
      ⟨1, -1, 1, -1, 1, 0, 0, -1, 1⟩]
    [canonC 17] = true := by
  decide +kernel

theorem stored_18 : storedOk 18 (99/10000000) (1/10)
    [⟨1, 0, 0, 0, 1, 0, 0, 0, 1⟩, ⟨1, 0, 1, 0, -1, 0, 0, 0, -1⟩, ⟨-1, -1, 0, 0, 0, 1, 0, 1, 0⟩,
      ⟨1, 1, -1, 0, 0, 1, 0, -1, 1⟩, ⟨-1, 1, -1, 0, -1, 0, 0, -1, 1⟩, ⟨-1, -2, 1, 0, 1, 0, 0, 1, -1⟩,
      ⟨-2, -1, -1, 1, 0, 0, 1, 0, 1⟩]
    [canonC 18] = true := by
  decide +kernel

theorem stored_19 : storedOk 19 (99/10000000) (1/10)
    [⟨1, 0, 0, 0, 1, 0, 0, 0, 1⟩, ⟨1, 0, 1, 0, -1, 0, 0, 0, -1⟩, ⟨-1, -1, 0, 0, 0, 1, 0, 1, 0⟩,
      ⟨-1, -1, -1, 0, 0, 1, 0, 1, 1⟩, ⟨1, 1, 1, 0, -1, 0, 0, -1, -1⟩, ⟨1, -2, 1, -1, 1, 0, -1, 1, -1⟩,
      ⟨2, 1, 1, -1, -1, 0, -1, -1, -1⟩]
    [canonC 19] = true := by
  decide +kernel

theorem stored_20 : storedOk 20 (99/10000000) (1/10)
    [⟨1, 0, 0, 0, 1, 0, 0, 0, 1⟩, ⟨1, 0, 0, 0, 1, -1, 0, 0, 1⟩]
    [canonC 20] = true := by
  decide +kernel

theorem stored_21 : storedOk 21 (99/10000000) (1/10)
    [⟨1, 0, 0, 0, 1, 0, 0, 0, 1⟩]
    [canonC 21] = true := by
  decide +kernel

theorem stored_22 : storedOk 22 (99/10000000) (1/10)
    [⟨1, 0, 0, 0, 1, 0, 0, 0, 1⟩]
    [canonC 22] = true := by
  decide +kernel

theorem stored_23 : storedOk 23 (99/10000000) (1/10)
    [⟨1, 0, 0, 0, 1, 0, 0, 0, 1⟩, ⟨0, -1, 0, -1, 0, 0, 0, 0, -1⟩]
    [canonC 23] = true := by
  decide +kernel

theorem stored_24 : storedOk 24 (99/10000000) (1/10)
    [⟨1, 0, 0, 0, 1, 0, 0, 0, 1⟩, ⟨0, -1, 1, 1, 0, 0, 0, 0, 1⟩, ⟨1, 0, 0, 0, -1, 1, 0, 0, -1⟩,
      ⟨0, -1, 1, -1, 0, 0, 0, -1, 0⟩, ⟨0, -1, -1, -1, 0, 0, 0, 0, -1⟩, ⟨-1, 0, 0, 0, -1, 1, 0, 1, 0⟩,
      ⟨1, 0, 1, 0, 1, 0, 0, 0, 1⟩, ⟨-1, 0, 1, 0, 1, 0, -1, 0, 0⟩, ⟨0, 1, 1, 1, 0, 0, 0, 1, 0⟩,
      ⟨-1, 0, -1, 0, 1, 0, 0, -1, -1⟩, ⟨-1, -1, 0, 0, 0, -1, 0, -1, 0⟩, ⟨1, 1, 0, 0, 0, -1, 0, 1, 1⟩,
      ⟨-1, 0, -1, 0, -1, 0, -1, 0, 0⟩, ⟨1, -1, 0, 0, 0, -1, 1, 0, 1⟩, ⟨1, -1, 0, 0, 0, -1, 1, 0, 0⟩,
      ⟨-1, 1, 0, 0, 0, -1, -1, 0, 0⟩, ⟨-1, 1, 0, 0, 0, -1, -1, 0, 1⟩, ⟨1, 0, -1, 0, 1, 0, 1, 0, 0⟩]
    [canonC 24, mulC (canonC 24) ⟨1, 0, -1, 0, 0, -1, 0, 1, -1⟩, mulC (canonC 24) ⟨-1, 0, 0, 0, 0, -1, 0, -1, 0⟩] = true := by
  decide +kernel

theorem stored_25 : storedOk 25 (99/10000000) (1/10)
    [⟨1, 0, 0, 0, 1, 0, 0, 0, 1⟩, ⟨1, 0, 0, 0, -1, 1, 0, 0, -1⟩, ⟨1, 0, 0, 0, 1, -1, 0, 0, 1⟩]
    [canonC 25] = true := by
  decide +kernel

theorem stored_26 : storedOk 26 (99/10000000) (1/10)
    [⟨1, 0, 0, 0, 1, 0, 0, 0, 1⟩, ⟨0, -1, 1, -1, 0, 0, 0, 0, -1⟩, ⟨0, -1, 1, -1, 0, 1, 0, 0, -1⟩,
      ⟨0, -1, 1, 1, -1, 0, 0, 1, 0⟩, ⟨1, 0, 1, 1, 1, -1, -1, 0, 0⟩, ⟨-1, -1, 0, -1, 1, -1, 1, 0, 0⟩,
      ⟨-1, 0, 0, -1, -2, 1, 1, 1, 0⟩, ⟨0, -1, 0, -2, -1, -1, 1, 1, 0⟩]
    [canonC 26] = true := by
  decide +kernel

theorem stored_27 : storedOk 27 (99/10000000) (1/10)
    [⟨1, 0, 0, 0, 1, 0, 0, 0, 1⟩, ⟨-1, 0, 0, 0, 0, -1, 0, -1, 0⟩, ⟨0, 1, 1, 0, 0, 1, 1, 0, 0⟩,
      ⟨0, -1, -1, 0, -1, 0, -1, 0, 0⟩, ⟨0, 1, 1, 0, 1, 0, -1, 0, 0⟩]
    [canonC 27] = true := by
  decide +kernel

theorem stored_28 : storedOk 28 (99/10000000) (1/10)
    [⟨1, 0, 0, 0, 1, 0, 0, 0, 1⟩, ⟨0, -1, 0, -1, 0, 0, 0, 0, -1⟩]
    [canonC 28] = true := by
  decide +kernel

theorem stored_29 : storedOk 29 (99/10000000) (1/10)
    [⟨1, 0, 0, 0, 1, 0, 0, 0, 1⟩, ⟨0, 0, 1, 1, 0, 0, 0, 1, 0⟩]
    [canonC 29] = true := by
  decide +kernel

theorem stored_30 : storedOk 30 (99/10000000) (1/10)
    [⟨1, 0, 0, 0, 1, 0, 0, 0, 1⟩]
    [canonC 30] = true := by
  decide +kernel

theorem stored_32 : storedOk 32 (99/10000000) (1/10)
    [⟨1, 0, 0, 0, 1, 0, 0, 0, 1⟩]
    [canonC 32] = true := by
  decide +kernel

theorem stored_33 : storedOk 33 (99/10000000) (1/10)
    [⟨1, 0, 0, 0, 1, 0, 0, 0, 1⟩, ⟨1, 0, 0, 0, -1, 0, 0, 0, -1⟩]
    [canonC 33] = true := by
  decide +kernel

theorem stored_34 : storedOk 34 (99/10000000) (1/10)
    [⟨1, 0, 0, 0, 1, 0, 0, 0, 1⟩]
    [canonC 34] = true := by
  decide +kernel

theorem stored_35 : storedOk 35 (99/10000000) (1/10)
    [⟨1, 0, 0, 0, 1, 0, 0, 0, 1⟩, ⟨0, 0, 1, 1, 0, 0, 0, 1, 0⟩, ⟨0, 0, -1, 0, -1, 0, -1, 0, 0⟩]
    [canonC 35] = true := by
  decide +kernel

theorem stored_36 : storedOk 36 (99/10000000) (1/10)
    [⟨1, 0, 0, 0, 1, 0, 0, 0, 1⟩]
    [canonC 36] = true := by
  decide +kernel

theorem stored_37 : storedOk 37 (99/10000000) (1/10)
    [⟨1, 0, 0, 0, 1, 0, 0, 0, 1⟩, ⟨0, 0, 1, 1, 0, 0, 0, 1, 0⟩, ⟨0, 0, -1, 0, -1, 0, -1, 0, 0⟩]
    [canonC 37] = true := by
  decide +kernel

theorem stored_38 : storedOk 38 (99/10000000) (1/10)
    [⟨1, 0, 0, 0, 1, 0, 0, 0, 1⟩, ⟨1, 1, 0, 0, 1, 0, 0, 0, 1⟩, ⟨-1, 1, 0, -1, 0, 0, 0, 0, 1⟩]
    [canonC 38] = true := by
  decide +kernel

theorem stored_39 : storedOk 39 (99/10000000) (1/10)
    [⟨1, 0, 0, 0, 1, 0, 0, 0, 1⟩, ⟨-1, 0, 0, 0, 0, -1, 0, -1, 0⟩, ⟨0, 1, 0, 0, 0, 1, 1, 0, 0⟩]
    [canonC 39] = true := by
  decide +kernel

theorem stored_40 : storedOk 40 (99/10000000) (1/10)
    [⟨1, 0, 0, 0, 1, 0, 0, 0, 1⟩]
    [canonC 40] = true := by
  decide +kernel

theorem stored_41 : storedOk 41 (99/10000000) (1/10)
    [⟨1, 0, 0, 0, 1, 0, 0, 0, 1⟩, ⟨0, 0, 1, 1, 0, 0, 0, 1, 0⟩]
    [canonC 41] = true := by
  decide +kernel

theorem stored_42 : storedOk 42 (99/10000000) (1/10)
    [⟨1, 0, 0, 0, 1, 0, 0, 0, 1⟩, ⟨0, 0, 1, 1, 0, 0, 0, 1, 0⟩]
    [canonC 42] = true := by
  decide +kernel

theorem stored_43 : storedOk 43 (99/10000000) (1/10)
    [⟨1, 0, 0, 0, 1, 0, 0, 0, 1⟩, ⟨-1, 0, 0, 0, 0, -1, 0, -1, 0⟩, ⟨0, -1, 0, 0, 0, 1, -1, 0, 1⟩,
      ⟨0, 0, 1, 0, -1, 0, 1, -1, 0⟩, ⟨0, 0, -1, 0, -1, 1, -1, -1, 1⟩, ⟨0, 1, 0, 0, -1, 1, 1, -1, 1⟩,
      ⟨1, 0, 1, -1, 0, 0, -1, -1, -1⟩, ⟨-1, -1, 0, 1, 0, 0, 1, 1, 1⟩, ⟨1, -1, 0, 0, 1, 0, -1, 1, 1⟩]
    [canonC 43] = true := by
  decide +kernel

theorem stored_6a : storedOk 6 (99/10000000) (27/2500000)
    [⟨1, 0, 0, 0, 1, 0, 0, 0, 1⟩, ⟨-1, 0, 0, 0, 0, -1, 0, -1, 0⟩, ⟨-1, 0, 1, 0, 0, -1, 0, -1, 0⟩,
      ⟨-1, 0, -1, 0, 0, 1, 0, 1, 0⟩, ⟨1, -1, 0, 0, 1, 0, 0, 0, 1⟩, ⟨1, 1, 0, 0, -1, 0, 0, 0, -1⟩,
      ⟨-1, -1, 1, 0, 1, -1, 0, 0, -1⟩, ⟨1, -1, 1, 0, 1, -1, 0, 1, 0⟩, ⟨1, 1, -1, 0, -1, 1, 0, -1, 0⟩]
    [canonC 6] = true := by
  decide +kernel

theorem stored_6b : storedOk 6 (123/10000000) (1/10)
    [⟨1, 0, 0, 0, 1, 0, 0, 0, 1⟩, ⟨1, 0, 1, 0, -1, 0, 0, 0, -1⟩, ⟨-1, -1, 0, 0, 0, 1, 0, 1, 0⟩,
      ⟨1, 1, -1, 0, 0, 1, 0, -1, 1⟩, ⟨-1, 1, -1, 0, -1, 0, 0, -1, 1⟩, ⟨-1, -1, 1, 0, 1, 0, 0, 1, -1⟩]
    [mulC (canonC 6) ⟨-1, 0, 1, 0, -1, 1, 0, 0, 1⟩] = true := by
  decide +kernel

end AutoGR
