import Verif.Lemmas.TolRange

/-! # The canonical bases of `niggli.f90` for all tolerances from 1e-5 to 0.1 -/

namespace AutoGR

/-- For every tolerance from `lo` to `hi` (times the cube root of the volume) the reduction of the basis of
class `k` ends with one of `good`; `cuts` are the tolerances at which its course changes. -/
def rangeOk (k : ℕ) (lo hi : ℚ) (cuts : List ℚ) (good : List IMat) : Bool :=
  match (fBasis k : Option (RMat ℚ)) with
  | none => false
  | some O =>
    let s := Arith.cbrt |rdet O|
    decide (0 < s) && cutsOk O good (((lo * s) :: cuts) ++ [hi * s])

theorem range_1 : rangeOk 1 (1/100000) (1/10) []
    [canonC 1] = true := by
  decide +kernel

theorem range_2 : rangeOk 2 (1/100000) (1/10) []
    [canonC 2] = true := by
  decide +kernel

theorem range_3 : rangeOk 3 (1/100000) (1/10) []
    [canonC 3] = true := by
  decide +kernel

theorem range_4 : rangeOk 4 (1/100000) (1/10) [118573/6250000000]
    [canonC 4, mulC (canonC 4) ⟨0, -1, 0, -1, 0, 0, 0, 0, -1⟩] = true := by
  decide +kernel

theorem range_5 : rangeOk 5 (1/100000) (1/10) []
    [canonC 5] = true := by
  decide +kernel

theorem range_6a : rangeOk 6 (1/100000) (27/2500000) [453249/20000000000]
    [canonC 6] = true := by
  decide +kernel

theorem range_6b : rangeOk 6 (61/5000000) (1/10) []
    [mulC (canonC 6) ⟨-1, 0, 1, 0, -1, 1, 0, 0, 1⟩] = true := by
  decide +kernel

theorem range_7 : rangeOk 7 (1/100000) (1/10) []
    [canonC 7] = true := by
  decide +kernel

theorem range_8 : rangeOk 8 (1/100000) (1/10) [5138551/125000000000]
    [canonC 8] = true := by
  decide +kernel

theorem range_9 : rangeOk 9 (1/100000) (1/10) []
    [canonC 9] = true := by
  decide +kernel

theorem range_10 : rangeOk 10 (1/100000) (1/10) []
    [canonC 10] = true := by
  decide +kernel

theorem range_11 : rangeOk 11 (1/100000) (1/10) []
    [canonC 11] = true := by
  decide +kernel

theorem range_12 : rangeOk 12 (1/100000) (1/10) []
    [canonC 12] = true := by
  decide +kernel

theorem range_13 : rangeOk 13 (1/100000) (1/10) []
    [canonC 13] = true := by
  decide +kernel

theorem range_14 : rangeOk 14 (1/100000) (1/10) []
    [canonC 14] = true := by
  decide +kernel

theorem range_15 : rangeOk 15 (1/100000) (1/10) []
    [canonC 15] = true := by
  decide +kernel

theorem range_16 : rangeOk 16 (1/100000) (1/10) [66030887/31250000000, 180916939/62500000000, 312978713/62500000000]
    [canonC 16, mulC (canonC 16) ⟨-1, 0, 1, 0, -1, 1, 0, 0, 1⟩, mulC (canonC 16) ⟨0, 1, -1, 1, 0, -1, 0, 0, -1⟩] = true := by
  decide +kernel

theorem range_17 : rangeOk 17 (1/100000) (1/10) []
    [canonC 17] = true := by
  decide +kernel

theorem range_18 : rangeOk 18 (1/100000) (1/10) []
    [canonC 18] = true := by
  decide +kernel

theorem range_19 : rangeOk 19 (1/100000) (1/10) []
    [canonC 19] = true := by
  decide +kernel

theorem range_20 : rangeOk 20 (1/100000) (1/10) []
    [canonC 20] = true := by
  decide +kernel

theorem range_21 : rangeOk 21 (1/100000) (1/10) []
    [canonC 21] = true := by
  decide +kernel

theorem range_22 : rangeOk 22 (1/100000) (1/10) []
    [canonC 22] = true := by
  decide +kernel

theorem range_23 : rangeOk 23 (1/100000) (1/10) []
    [canonC 23] = true := by
  decide +kernel

theorem range_24 : rangeOk 24 (1/100000) (1/10) [281653/10000000000, 225431/7812500000]
    [canonC 24, mulC (canonC 24) ⟨1, 0, -1, 0, 0, -1, 0, 1, -1⟩, mulC (canonC 24) ⟨-1, 0, 0, 0, 0, -1, 0, -1, 0⟩] = true := by
  decide +kernel

theorem range_25 : rangeOk 25 (1/100000) (1/10) []
    [canonC 25] = true := by
  decide +kernel

theorem range_26 : rangeOk 26 (1/100000) (1/10) []
    [canonC 26] = true := by
  decide +kernel

theorem range_27 : rangeOk 27 (1/100000) (1/10) []
    [canonC 27] = true := by
  decide +kernel

theorem range_28 : rangeOk 28 (1/100000) (1/10) []
    [canonC 28] = true := by
  decide +kernel

theorem range_29 : rangeOk 29 (1/100000) (1/10) []
    [canonC 29] = true := by
  decide +kernel

theorem range_30 : rangeOk 30 (1/100000) (1/10) []
    [canonC 30] = true := by
  decide +kernel

theorem range_32 : rangeOk 32 (1/100000) (1/10) []
    [canonC 32] = true := by
  decide +kernel

theorem range_33 : rangeOk 33 (1/100000) (1/10) []
    [canonC 33] = true := by
  decide +kernel

theorem range_34 : rangeOk 34 (1/100000) (1/10) []
    [canonC 34] = true := by
  decide +kernel

theorem range_35 : rangeOk 35 (1/100000) (1/10) []
    [canonC 35] = true := by
  decide +kernel

theorem range_36 : rangeOk 36 (1/100000) (1/10) [1/50000, 1/25000]
    [canonC 36] = true := by
  decide +kernel

theorem range_37 : rangeOk 37 (1/100000) (1/10) []
    [canonC 37] = true := by
  decide +kernel

theorem range_38 : rangeOk 38 (1/100000) (1/10) []
    [canonC 38] = true := by
  decide +kernel

theorem range_39 : rangeOk 39 (1/100000) (1/10) []
    [canonC 39] = true := by
  decide +kernel

theorem range_40 : rangeOk 40 (1/100000) (1/10) []
    [canonC 40] = true := by
  decide +kernel

theorem range_41 : rangeOk 41 (1/100000) (1/10) []
    [canonC 41] = true := by
  decide +kernel

theorem range_42 : rangeOk 42 (1/100000) (1/10) []
    [canonC 42] = true := by
  decide +kernel

theorem range_43 : rangeOk 43 (1/100000) (1/10) []
    [canonC 43] = true := by
  decide +kernel

end AutoGR
