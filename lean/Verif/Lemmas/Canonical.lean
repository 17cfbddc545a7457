import Verif.Model.LatId

/-! # The Niggli reduction of the canonical bases -/

namespace AutoGR

theorem reduced_1 : reducedCanonical ℚ 1 = .ok (canonC 1) := by
  decide +kernel

theorem reduced_2 : reducedCanonical ℚ 2 = .ok (canonC 2) := by
  decide +kernel

theorem reduced_3 : reducedCanonical ℚ 3 = .ok (canonC 3) := by
  decide +kernel

theorem reduced_4 : reducedCanonical ℚ 4 = .ok (canonC 4) := by
  decide +kernel

theorem reduced_5 : reducedCanonical ℚ 5 = .ok (canonC 5) := by
  decide +kernel

theorem reduced_6 : reducedCanonical ℚ 6 = .ok (canonC 6) := by
  decide +kernel

theorem reduced_7 : reducedCanonical ℚ 7 = .ok (canonC 7) := by
  decide +kernel

theorem reduced_8 : reducedCanonical ℚ 8 = .ok (canonC 8) := by
  decide +kernel

theorem reduced_9 : reducedCanonical ℚ 9 = .ok (canonC 9) := by
  decide +kernel

theorem reduced_10 : reducedCanonical ℚ 10 = .ok (canonC 10) := by
  decide +kernel

theorem reduced_11 : reducedCanonical ℚ 11 = .ok (canonC 11) := by
  decide +kernel

theorem reduced_12 : reducedCanonical ℚ 12 = .ok (canonC 12) := by
  decide +kernel

theorem reduced_13 : reducedCanonical ℚ 13 = .ok (canonC 13) := by
  decide +kernel

theorem reduced_14 : reducedCanonical ℚ 14 = .ok (canonC 14) := by
  decide +kernel

theorem reduced_15 : reducedCanonical ℚ 15 = .ok (canonC 15) := by
  decide +kernel

theorem reduced_16 : reducedCanonical ℚ 16 = .ok (canonC 16) := by
  decide +kernel

theorem reduced_17 : reducedCanonical ℚ 17 = .ok (canonC 17) := by
  decide +kernel

theorem reduced_18 : reducedCanonical ℚ 18 = .ok (canonC 18) := by
  decide +kernel

theorem reduced_19 : reducedCanonical ℚ 19 = .ok (canonC 19) := by
  decide +kernel

theorem reduced_20 : reducedCanonical ℚ 20 = .ok (canonC 20) := by
  decide +kernel

theorem reduced_21 : reducedCanonical ℚ 21 = .ok (canonC 21) := by
  decide +kernel

theorem reduced_22 : reducedCanonical ℚ 22 = .ok (canonC 22) := by
  decide +kernel

theorem reduced_23 : reducedCanonical ℚ 23 = .ok (canonC 23) := by
  decide +kernel

theorem reduced_24 : reducedCanonical ℚ 24 = .ok (canonC 24) := by
  decide +kernel

theorem reduced_25 : reducedCanonical ℚ 25 = .ok (canonC 25) := by
  decide +kernel

theorem reduced_26 : reducedCanonical ℚ 26 = .ok (canonC 26) := by
  decide +kernel

theorem reduced_27 : reducedCanonical ℚ 27 = .ok (canonC 27) := by
  decide +kernel

theorem reduced_28 : reducedCanonical ℚ 28 = .ok (canonC 28) := by
  decide +kernel

theorem reduced_29 : reducedCanonical ℚ 29 = .ok (canonC 29) := by
  decide +kernel

theorem reduced_30 : reducedCanonical ℚ 30 = .ok (canonC 30) := by
  decide +kernel

theorem reduced_32 : reducedCanonical ℚ 32 = .ok (canonC 32) := by
  decide +kernel

theorem reduced_33 : reducedCanonical ℚ 33 = .ok (canonC 33) := by
  decide +kernel

theorem reduced_34 : reducedCanonical ℚ 34 = .ok (canonC 34) := by
  decide +kernel

theorem reduced_35 : reducedCanonical ℚ 35 = .ok (canonC 35) := by
  decide +kernel

theorem reduced_36 : reducedCanonical ℚ 36 = .ok (canonC 36) := by
  decide +kernel

theorem reduced_37 : reducedCanonical ℚ 37 = .ok (canonC 37) := by
  decide +kernel

theorem reduced_38 : reducedCanonical ℚ 38 = .ok (canonC 38) := by
  decide +kernel

theorem reduced_39 : reducedCanonical ℚ 39 = .ok (canonC 39) := by
  decide +kernel

theorem reduced_40 : reducedCanonical ℚ 40 = .ok (canonC 40) := by
  decide +kernel

theorem reduced_41 : reducedCanonical ℚ 41 = .ok (canonC 41) := by
  decide +kernel

theorem reduced_42 : reducedCanonical ℚ 42 = .ok (canonC 42) := by
  decide +kernel

theorem reduced_43 : reducedCanonical ℚ 43 = .ok (canonC 43) := by
  decide +kernel

end AutoGR
