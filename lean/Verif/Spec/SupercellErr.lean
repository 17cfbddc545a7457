import Verif.Spec.Relative

/-!
# Specification: the size of the error in a supercell that is computed without rounding to integers

Nothing here refers to the code.
-/

namespace AutoGR.Spec

/-- A bound on the error with which `Nu F Cu⁻¹` is computed: `u` is the relative error of a sum or product; `Nu` has
entries of size `a`, wrong by `α`; `F` has entries of size `f`, wrong by `φ`; `Cu⁻¹` has entries of size `w`, wrong by
`ω`. -/
def floatBackErr (u α φ ω a f w : ℝ) : ℝ := 9 * ((a + α) * (f + φ) * (w + ω) * (1 + u) ^ 6 - a * f * w)

end AutoGR.Spec
