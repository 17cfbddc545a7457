import Mathlib.Data.Rat.Floor
import Mathlib.LinearAlgebra.Matrix.Notation

/-!
# Python building blocks used by the generators

The generators in `/repo/support/python_dev/opf_python/*.py` are written with Python integers,
`range`, the remainder operator `%`, and true division `x/float(y)`.  This file gives those
operations their meaning.  Float operations are modelled in `Generators.lean` by a rounding
function `fl : ℚ → ℚ` applied after each exact operation.
-/

namespace AutoGR

/-- 3×3 integer matrices: the Python list of lists `[[a,0,0],[b,c,0],[d,e,f]]`, row by row
(for instance `sc.py:28`). -/
abbrev Mat3 := Matrix (Fin 3) (Fin 3) ℤ

/-- The HNF literal `[[a,0,0],[b,c,0],[d,e,f]]` that every generator appends (for instance
`sc.py:28`, `hx.py:46`).  Entries such as `c/2` are Python floats with an integral value
(they are only formed when `c%2==0`); the model keeps the integer. -/
def hnf (a b c d e f : ℤ) : Mat3 := !![a, 0, 0; b, c, 0; d, e, f]

/-- Python `range(lo,hi)` (for instance `universal.py:45`, `sm.py:41`). -/
def pyRange (lo hi : ℤ) : List ℤ :=
  (List.range (hi - lo).toNat).map fun (k : ℕ) => lo + (k : ℤ)

/-- Python `range(0,hi,step)` for `step ≥ 1` (`hx.py:75`, `base_ortho.py:91`), and also the
values visited by `b=0; while (b<c): ...; b += a` (`hx.py:25-48`, `rhom.py:38-57`,
`base_ortho.py:34-48`): both enumerate `0, step, 2*step, ...` below `hi`. -/
def pyRangeStep (hi step : ℤ) : List ℤ :=
  (List.range ((hi + step - 1) / step).toNat).map fun (k : ℕ) => (k : ℤ) * step

/-- Python `x % m` on numbers, `x - m*floor(x/m)` (for instance `hx.py:30`). -/
def pyMod (x m : ℚ) : ℚ := x - m * (⌊x / m⌋ : ℤ)

/-- `[0, c/2]` when `c%2==0`, else `[0]`: the recurring idiom `if c%2==0: bs = [0,c/2] else:
bs = [0]` (for instance `so.py:23-26`, `sm.py:26-29`). -/
def halves (c : ℤ) : List ℤ := if c % 2 = 0 then [0, c / 2] else [0]

end AutoGR
