import Mathlib.Data.Rat.Floor
import Verif.Model.PyArith

/-!
# Number-like types

`pyniggli.py` and `niggli_lat_id.py` compute with binary64 floats.  The model of those files is
written against the operations below and assumes **no law at all** about them.  A theorem proved
for every `Arith K` therefore holds for floats with any rounding, and for exact rationals.
`Arith ℚ` (exact arithmetic) is used for theorems about the geometry, `Arith Float` shows that the
interface is the one binary64 offers.
-/

namespace AutoGR

/-- The arithmetic used by `pyniggli.py` and `niggli_lat_id.py`: `+ - * /`, unary minus, `abs`,
`np.sign`, `**(1./3.)`, `<`, `<=`, integers used as numbers and decimal literals. -/
class Arith (K : Type) where
  add : K → K → K
  sub : K → K → K
  mul : K → K → K
  div : K → K → K
  neg : K → K
  abs : K → K
  /-- `np.sign`, with value -1, 0 or 1. -/
  sign : K → ℤ
  /-- `x**(1./3.)` for `x ≥ 0` -/
  cbrt : K → K
  lt : K → K → Bool
  le : K → K → Bool
  ofInt : ℤ → K
  /-- a decimal literal such as `1E-5` -/
  ofRat : ℚ → K

/-- The integer part of the cube root of `n`, provided it is below `2^k`; bit by bit.  (Helper for the
rational stand-in of `x**(1./3.)` below, `pyniggli.py:72`.) -/
def icbrt (n : ℕ) : ℕ → ℕ → ℕ
  | 0, r => r
  | k + 1, r => if (r + 2 ^ k) ^ 3 ≤ n then icbrt n k (r + 2 ^ k) else icbrt n k r

/-- Exact rational arithmetic; cube roots (`pyniggli.py:72-74`) are cut after 15 decimals, and are only
used to scale the tolerance. -/
instance : Arith ℚ where
  add := (· + ·)
  sub := (· - ·)
  mul := (· * ·)
  div := (· / ·)
  neg := fun x => -x
  abs := fun x => |x|
  sign := fun x => if x < 0 then -1 else if 0 < x then 1 else 0
  cbrt := fun x => (icbrt ⌊x * 10 ^ 45⌋.toNat 80 0 : ℚ) / 10 ^ 15
  lt := fun x y => decide (x < y)
  le := fun x y => decide (x ≤ y)
  ofInt := fun z => (z : ℚ)
  ofRat := fun q => q

/-- binary64 arithmetic, as in Python and numpy. -/
instance : Arith Float where
  add := (· + ·)
  sub := (· - ·)
  mul := (· * ·)
  div := (· / ·)
  neg := fun x => -x
  abs := Float.abs
  sign := fun x => if x < 0 then -1 else if 0 < x then 1 else 0
  cbrt := fun x => Float.pow x (1.0 / 3.0)
  lt := fun x y => decide (x < y)
  le := fun x y => decide (x ≤ y)
  ofInt := fun z => Float.ofInt z
  ofRat := fun q => Float.ofInt q.num / Float.ofNat q.den

/-- `np.allclose(a,b,atol=atol,rtol=rtol)` on two finite numbers: `|a-b| <= atol + rtol*|b|`. -/
def allcloseR {K : Type} [Arith K] (rtol atol a b : K) : Bool :=
  Arith.le (Arith.abs (Arith.sub a b)) (Arith.add atol (Arith.mul rtol (Arith.abs b)))

/-- `np.allclose(a,b,atol=eps)`, with numpy's default `rtol=1e-5`. -/
def allclose {K : Type} [Arith K] (eps a b : K) : Bool :=
  allcloseR (Arith.ofRat (1 / 100000)) eps a b

/-- The exceptions the modelled code can raise. -/
inductive PyErr
  | valueError
  | runtimeError
  | unboundLocal
  | attributeError
  | zeroDivision
  | typeError
  /-- not an exception: the call does not return -/
  | nonTermination
  deriving DecidableEq, Repr

end AutoGR
