import Verif.Model.Arith

/-!
# `pyniggli.py`: the Krivy-Gruber reduction to the Niggli cell
-/

namespace AutoGR

open Arith

variable {K : Type} [Arith K]

/-- The integer matrix `self.C` (`pyniggli.py:127`), row by row.  A structure rather than a function
so that it evaluates well; `IMat.toMat` gives the matrix. -/
structure IMat where
  m00 : ℤ
  m01 : ℤ
  m02 : ℤ
  m10 : ℤ
  m11 : ℤ
  m12 : ℤ
  m20 : ℤ
  m21 : ℤ
  m22 : ℤ
  deriving DecidableEq, Repr

/-- The matrix with the entries of `M`. -/
def IMat.toMat (M : IMat) : Mat3 :=
  !![M.m00, M.m01, M.m02; M.m10, M.m11, M.m12; M.m20, M.m21, M.m22]

/-- The identity, `pyniggli.py:127`. -/
def IMat.one : IMat := ⟨1, 0, 0, 0, 1, 0, 0, 0, 1⟩

/-- `np.dot(C,M)` for integer matrices (`pyniggli.py:139` and so on). -/
def mulC (C M : IMat) : IMat where
  m00 := C.m00 * M.m00 + C.m01 * M.m10 + C.m02 * M.m20
  m01 := C.m00 * M.m01 + C.m01 * M.m11 + C.m02 * M.m21
  m02 := C.m00 * M.m02 + C.m01 * M.m12 + C.m02 * M.m22
  m10 := C.m10 * M.m00 + C.m11 * M.m10 + C.m12 * M.m20
  m11 := C.m10 * M.m01 + C.m11 * M.m11 + C.m12 * M.m21
  m12 := C.m10 * M.m02 + C.m11 * M.m12 + C.m12 * M.m22
  m20 := C.m20 * M.m00 + C.m21 * M.m10 + C.m22 * M.m20
  m21 := C.m20 * M.m01 + C.m21 * M.m11 + C.m22 * M.m21
  m22 := C.m20 * M.m02 + C.m21 * M.m12 + C.m22 * M.m22

/-- A real 3×3 matrix, row by row; the lattice vectors are the columns. -/
structure RMat (K : Type) where
  m00 : K
  m01 : K
  m02 : K
  m10 : K
  m11 : K
  m12 : K
  m20 : K
  m21 : K
  m22 : K

/-- A column of a real matrix. -/
structure Vec (K : Type) where
  x : K
  y : K
  z : K

/-- The tuple returned by `_get_params` (`pyniggli.py:79-115`). -/
structure Params (K : Type) where
  A : K
  B : K
  C : K
  xi : K
  eta : K
  zeta : K
  l : ℤ
  m : ℤ
  n : ℤ

/-- A column of `np.dot(self.original, self.C)`, `pyniggli.py:87-91` (and `:76`): the combination
of the columns of `original` with the integer coefficients `x y z`. -/
def dotInt (o : RMat K) (x y z : ℤ) : Vec K where
  x := add (add (mul o.m00 (ofInt x)) (mul o.m01 (ofInt y))) (mul o.m02 (ofInt z))
  y := add (add (mul o.m10 (ofInt x)) (mul o.m11 (ofInt y))) (mul o.m12 (ofInt z))
  z := add (add (mul o.m20 (ofInt x)) (mul o.m21 (ofInt y))) (mul o.m22 (ofInt z))

/-- `np.dot(a,b)` of two vectors, `pyniggli.py:93-98`. -/
def dot (a b : Vec K) : K :=
  add (add (mul a.x b.x) (mul a.y b.y)) (mul a.z b.z)

/-- The sign flags `l`, `m`, `n`, `pyniggli.py:99-113`. -/
def signFlag (eps x : K) : ℤ :=
  if lt x (neg eps) then -1 else if lt eps x then 1 else 0

/-- `_get_params`, `pyniggli.py:79-115` (the `print` at line 88 is left out). -/
def getParams (orig : RMat K) (eps : K) (C : IMat) : Params K :=
  let a := dotInt orig C.m00 C.m10 C.m20
  let b := dotInt orig C.m01 C.m11 C.m21
  let c := dotInt orig C.m02 C.m12 C.m22
  let xi := mul (ofInt 2) (dot b c)
  let eta := mul (ofInt 2) (dot c a)
  let zeta := mul (ofInt 2) (dot a b)
  { A := dot a a
    B := dot b b
    C := dot c c
    xi := xi
    eta := eta
    zeta := zeta
    l := signFlag eps xi
    m := signFlag eps eta
    n := signFlag eps zeta }

/-- `_find_C3`, `pyniggli.py:289-315`. -/
def findC3 (l m n : ℤ) : IMat :=
  let i : ℤ := if l = -1 then -1 else 1
  let j : ℤ := if m = -1 then -1 else 1
  let k : ℤ := if n = -1 then -1 else 1
  ⟨i, 0, 0, 0, j, 0, 0, 0, k⟩

/-- `_find_C4`, `pyniggli.py:317-365`. -/
def findC4 (l m n : ℤ) : IMat :=
  if l = -1 ∧ m = -1 ∧ n = -1 then IMat.one
  else
    let i : ℤ := if l = 1 then -1 else 1
    let j : ℤ := if m = 1 then -1 else 1
    let k : ℤ := if n = 1 then -1 else 1
    -- r: the last of the zero flags (lines 339-353)
    let r : ℤ := if n = 0 then 2 else if m = 0 then 1 else if l = 0 then 0 else -1
    if i * j * k = -1 then
      if r = 0 then ⟨-1, 0, 0, 0, j, 0, 0, 0, k⟩
      else if r = 1 then ⟨i, 0, 0, 0, -1, 0, 0, 0, k⟩
      else if r = 2 then ⟨i, 0, 0, 0, j, 0, 0, 0, -1⟩
      else ⟨i, 0, 0, 0, j, 0, 0, 0, k⟩
    else ⟨i, 0, 0, 0, j, 0, 0, 0, k⟩

/-- Step 1's test, `pyniggli.py:137`. -/
def cond1 (eps : K) (p : Params K) : Bool :=
  lt (add p.B eps) p.A ||
    (!(lt eps (abs (sub p.A p.B))) && lt (add (abs p.eta) eps) (abs p.xi))

/-- Step 2's test, `pyniggli.py:144`. -/
def cond2 (eps : K) (p : Params K) : Bool :=
  lt (add p.C eps) p.B ||
    (!(lt eps (abs (sub p.C p.B))) && lt (add (abs p.zeta) eps) (abs p.eta))

/-- Step 5's test, `pyniggli.py:170`. -/
def cond5 (eps : K) (p : Params K) : Bool :=
  lt (add p.B eps) (abs p.xi) ||
    (!(lt eps (abs (sub p.B p.xi))) && lt (mul (ofInt 2) p.eta) (sub p.zeta eps)) ||
    (!(lt eps (abs (add p.B p.xi))) && lt p.zeta (neg eps))

/-- Step 6's test, `pyniggli.py:178`. -/
def cond6 (eps : K) (p : Params K) : Bool :=
  lt (add p.A eps) (abs p.eta) ||
    (!(lt eps (abs (sub p.A p.eta))) && lt (mul (ofInt 2) p.xi) (sub p.zeta eps)) ||
    (!(lt eps (abs (add p.A p.eta))) && lt p.zeta (neg eps))

/-- Step 7's test, `pyniggli.py:186`. -/
def cond7 (eps : K) (p : Params K) : Bool :=
  lt (add p.A eps) (abs p.zeta) ||
    (!(lt eps (abs (sub p.A p.zeta))) && lt (mul (ofInt 2) p.xi) (sub p.eta eps)) ||
    (!(lt eps (abs (add p.A p.zeta))) && lt p.eta (neg eps))

/-- `xi+eta+zeta+A+B` as it appears in step 8, `pyniggli.py:194`. -/
def sum8 (p : Params K) : K := add (add (add (add p.xi p.eta) p.zeta) p.A) p.B

/-- Step 8's test, `pyniggli.py:194`. -/
def cond8 (eps : K) (p : Params K) : Bool :=
  lt (sum8 p) (neg eps) ||
    (!(lt eps (abs (sum8 p))) &&
      lt eps (add (mul (ofInt 2) (add p.A p.eta)) p.zeta))

/-- One pass of the `while` loop, `pyniggli.py:134-200`: the new `self.C` and the flag `reduced`.
At every point of the Python loop the parameters in use are those of the current `self.C`, so the
model recomputes them from `C` instead of carrying them along. -/
def niggliPass (orig : RMat K) (eps : K) (C0 : IMat) : IMat × Bool :=
  let par := getParams orig eps
  -- 1
  let c1 := cond1 eps (par C0)
  let C1 := if c1 then mulC C0 ⟨0, -1, 0, -1, 0, 0, 0, 0, -1⟩ else C0
  -- 2
  if cond2 eps (par C1) then (mulC C1 ⟨-1, 0, 0, 0, 0, -1, 0, -1, 0⟩, false)
  else
    -- 3
    let p1 := par C1
    let M3 := findC3 p1.l p1.m p1.n
    let s3 := p1.l * p1.m * p1.n = 1
    let C2 := if s3 then mulC C1 M3 else C1
    -- 4
    let p2 := par C2
    let M4 := findC4 p2.l p2.m p2.n
    let s4 := p2.l * p2.m * p2.n = 0 ∨ p2.l * p2.m * p2.n = -1
    let C4 := if s4 then mulC C2 M4 else C2
    let reduced := !c1 && !(decide s3 && decide (M3 ≠ IMat.one)) &&
      !(decide s4 && decide (M4 ≠ IMat.one))
    let p := par C4
    -- 5
    if cond5 eps p then (mulC C4 ⟨1, 0, 0, 0, 1, -sign p.xi, 0, 0, 1⟩, false)
    -- 6
    else if cond6 eps p then (mulC C4 ⟨1, 0, -sign p.eta, 0, 1, 0, 0, 0, 1⟩, false)
    -- 7
    else if cond7 eps p then (mulC C4 ⟨1, -sign p.zeta, 0, 0, 1, 0, 0, 0, 1⟩, false)
    -- 8
    else if cond8 eps p then (mulC C4 ⟨1, 0, 1, 0, 1, 1, 0, 0, 1⟩, false)
    else (C4, reduced)

/-- The `while not reduced and count <=1000` loop, `pyniggli.py:132-200`.  `fuel` is the number of
passes still allowed; with `count + fuel = 1001` the loop ends exactly when Python's does.  Returns
the final `self.C` and `count`. -/
def niggliLoop (orig : RMat K) (eps : K) : ℕ → ℕ → IMat → IMat × ℕ
  | 0, count, C => (C, count)
  | fuel + 1, count, C =>
    match niggliPass orig eps C with
    | (C', true) => (C', count + 1)
    | (C', false) => niggliLoop orig eps fuel (count + 1) C'

/-- `_niggli_check`, `pyniggli.py:217-287`. -/
def niggliCheck (p : Params K) (eps : K) : Bool :=
  let zero : K := ofInt 0
  let two : K := ofInt 2
  let close := allclose eps
  let sumC := add (add (add (add (add p.A p.B) p.C) p.xi) p.eta) p.zeta
  if !(lt zero (sub p.A eps) && (lt p.A (sub p.B eps) || close p.A p.B) &&
      (lt p.B (sub p.C eps) || close p.B p.C)) then false
  else if close p.A p.B && !(lt (abs p.xi) (sub (abs p.eta) eps) ||
      close (abs p.xi) (abs p.eta)) then false
  else if close p.B p.C && !(lt (abs p.eta) (sub (abs p.zeta) eps) ||
      close (abs p.eta) (abs p.zeta)) then false
  else if !((lt zero (sub p.xi eps) && lt zero (sub p.eta eps) && lt zero (sub p.zeta eps)) ||
      ((lt p.xi (sub zero eps) || close p.xi zero) &&
       (lt p.eta (sub zero eps) || close p.eta zero) &&
       (lt p.zeta (sub zero eps) || close p.zeta zero))) then false
  else if !(lt (abs p.xi) (sub p.B eps) || close (abs p.xi) p.B) then false
  else if !((lt (abs p.eta) (sub p.A eps) || close (abs p.eta) p.A) &&
      (lt (abs p.zeta) (sub p.A eps) || close (abs p.zeta) p.A)) then false
  else if !(lt p.C (sub sumC eps) || close p.C sumC) then false
  else if close p.xi p.B && !(lt p.zeta (sub (mul two p.eta) eps) ||
      close p.zeta (mul two p.eta)) then false
  else if close p.eta p.A && !(lt p.zeta (sub (mul two p.xi) eps) ||
      close p.zeta (mul two p.xi)) then false
  else if close p.zeta p.A && !(lt p.eta (sub (mul two p.xi) eps) ||
      close p.eta (mul two p.xi)) then false
  else if close p.xi (neg p.B) && !(close p.zeta zero) then false
  else if close p.eta (neg p.A) && !(close p.zeta zero) then false
  else if close p.zeta (neg p.A) && !(close p.eta zero) then false
  -- line 283 uses `rtol=0.0` and numpy's default `atol=1e-8`
  else if allcloseR zero (ofRat (1 / 100000000)) p.C sumC &&
      !(lt (add (add (mul two p.A) (mul two p.eta)) p.zeta) (sub zero eps) ||
        close (add (add (mul two p.A) (mul two p.eta)) p.zeta) zero) then false
  else true

/-- `_niggli_reduction`, `pyniggli.py:117-214`: the matrix `self.C`, or the `RuntimeError` raised at
line 206 or 211. -/
def niggliReduction (orig : RMat K) (eps : K) : Except PyErr IMat :=
  match niggliLoop orig eps 1001 0 IMat.one with
  | (C, count) =>
    if 1000 ≤ count then .error .runtimeError
    else if niggliCheck (getParams orig eps C) eps then .ok C
    else .error .runtimeError

/-- `np.linalg.det(A)`, `pyniggli.py:66-69`.  numpy uses an LU factorisation; here the determinant is
expanded along the first row. -/
def rdet (o : RMat K) : K :=
  add (sub (mul o.m00 (sub (mul o.m11 o.m22) (mul o.m12 o.m21)))
    (mul o.m01 (sub (mul o.m10 o.m22) (mul o.m12 o.m20))))
    (mul o.m02 (sub (mul o.m10 o.m21) (mul o.m11 o.m20)))

/-- `reduced_cell(A,eps)`, `pyniggli.py:39-76`: the attribute `C` of the new object, or the exception
raised by the constructor.  `eps` is the optional argument; the tolerance used is
`eps*volume**(1./3.)`, with `1E-5` for a missing `eps`.  The input is a 3×3 array (the shape test at
line 62 is not modelled). -/
def reducedCell (A : RMat K) (eps : Option K) : Except PyErr IMat :=
  let det := rdet A
  if le det (ofInt 0) && le (ofInt 0) det then .error .valueError
  else
    let scale := cbrt (abs det)
    match eps with
    | none => niggliReduction A (mul (ofRat (1 / 100000)) scale)
    | some e => niggliReduction A (mul e scale)

end AutoGR
