import Verif.Model.LatId

/-!
# `src/niggli.f90`: reduction to the Niggli cell and its identification

The Fortran counterpart of `pyniggli.py` and `niggli_lat_id.py`, over the same arbitrary arithmetic.
Matrices are written row by row: `transpose(reshape((/a,b,c,.../),(/3,3/)))` has the first row `a b c`.
-/

namespace AutoGR

open Arith

variable {K : Type} [Arith K]

/-- The `stop` statements of `niggli.f90`. -/
inductive FStop
  /-- `:62`, "Input matrix is linearly dependent." -/
  | dependent
  /-- `:170`, "Could not reduce the cell in 1000 iterations." -/
  | iterations
  /-- `:172`, "Cell reduction failed to satisfy niggli conditions." -/
  | conditions
  deriving DecidableEq, Repr

/-- `matmul(IN,trans)`, for instance `niggli.f90:85`: a real times an integer matrix. -/
def matmulI (IN : RMat K) (T : IMat) : RMat K where
  m00 := add (add (mul IN.m00 (ofInt T.m00)) (mul IN.m01 (ofInt T.m10))) (mul IN.m02 (ofInt T.m20))
  m01 := add (add (mul IN.m00 (ofInt T.m01)) (mul IN.m01 (ofInt T.m11))) (mul IN.m02 (ofInt T.m21))
  m02 := add (add (mul IN.m00 (ofInt T.m02)) (mul IN.m01 (ofInt T.m12))) (mul IN.m02 (ofInt T.m22))
  m10 := add (add (mul IN.m10 (ofInt T.m00)) (mul IN.m11 (ofInt T.m10))) (mul IN.m12 (ofInt T.m20))
  m11 := add (add (mul IN.m10 (ofInt T.m01)) (mul IN.m11 (ofInt T.m11))) (mul IN.m12 (ofInt T.m21))
  m12 := add (add (mul IN.m10 (ofInt T.m02)) (mul IN.m11 (ofInt T.m12))) (mul IN.m12 (ofInt T.m22))
  m20 := add (add (mul IN.m20 (ofInt T.m00)) (mul IN.m21 (ofInt T.m10))) (mul IN.m22 (ofInt T.m20))
  m21 := add (add (mul IN.m20 (ofInt T.m01)) (mul IN.m21 (ofInt T.m11))) (mul IN.m22 (ofInt T.m21))
  m22 := add (add (mul IN.m20 (ofInt T.m02)) (mul IN.m21 (ofInt T.m12))) (mul IN.m22 (ofInt T.m22))

/-- `IN(:,1)`, `IN(:,2)`, `IN(:,3)`, `niggli.f90:394-399`. -/
def fCol (IN : RMat K) (j : ℕ) : Vec K :=
  if j = 1 then ⟨IN.m00, IN.m10, IN.m20⟩
  else if j = 2 then ⟨IN.m01, IN.m11, IN.m21⟩
  else ⟨IN.m02, IN.m12, IN.m22⟩

/-- The flags `l`, `m`, `n` of `get_params`, `niggli.f90:401-423`. -/
def fFlag (eps x : K) : ℤ :=
  if lt x (neg eps) then -1 else if lt eps x then 1 else 0

/-- `get_params`, `niggli.f90:389-425`. -/
def fGetParams (IN : RMat K) (eps : K) : Params K where
  A := dot (fCol IN 1) (fCol IN 1)
  B := dot (fCol IN 2) (fCol IN 2)
  C := dot (fCol IN 3) (fCol IN 3)
  xi := mul (ofInt 2) (dot (fCol IN 2) (fCol IN 3))
  eta := mul (ofInt 2) (dot (fCol IN 3) (fCol IN 1))
  zeta := mul (ofInt 2) (dot (fCol IN 1) (fCol IN 2))
  l := fFlag eps (mul (ofInt 2) (dot (fCol IN 2) (fCol IN 3)))
  m := fFlag eps (mul (ofInt 2) (dot (fCol IN 3) (fCol IN 1)))
  n := fFlag eps (mul (ofInt 2) (dot (fCol IN 1) (fCol IN 2)))

/-- `get_sign`, `niggli.f90:260-271`. -/
def fSign (a : K) : ℤ :=
  if lt (ofInt 0) a then 1 else if lt a (ofInt 0) then -1 else 0

/-- `find_C3`, `niggli.f90:337-363`. -/
def fFindC3 (l m n : ℤ) : IMat :=
  let i : ℤ := if l = -1 then -1 else 1
  let j : ℤ := if m = -1 then -1 else 1
  let k : ℤ := if n = -1 then -1 else 1
  ⟨i, 0, 0, 0, j, 0, 0, 0, k⟩

/-- `find_C4`, `niggli.f90:280-328`. -/
def fFindC4 (l m n : ℤ) : IMat :=
  if l = -1 ∧ m = -1 ∧ n = -1 then ⟨1, 0, 0, 0, 1, 0, 0, 0, 1⟩
  else
    let i : ℤ := if l = 1 then -1 else 1
    let r : ℤ := if l = 1 then -1 else if l = 0 then 0 else -1
    let j : ℤ := if m = 1 then -1 else 1
    let r := if m = 1 then r else if m = 0 then 1 else r
    let k : ℤ := if n = 1 then -1 else 1
    let r := if n = 1 then r else if n = 0 then 2 else r
    let i' := if i * j * k = -1 ∧ r = 0 then -1 else i
    let j' := if i * j * k = -1 ∧ r ≠ 0 ∧ r = 1 then -1 else j
    let k' := if i * j * k = -1 ∧ r ≠ 0 ∧ r ≠ 1 ∧ r = 2 then -1 else k
    ⟨i', 0, 0, 0, j', 0, 0, 0, k'⟩

/-- The test of step 1, `niggli.f90:81`. -/
def fCond1 (eps : K) (p : Params K) : Bool :=
  lt (add p.B eps) p.A ||
    (!(lt eps (abs (sub p.A p.B))) && lt (add (abs p.eta) eps) (abs p.xi))

/-- The test of step 2, `niggli.f90:90`. -/
def fCond2 (eps : K) (p : Params K) : Bool :=
  lt (add p.C eps) p.B ||
    (!(lt eps (abs (sub p.C p.B))) && lt (add (abs p.zeta) eps) (abs p.eta))

/-- The test of step 5, `niggli.f90:124`. -/
def fCond5 (eps : K) (p : Params K) : Bool :=
  lt (add p.B eps) (abs p.xi) ||
    (!(lt eps (abs (sub p.B p.xi))) && lt (mul (ofInt 2) p.eta) (sub p.zeta eps)) ||
    (!(lt eps (abs (add p.B p.xi))) && lt p.zeta (neg eps))

/-- The test of step 6, `niggli.f90:134`. -/
def fCond6 (eps : K) (p : Params K) : Bool :=
  lt (add p.A eps) (abs p.eta) ||
    (!(lt eps (abs (sub p.A p.eta))) && lt (mul (ofInt 2) p.xi) (sub p.zeta eps)) ||
    (!(lt eps (abs (add p.A p.eta))) && lt p.zeta (neg eps))

/-- The test of step 7, `niggli.f90:144`. -/
def fCond7 (eps : K) (p : Params K) : Bool :=
  lt (add p.A eps) (abs p.zeta) ||
    (!(lt eps (abs (sub p.A p.zeta))) && lt (mul (ofInt 2) p.xi) (sub p.eta eps)) ||
    (!(lt eps (abs (add p.A p.zeta))) && lt p.eta (neg eps))

/-- `xi+eta+zeta+A+B`, `niggli.f90:154`. -/
def fSum (p : Params K) : K := add (add (add (add p.xi p.eta) p.zeta) p.A) p.B

/-- The test of step 8, `niggli.f90:154`. -/
def fCond8 (eps : K) (p : Params K) : Bool :=
  lt (fSum p) (neg eps) ||
    (!(lt eps (abs (fSum p))) &&
      lt eps (add (mul (ofInt 2) (add p.A p.eta)) p.zeta))

/-- The variables of the loop in `reduce_cell`: `trans`, and `A`, `B`, `C`, `xi`, `eta`, `zeta`, `l`,
`m`, `n`. -/
structure FState (K : Type) where
  trans : IMat
  p : Params K

/-- `trans = matmul(trans,M)`, `temp_lat = matmul(IN,trans)`, `call get_params(temp_lat,…)`: what each
step does, for instance `niggli.f90:84-86`. -/
def fApply (IN : RMat K) (eps : K) (s : FState K) (M : IMat) : FState K where
  trans := mulC s.trans M
  p := fGetParams (matmulI IN (mulC s.trans M)) eps

/-- One pass of the loop, `niggli.f90:78-161`: the new variables and the flag `reduced`.  The string
`path` is left out. -/
def fPass (IN : RMat K) (eps : K) (s0 : FState K) : FState K × Bool :=
  let b1 := fCond1 eps s0.p
  let s1 := if b1 then fApply IN eps s0 ⟨0, -1, 0, -1, 0, 0, 0, 0, -1⟩ else s0
  if fCond2 eps s1.p then (fApply IN eps s1 ⟨-1, 0, 0, 0, 0, -1, 0, -1, 0⟩, false)
  else
    let M3 := fFindC3 s1.p.l s1.p.m s1.p.n
    let b3 := s1.p.l * s1.p.m * s1.p.n = 1
    let s3 := if b3 then fApply IN eps s1 M3 else s1
    let M4 := fFindC4 s3.p.l s3.p.m s3.p.n
    let b4 := s3.p.l * s3.p.m * s3.p.n = 0 ∨ s3.p.l * s3.p.m * s3.p.n = -1
    let s := if b4 then fApply IN eps s3 M4 else s3
    let reduced := !b1 && !(decide b3 && decide (M3 ≠ ⟨1, 0, 0, 0, 1, 0, 0, 0, 1⟩)) &&
      !(decide b4 && decide (M4 ≠ ⟨1, 0, 0, 0, 1, 0, 0, 0, 1⟩))
    if fCond5 eps s.p then (fApply IN eps s ⟨1, 0, 0, 0, 1, -fSign s.p.xi, 0, 0, 1⟩, false)
    else if fCond6 eps s.p then (fApply IN eps s ⟨1, 0, -fSign s.p.eta, 0, 1, 0, 0, 0, 1⟩, false)
    else if fCond7 eps s.p then (fApply IN eps s ⟨1, -fSign s.p.zeta, 0, 0, 1, 0, 0, 0, 1⟩, false)
    else if fCond8 eps s.p then (fApply IN eps s ⟨1, 0, 1, 0, 1, 1, 0, 0, 1⟩, false)
    else (s, reduced)

/-- `do while ((.not. reduced) .and. (count <= 1000))`, `niggli.f90:77-162`.  `fuel` is the number of
passes still allowed, `1001 - count`. -/
def fLoop (IN : RMat K) (eps : K) : ℕ → ℕ → FState K → FState K × ℕ
  | 0, count, s => (s, count)
  | fuel + 1, count, s =>
    match fPass IN eps s with
    | (s', true) => (s', count + 1)
    | (s', false) => fLoop IN eps fuel (count + 1) s'

/-- `A+B+C+xi+eta+zeta`, `niggli.f90:224` and `:252`. -/
def fSumC (p : Params K) : K := add (add (add (add (add p.A p.B) p.C) p.xi) p.eta) p.zeta

/-- `condition_check`, `niggli.f90:194-256`. -/
def fCheck (p : Params K) (eps : K) : Bool :=
  let zero : K := ofInt 0
  let two : K := ofInt 2
  -- ABS(x-y)<eps
  let near := fun x y : K => lt (abs (sub x y)) eps
  let small := fun x : K => lt (abs x) eps
  !(!(lt zero (sub p.A eps) && (lt p.A (sub p.B eps) || near p.A p.B) &&
      (lt p.B (sub p.C eps) || near p.B p.C))) &&
  !(near p.A p.B && !(lt (abs p.xi) (sub (abs p.eta) eps) || near (abs p.xi) (abs p.eta))) &&
  !(near p.B p.C && !(lt (abs p.eta) (sub (abs p.zeta) eps) || near (abs p.eta) (abs p.zeta))) &&
  !(!((lt zero (sub p.xi eps) && lt zero (sub p.eta eps) && lt zero (sub p.zeta eps)) ||
      ((lt p.xi zero || small p.xi) && (lt p.eta zero || small p.eta) &&
        (lt p.zeta zero || small p.zeta)))) &&
  !(!(lt (abs p.xi) (sub p.B eps) || near (abs p.xi) p.B)) &&
  !(!((lt (abs p.eta) (sub p.A eps) || near (abs p.eta) p.A) &&
      (lt (abs p.zeta) (sub p.A eps) || near (abs p.zeta) p.A))) &&
  !(!(lt p.C (sub (fSumC p) eps) || near p.C (fSumC p))) &&
  !(near p.xi p.B && !(lt p.zeta (sub (mul two p.eta) eps) || near p.zeta (mul two p.eta))) &&
  !(near p.eta p.A && !(lt p.zeta (sub (mul two p.xi) eps) || near p.zeta (mul two p.xi))) &&
  !(near p.zeta p.A && !(lt p.eta (sub (mul two p.xi) eps) || near p.eta (mul two p.xi))) &&
  !(small (add p.xi p.B) && !(small p.zeta)) &&
  !(small (add p.eta p.A) && !(small p.zeta)) &&
  !(small (add p.zeta p.A) && !(small p.eta)) &&
  !(near p.C (fSumC p) &&
    !(lt (add (add (mul two p.A) (mul two p.eta)) p.zeta) (neg eps) ||
      small (add (add (mul two p.A) (mul two p.eta)) p.zeta)))

/-- `reduce_cell`, `niggli.f90:27-176`: the matrix `trans` (the cell returned is `matmul(IN,trans)`), or
the message of the `stop`.  `equal` is the function of that name from the library
`numerical_utilities`, which is not part of the repository; it is called as `equal(vol,0,1e-6)`.
`determinant`, from the same library, is expanded along the first row. -/
def reduceCell (equal : K → K → K → Bool) (IN : RMat K) (eps_ : Option K) : Except FStop IMat :=
  let vol := rdet IN
  if equal vol (ofInt 0) (ofRat (1 / 1000000)) then .error .dependent
  else
    let eps := match eps_ with
      | some e => mul e (cbrt (abs vol))
      | none => mul (ofRat (1 / 100000)) (cbrt (abs vol))
    match fLoop IN eps 1001 0 ⟨⟨1, 0, 0, 0, 1, 0, 0, 0, 1⟩, fGetParams IN eps⟩ with
    | (s, count) =>
      if 1000 ≤ count then .error .iterations
      else if !fCheck s.p eps then .error .conditions
      else .ok s.trans

/-- `isclose(A,B,atol_=eps)`, `niggli.f90:783-808`: `abs(A-B) <= atol + rtol*abs(B)` with the default
`rtol = 1e-5`. -/
def fClose (eps a b : K) : Bool :=
  le (abs (sub a b)) (add eps (mul (ofRat (1 / 100000)) (abs b)))

/-- The first block of `id_cell`, `niggli.f90:483-534` (the lengths are the same). -/
def fStage1 (eps : K) (positive : Bool) (A B C D E F : K) : Option ℕ :=
  let close := fClose eps
  let two : K := ofInt 2
  let zero : K := ofInt 0
  if close A B && close B C then
    if positive then
      if close D E && close D F then
        if close (div A two) D then some 1 else some 2
      else none
    else
      if close D E && close D F then
        if close zero D then some 3
        else if close (div (neg A) (ofInt 3)) D then some 5
        else some 4
      else if close (mul two (abs (add (add D E) F))) (add A B) then
        if close D E then some 6
        else if close E F then some 7
        else some 8
      else none
  else none

/-- The second block of `id_cell`, `niggli.f90:536-592` (`A = B`; the test `id==(-1)` is in `idNum`). -/
def fStage2 (eps : K) (positive : Bool) (A B _C D E F : K) : Option ℕ :=
  let close := fClose eps
  let two : K := ofInt 2
  let zero : K := ofInt 0
  if close A B then
    if positive then
      if close D E && close D F && close (div A two) D then some 9
      else if close D E then some 10
      else none
    else
      if close D E && close D F && close zero D then some 11
      else if close D E then
        if close zero D && close (div (neg A) two) F then some 12
        else if close (div (neg A) two) D && close zero F then some 15
        else if close zero D then some 13
        else if close (mul two (abs (add (add D E) F))) (add A B) then some 16
        else some 14
      else if close (mul two (abs (add (add D E) F))) (add A B) then some 17
      else none
  else none

/-- The third block of `id_cell`, `niggli.f90:594-645` (`B = C`). -/
def fStage3 (eps : K) (positive : Bool) (A B C D E F : K) : Option ℕ :=
  let close := fClose eps
  let two : K := ofInt 2
  let zero : K := ofInt 0
  if close B C then
    if positive then
      if close E F then
        if close (div A (ofInt 4)) D && close (div A two) E then some 18
        else if close (div A two) E then some 19
        else some 20
      else none
    else
      if close E F then
        if close zero D && close zero E then some 21
        else if close (div (neg B) two) D && close zero E then some 22
        else if close zero E then some 23
        else if close (mul two (abs (add (add D E) F))) (add A B) && close (div (neg A) (ofInt 3)) E then
          some 24
        else some 25
      else none
  else none

/-- The last block of `id_cell`, `niggli.f90:647-767`.  It assigns `id` on every path. -/
def fStage4 (eps : K) (positive : Bool) (A B _C D E F : K) : ℕ :=
  let close := fClose eps
  -- `ABS(x-y) <= ABS(eps*y)`
  let rel := fun x y : K => le (abs (sub x y)) (abs (mul eps y))
  let two : K := ofInt 2
  let zero : K := ofInt 0
  if positive then
    if close E F then
      if rel (div A (ofInt 4)) D && rel (div A two) E then 26
      else if close (div A two) E then 27
      else 31
    else
      if close (div A two) E && close (mul two D) F then 28
      else if close (div A two) F && close (mul two D) E then 29
      else if close (div B two) D && close (mul two E) F then 30
      else 31
  else
    if close E F && close zero E then
      if close zero D then 32
      else if close D (div (neg B) two) then 40
      else 35
    else if close D F && close zero D then
      if close (div (neg A) two) E then 36 else 33
    else if close D E && close zero D then
      if rel (div (neg A) two) F then 38 else 34
    else
      if close (div (neg B) two) D && close (div (neg A) two) E && close zero F then 42
      else if close (div (neg B) two) D && close zero F then 41
      else if close (div (neg A) two) E && close zero F then 37
      else if close zero E && close (div (neg A) two) F then 39
      else if close (mul two (abs (add (add D E) F))) (add A B) && close (abs (add (mul two D) F)) B then 43
      else 44

/-- `id_cell` from the six scalar products on, `niggli.f90:477-767`: the value of `id`. -/
def idNum (eps A B C D E F : K) : ℕ :=
  let positive := lt (ofInt 0) (sub D eps) && lt (ofInt 0) (sub E eps) && lt (ofInt 0) (sub F eps)
  match fStage1 eps positive A B C D E F with
  | some k => k
  | none =>
    match fStage2 eps positive A B C D E F with
    | some k => k
    | none =>
      match fStage3 eps positive A B C D E F with
      | some k => k
      | none => fStage4 eps positive A B C D E F

/-- The value of `s_range` set next to `id = k`, `niggli.f90:487-763`. -/
def sRange (k : ℕ) : Option ℕ :=
  match k with
  | 1 => some 1
  | 2 => some 25
  | 3 => some 1
  | 4 => some 25
  | 5 => some 1
  | 6 => some 25
  | 7 => some 25
  | 8 => some 15
  | 9 => some 25
  | 10 => some 10
  | 11 => some 25
  | 12 => some 25
  | 13 => some 15
  | 14 => some 10
  | 15 => some 25
  | 16 => some 20
  | 17 => some 10
  | 18 => some 25
  | 19 => some 15
  | 20 => some 10
  | 21 => some 25
  | 22 => some 25
  | 23 => some 15
  | 24 => some 25
  | 25 => some 10
  | 26 => some 20
  | 27 => some 10
  | 28 => some 10
  | 29 => some 10
  | 30 => some 10
  | 31 => some 1
  | 32 => some 15
  | 33 => some 10
  | 34 => some 10
  | 35 => some 10
  | 36 => some 15
  | 37 => some 10
  | 38 => some 15
  | 39 => some 10
  | 40 => some 15
  | 41 => some 10
  | 42 => some 20
  | 43 => some 10
  | 44 => some 1
  | _ => none

/-- The matrix `O` set next to `id = k`, `niggli.f90:487-763`, with the decimal literals of the file
(`reshape` fills the columns).  For 31 and 44 it is `U`, the user's lattice: `none` here. -/
def fBasis (k : ℕ) : Option (RMat K) :=
  match k with
  | 1 => some (ofCols 0 1 1 1 0 1 1 1 0)
  | 2 => some (ofCols (-1.11652) (-0.610985) 0.616515 0 (-1.32288) (-0.5) 1 1.32288 1.5)
  | 3 => some (ofCols 1 0 0 0 1 0 0 0 1)
  | 4 => some (ofCols (-0.548584) 0.774292 1.04858 0 (-1.32288) 0.5 1 1.32288 0.5)
  | 5 => some (ofCols (-1) 1 1 1 (-1) 1 1 1 (-1))
  | 6 => some (ofCols 1.80278 (-1.47253) 0.762655 2.80278 0.13535 (-0.791285) 0.80278 (-0.47253) 2.762655)
  | 7 => some (ofCols 1.95095 1.19163 0.879663 0 2.60788 0.44606 0.95095 (-0.41625) 2.433603)
  | 8 => some (ofCols 1.41144 0.0885622 (-2) (-0.99868) 2.21232 1.268178 3.41012 (-1.1237578) (-1.268178))
  | 9 => some (ofCols 1 2 2 2 1 2 4 3 3)
  | 10 => some (ofCols 1 (-1) 1 (-1.46391) 0 1.96391 0 2 0)
  | 11 => some (ofCols 1 0 0 0 1 0 0 0 2)
  | 12 => some (ofCols 1 0 0 0.5 (-0.8660254037844386) 0 0 0 2)
  | 13 => some (ofCols 1 1 1 1 (-1) (-1) 0 (-1.73205) 1.73205)
  | 14 => some (ofCols (-1) 1 0 0.5 0 2 0 (-2) 0)
  | 15 => some (ofCols (-1) (-1) 2 0 (-2) 0 (-2) 0 0)
  | 16 => some (ofCols 1.04442 1.43973 1.68415 0.779796 (-1.1789) 1 1.779796 (-0.1789) 0)
  | 17 => some (ofCols (-1.05387) (-1.61088) 1.51474 (-0.244302) (-2.77045) 0.51474 1.809568 (-0.15957) 0)
  | 18 => some (ofCols (-2) (-1) 1 (-3) 1 0 (-1) (-3) 0)
  | 19 => some (ofCols 0.5 1 1.5 0 2 0 0 0 3)
  | 20 => some (ofCols 1 1 1 1.70119 (-1.45119) 1 0.69779 (-1.4322505) 3.23446)
  | 21 => some (ofCols 0 0 0.5 1 0 0 0 1 0)
  | 22 => some (ofCols 0 0 (-0.5) 1 0 0 (-0.5) 0.8660254037844386 0)
  | 23 => some (ofCols (-0.3333333) (-1.54116) 1.87449 1 1 1 2 (-1) (-1))
  | 24 => some (ofCols (-0.255922) (-1.44338) 0.92259 1.51184 0 (-0.845178) 1.255922 1.44338 0.07741)
  | 25 => some (ofCols 1 1 1 1.45119 (-1.70119) (-1) 0.28878 (-3.26895) 0.48018)
  | 26 => some (ofCols 0 1 1.5 0.5 0 1.5 0 0 3)
  | 27 => some (ofCols (-1.464824) 0.464824 1.907413 (-0.153209) 0.153209 (-2.907413) 1 1 0)
  | 28 => some (ofCols (-1.44896) 0.948958 (-1) (-1) (-1) 0 0.342424 (-1.342424) (-2.02006))
  | 29 => some (ofCols (-0.666125) 1.16613 2.04852 1 1 0 1.61803 (-0.618034) 1)
  | 30 => some (ofCols 1 1 0 1.61803 (-0.618034) 1 (-0.0361373) 0.536137 2.38982)
  | 32 => some (ofCols 1 0 0 0 2 0 0 0 3)
  | 33 => some (ofCols 2 0 0 0 2 0 0.5 0 2)
  | 34 => some (ofCols 1 1 1 1.22474487 (-1.22474487) (-1) (-0.16598509) (-1.64308297) 1.80906806)
  | 35 => some (ofCols (-0.668912) 1.96676 (-1.29785) 1.61803 (-0.618034) (-1) 1 1 1)
  | 36 => some (ofCols 1 1 1 1.41421 (-1.41421) 0 (-1.43541) (-1.43541) 1.37083)
  | 37 => some (ofCols (-1.79092) (-1.47209) 0.790922 1 (-1.41421) (-1) 1 0 1)
  | 38 => some (ofCols 0.5 1 0 0.5 (-1) 0 0 0 3)
  | 39 => some (ofCols 0 (-1.73205) (-1) (-1.66542) (-0.672857) 1.66542 1 0 1)
  | 40 => some (ofCols 1 1 1 1.61803 (-0.618034) (-1) (-1.05557) 1.99895 (-0.943376))
  | 41 => some (ofCols (-1.85397) (-0.854143) 1.35397 1 0 1 1 (-1.41421) (-1))
  | 42 => some (ofCols (-1.53633) 1.36706 (-1.33073) 1 1 1 1.61803 (-0.61803) (-1))
  | 43 => some (ofCols (-0.39716) (-0.34718) 2.49434 2.64194 (-0.14194) 0 (-1.39716) (-1.34718) 1.49434)
  | _ => none

/-- The integer results of `id_cell`. -/
structure IdCell where
  Cu : IMat
  Co : IMat
  id : ℕ
  s_range : Option ℕ
  deriving DecidableEq, Repr

/-- `id_cell`, `niggli.f90:446-778`: `Cu`, `Co`, `id` and `s_range`.  (`Nu`, `O` and `No` are
`matmul(U,Cu)`, `fBasis id` and `matmul(O,Co)`.)  Both reductions use the tolerance of the caller. -/
def idCell (equal : K → K → K → Bool) (U : RMat K) (eps_ : Option K) : Except FStop IdCell :=
  let eps := match eps_ with
    | some e => e
    | none => ofRat (1 / 100000)
  match reduceCell equal U (some eps) with
  | .error e => .error e
  | .ok Cu =>
    let Nu := matmulI U Cu
    let A := dot (fCol Nu 1) (fCol Nu 1)
    let B := dot (fCol Nu 2) (fCol Nu 2)
    let C := dot (fCol Nu 3) (fCol Nu 3)
    let D := dot (fCol Nu 2) (fCol Nu 3)
    let E := dot (fCol Nu 1) (fCol Nu 3)
    let F := dot (fCol Nu 1) (fCol Nu 2)
    let id := idNum eps A B C D E F
    let O := (fBasis id : Option (RMat K)).getD U
    match reduceCell equal O (some eps) with
    | .error e => .error e
    | .ok Co => .ok { Cu := Cu, Co := Co, id := id, s_range := sRange id }

end AutoGR
