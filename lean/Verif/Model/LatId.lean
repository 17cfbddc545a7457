import Verif.Model.Niggli

/-!
# `niggli_lat_id.py`: identifying the Niggli class of a reduced cell
-/

namespace AutoGR

open Arith

variable {K : Type} [Arith K]

/-- `np.transpose([[a0,a1,a2],[b0,b1,b2],[c0,c1,c2]])` (for instance `niggli_lat_id.py:72`): the three
rows become the columns.  The entries are decimal literals. -/
def ofCols (a0 a1 a2 b0 b1 b2 c0 c1 c2 : ℚ) : RMat K where
  m00 := ofRat a0
  m01 := ofRat b0
  m02 := ofRat c0
  m10 := ofRat a1
  m11 := ofRat b1
  m12 := ofRat c1
  m20 := ofRat a2
  m21 := ofRat b2
  m22 := ofRat c2

/-- The value of `basis` set next to `niggli_num = k`, `niggli_lat_id.py:64-337`.  Each number is
assigned in one place in the file, together with its basis.  The triclinic classes 31 and 44 have
`basis = None` (lines 256 and 337). -/
def canonBasis (k : ℕ) : Option (RMat K) :=
  match k with
  | 1 => some (ofCols 0 1 1 1 0 1 1 1 0)
  | 2 => some (ofCols (-1.11652) (-0.610985) 0.616515 0 (-1.32288) (-0.5) 1 1.32288 1.5)
  | 3 => some (ofCols 1 0 0 0 1 0 0 0 1)
  | 4 => some (ofCols (-0.548584) 0.774292 1.04858 0 (-1.32288) 0.5 1 1.32288 0.5)
  | 5 => some (ofCols (-1) 1 1 1 (-1) 1 1 1 (-1))
  | 6 => some (ofCols 1.80278 (-1.47253) 0.762655 2.80278 0.13535 (-0.791285) 0.80278 (-0.47253) 2.762655)
  | 7 => some (ofCols 1.95095 1.19163 0.879663 0 2.60788 0.44606 0.95095 (-0.41625) 2.433603)
  | 8 => some (ofCols 1.41144 0.0885622 (-2) (-0.99868) 2.21232 1.268178 3.41012 (-1.1237578) (-1.268178))
  | 9 => some (ofCols 1 2 2 2 1 2 4 3 3)
  | 10 => some (ofCols 1 (-1) 1 (-1.46391) 0 1.96391 0 2 0)
  | 11 => some (ofCols 1 0 0 0 1 0 0 0 2)
  | 12 => some (ofCols 1 0 0 0.5 (-0.8660254037844386) 0 0 0 2)
  | 13 => some (ofCols 1 1 1 1 (-1) (-1) 0 (-1.73205) 1.73205)
  | 14 => some (ofCols (-1) 1 0 0.5 0 2 0 (-2) 0)
  | 15 => some (ofCols (-1) (-1) 2 0 (-2) 0 (-2) 0 0)
  | 16 => some (ofCols 1.04442 1.43973 1.68415 0.779796 (-1.1798) 1 1.779796 (-0.1798) 0)
  | 17 => some (ofCols (-1.05387) (-1.61088) 1.51474 (-0.244302) (-2.77045) 0.51474 1.809568 (-0.15957) 0)
  | 18 => some (ofCols (-2) (-1) 1 (-3) 1 0 (-1) (-3) 0)
  | 19 => some (ofCols 0.5 1 1.5 0 2 0 0 0 3)
  | 20 => some (ofCols 1 1 1 1.70119 (-1.45119) 1 0.69779 (-1.4322505) 3.23446)
  | 21 => some (ofCols 0 0 0.5 1 0 0 0 1 0)
  | 22 => some (ofCols 0 0 (-0.5) 1 0 0 (-0.5) 0.8660254037844386 0)
  | 23 => some (ofCols (-0.3333333) (-1.54116) 1.87449 1 1 1 2 (-1) (-1))
  | 24 => some (ofCols (-0.255922) (-1.44338) 0.92259 1.51184 0 (-0.845178) 1.255922 1.44338 0.07741)
  | 25 => some (ofCols 1 1 1 1.45119 (-1.70119) (-1) 0.28878 (-3.26895) 0.48018)
  | 26 => some (ofCols 0 1 1.5 0.5 0 1.5 0 0 3)
  | 27 => some (ofCols (-1.464824) 0.464824 1.907413 (-0.153209) 0.153209 (-2.907413) 1 1 0)
  | 28 => some (ofCols (-1.44896) 0.948958 (-1) (-1) (-1) 0 0.342424 (-1.342424) (-2.02006))
  | 29 => some (ofCols (-0.666125) 1.16613 2.04852 1 1 0 1.61803 (-0.618034) 1)
  | 30 => some (ofCols 1 1 0 1.61803 (-0.618034) 1 (-0.0361373) 0.536137 2.38982)
  | 32 => some (ofCols 1 0 0 0 2 0 0 0 3)
  | 33 => some (ofCols 2 0 0 0 2 0 0.5 0 2)
  | 34 => some (ofCols 1 1 1 1.22474487 (-1.22474487) (-1) (-0.16598509) (-1.64308297) 1.80906806)
  | 35 => some (ofCols (-0.668912) 1.96676 (-1.29785) 1.61803 (-0.618034) (-1) 1 1 1)
  | 36 => some (ofCols 1 1 1 1.41421 (-1.41421) 0 (-1.43541) (-1.43541) 1.37083)
  | 37 => some (ofCols (-1.79092) (-1.47209) 0.790922 1 (-1.41421) (-1) 1 0 1)
  | 38 => some (ofCols 0.5 1 0 0.5 (-1) 0 0 0 3)
  | 39 => some (ofCols 0 (-1.73205) (-1) (-1.66542) (-0.672857) 1.66542 1 0 1)
  | 40 => some (ofCols 1 1 1 1.61803 (-0.618034) (-1) (-1.05557) 1.99895 (-0.943376))
  | 41 => some (ofCols (-1.85397) (-0.854143) 1.35397 1 0 1 1 (-1.41421) (-1))
  | 42 => some (ofCols (-1.53633) 1.36706 (-1.33073) 1 1 1 1.61803 (-0.61803) (-1))
  | 43 => some (ofCols (-0.39716) (-0.34718) 2.49434 2.64194 (-0.14194) 0 (-1.39716) (-1.34718) 1.49434)
  | _ => none

/-- The value of `lat_fam` set next to `niggli_num = k`, `niggli_lat_id.py:64-337`: 1 cubic,
2 hexagonal, 3 rhombohedral, 4 tetragonal, 5 orthorhombic, 6 monoclinic, 7 triclinic
(`niggli_lat_id.py:7-9`). -/
def latFam (k : ℕ) : Option ℕ :=
  match k with
  | 1 => some 1
  | 2 => some 3
  | 3 => some 1
  | 4 => some 3
  | 5 => some 1
  | 6 => some 4
  | 7 => some 4
  | 8 => some 5
  | 9 => some 3
  | 10 => some 6
  | 11 => some 4
  | 12 => some 2
  | 13 => some 5
  | 14 => some 6
  | 15 => some 4
  | 16 => some 5
  | 17 => some 6
  | 18 => some 4
  | 19 => some 5
  | 20 => some 6
  | 21 => some 4
  | 22 => some 2
  | 23 => some 5
  | 24 => some 3
  | 25 => some 6
  | 26 => some 5
  | 27 => some 6
  | 28 => some 6
  | 29 => some 6
  | 30 => some 6
  | 31 => some 7
  | 32 => some 5
  | 33 => some 6
  | 34 => some 6
  | 35 => some 6
  | 36 => some 5
  | 37 => some 6
  | 38 => some 5
  | 39 => some 6
  | 40 => some 5
  | 41 => some 6
  | 42 => some 5
  | 43 => some 6
  | 44 => some 7
  | _ => none

/-- The value of `lat_type` set next to `niggli_num = k`, `niggli_lat_id.py:64-337` (with the spelling
of the file). -/
def latType (k : ℕ) : Option String :=
  match k with
  | 1 => some "face centered cubic"
  | 2 => some "rhombohedral"
  | 3 => some "simple cubic"
  | 4 => some "rhombohedral"
  | 5 => some "body centered cubic"
  | 6 => some "body centered tetragonal"
  | 7 => some "body centered tetragonal"
  | 8 => some "body centered orthorhombic"
  | 9 => some "rhombohedral"
  | 10 => some "base centered monoclinic"
  | 11 => some "simple tetragonal"
  | 12 => some "hexagonal"
  | 13 => some "base centered orthorhombic"
  | 14 => some "base centered monoclinic"
  | 15 => some "body centered tetragonal"
  | 16 => some "face centered orthorhombic"
  | 17 => some "base centered monoclinic"
  | 18 => some "body centered tetragonal"
  | 19 => some "body centered orthorhombic"
  | 20 => some "base centered monoclinic"
  | 21 => some "simple tetragonal"
  | 22 => some "hexagonal"
  | 23 => some "base centered orthorhombic"
  | 24 => some "rhombohedral"
  | 25 => some "base centered monoclinic"
  | 26 => some "face centered orthorhombic"
  | 27 => some "base centered monoclinic"
  | 28 => some "base centered monoclinic"
  | 29 => some "base centered monoclinic"
  | 30 => some "base centered monoclinic"
  | 31 => some "triclinic"
  | 32 => some "simple orthorhombic"
  | 33 => some "simple monoclinic"
  | 34 => some "simple monoclinic"
  | 35 => some "simple monoclinic"
  | 36 => some "base centered orthorhombic"
  | 37 => some "base centered monoclinic"
  | 38 => some "base centered orthorhombic"
  | 39 => some "base centered monoclinic"
  | 40 => some "base centered orthorhombic"
  | 41 => some "base centered monoclinic"
  | 42 => some "body centered orthorhombic"
  | 43 => some "body centered monoclinc"
  | 44 => some "triclinic"
  | _ => none

/-- Stage 1 of the class search, `niggli_lat_id.py:60` onwards. -/
def idStage1 (eps : K) (positive : Bool) (A B C D E F : K) : Option ℕ :=
  let close := allclose eps
  let two : K := ofInt 2
  let zero : K := ofInt 0
  if close A B && close B C then
    if positive then
      if close D E && close D F then
        if close (div A two) D && close (div A two) E && close (div A two) F then
          some 1
        else
          some 2
      else none
    else
      if close D E && close D F then
        if close zero D then
          some 3
        else if close (div (neg A) (ofInt 3)) D then
          some 5
        else
          some 4
      else if close (mul two (abs (add (add D E) F))) (add A B) then
        if close D E then
          some 6
        else if close E F then
          some 7
        else
          some 8
      else none
  else none

/-- Stage 2 of the class search, `niggli_lat_id.py:114` onwards (the test
`niggli_num is None` is in `niggliNum`). -/
def idStage2 (eps : K) (positive : Bool) (A B _C D E F : K) : Option ℕ :=
  let close := allclose eps
  let two : K := ofInt 2
  let zero : K := ofInt 0
  if close A B then
    if positive then
      if close D E && close D F && close (div A two) D then
        some 9
      else if close D E then
        some 10
      else none
    else
      if close D E && close D F && close D zero then
        some 11
      else if close D E then
        if close D zero && close (div (neg A) two) F then
          some 12
        else if close D (div (neg A) two) && close F zero then
          some 15
        else if close D zero then
          some 13
        else if close (mul two (abs (add (add D E) F))) (add A B) then
          some 16
        else
          some 14
      else if close (mul two (abs (add (add D E) F))) (add A B) then
        some 17
      else none
  else none

/-- Stage 3 of the class search, `niggli_lat_id.py:169` onwards (the test
`niggli_num is None` is in `niggliNum`). -/
def idStage3 (eps : K) (positive : Bool) (A B C D E F : K) : Option ℕ :=
  let close := allclose eps
  let two : K := ofInt 2
  let zero : K := ofInt 0
  if close B C then
    if positive then
      if close E F then
        if close (div A (ofInt 4)) D && close (div A two) E then
          some 18
        else if close (div A two) E then
          some 19
        else
          some 20
      else none
    else
      if close E F then
        if close D zero && close E zero then
          some 21
        else if close D (div (neg B) two) && close E zero then
          some 22
        else if close E zero then
          some 23
        else if close (mul two (abs (add (add D E) F))) (add A B) && close E (div (neg A) (ofInt 3)) then
          some 24
        else
          some 25
      else none
  else none

/-- Stage 4 of the class search, `niggli_lat_id.py:220` onwards (the test
`niggli_num is None` is in `niggliNum`). -/
def idStage4 (eps : K) (positive : Bool) (A B _C D E F : K) : Option ℕ :=
  let close := allclose eps
  let two : K := ofInt 2
  let zero : K := ofInt 0
  if positive then
    if close E F then
      if close D (div A (ofInt 4)) && close (div A two) E then
        some 26
      else if close (div A two) E then
        some 27
      else none
    else
      if close E (div A two) && close F (mul two D) then
        some 28
      else if close F (div A two) && close E (mul two D) then
        some 29
      else if close D (div B two) && close F (mul two E) then
        some 30
      else
        some 31
  else
    if close E F && close E zero then
      if close D zero then
        some 32
      else if close D (div (neg B) two) then
        some 40
      else
        some 35
    else if close D F && close D zero then
      if close E (div (neg A) two) then
        some 36
      else
        some 33
    else if close D E && close D zero then
      if close F (div (neg A) two) then
        some 38
      else
        some 34
    else
      if close (div (neg B) two) D && close (div (neg A) two) E && close F zero then
        some 42
      else if close (div (neg B) two) D && close F zero then
        some 41
      else if close E (div (neg A) two) && close F zero then
        some 37
      else if close E zero && close F (div (neg A) two) then
        some 39
      else if close (mul two (abs (add (add D E) F))) (add A B) && close (abs (add (mul two D) F)) B then
        some 43
      else
        some 44

/-- The flag `positive`, `niggli_lat_id.py:55-57`. -/
def idPositive (eps D E F : K) : Bool :=
  lt (ofInt 0) (sub D eps) && lt (ofInt 0) (sub E eps) && lt (ofInt 0) (sub F eps)

/-- `niggli_id` from the six scalar products on, `niggli_lat_id.py:55-339`: the value of `niggli_num`.
If no branch is taken, `lat_type` was never assigned and the `return` raises `UnboundLocalError`. -/
def niggliNum (eps A B C D E F : K) : Except PyErr ℕ :=
  let positive := idPositive eps D E F
  match idStage1 eps positive A B C D E F with
  | some k => .ok k
  | none =>
    match idStage2 eps positive A B C D E F with
    | some k => .ok k
    | none =>
      match idStage3 eps positive A B C D E F with
      | some k => .ok k
      | none =>
        match idStage4 eps positive A B C D E F with
        | some k => .ok k
        | none => .error .unboundLocal

/-- The six scalar products of the reduced cell, `niggli_lat_id.py:37-46`, with `niggli = lattice * C`
(`pyniggli.py:76`). -/
def cellMetric (lattice : RMat K) (C : IMat) : K × K × K × K × K × K :=
  let a := dotInt lattice C.m00 C.m10 C.m20
  let b := dotInt lattice C.m01 C.m11 C.m21
  let c := dotInt lattice C.m02 C.m12 C.m22
  (dot a a, dot b b, dot c c, dot b c, dot a c, dot a b)

/-- `niggli_id(lattice,eps_)`, `niggli_lat_id.py:6-339` with `G=None`: the value of `niggli_num`; the
other three results are `latType`, `latFam` and `canonBasis` of it.  `eps` is the optional argument
`eps_`. -/
def niggliId (lattice : RMat K) (eps : Option K) : Except PyErr ℕ :=
  match reducedCell lattice eps with
  | .error e => .error e
  | .ok C =>
    match cellMetric lattice C with
    | (A, B, C, D, E, F) =>
      niggliNum (match eps with | none => ofRat (1 / 100000) | some e => e) A B C D E F

/-- `Bo = reduced_cell(basis)`, `Co = Bo.C` for the canonical basis of class `k`
(`universal.py:86-88`).  For the triclinic classes
`basis` is the user's own lattice (`universal.py:83-84`), not covered here. -/
def reducedCanonical (K : Type) [Arith K] (k : ℕ) : Except PyErr IMat :=
  match (canonBasis k : Option (RMat K)) with
  | some B => reducedCell B none
  | none => .error .attributeError

/-- The results of `reducedCanonical ℚ`, as a table (`universal.py:86-88`).  That the reduction returns
this is proved in `Verif/Lemmas/Canonical.lean`. -/
def canonC (k : ℕ) : IMat :=
  match k with
  | 1 => ⟨1, 0, 0, 0, 1, 0, 0, 0, 1⟩
  | 2 => ⟨0, 1, 0, 1, 0, -1, 0, 0, -1⟩
  | 3 => ⟨1, 0, 0, 0, 1, 0, 0, 0, 1⟩
  | 4 => ⟨-1, 0, 0, 0, -1, 1, 0, 0, 1⟩
  | 5 => ⟨1, 0, 0, 0, 1, 0, 0, 0, 1⟩
  | 6 => ⟨1, 1, -1, 0, -1, 1, 0, -1, 0⟩
  | 7 => ⟨1, -1, -1, 0, 0, 1, -1, 0, 1⟩
  | 8 => ⟨-1, 1, 1, -1, 0, 0, 0, -1, 0⟩
  | 9 => ⟨1, 1, 1, -1, 1, 0, 0, -1, 0⟩
  | 10 => ⟨-1, -1, 0, 0, 0, -1, 0, -1, 0⟩
  | 11 => ⟨1, 0, 0, 0, 1, 0, 0, 0, 1⟩
  | 12 => ⟨1, 0, 0, 0, -1, 0, 0, 0, -1⟩
  | 13 => ⟨1, 0, 0, 0, 1, 0, 0, 0, 1⟩
  | 14 => ⟨-1, -1, 0, 0, 0, -1, 0, -1, 0⟩
  | 15 => ⟨0, 0, 1, -1, 0, 0, 0, -1, 0⟩
  | 16 => ⟨0, 0, 1, -1, 1, 0, 0, -1, 0⟩
  | 17 => ⟨1, -1, 1, -1, 1, 0, 0, -1, 1⟩
  | 18 => ⟨-2, -1, -1, 1, 0, 0, 1, 0, 1⟩
  | 19 => ⟨2, 1, 1, -1, -1, 0, -1, -1, -1⟩
  | 20 => ⟨1, 0, 0, 0, 1, -1, 0, 0, 1⟩
  | 21 => ⟨1, 0, 0, 0, 1, 0, 0, 0, 1⟩
  | 22 => ⟨1, 0, 0, 0, 1, 0, 0, 0, 1⟩
  | 23 => ⟨0, -1, 0, -1, 0, 0, 0, 0, -1⟩
  | 24 => ⟨-1, 0, 1, 0, 1, 0, -1, 0, 0⟩
  | 25 => ⟨1, 0, 0, 0, 1, -1, 0, 0, 1⟩
  | 26 => ⟨0, -1, 0, -2, -1, -1, 1, 1, 0⟩
  | 27 => ⟨0, 1, 1, 0, 1, 0, -1, 0, 0⟩
  | 28 => ⟨0, -1, 0, -1, 0, 0, 0, 0, -1⟩
  | 29 => ⟨0, 0, 1, 1, 0, 0, 0, 1, 0⟩
  | 30 => ⟨1, 0, 0, 0, 1, 0, 0, 0, 1⟩
  | 32 => ⟨1, 0, 0, 0, 1, 0, 0, 0, 1⟩
  | 33 => ⟨1, 0, 0, 0, -1, 0, 0, 0, -1⟩
  | 34 => ⟨1, 0, 0, 0, 1, 0, 0, 0, 1⟩
  | 35 => ⟨0, 0, -1, 0, -1, 0, -1, 0, 0⟩
  | 36 => ⟨1, 0, 0, 0, 1, 0, 0, 0, 1⟩
  | 37 => ⟨0, 0, -1, 0, -1, 0, -1, 0, 0⟩
  | 38 => ⟨-1, 1, 0, -1, 0, 0, 0, 0, 1⟩
  | 39 => ⟨0, 1, 0, 0, 0, 1, 1, 0, 0⟩
  | 40 => ⟨1, 0, 0, 0, 1, 0, 0, 0, 1⟩
  | 41 => ⟨0, 0, 1, 1, 0, 0, 0, 1, 0⟩
  | 42 => ⟨0, 0, 1, 1, 0, 0, 0, 1, 0⟩
  | 43 => ⟨1, -1, 0, 0, 1, 0, -1, 1, 1⟩
  | _ => IMat.one

end AutoGR
