import Verif.Spec.Inputs
import Mathlib.Algebra.Order.Field.Rat

/-!
# Model of list-directed reading of numbers

`read(unit,*) x` for one or three real numbers or an integer, from one line: `control_file.f90:31,33,44` (POSCAR),
`:141-177` (KPGEN) and `:247` (numbers of atoms).  This is the behaviour of the Fortran system (Fortran 2008, 10.6.1
and 10.10.3), not of code in the repository.

Simplifications: repeat counts (`3*0`), null values (`1,,2`) and the slash, which leave variables as they are, are
taken as errors; so are `Inf` and `NaN`; a value that is left out is not looked for in the next line; numbers too large
for the type of the variable are an error for integers, and for real numbers are not treated (`fl` rounds).
-/

namespace AutoGR.Fortran

open Spec

/-- Blanks between values, in each `read(…,*)` (`control_file.f90:31`). -/
def isBlank (c : Char) : Bool := c == ' ' || c == '\t'

/-- What ends a value, in each `read(…,*)` (`control_file.f90:31`). -/
def endsValue (c : Char) : Bool := isBlank c || c == ',' || c == '/' || c == ';'

/-- The next value and the rest of the line (`control_file.f90:31`). -/
def nextValue (l : List Char) : List Char × List Char :=
  let l := l.dropWhile isBlank
  (l.takeWhile fun c => !endsValue c, l.dropWhile fun c => !endsValue c)

/-- Blanks and at most one comma are skipped between values (`control_file.f90:33`). -/
def afterValue (l : List Char) : List Char :=
  match l.dropWhile isBlank with
  | ',' :: t => t
  | t => t

/-- The sign of a number, in each `read(…,*)` (`control_file.f90:31`). -/
def splitSign : List Char → ℤ × List Char
  | '+' :: t => (1, t)
  | '-' :: t => (-1, t)
  | t => (1, t)

/-- The digits read from left to right, in each `read(…,*)` (`control_file.f90:31`). -/
def readDigits (ds : List Char) : ℕ := ds.foldl (fun n c => 10 * n + (c.toNat - 48)) 0

/-- An integer (`control_file.f90:144`, `155`, `247`). -/
def parseInt (w : List Char) : Option ℤ :=
  let t := splitSign w
  if t.2 ≠ [] ∧ t.2.all Char.isDigit then some (t.1 * readDigits t.2) else none

/-- The exponent of a real number; the letter may be left out before a sign (`control_file.f90:31`). -/
def parseExp : List Char → Option ℤ
  | [] => some 0
  | c :: t =>
    if c ∈ ['e', 'E', 'd', 'D'] then parseInt t
    else if c = '+' ∨ c = '-' then parseInt (c :: t)
    else none

/-- The digits after the decimal point and the rest (`control_file.f90:31`). -/
def splitPoint : List Char → List Char × List Char
  | '.' :: u => (u.takeWhile Char.isDigit, u.dropWhile Char.isDigit)
  | u => ([], u)

/-- A real number (`control_file.f90:31`, `33`, `44`, `141`, `147`, `151`, `159`, `177`), before it is rounded. -/
def parseReal (w : List Char) : Option ℚ :=
  let t := splitSign w
  let i := t.2.takeWhile Char.isDigit
  let fx := splitPoint (t.2.dropWhile Char.isDigit)
  if i = [] ∧ fx.1 = [] then none
  else
    match parseExp fx.2 with
    | none => none
    | some e => some (t.1 * readDigits (i ++ fx.1) * (10 : ℚ) ^ (e - fx.1.length))

/-- `n` real numbers, `read(1,*) lattice(:,i)` (`control_file.f90:33`, `44`, `141`). -/
def readReals : ℕ → List Char → Option (List ℚ)
  | 0, _ => some []
  | n + 1, l =>
    match parseReal (nextValue l).1 with
    | none => none
    | some q => (readReals n (afterValue (nextValue l).2)).map (q :: ·)

/-- List-directed reading from a line; real numbers are rounded with `fl`.  `int`: `control_file.f90:144`, `155`, `247`;
`real`: `:31`, `147`, `151`, `159`, `177`; `real3`: `:33`, `44`, `141`. -/
def listReader (fl : ℚ → ℚ) : Reader where
  int l :=
    match parseInt (nextValue l).1 with
    | some z => if -2 ^ 31 ≤ z ∧ z < 2 ^ 31 then some z else none
    | none => none
  real l :=
    match readReals 1 l with
    | some [a] => some (fl a)
    | _ => none
  real3 l :=
    match readReals 3 l with
    | some [a, b, c] => some (fl a, fl b, fl c)
    | _ => none

end AutoGR.Fortran
