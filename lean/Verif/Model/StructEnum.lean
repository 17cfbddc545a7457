import Verif.Model.ListRead
import Verif.Model.BruteForce

/-!
# Model of `io_utils.f90`: the input file of the brute force program

`read_input` and `co_ca` of `/repo/support/brute_force/io_utils.f90`, and `driver.f90` from its input file.

Numbers are read as in `Model/ListRead`, with its simplifications; in particular a value that is missing in a line is not
looked for in the next one.  Words in quotation marks, which list-directed reading takes without the marks, are not treated.
What is written to the screen and to `readcheck_enum.out` is left out.
-/

namespace AutoGR.Brute

open Fortran (nextValue afterValue parseInt parseReal readReals)

/-- How reading the file can stop. -/
inductive EnumStop
  /-- an error of the Fortran system: end of the file, not a number, a substring out of bounds -/
  | runtime
  /-- `io_utils.f90:96-97`, "The labels for each d-vectors should be formated as …" -/
  | labelFormat
  /-- `:102-103`, "Incorrect number for a label" -/
  | labelValue
  /-- `:117`, "Not all of the labels were used" -/
  | labelUnused
  /-- `:124`, "Label … appears more than once" -/
  | labelTwice
  /-- `:152-154`, 'For "surf" setting, …' -/
  | surface
  /-- `:156`, 'Specify "surf" or "bulk" in input file' -/
  | kind
  /-- `:160`, 'Specify "full" or "part" in the input file' -/
  | mode
  /-- `:201`, "ERROR: negative input on concentrations" -/
  | negative
  /-- `:204`, "ERROR: Numerator is larger than denominator." -/
  | numerator
  deriving DecidableEq, Repr

/-- A statement that reads from unit 10: the lines that are left go in, a value and the lines that are then left come
out (`io_utils.f90:53`). -/
def Rd (α : Type) := List (List Char) → Except EnumStop (α × List (List Char))

/-- One statement after the other (`io_utils.f90:55-179`). -/
instance : Monad Rd where
  pure a := fun f => .ok (a, f)
  bind m k := fun f =>
    match m f with
    | .ok (a, f') => k a f'
    | .error e => .error e

/-- `stop` (`io_utils.f90:96`). -/
def stop {α : Type} (e : EnumStop) : Rd α := fun _ => .error e

/-- Whether `co_ca` goes on to the next line, `io_utils.f90:228-246`: the first 50 characters are blank, or blank up
to a `#`. -/
def commentLine (line : List Char) : Bool :=
  let phrase := line.take 50
  if phrase.any (· != ' ') then
    if phrase.contains '#' then
      if phrase.head? == some '#' then true else !(phrase.takeWhile (· != '#')).any (· != ' ')
    else false
  else true

/-- `call co_ca(10,err)` and then a `read` of one line, without its conversion (`io_utils.f90:55-56`); `none` at the
end of the file. -/
def nextLine? : Rd (Option (List Char)) := fun f =>
  match f.dropWhile commentLine with
  | [] => .ok (none, [])
  | l :: t => .ok (some l, t)

/-- `call co_ca(10,err)` and `read` without `iostat` (`io_utils.f90:55-56`). -/
def nextLine : Rd (List Char) := do
  match ← nextLine? with
  | some l => pure l
  | none => stop .runtime

/-- `backspace(10)`, `io_utils.f90:137`, where the line before was `l`. -/
def backspace (l : List Char) : Rd Unit := fun f => .ok ((), l :: f)

/-- The value of a conversion, or an error of the Fortran system (`io_utils.f90:63`). -/
def orStop {α : Type} : Option α → Rd α
  | some a => pure a
  | none => stop .runtime

/-- `n` integers in a line, for instance `read(10,*) Nmin, Nmax` (`io_utils.f90:140`). -/
def readInts : ℕ → List Char → Option (List ℤ)
  | 0, _ => some []
  | n + 1, l =>
    match parseInt (nextValue l).1 with
    | none => none
    | some z =>
      if -2 ^ 31 ≤ z ∧ z < 2 ^ 31 then (readInts n (afterValue (nextValue l).2)).map (z :: ·) else none

/-- `read(10,*) pLV(:,1)`, `io_utils.f90:63`. -/
def real3 (fl : ℚ → ℚ) (l : List Char) : Option (ℚ × ℚ × ℚ) :=
  match readReals 3 l with
  | some [a, b, c] => some (fl a, fl b, fl c)
  | _ => none

/-- `read(10,*) k`, `io_utils.f90:70`. -/
def int1 (l : List Char) : Option ℤ :=
  match readInts 1 l with
  | some [z] => some z
  | _ => none

/-- `read(10,*) Nmin, Nmax`, `io_utils.f90:140`. -/
def int2 (l : List Char) : Option (ℤ × ℤ) :=
  match readInts 2 l with
  | some [a, b] => some (a, b)
  | _ => none

/-- `read(10,*) eps`, `io_utils.f90:143`. -/
def real1 (fl : ℚ → ℚ) (l : List Char) : Option ℚ :=
  match readReals 1 l with
  | some [a] => some (fl a)
  | _ => none

/-- `read(10,*,iostat=status) cRange(i,:)`, `io_utils.f90:167`. -/
def int3 (l : List Char) : Option (ℤ × ℤ × ℤ) :=
  match readInts 3 l with
  | some [a, b, c] => some (a, b, c)
  | _ => none

/-- A character variable of length `n` that is given the value `l` (`io_utils.f90:47`). -/
def fit (n : ℕ) (l : List Char) : List Char := (l ++ List.replicate n ' ').take n

/-- `adjustl`, `io_utils.f90:82`. -/
def adjustl (l : List Char) : List Char := fit l.length (l.dropWhile (· == ' '))

/-- `trim`, `io_utils.f90:92`. -/
def trim (l : List Char) : List Char := (l.reverse.dropWhile (· == ' ')).reverse

/-- One pass of the loop over the coordinates, `io_utils.f90:84-85`: the coordinate and the new value of `line`.  Without a
blank in `line` the substring begins at 0: an error. -/
def coordinate (fl : ℚ → ℚ) (line : List Char) : Option (ℚ × List Char) :=
  match parseReal (nextValue line).1 with
  | none => none
  | some x =>
    if ' ' ∈ line then some (fl x, fit 100 (adjustl (line.dropWhile (· != ' ')))) else none

/-- The `read` of a label, `io_utils.f90:98`.  Before a slash or a comma there may be no value: the variable keeps the
value -1. -/
def readLabel (line : List Char) : Option ℤ :=
  match nextValue line with
  | ([], '/' :: _) => some (-1)
  | ([], ',' :: _) => some (-1)
  | (v, _) =>
    match parseInt v with
    | some z => if -2 ^ 31 ≤ z ∧ z < 2 ^ 31 then some z else none
    | none => none

/-- The loop over the labels, `io_utils.f90:94-108`: the labels and the value of `i` after the loop.  The first argument
after `k` is the number of passes left. -/
def labelLoop (k : ℤ) : ℕ → ℕ → List Char → Except EnumStop (List ℤ × ℕ)
  | 0, i, _ => .ok ([], i)
  | left + 1, i, line =>
    if '/' ∉ line then .error .labelFormat
    else
      match readLabel line with
      | none => .error .runtime
      | some z =>
        if k - 1 < z ∨ z < 0 then .error .labelValue
        else
          let line := fit 100 (adjustl ((line.dropWhile (· != '/')).drop 1))
          if line.all (· == ' ') then .ok ([z], i)
          else
            match labelLoop k left (i + 1) line with
            | .error e => .error e
            | .ok (zs, j) => .ok (z :: zs, j)

/-- A site: `d(:,iD)`, the labels in `label(:,iD)`, and `digit(iD)` (`io_utils.f90:75`). -/
structure Site where
  d : ℚ × ℚ × ℚ
  labels : List ℤ
  digit : ℕ
  deriving DecidableEq, Repr

/-- `line(100:100) = "#"` and `line = trim(line(1:index(line,"#")-1))//"/"`, `io_utils.f90:90-92`. -/
def labelText (line : List Char) : List Char :=
  fit 100 (trim ((line.set 99 '#').takeWhile (· != '#')) ++ ['/'])

/-- What is read from the line of one site, `io_utils.f90:81-110`. -/
def siteOf (fl : ℚ → ℚ) (k : ℤ) (line : List Char) : Except EnumStop Site :=
  let line := adjustl (fit 100 line)
  match coordinate fl line with
  | none => .error .runtime
  | some (x, line) =>
    match coordinate fl line with
    | none => .error .runtime
    | some (y, line) =>
      match coordinate fl line with
      | none => .error .runtime
      | some (z, line) =>
        match labelLoop k k.toNat 1 (labelText line) with
        | .error e => .error e
        | .ok (labels, i) => .ok ⟨(x, y, z), labels, i⟩

/-- The loop over the sites, `io_utils.f90:79-113`. -/
def readSites (fl : ℚ → ℚ) (k : ℤ) : ℕ → Rd (List Site)
  | 0 => pure []
  | n + 1 => do
    let line ← nextLine
    match siteOf fl k line with
    | .error e => stop e
    | .ok s =>
      let rest ← readSites fl k n
      pure (s :: rest)

/-- The numbers `0 … k-1`, `io_utils.f90:115`, `122`. -/
def labelRange (k : ℤ) : List ℤ := List.map (fun i : ℕ => (i : ℤ)) (List.range k.toNat)

/-- The two checks of the labels, `io_utils.f90:114-127`. -/
def checkLabels (k : ℤ) (sites : List Site) : Option EnumStop :=
  if (labelRange k).any fun i => sites.all fun s => !(s.labels.contains i) then some .labelUnused
  else if sites.any fun s => (labelRange k).any fun i => decide (1 < s.labels.count i) then some .labelTwice
  else none

/-- `ucase` of the library: small letters become capitals (`io_utils.f90:60`). -/
def ucase (l : List Char) : List Char := l.map Char.toUpper

/-- The optional equivalencies, `io_utils.f90:129-138`. -/
def readEq (nD : ℤ) : Rd (List ℤ) := do
  let line ← nextLine
  if (ucase (nextValue line).1).head? = some 'E' then do
    let line ← nextLine
    orStop (readInts nD.toNat line)
  else do
    backspace line
    pure (List.map (fun i : ℕ => (i : ℤ) + 1) (List.range nD.toNat))

/-- The loop over the concentrations, `io_utils.f90:163-179`: `none` if one of them could not be read. -/
def readConc : ℕ → Rd (Option (List (ℤ × ℤ × ℤ)))
  | 0 => pure (some [])
  | n + 1 => do
    match ← nextLine? with
    | none => pure none
    | some line =>
      match int3 line with
      | none => pure none
      | some c => do
        match ← readConc n with
        | none => pure none
        | some cs => pure (some (c :: cs))

/-- What `read_input` returns (`io_utils.f90:34-43`).  `conc` is `cRange` if `conc_check` is true; otherwise `cRange` is
zero.  (For `k < 1` the code leaves `conc_check` undefined.) -/
structure EnumInput where
  title : List Char
  latDim : ℕ
  v1 : ℚ × ℚ × ℚ
  v2 : ℚ × ℚ × ℚ
  v3 : ℚ × ℚ × ℚ
  k : ℤ
  nD : ℤ
  sites : List Site
  eq : List ℤ
  nMin : ℤ
  nMax : ℤ
  eps : ℚ
  full : Bool
  conc : Option (List (ℤ × ℤ × ℤ))
  deriving DecidableEq, Repr

/-- The check of the concentrations, `io_utils.f90:201-208`. -/
def checkConc (conc : List (ℤ × ℤ × ℤ)) : Option EnumStop :=
  if conc.any fun c => decide (c.1 < 0 ∨ c.2.1 < 0 ∨ c.2.2 < 0) then some .negative
  else if conc.any fun c => decide (c.2.2 < max c.1 c.2.1) then some .numerator
  else none

/-- Stop if a check has failed (`io_utils.f90:117`). -/
def check : Option EnumStop → Rd Unit
  | some e => stop e
  | none => pure ()

/-- `LatDim`, `io_utils.f90:151-156`.  `equal x y eps` stands for the function of the library, which compares vectors
component by component. -/
def latDimOf (equal : ℚ → ℚ → ℚ → Bool) (pLatTyp : List Char) (v1 : ℚ × ℚ × ℚ) (eps : ℚ) : Rd ℕ :=
  if pLatTyp = "SURF".toList then
    if equal v1.2.1 0 eps && equal v1.2.2 0 eps then pure 2 else stop .surface
  else if pLatTyp = "BULK".toList then pure 3
  else stop .kind

/-- `full`, `io_utils.f90:158-160`. -/
def fullOf (fullpart : List Char) : Rd Bool :=
  if fullpart = "FULL".toList then pure true
  else if fullpart = "PART".toList then pure false
  else stop .mode

/-- `read_input`, `io_utils.f90:34-213`.  `equal x y eps` stands for the function of the library. -/
def readInput (fl : ℚ → ℚ) (equal : ℚ → ℚ → ℚ → Bool) : Rd EnumInput := do
  let title ← nextLine
  let kind ← nextLine
  let pLatTyp := ucase (fit 4 kind)
  let v1 ← orStop (real3 fl (← nextLine))
  let v2 ← orStop (real3 fl (← nextLine))
  let v3 ← orStop (real3 fl (← nextLine))
  let k ← orStop (int1 (← nextLine))
  let nD ← orStop (int1 (← nextLine))
  let sites ← readSites fl k nD.toNat
  check (checkLabels k sites)
  let eq ← readEq nD
  let n ← orStop (int2 (← nextLine))
  let eps ← orStop (real1 fl (← nextLine))
  let fullpart := ucase (fit 4 (nextValue (← nextLine)).1)
  let latDim ← latDimOf equal pLatTyp v1 eps
  let full ← fullOf fullpart
  let conc ← readConc k.toNat
  check (checkConc (conc.getD []))
  pure ⟨fit 80 title, latDim, v1, v2, v3, k, nD, sites, eq, n.1, n.2, eps, full, conc⟩

/-- `parLV`, `driver.f90:38`: the vectors are the columns. -/
noncomputable def EnumInput.parLV (x : EnumInput) : R3 :=
  !![(x.v1.1 : ℝ), x.v2.1, x.v3.1; x.v1.2.1, x.v2.2.1, x.v3.2.1; x.v1.2.2, x.v2.2.2, x.v3.2.2]

/-- `driver.f90` from the lines of its input file: the lines of `n_srHNFs.out`, or how it stops (`none`: as in
`driver`).  `pointGroup` stands for `get_lattice_pointGroup` of the library (`driver.f90:48`). -/
noncomputable def bruteProgram (fl : ℚ → ℚ) (equalQ : ℚ → ℚ → ℚ → Bool) (equal : ℝ → ℝ → Bool)
    (pointGroup : R3 → List R3) (lines : List (List Char)) : Except EnumStop (Option (List (ℤ × ℕ))) :=
  match readInput fl equalQ lines with
  | .error e => .error e
  | .ok (x, _) => .ok (driver equal x.parLV (pointGroup x.parLV) x.nMax)

end AutoGR.Brute
