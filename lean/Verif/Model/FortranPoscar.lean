import Verif.Model.FortranInput
import Mathlib.LinearAlgebra.Matrix.Notation
import Mathlib.LinearAlgebra.Matrix.NonsingularInverse

/-!
# Model of `read_POSCAR` (`control_file.f90`)

A line is a list of characters, of which the first 300 are read.  A list-directed `read` takes one line (blank
lines before the numbers are outside the model); if it fails the program ends with an error.
-/

namespace AutoGR.Fortran

open Spec (Reader)

/-- `split_str`, `control_file.f90:198-208`: the first word and the rest.  `SCAN` finds no blank if a word fills
all 300 characters; then the word is empty and the line stays as it is. -/
def split_str (instr : List Char) : List Char × List Char :=
  let instr := adjustl (trim instr)
  if ' ' ∉ instr ∧ instr.length = 300 then ([], instr)
  else (instr.takeWhile (· ≠ ' '), adjustl (trim (instr.dropWhile (· ≠ ' ')).tail))

/-- `readEntries` and the leading entries of `values` (the others are 0). -/
structure Parsed where
  readEntries : ℕ
  values : List ℤ
  deriving DecidableEq

/-- The loop of `parse_line_for_numbers`, `control_file.f90:240-258`; `acc` holds `values(1:iE)`.  A failed
`read` leaves `junk` in `values(iE)`.  `none`: the loop has not ended within `fuel` passes. -/
def parseLoop (int : List Char → Option ℤ) (junk : ℤ) : ℕ → List Char → List ℤ → Option Parsed
  | 0, _, _ => none
  | fuel + 1, line, acc =>
    let p := split_str line
    if p.1 = [] then some ⟨acc.length + 1, acc⟩
    else
      match int p.1 with
      | none => some ⟨acc.length, acc ++ [junk]⟩
      | some v =>
        if p.2 = [] then some ⟨acc.length + 1, acc ++ [v]⟩ else parseLoop int junk fuel p.2 (acc ++ [v])

/-- `parse_line_for_numbers`, `control_file.f90:217-259`. -/
def parse_line_for_numbers (int : List Char → Option ℤ) (junk : ℤ) (line : List Char) : Option Parsed :=
  let line := trim (adjustl line)
  if line = [] then some ⟨0, []⟩ else parseLoop int junk 301 line []

/-- What can go wrong. -/
inductive PosErr
  /-- a `read` fails or the file ends -/
  | read
  /-- an index outside the bounds of an array -/
  | bounds
  /-- `matrix_inverse` is called with a singular matrix -/
  | singular
  deriving DecidableEq

/-- The results of `read_POSCAR`. -/
structure Poscar where
  lattice : Matrix (Fin 3) (Fin 3) ℚ
  atom_base : List (Fin 3 → ℚ)
  atom_type : List ℕ
  lat_param : ℚ

/-- A `read` that ends the program if it fails. -/
def mustRead {α : Type} : Option α → Except PosErr α
  | none => .error .read
  | some x => .ok x

/-- `do i=1,sum(concs); read(1,*) atom_base(:,i)`, `control_file.f90:43-45`. -/
def readPositions (rd : Reader) : ℕ → List (List Char) → Except PosErr (List (Fin 3 → ℚ))
  | 0, _ => .ok []
  | _ + 1, [] => .error .read
  | n + 1, line :: rest =>
    match rd.real3 line with
    | none => .error .read
    | some x =>
      match readPositions rd n rest with
      | .error e => .error e
      | .ok xs => .ok (![x.1, x.2.1, x.2.2] :: xs)

/-- The loop that sets `atom_type`, `control_file.f90:57-66`, as the list of the entries set; `i` counts the
species from 0. -/
def typeLoop : ℕ → List ℤ → List ℕ
  | _, [] => []
  | i, c :: cs => (if 0 < c then List.replicate c.toNat i else []) ++ typeLoop (i + 1) cs

/-- `read_POSCAR` from the line with the numbers of atoms on, `control_file.f90:41-66`. -/
noncomputable def readAtoms (rd : Reader) (lat_param : ℚ) (lattice : Matrix (Fin 3) (Fin 3) ℚ) (p : Parsed)
    (rest : List (List Char)) : Except PosErr Poscar :=
  match rest with
  | [] => .error .read
  | line :: rest =>
    let n := p.values.sum.toNat
    match readPositions rd n rest with
    | .error e => .error e
    | .ok base =>
      let line := adjustl (trim (line.take 300))
      let types := typeLoop 0 (p.values.take p.readEntries)
      let cart := line.head? = some 'c' ∨ line.head? = some 'C' ∨ line.head? = some 'k' ∨ line.head? = some 'K'
      if cart ∧ (lat_param • lattice).det = 0 then .error .singular
      else
        let base := if cart then base.map fun x => (lat_param • lattice)⁻¹.mulVec x else base
        if n < types.length then .error .bounds else .ok ⟨lattice, base, types, lat_param⟩

/-- `read_POSCAR`, `control_file.f90:18-67`. -/
noncomputable def read_POSCAR (rd : Reader) (junk : ℤ) (lines : List (List Char)) : Except PosErr Poscar :=
  match lines with
  | _ :: scale :: l1 :: l2 :: l3 :: line :: rest =>
    match rd.real scale, rd.real3 l1, rd.real3 l2, rd.real3 l3 with
    | some lat_param, some v1, some v2, some v3 =>
      let lattice : Matrix (Fin 3) (Fin 3) ℚ :=
        Matrix.of fun r c => ![![v1.1, v1.2.1, v1.2.2] r, ![v2.1, v2.2.1, v2.2.2] r, ![v3.1, v3.2.1, v3.2.2] r] c
      match parse_line_for_numbers rd.int junk (line.take 300) with
      | none => .error .read
      | some p =>
        if p.readEntries = 0 then
          match rest with
          | [] => .error .read
          | line :: rest =>
            match parse_line_for_numbers rd.int junk (line.take 300) with
            | none => .error .read
            | some p => readAtoms rd lat_param lattice p rest
        else readAtoms rd lat_param lattice p rest
    | _, _, _, _ => .error .read
  | _ => .error .read

end AutoGR.Fortran
