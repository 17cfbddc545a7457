import Mathlib.Algebra.Order.Archimedean.Real.Basic
import Mathlib.LinearAlgebra.Matrix.NonsingularInverse
import Verif.Model.FortranGen

/-!
# The brute force search of `support/brute_force`

`srHNF_brute.f90`, the loop of its `driver.f90`, and the generators of a group in `general_approach.py`.

Real numbers are exact.  `matrix_inverse` returns the inverse.  `equal` of `symlib` (compare with a tolerance) is
a parameter.  `np.allclose` is one too.
-/

namespace AutoGR.Brute

open Matrix

/-- Real 3×3 matrices. -/
abbrev R3 := Matrix (Fin 3) (Fin 3) ℝ

/-- `nint`, halves away from zero (`srHNF_brute.f90:141`). -/
noncomputable def nint (x : ℝ) : ℤ := if 0 ≤ x then ⌊x + 1 / 2⌋ else ⌈x - 1 / 2⌉

/-- `equal(A,B,eps)` for matrices: all entries agree (`srHNF_brute.f90:141`).  `equal x y` stands for
`equal(x,y,eps)`. -/
def equalMat (equal : ℝ → ℝ → Bool) (A B : R3) : Bool := decide (∀ i j, equal (A i j) (B i j) = true)

/-- `symm_pres`, `srHNF_brute.f90:121-147`, which stops at the first operation that is not kept. -/
noncomputable def symm_pres (equal : ℝ → ℝ → Bool) (lat : R3) : List R3 → Bool
  | [] => true
  | R :: rest =>
    let RB := R * lat
    let N := lat⁻¹ * RB
    if equalMat equal N (N.map fun x => ((nint x : ℤ) : ℝ)) then symm_pres equal lat rest else false

/-- The matrices visited by the loops of `get_srHNFs`, in order, `srHNF_brute.f90:78-84`.  `get_HNF_diagonals`
(`srHNF_brute.f90:21-41`) is the same text as in `sp_hnfs.f90`. -/
def candidates (volume : ℤ) : List Mat3 :=
  (Fortran.get_HNF_diagonals volume).flatMap fun (a, c, f) =>
    (pyRange 0 c).flatMap fun j => (pyRange 0 f).flatMap fun k => (pyRange 0 f).map fun l => hnf a j c k l f

/-- The allocated array `temp_srHNFs` with `current_max` places, the first of them used. -/
structure Buf where
  current_max : ℕ
  stored : List Mat3

/-- `srHNF_brute.f90:87-100`: a full array is replaced by one of twice the size, then the matrix is stored.
`none`: a store beyond the end of the array. -/
def store (b : Buf) (H : Mat3) : Option Buf :=
  let m := if b.stored.length = b.current_max then b.current_max * 2 else b.current_max
  if b.stored.length + 1 ≤ m then some ⟨m, b.stored ++ [H]⟩ else none

/-- The loops of `get_srHNFs`, `srHNF_brute.f90:78-103`. -/
noncomputable def searchLoop (equal : ℝ → ℝ → Bool) (parent : R3) (gens : List R3) : List Mat3 → Buf → Option Buf
  | [], b => some b
  | H :: rest, b =>
    let B := parent * H.map (fun z => (z : ℝ))
    if symm_pres equal B gens then (store b H).bind (searchLoop equal parent gens rest)
    else searchLoop equal parent gens rest b

/-- `get_srHNFs`, `srHNF_brute.f90:51-113`. -/
noncomputable def get_srHNFs (equal : ℝ → ℝ → Bool) (parent : R3) (gens : List R3) (volume : ℤ) :
    Option (List Mat3) :=
  (searchLoop equal parent gens (candidates volume) ⟨10, []⟩).map Buf.stored

/-- The loop of `driver.f90:75-118`: the lines written to `n_srHNFs.out`. -/
noncomputable def driverLoop (equal : ℝ → ℝ → Bool) (parLV : R3) (pg : List R3) : List ℤ → Option (List (ℤ × ℕ))
  | [] => some []
  | i :: rest =>
    (get_srHNFs equal parLV pg i).bind fun isrHNFs =>
      let sfound := isrHNFs.length
      (driverLoop equal parLV pg rest).map fun lines => if sfound ≠ 0 then (i, sfound) :: lines else lines

/-- `driver.f90:75-118` for `nMax`. -/
noncomputable def driver (equal : ℝ → ℝ → Bool) (parLV : R3) (pg : List R3) (nMax : ℤ) : Option (List (ℤ × ℕ)) :=
  driverLoop equal parLV pg (pyRange 1 (nMax + 1))

/-! ## Generators of a group, Fortran -/

section

variable (equal : R3 → R3 → Bool)

/-- The array `test_set` of `forms_group`: `size(pg,3)` places.  The places not yet used are zero
(`srHNF_brute.f90:212`). -/
structure TestSet where
  size : ℕ
  used : List R3

/-- All places of the array. -/
def TestSet.cells (t : TestSet) : List R3 := t.used ++ List.replicate (t.size - t.used.length) 0

/-- `do k=1,size(test_set)`, `srHNF_brute.f90:224-229`: `size` without a dimension is nine times the number of
places, so when there is no match the loop goes on behind the array.  `behind` is what is there. -/
def inGroup (behind : List R3) (t : TestSet) (test : R3) : Bool :=
  (t.cells ++ behind).any fun x => equal test x

/-- One product, `srHNF_brute.f90:222-237`.  `false`: the array is full. -/
def addProduct (behind : List R3) (t : TestSet) (test : R3) : TestSet × Bool :=
  if inGroup equal behind t test then (t, true)
  else if t.used.length + 1 > t.size then (t, false)
  else ({ t with used := t.used ++ [test] }, true)

/-- Products one after the other, until the array is full. -/
def addProducts (behind : List R3) : List R3 → TestSet → TestSet × Bool
  | [], t => (t, true)
  | p :: rest, t =>
    match addProduct equal behind t p with
    | (t', true) => addProducts behind rest t'
    | (t', false) => (t', false)

/-- The loop over the generators within one pass, `srHNF_brute.f90:248-271`: generator times the first `temp_int`
elements. -/
def passLoop (behind : List R3) (temp_int : ℕ) : List R3 → TestSet → TestSet × Bool
  | [], t => (t, true)
  | g :: rest, t =>
    match addProducts equal behind ((t.used.take temp_int).map (g * ·)) t with
    | (t', true) => passLoop behind temp_int rest t'
    | (t', false) => (t', false)

/-- `do while (growing)`, `srHNF_brute.f90:245-276`, at most `fuel` passes.  `none`: still growing. -/
def grow (behind gens : List R3) : ℕ → TestSet → Option TestSet
  | 0, _ => none
  | fuel + 1, t =>
    match passLoop equal behind t.used.length gens t with
    | (t', false) => some t'
    | (t', true) => if t'.used.length = t.used.length then some t' else grow behind gens fuel t'

/-- The last loop, `srHNF_brute.f90:281-294`, which sets the result anew for each element of `pg`. -/
def allInGroup (behind : List R3) (t : TestSet) : List R3 → Bool → Bool
  | [], r => r
  | p :: rest, _ => if inGroup equal behind t p then allInGroup behind t rest true else false

/-- `forms_group`, `srHNF_brute.f90:199-297`.  The test `:278` compares the size of the array, allocated with
`size(pg,3)` places, with `size(pg,3)`.  When the array is full in the first part, the second part stores nothing
more (its only pass, `:248-275`, finds no place). -/
def forms_group (behind gens pg : List R3) : Option Bool :=
  let t0 : TestSet := ⟨pg.length, gens⟩
  let r := addProducts equal behind (gens.flatMap fun g => gens.map (g * ·)) t0
  (if r.2 then grow equal behind gens (pg.length + 1) r.1 else some r.1).map fun t =>
    allInGroup equal behind t pg r.2

/-- `combinations` for pairs and for triples, `srHNF_brute.f90:303-340`; the members rather than their numbers. -/
def combinations : ℕ → List R3 → List (List R3)
  | 0, _ => [[]]
  | _ + 1, [] => []
  | r + 1, p :: rest => (combinations r rest).map (p :: ·) ++ combinations (r + 1) rest

/-- The first combination that forms the group, `srHNF_brute.f90:172-183`. -/
def firstGens (behind pg : List R3) : List (List R3) → Option (Option (List R3))
  | [] => some none
  | c :: rest => (forms_group equal behind c pg).bind fun b => if b then some (some c) else firstGens behind pg rest

/-- `find_pg_gens`, `srHNF_brute.f90:154-192`: pairs, then triples.  `some none`: `gens` is not allocated. -/
def find_pg_gens (behind pg : List R3) : Option (Option (List R3)) :=
  (firstGens equal behind pg (combinations 2 pg)).bind fun
    | some g => some (some g)
    | none => firstGens equal behind pg (combinations 3 pg)

end

/-! ## Generators of a group, Python -/

section

variable (allclose : R3 → R3 → Bool)

/-- `general_approach.py:44-50` and `:58-64`: append a product that is not there yet. -/
def pyAdd (group : List R3) (test : R3) : List R3 :=
  if group.any fun k => allclose test k then group else group ++ [test]

/-- `for j in group: test = np.matmul(i,j) ...`, `general_approach.py:56-64`.  The list grows while the loop runs
over it, and the loop visits the new elements too.  `j` is the number of elements visited; at most `fuel` steps. -/
def pyScan (i : R3) : ℕ → ℕ → List R3 → Option (List R3)
  | 0, _, _ => none
  | fuel + 1, j, group =>
    match group[j]? with
    | none => some group
    | some x => pyScan i fuel (j + 1) (pyAdd allclose group (i * x))

/-- `for i in gens`, `general_approach.py:55`. -/
def pyPass (fuel : ℕ) : List R3 → List R3 → Option (List R3)
  | [], group => some group
  | i :: rest, group => (pyScan allclose i fuel 0 group).bind (pyPass fuel rest)

/-- `while growing`, `general_approach.py:53-67`.  `nfound` is the number of elements appended. -/
def pyGrow (gens : List R3) (fuel : ℕ) : ℕ → List R3 → Option (List R3)
  | 0, _ => none
  | passes + 1, group =>
    (pyPass allclose fuel gens group).bind fun group' =>
      if group'.length = group.length then some group' else pyGrow gens fuel passes group'

/-- `general_approach.py:73-80`: `correct_gens` is set once and never back to `False`. -/
def pyAll (group : List R3) : List R3 → Bool → Bool
  | [], correct => correct
  | i :: rest, correct =>
    let correct' := correct || group.any fun k => allclose i k
    if correct' then pyAll group rest correct' else false

/-- `forms_group`, `general_approach.py:27-82`.  `none`: not finished after the given number of steps. -/
def pyFormsGroup (fuel : ℕ) (gens pg : List R3) : Option Bool :=
  let group := (gens.flatMap fun i => gens.map (i * ·)).foldl (pyAdd allclose) []
  (pyGrow allclose gens fuel fuel group).map fun group =>
    if pg.length ≠ group.length then false else pyAll allclose group pg false

/-- `for test in possible_gens`, `general_approach.py:101-108`. -/
def pyFirst (fuel : ℕ) (pg : List R3) : List (List R3) → Option (Option (List R3))
  | [] => some none
  | c :: rest => (pyFormsGroup allclose fuel c pg).bind fun b => if b then some (some c) else pyFirst fuel pg rest

/-- `while not found_gens`, `general_approach.py:97-109`, from `n_gens` on. -/
def pySearch (fuel : ℕ) (pg : List R3) : ℕ → ℕ → Option (List R3)
  | 0, _ => none
  | rounds + 1, n_gens =>
    (pyFirst allclose fuel pg (combinations n_gens pg)).bind fun
      | some gens => some gens
      | none => pySearch fuel pg rounds (n_gens + 1)

/-- `find_gens_of_pg`, `general_approach.py:84-111`. -/
def find_gens_of_pg (fuel : ℕ) (pg : List R3) : Option (List R3) := pySearch allclose fuel pg fuel 1

end

end AutoGR.Brute
