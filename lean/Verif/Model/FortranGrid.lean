import Verif.Model.FortranGen
import Verif.Model.FortranNiggli

/-!
# `src/find_kgrids.f90` and `src/grid_utils.f90`: the search for the k-point grid

External code is a parameter: `minkowski_reduce_basis`, `generateIrredKpointList` and `equal` come from
the libraries `symlib` and `kgridGen`, whose sources are not in the repository.
-/

namespace AutoGR

namespace Fortran

/-! ## The densities tried -/

/-- `minloc(x, mask)`: the place (from 1) of the smallest masked entry, the first one if there are several,
and 0 if there is none (`find_kgrids.f90:527`, `:569`, `grid_utils.f90:359`). -/
def minloc (mask : ℤ → Bool) (l : List ℤ) : ℕ :=
  match (l.filter mask).min? with
  | none => 0
  | some m => l.idxOf m + 1

/-- The loop `do i = next_smallest(1), n_found` of `get_kpd_cubic`, `find_kgrids.f90:570-574`, on the part of
the array that begins at `next_smallest`: `temp` takes the place of the first entry, which moves to the next
place, and so on.  Returns the entries and the last `temp`.  (`n_found` is at most 10, the size of the array:
the loop does not leave it.) -/
def bump : ℕ → List ℤ → ℤ → List ℤ × ℤ
  | 0, l, temp => (l, temp)
  | _, [], temp => ([], temp)
  | n + 1, x :: l, temp =>
    let r := bump n l x
    (temp :: r.1, r.2)

/-- The variables `densities` and `n_found` of `get_kpd_cubic`. -/
structure Dens where
  densities : List ℤ
  n_found : ℕ
  deriving DecidableEq, Repr

/-- The body of the loop over `j` of `get_kpd_cubic`, `find_kgrids.f90:565-582`. -/
def addDensity (kpd : ℤ) (s : Dens) (temp : ℤ) : Dens :=
  if kpd ≤ temp then
    let above : ℤ → Bool := fun x => decide (temp < x)
    let r : List ℤ × ℤ :=
      if s.densities.any above then
        let p := minloc above s.densities
        let b := bump (s.n_found + 1 - p) (s.densities.drop (p - 1)) temp
        (s.densities.take (p - 1) ++ b.1, b.2)
      else (s.densities, temp)
    if s.n_found < 10 then ⟨r.1.set s.n_found r.2, s.n_found + 1⟩ else ⟨r.1, s.n_found⟩
  else s

/-- `get_kpd_cubic(lat_id,kpd,densities)`, `find_kgrids.f90:545-586`.  `root` is the value of
`int(real(kpd,dp)**(1.0_dp/3.0_dp))`, a floating point computation.  The loop `do while (nb<nmax)` makes
exactly 100 passes.  `nb**3` and its multiples stay far below `2**31`. -/
def get_kpd_cubic (lat_id : ℕ) (root kpd : ℤ) : List ℤ :=
  let nb := Int.tdiv root 16 - 1
  let mults : List ℤ := if lat_id = 1 then [1, 4, 16] else [1, 2, 4]
  (((pyRange nb (nb + 100)).flatMap fun n => mults.map (· * n ^ 3)).foldl (addDensity kpd)
    ⟨List.replicate 10 0, 0⟩).densities

/-- The loop of `get_kpd_tric`, `find_kgrids.f90:604-612`: `r_kpd` and `mult`.  `fuel` bounds the number of
passes; `none` stands for a loop that does not end. -/
def kpdTricLoop (kpd : ℤ) : ℕ → ℤ → Option (ℤ × ℤ)
  | 0, _ => none
  | fuel + 1, tmult =>
    let test := Int.tdiv kpd (tmult ^ 3)
    if test ≤ 100 then some (test, tmult) else kpdTricLoop kpd fuel (tmult + 1)

/-- `get_kpd_tric(kpd,r_kpd,mult)`, `find_kgrids.f90:594-614`. -/
def get_kpd_tric (kpd : ℤ) : Option (ℤ × ℤ) := kpdTricLoop kpd (kpd.toNat + 1) 1

/-! ## Comparing the grids of one density -/

/-- What can go wrong. -/
inductive GridErr
  /-- an index outside the bounds of an array -/
  | bounds
  /-- a variable is read that was never set -/
  | undefined
  /-- `matrix_inverse` is called with a singular matrix -/
  | singular
  /-- `stop` (`find_kgrids.f90:533`) -/
  | stop
  /-- a loop that has not ended within the given number of passes -/
  | running
  deriving DecidableEq, Repr

/-- The arrays of `compare_grids`: `rmin(2)`, the first `ngrids(1)` and `ngrids(2)` entries of the two halves
of `grids` and `best_HNFs` (the others are 0 and not read), and `size(grids,3)`. -/
structure Grids (G : Type) where
  rmin1 : ℚ
  rmin2 : ℚ
  list1 : List (G × Mat3)
  list2 : List (G × Mat3)
  size : ℕ

/-- What `compare_grids` computes from an HNF before it compares, `grid_utils.f90:177-188`: the reduced grid,
the length of its shortest vector, and whether the packing fraction reaches `0.3`. -/
structure Geom (G : Type) where
  grid : G
  rmin : ℚ
  packed : Bool

/-- A new entry at the end of list 1: `ngrids(1) = ngrids(1) + 1; grids(:,:,ngrids(1),1) = ...`.  An index
beyond the size of the array is an error. -/
def Grids.push1 {G : Type} (s : Grids G) (x : G × Mat3) : Except GridErr (Grids G) :=
  if s.list1.length + 1 ≤ s.size then .ok { s with list1 := s.list1 ++ [x] } else .error .bounds

/-- The same for list 2. -/
def Grids.push2 {G : Type} (s : Grids G) (x : G × Mat3) : Except GridErr (Grids G) :=
  if s.list2.length + 1 ≤ s.size then .ok { s with list2 := s.list2 ++ [x] } else .error .bounds

/-- The copy of both lists into arrays of size `m`, `grid_utils.f90:215-225` and `:232-242`. -/
def Grids.resize {G : Type} (s : Grids G) (m : ℕ) : Except GridErr (Grids G) :=
  if s.list1.length ≤ m ∧ s.list2.length ≤ m then .ok { s with size := m } else .error .bounds

/-- `compare_grids`, `grid_utils.f90:139-250`, from the comparison on (`:188-248`).  `equal a b` stands for
`equal(a,b,eps)`. -/
def compareGrids {G : Type} (equal : ℚ → ℚ → Bool) (eps : ℚ) (geom : Mat3 → Geom G) (s : Grids G)
    (HNF : Mat3) : Except GridErr (Grids G) :=
  let g := geom HNF
  let r := g.rmin
  if g.packed then
    if s.rmin1 + r * eps < r ∧ equal r s.rmin1 = false then
      Grids.push1 { s with rmin2 := s.rmin1, list2 := s.list1, rmin1 := r, list1 := [] } (g.grid, HNF)
    else if s.rmin2 + r * eps < r ∧ equal r s.rmin1 = false ∧ equal r s.rmin2 = false then
      Grids.push2 { s with rmin2 := r, list2 := [] } (g.grid, HNF)
    else if equal r s.rmin1 then
      match (if s.size = s.list1.length then s.resize (2 * s.list1.length) else .ok s) with
      | .ok s => s.push1 (g.grid, HNF)
      | .error e => .error e
    else if equal r s.rmin2 then
      match (if s.size = s.list2.length then s.resize (2 * s.list2.length) else .ok s) with
      | .ok s => s.push2 (g.grid, HNF)
      | .error e => .error e
    else .ok s
  else .ok s

/-- The calls of `compare_grids` for the matrices of a generator, for instance `sp_hnfs.f90:540-542`.  `none`
means that it was not called: then `ngrids` has no value.  The first call allocates the arrays with room for
ten and sets `ngrids` (`grid_utils.f90:167-175`); `rmin = 0` is set by the generator. -/
def compareAll {G : Type} (equal : ℚ → ℚ → Bool) (eps : ℚ) (geom : Mat3 → Geom G) :
    Option (Grids G) → List Mat3 → Except GridErr (Option (Grids G))
  | s, [] => .ok s
  | s, H :: Hs =>
    match compareGrids equal eps geom (s.getD ⟨0, 0, [], [], 10⟩) H with
    | .ok s' => compareAll equal eps geom (some s') Hs
    | .error e => .error e

/-! ## Selecting a grid -/

/-- `n_irreducible` and `grid_offsets` of `grid_selection`, indexed from 1; `none` is an entry of
`grid_offsets` that was not set. -/
structure SelState (Off : Type) where
  n : ℕ → ℕ
  off : ℕ → Option Off

/-- The body of the loop over the offsets for one grid.  `rd` is the place of `n_irreducible` that is read,
`wr` the place that is written: the same in the first loop (`grid_utils.f90:311-324`), different in the second
(`:330-342`).  `irr o` is the number of irreducible k-points for the offset `o`, `none` if
`generateIrredKpointList` reports an error. -/
def offsetStep {Off : Type} (irr : Off → Option ℕ) (rd wr : ℕ) (s : SelState Off) (o : Off) : SelState Off :=
  match irr o with
  | none => s
  | some m =>
    if s.n rd = 0 then ⟨Function.update s.n wr m, Function.update s.off wr (some o)⟩
    else if m < s.n rd then ⟨Function.update s.n wr m, Function.update s.off wr (some o)⟩
    else s

/-- The loop over the offsets for one grid. -/
def offsetLoop {Off : Type} (irr : Off → Option ℕ) (rd wr : ℕ) (s : SelState Off) : List Off → SelState Off
  | [] => s
  | o :: os => offsetLoop irr rd wr (offsetStep irr rd wr s o) os

/-- A loop over the grids of a list, `grid_utils.f90:309-326` and `:328-343`; `i` is the number of the next
grid, `base` is `count` for the second list. -/
def gridLoop {G Off : Type} (irr : G → Off → Option ℕ) (offsets : List Off) (base : ℕ) :
    SelState Off → ℕ → List (G × Mat3) → SelState Off
  | s, _, [] => s
  | s, i, g :: gs =>
    gridLoop irr offsets base (offsetLoop (irr g.1) i (base + i) s offsets) (i + 1) gs

/-- What `grid_selection` returns. -/
structure Selected (G Off : Type) where
  grid : G
  HNF : Mat3
  offset : Off
  n_irr : ℕ

/-- `grid_selection`, `grid_utils.f90:276-362`.  `irr` is the number of irreducible k-points with the user's
`symm_flag`; the second loop leaves that argument out, and uses `irrDefault`.  `.ok none` stands for the
branch that sets everything to 0. -/
def gridSelection {G Off : Type} (irr irrDefault : G → Off → Option ℕ) (list1 list2 : List (G × Mat3))
    (offsets : List Off) : Except GridErr (Option (Selected G Off)) :=
  let s0 : SelState Off := ⟨fun _ => 0, fun _ => none⟩
  let count := list1.length
  let s1 := gridLoop irr offsets 0 s0 1 list1
  let s2 := gridLoop irrDefault offsets count s1 1 list2
  let n_irreducible := (List.range (count + list2.length)).map fun i => (s2.n (i + 1) : ℤ)
  if n_irreducible.any (fun x => decide (0 < x)) then
    let p := minloc (fun x => decide (0 < x)) n_irreducible
    match (if p ≤ count then list1[p - 1]? else list2[p - count - 1]?) with
    | none => .error .bounds
    | some g =>
      match s2.off p with
      | none => .error .undefined
      | some o => .ok (some ⟨g.1, g.2, o, s2.n p⟩)
  else .ok none

/-! ## One density -/

/-- What a generator hands to `find_grid`: `nhnfs`, and the grid unless `spHNFs` is 0. -/
structure Tried (G Off : Type) where
  nhnfs : ℕ
  best : Option (Selected G Off)

/-- The end of the generators with more than one matrix, for instance `sp_hnfs.f90:557-574` without
`all_hnfs`.  `any(ngrids > 0)` reads `ngrids`. -/
def tryHNFs {G Off : Type} (equal : ℚ → ℚ → Bool) (eps : ℚ) (geom : Mat3 → Geom G)
    (irr irrDefault : G → Off → Option ℕ) (offsets : List Off) (HNFs : List Mat3) :
    Except GridErr (Tried G Off) :=
  match compareAll equal eps geom none HNFs with
  | .error e => .error e
  | .ok none => .error .undefined
  | .ok (some s) =>
    if 0 < s.list1.length ∨ 0 < s.list2.length then
      match gridSelection irr irrDefault s.list1 s.list2 offsets with
      | .error e => .error e
      | .ok b => .ok ⟨HNFs.length, b⟩
    else .ok ⟨HNFs.length, none⟩

/-- The end of the cubic generators, for instance `sp_hnfs.f90:136-142`: the only matrix is selected without
comparison and without reduction of the grid (`geom` is then that grid); `nhnfs = 1` in any case.  An empty
list stands for `temp_HNFs = 0`, whose inverse `matrix_inverse` is asked to form. -/
def tryCubic {G Off : Type} (gridOf : Mat3 → G) (irr irrDefault : G → Off → Option ℕ) (offsets : List Off)
    (HNFs : List Mat3) : Except GridErr (Tried G Off) :=
  match HNFs with
  | [] => .error .singular
  | H :: _ =>
    match gridSelection irr irrDefault [(gridOf H, H)] [] offsets with
    | .error e => .error e
    | .ok b => .ok ⟨1, b⟩

/-! ## The search -/

/-- The choice of the generator in the last branch of `find_grid`, `find_kgrids.f90:404-501`.  `none`: no
generator is called. -/
def generatorOf (w : ℤ → ℤ) (lat_id : ℕ) : Option (ℤ → List Mat3) :=
  if lat_id = 2 ∨ lat_id = 4 then some (rhom_4_2 w)
  else if lat_id = 6 ∨ lat_id = 7 ∨ lat_id = 15 ∨ lat_id = 18 then some (bct_6_7_15_18 w)
  else if lat_id = 8 then some (bco_8 w)
  else if lat_id = 9 ∨ lat_id = 24 then some (rhom_9_24 w)
  else if lat_id = 10 ∨ lat_id = 14 ∨ lat_id = 17 ∨ lat_id = 27 ∨ lat_id = 37 ∨ lat_id = 39 ∨ lat_id = 41 then
    some (basecm_10_14_17_27_37_39_41 w)
  else if lat_id = 11 then some (st_11 w)
  else if lat_id = 12 then some (hex_12 w)
  else if lat_id = 13 ∨ lat_id = 38 then some (baseco_38_13 w)
  else if lat_id = 16 then some (fco_16 w)
  else if lat_id = 19 then some (bco_19 w)
  else if lat_id = 20 ∨ lat_id = 25 then some (basecm_20_25 w)
  else if lat_id = 21 then some (st_21 w)
  else if lat_id = 22 then some (hex_22 w)
  else if lat_id = 23 then some (baseco_23 w)
  else if lat_id = 26 then some (fco_26 w)
  else if lat_id = 28 then some (basecm_28 w)
  else if lat_id = 29 ∨ lat_id = 30 then some (basecm_29_30 w)
  else if lat_id = 32 then some (so_32 w)
  else if lat_id = 33 then some (sm_33 w)
  else if lat_id = 34 ∨ lat_id = 35 then some sm_34_35
  else if lat_id = 36 then some (baseco_36 w)
  else if lat_id = 40 then some (baseco_40 w)
  else if lat_id = 42 then some (bco_42 w)
  else if lat_id = 43 then some (basecm_43 w)
  else none

/-- An entry of `grids`, `grid_offsets`, `n_irr_kp` and `nt_kpts`. -/
structure Entry (G Off : Type) where
  sel : Selected G Off
  nt_kpts : ℤ

/-- The last branch of `find_grid`, `find_kgrids.f90:393-513`: the entries stored.  `try n` is the call of
the generator for the density `n`.  `fuel` bounds the number of passes. -/
def generalLoop {G Off : Type} (tryN : ℤ → Except GridErr (Tried G Off)) (s_range : ℕ) (kpd : ℤ) :
    ℕ → ℤ → List (Entry G Off) → Except GridErr (List (Entry G Off))
  | 0, _, _ => .error .running
  | fuel + 1, a_kpd, found =>
    if found.length < 5 ∨ (5 ≤ found.length ∧ a_kpd - kpd < s_range) then
      match tryN a_kpd with
      | .error e => .error e
      | .ok t =>
        match t.best with
        | some b =>
          if 1 < t.nhnfs then
            if found.length + 1 ≤ s_range then
              generalLoop tryN s_range kpd fuel (a_kpd + 1) (found ++ [⟨b, a_kpd⟩])
            else .error .bounds
          else generalLoop tryN s_range kpd fuel (a_kpd + 1) found
        | none => generalLoop tryN s_range kpd fuel (a_kpd + 1) found
    else .ok found

/-- The cubic branch, `find_kgrids.f90:337-373`: the arrays of size 5 (an entry that was not stored is
`none`) and `count`.  The entry of the `i`-th density is stored at the place `i`, which may be beyond 5. -/
def cubicLoop {G Off : Type} (tryN : ℤ → Except GridErr (Tried G Off)) :
    List ℤ → ℕ → List (Option (Entry G Off)) → ℕ → Except GridErr (List (Option (Entry G Off)) × ℕ)
  | [], _, arr, count => .ok (arr, count)
  | a_kpd :: rest, i, arr, count =>
    if count < 5 then
      match tryN a_kpd with
      | .error e => .error e
      | .ok t =>
        match t.best with
        | some b =>
          if i ≤ 5 then cubicLoop tryN rest (i + 1) (arr.set (i - 1) (some ⟨b, a_kpd⟩)) (count + 1)
          else .error .bounds
        | none => cubicLoop tryN rest (i + 1) arr count
    else .ok (arr, count)

/-- The triclinic branch, `find_kgrids.f90:374-392`: `tryN a` is the call of `tric_31_44` for `a` with the
multiplier `mult`. -/
def tricLoop {G Off : Type} (tryN : ℤ → Except GridErr (Tried G Off)) (mult : ℤ) :
    ℕ → ℤ → Except GridErr (Entry G Off)
  | 0, _ => .error .running
  | fuel + 1, a_kpd =>
    match tryN a_kpd with
    | .error e => .error e
    | .ok t =>
      match t.best with
      | some b => if 0 < t.nhnfs then .ok ⟨b, a_kpd * mult⟩ else tricLoop tryN mult fuel (a_kpd + 1)
      | none => tricLoop tryN mult fuel (a_kpd + 1)

/-- `real(n_irr_kp(i),dp)/real(nt_kpts(i),dp)`, `find_kgrids.f90:519`, in exact arithmetic. -/
def ratio {G Off : Type} (e : Entry G Off) : ℚ := (e.sel.n_irr : ℚ) / (e.nt_kpts : ℚ)

/-- The first entry of a list with the smallest value: `MINLOC` without a mask, `find_kgrids.f90:523`. -/
def minFirst {α : Type} (f : α → ℚ) : List α → Option α
  | [] => none
  | x :: l =>
    match minFirst f l with
    | none => some x
    | some y => if f y < f x then some y else some x

/-- The choice among the entries found, `find_kgrids.f90:516-534`, for the branches in which the first `count`
entries are the ones stored.  `n_irr_kp` is 0 in the other places, which the mask `n_irr_kp > 0` leaves out. -/
def choose {G Off : Type} (min_kpts : Bool) (kpd : ℤ) (found : List (Entry G Off)) :
    Except GridErr (Entry G Off) :=
  if 0 < found.length then
    if min_kpts = false ∧ 500 < kpd then
      match minFirst ratio found with
      | some e => .ok e
      | none => .error .bounds
    else
      match minFirst (fun e => (e.sel.n_irr : ℚ)) (found.filter fun e => decide (0 < e.sel.n_irr)) with
      | some e => .ok e
      | none => .error .bounds
  else .error .stop

/-- The choice in the cubic branch: `ratio` is formed from the first `count` places of the arrays, whether
they were stored or not.  A place that was not stored has `nt_kpts` undefined. -/
def chooseCubic {G Off : Type} (min_kpts : Bool) (kpd : ℤ) (arr : List (Option (Entry G Off))) (count : ℕ) :
    Except GridErr (Entry G Off) :=
  if 0 < count then
    if (arr.take count).all Option.isSome then
      if min_kpts = false ∧ 500 < kpd then
        match minFirst ratio ((arr.take count).filterMap id) with
        | some e => .ok e
        | none => .error .bounds
      else
        match minFirst (fun e => (e.sel.n_irr : ℚ))
            ((arr.filterMap id).filter fun e => decide (0 < e.sel.n_irr)) with
        | some e => .ok e
        | none => .error .bounds
    else .error .undefined
  else .error .stop

/-- The external code used for one lattice: the geometry of a grid, the numbers of irreducible k-points with
and without the user's `symm_flag`, and the comparison of lengths. -/
structure Lib (G Off : Type) where
  equal : ℚ → ℚ → Bool
  geom : Mat3 → Geom G
  gridOf : Mat3 → G
  irr : G → Off → Option ℕ
  irrDefault : G → Off → Option ℕ

/-- `find_grid` after the identification of the cell, `find_kgrids.f90:331-534`.  `root` is the cube root
computed in `get_kpd_cubic`, `fuel` bounds the number of passes of the loops. -/
def findGrid {G Off : Type} (lib : Lib G Off) (w : ℤ → ℤ) (eps : ℚ) (offsets : List Off) (min_kpts : Bool)
    (root : ℤ) (fuel : ℕ) (lat_id s_range : ℕ) (kpd : ℤ) : Except GridErr (Entry G Off) :=
  if lat_id = 3 ∨ lat_id = 5 ∨ lat_id = 1 then
    let gen : ℤ → List Mat3 := if lat_id = 3 then sc_3 else if lat_id = 5 then bcc_5 w else fcc_1
    match cubicLoop (fun n => tryCubic lib.gridOf lib.irr lib.irrDefault offsets (gen n))
        (get_kpd_cubic lat_id root kpd) 1 (List.replicate 5 none) 0 with
    | .error e => .error e
    | .ok (arr, count) => chooseCubic min_kpts kpd arr count
  else if lat_id = 44 ∨ lat_id = 31 then
    match get_kpd_tric kpd with
    | none => .error .running
    | some (a_kpd, mult) =>
      tricLoop (fun n => tryHNFs lib.equal eps lib.geom lib.irr lib.irrDefault offsets
        ((tric_31_44 n).map (mult • ·))) mult fuel a_kpd
  else
    match generatorOf w lat_id with
    | none => .error .undefined
    | some gen =>
      match generalLoop (fun n => tryHNFs lib.equal eps lib.geom lib.irr lib.irrDefault offsets (gen n))
          s_range kpd fuel kpd [] with
      | .error e => .error e
      | .ok found => choose min_kpts kpd found

/-! ## Tables -/

/-- `check_sym`, `find_kgrids.f90:179-250`, from the size of the point group on: `status`, or `none` for the
`stop`. -/
def check_sym (pg_size niggli_id : ℕ) : Option Bool :=
  if pg_size = 48 then some (niggli_id ∈ [1, 3, 5])
  else if pg_size = 24 then some (niggli_id ∈ [12, 22])
  else if pg_size = 12 then some (niggli_id ∈ [2, 4, 9, 24])
  else if pg_size = 16 then some (niggli_id ∈ [6, 7, 11, 15, 18, 21])
  else if pg_size = 8 then some (niggli_id ∈ [8, 13, 16, 19, 23, 26, 32, 40, 36, 38, 42])
  else if pg_size = 4 then
    some (niggli_id ∈ [10, 14, 17, 20, 25, 27, 28, 29, 30, 35, 33, 34, 41, 43, 37, 39])
  else if pg_size = 2 then some (niggli_id ∈ [44, 31])
  else none

/-- An offset, in fractions of the vectors of the grid. -/
abbrev Offset := ℚ × ℚ × ℚ

/-- `get_offsets`, `find_kgrids.f90:30-167`.  `eq12` is `equal(norms(1),norms(2),eps)`, and so on; `n1`,
`n2`, `n3` are the norms of the vectors. -/
def get_offsets (lat_id : ℕ) (eq12 eq13 eq23 : Bool) (n1 n2 n3 : ℚ) : List Offset :=
  if lat_id ∈ [1, 3, 5, 32, 33, 34, 35] then
    [(0, 0, 0), (1/2, 0, 0), (0, 1/2, 0), (1/2, 1/2, 0), (0, 0, 1/2), (0, 1/2, 1/2), (1/2, 0, 1/2),
      (1/2, 1/2, 1/2)]
  else if lat_id ∈ [12, 22, 4, 2, 9, 24, 6, 7, 15, 18] then
    if eq12 then [(0, 0, 0), (0, 0, 1/2)]
    else if eq13 then [(0, 0, 0), (0, 1/2, 0)]
    else if eq23 then [(0, 0, 0), (1/2, 0, 0)]
    else [(0, 0, 0), (0, 0, 1/2), (0, 1/2, 0), (1/2, 0, 0)]
  else if lat_id ∈ [11, 21] then
    if eq12 then [(0, 0, 0), (0, 0, 1/2), (1/2, 1/2, 0), (1/2, 1/2, 1/2)]
    else if eq13 then [(0, 0, 0), (0, 1/2, 0), (1/2, 0, 1/2), (1/2, 1/2, 1/2)]
    else if eq23 then [(0, 0, 0), (1/2, 0, 0), (0, 1/2, 1/2), (1/2, 1/2, 1/2)]
    else
      [(0, 0, 0), (1/2, 0, 0), (0, 1/2, 0), (1/2, 1/2, 0), (0, 0, 1/2), (0, 1/2, 1/2), (1/2, 0, 1/2),
        (1/2, 1/2, 1/2)]
  else if lat_id ∈ [16, 26] then [(0, 0, 0), (1/2, 1/2, 1/2)]
  else if lat_id ∈ [19, 8, 42] then [(0, 0, 0), (0, 0, 1/2), (0, 1/2, 0), (1/2, 0, 0)]
  else if lat_id ∈ [40, 38, 36, 23, 13, 10, 14, 17, 20, 25, 27, 28, 29, 30, 37, 39, 41, 43] then
    if n1 < n2 ∧ n1 < n3 then
      [(0, 0, 0), (0, 0, 1/2), (0, 1/2, 0), (0, 1/2, 1/2), (3/4, 1/4, 0), (3/4, 1/4, 1/2), (1/4, 1/4, 0),
        (1/4, 1/4, 1/2)]
    else if n2 < n1 ∧ n2 < n3 then
      [(0, 0, 0), (0, 0, 1/2), (1/2, 0, 0), (1/2, 0, 1/2), (1/4, 3/4, 0), (1/4, 3/4, 1/2), (1/4, 1/4, 0),
        (1/4, 1/4, 1/2)]
    else if n3 < n1 ∧ n3 < n2 then
      [(0, 0, 0), (0, 1/2, 0), (1/2, 0, 0), (1/2, 1/2, 0), (0, 1/4, 3/4), (1/2, 1/4, 3/4), (1/2, 1/4, 1/4),
        (1/2, 1/4, 1/4)]
    else
      [(0, 0, 0), (0, 1/2, 0), (1/2, 0, 0), (0, 0, 1/2), (1/2, 1/2, 0), (1/2, 0, 1/2), (0, 1/2, 1/2)]
  else if lat_id ∈ [31, 44] then [(0, 0, 0), (1/2, 1/2, 1/2)]
  else [(0, 0, 0), (1/2, 1/2, 1/2)]

end Fortran

end AutoGR
