import Mathlib.Data.List.Sort
import Mathlib.LinearAlgebra.Matrix.NonsingularInverse
import Verif.Model.Generators
import Verif.Model.LatId

/-!
# `universal.py`: choosing the volumes, collecting the HNFs, transforming to the user's basis
-/

namespace AutoGR

/-- The `while nb**3<nmax` loop of the cubic branches of `find_volumes`, `universal.py:338-343`
and `:350-355`: what it appends to `ns`.  `ms` is `[1,2,4]` or `[1,4,16]`. -/
def cubicLoop (ms : List ℤ) (kpd nmax nb : ℤ) : List ℤ :=
  if nb ^ 3 < nmax then
    let nc := nb ^ 3
    (ms.map (· * nc)).filter (fun v => kpd ≤ v) ++ cubicLoop ms kpd nmax (nb + 1)
  else []
termination_by (1 + |nmax| - nb).toNat
decreasing_by
  rename_i h
  have h1 : nb < 1 + |nmax| := by
    by_contra hc
    have h0 : nmax ≤ |nmax| := le_abs_self _
    have h2 : 0 ≤ |nmax| := abs_nonneg _
    have h3 : nb ≤ nb ^ 3 := by nlinarith [sq_nonneg (nb - 1)]
    omega
  omega

/-- The `while mult == None` loop of the triclinic branch, `universal.py:360-368`: `ns[0]` and
`mult`.  `test = nt/tmult**3` is one float division.  The loop counter starts at 1 and goes up by
one; `fuel` bounds the number of passes, and `none` (out of fuel) stands for a loop that does not
end. -/
def tricLoop (fl : ℚ → ℚ) (kpd : ℤ) : ℕ → ℤ → Option (ℤ × ℤ)
  | 0, _ => none
  | fuel + 1, tmult =>
    let test := fdiv fl kpd ((tmult ^ 3 : ℤ) : ℚ)
    if test ≤ 100 then some (⌊test⌋, tmult) else tricLoop fl kpd fuel (tmult + 1)

/-- `find_volumes(lat_type,kpd)`, `universal.py:317-373`: `ns` and `mult`.  `root` is the value of
`floor(nt**(1.0/3.0))` (lines 336 and 348), a float computation that may be one too small at perfect
cubes; see the theorems for what is assumed of it. -/
def findVolumes (fl : ℚ → ℚ) (root : ℤ) (latType : ℕ) (kpd : ℤ) :
    Except PyErr (List ℤ × Option ℤ) :=
  if latType = 3 ∨ latType = 5 then
    let ns := cubicLoop [1, 2, 4] kpd (kpd + 1000) (root - 1)
    .ok ((ns.insertionSort (· ≤ ·)).take 3, none)
  else if latType = 1 then
    let ns := cubicLoop [1, 4, 16] kpd (kpd + 1000) (root - 1)
    .ok ((ns.insertionSort (· ≤ ·)).take 3, none)
  else if latType = 31 ∨ latType = 44 then
    match tricLoop fl kpd (kpd.toNat + 1) 1 with
    | some (nl, mult) => .ok ([nl], some mult)
    | none => .error .nonTermination
  else .ok (pyRange kpd (kpd + 11), none)

/-- The loop over the volumes common to all branches of `find_supercells` but the cubic and triclinic
ones, for instance `universal.py:120-133`: what is appended to `spHNFs`, starting with the given
value of `count`. -/
def pickLoop (gen : ℤ → List Mat3) (exact : Bool) : ℕ → List ℤ → List Mat3
  | _, [] => []
  | count, n :: ns =>
    let temp := gen n
    let several := 1 < temp.length ∧ exact = false
    let count' := if several then count + 1 else count
    let out := if several then temp else if exact then temp else []
    if count' = 5 then out else out ++ pickLoop gen exact count' ns

/-- The choice of the generator in the branches of `find_supercells` other than the cubic and
triclinic ones, `universal.py:118-285`. -/
def generatorOf (fl : ℚ → ℚ) (k : ℕ) : Option (ℤ → List Mat3) :=
  if k ∈ [12, 22] then
    if k = 12 then some (hex_12 fl) else some (hex_22 fl)
  else if k ∈ [9, 4, 2, 24] then
    if k = 9 ∨ k = 24 then some (rhom_9_24 fl) else some (rhom_4_2 fl)
  else if k ∈ [11, 21] then
    if k = 11 then some (stet_11 fl) else some (stet_21 fl)
  else if k ∈ [15, 7, 6, 18] then some (body_tet_6_7_15_18 fl)
  else if k = 32 then some so_32
  else if k ∈ [38, 13, 23, 40, 36] then
    if k = 23 then some (base_ortho_23 fl)
    else if k = 36 then some (base_ortho_36 fl)
    else if k = 40 then some (base_ortho_40 fl)
    else some (base_ortho_38_13 fl)
  else if k ∈ [19, 8, 42] then
    if k = 19 then some (body_ortho_19 fl)
    else if k = 8 then some (body_ortho_8 fl)
    else some (body_ortho_42 fl)
  else if k ∈ [26, 16] then
    if k = 26 then some (face_ortho_26 fl) else some (face_ortho_16 fl)
  else if k ∈ [33, 34, 35] then
    if k = 33 then some (sm_33 fl)
    else if k = 34 then some sm_34
    else some sm_35
  else if k ∈ [14, 10, 17, 20, 25, 27, 28, 29, 30, 41, 37, 39, 43] then
    if k = 28 then some (base_mono_28 fl)
    else if k = 43 then some (base_mono_43 fl)
    else if k ∈ [20, 25] then some (base_mono_20_25 fl)
    else if k ∈ [29, 30] then some (base_mono_29_30 fl)
    else some (base_mono_10_14_17_27_37_39_41 fl)
  else none

/-- The branches of `find_supercells`, `universal.py:95-311`: the list `spHNFs` from the volumes `ns` and
the multiplier `mult` (`None` unless the lattice is triclinic or `exact` is set). -/
def collectHNFs (fl : ℚ → ℚ) (k : ℕ) (exact : Bool) (ns : List ℤ) (mult : Option ℤ) :
    Except PyErr (List Mat3) :=
  if k = 3 then .ok (ns.flatMap (sc_3 fl))
  else if k = 5 then .ok (ns.flatMap (bcc_5 fl))
  else if k = 1 then .ok (ns.flatMap (fcc_1 fl))
  else
    match generatorOf fl k with
    | some gen => .ok (pickLoop gen exact 0 ns)
    | none =>
      if k ∈ [31, 44] then
        match mult with
        | some m => .ok (ns.flatMap fun n => (tric_31_44 n).map fun H => m • H)
        | none => .error .typeError
      else .error .valueError

/-- `find_supercells` between the identification and the transformation, `universal.py:90-311`. -/
def selectHNFs (fl : ℚ → ℚ) (root : ℤ) (k : ℕ) (kpt : ℤ) (exact : Bool) :
    Except PyErr (List Mat3) :=
  if exact then collectHNFs fl k exact [kpt] (some 1)
  else
    match findVolumes fl root k kpt with
    | .error e => .error e
    | .ok (ns, mult) => collectHNFs fl k exact ns mult

section Transform

variable {K : Type} [Field K]

/-- An integer matrix as a matrix of numbers (numpy's promotion, `universal.py:27-29`). -/
def castMat (M : Mat3) : Matrix (Fin 3) (Fin 3) K := M.map (fun z => (z : K))

/-- One pass of the loop of `transform_supercells`, `universal.py:26-30`, in exact arithmetic. -/
noncomputable def transformOne (No Nu Co Cu O : Matrix (Fin 3) (Fin 3) K) (H : Mat3) :
    Matrix (Fin 3) (Fin 3) K :=
  let L := O * castMat H * O⁻¹
  let F := No⁻¹ * (L * O * Co)
  Nu * F * Cu⁻¹

/-- `transform_supercells(spHNFs,No,Nu,Co,Cu,O)`, `universal.py:5-32`. -/
noncomputable def transformSupercells (spHNFs : List Mat3)
    (No Nu Co Cu O : Matrix (Fin 3) (Fin 3) K) : List (Matrix (Fin 3) (Fin 3) K) :=
  spHNFs.map (transformOne No Nu Co Cu O)

end Transform

/-- A 3×3 numpy array as a matrix (`universal.py:62`). -/
def RMat.toMatrix {K : Type} (A : RMat K) : Matrix (Fin 3) (Fin 3) K :=
  !![A.m00, A.m01, A.m02; A.m10, A.m11, A.m12; A.m20, A.m21, A.m22]

/-- `find_supercells(U,kpt,exact)`, `universal.py:58-315`, in exact rational arithmetic but for the
rounding `fl` of the generators and the cube root `root` (see `findVolumes`).  The attribute
`niggli` of a reduced cell is the cell times `C` (`pyniggli.py:76`). -/
noncomputable def findSupercells (fl : ℚ → ℚ) (root : ℤ) (U : RMat ℚ) (kpt : ℤ) (exact : Bool) :
    Except PyErr (List (Matrix (Fin 3) (Fin 3) ℚ)) :=
  match niggliId U none with
  | .error e => .error e
  | .ok k =>
    match reducedCell U none with
    | .error e => .error e
    | .ok Cu =>
      match (if k ∈ [31, 44] then some U else canonBasis k) with
      | none => .error .typeError
      | some basis =>
        match reducedCell basis none with
        | .error e => .error e
        | .ok Co =>
          match selectHNFs fl root k kpt exact with
          | .error e => .error e
          | .ok spHNFs =>
            .ok (transformSupercells spHNFs (basis.toMatrix * castMat Co.toMat)
              (U.toMatrix * castMat Cu.toMat) (castMat Co.toMat) (castMat Cu.toMat) basis.toMatrix)

end AutoGR
