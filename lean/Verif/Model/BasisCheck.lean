import Verif.Model.Universal

/-!
# `basis_check.py`: the lists of densities and the choice of the generator in `cell_test`
-/

namespace AutoGR

/-- Python `range(start,stop,step)` for `step ≥ 1`, as used in `basis_check.py:372` and `:391`. -/
def pyRange3 (start stop step : ℤ) : List ℤ :=
  (pyRangeStep (stop - start) step).map fun x => start + x

/-- The two nested loops of `basis_check.py:371-375` and `:390-394`: `k` in the list `ks`, `m` in the list
`ms`, appending `m*(k**3)` when it is at most `kmax` and not yet in the list. -/
def kpsLoop (ms : List ℤ) (kmax : ℤ) (ks : List ℤ) : List ℤ :=
  ks.foldl (fun kpds k =>
    ms.foldl (fun kpds m =>
      let p := m * k ^ 3
      if p ≤ kmax ∧ p ∉ kpds then kpds ++ [p] else kpds) kpds) []

/-- `sc_and_bcc_kps(kmax)`, `basis_check.py:360-377`.  The list of the multipliers is
`range(1,2,4)`. -/
def scAndBccKps (kmax : ℤ) : List ℤ := kpsLoop (pyRange3 1 2 4) kmax (pyRange 0 kmax)

/-- `fcc_kps(kmax)`, `basis_check.py:379-396`.  The list of the multipliers is `range(1,4,16)`. -/
def fccKps (kmax : ℤ) : List ℤ := kpsLoop (pyRange3 1 4 16) kmax (pyRange 0 kmax)

/-- The generator that `cell_test` calls for class `k`, `basis_check.py:55-351`; `none` when the
attribute it names does not exist in its module (`body_tet_6`, `body_tet_7`, `rhom_9`,
`base_mono_10_17`, `base_mono_14`, `body_tet_15`, `body_tet_18`, `rhom_24`, `base_mono_27`,
`base_mono_37_39`, `base_mono_41`), so that Python raises `AttributeError`. -/
def cellTestGen (fl : ℚ → ℚ) (k : ℕ) : Option (ℤ → List Mat3) :=
  match k with
  | 1 => some (fcc_1 fl)
  | 2 => some (rhom_4_2 fl)
  | 3 => some (sc_3 fl)
  | 4 => some (rhom_4_2 fl)
  | 5 => some (bcc_5 fl)
  | 8 => some (body_ortho_8 fl)
  | 11 => some (stet_11 fl)
  | 12 => some (hex_12 fl)
  | 13 => some (base_ortho_38_13 fl)
  | 16 => some (face_ortho_16 fl)
  | 19 => some (body_ortho_19 fl)
  | 20 => some (base_mono_20_25 fl)
  | 21 => some (stet_21 fl)
  | 22 => some (hex_22 fl)
  | 23 => some (base_ortho_23 fl)
  | 25 => some (base_mono_20_25 fl)
  | 26 => some (face_ortho_26 fl)
  | 28 => some (base_mono_28 fl)
  | 29 => some (base_mono_29_30 fl)
  | 30 => some (base_mono_29_30 fl)
  | 32 => some so_32
  | 33 => some (sm_33 fl)
  | 34 => some sm_34
  | 35 => some sm_35
  | 36 => some (base_ortho_36 fl)
  | 38 => some (base_ortho_38_13 fl)
  | 40 => some (base_ortho_40 fl)
  | 42 => some (body_ortho_42 fl)
  | 43 => some (base_mono_43 fl)
  | _ => none

/-- The densities `cell_test` loops over for class `k`, `basis_check.py:56`, `:64` and so on. -/
def cellTestKpds (k : ℕ) (maxKpd : ℤ) : List ℤ :=
  if k = 1 then fccKps maxKpd
  else if k = 3 ∨ k = 5 then scAndBccKps maxKpd
  else pyRange 0 maxKpd

/-- The loop over the densities in one branch of `cell_test`, for instance `basis_check.py:57-61`.  `test`
stands for `_test_case(U,Nu,Cu,O,No,Co,U_lat_fam,HNFs)` (`basis_check.py:398-430`), whose floating point
comparisons are not modelled. -/
def cellTestLoop (gen : Option (ℤ → List Mat3)) (test : List Mat3 → Except PyErr Bool) :
    List ℤ → Except PyErr Bool
  | [] => .ok true
  | kpd :: kpds =>
    match gen with
    | none => .error .attributeError
    | some g =>
      match test (g kpd) with
      | .error e => .error e
      | .ok false => .ok false
      | .ok true => cellTestLoop gen test kpds

/-- `cell_test(U,count,max_kpd_)` after the identification gave class `k`, `basis_check.py:55-358`: the
verdict.  `count`, which is only incremented, is left out. -/
def cellTest (fl : ℚ → ℚ) (test : List Mat3 → Except PyErr Bool) (k : ℕ) (maxKpd : ℤ) :
    Except PyErr Bool :=
  if k = 31 ∨ k = 44 then .ok true
  else if k ∈ List.range 45 ∧ k ≠ 0 then cellTestLoop (cellTestGen fl k) test (cellTestKpds k maxKpd)
  else .ok true

end AutoGR
