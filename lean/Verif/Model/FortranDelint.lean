import Mathlib.Analysis.SpecialFunctions.Trigonometric.Inverse
import Mathlib.LinearAlgebra.Matrix.NonsingularInverse
import Mathlib.LinearAlgebra.Matrix.Notation

/-!
# Model of `delinter.f90`

Real numbers are exact.  `none` stands for NaN, a division by zero, an undefined result or a stop.  The literals
`3.1415926535897931_dp` and `1.910633236249019_dp` are `π` and `arccos (-1/3)`.  The comparisons `equal` of the
library `symlib` are parameters.  The program does not call `delint`; it is the public routine of its module.
-/

namespace AutoGR.Fortran

open Matrix

/-- The cell parameters `a, b, c, alpha, beta, gamma` (`params(6)`, `delinter.f90:22`). -/
@[ext] structure Params where
  a : ℝ
  b : ℝ
  c : ℝ
  alpha : ℝ
  beta : ℝ
  gamma : ℝ

/-- `cell2basis`, `delinter.f90:21-45`. -/
noncomputable def cell2basis (p : Params) : Option (Matrix (Fin 3) (Fin 3) ℝ) :=
  if Real.sin p.gamma = 0 then none
  else
    let temp := (Real.cos p.alpha - Real.cos p.beta * Real.cos p.gamma) / Real.sin p.gamma
    if 1 - Real.cos p.beta ^ 2 - temp ^ 2 < 0 then none
    else some !![p.a, p.b * Real.cos p.gamma, p.c * Real.cos p.beta;
                 0, p.b * Real.sin p.gamma, p.c * temp;
                 0, 0, p.c * Real.sqrt (1 - Real.cos p.beta ^ 2 - temp ^ 2)]

/-- `cosangs`, `delinter.f90:53-58`. -/
noncomputable def cosangs (v w : Fin 3 → ℝ) : ℝ := v ⬝ᵥ w / (Real.sqrt (v ⬝ᵥ v) * Real.sqrt (w ⬝ᵥ w))

/-- `basis2cell`, `delinter.f90:65-82`, for vectors that are not zero. -/
noncomputable def basis2cell (V : Matrix (Fin 3) (Fin 3) ℝ) : Params where
  a := Real.sqrt (V.col 0 ⬝ᵥ V.col 0)
  b := Real.sqrt (V.col 1 ⬝ᵥ V.col 1)
  c := Real.sqrt (V.col 2 ⬝ᵥ V.col 2)
  alpha := Real.arccos (cosangs (V.col 1) (V.col 2))
  beta := Real.arccos (cosangs (V.col 0) (V.col 2))
  gamma := Real.arccos (cosangs (V.col 0) (V.col 1))

/-- `acos(x/y)`, as in `delinter.f90:150`; defined for `|x/y| ≤ 1` only. -/
noncomputable def acos (x y : ℝ) : Option ℝ :=
  if y ≠ 0 ∧ -1 ≤ x / y ∧ x / y ≤ 1 then some (Real.arccos (x / y)) else none

/-- `out_params`, `delinter.f90:437-442`: undefined if one of the angles is. -/
def params (a b c : ℝ) (alpha beta gamma : Option ℝ) : Option Params :=
  alpha.bind fun alpha => beta.bind fun beta => gamma.bind fun gamma => some ⟨a, b, c, alpha, beta, gamma⟩

/-- `symmetrize`, `delinter.f90:93-443`. -/
noncomputable def symmetrize (equal : ℝ → ℝ → Bool) (p : Params) (case : ℕ) : Option Params :=
  let a0 := p.a
  let b0 := p.b
  let c0 := p.c
  let alpha0 := p.alpha
  let beta0 := p.beta
  let gamma0 := p.gamma
  if case = 1 then
    let a := (a0 + b0 + c0) / 3
    let b := (a0 + b0 + c0) / 3
    let c := (a0 + b0 + c0) / 3
    params a b c (some (Real.pi / 3)) (some (Real.pi / 3)) (some (Real.pi / 3))
  else if case = 2 ∨ case = 4 then
    let a := (a0 + b0 + c0) / 3
    let b := (a0 + b0 + c0) / 3
    let c := (a0 + b0 + c0) / 3
    params a b c (some ((alpha0 + beta0 + gamma0) / 3))
      (some ((alpha0 + beta0 + gamma0) / 3)) (some ((alpha0 + beta0 + gamma0) / 3))
  else if case = 3 then
    let a := (a0 + b0 + c0) / 3
    let b := (a0 + b0 + c0) / 3
    let c := (a0 + b0 + c0) / 3
    params a b c (some (Real.pi / 2)) (some (Real.pi / 2)) (some (Real.pi / 2))
  else if case = 5 then
    let a := (a0 + b0 + c0) / 3
    let b := (a0 + b0 + c0) / 3
    let c := (a0 + b0 + c0) / 3
    params a b c (some (Real.arccos (-1 / 3))) (some (Real.arccos (-1 / 3))) (some (Real.arccos (-1 / 3)))
  else if case = 6 then
    let a := (a0 + b0 + c0) / 3
    let b := (a0 + b0 + c0) / 3
    let c := (a0 + b0 + c0) / 3
    params a b c (acos ((((a ^ 2 + b ^ 2) / 2) - Real.cos gamma0 * a * c) / 2) (b + c))
      (acos ((((a ^ 2 + b ^ 2) / 2) - Real.cos gamma0 * a * c) / 2) (b + c)) (some gamma0)
  else if case = 7 then
    let a := (a0 + b0 + c0) / 3
    let b := (a0 + b0 + c0) / 3
    let c := (a0 + b0 + c0) / 3
    params a b c (acos (((a ^ 2 + b ^ 2) / 2) - 2 * Real.cos gamma0 * a * c) (b + c))
      (some ((beta0 + gamma0) / 2)) (some ((beta0 + gamma0) / 2))
  else if case = 8 then
    let a := (a0 + b0 + c0) / 3
    let b := (a0 + b0 + c0) / 3
    let c := (a0 + b0 + c0) / 3
    params a b c (acos (((a ^ 2 + b ^ 2) / 2) - Real.cos gamma0 * a * c - Real.cos beta0 * a * b) (b * c))
      (some beta0) (some gamma0)
  else if case = 9 then
    let a := (a0 + b0) / 2
    let b := (a0 + b0) / 2
    let c := c0
    params a b c (acos (a * a) (2 * b * c)) (acos (a * a) (2 * a * c)) (some (Real.pi / 3))
  else if case = 10 then
    let a := (a0 + b0) / 2
    let b := (a0 + b0) / 2
    let c := c0
    params a b c (some ((alpha0 + beta0) / 2)) (some ((alpha0 + beta0) / 2)) (some gamma0)
  else if case = 11 then
    let a := (a0 + b0) / 2
    let b := (a0 + b0) / 2
    let c := c0
    params a b c (some (Real.pi / 2)) (some (Real.pi / 2)) (some (Real.pi / 2))
  else if case = 12 then
    let a := (a0 + b0) / 2
    let b := (a0 + b0) / 2
    let c := c0
    params a b c (some (Real.pi / 2)) (some (Real.pi / 2)) (some (Real.pi / 3))
  else if case = 13 then
    let a := (a0 + b0) / 2
    let b := (a0 + b0) / 2
    let c := c0
    params a b c (some (Real.pi / 2)) (some (Real.pi / 2)) (some gamma0)
  else if case = 15 then
    let a := (a0 + b0) / 2
    let b := (a0 + b0) / 2
    let c := c0
    params a b c (acos (-(a * a)) (2 * b * c)) (acos (-(a * a)) (2 * a * c)) (some (Real.pi / 2))
  else if case = 16 then
    let a := (a0 + b0) / 2
    let b := (a0 + b0) / 2
    let c := c0
    (some (Real.pi / 2)).bind fun gamma =>
    params a b c (acos (((a * a + b * b) / 2 - Real.cos gamma * a * c) / 2) (b * c))
      (acos (((a * a + b * b) / 2 - Real.cos gamma * a * c) / 2) (a * c)) (some gamma)
  else if case = 14 then
    let a := (a0 + b0) / 2
    let b := (a0 + b0) / 2
    let c := c0
    params a b c (some ((alpha0 + beta0) / 2)) (some ((alpha0 + beta0) / 2)) (some gamma0)
  else if case = 17 then
    let a := (a0 + b0) / 2
    let b := (a0 + b0) / 2
    let c := c0
    params a b c (acos ((a * a + b * b) / 2 - Real.cos gamma0 * a * c - Real.cos beta0 * a * b) (b * c))
      (some beta0) (some gamma0)
  else if case = 18 then
    let a := a0
    let b := (c0 + b0) / 2
    let c := (c0 + b0) / 2
    params a b c (acos (a * a) (4 * b * c)) (acos (a * a) (2 * a * c)) (acos (a * a) (2 * a * b))
  else if case = 19 then
    let a := a0
    let b := (c0 + b0) / 2
    let c := (c0 + b0) / 2
    params a b c (some alpha0) (acos (a * a) (2 * a * c)) (acos (a * a) (2 * a * b))
  else if case = 20 ∨ case = 25 then
    let a := a0
    let b := (c0 + b0) / 2
    let c := (c0 + b0) / 2
    params a b c (some alpha0) (some ((beta0 + gamma0) / 2)) (some ((beta0 + gamma0) / 2))
  else if case = 21 then
    let a := a0
    let b := (c0 + b0) / 2
    let c := (c0 + b0) / 2
    params a b c (some (Real.pi / 2)) (some (Real.pi / 2)) (some (Real.pi / 2))
  else if case = 22 then
    let a := a0
    let b := (c0 + b0) / 2
    let c := (c0 + b0) / 2
    params a b c (acos (-(b * b)) (2 * b * c)) (some (Real.pi / 2)) (some (Real.pi / 2))
  else if case = 23 then
    let a := a0
    let b := (c0 + b0) / 2
    let c := (c0 + b0) / 2
    params a b c (some alpha0) (some (Real.pi / 2)) (some (Real.pi / 2))
  else if case = 24 then
    let a := a0
    let b := (c0 + b0) / 2
    let c := (c0 + b0) / 2
    (acos (-(a * a)) (3 * a * b)).bind fun gamma =>
    (acos (-(a * a)) (3 * a * c)).bind fun beta =>
    (acos ((a * a + b * b) * 2 - Real.cos gamma * a * c - Real.cos beta * a * b) (b * c)).bind fun alpha =>
    some ⟨a, b, c, alpha, beta, gamma⟩
  else if case = 26 then
    let a := a0
    let b := b0
    let c := c0
    params a b c (acos (a * a) (4 * b * c)) (acos (-(a * a)) (2 * a * c)) (acos (-(a * a)) (2 * a * b))
  else if case = 27 then
    let a := a0
    let b := b0
    let c := c0
    params a b c (some alpha0) (acos (-(a * a)) (2 * a * c)) (acos (-(a * a)) (2 * a * b))
  else if case = 28 then
    let a := a0
    let b := b0
    let c := c0
    params a b c (some alpha0) (acos (-(a * a)) (2 * a * c)) (acos (2 * Real.cos alpha0 * b * c) (a * b))
  else if case = 29 then
    let a := a0
    let b := b0
    let c := c0
    params a b c (some alpha0) (acos (2 * Real.cos alpha0 * b * c) (a * c)) (acos (a * a) (2 * a * b))
  else if case = 30 then
    let a := a0
    let b := b0
    let c := c0
    params a b c (acos (b * b) (2 * b * c)) (some beta0) (acos (2 * Real.cos beta0 * a * c) (a * b))
  else if case = 31 ∨ case = 44 then
    let a := a0
    let b := b0
    let c := c0
    params a b c (some alpha0) (some beta0) (some gamma0)
  else if case = 32 then
    let a := a0
    let b := b0
    let c := c0
    params a b c (some (Real.pi / 2)) (some (Real.pi / 2)) (some (Real.pi / 2))
  else if case = 40 then
    let a := a0
    let b := b0
    let c := c0
    params a b c (acos (-(b * b)) (2 * b * c)) (some (Real.pi / 2)) (some (Real.pi / 2))
  else if case = 35 then
    let a := a0
    let b := b0
    let c := c0
    params a b c (some alpha0) (some (Real.pi / 2)) (some (Real.pi / 2))
  else if case = 36 then
    let a := a0
    let b := b0
    let c := c0
    params a b c (some (Real.pi / 2)) (acos (-(a * a)) (2 * a * c)) (some (Real.pi / 2))
  else if case = 33 then
    let a := a0
    let b := b0
    let c := c0
    params a b c (some (Real.pi / 2)) (some beta0) (some (Real.pi / 2))
  else if case = 38 then
    let a := a0
    let b := b0
    let c := c0
    params a b c (some (Real.pi / 2)) (some (Real.pi / 2)) (acos (-(a * a)) (2 * a * b))
  else if case = 34 then
    let a := a0
    let b := b0
    let c := c0
    params a b c (some (Real.pi / 2)) (some (Real.pi / 2)) (some gamma0)
  else if case = 42 then
    let a := a0
    let b := b0
    let c := c0
    params a b c (acos (-(b * b)) (2 * b * c)) (acos (-(a * a)) (2 * a * c)) (some (Real.pi / 2))
  else if case = 41 then
    let a := a0
    let b := b0
    let c := c0
    params a b c (acos (-(b * b)) (2 * b * c)) (some beta0) (some (Real.pi / 2))
  else if case = 37 then
    let a := a0
    let b := b0
    let c := c0
    params a b c (some alpha0) (acos (-(a * a)) (2 * a * c)) (some (Real.pi / 2))
  else if case = 39 then
    let a := a0
    let b := b0
    let c := c0
    params a b c (some alpha0) (some (Real.pi / 2)) (acos (-(a * a)) (2 * a * b))
  else if case = 43 then
    let a := a0
    let b := b0
    let c := c0
    let temp := (a * a + b * b) / 2 - Real.cos gamma0 * a * c - Real.cos beta0 * a * b
    if equal (2 * temp * Real.cos gamma0 * a * b) (b * b) then
      params a b c (acos temp (b * c)) (some beta0) (some gamma0)
    else
      let temp := -(a * a + b * b) / 2 - Real.cos gamma0 * a * c - Real.cos beta0 * a * b
      params a b c (acos temp (b * c)) (some beta0) (some gamma0)
  else none

/-- `delint`, `delinter.f90:455-490`.  `close` is `equal` for matrices. -/
noncomputable def delint (equal : ℝ → ℝ → Bool)
    (close : Matrix (Fin 3) (Fin 3) ℝ → Matrix (Fin 3) (Fin 3) ℝ → Bool) (in_vecs : Matrix (Fin 3) (Fin 3) ℝ)
    (case : ℕ) : Option (Matrix (Fin 3) (Fin 3) ℝ) :=
  let in_params := basis2cell in_vecs
  (cell2basis in_params).bind fun canonical_basis =>
    if canonical_basis.det = 0 then none
    else
      let rot_mat := in_vecs * canonical_basis⁻¹
      if close (rot_mat * rot_matᵀ) 1 then
        (symmetrize equal in_params case).bind fun c_params =>
          (cell2basis c_params).bind fun fixed_basis => some (rot_mat * fixed_basis)
      else none

end AutoGR.Fortran
