import Verif.Lemmas.FortranNiggli
import Verif.Props.NiggliScale
import Verif.Props.NiggliTotal
import Verif.Spec.Boundary

/-! # C61, C62, C66: `reduce_cell` of `niggli.f90` -/

namespace AutoGR

open Spec

/-! ## C61 -/

private theorem fTol_nonneg {U : RMat ℚ} {eps : Option ℚ} (he : ∀ e, eps = some e → 0 ≤ e) :
    0 ≤ fTol U eps := by
  unfold fTol
  refine mul_nonneg ?_ ?_
  · cases eps with
    | none => norm_num
    | some e => exact he e rfl
  · simp only [Arith.cbrt]
    positivity

/-- The matrix `reduce_cell` returns is the one the loop of `reduced_cell` ends with, and a pass of that
loop on it changes nothing. -/
private theorem reduceCell_end {equal : ℚ → ℚ → ℚ → Bool} {U : RMat ℚ} {eps : Option ℚ} {C : IMat}
    (h : reduceCell equal U eps = .ok C) :
    C.toMat.det = 1 ∧ niggliPass U (fTol U eps) C = (C, true) ∧
      fCheck (getParams U (fTol U eps) C) (fTol U eps) = true := by
  obtain ⟨-, n, hn, hl, hc⟩ := reduceCell_ok.1 h
  have hd := det_loop U (fTol U eps) 1001 0 det_one
  rw [hl] at hd
  obtain ⟨C0, h0⟩ := niggliLoop_end 1001 0 hl (by omega)
  have hC0 := (niggliPass_true h0).1
  subst hC0
  exact ⟨hd, h0, hc⟩

/-- C61, the lattice: whenever `reduce_cell` returns, its matrix has determinant 1 and an integer inverse,
so the new cell spans the same lattice. -/
theorem reduceCell_same_lattice (equal : ℚ → ℚ → ℚ → Bool) (U : RMat ℚ) (eps : Option ℚ) (C : IMat)
    (h : reduceCell equal U eps = .ok C) :
    C.toMat.det = 1 ∧ ∃ D : IntMat, C.toMat * D = 1 ∧ D * C.toMat = 1 := by
  have hdet := (reduceCell_end h).1
  have hd : IsUnit C.toMat.det := by rw [hdet]; exact isUnit_one
  exact ⟨hdet, C.toMat⁻¹, Matrix.mul_nonsing_inv _ hd, Matrix.nonsing_inv_mul _ hd⟩

/-- C61, the conditions: whenever `reduce_cell(IN,eps)` returns, the new cell meets all Niggli conditions up
to the absolute tolerance `eps * s`, with no relative tolerance, where `s` is the cube root of the volume of
the cell (cut after 15 decimals) and a missing `eps` means `1e-5`. -/
theorem reduceCell_niggliUpTo (equal : ℚ → ℚ → ℚ → Bool) (U : RMat ℚ) (eps : Option ℚ) (C : IMat)
    (h : reduceCell equal U eps = .ok C) (he : ∀ e, eps = some e → 0 ≤ e)
    (hvol : |U.toMatrix.det| < 10 ^ 27) :
    ∃ s : ℚ, 0 ≤ s ∧ s ^ 3 ≤ |U.toMatrix.det| ∧ |U.toMatrix.det| < (s + 1 / 10 ^ 15) ^ 3 ∧
      NiggliUpTo ((eps.getD (1 / 100000)) * s) 0 ((eps.getD (1 / 100000)) * s)
        (gram U C 0 0) (gram U C 1 1) (gram U C 2 2) (gram U C 1 2) (gram U C 0 2) (gram U C 0 1) := by
  obtain ⟨-, hp, hc⟩ := reduceCell_end h
  obtain ⟨h0, h1, h2⟩ := cbrt_spec (abs_nonneg _) hvol
  refine ⟨Arith.cbrt |U.toMatrix.det|, h0, h1, h2, ?_⟩
  have ht : fTol U eps = eps.getD (1 / 100000) * Arith.cbrt |U.toMatrix.det| := by
    rw [fTol, rdet_eq]
  rw [← ht]
  obtain ⟨eA, eB, eC, eD, eE, eF⟩ := getParams_metric U (fTol U eps) C
  have hpos := ((fCheck_iff eD eE eF).1 hc).1.1
  rw [eA] at hpos
  exact (niggliUpTo_of_pass (fTol_nonneg he) hp hpos).2

/-- C61, exactly: with tolerance 0 a cell returned by `reduce_cell` meets all Niggli conditions. -/
theorem reduceCell_exact (equal : ℚ → ℚ → ℚ → Bool) (U : RMat ℚ) (C : IMat) (hU : U.toMatrix.det ≠ 0)
    (h : reduceCell equal U (some 0) = .ok C) :
    NiggliReduced (gram U C 0 0 : ℚ) (gram U C 1 1 : ℚ) (gram U C 2 2 : ℚ) (gram U C 1 2 : ℚ)
      (gram U C 0 2 : ℚ) (gram U C 0 1 : ℚ) := by
  obtain ⟨hd, hp, -⟩ := reduceCell_end h
  have hz : fTol U (some 0) = 0 := zero_mul _
  rw [hz] at hp
  exact niggliPass_true_reduced hU hd hp

/-- C61, the two programs: if both `reduce_cell` (Fortran) and `reduced_cell` (Python) return, they return
the same matrix. -/
theorem reduceCell_eq_reducedCell (equal : ℚ → ℚ → ℚ → Bool) (U : RMat ℚ) (eps : Option ℚ) (C C' : IMat)
    (h : reduceCell equal U eps = .ok C) (h' : reducedCell U eps = .ok C') : C = C' := by
  obtain ⟨-, n, -, hl, -⟩ := reduceCell_ok.1 h
  obtain ⟨n', -, h2⟩ := reducedCell_loop h'
  have : Arith.mul (eps.getD (Arith.ofRat (1 / 100000))) (Arith.cbrt (Arith.abs (rdet U))) = fTol U eps := rfl
  rw [this, hl] at h2
  exact congrArg Prod.fst h2

/-- The comparison used in the examples. -/
def cmpEqual (a b tol : ℚ) : Bool := decide (|a - b| < tol)

/-- The hypotheses are met by a cell that has to be changed. -/
example : reduceCell cmpEqual (⟨1, 0, 3, 0, 2, 1, 0, 0, 5⟩ : RMat ℚ) none = .ok ⟨-1, 0, -3, 0, -1, 0, 0, 0, 1⟩ ∧
    reducedCell (⟨1, 0, 3, 0, 2, 1, 0, 0, 5⟩ : RMat ℚ) none = .ok ⟨-1, 0, -3, 0, -1, 0, 0, 0, 1⟩ := by
  constructor <;> decide +kernel

example : reduceCell cmpEqual (⟨1, 1 / 4, 1 / 3, 0, 2, 7 / 3, 0, 0, 5⟩ : RMat ℚ) (some 0) =
    .ok ⟨1, 0, 0, 0, 1, -1, 0, 0, 1⟩ := by decide +kernel

/-! ## C62 -/

/-- C62 is false of the code: `condition_check` asks for `<` where the loop asks for `<=`, so a cell can be
left alone by the loop and then be rejected.  The vectors are (1,0,0), (0,21/20,0), (0,0,160/21) and the
tolerance is 41/800: `A` and `B` differ by exactly the tolerance. -/
theorem reduceCell_rejects_reduced :
    ∃ (U : RMat ℚ) (eps : ℚ), U.toMatrix.det ≠ 0 ∧ 0 < eps ∧
      niggliLoop U (fTol U (some eps)) 1001 0 IMat.one = (IMat.one, 1) ∧
      niggliPass U (fTol U (some eps)) IMat.one = (IMat.one, true) ∧
      reduceCell cmpEqual U (some eps) = .error .conditions := by
  refine ⟨⟨1, 0, 0, 0, 21 / 20, 0, 0, 0, 160 / 21⟩, 41 / 800, ?_, by norm_num, by decide +kernel, by decide +kernel,
    by decide +kernel⟩
  rw [← rdet_eq]
  decide +kernel

/-- C62: with tolerance 0 a cell with two vectors of the same length, or with a right angle, is always
rejected, although it is reduced. -/
theorem reduceCell_zero_rejects (equal : ℚ → ℚ → ℚ → Bool) (U : RMat ℚ) (C : IMat)
    (h : reduceCell equal U (some 0) = .ok C) :
    gram U C 0 0 < gram U C 1 1 ∧ gram U C 1 1 < gram U C 2 2 ∧
      gram U C 1 2 ≠ 0 ∧ gram U C 0 2 ≠ 0 ∧ gram U C 0 1 ≠ 0 := by
  obtain ⟨-, -, hc⟩ := reduceCell_end h
  have hz : fTol U (some 0) = 0 := zero_mul _
  rw [hz] at hc
  obtain ⟨eA, eB, eC, eD, eE, eF⟩ := getParams_metric U 0 C
  have no (x : ℚ) : ¬ |x| < 0 := not_lt.2 (abs_nonneg x)
  obtain ⟨⟨-, h1, h2⟩, -, -, h3, -⟩ := (fCheck_iff eD eE eF).1 hc
  rw [eA, eB] at h1
  rw [eB, eC] at h2
  simp only [no, or_false, sub_zero] at h1 h2 h3
  refine ⟨h1, h2, ?_⟩
  rcases h3 with ⟨a, b, c⟩ | ⟨a, b, c⟩
  · refine ⟨?_, ?_, ?_⟩ <;> intro h0 <;> simp_all
  · refine ⟨?_, ?_, ?_⟩ <;> intro h0 <;> simp_all

/-- An instance: the cubic cell of edge 1 is rejected with tolerance 0, and accepted by the default. -/
example : reduceCell cmpEqual (⟨1, 0, 0, 0, 1, 0, 0, 0, 1⟩ : RMat ℚ) (some 0) = .error .conditions ∧
    reduceCell cmpEqual (⟨1, 0, 0, 0, 1, 0, 0, 0, 1⟩ : RMat ℚ) none = .ok IMat.one := by
  constructor <;> decide +kernel

/-- C62, the part that holds: if the loop stops before its limit at a cell whose shortest vector is longer
than the tolerance, and no two quantities that the Niggli conditions compare differ by exactly the tolerance,
then `reduce_cell` returns that cell.  Missing: cells at the limit of the tolerance, where the claim is false
(see above). -/
theorem reduceCell_accepts_partial (equal : ℚ → ℚ → ℚ → Bool) (U : RMat ℚ) (eps : Option ℚ) (C : IMat) (n : ℕ)
    (hequal : equal U.toMatrix.det 0 (1 / 1000000) = false) (he : ∀ e, eps = some e → 0 ≤ e)
    (h : niggliLoop U (tolOf U eps) 1001 0 IMat.one = (C, n)) (hn : n < 1000)
    (hpos : tolOf U eps < gram U C 0 0)
    (off : OffBoundary (tolOf U eps) (gram U C 0 0) (gram U C 1 1) (gram U C 2 2)
      (gram U C 1 2) (gram U C 0 2) (gram U C 0 1)) :
    reduceCell equal U eps = .ok C := by
  have ht : tolOf U eps = fTol U eps := rfl
  rw [ht] at *
  rw [reduceCell_ok, rdet_eq]
  refine ⟨hequal, n, hn, h, ?_⟩
  obtain ⟨C0, h0⟩ := niggliLoop_end 1001 0 h (by omega)
  have hC0 := (niggliPass_true h0).1
  subst hC0
  obtain ⟨eA, eB, eC, eD, eE, eF⟩ := getParams_metric U (fTol U eps) C
  obtain ⟨type, up⟩ := niggliUpTo_of_pass (fTol_nonneg he) h0 hpos
  rw [← eA, ← eB, ← eC] at up off
  exact fCheck_of_upTo (fTol_nonneg he) eD eE eF type up off

/-- The cell of the example below. -/
private def exCell : RMat ℚ := ⟨1, 0, 3, 0, 2, 1, 0, 0, 5⟩
private def exC : IMat := ⟨-1, 0, -3, 0, -1, 0, 0, 0, 1⟩

/-- The hypotheses are met by a cell that has to be changed. -/
example : niggliLoop exCell (tolOf exCell none) 1001 0 IMat.one = (exC, 4) ∧
    tolOf exCell none < gram exCell exC 0 0 := by
  constructor <;> decide +kernel

example : OffBoundary (tolOf exCell none) (gram exCell exC 0 0) (gram exCell exC 1 1) (gram exCell exC 2 2)
    (gram exCell exC 1 2) (gram exCell exC 0 2) (gram exCell exC 0 1) := by
  constructor <;> decide +kernel

/-! ## C66 -/

/-- C66 is false of the code: the loop of `niggli.f90` has the same limit as the Python one.  For every
`N ≥ 999` and every tolerance below 1 the cell of volume 1 with the vectors (1,0,0), (0,1,0), (-N,0,1) makes
`reduce_cell` stop the program. -/
theorem reduceCell_gives_up (N : ℕ) (hN : 999 ≤ N) (eps : Option ℚ)
    (he : ∀ e, eps = some e → 0 ≤ e ∧ e < 1) (equal : ℚ → ℚ → ℚ → Bool)
    (hequal : equal 1 0 (1 / 1000000) = false) :
    (skewCell N).toMatrix.det = 1 ∧ reduceCell equal (skewCell N) eps = .error .iterations := by
  have hd : rdet (skewCell N) = 1 := by
    simp [rdet, skewCell, Arith.add, Arith.mul, Arith.sub]
  have hc : Arith.cbrt (|1| : ℚ) = 1 := by decide +kernel
  have ht : fTol (skewCell N) eps = eps.getD (1 / 100000) := by
    rw [fTol, hd, hc, mul_one]
  refine ⟨by rw [← rdet_eq, hd], ?_⟩
  rw [reduceCell_eq, hd, hequal, ht, if_neg (by decide)]
  have h01 : 0 ≤ eps.getD (1 / 100000) ∧ eps.getD (1 / 100000) < 1 := by
    cases eps with
    | none => constructor <;> norm_num
    | some e => exact he e rfl
  have := skew_count N _ h01.1 h01.2 1001 0 0 (Nat.zero_le N)
  have hs : skewC 0 = IMat.one := rfl
  rw [hs] at this
  dsimp only
  rw [if_pos (by omega)]

/-- C66, the part that holds: in exact arithmetic with tolerance 0 the loop ends for every non-singular cell
if it is given enough passes, at a cell that meets all Niggli conditions.  Missing: the limit of 1000 passes
(see above), the final check (C62), and other tolerances. -/
theorem fLoop_total_partial (U : RMat ℚ) (hU : U.toMatrix.det ≠ 0) :
    ∃ (n : ℕ) (C : IMat), C.toMat.det = 1 ∧
      (∀ passes, n ≤ passes →
        fLoop U 0 passes 0 ⟨IMat.one, fGetParams U 0⟩ = (⟨C, getParams U 0 C⟩, n)) ∧
      NiggliReduced (gram U C 0 0 : ℚ) (gram U C 1 1 : ℚ) (gram U C 2 2 : ℚ) (gram U C 1 2 : ℚ)
        (gram U C 0 2 : ℚ) (gram U C 0 1 : ℚ) := by
  obtain ⟨n, C, h1, h2, h3⟩ := niggliLoop_total_partial U hU
  refine ⟨n, C, h1, fun passes hp => ?_, h3⟩
  have := fLoop_eq U 0 passes 0 IMat.one
  rw [h2 passes hp] at this
  rw [fGetParams_self]
  exact this

/-- The hypothesis is met by a cell for which the number of passes is not trivial. -/
example : (fLoop (⟨1, 0, 3, 0, 2, 1, 0, 0, 5⟩ : RMat ℚ) 0 1001 0
    ⟨IMat.one, fGetParams (⟨1, 0, 3, 0, 2, 1, 0, 0, 5⟩ : RMat ℚ) 0⟩).2 = 4 := by decide +kernel

end AutoGR
