import Mathlib.LinearAlgebra.Matrix.Notation
import Mathlib.LinearAlgebra.Matrix.Determinant.Basic
import Mathlib.Algebra.Order.Group.Unbundled.Abs

/-!
# Specification: supercells and symmetry

A lattice has three basis vectors, the columns of a matrix `B`.  A supercell is `B * H` with `H` an
integer matrix; its volume is `|det H|` times that of the cell.  A point symmetry of the lattice is
written in the basis as an integer matrix `X` (it sends `B * v` to `B * (X * v)`).

Nothing here refers to the code.
-/

namespace AutoGR.Spec

open Matrix

/-- 3×3 integer matrices. -/
abbrev IntMat := Matrix (Fin 3) (Fin 3) ℤ

/-- Lower triangular Hermite normal form: positive diagonal, and each entry below the diagonal is
non-negative and smaller than the diagonal entry of its row.  Every sublattice of finite index has
exactly one basis of this form. -/
structure IsHNF (H : IntMat) : Prop where
  upper01 : H 0 1 = 0
  upper02 : H 0 2 = 0
  upper12 : H 1 2 = 0
  pos0 : 0 < H 0 0
  pos1 : 0 < H 1 1
  pos2 : 0 < H 2 2
  low10 : 0 ≤ H 1 0 ∧ H 1 0 < H 1 1
  low20 : 0 ≤ H 2 0 ∧ H 2 0 < H 2 2
  low21 : 0 ≤ H 2 1 ∧ H 2 1 < H 2 2

/-- The supercell `H` keeps the symmetry `X`: `X` maps the sublattice spanned by the columns of `H`
into itself. -/
def Keeps (X H : IntMat) : Prop := ∃ Y : IntMat, X * H = H * Y

/-- The columns of `M` and of `N` span the same sublattice. -/
def SameSpan (M N : IntMat) : Prop := ∃ W : IntMat, IsUnit W.det ∧ N = M * W

/-- All HNFs of determinant `n` that keep every operation in `S`. -/
def SymmetricHNFs (S : Set IntMat) (n : ℤ) : Set IntMat :=
  {H | IsHNF H ∧ H.det = n ∧ ∀ X ∈ S, Keeps X H}

/-- `Ms` lists bases of all the sublattices of index `n` that keep every operation in `S`, one basis for
each such sublattice. -/
structure ListsSublattices (S : Set IntMat) (n : ℤ) (Ms : List IntMat) : Prop where
  sound : ∀ M ∈ Ms, M.det = n ∧ ∀ X ∈ S, Keeps X M
  complete : ∀ M : IntMat, |M.det| = n → (∀ X ∈ S, Keeps X M) → ∃ N ∈ Ms, SameSpan M N
  once : Ms.Pairwise fun M N => ¬ SameSpan M N

end AutoGR.Spec
