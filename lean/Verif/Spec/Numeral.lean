import Verif.Spec.Poscar
import Mathlib.Algebra.Order.Field.Rat

/-!
# Specification: numbers as they are written

The usual decimal notation: an optional sign, digits with an optional decimal point, and an optional power of ten
(`1.5E-3`, `1.5d-3`).  Nothing here refers to the code.
-/

namespace AutoGR.Spec

/-- The number that a row of digits stands for. -/
def digitsValue : List Char → ℕ
  | [] => 0
  | c :: t => (c.toNat - '0'.toNat) * 10 ^ t.length + digitsValue t

/-- Only digits. -/
def Digits (ds : List Char) : Prop := ∀ c ∈ ds, c.isDigit = true

/-- A sign, or none. -/
def Sign (s : List Char) (σ : ℤ) : Prop := (s = [] ∨ s = ['+']) ∧ σ = 1 ∨ s = ['-'] ∧ σ = -1

/-- The word is an integer. -/
def IntNumeral (w : List Char) (z : ℤ) : Prop :=
  ∃ s σ ds, w = s ++ ds ∧ Sign s σ ∧ Digits ds ∧ ds ≠ [] ∧ z = σ * digitsValue ds

/-- The exponent, or none.  Fortran allows the letter to be left out before a sign. -/
def Exponent (x : List Char) (e : ℤ) : Prop :=
  x = [] ∧ e = 0 ∨ (∃ c w, x = c :: w ∧ c ∈ ['e', 'E', 'd', 'D'] ∧ IntNumeral w e) ∨
    ∃ c w, x = c :: w ∧ c ∈ ['+', '-'] ∧ IntNumeral x e

/-- The word is a number: sign, digits `i`, point, digits `f`, exponent.  There is at least one digit; the point may be
left out if no digits follow it. -/
def RealNumeral (w : List Char) (q : ℚ) : Prop :=
  ∃ s σ i p f x e, w = s ++ (i ++ (p ++ (f ++ x))) ∧ Sign s σ ∧ Digits i ∧ Digits f ∧ (i ≠ [] ∨ f ≠ []) ∧
    (p = ['.'] ∨ p = [] ∧ f = []) ∧ Exponent x e ∧ q = σ * digitsValue (i ++ f) * (10 : ℚ) ^ (e - f.length)

/-- The first word of the line is a number. -/
def Number (line : List Char) (q : ℚ) : Prop := ∃ w more, Words line (w :: more) ∧ RealNumeral w q

/-- The first word of the line is an integer of 32 bits. -/
def Integer (line : List Char) (z : ℤ) : Prop :=
  ∃ w more, Words line (w :: more) ∧ IntNumeral w z ∧ -2 ^ 31 ≤ z ∧ z < 2 ^ 31

/-- The first three words of the line are numbers. -/
def Numbers3 (line : List Char) (x : ℚ × ℚ × ℚ) : Prop :=
  ∃ w1 w2 w3 more, Words line (w1 :: w2 :: w3 :: more) ∧ RealNumeral w1 x.1 ∧ RealNumeral w2 x.2.1 ∧
    RealNumeral w3 x.2.2

/-- The reader reads numbers in the usual notation, and rounds them with `fl`. -/
structure ReadsDecimals (fl : ℚ → ℚ) (rd : Reader) : Prop where
  int : ∀ line z, Integer line z → rd.int line = some z
  real : ∀ line q, Number line q → rd.real line = some (fl q)
  real3 : ∀ line x, Numbers3 line x → rd.real3 line = some (fl x.1, fl x.2.1, fl x.2.2)
  /-- A word that begins with a letter is not an integer. -/
  names : ∀ line c t, line = c :: t → c.isAlpha = true → rd.int line = none

/-- The file says `d` (VASP 5 without selective dynamics); the numbers are in the usual notation.  The line with the
names of the species, which begin with letters, may be left out.  After the positions anything may follow. -/
def PoscarText (lines : List (List Char)) (d : PoscarData) : Prop :=
  ∃ title scale l1 l2 l3 names counts mode positions extra words,
    lines = title :: scale :: l1 :: l2 :: l3 :: (names ++ counts :: mode :: (positions ++ extra)) ∧
    Number scale d.scale ∧ Numbers3 l1 d.v1 ∧ Numbers3 l2 d.v2 ∧ Numbers3 l3 d.v3 ∧
    (names = [] ∨ ∃ line c word more, names = [line] ∧ ShortWords line ((c :: word) :: more) ∧ c.isAlpha = true) ∧
    d.counts ≠ [] ∧ ShortWords counts words ∧ List.Forall₂ (fun w (n : ℕ) => IntNumeral w n ∧ n < 2 ^ 31) words d.counts ∧
    SaysMode mode d.mode ∧ mode.length ≤ 300 ∧
    List.Forall₂ Numbers3 positions d.positions ∧ d.positions.length = d.counts.sum

/-- The numbers of a file, rounded. -/
def PoscarData.rounded (fl : ℚ → ℚ) (d : PoscarData) : PoscarData :=
  let three (x : ℚ × ℚ × ℚ) : ℚ × ℚ × ℚ := (fl x.1, fl x.2.1, fl x.2.2)
  ⟨fl d.scale, three d.v1, three d.v2, three d.v3, d.counts, d.mode, d.positions.map three⟩

end AutoGR.Spec
