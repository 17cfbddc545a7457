import Verif.Model.PyArith

/-!
# The symmetry-preserving HNF generators

One definition per Python generator in `/repo/support/python_dev/opf_python`.  Each returns the
list `spHNFs` (or `srHNFs`) in the order in which the Python code appends to it.  Loops are
`List.flatMap`s in the same nesting order, guards are `if`s in the same order.

Every definition that divides takes a rounding function `fl : ℚ → ℚ`; each `+. -. *. /.` is one
float operation, the exact result followed by `fl`.  `fl = id` is exact arithmetic,
`Verif/Spec/Float.lean` says what is assumed of binary64.  Some operands are Python integers, whose
arithmetic is exact: the model rounds those operations too, which makes no difference below 2^53.
Other simplifications: integer valued floats are integers, `x % m == 0` on floats tests that the
float `x` is an exact multiple of `m` (this is what C's `fmod` computes), and `and` is not
short-circuiting (no operand can raise).
-/

namespace AutoGR

/-- One float addition, `x + y` (all generators). -/
def fadd (fl : ℚ → ℚ) (x y : ℚ) : ℚ := fl (x + y)
/-- One float subtraction, `x - y` (all generators). -/
def fsub (fl : ℚ → ℚ) (x y : ℚ) : ℚ := fl (x - y)
/-- One float multiplication, `x * y` (all generators). -/
def fmul (fl : ℚ → ℚ) (x y : ℚ) : ℚ := fl (x * y)
/-- One float division, `x / float(y)` (all generators). -/
def fdiv (fl : ℚ → ℚ) (x y : ℚ) : ℚ := fl (x / y)

section

variable (fl : ℚ → ℚ)

local infixl:65 " +. " => fadd fl
local infixl:65 " -. " => fsub fl
local infixl:70 " *. " => fmul fl
local infixl:70 " /. " => fdiv fl

/-- `get_HNF_diagonals(n)`, `universal.py:34-56`.  `%` and `//` have positive divisors here, so
Lean's `Int` operations agree with Python's. -/
def getHNFDiagonals (n : ℤ) : List (ℤ × ℤ × ℤ) :=
  (pyRange 1 (n + 1)).flatMap fun i =>
    if n % i = 0 then
      let q := n / i
      (pyRange 1 (q + 1)).flatMap fun j =>
        if q % j = 0 then [(i, j, q / j)] else []
    else []

/-- The body of the loop of `sc_3`, `sc.py:18-44`; the loop stops at the first match (`break`). -/
def sc3Loop : List (ℤ × ℤ × ℤ) → List Mat3
  | [] => []
  | (a, c, f) :: rest =>
    if a = c ∧ c = f then [hnf a 0 c 0 0 f]
    else if a = c ∧ (f : ℚ) /. a = 2 then [hnf a 0 c a a f]
    else if c = f ∧ (f : ℚ) /. a = 2 then [hnf a a c a 0 f]
    else sc3Loop rest

/-- `sc_3(n)`, `sc.py:1-46`. -/
def sc_3 (n : ℤ) : List Mat3 := sc3Loop fl (getHNFDiagonals n)

/-- `bcc_5(n)`, `bcc.py:1-43`. -/
def bcc_5 (n : ℤ) : List Mat3 :=
  (getHNFDiagonals n).flatMap fun ((a, c, f) : ℤ × ℤ × ℤ) =>
    if a = c ∧ a = f then [hnf a 0 c 0 0 f]
    else if a = c ∧ (f : ℚ) /. a = 2 then [hnf a 0 c a a f]
    else if a = c ∧ (f : ℚ) /. a = 4 then [hnf a 0 c (3 * a) (3 * a) f]
    else []

/-- `fcc_1(n)`, `fcc.py:1-36`. -/
def fcc_1 (n : ℤ) : List Mat3 :=
  (getHNFDiagonals n).flatMap fun ((a, c, f) : ℤ × ℤ × ℤ) =>
    if a = c ∧ a = f then [hnf a 0 c 0 0 f]
    else if c = f ∧ ((f : ℚ) /. a = 2 ∨ (f : ℚ) /. a = 4) then [hnf a a c a 0 f]
    else []

/-- `hex_12(n)`, `hx.py:1-50`. -/
def hex_12 (n : ℤ) : List Mat3 :=
  (getHNFDiagonals n).flatMap fun ((a, c, f) : ℤ × ℤ × ℤ) =>
    if c % a = 0 then
      (pyRangeStep c a).flatMap fun (b : ℤ) =>
        let beta13 : ℚ := a +. 2 *. b
        let beta11 : ℚ := 2 *. b +. b *. b /. a
        if pyMod beta13 c = 0 ∧ pyMod beta11 c = 0 then
          (halves f).flatMap fun (e : ℤ) =>
            let gamma13 : ℚ := (a +. 2 *. b) *. e /. c
            if pyMod gamma13 f = 0 then
              (pyRange 0 f).flatMap fun (d : ℤ) =>
                let gamma11 : ℚ := b *. d /. a -. e *. beta11 /. c
                let gamma12 : ℚ := 2 *. d +. b *. d /. a -. e *. beta11 /. c
                let gamma21 : ℚ := c *. d /. a -. 2 *. e -. b *. e /. a
                let gamma22 : ℚ := (c *. d -. b *. e) /. a
                if pyMod gamma11 f = 0 ∧ pyMod gamma12 f = 0 ∧ pyMod gamma21 f = 0 ∧
                    pyMod gamma22 f = 0 then
                  [hnf a b c d e f]
                else []
            else []
        else []
    else []

/-- `hex_22(n)`, `hx.py:52-87`. -/
def hex_22 (n : ℤ) : List Mat3 :=
  (getHNFDiagonals n).flatMap fun ((a, c, f) : ℤ × ℤ × ℤ) =>
    if f % c = 0 then
      (pyRangeStep f c).flatMap fun (e : ℤ) =>
        let g21 : ℚ := -c +. 2 *. e
        let g22 : ℚ := -c +. e -. e *. e /. c
        if pyMod g21 f = 0 ∧ pyMod g22 f = 0 ∧ e % c = 0 then
          (pyRange 0 c).flatMap fun (b : ℤ) =>
            (pyRangeStep f c).flatMap fun (d : ℤ) =>
              let g11 : ℚ := -b +. 2 *. d
              let g12 : ℚ := -b +. d -. d *. e /. c
              if pyMod g11 f = 0 ∧ pyMod g12 f = 0 then [hnf a b c d e f] else []
        else []
    else []

/-- `rhom_9_24(n)`, `rhom.py:1-58`. -/
def rhom_9_24 (n : ℤ) : List Mat3 :=
  (getHNFDiagonals n).flatMap fun ((a, c, f) : ℤ × ℤ × ℤ) =>
    if f % a = 0 then
      (halves c).flatMap fun (b : ℤ) =>
        let beta13 : ℚ := f +. b *. f /. a
        if pyMod beta13 c = 0 then
          (pyRangeStep f a).flatMap fun (e : ℤ) =>
            let beta22 : ℚ := e +. b *. e /. a
            let g21 : ℚ := c +. 2 *. e
            let g11 : ℚ := b +. 2 *. b *. e /. c
            if pyMod beta22 c = 0 ∧ pyMod g21 f = 0 ∧ pyMod g11 f = 0 then
              (pyRangeStep f a).flatMap fun (d : ℤ) =>
                let beta12 : ℚ := -a +. b +. d +. d *. b /. a
                let g12 : ℚ := -b -. d +. d *. d /. a -. e *. beta12 /. c
                let g22 : ℚ := -c -. 2 *. e +. d *. e /. a -. e *. beta22 /. c
                if pyMod beta12 c = 0 ∧ pyMod g12 f = 0 ∧ pyMod g22 f = 0 then
                  [hnf a b c d e f]
                else []
            else []
        else []
    else []

/-- `rhom_4_2(n)`, `rhom.py:60-110`. -/
def rhom_4_2 (n : ℤ) : List Mat3 :=
  (getHNFDiagonals n).flatMap fun ((a, c, f) : ℤ × ℤ × ℤ) =>
    if f % a = 0 then
      (halves c).flatMap fun (b : ℤ) =>
        let beta32 : ℚ := -f +. b *. f /. a
        if pyMod beta32 c = 0 then
          (pyRange 0 f).flatMap fun (e : ℤ) =>
            let beta22 : ℚ := -e +. b *. e /. a
            let gamma11 : ℚ := b -. 2 *. b *. e /. c
            let gamma21 : ℚ := c -. 2 *. e
            if e % a = 0 ∧ pyMod beta22 c = 0 ∧ pyMod gamma11 f = 0 ∧ pyMod gamma21 f = 0 then
              (pyRange 0 f).flatMap fun (d : ℤ) =>
                let beta12 : ℚ := -a +. b -. d +. b *. d /. a
                let gamma12 : ℚ := -a +. d *. d /. a -. e *. beta12 /. c
                let gamma22 : ℚ := -e +. d *. e /. a -. e *. beta22 /. c
                if d % a = 0 ∧ pyMod beta12 c = 0 ∧ pyMod gamma12 f = 0 ∧
                    pyMod gamma22 f = 0 then
                  [hnf a b c d e f]
                else []
            else []
        else []
    else []

/-- `stet_11(n)`, `stet.py:1-50`. -/
def stet_11 (n : ℤ) : List Mat3 :=
  (getHNFDiagonals n).flatMap fun ((a, c, f) : ℤ × ℤ × ℤ) =>
    if c % a = 0 then
      (halves c).flatMap fun (b : ℤ) =>
        if b % a = 0 then
          let beta13 : ℚ := -a +. b *. b /. a
          if pyMod beta13 c = 0 then
            (halves f).flatMap fun (e : ℤ) =>
              let g12 : ℚ := 2 *. b *. e /. c
              if pyMod g12 f = 0 then
                (pyRange 0 f).flatMap fun (d : ℤ) =>
                  let g13 : ℚ := -e *. beta13 /. c +. d *. (b /. a -. 1)
                  let g23 : ℚ := -e *. (b /. a +. 1) +. d *. c /. a
                  if pyMod g13 f = 0 ∧ pyMod g23 f = 0 then [hnf a b c d e f] else []
              else []
          else []
        else []
    else []

/-- `stet_21(n)`, `stet.py:52-97`. -/
def stet_21 (n : ℤ) : List Mat3 :=
  (getHNFDiagonals n).flatMap fun ((a, c, f) : ℤ × ℤ × ℤ) =>
    if f % c = 0 then
      (halves c).flatMap fun (b : ℤ) =>
        (halves f).flatMap fun (d : ℤ) =>
          let b13 : ℚ := b -. d
          if pyMod b13 c = 0 then
            (halves f).flatMap fun (e : ℤ) =>
              let g12 : ℚ := 2 *. d -. 2 *. d *. e /. c
              let g13 : ℚ := -b +. d -. b13 *. e /. c
              let g23 : ℚ := -c +. e *. e /. c
              if pyMod g12 f = 0 ∧ pyMod g13 f = 0 ∧ pyMod g23 f = 0 then
                [hnf a b c d e f]
              else []
          else []
    else []

/-- `so_32(n)`, `so.py:1-42`. -/
def so_32 (n : ℤ) : List Mat3 :=
  (getHNFDiagonals n).flatMap fun ((a, c, f) : ℤ × ℤ × ℤ) =>
    (halves c).flatMap fun (b : ℤ) =>
      (halves f).flatMap fun (e : ℤ) =>
        if (2 * b * e) % (f * c) = 0 then
          (halves f).flatMap fun (d : ℤ) => [hnf a b c d e f]
        else []

/-- `smallest_prime(a)`, `body_tet.py:1-16`.  Python returns `None` when the loop finds no
divisor; that cannot happen, because `p = a` divides `a`. -/
def smallestPrime (a : ℤ) : Option ℤ :=
  if a ≤ 2 then some a else (pyRange 2 (a + 1)).find? fun p => a % p = 0

/-- `body_tet_6_7_15_18(n)`, `body_tet.py:18-68`. -/
def body_tet_6_7_15_18 (n : ℤ) : List Mat3 :=
  (getHNFDiagonals n).flatMap fun ((a, c, f) : ℤ × ℤ × ℤ) =>
    if f % c = 0 then
      (halves f).flatMap fun (e : ℤ) =>
        if e % c = 0 then
          let g21 : ℚ := -c +. (e *. e /. c)
          if pyMod g21 f = 0 then
            (pyRange 0 f).flatMap fun (d : ℤ) =>
              let g13 : ℚ := a +. 2 *. d
              if pyMod g13 f = 0 then
                (pyRange 0 c).flatMap fun (b : ℤ) =>
                  let b12 : ℚ := b -. d
                  if pyMod b12 c = 0 then
                    let g12 : ℚ := -b +. d -. (b12 *. e /. c)
                    if pyMod g12 f = 0 then [hnf a b c d e f] else []
                  else []
              else []
          else []
        else []
    else []

/-- `body_ortho_19(n)`, `body_ortho.py:1-52`.  (The Python `bs` at lines 27-30 is never used.) -/
def body_ortho_19 (n : ℤ) : List Mat3 :=
  (getHNFDiagonals n).flatMap fun ((a, c, f) : ℤ × ℤ × ℤ) =>
    (pyRange 0 c).flatMap fun (b : ℤ) =>
      let beta13 : ℚ := a +. 2 *. b
      if pyMod beta13 c = 0 then
        (halves f).flatMap fun (e : ℤ) =>
          let gamma13 : ℚ := e *. beta13 /. c
          if pyMod gamma13 f = 0 then
            (pyRange 0 f).flatMap fun (d : ℤ) =>
              let gamma12 : ℚ := a +. 2 *. d
              if pyMod gamma12 f = 0 then [hnf a b c d e f] else []
          else []
      else []

/-- `body_ortho_8(n)`, `body_ortho.py:54-98`. -/
def body_ortho_8 (n : ℤ) : List Mat3 :=
  (getHNFDiagonals n).flatMap fun ((a, c, f) : ℤ × ℤ × ℤ) =>
    if 2 * f % c = 0 then
      (halves c).flatMap fun (b : ℤ) =>
        (pyRange 0 f).flatMap fun (e : ℤ) =>
          let b21 : ℚ := 2 *. e
          let g21 : ℚ := -b21 +. b21 *. e /. c
          if pyMod b21 c = 0 ∧ pyMod g21 f = 0 then
            (pyRange 0 f).flatMap fun (d : ℤ) =>
              let b11 : ℚ := -a +. 2 *. b -. 2 *. d
              let g11 : ℚ := -b11 *. e /. c
              let g13 : ℚ := a +. 2 *. d -. b21 *. b /. c
              if pyMod b11 c = 0 ∧ pyMod g11 f = 0 ∧ pyMod g13 f = 0 then
                [hnf a b c d e f]
              else []
          else []
    else []

/-- `body_ortho_42(n)`, `body_ortho.py:100-142`. -/
def body_ortho_42 (n : ℤ) : List Mat3 :=
  (getHNFDiagonals n).flatMap fun ((a, c, f) : ℤ × ℤ × ℤ) =>
    (halves f).flatMap fun (e : ℤ) =>
      (pyRange 0 c).flatMap fun (b : ℤ) =>
        let b11 : ℚ := -a +. 2 *. b
        let g12 : ℚ := -b11 *. e /. c
        if pyMod b11 c = 0 ∧ pyMod g12 f = 0 then
          (pyRange 0 f).flatMap fun (d : ℤ) =>
            let g11 : ℚ := -a +. 2 *. d -. b11 *. e /. c
            let g13 : ℚ := -a +. 2 *. d
            if pyMod g11 f = 0 ∧ pyMod g13 f = 0 then [hnf a b c d e f] else []
        else []

/-- `face_ortho_26(n)`, `face_ortho.py:1-42`. -/
def face_ortho_26 (n : ℤ) : List Mat3 :=
  (getHNFDiagonals n).flatMap fun ((a, c, f) : ℤ × ℤ × ℤ) =>
    (halves c).flatMap fun (b : ℤ) =>
      (pyRange 0 f).flatMap fun (e : ℤ) =>
        let gamma23 : ℚ := c +. 2 *. e
        let gamma12 : ℚ := b +. 2 *. b *. e /. c
        if pyMod gamma23 f = 0 ∧ pyMod gamma12 f = 0 then
          (pyRange 0 f).flatMap fun (d : ℤ) =>
            let gamma13 : ℚ := a +. b +. 2 *. d
            if pyMod gamma13 f = 0 then [hnf a b c d e f] else []
        else []

/-- `face_ortho_16(n)`, `face_ortho.py:44-84`.  Here `bs = [c/2,0]`, the other order
(lines 67-70). -/
def face_ortho_16 (n : ℤ) : List Mat3 :=
  (getHNFDiagonals n).flatMap fun ((a, c, f) : ℤ × ℤ × ℤ) =>
    (halves c).reverse.flatMap fun (b : ℤ) =>
      (pyRange 0 f).flatMap fun (e : ℤ) =>
        let g11 : ℚ := -b -. 2 *. b *. e /. c
        let g21 : ℚ := c +. 2 *. e
        if pyMod g11 f = 0 ∧ pyMod g21 f = 0 then
          (pyRange 0 f).flatMap fun (d : ℤ) =>
            let g12 : ℚ := a +. 2 *. d -. (2 *. b *. e) /. c
            if pyMod g12 f = 0 then [hnf a b c d e f] else []
        else []

/-- `base_ortho_38_13(n)`, `base_ortho.py:1-50`. -/
def base_ortho_38_13 (n : ℤ) : List Mat3 :=
  (getHNFDiagonals n).flatMap fun ((a, c, f) : ℤ × ℤ × ℤ) =>
    if c % a = 0 then
      (pyRangeStep c a).flatMap fun (b : ℤ) =>
        let beta13 : ℚ := -a +. b *. b /. a
        if pyMod beta13 c = 0 then
          (halves f).flatMap fun (e : ℤ) =>
            (halves f).flatMap fun (d : ℤ) =>
              let g13 : ℚ := -d +. b *. d /. a -. e *. beta13 /. c
              let g23 : ℚ := c *. d /. a -. e -. b *. e /. a
              if pyMod g13 f = 0 ∧ pyMod g23 f = 0 then [hnf a b c d e f] else []
        else []
    else []

/-- `base_ortho_23(n)`, `base_ortho.py:52-99`. -/
def base_ortho_23 (n : ℤ) : List Mat3 :=
  (getHNFDiagonals n).flatMap fun ((a, c, f) : ℤ × ℤ × ℤ) =>
    if f % a = 0 then
      (halves c).flatMap fun (b : ℤ) =>
        if b * f % (a * c) = 0 then
          (halves f).flatMap fun (e : ℤ) =>
            if b * e % (a * c) = 0 ∧ 2 * b * e % (c * f) = 0 ∧ e % a = 0 then
              (pyRangeStep f a).flatMap fun (d : ℤ) =>
                let b13 : ℚ := -b +. b *. d /. a
                let g13 : ℚ := -a +. d *. d /. a -. b13 *. e /. c
                let g23 : ℚ := e +. d *. e /. a -. b *. e *. e /. (a *. c)
                if pyMod b13 c = 0 ∧ pyMod g13 f = 0 ∧ pyMod g23 f = 0 then
                  [hnf a b c d e f]
                else []
            else []
        else []
    else []

/-- `base_ortho_40(n)`, `base_ortho.py:101-140`. -/
def base_ortho_40 (n : ℤ) : List Mat3 :=
  (getHNFDiagonals n).flatMap fun ((a, c, f) : ℤ × ℤ × ℤ) =>
    if f % c = 0 then
      (pyRangeStep f c).flatMap fun (e : ℤ) =>
        let g22 : ℚ := 2 *. e -. e *. e /. c
        if pyMod g22 f = 0 then
          (pyRangeStep f c).flatMap fun (d : ℤ) =>
            let g12 : ℚ := 2 *. d -. d *. e /. c
            if pyMod g12 f = 0 then
              (pyRange 0 c).flatMap fun (b : ℤ) =>
                let b13 : ℚ := 2 *. b -. d
                let g13 : ℚ := b13 *. e /. c
                if pyMod b13 c = 0 ∧ pyMod g13 f = 0 then [hnf a b c d e f] else []
            else []
        else []
    else []

/-- `base_ortho_36(n)`, `base_ortho.py:142-191`. -/
def base_ortho_36 (n : ℤ) : List Mat3 :=
  (getHNFDiagonals n).flatMap fun ((a, c, f) : ℤ × ℤ × ℤ) =>
    if f % a = 0 then
      (halves c).flatMap fun (b : ℤ) =>
        let b32 : ℚ := -b *. f /. a
        if pyMod b32 c = 0 then
          (halves f).flatMap fun (e : ℤ) =>
            let b22 : ℚ := -b *. e /. a
            let g13 : ℚ := -2 *. b *. e /. c
            if pyMod b22 c = 0 ∧ pyMod g13 f = 0 ∧ e % a = 0 then
              (pyRangeStep f a).flatMap fun (d : ℤ) =>
                let b12 : ℚ := -b *. d /. a
                let g12 : ℚ := 2 *. d -. d *. d /. a -. b12 *. e /. c
                let g22 : ℚ := 2 *. e -. d *. e /. a -. b22 *. e /. c
                if pyMod b12 c = 0 ∧ pyMod g12 f = 0 ∧ pyMod g22 f = 0 then
                  [hnf a b c d e f]
                else []
            else []
        else []
    else []

/-- `base_mono_20_25(n)`, `base_mono.py:1-42`. -/
def base_mono_20_25 (n : ℤ) : List Mat3 :=
  (getHNFDiagonals n).flatMap fun ((a, c, f) : ℤ × ℤ × ℤ) =>
    (pyRange 0 f).flatMap fun (e : ℤ) =>
      let g22 : ℚ := -c -. 2 *. e
      if pyMod g22 f = 0 then
        (halves c).flatMap fun (b : ℤ) =>
          let g12 : ℚ := -b -. 2 *. b *. e /. c
          if pyMod g12 f = 0 then
            (pyRange 0 f).flatMap fun (d : ℤ) => [hnf a b c d e f]
          else []
      else []

/-- `base_mono_28(n)`, `base_mono.py:44-80`. -/
def base_mono_28 (n : ℤ) : List Mat3 :=
  (getHNFDiagonals n).flatMap fun ((a, c, f) : ℤ × ℤ × ℤ) =>
    if f % c = 0 then
      (pyRangeStep f c).flatMap fun (e : ℤ) =>
        let g21 : ℚ := 2 *. e +. e *. e /. c
        if pyMod g21 f = 0 then
          (pyRangeStep f c).flatMap fun (d : ℤ) =>
            let g11 : ℚ := 2 *. d +. d *. e /. c
            if pyMod g11 f = 0 then
              (pyRange 0 c).flatMap fun (b : ℤ) => [hnf a b c d e f]
            else []
        else []
    else []

/-- `base_mono_29_30(n)`, `base_mono.py:82-119`. -/
def base_mono_29_30 (n : ℤ) : List Mat3 :=
  (getHNFDiagonals n).flatMap fun ((a, c, f) : ℤ × ℤ × ℤ) =>
    if f % c = 0 then
      (pyRangeStep f c).flatMap fun (e : ℤ) =>
        let g21 : ℚ := 2 *. e +. e *. e /. c
        if pyMod g21 f = 0 then
          (pyRangeStep f c).flatMap fun (d : ℤ) =>
            let g11 : ℚ := 2 *. d +. d *. e /. c
            if pyMod g11 f = 0 then
              (pyRange 0 c).flatMap fun (b : ℤ) => [hnf a b c d e f]
            else []
        else []
    else []

/-- `base_mono_10_14_17_27_37_39_41(n)`, `base_mono.py:121-164`. -/
def base_mono_10_14_17_27_37_39_41 (n : ℤ) : List Mat3 :=
  (getHNFDiagonals n).flatMap fun ((a, c, f) : ℤ × ℤ × ℤ) =>
    (halves f).flatMap fun (e : ℤ) =>
      (pyRange 0 f).flatMap fun (d : ℤ) =>
        let g11 : ℚ := -a +. 2 *. d
        if pyMod g11 f = 0 then
          (pyRange 0 c).flatMap fun (b : ℤ) => [hnf a b c d e f]
        else []

/-- `base_mono_43(n)`, `base_mono.py:166-203`. -/
def base_mono_43 (n : ℤ) : List Mat3 :=
  (getHNFDiagonals n).flatMap fun ((a, c, f) : ℤ × ℤ × ℤ) =>
    if f % c = 0 then
      (pyRangeStep f c).flatMap fun (e : ℤ) =>
        let g22 : ℚ := 2 *. e -. e *. e /. c
        if pyMod g22 f = 0 then
          (pyRange 0 f).flatMap fun (d : ℤ) =>
            let b12 : ℚ := a +. d
            let g12 : ℚ := 2 *. a +. 2 *. d -. b12 *. e /. c
            if pyMod b12 c = 0 ∧ pyMod g12 f = 0 then
              (pyRange 0 c).flatMap fun (b : ℤ) => [hnf a b c d e f]
            else []
        else []
    else []

/-- `sm_33(n)`, `sm.py:1-45`. -/
def sm_33 (n : ℤ) : List Mat3 :=
  (getHNFDiagonals n).flatMap fun ((a, c, f) : ℤ × ℤ × ℤ) =>
    (halves c).flatMap fun (b : ℤ) =>
      (halves f).flatMap fun (e : ℤ) =>
        let gamma12 : ℚ := 2 *. b *. e /. c
        if pyMod gamma12 f = 0 then
          (pyRange 0 f).flatMap fun (d : ℤ) => [hnf a b c d e f]
        else []

/-- `sm_35(n)`, `sm.py:48-85`. -/
def sm_35 (n : ℤ) : List Mat3 :=
  (getHNFDiagonals n).flatMap fun ((a, c, f) : ℤ × ℤ × ℤ) =>
    (halves f).flatMap fun (e : ℤ) =>
      (halves f).flatMap fun (d : ℤ) =>
        (pyRange 0 c).flatMap fun (b : ℤ) => [hnf a b c d e f]

/-- `sm_34(n)`, `sm.py:88-128`. -/
def sm_34 (n : ℤ) : List Mat3 :=
  (getHNFDiagonals n).flatMap fun ((a, c, f) : ℤ × ℤ × ℤ) =>
    (halves f).flatMap fun (d : ℤ) =>
      (halves f).flatMap fun (e : ℤ) =>
        (pyRange 0 c).flatMap fun (b : ℤ) => [hnf a b c d e f]

/-- The triclinic case of `find_supercells`, `universal.py:296-308`, for one `n`, before the
factor `mult` is applied: every HNF of determinant `n`. -/
def tric_31_44 (n : ℤ) : List Mat3 :=
  (getHNFDiagonals n).flatMap fun ((a, c, f) : ℤ × ℤ × ℤ) =>
    (pyRange 0 c).flatMap fun (b : ℤ) =>
      (pyRange 0 f).flatMap fun (d : ℤ) =>
        (pyRange 0 f).flatMap fun (e : ℤ) => [hnf a b c d e f]

end

end AutoGR
