import Verif.Model.Generators

/-!
# The Fortran generators, `src/sp_hnfs.f90`

One definition per subroutine.  Each returns the matrices the subroutine visits, in order: with
`all_hnfs` these are stored in `spHNFs`, otherwise each is handed to `compare_grids`.

Arithmetic.  `a .. f` are default integers (32 bits), `beta..`/`gamma..` are `integer(li)` (64 bits).
An operation on two default integers is `+. -. *.`: the exact result followed by `w : ℤ → ℤ`, what
the machine makes of a result that may not fit 32 bits (`wrap32` is gfortran's wraparound).  An
operation with a 64-bit operand is exact (`+ - *`): results beyond 64 bits are not modelled.
Integer division truncates, `/.` is `Int.tdiv`; `MOD` has the sign of its first argument, it is
`Int.tmod`.  Negation and division of a 32-bit value by a positive one stay in range and are exact.

Simplifications: `.and.` evaluates both operands, but no operand can fail (all divisors are
positive); the loop `b = 0; do while (b < c); ..; b = b + a` is `pyRangeStep c a`, and
`es = (/0,(f/2)/)`, `nes = 2` if `f` is even, `nes = 1` otherwise, is `halves f`.
`reshape((/ a,b,d, 0,c,e, 0,0,f /),(/3,3/))` fills columns first, so it is `hnf a b c d e f`.
-/

namespace AutoGR

namespace Fortran

/-- A 32-bit result, wrapped around as gfortran's code does. -/
def wrap32 (x : ℤ) : ℤ := (x + 2 ^ 31) % 2 ^ 32 - 2 ^ 31

/-- The intrinsic `MOD` (all of `sp_hnfs.f90`). -/
def MOD (x m : ℤ) : ℤ := Int.tmod x m

/-- One 32-bit addition. -/
def iadd (w : ℤ → ℤ) (x y : ℤ) : ℤ := w (x + y)
/-- One 32-bit subtraction. -/
def isub (w : ℤ → ℤ) (x y : ℤ) : ℤ := w (x - y)
/-- One 32-bit multiplication. -/
def imul (w : ℤ → ℤ) (x y : ℤ) : ℤ := w (x * y)

/-- `get_HNF_diagonals`, `sp_hnfs.f90:4512-4533`: the triples stored in `diagonals`, in order.  The
size of the buffer `tempDiag` is the subject of C60. -/
def get_HNF_diagonals (n : ℤ) : List (ℤ × ℤ × ℤ) :=
  (pyRange 1 (n + 1)).flatMap fun i =>
    if MOD n i = 0 then
      let q := Int.tdiv n i
      (pyRange 1 (q + 1)).flatMap fun j =>
        if MOD q j = 0 then [(i, j, Int.tdiv q j)] else []
    else []

section

variable (w : ℤ → ℤ)

local infixl:65 " +. " => iadd w
local infixl:65 " -. " => isub w
local infixl:70 " *. " => imul w
local infixl:70 " /. " => Int.tdiv

/-- The loop of `sc_3`, `sp_hnfs.f90:96-126`, which stops at the first match (`exit`).  An empty
list stands for `temp_HNFs = 0`. -/
def sc3Loop : List (ℤ × ℤ × ℤ) → List Mat3
  | [] => []
  | (a, c, f) :: rest =>
    if a = c ∧ c = f then [hnf a 0 c 0 0 f]
    else if a = c ∧ f /. a = 2 ∧ MOD f a = 0 then [hnf a 0 c a a f]
    else if c = f ∧ f /. a = 2 ∧ MOD f a = 0 then [hnf a a c a 0 f]
    else sc3Loop rest

/-- `sc_3`, `sp_hnfs.f90:52-150`. -/
def sc_3 (n : ℤ) : List Mat3 := sc3Loop (get_HNF_diagonals n)

/-- The loop of `fcc_1`, `sp_hnfs.f90:226-248`. -/
def fcc1Loop : List (ℤ × ℤ × ℤ) → List Mat3
  | [] => []
  | (a, c, f) :: rest =>
    if a = c ∧ a = f then [hnf a 0 c 0 0 f]
    else if c = f ∧ (f /. a = 2 ∧ MOD f a = 0 ∨ f /. a = 4 ∧ MOD f a = 0) then [hnf a a c a 0 f]
    else fcc1Loop rest

/-- `fcc_1`, `sp_hnfs.f90:182-268`. -/
def fcc_1 (n : ℤ) : List Mat3 := fcc1Loop (get_HNF_diagonals n)

/-- The loop of `bcc_5`, `sp_hnfs.f90:347-378`. -/
def bcc5Loop : List (ℤ × ℤ × ℤ) → List Mat3
  | [] => []
  | (a, c, f) :: rest =>
    if a = c ∧ a = f then [hnf a 0 c 0 0 f]
    else if a = c ∧ f /. a = 2 ∧ MOD f a = 0 then [hnf a 0 c a a f]
    else if a = c ∧ f /. a = 4 ∧ MOD f a = 0 then [hnf a 0 c (3 *. a) (3 *. a) f]
    else bcc5Loop rest

/-- `bcc_5`, `sp_hnfs.f90:304-398`. -/
def bcc_5 (n : ℤ) : List Mat3 := bcc5Loop w (get_HNF_diagonals n)

/-- `hex_12`, `sp_hnfs.f90:493-555`. -/
def hex_12 (n : ℤ) : List Mat3 :=
  (get_HNF_diagonals n).flatMap fun ((a, c, f) : ℤ × ℤ × ℤ) =>
    if MOD c a = 0 then
      (pyRangeStep c a).flatMap fun (b : ℤ) =>
        if MOD (b *. b) a = 0 then
          let beta13 : ℤ := a +. 2 *. b
          let beta11 : ℤ := 2 *. b +. b *. b /. a
          if MOD beta13 c = 0 ∧ MOD beta11 c = 0 then
            (halves f).flatMap fun (e : ℤ) =>
              let gamma13 : ℤ := (a +. 2 *. b) *. e
              if MOD gamma13 c = 0 then
                let gamma13' : ℤ := gamma13 /. c
                if MOD gamma13' f = 0 then
                  (pyRange 0 f).flatMap fun (d : ℤ) =>
                    if MOD (b *. d) a = 0 ∧ MOD (e * beta11) c = 0 ∧ MOD (b *. e) a = 0 ∧
                        MOD (c *. d) a = 0 ∧ MOD (c *. d -. b *. e) a = 0 then
                      let gamma11 : ℤ := b *. d /. a - e * beta11 /. c
                      let gamma12 : ℤ := (2 *. d +. b *. d /. a) - e * beta11 /. c
                      let gamma21 : ℤ := c *. d /. a -. 2 *. e -. b *. e /. a
                      let gamma22 : ℤ := (c *. d -. b *. e) /. a
                      if MOD gamma11 f = 0 ∧ MOD gamma12 f = 0 ∧ MOD gamma21 f = 0 ∧
                          MOD gamma22 f = 0 then
                        [hnf a b c d e f]
                      else []
                    else []
                else []
              else []
          else []
        else []
    else []

/-- `hex_22`, `sp_hnfs.f90:670-710`. -/
def hex_22 (n : ℤ) : List Mat3 :=
  (get_HNF_diagonals n).flatMap fun ((a, c, f) : ℤ × ℤ × ℤ) =>
    if MOD f c = 0 then
      (pyRangeStep f c).flatMap fun (e : ℤ) =>
        if MOD (e *. e) c = 0 then
          let gamma21 : ℤ := -c +. e *. 2
          let gamma22 : ℤ := -c +. e -. e *. e /. c
          if MOD gamma21 f = 0 ∧ MOD gamma22 f = 0 then
            (pyRange 0 c).flatMap fun (b : ℤ) =>
              (pyRangeStep f c).flatMap fun (d : ℤ) =>
                if MOD (d *. e) c = 0 then
                  let gamma11 : ℤ := -b +. d *. 2
                  let gamma12 : ℤ := -b +. d -. d *. e /. c
                  if MOD gamma11 f = 0 ∧ MOD gamma12 f = 0 then [hnf a b c d e f] else []
                else []
          else []
        else []
    else []

/-- `rhom_9_24`, `sp_hnfs.f90:828-885`. -/
def rhom_9_24 (n : ℤ) : List Mat3 :=
  (get_HNF_diagonals n).flatMap fun ((a, c, f) : ℤ × ℤ × ℤ) =>
    if MOD f a = 0 then
      (halves c).flatMap fun (b : ℤ) =>
        let beta13 : ℤ := f +. b *. f /. a
        if MOD beta13 c = 0 then
          (pyRangeStep f a).flatMap fun (e : ℤ) =>
            let beta22 : ℤ := e +. b *. e /. a
            let gamma21 : ℤ := c +. 2 *. e
            let gamma11 : ℤ := b +. 2 *. b *. e /. c
            if MOD beta22 c = 0 ∧ MOD gamma21 f = 0 ∧ MOD gamma11 f = 0 then
              (pyRangeStep f a).flatMap fun (d : ℤ) =>
                let beta12 : ℤ := -a +. b +. d +. d *. b /. a
                if MOD beta12 c = 0 then
                  let gamma12 : ℤ := (-b -. d +. d *. d /. a) - e * beta12 /. c
                  let gamma22 : ℤ := (-c -. 2 *. e +. d *. e /. a) - e * beta22 /. c
                  if MOD gamma12 f = 0 ∧ MOD gamma22 f = 0 then [hnf a b c d e f] else []
                else []
            else []
        else []
    else []

/-- `rhom_4_2`, `sp_hnfs.f90:1005-1067`. -/
def rhom_4_2 (n : ℤ) : List Mat3 :=
  (get_HNF_diagonals n).flatMap fun ((a, c, f) : ℤ × ℤ × ℤ) =>
    if MOD f a = 0 then
      (halves c).flatMap fun (b : ℤ) =>
        if MOD (b *. f) a = 0 then
          let beta32 : ℤ := -f +. b *. f /. a
          if MOD beta32 c = 0 then
            (pyRange 0 f).flatMap fun (e : ℤ) =>
              if MOD (b *. e) a = 0 ∧ MOD (2 *. b *. e) c = 0 then
                let beta22 : ℤ := -e +. b *. e /. a
                let gamma11 : ℤ := b -. 2 *. b *. e /. c
                let gamma21 : ℤ := c -. 2 *. e
                if MOD e a = 0 ∧ MOD beta22 c = 0 ∧ MOD gamma11 f = 0 ∧ MOD gamma21 f = 0 then
                  (pyRange 0 f).flatMap fun (d : ℤ) =>
                    if MOD (b *. d) a = 0 then
                      let beta12 : ℤ := -a +. b -. d +. b *. d /. a
                      if MOD (e * beta12) c = 0 ∧ MOD (d *. d) a = 0 ∧ MOD (d *. e) a = 0 then
                        let gamma12 : ℤ := (-a +. d *. d /. a) - (e * beta12 /. c)
                        let gamma22 : ℤ := (-e +. d *. e /. a) - (e * beta22 /. c)
                        if MOD d a = 0 ∧ MOD beta12 c = 0 ∧ MOD gamma12 f = 0 ∧
                            MOD gamma22 f = 0 then
                          [hnf a b c d e f]
                        else []
                      else []
                    else []
                else []
              else []
          else []
        else []
    else []

/-- `st_11`, `sp_hnfs.f90:1184-1246`. -/
def st_11 (n : ℤ) : List Mat3 :=
  (get_HNF_diagonals n).flatMap fun ((a, c, f) : ℤ × ℤ × ℤ) =>
    if MOD c a = 0 then
      (halves c).flatMap fun (b : ℤ) =>
        if MOD (b *. b) a = 0 then
          let beta13 : ℤ := -a +. b *. b /. a
          if MOD beta13 c = 0 then
            (halves f).flatMap fun (e : ℤ) =>
              if MOD (2 *. b *. e) c = 0 then
                let gamma12 : ℤ := 2 *. b *. e /. c
                if MOD gamma12 f = 0 then
                  (pyRange 0 f).flatMap fun (d : ℤ) =>
                    if MOD (d *. b) a = 0 ∧ MOD (d *. c) a = 0 ∧ MOD (e *. b) a = 0 then
                      let gamma13 : ℤ := -(e * beta13 /. c) + d *. (b /. a -. 1)
                      let gamma23 : ℤ := -(e *. (b /. a +. 1)) +. d *. c /. a
                      if MOD gamma13 f = 0 ∧ MOD gamma23 f = 0 then [hnf a b c d e f] else []
                    else []
                else []
              else []
          else []
        else []
    else []

/-- `st_21`, `sp_hnfs.f90:1363-1419`. -/
def st_21 (n : ℤ) : List Mat3 :=
  (get_HNF_diagonals n).flatMap fun ((a, c, f) : ℤ × ℤ × ℤ) =>
    if MOD f c = 0 then
      (halves c).flatMap fun (b : ℤ) =>
        (halves f).flatMap fun (d : ℤ) =>
          let beta13 : ℤ := b -. d
          if MOD beta13 c = 0 then
            (halves f).flatMap fun (e : ℤ) =>
              if MOD (2 *. d *. e) c = 0 ∧ MOD (e *. e) c = 0 then
                let gamma12 : ℤ := 2 *. d -. 2 *. d *. e /. c
                let gamma13 : ℤ := (-b +. d) - e * beta13 /. c
                let gamma23 : ℤ := -c +. e *. e /. c
                if MOD gamma12 f = 0 ∧ MOD gamma13 f = 0 ∧ MOD gamma23 f = 0 then
                  [hnf a b c d e f]
                else []
              else []
          else []
    else []

/-- `bct_6_7_15_18`, `sp_hnfs.f90:1541-1590`. -/
def bct_6_7_15_18 (n : ℤ) : List Mat3 :=
  (get_HNF_diagonals n).flatMap fun ((a, c, f) : ℤ × ℤ × ℤ) =>
    if MOD f c = 0 then
      (halves f).flatMap fun (e : ℤ) =>
        if MOD e c = 0 then
          let gamma21 : ℤ := -c +. e *. e /. c
          if MOD gamma21 f = 0 then
            (pyRange 0 f).flatMap fun (d : ℤ) =>
              let gamma13 : ℤ := a +. 2 *. d
              if MOD gamma13 f = 0 then
                (pyRange 0 c).flatMap fun (b : ℤ) =>
                  let beta12 : ℤ := b -. d
                  if MOD beta12 c = 0 then
                    let gamma12 : ℤ := (-b +. d) - (e * beta12 /. c)
                    if MOD gamma12 f = 0 then [hnf a b c d e f] else []
                  else []
              else []
          else []
        else []
    else []

/-- `so_32`, `sp_hnfs.f90:1706-1753`. -/
def so_32 (n : ℤ) : List Mat3 :=
  (get_HNF_diagonals n).flatMap fun ((a, c, f) : ℤ × ℤ × ℤ) =>
    (halves c).flatMap fun (b : ℤ) =>
      (halves f).flatMap fun (e : ℤ) =>
        if MOD (2 *. b *. e) (f *. c) = 0 then
          (halves f).flatMap fun (d : ℤ) => [hnf a b c d e f]
        else []

/-- `fco_26`, `sp_hnfs.f90:1870-1913`. -/
def fco_26 (n : ℤ) : List Mat3 :=
  (get_HNF_diagonals n).flatMap fun ((a, c, f) : ℤ × ℤ × ℤ) =>
    (halves c).flatMap fun (b : ℤ) =>
      (pyRange 0 f).flatMap fun (e : ℤ) =>
        if MOD (2 *. b *. e) c = 0 then
          let gamma23 : ℤ := c +. 2 *. e
          let gamma12 : ℤ := b +. 2 *. b *. e /. c
          if MOD gamma23 f = 0 ∧ MOD gamma12 f = 0 then
            (pyRange 0 f).flatMap fun (d : ℤ) =>
              let gamma13 : ℤ := a +. b +. 2 *. d
              if MOD gamma13 f = 0 then [hnf a b c d e f] else []
          else []
        else []

/-- `fco_16`, `sp_hnfs.f90:2031-2073`; here `bs = (/(c/2), 0/)`. -/
def fco_16 (n : ℤ) : List Mat3 :=
  (get_HNF_diagonals n).flatMap fun ((a, c, f) : ℤ × ℤ × ℤ) =>
    (halves c).reverse.flatMap fun (b : ℤ) =>
      (pyRange 0 f).flatMap fun (e : ℤ) =>
        if MOD (2 *. b *. e) c = 0 then
          let gamma11 : ℤ := -b -. 2 *. b *. e /. c
          let gamma21 : ℤ := c +. 2 *. e
          if MOD gamma11 f = 0 ∧ MOD gamma21 f = 0 then
            (pyRange 0 f).flatMap fun (d : ℤ) =>
              let gamma12 : ℤ := a +. 2 *. d -. 2 *. b *. e /. c
              if MOD gamma12 f = 0 then [hnf a b c d e f] else []
          else []
        else []

/-- `bco_19`, `sp_hnfs.f90:2190-2235`. -/
def bco_19 (n : ℤ) : List Mat3 :=
  (get_HNF_diagonals n).flatMap fun ((a, c, f) : ℤ × ℤ × ℤ) =>
    (pyRange 0 c).flatMap fun (b : ℤ) =>
      let beta13 : ℤ := a +. 2 *. b
      if MOD beta13 c = 0 then
        (halves f).flatMap fun (e : ℤ) =>
          if MOD (e * beta13) c = 0 then
            let gamma13 : ℤ := e * beta13 /. c
            if MOD gamma13 f = 0 then
              (pyRange 0 f).flatMap fun (d : ℤ) =>
                let gamma12 : ℤ := a +. 2 *. d
                if MOD gamma12 f = 0 then [hnf a b c d e f] else []
            else []
          else []
      else []

/-- `bco_8`, `sp_hnfs.f90:2353-2403`. -/
def bco_8 (n : ℤ) : List Mat3 :=
  (get_HNF_diagonals n).flatMap fun ((a, c, f) : ℤ × ℤ × ℤ) =>
    if MOD (2 *. f) c = 0 then
      (halves c).flatMap fun (b : ℤ) =>
        (pyRange 0 f).flatMap fun (e : ℤ) =>
          let beta21 : ℤ := 2 *. e
          if MOD (beta21 * e) c = 0 then
            let gamma21 : ℤ := -beta21 + beta21 * e /. c
            if MOD beta21 c = 0 ∧ MOD gamma21 f = 0 then
              (pyRange 0 f).flatMap fun (d : ℤ) =>
                let beta11 : ℤ := -a +. 2 *. b -. 2 *. d
                if MOD beta11 c = 0 then
                  let gamma11 : ℤ := -(beta11 * e /. c)
                  let gamma13 : ℤ := (a +. 2 *. d) - b * beta21 /. c
                  if MOD gamma11 f = 0 ∧ MOD gamma13 f = 0 then [hnf a b c d e f] else []
                else []
            else []
          else []
    else []

/-- `bco_42`, `sp_hnfs.f90:2521-2566`. -/
def bco_42 (n : ℤ) : List Mat3 :=
  (get_HNF_diagonals n).flatMap fun ((a, c, f) : ℤ × ℤ × ℤ) =>
    (halves f).flatMap fun (e : ℤ) =>
      (pyRange 0 c).flatMap fun (b : ℤ) =>
        let beta11 : ℤ := -a +. 2 *. b
        if MOD (beta11 * e) c = 0 then
          let gamma12 : ℤ := -(beta11 * e /. c)
          if MOD beta11 c = 0 ∧ MOD gamma12 f = 0 then
            (pyRange 0 f).flatMap fun (d : ℤ) =>
              let gamma11 : ℤ := (-a +. 2 *. d) - e * beta11 /. c
              let gamma13 : ℤ := -a +. 2 *. d
              if MOD gamma11 f = 0 ∧ MOD gamma13 f = 0 then [hnf a b c d e f] else []
          else []
        else []

/-- `baseco_38_13`, `sp_hnfs.f90:2686-2739`. -/
def baseco_38_13 (n : ℤ) : List Mat3 :=
  (get_HNF_diagonals n).flatMap fun ((a, c, f) : ℤ × ℤ × ℤ) =>
    if MOD c a = 0 then
      (pyRangeStep c a).flatMap fun (b : ℤ) =>
        if MOD (b *. b) a = 0 then
          let beta13 : ℤ := -a +. b *. b /. a
          if MOD beta13 c = 0 then
            (halves f).flatMap fun (e : ℤ) =>
              (halves f).flatMap fun (d : ℤ) =>
                if MOD (b *. d) a = 0 then
                  let gamma13 : ℤ := (-d +. b *. d /. a) - e * beta13 /. c
                  let gamma23 : ℤ := c *. d /. a -. e -. b *. e /. a
                  if MOD gamma13 f = 0 ∧ MOD gamma23 f = 0 then [hnf a b c d e f] else []
                else []
          else []
        else []
    else []

/-- `baseco_23`, `sp_hnfs.f90:2857-2916`. -/
def baseco_23 (n : ℤ) : List Mat3 :=
  (get_HNF_diagonals n).flatMap fun ((a, c, f) : ℤ × ℤ × ℤ) =>
    if MOD f a = 0 then
      (halves c).flatMap fun (b : ℤ) =>
        if MOD (b *. f) (a *. c) = 0 then
          (halves f).flatMap fun (e : ℤ) =>
            if MOD (b *. e) (a *. c) = 0 ∧ MOD (2 *. b *. e) (c *. f) = 0 ∧ MOD e a = 0 then
              (pyRangeStep f a).flatMap fun (d : ℤ) =>
                if MOD (b *. d) a = 0 then
                  let beta13 : ℤ := -b +. b *. d /. a
                  if MOD (beta13 * e) c = 0 ∧ MOD (d *. d) a = 0 then
                    let gamma13 : ℤ := (-a +. d *. d /. a) - beta13 * e /. c
                    let gamma23 : ℤ := e +. d *. e /. a -. b *. e *. e /. (a *. c)
                    if MOD beta13 c = 0 ∧ MOD gamma13 f = 0 ∧ MOD gamma23 f = 0 then
                      [hnf a b c d e f]
                    else []
                  else []
                else []
            else []
        else []
    else []

/-- `baseco_40`, `sp_hnfs.f90:3033-3071`. -/
def baseco_40 (n : ℤ) : List Mat3 :=
  (get_HNF_diagonals n).flatMap fun ((a, c, f) : ℤ × ℤ × ℤ) =>
    if MOD f c = 0 then
      (pyRangeStep f c).flatMap fun (e : ℤ) =>
        let gamma22 : ℤ := 2 *. e -. e *. e /. c
        if MOD gamma22 f = 0 then
          (pyRangeStep f c).flatMap fun (d : ℤ) =>
            let gamma12 : ℤ := 2 *. d -. d *. e /. c
            if MOD gamma12 f = 0 then
              (pyRange 0 c).flatMap fun (b : ℤ) =>
                let beta13 : ℤ := 2 *. b -. d
                let gamma13 : ℤ := beta13 * e /. c
                if MOD beta13 c = 0 ∧ MOD gamma13 f = 0 then [hnf a b c d e f] else []
            else []
        else []
    else []

/-- `baseco_36`, `sp_hnfs.f90:3188-3255`. -/
def baseco_36 (n : ℤ) : List Mat3 :=
  (get_HNF_diagonals n).flatMap fun ((a, c, f) : ℤ × ℤ × ℤ) =>
    if MOD f a = 0 then
      (halves c).flatMap fun (b : ℤ) =>
        let beta32 : ℤ := -(b *. f /. a)
        if MOD beta32 c = 0 then
          (halves f).flatMap fun (e : ℤ) =>
            if MOD e a = 0 ∧ MOD (b *. e) c = 0 then
              let beta22 : ℤ := -(b *. e /. a)
              let gamma13 : ℤ := -(2 *. b *. e /. c)
              if MOD beta22 c = 0 ∧ MOD gamma13 f = 0 then
                (pyRange 0 f).flatMap fun (d : ℤ) =>
                  if MOD (b *. d) a = 0 ∧ MOD (d *. d) a = 0 then
                    let beta12 : ℤ := -(b *. d /. a)
                    if MOD (beta12 * e) c = 0 then
                      let gamma12 : ℤ := (2 *. d -. d *. d /. a) - beta12 * e /. c
                      let gamma22 : ℤ := (2 *. e -. d *. e /. a) - beta22 * e /. c
                      if MOD beta12 c = 0 ∧ MOD gamma12 f = 0 ∧ MOD gamma22 f = 0 then
                        [hnf a b c d e f]
                      else []
                    else []
                  else []
              else []
            else []
        else []
    else []

/-- `sm_33`, `sp_hnfs.f90:3372-3419`. -/
def sm_33 (n : ℤ) : List Mat3 :=
  (get_HNF_diagonals n).flatMap fun ((a, c, f) : ℤ × ℤ × ℤ) =>
    (halves c).flatMap fun (b : ℤ) =>
      (halves f).flatMap fun (e : ℤ) =>
        if MOD (2 *. b *. e) c = 0 then
          let gamma12 : ℤ := 2 *. b *. e /. c
          if MOD gamma12 f = 0 then
            (pyRange 0 f).flatMap fun (d : ℤ) => [hnf a b c d e f]
          else []
        else []

/-- `sm_34_35`, `sp_hnfs.f90:3537-3574`. -/
def sm_34_35 (n : ℤ) : List Mat3 :=
  (get_HNF_diagonals n).flatMap fun ((a, c, f) : ℤ × ℤ × ℤ) =>
    (halves f).flatMap fun (d : ℤ) =>
      (halves f).flatMap fun (e : ℤ) =>
        (pyRange 0 c).flatMap fun (b : ℤ) => [hnf a b c d e f]

/-- `basecm_10_14_17_27_37_39_41`, `sp_hnfs.f90:3697-3733`. -/
def basecm_10_14_17_27_37_39_41 (n : ℤ) : List Mat3 :=
  (get_HNF_diagonals n).flatMap fun ((a, c, f) : ℤ × ℤ × ℤ) =>
    (halves f).flatMap fun (e : ℤ) =>
      (pyRange 0 f).flatMap fun (d : ℤ) =>
        let gamma11 : ℤ := -1 *. a +. 2 *. d
        if MOD gamma11 f = 0 then
          (pyRange 0 c).flatMap fun (b : ℤ) => [hnf a b c d e f]
        else []

/-- `basecm_20_25`, `sp_hnfs.f90:3853-3895`. -/
def basecm_20_25 (n : ℤ) : List Mat3 :=
  (get_HNF_diagonals n).flatMap fun ((a, c, f) : ℤ × ℤ × ℤ) =>
    (pyRange 0 f).flatMap fun (e : ℤ) =>
      let gamma22 : ℤ := -c -. 2 *. e
      if MOD gamma22 f = 0 then
        (halves c).flatMap fun (b : ℤ) =>
          if MOD (2 *. b *. e) c = 0 then
            let gamma12 : ℤ := -b -. 2 *. b *. e /. c
            if MOD gamma12 f = 0 then
              (pyRange 0 f).flatMap fun (d : ℤ) => [hnf a b c d e f]
            else []
          else []
      else []

/-- `basecm_28`, `sp_hnfs.f90:4012-4045`. -/
def basecm_28 (n : ℤ) : List Mat3 :=
  (get_HNF_diagonals n).flatMap fun ((a, c, f) : ℤ × ℤ × ℤ) =>
    if MOD f c = 0 then
      (pyRangeStep f c).flatMap fun (e : ℤ) =>
        let gamma21 : ℤ := 2 *. e +. e *. e /. c
        if MOD gamma21 f = 0 then
          (pyRangeStep f c).flatMap fun (d : ℤ) =>
            let gamma11 : ℤ := 2 *. d +. d *. e /. c
            if MOD gamma11 f = 0 then
              (pyRange 0 c).flatMap fun (b : ℤ) => [hnf a b c d e f]
            else []
        else []
    else []

/-- `basecm_29_30`, `sp_hnfs.f90:4164-4197`. -/
def basecm_29_30 (n : ℤ) : List Mat3 :=
  (get_HNF_diagonals n).flatMap fun ((a, c, f) : ℤ × ℤ × ℤ) =>
    if MOD f c = 0 then
      (pyRangeStep f c).flatMap fun (e : ℤ) =>
        let gamma21 : ℤ := 2 *. e +. e *. e /. c
        if MOD gamma21 f = 0 then
          (pyRangeStep f c).flatMap fun (d : ℤ) =>
            let gamma11 : ℤ := 2 *. d +. d *. e /. c
            if MOD gamma11 f = 0 then
              (pyRange 0 c).flatMap fun (b : ℤ) => [hnf a b c d e f]
            else []
        else []
    else []

/-- `basecm_43`, `sp_hnfs.f90:4314-4348`. -/
def basecm_43 (n : ℤ) : List Mat3 :=
  (get_HNF_diagonals n).flatMap fun ((a, c, f) : ℤ × ℤ × ℤ) =>
    if MOD f c = 0 then
      (pyRangeStep f c).flatMap fun (e : ℤ) =>
        let gamma22 : ℤ := 2 *. e -. e *. e /. c
        if MOD gamma22 f = 0 then
          (pyRange 0 f).flatMap fun (d : ℤ) =>
            let beta12 : ℤ := a +. d
            let gamma12 : ℤ := (2 *. a +. 2 *. d) - beta12 * e /. c
            if MOD beta12 c = 0 ∧ MOD gamma12 f = 0 then
              (pyRange 0 c).flatMap fun (b : ℤ) => [hnf a b c d e f]
            else []
        else []
    else []

/-- `tric_31_44`, `sp_hnfs.f90:4462-4488`, before the matrices are multiplied by `mult`. -/
def tric_31_44 (n : ℤ) : List Mat3 :=
  (get_HNF_diagonals n).flatMap fun ((a, c, f) : ℤ × ℤ × ℤ) =>
    (pyRange 0 c).flatMap fun (b : ℤ) =>
      (pyRange 0 f).flatMap fun (d : ℤ) =>
        (pyRange 0 f).flatMap fun (e : ℤ) => [hnf a b c d e f]

/-- The number of matrices `temp_HNFs` has room for, `sp_hnfs.f90:477-487` and the same lines of the
other subroutines: `total_hnfs` is `integer(li)`, the product is a 32-bit one. -/
def total_hnfs (n : ℤ) : ℤ :=
  (get_HNF_diagonals n).foldl (fun t (x : ℤ × ℤ × ℤ) => t + x.2.1 *. (x.2.2 *. x.2.2)) 0

/-- `nhnfs` of `tric_31_44`, the size of `spHNFs`, `sp_hnfs.f90:4451-4454`: all 32-bit. -/
def tric_nhnfs (n : ℤ) : ℤ :=
  (get_HNF_diagonals n).foldl (fun t (x : ℤ × ℤ × ℤ) => t +. x.2.1 *. (x.2.2 *. x.2.2)) 0

/-- `ihnf` at the end of `tric_31_44`, `sp_hnfs.f90:4464-4469`: one more for each matrix visited. -/
def tric_ihnf (n : ℤ) : ℤ := (tric_31_44 n).foldl (fun t _ => t +. 1) 0

/-- The lists of the subroutines that allocate `total_hnfs` matrices, `sp_hnfs.f90:435-4408`. -/
def tableGenerators (n : ℤ) : List (List Mat3) :=
  [hex_12 w n, hex_22 w n, rhom_9_24 w n, rhom_4_2 w n, st_11 w n, st_21 w n, bct_6_7_15_18 w n,
    so_32 w n, fco_26 w n, fco_16 w n, bco_19 w n, bco_8 w n, bco_42 w n, baseco_38_13 w n,
    baseco_23 w n, baseco_40 w n, baseco_36 w n, sm_33 w n, sm_34_35 n,
    basecm_10_14_17_27_37_39_41 w n, basecm_20_25 w n, basecm_28 w n, basecm_29_30 w n,
    basecm_43 w n]

end

end Fortran

end AutoGR
