import Verif.Spec.Numeral

/-!
# Specification: what a `struct_enum.in` file says

The input file of the brute force program (the format of the enumeration code `enumlib`).  Nothing here refers to the
code.
-/

namespace AutoGR.Spec

/-- A comment line, or a blank one: nothing but blanks, or blanks and then `#`.  Only the first 50 characters count. -/
def Comment (line : List Char) : Prop :=
  (∃ n, line.take 50 = List.replicate n ' ') ∨ ∃ n t, line.take 50 = List.replicate n ' ' ++ '#' :: t

/-- The second list is the first one without its comment lines. -/
inductive Significant : List (List Char) → List (List Char) → Prop
  | nil : Significant [] []
  | comment {line f s} : Comment line → Significant f s → Significant (line :: f) s
  | line {line f s} : ¬ Comment line → Significant f s → Significant (line :: f) (line :: s)

/-- The first words of the line are integers of 32 bits. -/
def Integers (line : List Char) (zs : List ℤ) : Prop :=
  ∃ ws more, Words line (ws ++ more) ∧
    List.Forall₂ (fun w (z : ℤ) => IntNumeral w z ∧ -2 ^ 31 ≤ z ∧ z < 2 ^ 31) ws zs

/-- A site of the crystal: its position and the labels that it may have. -/
structure EnumSite where
  position : ℚ × ℚ × ℚ
  labels : List ℕ

/-- The contents of the file. -/
structure EnumData where
  title : List Char
  surface : Bool
  v1 : ℚ × ℚ × ℚ
  v2 : ℚ × ℚ × ℚ
  v3 : ℚ × ℚ × ℚ
  /-- the number of labels -/
  k : ℕ
  sites : List EnumSite
  equivalent : Option (List ℤ)
  nMin : ℤ
  nMax : ℤ
  eps : ℚ
  full : Bool
  concentrations : Option (List (ℤ × ℤ × ℤ))

/-- The line of a site: three numbers, and the labels with slashes between them; then a comment may follow.  The line,
without the comment, has at most 100 characters. -/
def SiteText (line : List Char) (s : EnumSite) : Prop :=
  ∃ text comment w1 w2 w3 w4 ws,
    line = text ++ comment ∧ (comment = [] ∨ ∃ t, comment = '#' :: t) ∧ text.length ≤ 100 ∧
    Words text [w1, w2, w3, w4] ∧
    RealNumeral w1 s.position.1 ∧ RealNumeral w2 s.position.2.1 ∧ RealNumeral w3 s.position.2.2 ∧
    w4 = List.intercalate ['/'] ws ∧ List.Forall₂ (fun w (n : ℕ) => IntNumeral w n ∧ n < 2 ^ 31) ws s.labels

/-- The labels make sense: each site has at least one and none twice; they are below `k`; each is used. -/
structure LabelsRight (k : ℕ) (sites : List EnumSite) : Prop where
  some : ∀ s ∈ sites, s.labels ≠ []
  distinct : ∀ s ∈ sites, s.labels.Nodup
  below : ∀ s ∈ sites, ∀ n ∈ s.labels, n < k
  used : ∀ n < k, ∃ s ∈ sites, n ∈ s.labels

/-- A concentration is a range of fractions: two numerators and the denominator. -/
def ConcRight (c : ℤ × ℤ × ℤ) : Prop := 0 ≤ c.1 ∧ 0 ≤ c.2.1 ∧ c.1 ≤ c.2.2 ∧ c.2.1 ≤ c.2.2

/-- A word in any mixture of small letters and capitals. -/
def Spells (word : List Char) (name : String) : Prop := word.map Char.toUpper = name.toList

/-- The file says `d`.  The kind of lattice is in the first column.  The equivalencies, with a line beginning with `E`
before them, and the concentrations may be left out. -/
def EnumText (lines : List (List Char)) (d : EnumData) : Prop :=
  ∃ title kind more1 l1 l2 l3 lk lD siteLines eqLines lN lEps mode concLines extra,
    Significant lines (title :: (kind ++ more1) :: l1 :: l2 :: l3 :: lk :: lD ::
      (siteLines ++ (eqLines ++ lN :: lEps :: mode :: (concLines ++ extra)))) ∧
    d.title = title ∧
    Spells kind (if d.surface then "SURF" else "BULK") ∧
    Numbers3 l1 d.v1 ∧ Numbers3 l2 d.v2 ∧ Numbers3 l3 d.v3 ∧
    Integers lk [(d.k : ℤ)] ∧ 0 < d.k ∧ Integers lD [(d.sites.length : ℤ)] ∧
    List.Forall₂ SiteText siteLines d.sites ∧ LabelsRight d.k d.sites ∧
    (d.equivalent = none ∧ eqLines = [] ∨
      ∃ e le c w ws, d.equivalent = some e ∧ e.length = d.sites.length ∧ Words le ((c :: w) :: ws) ∧ (c = 'e' ∨ c = 'E') ∧
        ∃ lv, eqLines = [le, lv] ∧ Integers lv e) ∧
    Integers lN [d.nMin, d.nMax] ∧ Number lEps d.eps ∧
    (∃ w u ws, Words mode ((w ++ u) :: ws) ∧ Spells w (if d.full then "FULL" else "PART") ∧
      ∀ c ∈ u, c.isAlpha = true) ∧
    (d.concentrations = none ∧ concLines = [] ∧ extra = [] ∨
      ∃ cs, d.concentrations = some cs ∧ cs.length = d.k ∧ (∀ c ∈ cs, ConcRight c) ∧
        List.Forall₂ (fun l (c : ℤ × ℤ × ℤ) => Integers l [c.1, c.2.1, c.2.2]) concLines cs)

end AutoGR.Spec
