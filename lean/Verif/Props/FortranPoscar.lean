import Verif.Lemmas.Poscar
import Verif.Props.FortranInput

/-!
# Properties of `read_POSCAR`
-/

namespace AutoGR.Fortran

open Spec

theorem readAtoms_says {rd : Reader} {d : PoscarData} {mode : List Char} {positions extra : List (List Char)}
    (hm : SaysMode mode d.mode) (hml : mode.length ≤ 300) (hp : positions.map rd.real3 = d.positions.map some)
    (hn : d.positions.length = d.counts.sum) (hdet : d.mode = .cartesian → (d.scale • d.columns).det ≠ 0) :
    readAtoms rd d.scale d.columns ⟨d.counts.length, d.counts.map fun n : ℕ => (n : ℤ)⟩
        (mode :: (positions ++ extra)) =
      .ok ⟨d.columns, d.positions.map fun x => match d.mode with
        | .direct => vec x
        | .cartesian => (d.scale • d.columns)⁻¹.mulVec (vec x),
        typeLoop 0 (d.counts.map fun n : ℕ => (n : ℤ)), d.scale⟩ := by
  obtain ⟨c, hc, hcm⟩ := mode_head hm
  unfold readAtoms
  dsimp only
  rw [sum_cast, ← hn, readPositions_map rd positions d.positions extra hp, List.take_of_length_le hml,
    List.take_of_length_le (by simp), hc]
  dsimp only
  have hcart : (some c = some 'c' ∨ some c = some 'C' ∨ some c = some 'k' ∨ some c = some 'K') ↔
      d.mode = .cartesian := by simpa using hcm.symm
  rw [if_neg (fun h => hdet (hcart.1 h.1) h.2)]
  rw [if_neg (by rw [typeLoop_length, hn]; omega)]
  by_cases h : d.mode = .cartesian
  · rw [if_pos (hcart.2 h), h, List.map_map]
    rfl
  · have h' : d.mode = .direct := by
      cases hd : d.mode
      · rfl
      · exact absurd hd h
    rw [if_neg (fun e => h (hcart.1 e)), h']

/-- What `read_POSCAR` returns for a well-formed file. -/
theorem read_POSCAR_says {rd : Reader} {junk : ℤ} {lines : List (List Char)} {d : PoscarData}
    (h : PoscarSays rd lines d) (hdet : d.mode = .cartesian → (d.scale • d.columns).det ≠ 0) :
    read_POSCAR rd junk lines =
      .ok ⟨d.columns, d.positions.map fun x => match d.mode with
        | .direct => vec x
        | .cartesian => (d.scale • d.columns)⁻¹.mulVec (vec x),
        typeLoop 0 (d.counts.map fun n : ℕ => (n : ℤ)), d.scale⟩ := by
  obtain ⟨title, scale, l1, l2, l3, names, counts, mode, positions, extra, rfl, hs, h1, h2, h3, hnames, hne,
    ⟨words, hw, hv⟩, hm, hml, hp, hn⟩ := h
  have hwne : words ≠ [] := by
    rintro rfl
    simp only [List.map_nil] at hv
    exact hne (by simpa using hv.symm)
  have hcounts : parse_line_for_numbers rd.int junk (counts.take 300) =
      some ⟨d.counts.length, d.counts.map fun n : ℕ => (n : ℤ)⟩ := by
    have := parse_words rd.int junk (values := d.counts.map fun n : ℕ => (n : ℤ)) hw hwne
      (by rw [hv, List.map_map]; rfl)
    rw [this, List.length_map]
  have hlen : d.counts.length ≠ 0 := by simpa using hne
  have hfin := readAtoms_says (rd := rd) (extra := extra) hm hml hp hn hdet
  rcases hnames with rfl | ⟨line, word, ws, rfl, hsw, hbad⟩
  · rw [List.nil_append]
    unfold read_POSCAR
    dsimp only
    rw [hs, h1, h2, h3]
    dsimp only
    rw [hcounts]
    dsimp only
    rw [if_neg hlen]
    exact hfin
  · rw [List.cons_append, List.nil_append]
    obtain ⟨vs, hvs⟩ := parse_names rd.int junk hsw hbad
    unfold read_POSCAR
    dsimp only
    rw [hs, h1, h2, h3]
    dsimp only
    rw [hvs]
    dsimp only
    rw [if_pos rfl, hcounts]
    exact hfin

/-- **C84.**  For a well-formed `POSCAR` file, with or without a line of names, the lattice and the scale are those
of the file, there is one type per atom, the types are in order and each species has as many atoms as the file
says. -/
theorem read_POSCAR_lattice_types {rd : Reader} {junk : ℤ} {lines : List (List Char)} {d : PoscarData}
    (h : PoscarSays rd lines d) (hdet : d.mode = .cartesian → (d.scale • d.columns).det ≠ 0) :
    ∃ p, read_POSCAR rd junk lines = .ok p ∧ p.lattice = d.columns ∧ p.lat_param = d.scale ∧
      p.atom_type.length = d.counts.sum ∧ p.atom_base.length = d.counts.sum ∧
      p.atom_type.Pairwise (· ≤ ·) ∧ (∀ t ∈ p.atom_type, t < d.counts.length) ∧
      ∀ (j : ℕ) (hj : j < d.counts.length), p.atom_type.count j = d.counts[j] := by
  refine ⟨_, read_POSCAR_says h hdet, rfl, rfl, typeLoop_length 0 _, ?_, typeLoop_sorted 0 _, ?_, ?_⟩
  · obtain ⟨_, _, _, _, _, _, _, _, _, _, _, _, _, _, _, _, _, _, _, _, _, hn⟩ := h
    rw [List.length_map, hn]
  · intro t ht
    have := typeLoop_ge 0 _ t ht
    omega
  · intro j hj
    have := typeLoop_count 0 d.counts j hj
    rwa [Nat.zero_add] at this

/-- **C85 (partial).**  The atoms are where the file says, in coordinates of the scaled lattice, if the positions
are direct or the scale is 1. -/
theorem read_POSCAR_places_partial {rd : Reader} {junk : ℤ} {lines : List (List Char)} {d : PoscarData}
    (h : PoscarSays rd lines d) (hdet : (d.scale • d.columns).det ≠ 0) (hc : d.mode = .direct ∨ d.scale = 1) :
    ∃ p, read_POSCAR rd junk lines = .ok p ∧
      p.atom_base.map (fun x => (p.lat_param • p.lattice).mulVec x) = d.positions.map d.place := by
  refine ⟨_, read_POSCAR_says h fun _ => hdet, ?_⟩
  rw [List.map_map]
  apply List.map_congr_left
  intro x _
  simp only [Function.comp, PoscarData.place]
  cases hm : d.mode with
  | direct => rfl
  | cartesian =>
    have h1 : d.scale = 1 := hc.resolve_left (by rw [hm]; decide)
    rw [Matrix.mulVec_mulVec, Matrix.mul_nonsing_inv _ (Ne.isUnit hdet), Matrix.one_mulVec]
    show vec x = d.scale • vec x
    rw [h1, one_smul]

/-- **C85.**  Cartesian positions are not multiplied by the scale: the atoms are where the file says only if the
scale is 1 or the atom is at the origin. -/
theorem read_POSCAR_places_iff {rd : Reader} {junk : ℤ} {lines : List (List Char)} {d : PoscarData}
    (h : PoscarSays rd lines d) (hdet : (d.scale • d.columns).det ≠ 0) (hc : d.mode = .cartesian) :
    ∃ p, read_POSCAR rd junk lines = .ok p ∧
      (p.atom_base.map (fun x => (p.lat_param • p.lattice).mulVec x) = d.positions.map d.place ↔
        d.scale = 1 ∨ ∀ x ∈ d.positions, vec x = 0) := by
  refine ⟨_, read_POSCAR_says h fun _ => hdet, ?_⟩
  rw [List.map_map, List.map_inj_left]
  simp only [Function.comp, PoscarData.place, hc, Matrix.mulVec_mulVec,
    Matrix.mul_nonsing_inv _ (Ne.isUnit hdet), Matrix.one_mulVec]
  constructor
  · intro he
    by_contra hcon
    push Not at hcon
    obtain ⟨h1, x, hx, hx0⟩ := hcon
    have e := he x hx
    have : (1 - d.scale) • vec x = 0 := by rw [sub_smul, one_smul, ← e, sub_self]
    rcases smul_eq_zero.1 this with h2 | h2
    · exact h1 (by linarith)
    · exact hx0 h2
  · rintro (h1 | h0) x hx
    · rw [h1, one_smul]
    · rw [h0 x hx, smul_zero]

/-! ## Examples -/

/-- Reads natural numbers, one or three in a line. -/
def wordsReader : Reader where
  int l := (digits l).map fun n => (n : ℤ)
  real l := (digits l).map fun n => (n : ℚ)
  real3 l :=
    match l.splitOn ' ' with
    | [a, b, c] =>
      match digits a, digits b, digits c with
      | some a, some b, some c => some ((a : ℚ), (b : ℚ), (c : ℚ))
      | _, _, _ => none
    | _ => none

/-- Two species, three atoms, Cartesian positions, scale 2. -/
def samplePoscar : List (List Char) :=
  ["AB2".toList, "2".toList, "1 0 0".toList, "0 1 0".toList, "0 0 1".toList, "A B".toList, " 1 2".toList,
    "Cart".toList, "0 0 0".toList, "1 0 0".toList, "0 1 0".toList]

def sampleData : PoscarData where
  scale := 2
  v1 := (1, 0, 0)
  v2 := (0, 1, 0)
  v3 := (0, 0, 1)
  counts := [1, 2]
  mode := .cartesian
  positions := [(0, 0, 0), (1, 0, 0), (0, 1, 0)]

theorem sample_words : ShortWords " 1 2".toList ["1".toList, "2".toList] :=
  ⟨Words.cons (word := "1".toList) (rest := " 2".toList) 1 (by decide) (.inr ⟨['2'], rfl⟩)
    (Words.cons (word := "2".toList) (rest := []) 1 (by decide) (.inl rfl) (.none 0)), by decide⟩

theorem sample_names : ShortWords "A B".toList ["A".toList, "B".toList] :=
  ⟨Words.cons (word := "A".toList) (rest := " B".toList) 0 (by decide) (.inr ⟨['B'], rfl⟩)
    (Words.cons (word := "B".toList) (rest := []) 1 (by decide) (.inl rfl) (.none 0)), by decide⟩

theorem samplePoscar_says : PoscarSays wordsReader samplePoscar sampleData :=
  ⟨"AB2".toList, "2".toList, "1 0 0".toList, "0 1 0".toList, "0 0 1".toList, ["A B".toList], " 1 2".toList,
    "Cart".toList, ["0 0 0".toList, "1 0 0".toList, "0 1 0".toList], [], rfl, by decide, by decide, by decide,
    by decide, .inr ⟨_, _, _, rfl, sample_names, by decide⟩, by decide,
    ⟨_, sample_words, by decide⟩, ⟨0, 'C', "art".toList, rfl, by decide, by decide⟩, by decide, by decide,
    by decide⟩

theorem sample_det : (sampleData.scale • sampleData.columns).det ≠ 0 := by
  rw [Matrix.det_smul]
  have : sampleData.columns = 1 := by
    ext i j
    fin_cases i <;> fin_cases j <;> rfl
  rw [this, Matrix.det_one]
  simp [sampleData]

-- the hypotheses of the theorems hold for this file: types 0, 1, 1; the positions are not those of the file
example (junk : ℤ) : ∃ p, read_POSCAR wordsReader junk samplePoscar = .ok p ∧ p.atom_type = [0, 1, 1] ∧
    p.atom_base.map (fun x => (p.lat_param • p.lattice).mulVec x) ≠ sampleData.positions.map sampleData.place := by
  obtain ⟨p, hp, hiff⟩ := read_POSCAR_places_iff (junk := junk) samplePoscar_says sample_det rfl
  refine ⟨p, hp, ?_, fun h => ?_⟩
  · rw [read_POSCAR_says samplePoscar_says fun _ => sample_det] at hp
    cases hp
    decide
  · rcases hiff.1 h with h | h
    · exact absurd h (by decide)
    · have := congrFun (h (1, 0, 0) (by simp [sampleData])) 0
      simp [vec] at this

end AutoGR.Fortran
