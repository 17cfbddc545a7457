import Verif.Lemmas.BruteForce
import Verif.Lemmas.FortranGood
import Verif.Props.LatticeSym

/-!
# C90, C91: the brute force search

`Separates equal n` (`Verif/Lemmas/BruteForce.lean`): the comparison tells an integer from numbers that are at
least `1/n` away.
-/

namespace AutoGR.Brute

open Spec Matrix

/-- A comparison within `eps` separates as long as `n * eps ≤ 1`: with the `1e-10` of the code up to ten thousand
million points. -/
theorem separates_eps (eps : ℝ) (h0 : 0 < eps) (n : ℤ) (hn : 1 ≤ n) (h : n * eps ≤ 1) :
    Separates (fun x y => decide (|x - y| < eps)) n where
  same z := by simpa using h0
  apart x z hx := by
    have hn' : (0 : ℝ) < n := by exact_mod_cast (by omega : 0 < n)
    have : eps ≤ 1 / (n : ℝ) := by rw [le_div_iff₀ hn']; linarith
    simpa using this.trans hx

/-- C90: given symmetry operations of the parent lattice, `get_srHNFs` stays inside its arrays and returns every
Hermite normal form of the given volume that keeps all the operations, only those, and each once. -/
theorem get_srHNFs_lists (equal : ℝ → ℝ → Bool) (P : R3) (hP : P.det ≠ 0) (gens : List R3)
    (hg : ∀ R ∈ gens, ∃ X : IntMat, R * P = P * toReal X) (n : ℤ) (hn : 1 ≤ n) (he : Separates equal n) :
    ∃ l, get_srHNFs equal P gens n = some l ∧ l.Nodup ∧
      ∀ H : IntMat, H ∈ l ↔ H ∈ SymmetricHNFs {X | ∃ R ∈ gens, R * P = P * toReal X} n := by
  refine ⟨_, get_srHNFs_eq equal P gens n, (nodup_candidates n).filter _, fun H => ?_⟩
  rw [List.mem_filter, mem_candidates]
  constructor
  · rintro ⟨⟨h1, h2⟩, h3⟩
    subst h2
    rw [symm_pres_iff he hP (by omega) gens hg] at h3
    exact ⟨h1, rfl, fun X ⟨R, hR, hX⟩ => h3 R hR X hX⟩
  · rintro ⟨h1, h2, h3⟩
    refine ⟨⟨h1, h2⟩, ?_⟩
    subst h2
    rw [symm_pres_iff he hP (by omega) gens hg]
    exact fun R hR X hX => h3 X ⟨R, hR, hX⟩

/-- `pg` lists the point group of the lattice: the orthogonal maps that take the lattice to itself. -/
def ListsPointGroup (P : R3) (pg : List R3) : Prop :=
  ∀ R : R3, R ∈ pg ↔ Rᵀ * R = 1 ∧ ∃ X : IntMat, R * P = P * toReal X

theorem ListsPointGroup.set {P : R3} {pg : List R3} (h : ListsPointGroup P pg) :
    {X | ∃ R ∈ pg, R * P = P * toReal X} = PointSym P := by
  ext X
  constructor
  · rintro ⟨R, hR, hX⟩
    exact ⟨R, ((h R).1 hR).1, hX⟩
  · rintro ⟨R, hR, hX⟩
    exact ⟨R, (h R).2 ⟨hR, X, hX⟩, hX⟩

/-- C90: with the whole point group of the lattice, the supercells listed are those that keep all point symmetries
of the lattice. -/
theorem get_srHNFs_pointGroup (equal : ℝ → ℝ → Bool) (P : R3) (hP : P.det ≠ 0) (pg : List R3)
    (hg : ListsPointGroup P pg) (n : ℤ) (hn : 1 ≤ n) (he : Separates equal n) :
    ∃ l, get_srHNFs equal P pg n = some l ∧ l.Nodup ∧
      ∀ H : IntMat, H ∈ l ↔ H ∈ SymmetricHNFs (PointSym P) n := by
  have := get_srHNFs_lists equal P hP pg (fun R hR => ((hg R).1 hR).2) n hn he
  rwa [hg.set] at this

theorem driverLoop_lines (equal : ℝ → ℝ → Bool) (P : R3) (hP : P.det ≠ 0) (pg : List R3)
    (hg : ListsPointGroup P pg) (is : List ℤ) (h1 : ∀ i ∈ is, 1 ≤ i ∧ Separates equal i)
    (h2 : is.Pairwise (· < ·)) :
    ∃ lines, driverLoop equal P pg is = some lines ∧ (lines.Pairwise fun x y => x.1 < y.1) ∧
      ∀ i c, (i, c) ∈ lines ↔ i ∈ is ∧ c = (SymmetricHNFs (PointSym P) i).ncard ∧ c ≠ 0 := by
  induction is with
  | nil => exact ⟨[], by simp [driverLoop]⟩
  | cons i rest ih =>
    rw [List.pairwise_cons] at h2
    obtain ⟨lines, e1, e2, e3⟩ := ih (fun j hj => h1 j (by simp [hj])) h2.2
    obtain ⟨hi, hsep⟩ := h1 i (by simp)
    obtain ⟨l, f1, f2, f3⟩ := get_srHNFs_pointGroup equal P hP pg hg i hi hsep
    have hc : (SymmetricHNFs (PointSym P) i).ncard = l.length := by
      have : SymmetricHNFs (PointSym P) i = (l.toFinset : Set IntMat) := by
        ext H
        rw [← f3 H]
        simp
      rw [this, Set.ncard_coe_finset, List.toFinset_card_of_nodup f2]
    refine ⟨if l.length ≠ 0 then (i, l.length) :: lines else lines, ?_, ?_, ?_⟩
    · rw [driverLoop, f1, e1]
      rfl
    · split_ifs
      · exact List.pairwise_cons.2 ⟨fun y hy => h2.1 _ ((e3 y.1 y.2).1 hy).1, e2⟩
      · exact e2
    · intro j c
      have hnot : ∀ c', (i, c') ∉ lines := fun c' hm => lt_irrefl _ (h2.1 i ((e3 i c').1 hm).1)
      split_ifs with hl
      · rw [List.mem_cons, List.mem_cons, e3]
        constructor
        · rintro (h | h)
          · obtain ⟨rfl, rfl⟩ := Prod.mk.inj h
            exact ⟨Or.inl rfl, hc.symm, hl⟩
          · exact ⟨Or.inr h.1, h.2⟩
        · rintro ⟨rfl | h, h', h''⟩
          · exact Or.inl (by rw [h', hc])
          · exact Or.inr ⟨h, h', h''⟩
      · rw [e3, List.mem_cons]
        constructor
        · rintro ⟨h, h'⟩
          exact ⟨Or.inr h, h'⟩
        · rintro ⟨rfl | h, h', h''⟩
          · rw [hc] at h'
            exact absurd (h'.trans (not_not.1 hl)) h''
          · exact ⟨h, h', h''⟩

/-- C90: the file `n_srHNFs.out` has one line for each volume from 1 to `nMax` that has symmetric supercells, in
increasing order, with the number of these supercells. -/
theorem driver_lines (equal : ℝ → ℝ → Bool) (P : R3) (hP : P.det ≠ 0) (pg : List R3) (hg : ListsPointGroup P pg)
    (nMax : ℤ) (he : ∀ i, 1 ≤ i → i ≤ nMax → Separates equal i) :
    ∃ lines, driver equal P pg nMax = some lines ∧ (lines.Pairwise fun x y => x.1 < y.1) ∧
      ∀ i c, (i, c) ∈ lines ↔ (1 ≤ i ∧ i ≤ nMax) ∧ c = (SymmetricHNFs (PointSym P) i).ncard ∧ c ≠ 0 := by
  obtain ⟨lines, h1, h2, h3⟩ := driverLoop_lines equal P hP pg hg (pyRange 1 (nMax + 1))
    (fun i hi => by rw [mem_pyRange] at hi; exact ⟨hi.1, he i hi.1 (by omega)⟩) (by
      unfold pyRange
      rw [List.pairwise_map]
      refine List.pairwise_lt_range.imp ?_
      intro a b hab
      omega)
  refine ⟨lines, h1, h2, fun i c => ?_⟩
  rw [h3, mem_pyRange]
  constructor <;> rintro ⟨a, b⟩ <;> exact ⟨by omega, b⟩

/-! ## C91 -/

/-- Two lists without repetition that list the same set are the same up to the order. -/
theorem perm_of_lists {l l' : List IntMat} {S : Set IntMat} (h1 : l.Nodup) (h2 : l'.Nodup)
    (m1 : ∀ H, H ∈ l ↔ H ∈ S) (m2 : ∀ H, H ∈ l' ↔ H ∈ S) : l.Perm l' :=
  (List.perm_ext_iff_of_nodup h1 h2).2 fun H => (m1 H).trans (m2 H).symm

/-- What the fast code lists for class `k`: the choice of the generator in `find_grid`, `find_kgrids.f90:337-500`. -/
def fastList (w : ℤ → ℤ) (k : ℕ) (n : ℤ) : Option (List IntMat) :=
  if k = 3 then some (Fortran.sc_3 n) else if k = 1 then some (Fortran.fcc_1 n)
  else if k = 5 then some (Fortran.bcc_5 w n)
  else if k = 31 ∨ k = 44 then some (Fortran.tric_31_44 n)
  else (Fortran.generatorOf w k).map fun g => g n

theorem fastList_lists (w : ℤ → ℤ) (k : ℕ) (h1 : 1 ≤ k) (h2 : k ≤ 44) {Co : IMat}
    (hCo : if k = 31 ∨ k = 44 then IsUnit Co.toMat.det else reducedCanonical ℚ k = .ok Co)
    (n : ℤ) (hf : IntsFit w n) :
    ∃ l, fastList w k n = some l ∧ l.Nodup ∧ ∀ H : IntMat, H ∈ l ↔ H ∈ SymmetricHNFs (ClassSym k Co.toMat) n := by
  unfold fastList
  by_cases h3 : k = 3
  · subst h3
    exact ⟨_, rfl, Fortran.sc_3_correct n Co hCo⟩
  by_cases h1' : k = 1
  · subst h1'
    exact ⟨_, rfl, Fortran.fcc_1_correct n Co hCo⟩
  by_cases h5 : k = 5
  · subst h5
    exact ⟨_, rfl, Fortran.bcc_5_correct n hf Co hCo⟩
  simp only [h3, h1', h5, if_false]
  by_cases ht : k = 31 ∨ k = 44
  · rw [if_pos ht] at hCo ⊢
    have := Fortran.tric_31_44_correct k (by simpa using ht) n Co.toMat (Int.isUnit_iff.1 hCo)
    exact ⟨_, rfl, this.1, this.2.2⟩
  · rw [if_neg ht] at hCo ⊢
    obtain ⟨gen, hg, good⟩ := Fortran.generatorOf_good w k h1 h2 (by simp; omega) hCo
    exact ⟨_, by rw [hg]; rfl, good.lists n hf⟩

/-- C91: for a lattice of any Niggli class, in the basis of the fast code (`Co` leads from it to the Niggli cell),
the brute force search and the fast generator return the same supercells. -/
theorem brute_eq_fast (equal : ℝ → ℝ → Bool) (w : ℤ → ℤ) (P : R3) (k : ℕ) (h1 : 1 ≤ k) (h2 : k ≤ 44) {Co : IMat}
    (hCo : if k = 31 ∨ k = 44 then IsUnit Co.toMat.det else reducedCanonical ℚ k = .ok Co) {A B C D E F : ℝ}
    (hN : NiggliCellOf P Co.toMat A B C D E F) (hk : IsClass k A B C D E F) (pg : List R3)
    (hg : ListsPointGroup P pg) (n : ℤ) (hn : 1 ≤ n) (he : Separates equal n) (hf : IntsFit w n) :
    ∃ brute fast, get_srHNFs equal P pg n = some brute ∧ fastList w k n = some fast ∧ brute.Perm fast := by
  obtain ⟨l, e1, e2, e3⟩ := get_srHNFs_pointGroup equal P hN.det_ne pg hg n hn he
  obtain ⟨l', f1, f2, f3⟩ := fastList_lists w k h1 h2 hCo n hf
  rw [← pointSym_eq_classSym hN hk] at f3
  exact ⟨l, l', e1, f1, perm_of_lists e2 f2 e3 f3⟩

/-! ## A case -/

/-- Every lattice has a list of its point group. -/
theorem exists_pointGroup {P : R3} {Co : IntMat} {A B C D E F : ℝ} (hN : NiggliCellOf P Co A B C D E F) {k : ℕ}
    (hk : IsClass k A B C D E F) : ∃ pg : List R3, ListsPointGroup P pg ∧ pg.Nodup := by
  have hP := hN.det_ne
  have p1 : P * P⁻¹ = 1 := mul_nonsing_inv P (Ne.isUnit hP)
  have p2 : P⁻¹ * P = 1 := nonsing_inv_mul P (Ne.isUnit hP)
  have hfin : (PointSym P).Finite := by
    obtain ⟨b, _, hn⟩ := pointSym_order hN hk
    refine Set.finite_of_ncard_pos ?_
    rw [hn]
    cases b <;> simp [holohedryOrder]
  have hval : ∀ (R : R3) (X : IntMat), R * P = P * toReal X → P * toReal X * P⁻¹ = R := by
    intro R X h
    rw [← h, Matrix.mul_assoc, p1, Matrix.mul_one]
  refine ⟨hfin.toFinset.toList.map fun X => P * toReal X * P⁻¹, fun R => ?_, hfin.toFinset.nodup_toList.map ?_⟩
  · simp only [List.mem_map, Finset.mem_toList, Set.Finite.mem_toFinset]
    constructor
    · rintro ⟨X, ⟨R', h1, h2⟩, rfl⟩
      rw [hval R' X h2]
      exact ⟨h1, X, h2⟩
    · rintro ⟨h1, X, h2⟩
      exact ⟨X, ⟨R, h1, h2⟩, hval R X h2⟩
  · intro X Y h
    have h' := congrArg (fun Z => P⁻¹ * Z * P) h
    have e : ∀ Z : R3, P⁻¹ * (P * Z * P⁻¹) * P = Z := by
      intro Z
      calc P⁻¹ * (P * Z * P⁻¹) * P = (P⁻¹ * P) * Z * (P⁻¹ * P) := by simp only [Matrix.mul_assoc]
        _ = Z := by rw [p2, Matrix.one_mul, Matrix.mul_one]
    simp only [e] at h'
    exact toReal_injective h'

/-- A lattice given by its Niggli cell, in another basis. -/
theorem niggliCellOf_basis {U : R3} {A B C D E F : ℝ} (h : NiggliCellOf U 1 A B C D E F) {Co : IntMat}
    (hu : IsUnit Co.det) : NiggliCellOf (U * toReal Co⁻¹) Co A B C D E F where
  unit := hu
  cell := by
    have e : U * toReal Co⁻¹ * toReal Co = U := by
      rw [Matrix.mul_assoc, ← toReal_mul, nonsing_inv_mul Co hu, toReal_one, Matrix.mul_one]
    have := h.cell
    rw [toReal_one, Matrix.mul_one] at this
    rw [e, this]
  red := h.red

/-- The theorems apply to the sample lattice of class 40, with the tolerance of the code, up to volume 100. -/
example : ∃ (P : R3) (pg : List R3), ListsPointGroup P pg ∧ pg.Nodup ∧ ∀ n : ℤ, 1 ≤ n → n ≤ 100 →
    (∃ l, get_srHNFs (fun x y => decide (|x - y| < 1e-10)) P pg n = some l ∧ l.Nodup ∧
      ∀ H : IntMat, H ∈ l ↔ H ∈ SymmetricHNFs (PointSym P) n) ∧
    ∃ brute fast, get_srHNFs (fun x y => decide (|x - y| < 1e-10)) P pg n = some brute ∧
      fastList id 40 n = some fast ∧ brute.Perm fast := by
  have hN := niggliCellOf_basis sampleNiggliCell.1 (Co := (canonC 40).toMat) (by decide)
  obtain ⟨pg, h1, h2⟩ := exists_pointGroup hN sampleNiggliCell.2
  refine ⟨_, pg, h1, h2, fun n a b => ?_⟩
  have hs : Separates (fun x y => decide (|x - y| < (1e-10 : ℝ))) n := by
    refine separates_eps _ (by norm_num) n a ?_
    have : (n : ℝ) ≤ 100 := by exact_mod_cast b
    linarith
  exact ⟨get_srHNFs_pointGroup _ _ hN.det_ne pg h1 n a hs,
    brute_eq_fast _ id _ 40 (by norm_num) (by norm_num) (by simpa using reduced_40) hN sampleNiggliCell.2 pg h1 n a hs
      (Or.inl rfl)⟩

/-- There the file lists the volumes up to 100. -/
example : ∃ (P : R3) (pg : List R3) (lines : List (ℤ × ℕ)), ListsPointGroup P pg ∧
    driver (fun x y => decide (|x - y| < 1e-10)) P pg 100 = some lines ∧
    ∀ i c, (i, c) ∈ lines ↔ (1 ≤ i ∧ i ≤ 100) ∧ c = (SymmetricHNFs (PointSym P) i).ncard ∧ c ≠ 0 := by
  obtain ⟨pg, h1, _⟩ := exists_pointGroup sampleNiggliCell.1 sampleNiggliCell.2
  obtain ⟨lines, l1, _, l2⟩ := driver_lines (fun x y => decide (|x - y| < (1e-10 : ℝ))) _ sampleNiggliCell.1.det_ne pg
    h1 100 (fun i a b => by
      refine separates_eps _ (by norm_num) i a ?_
      have : (i : ℝ) ≤ 100 := by exact_mod_cast b
      linarith)
  exact ⟨_, pg, lines, h1, l1, l2⟩

end AutoGR.Brute
