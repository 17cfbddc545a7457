import Verif.Props.Generators
import Verif.Lemmas.FortranMem1
import Verif.Lemmas.FortranMem2
import Verif.Lemmas.FortranMem3
import Verif.Lemmas.FortranNodup
import Verif.Lemmas.FortranW
import Verif.Lemmas.FortranCubic

/-!
# C57, C59: the Fortran generators list the symmetric supercells, as the Python generators do

`w` is what a 32-bit integer operation returns for an exact result.  `IntsFit w n`
(`Verif/Spec/Int32.lean`): integers are unlimited, or they have 32 bits and `n ≤ 46000`.

For every subroutine of `sp_hnfs.f90` there are two theorems: `_correct` says which Hermite normal
forms it lists, with the specification of `Verif/Props/Generators.lean`, and `_perm` (`_eq` for the
cubic and triclinic lattices) that they are those of the Python generator.
-/

namespace AutoGR.Fortran

open Spec

/-- gfortran's 32-bit integers: results that fit are exact. -/
theorem wrap32_int32 : Int32 wrap32 := ⟨fun z h1 h2 => by
  unfold wrap32
  rw [Int.emod_eq_of_lt (by omega) (by omega)]
  omega⟩

/-- Membership and absence of duplicates carry over from a generator with the same members. -/
private theorem carry {l l' : List IntMat} {S : Set IntMat} (p : l.Perm l')
    (h : l'.Nodup ∧ ∀ H : IntMat, H ∈ l' ↔ H ∈ S) : l.Nodup ∧ ∀ H : IntMat, H ∈ l ↔ H ∈ S :=
  ⟨p.nodup_iff.2 h.1, fun H => (p.mem_iff).trans (h.2 H)⟩

/-- C59: `sc_3` of the Fortran code returns the list the Python function returns. -/
theorem sc_3_py (n : ℤ) : sc_3 n = AutoGR.sc_3 id n := sc_3_eq n

/-- C57: `sc_3` lists every Hermite normal form of determinant `n` that keeps the symmetry of Niggli
class 3, only those, and each once. -/
theorem sc_3_correct (n : ℤ)
    (Co : IMat) (hCo : reducedCanonical ℚ 3 = .ok Co) :
    (sc_3 n).Nodup ∧
      ∀ H : IntMat, H ∈ sc_3 n ↔ H ∈ SymmetricHNFs (ClassSym 3 Co.toMat) n :=
  sc_3_py n ▸ (AutoGR.sc_3_correct n Co hCo)

example : hnf 1 0 1 1 1 2 ∈ sc_3 2 ∧ hnf 2 0 1 0 0 1 ∉ sc_3 2 ∧
    (sc_3 2).length = 1 := by decide +kernel

/-- C59: `fcc_1` of the Fortran code returns the list the Python function returns. -/
theorem fcc_1_py (n : ℤ) : fcc_1 n = AutoGR.fcc_1 id n := fcc_1_eq n

/-- C57: `fcc_1` lists every Hermite normal form of determinant `n` that keeps the symmetry of Niggli
class 1, only those, and each once. -/
theorem fcc_1_correct (n : ℤ)
    (Co : IMat) (hCo : reducedCanonical ℚ 1 = .ok Co) :
    (fcc_1 n).Nodup ∧
      ∀ H : IntMat, H ∈ fcc_1 n ↔ H ∈ SymmetricHNFs (ClassSym 1 Co.toMat) n :=
  fcc_1_py n ▸ (AutoGR.fcc_1_correct n Co hCo)

example : hnf 1 1 2 1 0 2 ∈ fcc_1 4 ∧ hnf 4 0 1 0 0 1 ∉ fcc_1 4 ∧
    (fcc_1 4).length = 1 := by decide +kernel

/-- C59: `bcc_5` of the Fortran code returns the list the Python function returns. -/
theorem bcc_5_py {w : ℤ → ℤ} (n : ℤ) (hf : IntsFit w n) : bcc_5 w n = AutoGR.bcc_5 id n := by
  rcases hf with rfl | ⟨hw, hn⟩
  · exact bcc_5_eq n
  · rw [bcc_5_w hw hn, bcc_5_eq]

/-- C57: `bcc_5` lists every Hermite normal form of determinant `n` that keeps the symmetry of Niggli
class 5, only those, and each once. -/
theorem bcc_5_correct {w : ℤ → ℤ} (n : ℤ) (hf : IntsFit w n)
    (Co : IMat) (hCo : reducedCanonical ℚ 5 = .ok Co) :
    (bcc_5 w n).Nodup ∧
      ∀ H : IntMat, H ∈ bcc_5 w n ↔ H ∈ SymmetricHNFs (ClassSym 5 Co.toMat) n :=
  bcc_5_py n hf ▸ (AutoGR.bcc_5_correct n Co hCo)

example : hnf 1 0 1 1 1 2 ∈ bcc_5 wrap32 2 ∧ hnf 2 0 1 0 0 1 ∉ bcc_5 wrap32 2 ∧
    (bcc_5 wrap32 2).length = 1 := by decide +kernel

/-- C59: `hex_12` of the Fortran code returns what the Python function `hex_12` returns, up to order. -/
theorem hex_12_perm {w : ℤ → ℤ} (n : ℤ) (hf : IntsFit w n) :
    (hex_12 w n).Perm (AutoGR.hex_12 id n) := by
  have h : hex_12 w n = hex_12 id n := by
    rcases hf with rfl | ⟨hw, hn⟩
    · rfl
    · exact hex_12_w hw hn
  rw [h, List.perm_ext_iff_of_nodup (hex_12_nodup id n) (AutoGR.hex_12_nodup id n)]
  intro H
  rw [hex_12_mem, AutoGR.hex_12_mem]

/-- C57: `hex_12` lists every Hermite normal form of determinant `n` that keeps the symmetry of Niggli
class 12, only those, and each once. -/
theorem hex_12_correct {w : ℤ → ℤ} (n : ℤ) (hf : IntsFit w n)
    (Co : IMat) (hCo : reducedCanonical ℚ 12 = .ok Co) :
    (hex_12 w n).Nodup ∧
      ∀ H : IntMat, H ∈ hex_12 w n ↔ H ∈ SymmetricHNFs (ClassSym 12 Co.toMat) n :=
  carry (hex_12_perm n hf) (AutoGR.hex_12_correct n Co hCo)

example : hnf 1 1 3 0 0 1 ∈ hex_12 wrap32 3 ∧ hnf 3 0 1 0 0 1 ∉ hex_12 wrap32 3 ∧
    (hex_12 wrap32 3).length = 2 := by decide +kernel

/-- C59: `hex_22` of the Fortran code returns what the Python function `hex_22` returns, up to order. -/
theorem hex_22_perm {w : ℤ → ℤ} (n : ℤ) (hf : IntsFit w n) :
    (hex_22 w n).Perm (AutoGR.hex_22 id n) := by
  have h : hex_22 w n = hex_22 id n := by
    rcases hf with rfl | ⟨hw, hn⟩
    · rfl
    · exact hex_22_w hw hn
  rw [h, List.perm_ext_iff_of_nodup (hex_22_nodup id n) (AutoGR.hex_22_nodup id n)]
  intro H
  rw [hex_22_mem, AutoGR.hex_22_mem]

/-- C57: `hex_22` lists every Hermite normal form of determinant `n` that keeps the symmetry of Niggli
class 22, only those, and each once. -/
theorem hex_22_correct {w : ℤ → ℤ} (n : ℤ) (hf : IntsFit w n)
    (Co : IMat) (hCo : reducedCanonical ℚ 22 = .ok Co) :
    (hex_22 w n).Nodup ∧
      ∀ H : IntMat, H ∈ hex_22 w n ↔ H ∈ SymmetricHNFs (ClassSym 22 Co.toMat) n :=
  carry (hex_22_perm n hf) (AutoGR.hex_22_correct n Co hCo)

example : hnf 1 0 1 0 2 3 ∈ hex_22 wrap32 3 ∧ hnf 1 2 3 0 0 1 ∉ hex_22 wrap32 3 ∧
    (hex_22 wrap32 3).length = 2 := by decide +kernel

/-- C59: `rhom_9_24` of the Fortran code returns what the Python function `rhom_9_24` returns, up to order. -/
theorem rhom_9_24_perm {w : ℤ → ℤ} (n : ℤ) (hf : IntsFit w n) :
    (rhom_9_24 w n).Perm (AutoGR.rhom_9_24 id n) := by
  have h : rhom_9_24 w n = rhom_9_24 id n := by
    rcases hf with rfl | ⟨hw, hn⟩
    · rfl
    · exact rhom_9_24_w hw hn
  rw [h, List.perm_ext_iff_of_nodup (rhom_9_24_nodup id n) (AutoGR.rhom_9_24_nodup id n)]
  intro H
  rw [rhom_9_24_mem, AutoGR.rhom_9_24_mem]

/-- C57: `rhom_9_24` lists every Hermite normal form of determinant `n` that keeps the symmetry of Niggli
class 9, 24, only those, and each once. -/
theorem rhom_9_24_correct {w : ℤ → ℤ} (k : ℕ) (hk : k ∈ [9, 24]) (n : ℤ) (hf : IntsFit w n)
    (Co : IMat) (hCo : reducedCanonical ℚ k = .ok Co) :
    (rhom_9_24 w n).Nodup ∧
      ∀ H : IntMat, H ∈ rhom_9_24 w n ↔ H ∈ SymmetricHNFs (ClassSym k Co.toMat) n :=
  carry (rhom_9_24_perm n hf) (AutoGR.rhom_9_24_correct k hk n Co hCo)

example : hnf 1 1 2 1 1 2 ∈ rhom_9_24 wrap32 4 ∧ hnf 4 0 1 0 0 1 ∉ rhom_9_24 wrap32 4 ∧
    (rhom_9_24 wrap32 4).length = 2 := by decide +kernel

/-- C59: `rhom_4_2` of the Fortran code returns what the Python function `rhom_4_2` returns, up to order. -/
theorem rhom_4_2_perm {w : ℤ → ℤ} (n : ℤ) (hf : IntsFit w n) :
    (rhom_4_2 w n).Perm (AutoGR.rhom_4_2 id n) := by
  have h : rhom_4_2 w n = rhom_4_2 id n := by
    rcases hf with rfl | ⟨hw, hn⟩
    · rfl
    · exact rhom_4_2_w hw hn
  rw [h, List.perm_ext_iff_of_nodup (rhom_4_2_nodup id n) (AutoGR.rhom_4_2_nodup id n)]
  intro H
  rw [rhom_4_2_mem, AutoGR.rhom_4_2_mem]

/-- C57: `rhom_4_2` lists every Hermite normal form of determinant `n` that keeps the symmetry of Niggli
class 4, 2, only those, and each once. -/
theorem rhom_4_2_correct {w : ℤ → ℤ} (k : ℕ) (hk : k ∈ [4, 2]) (n : ℤ) (hf : IntsFit w n)
    (Co : IMat) (hCo : reducedCanonical ℚ k = .ok Co) :
    (rhom_4_2 w n).Nodup ∧
      ∀ H : IntMat, H ∈ rhom_4_2 w n ↔ H ∈ SymmetricHNFs (ClassSym k Co.toMat) n :=
  carry (rhom_4_2_perm n hf) (AutoGR.rhom_4_2_correct k hk n Co hCo)

example : hnf 1 1 2 1 1 2 ∈ rhom_4_2 wrap32 4 ∧ hnf 4 0 1 0 0 1 ∉ rhom_4_2 wrap32 4 ∧
    (rhom_4_2 wrap32 4).length = 2 := by decide +kernel

/-- C59: `st_11` of the Fortran code returns what the Python function `stet_11` returns, up to order. -/
theorem st_11_perm {w : ℤ → ℤ} (n : ℤ) (hf : IntsFit w n) :
    (st_11 w n).Perm (AutoGR.stet_11 id n) := by
  have h : st_11 w n = st_11 id n := by
    rcases hf with rfl | ⟨hw, hn⟩
    · rfl
    · exact st_11_w hw hn
  rw [h, List.perm_ext_iff_of_nodup (st_11_nodup id n) (AutoGR.stet_11_nodup id n)]
  intro H
  rw [st_11_mem, AutoGR.stet_11_mem]

/-- C57: `st_11` lists every Hermite normal form of determinant `n` that keeps the symmetry of Niggli
class 11, only those, and each once. -/
theorem st_11_correct {w : ℤ → ℤ} (n : ℤ) (hf : IntsFit w n)
    (Co : IMat) (hCo : reducedCanonical ℚ 11 = .ok Co) :
    (st_11 w n).Nodup ∧
      ∀ H : IntMat, H ∈ st_11 w n ↔ H ∈ SymmetricHNFs (ClassSym 11 Co.toMat) n :=
  carry (st_11_perm n hf) (AutoGR.stet_11_correct n Co hCo)

example : hnf 1 0 1 1 1 2 ∈ st_11 wrap32 2 ∧ hnf 2 0 1 0 0 1 ∉ st_11 wrap32 2 ∧
    (st_11 wrap32 2).length = 3 := by decide +kernel

/-- C59: `st_21` of the Fortran code returns what the Python function `stet_21` returns, up to order. -/
theorem st_21_perm {w : ℤ → ℤ} (n : ℤ) (hf : IntsFit w n) :
    (st_21 w n).Perm (AutoGR.stet_21 id n) := by
  have h : st_21 w n = st_21 id n := by
    rcases hf with rfl | ⟨hw, hn⟩
    · rfl
    · exact st_21_w hw hn
  rw [h, List.perm_ext_iff_of_nodup (st_21_nodup id n) (AutoGR.stet_21_nodup id n)]
  intro H
  rw [st_21_mem, AutoGR.stet_21_mem]

/-- C57: `st_21` lists every Hermite normal form of determinant `n` that keeps the symmetry of Niggli
class 21, only those, and each once. -/
theorem st_21_correct {w : ℤ → ℤ} (n : ℤ) (hf : IntsFit w n)
    (Co : IMat) (hCo : reducedCanonical ℚ 21 = .ok Co) :
    (st_21 w n).Nodup ∧
      ∀ H : IntMat, H ∈ st_21 w n ↔ H ∈ SymmetricHNFs (ClassSym 21 Co.toMat) n :=
  carry (st_21_perm n hf) (AutoGR.stet_21_correct n Co hCo)

example : hnf 1 0 1 1 1 2 ∈ st_21 wrap32 2 ∧ hnf 1 1 2 0 0 1 ∉ st_21 wrap32 2 ∧
    (st_21 wrap32 2).length = 3 := by decide +kernel

/-- C59: `bct_6_7_15_18` of the Fortran code returns what the Python function `body_tet_6_7_15_18` returns, up to order. -/
theorem bct_6_7_15_18_perm {w : ℤ → ℤ} (n : ℤ) (hf : IntsFit w n) :
    (bct_6_7_15_18 w n).Perm (AutoGR.body_tet_6_7_15_18 id n) := by
  have h : bct_6_7_15_18 w n = bct_6_7_15_18 id n := by
    rcases hf with rfl | ⟨hw, hn⟩
    · rfl
    · exact bct_6_7_15_18_w hw hn
  rw [h, List.perm_ext_iff_of_nodup (bct_6_7_15_18_nodup id n) (AutoGR.body_tet_6_7_15_18_nodup id n)]
  intro H
  rw [bct_6_7_15_18_mem, AutoGR.body_tet_6_7_15_18_mem]

/-- C57: `bct_6_7_15_18` lists every Hermite normal form of determinant `n` that keeps the symmetry of Niggli
class 6, 7, 15, 18, only those, and each once. -/
theorem bct_6_7_15_18_correct {w : ℤ → ℤ} (k : ℕ) (hk : k ∈ [6, 7, 15, 18]) (n : ℤ) (hf : IntsFit w n)
    (Co : IMat) (hCo : reducedCanonical ℚ k = .ok Co) :
    (bct_6_7_15_18 w n).Nodup ∧
      ∀ H : IntMat, H ∈ bct_6_7_15_18 w n ↔ H ∈ SymmetricHNFs (ClassSym k Co.toMat) n :=
  carry (bct_6_7_15_18_perm n hf) (AutoGR.body_tet_6_7_15_18_correct k hk n Co hCo)

example : hnf 2 1 2 3 2 4 ∈ bct_6_7_15_18 wrap32 16 ∧ hnf 8 1 2 0 0 1 ∉ bct_6_7_15_18 wrap32 16 ∧
    (bct_6_7_15_18 wrap32 16).length = 7 := by decide +kernel

/-- C59: `so_32` of the Fortran code returns what the Python function `so_32` returns, up to order. -/
theorem so_32_perm {w : ℤ → ℤ} (n : ℤ) (hf : IntsFit w n) :
    (so_32 w n).Perm (AutoGR.so_32 n) := by
  have h : so_32 w n = so_32 id n := by
    rcases hf with rfl | ⟨hw, hn⟩
    · rfl
    · exact so_32_w hw hn
  rw [h, List.perm_ext_iff_of_nodup (so_32_nodup id n) (AutoGR.so_32_nodup n)]
  intro H
  rw [so_32_mem, AutoGR.so_32_mem]

/-- C57: `so_32` lists every Hermite normal form of determinant `n` that keeps the symmetry of Niggli
class 32, only those, and each once. -/
theorem so_32_correct {w : ℤ → ℤ} (n : ℤ) (hf : IntsFit w n)
    (Co : IMat) (hCo : reducedCanonical ℚ 32 = .ok Co) :
    (so_32 w n).Nodup ∧
      ∀ H : IntMat, H ∈ so_32 w n ↔ H ∈ SymmetricHNFs (ClassSym 32 Co.toMat) n :=
  carry (so_32_perm n hf) (AutoGR.so_32_correct n Co hCo)

example : hnf 2 0 1 1 1 2 ∈ so_32 wrap32 4 ∧ hnf 1 3 4 0 0 1 ∉ so_32 wrap32 4 ∧
    (so_32 wrap32 4).length = 19 := by decide +kernel

/-- C59: `bco_19` of the Fortran code returns what the Python function `body_ortho_19` returns, up to order. -/
theorem bco_19_perm {w : ℤ → ℤ} (n : ℤ) (hf : IntsFit w n) :
    (bco_19 w n).Perm (AutoGR.body_ortho_19 id n) := by
  have h : bco_19 w n = bco_19 id n := by
    rcases hf with rfl | ⟨hw, hn⟩
    · rfl
    · exact bco_19_w hw hn
  rw [h, List.perm_ext_iff_of_nodup (bco_19_nodup id n) (AutoGR.body_ortho_19_nodup id n)]
  intro H
  rw [bco_19_mem, AutoGR.body_ortho_19_mem]

/-- C57: `bco_19` lists every Hermite normal form of determinant `n` that keeps the symmetry of Niggli
class 19, only those, and each once. -/
theorem bco_19_correct {w : ℤ → ℤ} (n : ℤ) (hf : IntsFit w n)
    (Co : IMat) (hCo : reducedCanonical ℚ 19 = .ok Co) :
    (bco_19 w n).Nodup ∧
      ∀ H : IntMat, H ∈ bco_19 w n ↔ H ∈ SymmetricHNFs (ClassSym 19 Co.toMat) n :=
  carry (bco_19_perm n hf) (AutoGR.body_ortho_19_correct n Co hCo)

example : hnf 2 1 2 1 1 2 ∈ bco_19 wrap32 8 ∧ hnf 2 2 4 0 0 1 ∉ bco_19 wrap32 8 ∧
    (bco_19 wrap32 8).length = 19 := by decide +kernel

/-- C59: `bco_8` of the Fortran code returns what the Python function `body_ortho_8` returns, up to order. -/
theorem bco_8_perm {w : ℤ → ℤ} (n : ℤ) (hf : IntsFit w n) :
    (bco_8 w n).Perm (AutoGR.body_ortho_8 id n) := by
  have h : bco_8 w n = bco_8 id n := by
    rcases hf with rfl | ⟨hw, hn⟩
    · rfl
    · exact bco_8_w hw hn
  rw [h, List.perm_ext_iff_of_nodup (bco_8_nodup id n) (AutoGR.body_ortho_8_nodup id n)]
  intro H
  rw [bco_8_mem, AutoGR.body_ortho_8_mem]

/-- C57: `bco_8` lists every Hermite normal form of determinant `n` that keeps the symmetry of Niggli
class 8, only those, and each once. -/
theorem bco_8_correct {w : ℤ → ℤ} (n : ℤ) (hf : IntsFit w n)
    (Co : IMat) (hCo : reducedCanonical ℚ 8 = .ok Co) :
    (bco_8 w n).Nodup ∧
      ∀ H : IntMat, H ∈ bco_8 w n ↔ H ∈ SymmetricHNFs (ClassSym 8 Co.toMat) n :=
  carry (bco_8_perm n hf) (AutoGR.body_ortho_8_correct n Co hCo)

example : hnf 2 1 2 2 2 4 ∈ bco_8 wrap32 16 ∧ hnf 4 3 4 0 0 1 ∉ bco_8 wrap32 16 ∧
    (bco_8 wrap32 16).length = 37 := by decide +kernel

/-- C59: `bco_42` of the Fortran code returns what the Python function `body_ortho_42` returns, up to order. -/
theorem bco_42_perm {w : ℤ → ℤ} (n : ℤ) (hf : IntsFit w n) :
    (bco_42 w n).Perm (AutoGR.body_ortho_42 id n) := by
  have h : bco_42 w n = bco_42 id n := by
    rcases hf with rfl | ⟨hw, hn⟩
    · rfl
    · exact bco_42_w hw hn
  rw [h, List.perm_ext_iff_of_nodup (bco_42_nodup id n) (AutoGR.body_ortho_42_nodup id n)]
  intro H
  rw [bco_42_mem, AutoGR.body_ortho_42_mem]

/-- C57: `bco_42` lists every Hermite normal form of determinant `n` that keeps the symmetry of Niggli
class 42, only those, and each once. -/
theorem bco_42_correct {w : ℤ → ℤ} (n : ℤ) (hf : IntsFit w n)
    (Co : IMat) (hCo : reducedCanonical ℚ 42 = .ok Co) :
    (bco_42 w n).Nodup ∧
      ∀ H : IntMat, H ∈ bco_42 w n ↔ H ∈ SymmetricHNFs (ClassSym 42 Co.toMat) n :=
  carry (bco_42_perm n hf) (AutoGR.body_ortho_42_correct n Co hCo)

example : hnf 2 1 2 1 1 2 ∈ bco_42 wrap32 8 ∧ hnf 2 2 4 0 0 1 ∉ bco_42 wrap32 8 ∧
    (bco_42 wrap32 8).length = 19 := by decide +kernel

/-- C59: `fco_26` of the Fortran code returns what the Python function `face_ortho_26` returns, up to order. -/
theorem fco_26_perm {w : ℤ → ℤ} (n : ℤ) (hf : IntsFit w n) :
    (fco_26 w n).Perm (AutoGR.face_ortho_26 id n) := by
  have h : fco_26 w n = fco_26 id n := by
    rcases hf with rfl | ⟨hw, hn⟩
    · rfl
    · exact fco_26_w hw hn
  rw [h, List.perm_ext_iff_of_nodup (fco_26_nodup id n) (AutoGR.face_ortho_26_nodup id n)]
  intro H
  rw [fco_26_mem, AutoGR.face_ortho_26_mem]

/-- C57: `fco_26` lists every Hermite normal form of determinant `n` that keeps the symmetry of Niggli
class 26, only those, and each once. -/
theorem fco_26_correct {w : ℤ → ℤ} (n : ℤ) (hf : IntsFit w n)
    (Co : IMat) (hCo : reducedCanonical ℚ 26 = .ok Co) :
    (fco_26 w n).Nodup ∧
      ∀ H : IntMat, H ∈ fco_26 w n ↔ H ∈ SymmetricHNFs (ClassSym 26 Co.toMat) n :=
  carry (fco_26_perm n hf) (AutoGR.face_ortho_26_correct n Co hCo)

example : hnf 1 1 2 1 1 2 ∈ fco_26 wrap32 4 ∧ hnf 2 0 1 1 1 2 ∉ fco_26 wrap32 4 ∧
    (fco_26 wrap32 4).length = 7 := by decide +kernel

/-- C59: `fco_16` of the Fortran code returns what the Python function `face_ortho_16` returns, up to order. -/
theorem fco_16_perm {w : ℤ → ℤ} (n : ℤ) (hf : IntsFit w n) :
    (fco_16 w n).Perm (AutoGR.face_ortho_16 id n) := by
  have h : fco_16 w n = fco_16 id n := by
    rcases hf with rfl | ⟨hw, hn⟩
    · rfl
    · exact fco_16_w hw hn
  rw [h, List.perm_ext_iff_of_nodup (fco_16_nodup id n) (AutoGR.face_ortho_16_nodup id n)]
  intro H
  rw [fco_16_mem, AutoGR.face_ortho_16_mem]

/-- C57: `fco_16` lists every Hermite normal form of determinant `n` that keeps the symmetry of Niggli
class 16, only those, and each once. -/
theorem fco_16_correct {w : ℤ → ℤ} (n : ℤ) (hf : IntsFit w n)
    (Co : IMat) (hCo : reducedCanonical ℚ 16 = .ok Co) :
    (fco_16 w n).Nodup ∧
      ∀ H : IntMat, H ∈ fco_16 w n ↔ H ∈ SymmetricHNFs (ClassSym 16 Co.toMat) n :=
  carry (fco_16_perm n hf) (AutoGR.face_ortho_16_correct n Co hCo)

example : hnf 1 1 2 1 1 2 ∈ fco_16 wrap32 4 ∧ hnf 2 0 1 1 1 2 ∉ fco_16 wrap32 4 ∧
    (fco_16 wrap32 4).length = 7 := by decide +kernel

/-- C59: `baseco_38_13` of the Fortran code returns what the Python function `base_ortho_38_13` returns, up to order. -/
theorem baseco_38_13_perm {w : ℤ → ℤ} (n : ℤ) (hf : IntsFit w n) :
    (baseco_38_13 w n).Perm (AutoGR.base_ortho_38_13 id n) := by
  have h : baseco_38_13 w n = baseco_38_13 id n := by
    rcases hf with rfl | ⟨hw, hn⟩
    · rfl
    · exact baseco_38_13_w hw hn
  rw [h, List.perm_ext_iff_of_nodup (baseco_38_13_nodup id n) (AutoGR.base_ortho_38_13_nodup id n)]
  intro H
  rw [baseco_38_13_mem, AutoGR.base_ortho_38_13_mem]

/-- C57: `baseco_38_13` lists every Hermite normal form of determinant `n` that keeps the symmetry of Niggli
class 38, 13, only those, and each once. -/
theorem baseco_38_13_correct {w : ℤ → ℤ} (k : ℕ) (hk : k ∈ [38, 13]) (n : ℤ) (hf : IntsFit w n)
    (Co : IMat) (hCo : reducedCanonical ℚ k = .ok Co) :
    (baseco_38_13 w n).Nodup ∧
      ∀ H : IntMat, H ∈ baseco_38_13 w n ↔ H ∈ SymmetricHNFs (ClassSym k Co.toMat) n :=
  carry (baseco_38_13_perm n hf) (AutoGR.base_ortho_38_13_correct k hk n Co hCo)

example : hnf 1 1 2 1 1 2 ∈ baseco_38_13 wrap32 4 ∧ hnf 4 0 1 0 0 1 ∉ baseco_38_13 wrap32 4 ∧
    (baseco_38_13 wrap32 4).length = 9 := by decide +kernel

/-- C59: `baseco_23` of the Fortran code returns what the Python function `base_ortho_23` returns, up to order. -/
theorem baseco_23_perm {w : ℤ → ℤ} (n : ℤ) (hf : IntsFit w n) :
    (baseco_23 w n).Perm (AutoGR.base_ortho_23 id n) := by
  have h : baseco_23 w n = baseco_23 id n := by
    rcases hf with rfl | ⟨hw, hn⟩
    · rfl
    · exact baseco_23_w hw hn
  rw [h, List.perm_ext_iff_of_nodup (baseco_23_nodup id n) (AutoGR.base_ortho_23_nodup id n)]
  intro H
  rw [baseco_23_mem, AutoGR.base_ortho_23_mem]

/-- C57: `baseco_23` lists every Hermite normal form of determinant `n` that keeps the symmetry of Niggli
class 23, only those, and each once. -/
theorem baseco_23_correct {w : ℤ → ℤ} (n : ℤ) (hf : IntsFit w n)
    (Co : IMat) (hCo : reducedCanonical ℚ 23 = .ok Co) :
    (baseco_23 w n).Nodup ∧
      ∀ H : IntMat, H ∈ baseco_23 w n ↔ H ∈ SymmetricHNFs (ClassSym 23 Co.toMat) n :=
  carry (baseco_23_perm n hf) (AutoGR.base_ortho_23_correct n Co hCo)

example : hnf 1 0 1 1 1 2 ∈ baseco_23 wrap32 2 ∧ hnf 2 0 1 0 0 1 ∉ baseco_23 wrap32 2 ∧
    (baseco_23 wrap32 2).length = 3 := by decide +kernel

/-- C59: `baseco_40` of the Fortran code returns what the Python function `base_ortho_40` returns, up to order. -/
theorem baseco_40_perm {w : ℤ → ℤ} (n : ℤ) (hf : IntsFit w n) :
    (baseco_40 w n).Perm (AutoGR.base_ortho_40 id n) := by
  have h : baseco_40 w n = baseco_40 id n := by
    rcases hf with rfl | ⟨hw, hn⟩
    · rfl
    · exact baseco_40_w hw hn
  rw [h, List.perm_ext_iff_of_nodup (baseco_40_nodup id n) (AutoGR.base_ortho_40_nodup id n)]
  intro H
  rw [baseco_40_mem, AutoGR.base_ortho_40_mem]

/-- C57: `baseco_40` lists every Hermite normal form of determinant `n` that keeps the symmetry of Niggli
class 40, only those, and each once. -/
theorem baseco_40_correct {w : ℤ → ℤ} (n : ℤ) (hf : IntsFit w n)
    (Co : IMat) (hCo : reducedCanonical ℚ 40 = .ok Co) :
    (baseco_40 w n).Nodup ∧
      ∀ H : IntMat, H ∈ baseco_40 w n ↔ H ∈ SymmetricHNFs (ClassSym 40 Co.toMat) n :=
  carry (baseco_40_perm n hf) (AutoGR.base_ortho_40_correct n Co hCo)

example : hnf 1 1 2 2 4 6 ∈ baseco_40 wrap32 12 ∧ hnf 6 1 2 0 0 1 ∉ baseco_40 wrap32 12 ∧
    (baseco_40 wrap32 12).length = 27 := by decide +kernel

/-- C59: `baseco_36` of the Fortran code returns what the Python function `base_ortho_36` returns, up to order. -/
theorem baseco_36_perm {w : ℤ → ℤ} (n : ℤ) (hf : IntsFit w n) :
    (baseco_36 w n).Perm (AutoGR.base_ortho_36 id n) := by
  have h : baseco_36 w n = baseco_36 id n := by
    rcases hf with rfl | ⟨hw, hn⟩
    · rfl
    · exact baseco_36_w hw hn
  rw [h, List.perm_ext_iff_of_nodup (baseco_36_nodup id n) (AutoGR.base_ortho_36_nodup id n)]
  intro H
  rw [baseco_36_mem, AutoGR.base_ortho_36_mem]

/-- C57: `baseco_36` lists every Hermite normal form of determinant `n` that keeps the symmetry of Niggli
class 36, only those, and each once. -/
theorem baseco_36_correct {w : ℤ → ℤ} (n : ℤ) (hf : IntsFit w n)
    (Co : IMat) (hCo : reducedCanonical ℚ 36 = .ok Co) :
    (baseco_36 w n).Nodup ∧
      ∀ H : IntMat, H ∈ baseco_36 w n ↔ H ∈ SymmetricHNFs (ClassSym 36 Co.toMat) n :=
  carry (baseco_36_perm n hf) (AutoGR.base_ortho_36_correct n Co hCo)

example : hnf 1 0 1 2 2 4 ∈ baseco_36 wrap32 4 ∧ hnf 4 0 1 0 0 1 ∉ baseco_36 wrap32 4 ∧
    (baseco_36 wrap32 4).length = 9 := by decide +kernel

/-- C59: `basecm_20_25` of the Fortran code returns what the Python function `base_mono_20_25` returns, up to order. -/
theorem basecm_20_25_perm {w : ℤ → ℤ} (n : ℤ) (hf : IntsFit w n) :
    (basecm_20_25 w n).Perm (AutoGR.base_mono_20_25 id n) := by
  have h : basecm_20_25 w n = basecm_20_25 id n := by
    rcases hf with rfl | ⟨hw, hn⟩
    · rfl
    · exact basecm_20_25_w hw hn
  rw [h, List.perm_ext_iff_of_nodup (basecm_20_25_nodup id n) (AutoGR.base_mono_20_25_nodup id n)]
  intro H
  rw [basecm_20_25_mem, AutoGR.base_mono_20_25_mem]

/-- C57: `basecm_20_25` lists every Hermite normal form of determinant `n` that keeps the symmetry of Niggli
class 20, 25, only those, and each once. -/
theorem basecm_20_25_correct {w : ℤ → ℤ} (k : ℕ) (hk : k ∈ [20, 25]) (n : ℤ) (hf : IntsFit w n)
    (Co : IMat) (hCo : reducedCanonical ℚ k = .ok Co) :
    (basecm_20_25 w n).Nodup ∧
      ∀ H : IntMat, H ∈ basecm_20_25 w n ↔ H ∈ SymmetricHNFs (ClassSym k Co.toMat) n :=
  carry (basecm_20_25_perm n hf) (AutoGR.base_mono_20_25_correct k hk n Co hCo)

example : hnf 1 1 2 1 1 2 ∈ basecm_20_25 wrap32 4 ∧ hnf 2 0 1 1 1 2 ∉ basecm_20_25 wrap32 4 ∧
    (basecm_20_25 wrap32 4).length = 11 := by decide +kernel

/-- C59: `basecm_28` of the Fortran code returns what the Python function `base_mono_28` returns, up to order. -/
theorem basecm_28_perm {w : ℤ → ℤ} (n : ℤ) (hf : IntsFit w n) :
    (basecm_28 w n).Perm (AutoGR.base_mono_28 id n) := by
  have h : basecm_28 w n = basecm_28 id n := by
    rcases hf with rfl | ⟨hw, hn⟩
    · rfl
    · exact basecm_28_w hw hn
  rw [h, List.perm_ext_iff_of_nodup (basecm_28_nodup id n) (AutoGR.base_mono_28_nodup id n)]
  intro H
  rw [basecm_28_mem, AutoGR.base_mono_28_mem]

/-- C57: `basecm_28` lists every Hermite normal form of determinant `n` that keeps the symmetry of Niggli
class 28, only those, and each once. -/
theorem basecm_28_correct {w : ℤ → ℤ} (n : ℤ) (hf : IntsFit w n)
    (Co : IMat) (hCo : reducedCanonical ℚ 28 = .ok Co) :
    (basecm_28 w n).Nodup ∧
      ∀ H : IntMat, H ∈ basecm_28 w n ↔ H ∈ SymmetricHNFs (ClassSym 28 Co.toMat) n :=
  carry (basecm_28_perm n hf) (AutoGR.base_mono_28_correct n Co hCo)

example : hnf 1 1 2 4 2 6 ∈ basecm_28 wrap32 12 ∧ hnf 6 1 2 0 0 1 ∉ basecm_28 wrap32 12 ∧
    (basecm_28 wrap32 12).length = 55 := by decide +kernel

/-- C59: `basecm_29_30` of the Fortran code returns what the Python function `base_mono_29_30` returns, up to order. -/
theorem basecm_29_30_perm {w : ℤ → ℤ} (n : ℤ) (hf : IntsFit w n) :
    (basecm_29_30 w n).Perm (AutoGR.base_mono_29_30 id n) := by
  have h : basecm_29_30 w n = basecm_29_30 id n := by
    rcases hf with rfl | ⟨hw, hn⟩
    · rfl
    · exact basecm_29_30_w hw hn
  rw [h, List.perm_ext_iff_of_nodup (basecm_29_30_nodup id n) (AutoGR.base_mono_29_30_nodup id n)]
  intro H
  rw [basecm_29_30_mem, AutoGR.base_mono_29_30_mem]

/-- C57: `basecm_29_30` lists every Hermite normal form of determinant `n` that keeps the symmetry of Niggli
class 29, 30, only those, and each once. -/
theorem basecm_29_30_correct {w : ℤ → ℤ} (k : ℕ) (hk : k ∈ [29, 30]) (n : ℤ) (hf : IntsFit w n)
    (Co : IMat) (hCo : reducedCanonical ℚ k = .ok Co) :
    (basecm_29_30 w n).Nodup ∧
      ∀ H : IntMat, H ∈ basecm_29_30 w n ↔ H ∈ SymmetricHNFs (ClassSym k Co.toMat) n :=
  carry (basecm_29_30_perm n hf) (AutoGR.base_mono_29_30_correct k hk n Co hCo)

example : hnf 1 1 2 4 2 6 ∈ basecm_29_30 wrap32 12 ∧ hnf 6 1 2 0 0 1 ∉ basecm_29_30 wrap32 12 ∧
    (basecm_29_30 wrap32 12).length = 55 := by decide +kernel

/-- C59: `basecm_10_14_17_27_37_39_41` of the Fortran code returns what the Python function `base_mono_10_14_17_27_37_39_41` returns, up to order. -/
theorem basecm_10_14_17_27_37_39_41_perm {w : ℤ → ℤ} (n : ℤ) (hf : IntsFit w n) :
    (basecm_10_14_17_27_37_39_41 w n).Perm (AutoGR.base_mono_10_14_17_27_37_39_41 id n) := by
  have h : basecm_10_14_17_27_37_39_41 w n = basecm_10_14_17_27_37_39_41 id n := by
    rcases hf with rfl | ⟨hw, hn⟩
    · rfl
    · exact basecm_10_14_17_27_37_39_41_w hw hn
  rw [h, List.perm_ext_iff_of_nodup (basecm_10_14_17_27_37_39_41_nodup id n) (AutoGR.base_mono_10_14_17_27_37_39_41_nodup id n)]
  intro H
  rw [basecm_10_14_17_27_37_39_41_mem, AutoGR.base_mono_10_14_17_27_37_39_41_mem]

/-- C57: `basecm_10_14_17_27_37_39_41` lists every Hermite normal form of determinant `n` that keeps the symmetry of Niggli
class 10, 14, 17, 27, 37, 39, 41, only those, and each once. -/
theorem basecm_10_14_17_27_37_39_41_correct {w : ℤ → ℤ} (k : ℕ) (hk : k ∈ [10, 14, 17, 27, 37, 39, 41]) (n : ℤ) (hf : IntsFit w n)
    (Co : IMat) (hCo : reducedCanonical ℚ k = .ok Co) :
    (basecm_10_14_17_27_37_39_41 w n).Nodup ∧
      ∀ H : IntMat, H ∈ basecm_10_14_17_27_37_39_41 w n ↔ H ∈ SymmetricHNFs (ClassSym k Co.toMat) n :=
  carry (basecm_10_14_17_27_37_39_41_perm n hf) (AutoGR.base_mono_10_14_17_27_37_39_41_correct k hk n Co hCo)

example : hnf 2 1 2 1 1 2 ∈ basecm_10_14_17_27_37_39_41 wrap32 8 ∧ hnf 2 0 1 3 3 4 ∉ basecm_10_14_17_27_37_39_41 wrap32 8 ∧
    (basecm_10_14_17_27_37_39_41 wrap32 8).length = 31 := by decide +kernel

/-- C59: `basecm_43` of the Fortran code returns what the Python function `base_mono_43` returns, up to order. -/
theorem basecm_43_perm {w : ℤ → ℤ} (n : ℤ) (hf : IntsFit w n) :
    (basecm_43 w n).Perm (AutoGR.base_mono_43 id n) := by
  have h : basecm_43 w n = basecm_43 id n := by
    rcases hf with rfl | ⟨hw, hn⟩
    · rfl
    · exact basecm_43_w hw hn
  rw [h, List.perm_ext_iff_of_nodup (basecm_43_nodup id n) (AutoGR.base_mono_43_nodup id n)]
  intro H
  rw [basecm_43_mem, AutoGR.base_mono_43_mem]

/-- C57: `basecm_43` lists every Hermite normal form of determinant `n` that keeps the symmetry of Niggli
class 43, only those, and each once. -/
theorem basecm_43_correct {w : ℤ → ℤ} (n : ℤ) (hf : IntsFit w n)
    (Co : IMat) (hCo : reducedCanonical ℚ 43 = .ok Co) :
    (basecm_43 w n).Nodup ∧
      ∀ H : IntMat, H ∈ basecm_43 w n ↔ H ∈ SymmetricHNFs (ClassSym 43 Co.toMat) n :=
  carry (basecm_43_perm n hf) (AutoGR.base_mono_43_correct n Co hCo)

example : hnf 1 1 2 5 4 6 ∈ basecm_43 wrap32 12 ∧ hnf 6 1 2 0 0 1 ∉ basecm_43 wrap32 12 ∧
    (basecm_43 wrap32 12).length = 55 := by decide +kernel

/-- C59: `sm_33` of the Fortran code returns what the Python function `sm_33` returns, up to order. -/
theorem sm_33_perm {w : ℤ → ℤ} (n : ℤ) (hf : IntsFit w n) :
    (sm_33 w n).Perm (AutoGR.sm_33 id n) := by
  have h : sm_33 w n = sm_33 id n := by
    rcases hf with rfl | ⟨hw, hn⟩
    · rfl
    · exact sm_33_w hw hn
  rw [h, List.perm_ext_iff_of_nodup (sm_33_nodup id n) (AutoGR.sm_33_nodup id n)]
  intro H
  rw [sm_33_mem, AutoGR.sm_33_mem]

/-- C57: `sm_33` lists every Hermite normal form of determinant `n` that keeps the symmetry of Niggli
class 33, only those, and each once. -/
theorem sm_33_correct {w : ℤ → ℤ} (n : ℤ) (hf : IntsFit w n)
    (Co : IMat) (hCo : reducedCanonical ℚ 33 = .ok Co) :
    (sm_33 w n).Nodup ∧
      ∀ H : IntMat, H ∈ sm_33 w n ↔ H ∈ SymmetricHNFs (ClassSym 33 Co.toMat) n :=
  carry (sm_33_perm n hf) (AutoGR.sm_33_correct n Co hCo)

example : hnf 2 0 1 1 1 2 ∈ sm_33 wrap32 4 ∧ hnf 1 3 4 0 0 1 ∉ sm_33 wrap32 4 ∧
    (sm_33 wrap32 4).length = 23 := by decide +kernel

/-- C59: `sm_34_35` of the Fortran code returns what the Python function `sm_34` returns, up to order. -/
theorem sm_34_35_perm_34 (n : ℤ) :
    (sm_34_35 n).Perm (AutoGR.sm_34 n) := by
  rw [List.perm_ext_iff_of_nodup (sm_34_35_nodup n) (AutoGR.sm_34_nodup n)]
  intro H
  rw [sm_34_35_mem, AutoGR.sm_34_mem]

/-- C57: `sm_34_35` lists every Hermite normal form of determinant `n` that keeps the symmetry of Niggli
class 34, only those, and each once. -/
theorem sm_34_35_correct_34 (n : ℤ)
    (Co : IMat) (hCo : reducedCanonical ℚ 34 = .ok Co) :
    (sm_34_35 n).Nodup ∧
      ∀ H : IntMat, H ∈ sm_34_35 n ↔ H ∈ SymmetricHNFs (ClassSym 34 Co.toMat) n :=
  carry (sm_34_35_perm_34 n) (AutoGR.sm_34_correct n Co hCo)

/-- C59: `sm_34_35` of the Fortran code returns what the Python function `sm_35` returns, up to order. -/
theorem sm_34_35_perm_35 (n : ℤ) :
    (sm_34_35 n).Perm (AutoGR.sm_35 n) := by
  rw [List.perm_ext_iff_of_nodup (sm_34_35_nodup n) (AutoGR.sm_35_nodup n)]
  intro H
  rw [sm_34_35_mem, AutoGR.sm_35_mem]

/-- C57: `sm_34_35` lists every Hermite normal form of determinant `n` that keeps the symmetry of Niggli
class 35, only those, and each once. -/
theorem sm_34_35_correct_35 (n : ℤ)
    (Co : IMat) (hCo : reducedCanonical ℚ 35 = .ok Co) :
    (sm_34_35 n).Nodup ∧
      ∀ H : IntMat, H ∈ sm_34_35 n ↔ H ∈ SymmetricHNFs (ClassSym 35 Co.toMat) n :=
  carry (sm_34_35_perm_35 n) (AutoGR.sm_35_correct n Co hCo)

example : hnf 1 1 2 1 1 2 ∈ sm_34_35 4 ∧ hnf 1 0 1 3 3 4 ∉ sm_34_35 4 ∧
    (sm_34_35 4).length = 23 := by decide +kernel

/-- C59: `tric_31_44` of the Fortran code (before the multiplication by `mult`) returns the list the
Python function returns. -/
theorem tric_31_44_py (n : ℤ) : tric_31_44 n = AutoGR.tric_31_44 n := tric_31_44_eq n

/-- C57: `tric_31_44` lists every Hermite normal form of determinant `n`, once each; these are the
sublattices that keep the symmetry of the triclinic classes 31 and 44. -/
theorem tric_31_44_correct (k : ℕ) (hk : k ∈ [31, 44]) (n : ℤ) (Co : IntMat)
    (hCo : Co.det = 1 ∨ Co.det = -1) :
    (tric_31_44 n).Nodup ∧
      (∀ H : IntMat, H ∈ tric_31_44 n ↔ IsHNF H ∧ H.det = n) ∧
      ∀ H : IntMat, H ∈ tric_31_44 n ↔ H ∈ SymmetricHNFs (ClassSym k Co) n :=
  tric_31_44_py n ▸ AutoGR.tric_31_44_correct k hk n Co hCo

example : (tric_31_44 6).length = 91 := by decide +kernel

/-- The machine's 32-bit integers satisfy the hypothesis for every determinant up to 46000. -/
example (n : ℤ) (hn : n ≤ 46000) : IntsFit wrap32 n := Or.inr ⟨wrap32_int32, hn⟩

end AutoGR.Fortran
