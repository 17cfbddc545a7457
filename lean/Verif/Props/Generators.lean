import Verif.Lemmas.CubicMem
import Verif.Lemmas.GenMem1
import Verif.Lemmas.GenMem2
import Verif.Lemmas.GenMem3
import Verif.Lemmas.GenNodup
import Verif.Lemmas.ClassGroups
import Verif.Lemmas.Canonical

/-!
# C02 – C30: every generator lists exactly the symmetric supercells of its class

For the Niggli classes `k` a generator is used for (`universal.py:96-280`):

* `reducedCanonical ℚ k = .ok Co`: the canonical basis `niggli_id` returns for `k` is reduced to its
  Niggli cell by `Co` (that this succeeds for all 42 classes is `Verif/Props/Canonical.lean`);
* `ClassSym k Co` are the point symmetries, in the canonical basis, shared by all lattices of class
  `k` (`Verif/Spec/NiggliClass.lean`);
* `SymmetricHNFs S n` are all Hermite normal forms of determinant `n` that keep all of `S`
  (`Verif/Spec/Lattice.lean`).

The generators are run with exact division (`fl = id`); `Verif/Props/Float.lean` shows that rounding
does not change the lists.  The determinant `n` is any integer; for `n ≤ 0` both sides are empty.
-/

namespace AutoGR

open Spec

/-- C02: `sc_3` lists every Hermite normal form of determinant `n` that keeps the symmetry of Niggli
class 3, only those, and each once. -/
theorem sc_3_correct (n : ℤ) (Co : IMat) (hCo : reducedCanonical ℚ 3 = .ok Co) :
    (sc_3 id n).Nodup ∧
      ∀ H : IntMat, H ∈ sc_3 id n ↔ H ∈ SymmetricHNFs (ClassSym 3 Co.toMat) n := by
  refine ⟨sc_3_nodup n, ?_⟩
  rw [reduced_3] at hCo
  cases hCo
  intro H
  rw [sym_3, sc_3_mem]
  simp [ops_sc_3, IMat.toMat]

example : reducedCanonical ℚ 3 = .ok (canonC 3) := reduced_3
example : hnf 1 0 1 1 1 2 ∈ sc_3 id 2 ∧ hnf 2 0 1 0 0 1 ∉ sc_3 id 2 ∧
    (sc_3 id 2).length = 1 := by decide +kernel

/-- C03: `bcc_5` lists every Hermite normal form of determinant `n` that keeps the symmetry of Niggli
class 5, only those, and each once. -/
theorem bcc_5_correct (n : ℤ) (Co : IMat) (hCo : reducedCanonical ℚ 5 = .ok Co) :
    (bcc_5 id n).Nodup ∧
      ∀ H : IntMat, H ∈ bcc_5 id n ↔ H ∈ SymmetricHNFs (ClassSym 5 Co.toMat) n := by
  refine ⟨bcc_5_nodup n, ?_⟩
  rw [reduced_5] at hCo
  cases hCo
  intro H
  rw [sym_5, bcc_5_mem]
  simp [ops_bcc_5, IMat.toMat]

example : reducedCanonical ℚ 5 = .ok (canonC 5) := reduced_5
example : hnf 1 0 1 1 1 2 ∈ bcc_5 id 2 ∧ hnf 2 0 1 0 0 1 ∉ bcc_5 id 2 ∧
    (bcc_5 id 2).length = 1 := by decide +kernel

/-- C04: `fcc_1` lists every Hermite normal form of determinant `n` that keeps the symmetry of Niggli
class 1, only those, and each once. -/
theorem fcc_1_correct (n : ℤ) (Co : IMat) (hCo : reducedCanonical ℚ 1 = .ok Co) :
    (fcc_1 id n).Nodup ∧
      ∀ H : IntMat, H ∈ fcc_1 id n ↔ H ∈ SymmetricHNFs (ClassSym 1 Co.toMat) n := by
  refine ⟨fcc_1_nodup n, ?_⟩
  rw [reduced_1] at hCo
  cases hCo
  intro H
  rw [sym_1, fcc_1_mem]
  simp [ops_fcc_1, IMat.toMat]

example : reducedCanonical ℚ 1 = .ok (canonC 1) := reduced_1
example : hnf 1 1 2 1 0 2 ∈ fcc_1 id 4 ∧ hnf 4 0 1 0 0 1 ∉ fcc_1 id 4 ∧
    (fcc_1 id 4).length = 1 := by decide +kernel

/-- C05: `hex_12` lists every Hermite normal form of determinant `n` that keeps the symmetry of Niggli
class 12, only those, and each once. -/
theorem hex_12_correct (n : ℤ) (Co : IMat) (hCo : reducedCanonical ℚ 12 = .ok Co) :
    (hex_12 id n).Nodup ∧
      ∀ H : IntMat, H ∈ hex_12 id n ↔ H ∈ SymmetricHNFs (ClassSym 12 Co.toMat) n := by
  refine ⟨hex_12_nodup id n, ?_⟩
  rw [reduced_12] at hCo
  cases hCo
  intro H
  rw [sym_12, hex_12_mem]
  simp [ops_hex_12, IMat.toMat]

example : reducedCanonical ℚ 12 = .ok (canonC 12) := reduced_12
example : hnf 1 1 3 0 0 1 ∈ hex_12 id 3 ∧ hnf 3 0 1 0 0 1 ∉ hex_12 id 3 ∧
    (hex_12 id 3).length = 2 := by decide +kernel

/-- C06: `hex_22` lists every Hermite normal form of determinant `n` that keeps the symmetry of Niggli
class 22, only those, and each once. -/
theorem hex_22_correct (n : ℤ) (Co : IMat) (hCo : reducedCanonical ℚ 22 = .ok Co) :
    (hex_22 id n).Nodup ∧
      ∀ H : IntMat, H ∈ hex_22 id n ↔ H ∈ SymmetricHNFs (ClassSym 22 Co.toMat) n := by
  refine ⟨hex_22_nodup id n, ?_⟩
  rw [reduced_22] at hCo
  cases hCo
  intro H
  rw [sym_22, hex_22_mem]
  simp [ops_hex_22, IMat.toMat]

example : reducedCanonical ℚ 22 = .ok (canonC 22) := reduced_22
example : hnf 1 0 1 0 2 3 ∈ hex_22 id 3 ∧ hnf 1 2 3 0 0 1 ∉ hex_22 id 3 ∧
    (hex_22 id 3).length = 2 := by decide +kernel

/-- C07: `rhom_9_24` lists every Hermite normal form of determinant `n` that keeps the symmetry of Niggli
class 9, 24, only those, and each once. -/
theorem rhom_9_24_correct (k : ℕ) (hk : k ∈ [9, 24]) (n : ℤ) (Co : IMat)
    (hCo : reducedCanonical ℚ k = .ok Co) :
    (rhom_9_24 id n).Nodup ∧
      ∀ H : IntMat, H ∈ rhom_9_24 id n ↔ H ∈ SymmetricHNFs (ClassSym k Co.toMat) n := by
  refine ⟨rhom_9_24_nodup id n, ?_⟩
  simp only [List.mem_cons, List.not_mem_nil, or_false] at hk
  rcases hk with rfl | rfl
  · rw [reduced_9] at hCo
    cases hCo
    intro H
    rw [sym_9, rhom_9_24_mem]
    simp [ops_rhom_9_24, IMat.toMat]
  · rw [reduced_24] at hCo
    cases hCo
    intro H
    rw [sym_24, rhom_9_24_mem]
    simp [ops_rhom_9_24, IMat.toMat]

example : reducedCanonical ℚ 9 = .ok (canonC 9) := reduced_9
example : reducedCanonical ℚ 24 = .ok (canonC 24) := reduced_24
example : hnf 1 1 2 1 1 2 ∈ rhom_9_24 id 4 ∧ hnf 4 0 1 0 0 1 ∉ rhom_9_24 id 4 ∧
    (rhom_9_24 id 4).length = 2 := by decide +kernel

/-- C08: `rhom_4_2` lists every Hermite normal form of determinant `n` that keeps the symmetry of Niggli
class 4, 2, only those, and each once. -/
theorem rhom_4_2_correct (k : ℕ) (hk : k ∈ [4, 2]) (n : ℤ) (Co : IMat)
    (hCo : reducedCanonical ℚ k = .ok Co) :
    (rhom_4_2 id n).Nodup ∧
      ∀ H : IntMat, H ∈ rhom_4_2 id n ↔ H ∈ SymmetricHNFs (ClassSym k Co.toMat) n := by
  refine ⟨rhom_4_2_nodup id n, ?_⟩
  simp only [List.mem_cons, List.not_mem_nil, or_false] at hk
  rcases hk with rfl | rfl
  · rw [reduced_4] at hCo
    cases hCo
    intro H
    rw [sym_4, rhom_4_2_mem]
    simp [ops_rhom_4_2, IMat.toMat]
  · rw [reduced_2] at hCo
    cases hCo
    intro H
    rw [sym_2, rhom_4_2_mem]
    simp [ops_rhom_4_2, IMat.toMat]

example : reducedCanonical ℚ 4 = .ok (canonC 4) := reduced_4
example : reducedCanonical ℚ 2 = .ok (canonC 2) := reduced_2
example : hnf 1 1 2 1 1 2 ∈ rhom_4_2 id 4 ∧ hnf 4 0 1 0 0 1 ∉ rhom_4_2 id 4 ∧
    (rhom_4_2 id 4).length = 2 := by decide +kernel

/-- C09: `stet_11` lists every Hermite normal form of determinant `n` that keeps the symmetry of Niggli
class 11, only those, and each once. -/
theorem stet_11_correct (n : ℤ) (Co : IMat) (hCo : reducedCanonical ℚ 11 = .ok Co) :
    (stet_11 id n).Nodup ∧
      ∀ H : IntMat, H ∈ stet_11 id n ↔ H ∈ SymmetricHNFs (ClassSym 11 Co.toMat) n := by
  refine ⟨stet_11_nodup id n, ?_⟩
  rw [reduced_11] at hCo
  cases hCo
  intro H
  rw [sym_11, stet_11_mem]
  simp [ops_stet_11, IMat.toMat]

example : reducedCanonical ℚ 11 = .ok (canonC 11) := reduced_11
example : hnf 1 0 1 1 1 2 ∈ stet_11 id 2 ∧ hnf 2 0 1 0 0 1 ∉ stet_11 id 2 ∧
    (stet_11 id 2).length = 3 := by decide +kernel

/-- C10: `stet_21` lists every Hermite normal form of determinant `n` that keeps the symmetry of Niggli
class 21, only those, and each once. -/
theorem stet_21_correct (n : ℤ) (Co : IMat) (hCo : reducedCanonical ℚ 21 = .ok Co) :
    (stet_21 id n).Nodup ∧
      ∀ H : IntMat, H ∈ stet_21 id n ↔ H ∈ SymmetricHNFs (ClassSym 21 Co.toMat) n := by
  refine ⟨stet_21_nodup id n, ?_⟩
  rw [reduced_21] at hCo
  cases hCo
  intro H
  rw [sym_21, stet_21_mem]
  simp [ops_stet_21, IMat.toMat]

example : reducedCanonical ℚ 21 = .ok (canonC 21) := reduced_21
example : hnf 1 0 1 1 1 2 ∈ stet_21 id 2 ∧ hnf 1 1 2 0 0 1 ∉ stet_21 id 2 ∧
    (stet_21 id 2).length = 3 := by decide +kernel

/-- C11: `body_tet_6_7_15_18` lists every Hermite normal form of determinant `n` that keeps the symmetry of Niggli
class 6, 7, 15, 18, only those, and each once. -/
theorem body_tet_6_7_15_18_correct (k : ℕ) (hk : k ∈ [6, 7, 15, 18]) (n : ℤ) (Co : IMat)
    (hCo : reducedCanonical ℚ k = .ok Co) :
    (body_tet_6_7_15_18 id n).Nodup ∧
      ∀ H : IntMat, H ∈ body_tet_6_7_15_18 id n ↔ H ∈ SymmetricHNFs (ClassSym k Co.toMat) n := by
  refine ⟨body_tet_6_7_15_18_nodup id n, ?_⟩
  simp only [List.mem_cons, List.not_mem_nil, or_false] at hk
  rcases hk with rfl | rfl | rfl | rfl
  · rw [reduced_6] at hCo
    cases hCo
    intro H
    rw [sym_6, body_tet_6_7_15_18_mem]
    simp [ops_body_tet_6_7_15_18, IMat.toMat]
  · rw [reduced_7] at hCo
    cases hCo
    intro H
    rw [sym_7, body_tet_6_7_15_18_mem]
    simp [ops_body_tet_6_7_15_18, IMat.toMat]
  · rw [reduced_15] at hCo
    cases hCo
    intro H
    rw [sym_15, body_tet_6_7_15_18_mem]
    simp [ops_body_tet_6_7_15_18, IMat.toMat]
  · rw [reduced_18] at hCo
    cases hCo
    intro H
    rw [sym_18, body_tet_6_7_15_18_mem]
    simp [ops_body_tet_6_7_15_18, IMat.toMat]

example : reducedCanonical ℚ 6 = .ok (canonC 6) := reduced_6
example : reducedCanonical ℚ 7 = .ok (canonC 7) := reduced_7
example : reducedCanonical ℚ 15 = .ok (canonC 15) := reduced_15
example : reducedCanonical ℚ 18 = .ok (canonC 18) := reduced_18
example : hnf 2 1 2 3 2 4 ∈ body_tet_6_7_15_18 id 16 ∧ hnf 8 1 2 0 0 1 ∉ body_tet_6_7_15_18 id 16 ∧
    (body_tet_6_7_15_18 id 16).length = 7 := by decide +kernel

/-- C12: `so_32` lists every Hermite normal form of determinant `n` that keeps the symmetry of Niggli
class 32, only those, and each once. -/
theorem so_32_correct (n : ℤ) (Co : IMat) (hCo : reducedCanonical ℚ 32 = .ok Co) :
    (so_32 n).Nodup ∧
      ∀ H : IntMat, H ∈ so_32 n ↔ H ∈ SymmetricHNFs (ClassSym 32 Co.toMat) n := by
  refine ⟨so_32_nodup n, ?_⟩
  rw [reduced_32] at hCo
  cases hCo
  intro H
  rw [sym_32, so_32_mem]
  simp [ops_so_32, IMat.toMat]

example : reducedCanonical ℚ 32 = .ok (canonC 32) := reduced_32
example : hnf 2 0 1 1 1 2 ∈ so_32 4 ∧ hnf 1 3 4 0 0 1 ∉ so_32 4 ∧
    (so_32 4).length = 19 := by decide +kernel

/-- C13: `body_ortho_19` lists every Hermite normal form of determinant `n` that keeps the symmetry of Niggli
class 19, only those, and each once. -/
theorem body_ortho_19_correct (n : ℤ) (Co : IMat) (hCo : reducedCanonical ℚ 19 = .ok Co) :
    (body_ortho_19 id n).Nodup ∧
      ∀ H : IntMat, H ∈ body_ortho_19 id n ↔ H ∈ SymmetricHNFs (ClassSym 19 Co.toMat) n := by
  refine ⟨body_ortho_19_nodup id n, ?_⟩
  rw [reduced_19] at hCo
  cases hCo
  intro H
  rw [sym_19, body_ortho_19_mem]
  simp [ops_body_ortho_19, IMat.toMat]

example : reducedCanonical ℚ 19 = .ok (canonC 19) := reduced_19
example : hnf 2 1 2 1 1 2 ∈ body_ortho_19 id 8 ∧ hnf 2 2 4 0 0 1 ∉ body_ortho_19 id 8 ∧
    (body_ortho_19 id 8).length = 19 := by decide +kernel

/-- C14: `body_ortho_8` lists every Hermite normal form of determinant `n` that keeps the symmetry of Niggli
class 8, only those, and each once. -/
theorem body_ortho_8_correct (n : ℤ) (Co : IMat) (hCo : reducedCanonical ℚ 8 = .ok Co) :
    (body_ortho_8 id n).Nodup ∧
      ∀ H : IntMat, H ∈ body_ortho_8 id n ↔ H ∈ SymmetricHNFs (ClassSym 8 Co.toMat) n := by
  refine ⟨body_ortho_8_nodup id n, ?_⟩
  rw [reduced_8] at hCo
  cases hCo
  intro H
  rw [sym_8, body_ortho_8_mem]
  simp [ops_body_ortho_8, IMat.toMat]

example : reducedCanonical ℚ 8 = .ok (canonC 8) := reduced_8
example : hnf 2 1 2 2 2 4 ∈ body_ortho_8 id 16 ∧ hnf 4 3 4 0 0 1 ∉ body_ortho_8 id 16 ∧
    (body_ortho_8 id 16).length = 37 := by decide +kernel

/-- C15: `body_ortho_42` lists every Hermite normal form of determinant `n` that keeps the symmetry of Niggli
class 42, only those, and each once. -/
theorem body_ortho_42_correct (n : ℤ) (Co : IMat) (hCo : reducedCanonical ℚ 42 = .ok Co) :
    (body_ortho_42 id n).Nodup ∧
      ∀ H : IntMat, H ∈ body_ortho_42 id n ↔ H ∈ SymmetricHNFs (ClassSym 42 Co.toMat) n := by
  refine ⟨body_ortho_42_nodup id n, ?_⟩
  rw [reduced_42] at hCo
  cases hCo
  intro H
  rw [sym_42, body_ortho_42_mem]
  simp [ops_body_ortho_42, IMat.toMat]

example : reducedCanonical ℚ 42 = .ok (canonC 42) := reduced_42
example : hnf 2 1 2 1 1 2 ∈ body_ortho_42 id 8 ∧ hnf 2 2 4 0 0 1 ∉ body_ortho_42 id 8 ∧
    (body_ortho_42 id 8).length = 19 := by decide +kernel

/-- C16: `face_ortho_26` lists every Hermite normal form of determinant `n` that keeps the symmetry of Niggli
class 26, only those, and each once. -/
theorem face_ortho_26_correct (n : ℤ) (Co : IMat) (hCo : reducedCanonical ℚ 26 = .ok Co) :
    (face_ortho_26 id n).Nodup ∧
      ∀ H : IntMat, H ∈ face_ortho_26 id n ↔ H ∈ SymmetricHNFs (ClassSym 26 Co.toMat) n := by
  refine ⟨face_ortho_26_nodup id n, ?_⟩
  rw [reduced_26] at hCo
  cases hCo
  intro H
  rw [sym_26, face_ortho_26_mem]
  simp [ops_face_ortho_26, IMat.toMat]

example : reducedCanonical ℚ 26 = .ok (canonC 26) := reduced_26
example : hnf 1 1 2 1 1 2 ∈ face_ortho_26 id 4 ∧ hnf 2 0 1 1 1 2 ∉ face_ortho_26 id 4 ∧
    (face_ortho_26 id 4).length = 7 := by decide +kernel

/-- C17: `face_ortho_16` lists every Hermite normal form of determinant `n` that keeps the symmetry of Niggli
class 16, only those, and each once. -/
theorem face_ortho_16_correct (n : ℤ) (Co : IMat) (hCo : reducedCanonical ℚ 16 = .ok Co) :
    (face_ortho_16 id n).Nodup ∧
      ∀ H : IntMat, H ∈ face_ortho_16 id n ↔ H ∈ SymmetricHNFs (ClassSym 16 Co.toMat) n := by
  refine ⟨face_ortho_16_nodup id n, ?_⟩
  rw [reduced_16] at hCo
  cases hCo
  intro H
  rw [sym_16, face_ortho_16_mem]
  simp [ops_face_ortho_16, IMat.toMat]

example : reducedCanonical ℚ 16 = .ok (canonC 16) := reduced_16
example : hnf 1 1 2 1 1 2 ∈ face_ortho_16 id 4 ∧ hnf 2 0 1 1 1 2 ∉ face_ortho_16 id 4 ∧
    (face_ortho_16 id 4).length = 7 := by decide +kernel

/-- C18: `base_ortho_38_13` lists every Hermite normal form of determinant `n` that keeps the symmetry of Niggli
class 38, 13, only those, and each once. -/
theorem base_ortho_38_13_correct (k : ℕ) (hk : k ∈ [38, 13]) (n : ℤ) (Co : IMat)
    (hCo : reducedCanonical ℚ k = .ok Co) :
    (base_ortho_38_13 id n).Nodup ∧
      ∀ H : IntMat, H ∈ base_ortho_38_13 id n ↔ H ∈ SymmetricHNFs (ClassSym k Co.toMat) n := by
  refine ⟨base_ortho_38_13_nodup id n, ?_⟩
  simp only [List.mem_cons, List.not_mem_nil, or_false] at hk
  rcases hk with rfl | rfl
  · rw [reduced_38] at hCo
    cases hCo
    intro H
    rw [sym_38, base_ortho_38_13_mem]
    simp [ops_base_ortho_38_13, IMat.toMat]
  · rw [reduced_13] at hCo
    cases hCo
    intro H
    rw [sym_13, base_ortho_38_13_mem]
    simp [ops_base_ortho_38_13, IMat.toMat]

example : reducedCanonical ℚ 38 = .ok (canonC 38) := reduced_38
example : reducedCanonical ℚ 13 = .ok (canonC 13) := reduced_13
example : hnf 1 1 2 1 1 2 ∈ base_ortho_38_13 id 4 ∧ hnf 4 0 1 0 0 1 ∉ base_ortho_38_13 id 4 ∧
    (base_ortho_38_13 id 4).length = 9 := by decide +kernel

/-- C19: `base_ortho_23` lists every Hermite normal form of determinant `n` that keeps the symmetry of Niggli
class 23, only those, and each once. -/
theorem base_ortho_23_correct (n : ℤ) (Co : IMat) (hCo : reducedCanonical ℚ 23 = .ok Co) :
    (base_ortho_23 id n).Nodup ∧
      ∀ H : IntMat, H ∈ base_ortho_23 id n ↔ H ∈ SymmetricHNFs (ClassSym 23 Co.toMat) n := by
  refine ⟨base_ortho_23_nodup id n, ?_⟩
  rw [reduced_23] at hCo
  cases hCo
  intro H
  rw [sym_23, base_ortho_23_mem]
  simp [ops_base_ortho_23, IMat.toMat]

example : reducedCanonical ℚ 23 = .ok (canonC 23) := reduced_23
example : hnf 1 0 1 1 1 2 ∈ base_ortho_23 id 2 ∧ hnf 2 0 1 0 0 1 ∉ base_ortho_23 id 2 ∧
    (base_ortho_23 id 2).length = 3 := by decide +kernel

/-- C20: `base_ortho_40` lists every Hermite normal form of determinant `n` that keeps the symmetry of Niggli
class 40, only those, and each once. -/
theorem base_ortho_40_correct (n : ℤ) (Co : IMat) (hCo : reducedCanonical ℚ 40 = .ok Co) :
    (base_ortho_40 id n).Nodup ∧
      ∀ H : IntMat, H ∈ base_ortho_40 id n ↔ H ∈ SymmetricHNFs (ClassSym 40 Co.toMat) n := by
  refine ⟨base_ortho_40_nodup id n, ?_⟩
  rw [reduced_40] at hCo
  cases hCo
  intro H
  rw [sym_40, base_ortho_40_mem]
  simp [ops_base_ortho_40, IMat.toMat]

example : reducedCanonical ℚ 40 = .ok (canonC 40) := reduced_40
example : hnf 1 1 2 2 4 6 ∈ base_ortho_40 id 12 ∧ hnf 6 1 2 0 0 1 ∉ base_ortho_40 id 12 ∧
    (base_ortho_40 id 12).length = 27 := by decide +kernel

/-- C21: `base_ortho_36` lists every Hermite normal form of determinant `n` that keeps the symmetry of Niggli
class 36, only those, and each once. -/
theorem base_ortho_36_correct (n : ℤ) (Co : IMat) (hCo : reducedCanonical ℚ 36 = .ok Co) :
    (base_ortho_36 id n).Nodup ∧
      ∀ H : IntMat, H ∈ base_ortho_36 id n ↔ H ∈ SymmetricHNFs (ClassSym 36 Co.toMat) n := by
  refine ⟨base_ortho_36_nodup id n, ?_⟩
  rw [reduced_36] at hCo
  cases hCo
  intro H
  rw [sym_36, base_ortho_36_mem]
  simp [ops_base_ortho_36, IMat.toMat]

example : reducedCanonical ℚ 36 = .ok (canonC 36) := reduced_36
example : hnf 1 0 1 2 2 4 ∈ base_ortho_36 id 4 ∧ hnf 4 0 1 0 0 1 ∉ base_ortho_36 id 4 ∧
    (base_ortho_36 id 4).length = 9 := by decide +kernel

/-- C22: `base_mono_20_25` lists every Hermite normal form of determinant `n` that keeps the symmetry of Niggli
class 20, 25, only those, and each once. -/
theorem base_mono_20_25_correct (k : ℕ) (hk : k ∈ [20, 25]) (n : ℤ) (Co : IMat)
    (hCo : reducedCanonical ℚ k = .ok Co) :
    (base_mono_20_25 id n).Nodup ∧
      ∀ H : IntMat, H ∈ base_mono_20_25 id n ↔ H ∈ SymmetricHNFs (ClassSym k Co.toMat) n := by
  refine ⟨base_mono_20_25_nodup id n, ?_⟩
  simp only [List.mem_cons, List.not_mem_nil, or_false] at hk
  rcases hk with rfl | rfl
  · rw [reduced_20] at hCo
    cases hCo
    intro H
    rw [sym_20, base_mono_20_25_mem]
    simp [ops_base_mono_20_25, IMat.toMat]
  · rw [reduced_25] at hCo
    cases hCo
    intro H
    rw [sym_25, base_mono_20_25_mem]
    simp [ops_base_mono_20_25, IMat.toMat]

example : reducedCanonical ℚ 20 = .ok (canonC 20) := reduced_20
example : reducedCanonical ℚ 25 = .ok (canonC 25) := reduced_25
example : hnf 1 1 2 1 1 2 ∈ base_mono_20_25 id 4 ∧ hnf 2 0 1 1 1 2 ∉ base_mono_20_25 id 4 ∧
    (base_mono_20_25 id 4).length = 11 := by decide +kernel

/-- C23: `base_mono_28` lists every Hermite normal form of determinant `n` that keeps the symmetry of Niggli
class 28, only those, and each once. -/
theorem base_mono_28_correct (n : ℤ) (Co : IMat) (hCo : reducedCanonical ℚ 28 = .ok Co) :
    (base_mono_28 id n).Nodup ∧
      ∀ H : IntMat, H ∈ base_mono_28 id n ↔ H ∈ SymmetricHNFs (ClassSym 28 Co.toMat) n := by
  refine ⟨base_mono_28_nodup id n, ?_⟩
  rw [reduced_28] at hCo
  cases hCo
  intro H
  rw [sym_28, base_mono_28_mem]
  simp [ops_base_mono_28, IMat.toMat]

example : reducedCanonical ℚ 28 = .ok (canonC 28) := reduced_28
example : hnf 1 1 2 4 2 6 ∈ base_mono_28 id 12 ∧ hnf 6 1 2 0 0 1 ∉ base_mono_28 id 12 ∧
    (base_mono_28 id 12).length = 55 := by decide +kernel

/-- C24: `base_mono_29_30` lists every Hermite normal form of determinant `n` that keeps the symmetry of Niggli
class 29, 30, only those, and each once. -/
theorem base_mono_29_30_correct (k : ℕ) (hk : k ∈ [29, 30]) (n : ℤ) (Co : IMat)
    (hCo : reducedCanonical ℚ k = .ok Co) :
    (base_mono_29_30 id n).Nodup ∧
      ∀ H : IntMat, H ∈ base_mono_29_30 id n ↔ H ∈ SymmetricHNFs (ClassSym k Co.toMat) n := by
  refine ⟨base_mono_29_30_nodup id n, ?_⟩
  simp only [List.mem_cons, List.not_mem_nil, or_false] at hk
  rcases hk with rfl | rfl
  · rw [reduced_29] at hCo
    cases hCo
    intro H
    rw [sym_29, base_mono_29_30_mem]
    simp [ops_base_mono_29_30, IMat.toMat]
  · rw [reduced_30] at hCo
    cases hCo
    intro H
    rw [sym_30, base_mono_29_30_mem]
    simp [ops_base_mono_29_30, IMat.toMat]

example : reducedCanonical ℚ 29 = .ok (canonC 29) := reduced_29
example : reducedCanonical ℚ 30 = .ok (canonC 30) := reduced_30
example : hnf 1 1 2 4 2 6 ∈ base_mono_29_30 id 12 ∧ hnf 6 1 2 0 0 1 ∉ base_mono_29_30 id 12 ∧
    (base_mono_29_30 id 12).length = 55 := by decide +kernel

/-- C25: `base_mono_10_14_17_27_37_39_41` lists every Hermite normal form of determinant `n` that keeps the symmetry of Niggli
class 10, 14, 17, 27, 37, 39, 41, only those, and each once. -/
theorem base_mono_10_14_17_27_37_39_41_correct (k : ℕ) (hk : k ∈ [10, 14, 17, 27, 37, 39, 41]) (n : ℤ) (Co : IMat)
    (hCo : reducedCanonical ℚ k = .ok Co) :
    (base_mono_10_14_17_27_37_39_41 id n).Nodup ∧
      ∀ H : IntMat, H ∈ base_mono_10_14_17_27_37_39_41 id n ↔ H ∈ SymmetricHNFs (ClassSym k Co.toMat) n := by
  refine ⟨base_mono_10_14_17_27_37_39_41_nodup id n, ?_⟩
  simp only [List.mem_cons, List.not_mem_nil, or_false] at hk
  rcases hk with rfl | rfl | rfl | rfl | rfl | rfl | rfl
  · rw [reduced_10] at hCo
    cases hCo
    intro H
    rw [sym_10, base_mono_10_14_17_27_37_39_41_mem]
    simp [ops_base_mono_10_14_17_27_37_39_41, IMat.toMat]
  · rw [reduced_14] at hCo
    cases hCo
    intro H
    rw [sym_14, base_mono_10_14_17_27_37_39_41_mem]
    simp [ops_base_mono_10_14_17_27_37_39_41, IMat.toMat]
  · rw [reduced_17] at hCo
    cases hCo
    intro H
    rw [sym_17, base_mono_10_14_17_27_37_39_41_mem]
    simp [ops_base_mono_10_14_17_27_37_39_41, IMat.toMat]
  · rw [reduced_27] at hCo
    cases hCo
    intro H
    rw [sym_27, base_mono_10_14_17_27_37_39_41_mem]
    simp [ops_base_mono_10_14_17_27_37_39_41, IMat.toMat]
  · rw [reduced_37] at hCo
    cases hCo
    intro H
    rw [sym_37, base_mono_10_14_17_27_37_39_41_mem]
    simp [ops_base_mono_10_14_17_27_37_39_41, IMat.toMat]
  · rw [reduced_39] at hCo
    cases hCo
    intro H
    rw [sym_39, base_mono_10_14_17_27_37_39_41_mem]
    simp [ops_base_mono_10_14_17_27_37_39_41, IMat.toMat]
  · rw [reduced_41] at hCo
    cases hCo
    intro H
    rw [sym_41, base_mono_10_14_17_27_37_39_41_mem]
    simp [ops_base_mono_10_14_17_27_37_39_41, IMat.toMat]

example : reducedCanonical ℚ 10 = .ok (canonC 10) := reduced_10
example : reducedCanonical ℚ 14 = .ok (canonC 14) := reduced_14
example : reducedCanonical ℚ 17 = .ok (canonC 17) := reduced_17
example : reducedCanonical ℚ 27 = .ok (canonC 27) := reduced_27
example : reducedCanonical ℚ 37 = .ok (canonC 37) := reduced_37
example : reducedCanonical ℚ 39 = .ok (canonC 39) := reduced_39
example : reducedCanonical ℚ 41 = .ok (canonC 41) := reduced_41
example : hnf 2 1 2 1 1 2 ∈ base_mono_10_14_17_27_37_39_41 id 8 ∧ hnf 2 0 1 3 3 4 ∉ base_mono_10_14_17_27_37_39_41 id 8 ∧
    (base_mono_10_14_17_27_37_39_41 id 8).length = 31 := by decide +kernel

/-- C26: `base_mono_43` lists every Hermite normal form of determinant `n` that keeps the symmetry of Niggli
class 43, only those, and each once. -/
theorem base_mono_43_correct (n : ℤ) (Co : IMat) (hCo : reducedCanonical ℚ 43 = .ok Co) :
    (base_mono_43 id n).Nodup ∧
      ∀ H : IntMat, H ∈ base_mono_43 id n ↔ H ∈ SymmetricHNFs (ClassSym 43 Co.toMat) n := by
  refine ⟨base_mono_43_nodup id n, ?_⟩
  rw [reduced_43] at hCo
  cases hCo
  intro H
  rw [sym_43, base_mono_43_mem]
  simp [ops_base_mono_43, IMat.toMat]

example : reducedCanonical ℚ 43 = .ok (canonC 43) := reduced_43
example : hnf 1 1 2 5 4 6 ∈ base_mono_43 id 12 ∧ hnf 6 1 2 0 0 1 ∉ base_mono_43 id 12 ∧
    (base_mono_43 id 12).length = 55 := by decide +kernel

/-- C27: `sm_33` lists every Hermite normal form of determinant `n` that keeps the symmetry of Niggli
class 33, only those, and each once. -/
theorem sm_33_correct (n : ℤ) (Co : IMat) (hCo : reducedCanonical ℚ 33 = .ok Co) :
    (sm_33 id n).Nodup ∧
      ∀ H : IntMat, H ∈ sm_33 id n ↔ H ∈ SymmetricHNFs (ClassSym 33 Co.toMat) n := by
  refine ⟨sm_33_nodup id n, ?_⟩
  rw [reduced_33] at hCo
  cases hCo
  intro H
  rw [sym_33, sm_33_mem]
  simp [ops_sm_33, IMat.toMat]

example : reducedCanonical ℚ 33 = .ok (canonC 33) := reduced_33
example : hnf 2 0 1 1 1 2 ∈ sm_33 id 4 ∧ hnf 1 3 4 0 0 1 ∉ sm_33 id 4 ∧
    (sm_33 id 4).length = 23 := by decide +kernel

/-- C28: `sm_34` lists every Hermite normal form of determinant `n` that keeps the symmetry of Niggli
class 34, only those, and each once. -/
theorem sm_34_correct (n : ℤ) (Co : IMat) (hCo : reducedCanonical ℚ 34 = .ok Co) :
    (sm_34 n).Nodup ∧
      ∀ H : IntMat, H ∈ sm_34 n ↔ H ∈ SymmetricHNFs (ClassSym 34 Co.toMat) n := by
  refine ⟨sm_34_nodup n, ?_⟩
  rw [reduced_34] at hCo
  cases hCo
  intro H
  rw [sym_34, sm_34_mem]
  simp [ops_sm_34, IMat.toMat]

example : reducedCanonical ℚ 34 = .ok (canonC 34) := reduced_34
example : hnf 1 1 2 1 1 2 ∈ sm_34 4 ∧ hnf 1 0 1 3 3 4 ∉ sm_34 4 ∧
    (sm_34 4).length = 23 := by decide +kernel

/-- C29: `sm_35` lists every Hermite normal form of determinant `n` that keeps the symmetry of Niggli
class 35, only those, and each once. -/
theorem sm_35_correct (n : ℤ) (Co : IMat) (hCo : reducedCanonical ℚ 35 = .ok Co) :
    (sm_35 n).Nodup ∧
      ∀ H : IntMat, H ∈ sm_35 n ↔ H ∈ SymmetricHNFs (ClassSym 35 Co.toMat) n := by
  refine ⟨sm_35_nodup n, ?_⟩
  rw [reduced_35] at hCo
  cases hCo
  intro H
  rw [sym_35, sm_35_mem]
  simp [ops_sm_35, IMat.toMat]

example : reducedCanonical ℚ 35 = .ok (canonC 35) := reduced_35
example : hnf 1 1 2 1 1 2 ∈ sm_35 4 ∧ hnf 1 0 1 3 3 4 ∉ sm_35 4 ∧
    (sm_35 4).length = 23 := by decide +kernel

/-- C30: for the triclinic classes 31 and 44 every Hermite normal form of determinant `n` is listed
once, and all of them keep the symmetry of the class in any basis. -/
theorem tric_31_44_correct (k : ℕ) (hk : k ∈ [31, 44]) (n : ℤ) (Co : IntMat)
    (hCo : Co.det = 1 ∨ Co.det = -1) :
    (tric_31_44 n).Nodup ∧
      (∀ H : IntMat, H ∈ tric_31_44 n ↔ IsHNF H ∧ H.det = n) ∧
      ∀ H : IntMat, H ∈ tric_31_44 n ↔ H ∈ SymmetricHNFs (ClassSym k Co) n := by
  refine ⟨tric_31_44_nodup n, fun H => tric_31_44_mem, fun H => ?_⟩
  have hu : IsUnit Co.det := Int.isUnit_iff.2 hCo
  have key : ∀ X ∈ ClassSym k Co, X = 1 ∨ X = -1 := by
    intro X hX
    simp only [List.mem_cons, List.not_mem_nil, or_false] at hk
    rcases hk with rfl | rfl
    · exact classSym_trivial (M := ⟨8, 12, 12, 4, 1, 2⟩) (by decide +kernel) (by decide +kernel)
        (by witness_red) (by witness_class) hu hX
    · exact classSym_trivial (M := ⟨10, 16, 16, -3, -1, -3⟩) (by decide +kernel)
        (by decide +kernel) (by witness_red) (by witness_class) hu hX
  rw [tric_31_44_mem]
  constructor
  · rintro ⟨h1, h2⟩
    refine ⟨h1, h2, fun X hX => ?_⟩
    rcases key X hX with rfl | rfl
    · exact Keeps.one H
    · exact Keeps.neg_one H
  · rintro ⟨h1, h2, -⟩
    exact ⟨h1, h2⟩

example : (!![2, 1, 0; 1, 1, 0; 0, 3, 1] : IntMat).det = 1 := by decide
example : hnf 1 1 2 1 2 3 ∈ tric_31_44 6 ∧ (tric_31_44 6).length = 91 := by decide +kernel

end AutoGR
