import Verif.Lemmas.RoundedBasis
import Verif.Lemmas.RoundedArith
import Verif.Props.FortranBasis
import Verif.Props.Float

/-!
# C118: the canonical bases of `niggli.f90` in floating point

`id_cell` reduces the canonical basis of the class it has found with the tolerance of the user, in floating point.  The
bases are typed in with a few decimals: their edges are equal and their angles right only up to about `1e-5`, which is
also the size of the smallest tolerances, so the course of the reduction depends on the tolerance and on the rounding.
-/

namespace AutoGR

open Spec Arith Matrix Fortran

/-- The transformations that can be found for the basis of class `k`. -/
def storedGood (k : ℕ) : List IMat :=
  match k with
  | 4 => [canonC 4, mulC (canonC 4) ⟨0, -1, 0, -1, 0, 0, 0, 0, -1⟩]
  | 6 => [canonC 6, mulC (canonC 6) ⟨-1, 0, 1, 0, -1, 1, 0, 0, 1⟩]
  | 16 => [canonC 16, mulC (canonC 16) ⟨-1, 0, 1, 0, -1, 1, 0, 0, 1⟩, mulC (canonC 16) ⟨0, 1, -1, 1, 0, -1, 0, 0, -1⟩]
  | 24 => [canonC 24, mulC (canonC 24) ⟨1, 0, -1, 0, 0, -1, 0, 1, -1⟩, mulC (canonC 24) ⟨-1, 0, 0, 0, 0, -1, 0, -1, 0⟩]
  | k => [canonC k]

section
variable {K : Type} [Arith K] {val : K → ℝ} {η : ℝ}

/-- C118: the transformation that `reduce_cell` finds for the canonical basis of class `k` is one of at most three. -/
theorem reduceCell_stored (equal : K → K → K → Bool) (hK : Accurate K val 1000 η) (hη : η ≤ 2 / 10 ^ 13) (k : ℕ)
    (O : RMat K) (hO : fBasis k = some O) (eps : K) (h1 : 99 / 10000000 ≤ val eps) (h2 : val eps ≤ 1 / 10)
    (h6 : k = 6 → val eps ≤ 27 / 2500000 ∨ 123 / 10000000 ≤ val eps) (Co : IMat)
    (h : reduceCell equal O (some eps) = .ok Co) : Co ∈ storedGood k := by
  have l1 : (((99 / 10000000 : ℚ)) : ℝ) ≤ val eps := by push_cast; exact h1
  have l2 : val eps ≤ (((1 / 10 : ℚ)) : ℝ) := by push_cast; exact h2
  have a1 : (1 : ℚ) / 10 ^ 6 ≤ 99 / 10000000 := by norm_num
  have a2 : (1 : ℚ) / 10 ≤ 1 := by norm_num
  unfold fBasis at hO
  split at hO
  · exact stored_mem hK hη stored_1 hO a1 a2 l1 l2 h
  · exact stored_mem hK hη stored_2 hO a1 a2 l1 l2 h
  · exact stored_mem hK hη stored_3 hO a1 a2 l1 l2 h
  · exact stored_mem hK hη stored_4 hO a1 a2 l1 l2 h
  · exact stored_mem hK hη stored_5 hO a1 a2 l1 l2 h
  · rcases h6 rfl with h6 | h6
    · have := stored_mem hK hη stored_6a hO a1 (by norm_num) l1 (by push_cast; exact h6) h
      rw [List.mem_singleton.1 this]
      simp [storedGood]
    · have := stored_mem hK hη stored_6b hO (by norm_num) a2 (by push_cast; exact h6) l2 h
      rw [List.mem_singleton.1 this]
      simp [storedGood]
  · exact stored_mem hK hη stored_7 hO a1 a2 l1 l2 h
  · exact stored_mem hK hη stored_8 hO a1 a2 l1 l2 h
  · exact stored_mem hK hη stored_9 hO a1 a2 l1 l2 h
  · exact stored_mem hK hη stored_10 hO a1 a2 l1 l2 h
  · exact stored_mem hK hη stored_11 hO a1 a2 l1 l2 h
  · exact stored_mem hK hη stored_12 hO a1 a2 l1 l2 h
  · exact stored_mem hK hη stored_13 hO a1 a2 l1 l2 h
  · exact stored_mem hK hη stored_14 hO a1 a2 l1 l2 h
  · exact stored_mem hK hη stored_15 hO a1 a2 l1 l2 h
  · exact stored_mem hK hη stored_16 hO a1 a2 l1 l2 h
  · exact stored_mem hK hη stored_17 hO a1 a2 l1 l2 h
  · exact stored_mem hK hη stored_18 hO a1 a2 l1 l2 h
  · exact stored_mem hK hη stored_19 hO a1 a2 l1 l2 h
  · exact stored_mem hK hη stored_20 hO a1 a2 l1 l2 h
  · exact stored_mem hK hη stored_21 hO a1 a2 l1 l2 h
  · exact stored_mem hK hη stored_22 hO a1 a2 l1 l2 h
  · exact stored_mem hK hη stored_23 hO a1 a2 l1 l2 h
  · exact stored_mem hK hη stored_24 hO a1 a2 l1 l2 h
  · exact stored_mem hK hη stored_25 hO a1 a2 l1 l2 h
  · exact stored_mem hK hη stored_26 hO a1 a2 l1 l2 h
  · exact stored_mem hK hη stored_27 hO a1 a2 l1 l2 h
  · exact stored_mem hK hη stored_28 hO a1 a2 l1 l2 h
  · exact stored_mem hK hη stored_29 hO a1 a2 l1 l2 h
  · exact stored_mem hK hη stored_30 hO a1 a2 l1 l2 h
  · exact stored_mem hK hη stored_32 hO a1 a2 l1 l2 h
  · exact stored_mem hK hη stored_33 hO a1 a2 l1 l2 h
  · exact stored_mem hK hη stored_34 hO a1 a2 l1 l2 h
  · exact stored_mem hK hη stored_35 hO a1 a2 l1 l2 h
  · exact stored_mem hK hη stored_36 hO a1 a2 l1 l2 h
  · exact stored_mem hK hη stored_37 hO a1 a2 l1 l2 h
  · exact stored_mem hK hη stored_38 hO a1 a2 l1 l2 h
  · exact stored_mem hK hη stored_39 hO a1 a2 l1 l2 h
  · exact stored_mem hK hη stored_40 hO a1 a2 l1 l2 h
  · exact stored_mem hK hη stored_41 hO a1 a2 l1 l2 h
  · exact stored_mem hK hη stored_42 hO a1 a2 l1 l2 h
  · exact stored_mem hK hη stored_43 hO a1 a2 l1 l2 h
  · cases hO

/-- All of them give the class the same symmetries. -/
theorem storedGood_sym {k : ℕ} {Co : IMat} (h : Co ∈ storedGood k) :
    ClassSym k Co.toMat = ClassSym k (canonC k).toMat := by
  unfold storedGood at h
  split at h <;> simp only [List.mem_cons, List.not_mem_nil, or_false] at h
  · rcases h with rfl | rfl
    · rfl
    · exact classSym_fix4
  · rcases h with rfl | rfl
    · rfl
    · exact classSym_fix6
  · rcases h with rfl | rfl | rfl
    · rfl
    · exact classSym_fix16a
    · exact classSym_fix16b
  · rcases h with rfl | rfl | rfl
    · rfl
    · exact classSym_fix24a
    · exact classSym_fix24b
  · rw [h]

/-- C118: in any arithmetic whose sums, products and literals up to 1000 are wrong by at most `2e-13` (binary64 is one,
see below), for every tolerance from `9.9e-6` to `0.1`, the transformation that `reduce_cell` finds for the canonical
basis of a class gives the class the same symmetries as the transformation the generators are made for
(`reducedCanonical`, C51).  For class 6 the tolerances between `1.08e-5` and `1.23e-5` are excluded; there it is false
also in exact arithmetic (`canonical_class_6`). -/
theorem canonical_rounded_partial (equal : K → K → K → Bool) (hK : Accurate K val 1000 η) (hη : η ≤ 2 / 10 ^ 13)
    (k : ℕ) (O : RMat K) (hO : fBasis k = some O) (eps : K) (h1 : 99 / 10000000 ≤ val eps) (h2 : val eps ≤ 1 / 10)
    (h6 : k = 6 → val eps ≤ 27 / 2500000 ∨ 123 / 10000000 ≤ val eps) (Co : IMat)
    (h : reduceCell equal O (some eps) = .ok Co) (Cp : IMat) (hp : reducedCanonical ℚ k = .ok Cp) :
    ClassSym k Co.toMat = ClassSym k Cp.toMat := by
  have hm := reduceCell_stored equal hK hη k O hO eps h1 h2 h6 Co h
  have hk : 1 ≤ k ∧ k ≤ 44 ∧ k ∉ [31, 44] := by
    unfold fBasis at hO
    split at hO <;> first | (cases hO; done) | decide
  rw [reduced_canonC k hk.1 hk.2.1 hk.2.2] at hp
  cases hp
  exact storedGood_sym hm

end

/-- C118 in binary64. -/
theorem canonical_binary64_partial {fl : ℚ → ℚ} (hfl : Binary64 fl)
    (equal : Rounded fl → Rounded fl → Rounded fl → Bool) (k : ℕ) (O : RMat (Rounded fl)) (hO : fBasis k = some O)
    (eps : Rounded fl) (h1 : 99 / 10000000 ≤ eps.q) (h2 : eps.q ≤ 1 / 10)
    (h6 : k = 6 → eps.q ≤ 27 / 2500000 ∨ 123 / 10000000 ≤ eps.q) (Co : IMat)
    (h : reduceCell equal O (some eps) = .ok Co) (Cp : IMat) (hp : reducedCanonical ℚ k = .ok Cp) :
    ClassSym k Co.toMat = ClassSym k Cp.toMat := by
  have cast {a b : ℚ} (h : a ≤ b) : (a : ℝ) ≤ b := by exact_mod_cast h
  refine canonical_rounded_partial equal (accurate_rounded hfl (M := 1000) (by norm_num) (by norm_num)) (by norm_num) k O hO
    eps ?_ ?_ ?_ Co h Cp hp
  · have := cast h1
    push_cast at this
    exact this
  · have := cast h2
    push_cast at this
    exact this
  · intro hk
    refine (h6 hk).imp (fun a => ?_) (fun a => ?_)
    · have := cast a
      push_cast at this
      exact this
    · have := cast a
      push_cast at this
      exact this

/-- The hypotheses of `canonical_binary64_partial` are met in binary64 with rounding to nearest and the driver's default
tolerance: the basis of class 16 is reduced, with a transformation that is not the one of the generators. -/
example : ∃ O : RMat (Rounded roundNearest), fBasis 16 = some O ∧
    reduceCell (fun a b e => decide (|a.q - b.q| ≤ e.q)) O (some ⟨roundNearest (1 / 1000)⟩) =
      .ok ⟨0, 0, 1, 1, -1, 0, 0, 1, -1⟩ ∧
    (⟨0, 0, 1, 1, -1, 0, 0, 1, -1⟩ : IMat) ≠ canonC 16 ∧ Binary64 roundNearest ∧
    99 / 10000000 ≤ roundNearest (1 / 1000) ∧ roundNearest (1 / 1000) ≤ 1 / 10 :=
  ⟨_, rfl, by decide +kernel, by decide, roundNearest_binary64, by decide +kernel, by decide +kernel⟩

end AutoGR
