import Verif.Props.RoundedBasis

/-!
# C120: the canonical bases of `niggli.f90` can be reduced in floating point

`id_cell` reduces the canonical basis of the class it has found.  `reduce_cell` stops the program if 1000 passes are not
enough or if its result does not pass `condition_check`.  The check asks `x < y - eps` or `|x - y| < eps`, so it fails for a
tolerance that is equal to a difference `y - x` of the cell.
-/

namespace AutoGR

open Spec Arith Matrix Fortran

/-- The tolerances for which `reduce_cell` may stop on the basis of class `k`: nine short intervals. -/
def criticalTol : ℕ → List (ℚ × ℚ)
  | 4 => [(138 / 10 ^ 7, 141 / 10 ^ 7)]
  | 6 => [(108 / 10 ^ 7, 109 / 10 ^ 7), (121 / 10 ^ 7, 123 / 10 ^ 7)]
  | 16 => [(11597 / 10 ^ 7, 11598 / 10 ^ 7), (15887 / 10 ^ 7, 15888 / 10 ^ 7), (41610 / 10 ^ 7, 41612 / 10 ^ 7)]
  | 24 => [(187 / 10 ^ 7, 188 / 10 ^ 7)]
  | 36 => [(1000 / 10 ^ 8, 1005 / 10 ^ 8)]
  | _ => []

theorem runs_4a : storedRuns 4 (99 / 10 ^ 7) (138 / 10 ^ 7) = true := by decide +kernel
theorem runs_4b : storedRuns 4 (141 / 10 ^ 7) (1 / 10) = true := by decide +kernel
theorem runs_6a : storedRuns 6 (99 / 10 ^ 7) (108 / 10 ^ 7) = true := by decide +kernel
theorem runs_6b : storedRuns 6 (109 / 10 ^ 7) (121 / 10 ^ 7) = true := by decide +kernel
theorem runs_6c : storedRuns 6 (123 / 10 ^ 7) (1 / 10) = true := by decide +kernel
theorem runs_16a : storedRuns 16 (99 / 10 ^ 7) (11597 / 10 ^ 7) = true := by decide +kernel
theorem runs_16b : storedRuns 16 (11598 / 10 ^ 7) (15887 / 10 ^ 7) = true := by decide +kernel
theorem runs_16c : storedRuns 16 (15888 / 10 ^ 7) (41610 / 10 ^ 7) = true := by decide +kernel
theorem runs_16d : storedRuns 16 (41612 / 10 ^ 7) (1 / 10) = true := by decide +kernel
theorem runs_24a : storedRuns 24 (99 / 10 ^ 7) (187 / 10 ^ 7) = true := by decide +kernel
theorem runs_24b : storedRuns 24 (188 / 10 ^ 7) (1 / 10) = true := by decide +kernel
theorem runs_36a : storedRuns 36 (99 / 10 ^ 7) (1000 / 10 ^ 8) = true := by decide +kernel
theorem runs_36b : storedRuns 36 (1005 / 10 ^ 8) (1 / 10) = true := by decide +kernel

theorem runs_other : ∀ k ∈ [1, 2, 3, 5, 7, 8, 9, 10, 11, 12, 13, 14, 15, 17, 18, 19, 20, 21, 22, 23, 25, 26, 27, 28, 29, 30,
    32, 33, 34, 35, 37, 38, 39, 40, 41, 42, 43], storedRuns k (99 / 10 ^ 7) (1 / 10) = true := by
  decide +kernel

section
variable {K : Type} [Arith K] {val : K → ℝ} {η : ℝ}

/-- C120: in any arithmetic whose sums, products and literals up to 1000 are wrong by at most `2e-13`, for every tolerance
from `9.9e-6` to `0.1` outside the critical intervals, `reduce_cell` returns a result for the canonical basis of every
class: it ends, and the result passes `condition_check`.  `equal` must not take a volume of `0.1` for zero. -/
theorem canonical_reduced_partial (equal : K → K → K → Bool)
    (hE : ∀ x : K, 1 / 10 ≤ |val x| → equal x (ofInt 0) (ofRat (1 / 1000000)) = false)
    (hK : Accurate K val 1000 η) (hη : η ≤ 2 / 10 ^ 13) (k : ℕ) (O : RMat K) (hO : fBasis k = some O) (eps : K)
    (h1 : 99 / 10000000 ≤ val eps) (h2 : val eps ≤ 1 / 10)
    (hc : ∀ w ∈ criticalTol k, val eps ≤ (w.1 : ℝ) ∨ (w.2 : ℝ) ≤ val eps) :
    ∃ Co, reduceCell equal O (some eps) = .ok Co := by
  have l1 : (((99 / 10 ^ 7 : ℚ)) : ℝ) ≤ val eps := by push_cast; linarith
  have l2 : val eps ≤ (((1 / 10 : ℚ)) : ℝ) := by push_cast; exact h2
  have go {a b : ℚ} (hs : storedRuns k a b = true) (ha : 1 / 10 ^ 6 ≤ a) (hb : b ≤ 1) (h1 : (a : ℝ) ≤ val eps)
      (h2 : val eps ≤ b) := stored_runs (equal := equal) hK hη hs hO ha hb h1 h2 hE
  by_cases hk : k ∈ [1, 2, 3, 5, 7, 8, 9, 10, 11, 12, 13, 14, 15, 17, 18, 19, 20, 21, 22, 23, 25, 26, 27, 28, 29, 30,
    32, 33, 34, 35, 37, 38, 39, 40, 41, 42, 43]
  · exact go (runs_other k hk) (by norm_num) (by norm_num) l1 l2
  have hk' : k = 4 ∨ k = 6 ∨ k = 16 ∨ k = 24 ∨ k = 36 := by
    unfold fBasis at hO
    split at hO <;> first | (cases hO; done) | (exact absurd (by decide) hk) | simp
  rcases hk' with rfl | rfl | rfl | rfl | rfl
  · rcases hc _ (.head _) with h | h
    · exact go runs_4a (by norm_num) (by norm_num) l1 h
    · exact go runs_4b (by norm_num) (by norm_num) h l2
  · rcases hc _ (.head _) with h | h
    · exact go runs_6a (by norm_num) (by norm_num) l1 h
    rcases hc _ (.tail _ (.head _)) with h' | h'
    · exact go runs_6b (by norm_num) (by norm_num) h h'
    · exact go runs_6c (by norm_num) (by norm_num) h' l2
  · rcases hc _ (.head _) with h | h
    · exact go runs_16a (by norm_num) (by norm_num) l1 h
    rcases hc _ (.tail _ (.head _)) with h' | h'
    · exact go runs_16b (by norm_num) (by norm_num) h h'
    rcases hc _ (.tail _ (.tail _ (.head _))) with h | h
    · exact go runs_16c (by norm_num) (by norm_num) h' h
    · exact go runs_16d (by norm_num) (by norm_num) h l2
  · rcases hc _ (.head _) with h | h
    · exact go runs_24a (by norm_num) (by norm_num) l1 h
    · exact go runs_24b (by norm_num) (by norm_num) h l2
  · rcases hc _ (.head _) with h | h
    · exact go runs_36a (by norm_num) (by norm_num) l1 h
    · exact go runs_36b (by norm_num) (by norm_num) h l2

end

/-- C120 in binary64. -/
theorem canonical_reduced_binary64_partial {fl : ℚ → ℚ} (hfl : Binary64 fl)
    (equal : Rounded fl → Rounded fl → Rounded fl → Bool)
    (hE : ∀ x : Rounded fl, 1 / 10 ≤ |x.q| → equal x (ofInt 0) (ofRat (1 / 1000000)) = false)
    (k : ℕ) (O : RMat (Rounded fl)) (hO : fBasis k = some O) (eps : Rounded fl)
    (h1 : 99 / 10000000 ≤ eps.q) (h2 : eps.q ≤ 1 / 10) (hc : ∀ w ∈ criticalTol k, eps.q ≤ w.1 ∨ w.2 ≤ eps.q) :
    ∃ Co, reduceCell equal O (some eps) = .ok Co := by
  have cast {a b : ℚ} (h : a ≤ b) : (a : ℝ) ≤ b := by exact_mod_cast h
  refine canonical_reduced_partial equal (fun x hx => hE x ?_)
    (accurate_rounded hfl (M := 1000) (by norm_num) (by norm_num)) (by norm_num) k O hO eps ?_ ?_ (fun w hw => ?_)
  · rw [← Rat.cast_le (K := ℝ)]
    push_cast
    exact hx
  · have := cast h1
    push_cast at this
    exact this
  · have := cast h2
    push_cast at this
    exact this
  · exact (hc w hw).imp cast cast

/-- The hypotheses are met with the default tolerance of the driver, and `equal` as the comparison of the difference. -/
example (k : ℕ) (O : RMat (Rounded roundNearest)) (hO : fBasis k = some O) :
    ∃ Co, reduceCell (fun a b e => decide (|a.q - b.q| ≤ e.q)) O (some ⟨roundNearest (1 / 1000)⟩) = .ok Co := by
  have e0 : (ofInt 0 : Rounded roundNearest).q = 0 := by decide +kernel
  have e1 : (ofRat (1 / 1000000) : Rounded roundNearest).q < 1 / 10 := by decide +kernel
  have e2 : 99 / 10000000 ≤ roundNearest (1 / 1000) := by decide +kernel
  have e3 : roundNearest (1 / 1000) ≤ 1 / 10 := by decide +kernel
  have e4 : 188 / 10 ^ 7 ≤ roundNearest (1 / 1000) := by decide +kernel
  have e5 : roundNearest (1 / 1000) ≤ 11597 / 10 ^ 7 := by decide +kernel
  refine canonical_reduced_binary64_partial roundNearest_binary64 _ (fun x hx => ?_) k O hO _ e2 e3 (fun w hw => ?_)
  · rw [decide_eq_false_iff_not, e0, sub_zero]
    linarith
  · dsimp only
    generalize roundNearest (1 / 1000) = t at e2 e3 e4 e5
    unfold criticalTol at hw
    split at hw <;> simp only [List.mem_cons, List.not_mem_nil, or_false] at hw
    · subst hw; right; norm_num at *; linarith
    · rcases hw with rfl | rfl <;> right <;> norm_num at * <;> linarith
    · rcases hw with rfl | rfl | rfl <;> left <;> norm_num at * <;> linarith
    · subst hw; right; norm_num at *; linarith
    · subst hw; right; norm_num at *; linarith

/-- Without the exclusion C120 is false: with the tolerance `1.159737238008116e-3` the program stops in binary64 because
the reduced basis of class 16 does not pass `condition_check`. -/
theorem canonical_class_16_stops : ∃ O : RMat (Rounded roundNearest), fBasis 16 = some O ∧
    reduceCell (fun a b e => decide (|a.q - b.q| ≤ e.q)) O (some ⟨roundNearest (1159737238008116 / 10 ^ 18)⟩) =
      .error .conditions :=
  ⟨_, rfl, by decide +kernel⟩

section
variable {K : Type} [Arith K] {IN : RMat K} {τ : K}

/-- If the passes lead from one matrix of `S` to another, the loop does not end. -/
theorem loop_cycle {S : List IMat} (h1 : IMat.one ∉ S)
    (h : ∀ T ∈ S, (fPass IN τ ⟨T, fGetParams (matmulI IN T) τ⟩).1.trans ∈ S ∧
      (fPass IN τ ⟨T, fGetParams (matmulI IN T) τ⟩).2 = false) (fuel : ℕ) :
    ∀ (count : ℕ) (st : FState K), Reach IN τ st → st.trans ∈ S → (fLoop IN τ fuel count st).2 = count + fuel := by
  induction fuel with
  | zero => intro count st _ _; rfl
  | succ fuel ih =>
    intro count st hr hS
    have hst : st = ⟨st.trans, fGetParams (matmulI IN st.trans) τ⟩ := by
      rcases hr.params with hp | ⟨hp, _⟩
      · cases st; simpa using hp
      · exact absurd (hp ▸ hS) h1
    have hp := h _ hS
    rw [← hst] at hp
    have hr' := hr.pass
    rw [fLoop]
    revert hp hr'
    generalize fPass IN τ st = q
    rcases q with ⟨st', b⟩
    rintro ⟨h2, h3⟩ hr'
    subst h3
    dsimp only at h2 hr' ⊢
    rw [ih (count + 1) st' hr' h2]
    omega

/-- Then `reduce_cell` stops after 1000 passes. -/
theorem reduceCell_cycle {equal : K → K → K → Bool} {eps : K} {S : List IMat}
    (h0 : equal (rdet IN) (ofInt 0) (ofRat (1 / 1000000)) = false) (h1 : IMat.one ∉ S)
    (hs : (fPass IN (cellTol IN eps) ⟨IMat.one, fGetParams IN (cellTol IN eps)⟩).1.trans ∈ S ∧
      (fPass IN (cellTol IN eps) ⟨IMat.one, fGetParams IN (cellTol IN eps)⟩).2 = false)
    (h : ∀ T ∈ S, (fPass IN (cellTol IN eps) ⟨T, fGetParams (matmulI IN T) (cellTol IN eps)⟩).1.trans ∈ S ∧
      (fPass IN (cellTol IN eps) ⟨T, fGetParams (matmulI IN T) (cellTol IN eps)⟩).2 = false) :
    reduceCell equal IN (some eps) = .error .iterations := by
  have hl : (fLoop IN (cellTol IN eps) 1001 0 ⟨IMat.one, fGetParams IN (cellTol IN eps)⟩).2 = 1001 := by
    rw [show 1001 = 1000 + 1 from rfl, fLoop]
    have hr' := (reach_start (IN := IN) (τ := cellTol IN eps)).pass
    revert hs hr'
    generalize fPass IN (cellTol IN eps) ⟨IMat.one, fGetParams IN (cellTol IN eps)⟩ = q
    rcases q with ⟨st', b⟩
    rintro ⟨h2, h3⟩ hr'
    subst h3
    dsimp only at h2 hr' ⊢
    rw [loop_cycle h1 h 1000 (0 + 1) st' hr' h2]
  obtain ⟨st, count, hq⟩ : ∃ s count, fLoop IN (mul eps (cbrt (abs (rdet IN)))) 1001 0
      ⟨⟨1, 0, 0, 0, 1, 0, 0, 0, 1⟩, fGetParams IN (mul eps (cbrt (abs (rdet IN))))⟩ = (s, count) := ⟨_, _, rfl⟩
  have hq' : fLoop IN (cellTol IN eps) 1001 0 ⟨IMat.one, fGetParams IN (cellTol IN eps)⟩ = (st, count) := hq
  rw [hq'] at hl
  dsimp only at hl
  unfold reduceCell
  simp only [hq]
  rw [if_neg (by rw [h0]; simp), if_pos (by omega)]

end

/-- With the tolerance `1.2186625465288e-5` the reduction of the basis of class 6 does not end in binary64: step 2
exchanges the same two edges in every pass, because each of them seems longer when it stands second.  The program stops
after 1000 passes. -/
theorem canonical_class_6_stops : ∃ O : RMat (Rounded roundNearest), fBasis 6 = some O ∧
    reduceCell (fun a b e => decide (|a.q - b.q| ≤ e.q)) O (some ⟨roundNearest (12186625465288 / 10 ^ 18)⟩) =
      .error .iterations :=
  ⟨_, rfl, reduceCell_cycle
    (S := [⟨1, 0, 1, 0, -1, 0, 0, 0, -1⟩, ⟨-1, -1, 0, 0, 0, 1, 0, 1, 0⟩, ⟨1, 1, -1, 0, 0, 1, 0, -1, 1⟩,
      ⟨1, -1, 1, 0, 0, -1, 0, 1, -1⟩, ⟨-1, -1, 1, 0, 1, 0, 0, 1, -1⟩])
    (by decide +kernel) (by decide) (by decide +kernel) (by decide +kernel)⟩

end AutoGR
