import Verif.Lemmas.FortranBuf

/-!
# C58, C60: 32-bit integers and fixed buffers in the Fortran generators
-/

namespace AutoGR.Fortran

open Spec

/-- C60: `get_HNF_diagonals` stores at most `3 n` triples, the number of columns of `tempDiag`. -/
theorem tempDiag_fits (n : ℤ) (hn : 0 ≤ n) : ((get_HNF_diagonals n).length : ℤ) ≤ 3 * n := by
  lift n to ℕ using hn
  have h1 := diag_length n
  have h2 := d3_bound n
  omega

/-- The bound is met within a factor of two, so the buffer could not be much smaller. -/
example : (get_HNF_diagonals 12).length = 18 := by decide +kernel

/-- C60: with `all_hnfs`, no subroutine stores more matrices in `temp_HNFs` than were allocated. -/
theorem temp_HNFs_fits {w : ℤ → ℤ} (n : ℤ) (hf : IntsFit w n) :
    ∀ l ∈ tableGenerators w n, (l.length : ℤ) ≤ total_hnfs w n := by
  have key : ∀ l : List IntMat, (l.Nodup ∧ ∃ S, ∀ H : IntMat, H ∈ l ↔ H ∈ SymmetricHNFs S n) →
      (l.length : ℤ) ≤ total_hnfs w n := by
    rintro l ⟨hd, S, hS⟩
    rw [total_eq hf]
    have hsub : l ⊆ tric_31_44 n := fun H hH => by
      have h := (hS H).1 hH
      exact ((tric_31_44_correct 44 (by simp) n 1 (Or.inl (by simp))).2.1 H).2 ⟨h.1, h.2.1⟩
    exact_mod_cast (hd.subperm hsub).length_le
  intro l hl
  refine key l ?_
  simp only [tableGenerators, List.mem_cons, List.not_mem_nil, or_false] at hl
  rcases hl with rfl | rfl | rfl | rfl | rfl | rfl | rfl | rfl | rfl | rfl | rfl | rfl | rfl | rfl |
    rfl | rfl | rfl | rfl | rfl | rfl | rfl | rfl | rfl | rfl
  · exact ⟨(hex_12_correct n hf _ reduced_12).1, _, (hex_12_correct n hf _ reduced_12).2⟩
  · exact ⟨(hex_22_correct n hf _ reduced_22).1, _, (hex_22_correct n hf _ reduced_22).2⟩
  · exact ⟨(rhom_9_24_correct 9 (by simp) n hf _ reduced_9).1, _,
      (rhom_9_24_correct 9 (by simp) n hf _ reduced_9).2⟩
  · exact ⟨(rhom_4_2_correct 4 (by simp) n hf _ reduced_4).1, _,
      (rhom_4_2_correct 4 (by simp) n hf _ reduced_4).2⟩
  · exact ⟨(st_11_correct n hf _ reduced_11).1, _, (st_11_correct n hf _ reduced_11).2⟩
  · exact ⟨(st_21_correct n hf _ reduced_21).1, _, (st_21_correct n hf _ reduced_21).2⟩
  · exact ⟨(bct_6_7_15_18_correct 6 (by simp) n hf _ reduced_6).1, _,
      (bct_6_7_15_18_correct 6 (by simp) n hf _ reduced_6).2⟩
  · exact ⟨(so_32_correct n hf _ reduced_32).1, _, (so_32_correct n hf _ reduced_32).2⟩
  · exact ⟨(fco_26_correct n hf _ reduced_26).1, _, (fco_26_correct n hf _ reduced_26).2⟩
  · exact ⟨(fco_16_correct n hf _ reduced_16).1, _, (fco_16_correct n hf _ reduced_16).2⟩
  · exact ⟨(bco_19_correct n hf _ reduced_19).1, _, (bco_19_correct n hf _ reduced_19).2⟩
  · exact ⟨(bco_8_correct n hf _ reduced_8).1, _, (bco_8_correct n hf _ reduced_8).2⟩
  · exact ⟨(bco_42_correct n hf _ reduced_42).1, _, (bco_42_correct n hf _ reduced_42).2⟩
  · exact ⟨(baseco_38_13_correct 38 (by simp) n hf _ reduced_38).1, _,
      (baseco_38_13_correct 38 (by simp) n hf _ reduced_38).2⟩
  · exact ⟨(baseco_23_correct n hf _ reduced_23).1, _, (baseco_23_correct n hf _ reduced_23).2⟩
  · exact ⟨(baseco_40_correct n hf _ reduced_40).1, _, (baseco_40_correct n hf _ reduced_40).2⟩
  · exact ⟨(baseco_36_correct n hf _ reduced_36).1, _, (baseco_36_correct n hf _ reduced_36).2⟩
  · exact ⟨(sm_33_correct n hf _ reduced_33).1, _, (sm_33_correct n hf _ reduced_33).2⟩
  · exact ⟨(sm_34_35_correct_34 n _ reduced_34).1, _, (sm_34_35_correct_34 n _ reduced_34).2⟩
  · exact ⟨(basecm_10_14_17_27_37_39_41_correct 10 (by simp) n hf _ reduced_10).1, _,
      (basecm_10_14_17_27_37_39_41_correct 10 (by simp) n hf _ reduced_10).2⟩
  · exact ⟨(basecm_20_25_correct 20 (by simp) n hf _ reduced_20).1, _,
      (basecm_20_25_correct 20 (by simp) n hf _ reduced_20).2⟩
  · exact ⟨(basecm_28_correct n hf _ reduced_28).1, _, (basecm_28_correct n hf _ reduced_28).2⟩
  · exact ⟨(basecm_29_30_correct 29 (by simp) n hf _ reduced_29).1, _,
      (basecm_29_30_correct 29 (by simp) n hf _ reduced_29).2⟩
  · exact ⟨(basecm_43_correct n hf _ reduced_43).1, _, (basecm_43_correct n hf _ reduced_43).2⟩

example : total_hnfs wrap32 12 = 455 ∧ (hex_12 wrap32 12).length = 4 := by decide +kernel

/-- C60: the check `ihnf /= nhnfs` of `tric_31_44` never stops the program, even when the counters
wrap around. -/
theorem tric_count (n : ℤ) : tric_ihnf wrap32 n = tric_nhnfs wrap32 n := by
  have wm : ∀ x : ℤ, (wrap32 x) % 2 ^ 32 = x % 2 ^ 32 := fun x => by unfold wrap32; omega
  have we : ∀ x y : ℤ, x % 2 ^ 32 = y % 2 ^ 32 → wrap32 x = wrap32 y := fun x y h => by
    unfold wrap32; omega
  have h1 : ∀ (l : List IntMat) (t : ℤ), wrap32 t = t →
      l.foldl (fun t _ => iadd wrap32 t 1) t = wrap32 (t + l.length) := by
    intro l
    induction l with
    | nil => intro t ht; simp [ht]
    | cons x l ih =>
      intro t ht
      rw [List.foldl_cons, ih _ (by unfold iadd; exact we _ _ (wm _))]
      refine we _ _ ?_
      have := wm (t + 1)
      unfold iadd
      push_cast [List.length_cons]
      omega
  have h2 : ∀ (l : List (ℤ × ℤ × ℤ)) (t : ℤ), wrap32 t = t →
      l.foldl (fun t (x : ℤ × ℤ × ℤ) =>
        iadd wrap32 t (imul wrap32 x.2.1 (imul wrap32 x.2.2 x.2.2))) t =
      wrap32 (t + (l.map fun x => x.2.1 * (x.2.2 * x.2.2)).sum) := by
    intro l
    induction l with
    | nil => intro t ht; simp [ht]
    | cons x l ih =>
      intro t ht
      rw [List.foldl_cons, ih _ (by unfold iadd; exact we _ _ (wm _))]
      refine we _ _ ?_
      have e1 := wm (t + imul wrap32 x.2.1 (imul wrap32 x.2.2 x.2.2))
      have e2 : imul wrap32 x.2.1 (imul wrap32 x.2.2 x.2.2) % 2 ^ 32 =
          (x.2.1 * (x.2.2 * x.2.2)) % 2 ^ 32 := by
        unfold imul
        rw [wm, Int.mul_emod, wm, ← Int.mul_emod]
      unfold iadd
      rw [List.map_cons, List.sum_cons]
      omega
  unfold tric_ihnf tric_nhnfs
  rw [h1 _ 0 (by decide), h2 _ 0 (by decide), tric_length_eq]

example : tric_nhnfs wrap32 12 = 455 := by decide +kernel

theorem mem_basecm_28 {w : ℤ → ℤ} {n : ℤ} {a b c d e f : ℤ} :
    hnf a b c d e f ∈ basecm_28 w n ↔
    (a, c, f) ∈ get_HNF_diagonals n ∧ MOD f c = 0 ∧ e ∈ pyRangeStep f c ∧
      MOD (iadd w (imul w 2 e) (Int.tdiv (imul w e e) c)) f = 0 ∧ d ∈ pyRangeStep f c ∧
      MOD (iadd w (imul w 2 d) (Int.tdiv (imul w d e) c)) f = 0 ∧ b ∈ pyRange 0 c := by
  unfold basecm_28
  simp only [List.mem_flatMap, List.mem_ite_nil_right, List.mem_singleton]
  constructor
  · rintro ⟨⟨a', c', f'⟩, h1, h2, e', h3, h4, d', h5, h6, b', h7, h8⟩
    have ha := congrFun (congrFun h8 0) 0
    have hb := congrFun (congrFun h8 1) 0
    have hc := congrFun (congrFun h8 1) 1
    have hd := congrFun (congrFun h8 2) 0
    have he := congrFun (congrFun h8 2) 1
    have hf := congrFun (congrFun h8 2) 2
    simp only [hnf, Matrix.of_apply, Matrix.cons_val] at ha hb hc hd he hf
    subst ha hb hc hd he hf
    exact ⟨h1, h2, h3, h4, h5, h6, h7⟩
  · rintro ⟨h1, h2, h3, h4, h5, h6, h7⟩
    exact ⟨(a, c, f), h1, h2, e, h3, h4, d, h5, h6, b, h7, rfl⟩

/-- C58, the limit: beyond the bound the 32-bit arithmetic does change what is listed.  For
determinant 46342 the intermediate result `2*e + e*e` exceeds 32 bits and a matrix that keeps the
symmetry of class 28 is lost. -/
theorem basecm_28_overflow :
    hnf 1 0 1 0 46340 46342 ∈ SymmetricHNFs (ClassSym 28 (canonC 28).toMat) 46342 ∧
      hnf 1 0 1 0 46340 46342 ∉ basecm_28 wrap32 46342 := by
  constructor
  · rw [← (basecm_28_correct (w := id) 46342 (Or.inl rfl) _ reduced_28).2, mem_basecm_28]
    refine ⟨?_, by decide +kernel, ?_, by decide +kernel, ?_, by decide +kernel, ?_⟩
    · rw [get_HNF_diagonals_eq, mem_getHNFDiagonals]; norm_num
    · rw [mem_pyRangeStep (by norm_num)]; exact ⟨⟨46340, by norm_num⟩, by norm_num, by norm_num⟩
    · rw [mem_pyRangeStep (by norm_num)]; exact ⟨⟨0, by norm_num⟩, by norm_num, by norm_num⟩
    · rw [mem_pyRange]; norm_num
  · rw [mem_basecm_28]
    rintro ⟨-, -, -, h, -⟩
    revert h
    decide +kernel

/-- C58: up to determinant 46000 every subroutine lists with 32-bit integers what it lists with
unlimited integers. -/
theorem int32_exact {w : ℤ → ℤ} (hw : Int32 w) (n : ℤ) (hn : n ≤ 46000) :
    bcc_5 w n = bcc_5 id n ∧ tableGenerators w n = tableGenerators id n ∧
      total_hnfs w n = total_hnfs id n := by
  refine ⟨bcc_5_w hw hn, ?_, ?_⟩
  · unfold tableGenerators
    rw [hex_12_w hw hn, hex_22_w hw hn, rhom_9_24_w hw hn, rhom_4_2_w hw hn, st_11_w hw hn,
      st_21_w hw hn, bct_6_7_15_18_w hw hn, so_32_w hw hn, fco_26_w hw hn, fco_16_w hw hn,
      bco_19_w hw hn, bco_8_w hw hn, bco_42_w hw hn, baseco_38_13_w hw hn, baseco_23_w hw hn,
      baseco_40_w hw hn, baseco_36_w hw hn, sm_33_w hw hn,
      basecm_10_14_17_27_37_39_41_w hw hn, basecm_20_25_w hw hn, basecm_28_w hw hn,
      basecm_29_30_w hw hn, basecm_43_w hw hn]
  · rw [total_eq (Or.inr ⟨hw, hn⟩), total_eq (Or.inl rfl)]

example : Int32 wrap32 ∧ (46000 : ℤ) ≤ 46000 := ⟨wrap32_int32, le_rfl⟩

end AutoGR.Fortran
