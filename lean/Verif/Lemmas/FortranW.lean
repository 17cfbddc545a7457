import Verif.Lemmas.FortranWBase

/-! # 32-bit arithmetic does not change what the Fortran generators list -/

set_option linter.unusedVariables false
set_option linter.unusedTactic false
set_option maxHeartbeats 1000000

namespace AutoGR

namespace Fortran

open Spec

/-- Closes the size bounds. -/
macro "bdw" : tactic => `(tactic| (first | (norm_num; linarith) | (norm_num; nlinarith)))

theorem hex_12_w {w : ℤ → ℤ} (hw : Int32 w) {n : ℤ} (hn : n ≤ 46000) :
    hex_12 w n = hex_12 id n := by
  unfold hex_12
  refine fm_congr fun x hx => ?_
  obtain ⟨a, c, f⟩ := x
  obtain ⟨⟨ha, hc, hf⟩, ⟨ba, bc, bf⟩, ⟨bac, baf, bcf⟩, ⟨baa, bcc, bff⟩⟩ := diag_boundsW hn hx
  have va := W.var ha.le (le_refl a)
  have vc := W.var hc.le (le_refl c)
  have vf := W.var hf.le (le_refl f)
  try dsimp only
  refine ite_nil_congr (iff_MOD vc va) fun _ => ?_
  refine fm_congr fun b hb => ?_
  obtain ⟨-, b0, b1⟩ := (mem_step_q ha).1 hb
  have vb := W.var b0 b1.le
  try dsimp only
  refine ite_nil_congr (iff_MOD (W.mul hw vb vb (by bdw)) va) fun _ => ?_
  try dsimp only
  refine ite_nil_congr (and_congr (iff_MOD (W.add hw va (W.mul hw (W.var (B := 2) (x := 2) (by norm_num) (by norm_num)) vb (by bdw)) (by bdw)) vc)
      (iff_MOD (W.add hw (W.mul hw (W.var (B := 2) (x := 2) (by norm_num) (by norm_num)) vb (by bdw)) (W.tdiv (W.mul hw vb vb (by bdw)) va) (by bdw)) vc)) fun _ => ?_
  refine fm_congr fun e he => ?_
  obtain ⟨e0, e1, e2⟩ := half_le hf he
  have ve := W.var e0 e1
  try dsimp only
  refine ite_nil_congr (iff_MOD (W.mul hw (W.add hw va (W.mul hw (W.var (B := 2) (x := 2) (by norm_num) (by norm_num)) vb (by bdw)) (by bdw)) ve (by bdw)) vc) fun _ => ?_
  try dsimp only
  refine ite_nil_congr (iff_MOD (W.tdiv (W.mul hw (W.add hw va (W.mul hw (W.var (B := 2) (x := 2) (by norm_num) (by norm_num)) vb (by bdw)) (by bdw)) ve (by bdw)) vc) vf) fun _ => ?_
  refine fm_congr fun d hd => ?_
  obtain ⟨d0, d1⟩ := mem_pyRange.1 hd
  have vd := W.var d0 d1.le
  try dsimp only
  refine ite_nil_congr (and_congr (iff_MOD (W.mul hw vb vd (by bdw)) va)
      (and_congr (iff_MOD (W.mulL ve (W.add hw (W.mul hw (W.var (B := 2) (x := 2) (by norm_num) (by norm_num)) vb (by bdw)) (W.tdiv (W.mul hw vb vb (by bdw)) va) (by bdw))) vc)
      (and_congr (iff_MOD (W.mul hw vb ve (by bdw)) va)
      (and_congr (iff_MOD (W.mul hw vc vd (by bdw)) va)
      (iff_MOD (W.sub hw (W.mul hw vc vd (by bdw)) (W.mul hw vb ve (by bdw)) (by bdw)) va))))) fun _ => ?_
  try dsimp only
  refine ite_nil_congr (and_congr (iff_MOD (W.subL (W.tdiv (W.mul hw vb vd (by bdw)) va) (W.tdiv (W.mulL ve (W.add hw (W.mul hw (W.var (B := 2) (x := 2) (by norm_num) (by norm_num)) vb (by bdw)) (W.tdiv (W.mul hw vb vb (by bdw)) va) (by bdw))) vc)) vf)
      (and_congr (iff_MOD (W.subL (W.add hw (W.mul hw (W.var (B := 2) (x := 2) (by norm_num) (by norm_num)) vd (by bdw)) (W.tdiv (W.mul hw vb vd (by bdw)) va) (by bdw)) (W.tdiv (W.mulL ve (W.add hw (W.mul hw (W.var (B := 2) (x := 2) (by norm_num) (by norm_num)) vb (by bdw)) (W.tdiv (W.mul hw vb vb (by bdw)) va) (by bdw))) vc)) vf)
      (and_congr (iff_MOD (W.sub hw (W.sub hw (W.tdiv (W.mul hw vc vd (by bdw)) va) (W.mulB hw (W.var (B := 2) (x := 2) (by norm_num) (by norm_num)) ve (C := f) (by rw [abs_of_nonneg (by omega)]; omega) (by bdw)) (by bdw)) (W.tdiv (W.mul hw vb ve (by bdw)) va) (by bdw)) vf)
      (iff_MOD (W.tdiv (W.sub hw (W.mul hw vc vd (by bdw)) (W.mul hw vb ve (by bdw)) (by bdw)) va) vf)))) fun _ => ?_
  try rfl

theorem hex_22_w {w : ℤ → ℤ} (hw : Int32 w) {n : ℤ} (hn : n ≤ 46000) :
    hex_22 w n = hex_22 id n := by
  unfold hex_22
  refine fm_congr fun x hx => ?_
  obtain ⟨a, c, f⟩ := x
  obtain ⟨⟨ha, hc, hf⟩, ⟨ba, bc, bf⟩, ⟨bac, baf, bcf⟩, ⟨baa, bcc, bff⟩⟩ := diag_boundsW hn hx
  have va := W.var ha.le (le_refl a)
  have vc := W.var hc.le (le_refl c)
  have vf := W.var hf.le (le_refl f)
  try dsimp only
  refine ite_nil_congr (iff_MOD vf vc) fun _ => ?_
  refine fm_congr fun e he => ?_
  obtain ⟨-, e0, e1⟩ := (mem_step_q hc).1 he
  have ve := W.var e0 e1.le
  try dsimp only
  refine ite_nil_congr (iff_MOD (W.mul hw ve ve (by bdw)) vc) fun _ => ?_
  try dsimp only
  refine ite_nil_congr (and_congr (iff_MOD (W.add hw (W.neg vc) (W.mul hw ve (W.var (B := 2) (x := 2) (by norm_num) (by norm_num)) (by bdw)) (by bdw)) vf)
      (iff_MOD (W.sub hw (W.add hw (W.neg vc) ve (by bdw)) (W.tdiv (W.mul hw ve ve (by bdw)) vc) (by bdw)) vf)) fun _ => ?_
  refine fm_congr fun b hb => ?_
  obtain ⟨b0, b1⟩ := mem_pyRange.1 hb
  have vb := W.var b0 b1.le
  refine fm_congr fun d hd => ?_
  obtain ⟨-, d0, d1⟩ := (mem_step_q hc).1 hd
  have vd := W.var d0 d1.le
  try dsimp only
  refine ite_nil_congr (iff_MOD (W.mul hw vd ve (by bdw)) vc) fun _ => ?_
  try dsimp only
  refine ite_nil_congr (and_congr (iff_MOD (W.add hw (W.neg vb) (W.mul hw vd (W.var (B := 2) (x := 2) (by norm_num) (by norm_num)) (by bdw)) (by bdw)) vf)
      (iff_MOD (W.sub hw (W.add hw (W.neg vb) vd (by bdw)) (W.tdiv (W.mul hw vd ve (by bdw)) vc) (by bdw)) vf)) fun _ => ?_
  try rfl

theorem rhom_9_24_w {w : ℤ → ℤ} (hw : Int32 w) {n : ℤ} (hn : n ≤ 46000) :
    rhom_9_24 w n = rhom_9_24 id n := by
  unfold rhom_9_24
  refine fm_congr fun x hx => ?_
  obtain ⟨a, c, f⟩ := x
  obtain ⟨⟨ha, hc, hf⟩, ⟨ba, bc, bf⟩, ⟨bac, baf, bcf⟩, ⟨baa, bcc, bff⟩⟩ := diag_boundsW hn hx
  have va := W.var ha.le (le_refl a)
  have vc := W.var hc.le (le_refl c)
  have vf := W.var hf.le (le_refl f)
  try dsimp only
  refine ite_nil_congr (iff_MOD vf va) fun _ => ?_
  refine fm_congr fun b hb => ?_
  obtain ⟨b0, b1, b2⟩ := half_le hc hb
  have vb := W.var b0 b1
  try dsimp only
  refine ite_nil_congr (iff_MOD (W.add hw vf (W.tdiv (W.mul hw vb vf (by bdw)) va) (by bdw)) vc) fun _ => ?_
  refine fm_congr fun e he => ?_
  obtain ⟨-, e0, e1⟩ := (mem_step_q ha).1 he
  have ve := W.var e0 e1.le
  try dsimp only
  refine ite_nil_congr (and_congr (iff_MOD (W.add hw ve (W.tdiv (W.mul hw vb ve (by bdw)) va) (by bdw)) vc)
      (and_congr (iff_MOD (W.add hw vc (W.mul hw (W.var (B := 2) (x := 2) (by norm_num) (by norm_num)) ve (by bdw)) (by bdw)) vf)
      (iff_MOD (W.add hw vb (W.tdiv (W.mul hw (W.mulB hw (W.var (B := 2) (x := 2) (by norm_num) (by norm_num)) vb (C := c) (by rw [abs_of_nonneg (by omega)]; omega) (by bdw)) ve (by bdw)) vc) (by bdw)) vf))) fun _ => ?_
  refine fm_congr fun d hd => ?_
  obtain ⟨-, d0, d1⟩ := (mem_step_q ha).1 hd
  have vd := W.var d0 d1.le
  try dsimp only
  refine ite_nil_congr (iff_MOD (W.add hw (W.add hw (W.add hw (W.neg va) vb (by bdw)) vd (by bdw)) (W.tdiv (W.mul hw vd vb (by bdw)) va) (by bdw)) vc) fun _ => ?_
  try dsimp only
  refine ite_nil_congr (and_congr (iff_MOD (W.subL (W.add hw (W.sub hw (W.neg vb) vd (by bdw)) (W.tdiv (W.mul hw vd vd (by bdw)) va) (by bdw)) (W.tdiv (W.mulL ve (W.add hw (W.add hw (W.add hw (W.neg va) vb (by bdw)) vd (by bdw)) (W.tdiv (W.mul hw vd vb (by bdw)) va) (by bdw))) vc)) vf)
      (iff_MOD (W.subL (W.add hw (W.sub hw (W.neg vc) (W.mul hw (W.var (B := 2) (x := 2) (by norm_num) (by norm_num)) ve (by bdw)) (by bdw)) (W.tdiv (W.mul hw vd ve (by bdw)) va) (by bdw)) (W.tdiv (W.mulL ve (W.add hw ve (W.tdiv (W.mul hw vb ve (by bdw)) va) (by bdw))) vc)) vf)) fun _ => ?_
  try rfl

theorem rhom_4_2_w {w : ℤ → ℤ} (hw : Int32 w) {n : ℤ} (hn : n ≤ 46000) :
    rhom_4_2 w n = rhom_4_2 id n := by
  unfold rhom_4_2
  refine fm_congr fun x hx => ?_
  obtain ⟨a, c, f⟩ := x
  obtain ⟨⟨ha, hc, hf⟩, ⟨ba, bc, bf⟩, ⟨bac, baf, bcf⟩, ⟨baa, bcc, bff⟩⟩ := diag_boundsW hn hx
  have va := W.var ha.le (le_refl a)
  have vc := W.var hc.le (le_refl c)
  have vf := W.var hf.le (le_refl f)
  try dsimp only
  refine ite_nil_congr (iff_MOD vf va) fun _ => ?_
  refine fm_congr fun b hb => ?_
  obtain ⟨b0, b1, b2⟩ := half_le hc hb
  have vb := W.var b0 b1
  try dsimp only
  refine ite_nil_congr (iff_MOD (W.mul hw vb vf (by bdw)) va) fun _ => ?_
  try dsimp only
  refine ite_nil_congr (iff_MOD (W.add hw (W.neg vf) (W.tdiv (W.mul hw vb vf (by bdw)) va) (by bdw)) vc) fun _ => ?_
  refine fm_congr fun e he => ?_
  obtain ⟨e0, e1⟩ := mem_pyRange.1 he
  have ve := W.var e0 e1.le
  try dsimp only
  refine ite_nil_congr (and_congr (iff_MOD (W.mul hw vb ve (by bdw)) va)
      (iff_MOD (W.mul hw (W.mulB hw (W.var (B := 2) (x := 2) (by norm_num) (by norm_num)) vb (C := c) (by rw [abs_of_nonneg (by omega)]; omega) (by bdw)) ve (by bdw)) vc)) fun _ => ?_
  try dsimp only
  refine ite_nil_congr (and_congr (iff_MOD ve va)
      (and_congr (iff_MOD (W.add hw (W.neg ve) (W.tdiv (W.mul hw vb ve (by bdw)) va) (by bdw)) vc)
      (and_congr (iff_MOD (W.sub hw vb (W.tdiv (W.mul hw (W.mulB hw (W.var (B := 2) (x := 2) (by norm_num) (by norm_num)) vb (C := c) (by rw [abs_of_nonneg (by omega)]; omega) (by bdw)) ve (by bdw)) vc) (by bdw)) vf)
      (iff_MOD (W.sub hw vc (W.mul hw (W.var (B := 2) (x := 2) (by norm_num) (by norm_num)) ve (by bdw)) (by bdw)) vf)))) fun _ => ?_
  refine fm_congr fun d hd => ?_
  obtain ⟨d0, d1⟩ := mem_pyRange.1 hd
  have vd := W.var d0 d1.le
  try dsimp only
  refine ite_nil_congr (iff_MOD (W.mul hw vb vd (by bdw)) va) fun _ => ?_
  try dsimp only
  refine ite_nil_congr (and_congr (iff_MOD (W.mulL ve (W.add hw (W.sub hw (W.add hw (W.neg va) vb (by bdw)) vd (by bdw)) (W.tdiv (W.mul hw vb vd (by bdw)) va) (by bdw))) vc)
      (and_congr (iff_MOD (W.mul hw vd vd (by bdw)) va)
      (iff_MOD (W.mul hw vd ve (by bdw)) va))) fun _ => ?_
  try dsimp only
  refine ite_nil_congr (and_congr (iff_MOD vd va)
      (and_congr (iff_MOD (W.add hw (W.sub hw (W.add hw (W.neg va) vb (by bdw)) vd (by bdw)) (W.tdiv (W.mul hw vb vd (by bdw)) va) (by bdw)) vc)
      (and_congr (iff_MOD (W.subL (W.add hw (W.neg va) (W.tdiv (W.mul hw vd vd (by bdw)) va) (by bdw)) (W.tdiv (W.mulL ve (W.add hw (W.sub hw (W.add hw (W.neg va) vb (by bdw)) vd (by bdw)) (W.tdiv (W.mul hw vb vd (by bdw)) va) (by bdw))) vc)) vf)
      (iff_MOD (W.subL (W.add hw (W.neg ve) (W.tdiv (W.mul hw vd ve (by bdw)) va) (by bdw)) (W.tdiv (W.mulL ve (W.add hw (W.neg ve) (W.tdiv (W.mul hw vb ve (by bdw)) va) (by bdw))) vc)) vf)))) fun _ => ?_
  try rfl

theorem st_11_w {w : ℤ → ℤ} (hw : Int32 w) {n : ℤ} (hn : n ≤ 46000) :
    st_11 w n = st_11 id n := by
  unfold st_11
  refine fm_congr fun x hx => ?_
  obtain ⟨a, c, f⟩ := x
  obtain ⟨⟨ha, hc, hf⟩, ⟨ba, bc, bf⟩, ⟨bac, baf, bcf⟩, ⟨baa, bcc, bff⟩⟩ := diag_boundsW hn hx
  have va := W.var ha.le (le_refl a)
  have vc := W.var hc.le (le_refl c)
  have vf := W.var hf.le (le_refl f)
  try dsimp only
  refine ite_nil_congr (iff_MOD vc va) fun _ => ?_
  refine fm_congr fun b hb => ?_
  obtain ⟨b0, b1, b2⟩ := half_le hc hb
  have vb := W.var b0 b1
  try dsimp only
  refine ite_nil_congr (iff_MOD (W.mul hw vb vb (by bdw)) va) fun _ => ?_
  try dsimp only
  refine ite_nil_congr (iff_MOD (W.add hw (W.neg va) (W.tdiv (W.mul hw vb vb (by bdw)) va) (by bdw)) vc) fun _ => ?_
  refine fm_congr fun e he => ?_
  obtain ⟨e0, e1, e2⟩ := half_le hf he
  have ve := W.var e0 e1
  try dsimp only
  refine ite_nil_congr (iff_MOD (W.mul hw (W.mulB hw (W.var (B := 2) (x := 2) (by norm_num) (by norm_num)) vb (C := c) (by rw [abs_of_nonneg (by omega)]; omega) (by bdw)) ve (by bdw)) vc) fun _ => ?_
  try dsimp only
  refine ite_nil_congr (iff_MOD (W.tdiv (W.mul hw (W.mulB hw (W.var (B := 2) (x := 2) (by norm_num) (by norm_num)) vb (C := c) (by rw [abs_of_nonneg (by omega)]; omega) (by bdw)) ve (by bdw)) vc) vf) fun _ => ?_
  refine fm_congr fun d hd => ?_
  obtain ⟨d0, d1⟩ := mem_pyRange.1 hd
  have vd := W.var d0 d1.le
  try dsimp only
  refine ite_nil_congr (and_congr (iff_MOD (W.mul hw vd vb (by bdw)) va)
      (and_congr (iff_MOD (W.mul hw vd vc (by bdw)) va)
      (iff_MOD (W.mul hw ve vb (by bdw)) va))) fun _ => ?_
  try dsimp only
  refine ite_nil_congr (and_congr (iff_MOD (W.addL (W.neg (W.tdiv (W.mulL ve (W.add hw (W.neg va) (W.tdiv (W.mul hw vb vb (by bdw)) va) (by bdw))) vc)) (W.mul hw vd (W.sub hw (W.tdiv vb va) (W.var (B := 1) (x := 1) (by norm_num) (by norm_num)) (by bdw)) (by bdw))) vf)
      (iff_MOD (W.add hw (W.neg (W.mul hw ve (W.add hw (W.tdiv vb va) (W.var (B := 1) (x := 1) (by norm_num) (by norm_num)) (by bdw)) (by bdw))) (W.tdiv (W.mul hw vd vc (by bdw)) va) (by bdw)) vf)) fun _ => ?_
  try rfl

theorem st_21_w {w : ℤ → ℤ} (hw : Int32 w) {n : ℤ} (hn : n ≤ 46000) :
    st_21 w n = st_21 id n := by
  unfold st_21
  refine fm_congr fun x hx => ?_
  obtain ⟨a, c, f⟩ := x
  obtain ⟨⟨ha, hc, hf⟩, ⟨ba, bc, bf⟩, ⟨bac, baf, bcf⟩, ⟨baa, bcc, bff⟩⟩ := diag_boundsW hn hx
  have va := W.var ha.le (le_refl a)
  have vc := W.var hc.le (le_refl c)
  have vf := W.var hf.le (le_refl f)
  try dsimp only
  refine ite_nil_congr (iff_MOD vf vc) fun _ => ?_
  refine fm_congr fun b hb => ?_
  obtain ⟨b0, b1, b2⟩ := half_le hc hb
  have vb := W.var b0 b1
  refine fm_congr fun d hd => ?_
  obtain ⟨d0, d1, d2⟩ := half_le hf hd
  have vd := W.var d0 d1
  try dsimp only
  refine ite_nil_congr (iff_MOD (W.sub hw vb vd (by bdw)) vc) fun _ => ?_
  refine fm_congr fun e he => ?_
  obtain ⟨e0, e1, e2⟩ := half_le hf he
  have ve := W.var e0 e1
  try dsimp only
  refine ite_nil_congr (and_congr (iff_MOD (W.mul hw (W.mulB hw (W.var (B := 2) (x := 2) (by norm_num) (by norm_num)) vd (C := f) (by rw [abs_of_nonneg (by omega)]; omega) (by bdw)) ve (by bdw)) vc)
      (iff_MOD (W.mul hw ve ve (by bdw)) vc)) fun _ => ?_
  try dsimp only
  refine ite_nil_congr (and_congr (iff_MOD (W.sub hw (W.mulB hw (W.var (B := 2) (x := 2) (by norm_num) (by norm_num)) vd (C := f) (by rw [abs_of_nonneg (by omega)]; omega) (by bdw)) (W.tdiv (W.mul hw (W.mulB hw (W.var (B := 2) (x := 2) (by norm_num) (by norm_num)) vd (C := f) (by rw [abs_of_nonneg (by omega)]; omega) (by bdw)) ve (by bdw)) vc) (by bdw)) vf)
      (and_congr (iff_MOD (W.subL (W.add hw (W.neg vb) vd (by bdw)) (W.tdiv (W.mulL ve (W.sub hw vb vd (by bdw))) vc)) vf)
      (iff_MOD (W.add hw (W.neg vc) (W.tdiv (W.mul hw ve ve (by bdw)) vc) (by bdw)) vf))) fun _ => ?_
  try rfl

theorem bct_6_7_15_18_w {w : ℤ → ℤ} (hw : Int32 w) {n : ℤ} (hn : n ≤ 46000) :
    bct_6_7_15_18 w n = bct_6_7_15_18 id n := by
  unfold bct_6_7_15_18
  refine fm_congr fun x hx => ?_
  obtain ⟨a, c, f⟩ := x
  obtain ⟨⟨ha, hc, hf⟩, ⟨ba, bc, bf⟩, ⟨bac, baf, bcf⟩, ⟨baa, bcc, bff⟩⟩ := diag_boundsW hn hx
  have va := W.var ha.le (le_refl a)
  have vc := W.var hc.le (le_refl c)
  have vf := W.var hf.le (le_refl f)
  try dsimp only
  refine ite_nil_congr (iff_MOD vf vc) fun _ => ?_
  refine fm_congr fun e he => ?_
  obtain ⟨e0, e1, e2⟩ := half_le hf he
  have ve := W.var e0 e1
  try dsimp only
  refine ite_nil_congr (iff_MOD ve vc) fun _ => ?_
  try dsimp only
  refine ite_nil_congr (iff_MOD (W.add hw (W.neg vc) (W.tdiv (W.mul hw ve ve (by bdw)) vc) (by bdw)) vf) fun _ => ?_
  refine fm_congr fun d hd => ?_
  obtain ⟨d0, d1⟩ := mem_pyRange.1 hd
  have vd := W.var d0 d1.le
  try dsimp only
  refine ite_nil_congr (iff_MOD (W.add hw va (W.mul hw (W.var (B := 2) (x := 2) (by norm_num) (by norm_num)) vd (by bdw)) (by bdw)) vf) fun _ => ?_
  refine fm_congr fun b hb => ?_
  obtain ⟨b0, b1⟩ := mem_pyRange.1 hb
  have vb := W.var b0 b1.le
  try dsimp only
  refine ite_nil_congr (iff_MOD (W.sub hw vb vd (by bdw)) vc) fun _ => ?_
  try dsimp only
  refine ite_nil_congr (iff_MOD (W.subL (W.add hw (W.neg vb) vd (by bdw)) (W.tdiv (W.mulL ve (W.sub hw vb vd (by bdw))) vc)) vf) fun _ => ?_
  try rfl

theorem so_32_w {w : ℤ → ℤ} (hw : Int32 w) {n : ℤ} (hn : n ≤ 46000) :
    so_32 w n = so_32 id n := by
  unfold so_32
  refine fm_congr fun x hx => ?_
  obtain ⟨a, c, f⟩ := x
  obtain ⟨⟨ha, hc, hf⟩, ⟨ba, bc, bf⟩, ⟨bac, baf, bcf⟩, ⟨baa, bcc, bff⟩⟩ := diag_boundsW hn hx
  have va := W.var ha.le (le_refl a)
  have vc := W.var hc.le (le_refl c)
  have vf := W.var hf.le (le_refl f)
  refine fm_congr fun b hb => ?_
  obtain ⟨b0, b1, b2⟩ := half_le hc hb
  have vb := W.var b0 b1
  refine fm_congr fun e he => ?_
  obtain ⟨e0, e1, e2⟩ := half_le hf he
  have ve := W.var e0 e1
  try dsimp only
  refine ite_nil_congr (iff_MOD (W.mul hw (W.mulB hw (W.var (B := 2) (x := 2) (by norm_num) (by norm_num)) vb (C := c) (by rw [abs_of_nonneg (by omega)]; omega) (by bdw)) ve (by bdw)) (W.mul hw vf vc (by bdw))) fun _ => ?_
  refine fm_congr fun d hd => ?_
  obtain ⟨d0, d1, d2⟩ := half_le hf hd
  have vd := W.var d0 d1
  try rfl

theorem bco_19_w {w : ℤ → ℤ} (hw : Int32 w) {n : ℤ} (hn : n ≤ 46000) :
    bco_19 w n = bco_19 id n := by
  unfold bco_19
  refine fm_congr fun x hx => ?_
  obtain ⟨a, c, f⟩ := x
  obtain ⟨⟨ha, hc, hf⟩, ⟨ba, bc, bf⟩, ⟨bac, baf, bcf⟩, ⟨baa, bcc, bff⟩⟩ := diag_boundsW hn hx
  have va := W.var ha.le (le_refl a)
  have vc := W.var hc.le (le_refl c)
  have vf := W.var hf.le (le_refl f)
  refine fm_congr fun b hb => ?_
  obtain ⟨b0, b1⟩ := mem_pyRange.1 hb
  have vb := W.var b0 b1.le
  try dsimp only
  refine ite_nil_congr (iff_MOD (W.add hw va (W.mul hw (W.var (B := 2) (x := 2) (by norm_num) (by norm_num)) vb (by bdw)) (by bdw)) vc) fun _ => ?_
  refine fm_congr fun e he => ?_
  obtain ⟨e0, e1, e2⟩ := half_le hf he
  have ve := W.var e0 e1
  try dsimp only
  refine ite_nil_congr (iff_MOD (W.mulL ve (W.add hw va (W.mul hw (W.var (B := 2) (x := 2) (by norm_num) (by norm_num)) vb (by bdw)) (by bdw))) vc) fun _ => ?_
  try dsimp only
  refine ite_nil_congr (iff_MOD (W.tdiv (W.mulL ve (W.add hw va (W.mul hw (W.var (B := 2) (x := 2) (by norm_num) (by norm_num)) vb (by bdw)) (by bdw))) vc) vf) fun _ => ?_
  refine fm_congr fun d hd => ?_
  obtain ⟨d0, d1⟩ := mem_pyRange.1 hd
  have vd := W.var d0 d1.le
  try dsimp only
  refine ite_nil_congr (iff_MOD (W.add hw va (W.mul hw (W.var (B := 2) (x := 2) (by norm_num) (by norm_num)) vd (by bdw)) (by bdw)) vf) fun _ => ?_
  try rfl

theorem bco_8_w {w : ℤ → ℤ} (hw : Int32 w) {n : ℤ} (hn : n ≤ 46000) :
    bco_8 w n = bco_8 id n := by
  unfold bco_8
  refine fm_congr fun x hx => ?_
  obtain ⟨a, c, f⟩ := x
  obtain ⟨⟨ha, hc, hf⟩, ⟨ba, bc, bf⟩, ⟨bac, baf, bcf⟩, ⟨baa, bcc, bff⟩⟩ := diag_boundsW hn hx
  have va := W.var ha.le (le_refl a)
  have vc := W.var hc.le (le_refl c)
  have vf := W.var hf.le (le_refl f)
  try dsimp only
  refine ite_nil_congr (iff_MOD (W.mul hw (W.var (B := 2) (x := 2) (by norm_num) (by norm_num)) vf (by bdw)) vc) fun _ => ?_
  refine fm_congr fun b hb => ?_
  obtain ⟨b0, b1, b2⟩ := half_le hc hb
  have vb := W.var b0 b1
  refine fm_congr fun e he => ?_
  obtain ⟨e0, e1⟩ := mem_pyRange.1 he
  have ve := W.var e0 e1.le
  try dsimp only
  refine ite_nil_congr (iff_MOD (W.mulL (W.mul hw (W.var (B := 2) (x := 2) (by norm_num) (by norm_num)) ve (by bdw)) ve) vc) fun _ => ?_
  try dsimp only
  refine ite_nil_congr (and_congr (iff_MOD (W.mul hw (W.var (B := 2) (x := 2) (by norm_num) (by norm_num)) ve (by bdw)) vc)
      (iff_MOD (W.addL (W.neg (W.mul hw (W.var (B := 2) (x := 2) (by norm_num) (by norm_num)) ve (by bdw))) (W.tdiv (W.mulL (W.mul hw (W.var (B := 2) (x := 2) (by norm_num) (by norm_num)) ve (by bdw)) ve) vc)) vf)) fun _ => ?_
  refine fm_congr fun d hd => ?_
  obtain ⟨d0, d1⟩ := mem_pyRange.1 hd
  have vd := W.var d0 d1.le
  try dsimp only
  refine ite_nil_congr (iff_MOD (W.sub hw (W.add hw (W.neg va) (W.mulB hw (W.var (B := 2) (x := 2) (by norm_num) (by norm_num)) vb (C := c) (by rw [abs_of_nonneg (by omega)]; omega) (by bdw)) (by bdw)) (W.mul hw (W.var (B := 2) (x := 2) (by norm_num) (by norm_num)) vd (by bdw)) (by bdw)) vc) fun _ => ?_
  try dsimp only
  refine ite_nil_congr (and_congr (iff_MOD (W.neg (W.tdiv (W.mulL (W.sub hw (W.add hw (W.neg va) (W.mulB hw (W.var (B := 2) (x := 2) (by norm_num) (by norm_num)) vb (C := c) (by rw [abs_of_nonneg (by omega)]; omega) (by bdw)) (by bdw)) (W.mul hw (W.var (B := 2) (x := 2) (by norm_num) (by norm_num)) vd (by bdw)) (by bdw)) ve) vc)) vf)
      (iff_MOD (W.subL (W.add hw va (W.mul hw (W.var (B := 2) (x := 2) (by norm_num) (by norm_num)) vd (by bdw)) (by bdw)) (W.tdiv (W.mulL vb (W.mul hw (W.var (B := 2) (x := 2) (by norm_num) (by norm_num)) ve (by bdw))) vc)) vf)) fun _ => ?_
  try rfl

theorem bco_42_w {w : ℤ → ℤ} (hw : Int32 w) {n : ℤ} (hn : n ≤ 46000) :
    bco_42 w n = bco_42 id n := by
  unfold bco_42
  refine fm_congr fun x hx => ?_
  obtain ⟨a, c, f⟩ := x
  obtain ⟨⟨ha, hc, hf⟩, ⟨ba, bc, bf⟩, ⟨bac, baf, bcf⟩, ⟨baa, bcc, bff⟩⟩ := diag_boundsW hn hx
  have va := W.var ha.le (le_refl a)
  have vc := W.var hc.le (le_refl c)
  have vf := W.var hf.le (le_refl f)
  refine fm_congr fun e he => ?_
  obtain ⟨e0, e1, e2⟩ := half_le hf he
  have ve := W.var e0 e1
  refine fm_congr fun b hb => ?_
  obtain ⟨b0, b1⟩ := mem_pyRange.1 hb
  have vb := W.var b0 b1.le
  try dsimp only
  refine ite_nil_congr (iff_MOD (W.mulL (W.add hw (W.neg va) (W.mul hw (W.var (B := 2) (x := 2) (by norm_num) (by norm_num)) vb (by bdw)) (by bdw)) ve) vc) fun _ => ?_
  try dsimp only
  refine ite_nil_congr (and_congr (iff_MOD (W.add hw (W.neg va) (W.mul hw (W.var (B := 2) (x := 2) (by norm_num) (by norm_num)) vb (by bdw)) (by bdw)) vc)
      (iff_MOD (W.neg (W.tdiv (W.mulL (W.add hw (W.neg va) (W.mul hw (W.var (B := 2) (x := 2) (by norm_num) (by norm_num)) vb (by bdw)) (by bdw)) ve) vc)) vf)) fun _ => ?_
  refine fm_congr fun d hd => ?_
  obtain ⟨d0, d1⟩ := mem_pyRange.1 hd
  have vd := W.var d0 d1.le
  try dsimp only
  refine ite_nil_congr (and_congr (iff_MOD (W.subL (W.add hw (W.neg va) (W.mul hw (W.var (B := 2) (x := 2) (by norm_num) (by norm_num)) vd (by bdw)) (by bdw)) (W.tdiv (W.mulL ve (W.add hw (W.neg va) (W.mul hw (W.var (B := 2) (x := 2) (by norm_num) (by norm_num)) vb (by bdw)) (by bdw))) vc)) vf)
      (iff_MOD (W.add hw (W.neg va) (W.mul hw (W.var (B := 2) (x := 2) (by norm_num) (by norm_num)) vd (by bdw)) (by bdw)) vf)) fun _ => ?_
  try rfl

theorem fco_26_w {w : ℤ → ℤ} (hw : Int32 w) {n : ℤ} (hn : n ≤ 46000) :
    fco_26 w n = fco_26 id n := by
  unfold fco_26
  refine fm_congr fun x hx => ?_
  obtain ⟨a, c, f⟩ := x
  obtain ⟨⟨ha, hc, hf⟩, ⟨ba, bc, bf⟩, ⟨bac, baf, bcf⟩, ⟨baa, bcc, bff⟩⟩ := diag_boundsW hn hx
  have va := W.var ha.le (le_refl a)
  have vc := W.var hc.le (le_refl c)
  have vf := W.var hf.le (le_refl f)
  refine fm_congr fun b hb => ?_
  obtain ⟨b0, b1, b2⟩ := half_le hc hb
  have vb := W.var b0 b1
  refine fm_congr fun e he => ?_
  obtain ⟨e0, e1⟩ := mem_pyRange.1 he
  have ve := W.var e0 e1.le
  try dsimp only
  refine ite_nil_congr (iff_MOD (W.mul hw (W.mulB hw (W.var (B := 2) (x := 2) (by norm_num) (by norm_num)) vb (C := c) (by rw [abs_of_nonneg (by omega)]; omega) (by bdw)) ve (by bdw)) vc) fun _ => ?_
  try dsimp only
  refine ite_nil_congr (and_congr (iff_MOD (W.add hw vc (W.mul hw (W.var (B := 2) (x := 2) (by norm_num) (by norm_num)) ve (by bdw)) (by bdw)) vf)
      (iff_MOD (W.add hw vb (W.tdiv (W.mul hw (W.mulB hw (W.var (B := 2) (x := 2) (by norm_num) (by norm_num)) vb (C := c) (by rw [abs_of_nonneg (by omega)]; omega) (by bdw)) ve (by bdw)) vc) (by bdw)) vf)) fun _ => ?_
  refine fm_congr fun d hd => ?_
  obtain ⟨d0, d1⟩ := mem_pyRange.1 hd
  have vd := W.var d0 d1.le
  try dsimp only
  refine ite_nil_congr (iff_MOD (W.add hw (W.add hw va vb (by bdw)) (W.mul hw (W.var (B := 2) (x := 2) (by norm_num) (by norm_num)) vd (by bdw)) (by bdw)) vf) fun _ => ?_
  try rfl

theorem fco_16_w {w : ℤ → ℤ} (hw : Int32 w) {n : ℤ} (hn : n ≤ 46000) :
    fco_16 w n = fco_16 id n := by
  unfold fco_16
  refine fm_congr fun x hx => ?_
  obtain ⟨a, c, f⟩ := x
  obtain ⟨⟨ha, hc, hf⟩, ⟨ba, bc, bf⟩, ⟨bac, baf, bcf⟩, ⟨baa, bcc, bff⟩⟩ := diag_boundsW hn hx
  have va := W.var ha.le (le_refl a)
  have vc := W.var hc.le (le_refl c)
  have vf := W.var hf.le (le_refl f)
  refine fm_congr fun b hb => ?_
  obtain ⟨b0, b1, b2⟩ := half_le hc (List.mem_reverse.1 hb)
  have vb := W.var b0 b1
  refine fm_congr fun e he => ?_
  obtain ⟨e0, e1⟩ := mem_pyRange.1 he
  have ve := W.var e0 e1.le
  try dsimp only
  refine ite_nil_congr (iff_MOD (W.mul hw (W.mulB hw (W.var (B := 2) (x := 2) (by norm_num) (by norm_num)) vb (C := c) (by rw [abs_of_nonneg (by omega)]; omega) (by bdw)) ve (by bdw)) vc) fun _ => ?_
  try dsimp only
  refine ite_nil_congr (and_congr (iff_MOD (W.sub hw (W.neg vb) (W.tdiv (W.mul hw (W.mulB hw (W.var (B := 2) (x := 2) (by norm_num) (by norm_num)) vb (C := c) (by rw [abs_of_nonneg (by omega)]; omega) (by bdw)) ve (by bdw)) vc) (by bdw)) vf)
      (iff_MOD (W.add hw vc (W.mul hw (W.var (B := 2) (x := 2) (by norm_num) (by norm_num)) ve (by bdw)) (by bdw)) vf)) fun _ => ?_
  refine fm_congr fun d hd => ?_
  obtain ⟨d0, d1⟩ := mem_pyRange.1 hd
  have vd := W.var d0 d1.le
  try dsimp only
  refine ite_nil_congr (iff_MOD (W.sub hw (W.add hw va (W.mul hw (W.var (B := 2) (x := 2) (by norm_num) (by norm_num)) vd (by bdw)) (by bdw)) (W.tdiv (W.mul hw (W.mulB hw (W.var (B := 2) (x := 2) (by norm_num) (by norm_num)) vb (C := c) (by rw [abs_of_nonneg (by omega)]; omega) (by bdw)) ve (by bdw)) vc) (by bdw)) vf) fun _ => ?_
  try rfl

theorem baseco_38_13_w {w : ℤ → ℤ} (hw : Int32 w) {n : ℤ} (hn : n ≤ 46000) :
    baseco_38_13 w n = baseco_38_13 id n := by
  unfold baseco_38_13
  refine fm_congr fun x hx => ?_
  obtain ⟨a, c, f⟩ := x
  obtain ⟨⟨ha, hc, hf⟩, ⟨ba, bc, bf⟩, ⟨bac, baf, bcf⟩, ⟨baa, bcc, bff⟩⟩ := diag_boundsW hn hx
  have va := W.var ha.le (le_refl a)
  have vc := W.var hc.le (le_refl c)
  have vf := W.var hf.le (le_refl f)
  try dsimp only
  refine ite_nil_congr (iff_MOD vc va) fun _ => ?_
  refine fm_congr fun b hb => ?_
  obtain ⟨-, b0, b1⟩ := (mem_step_q ha).1 hb
  have vb := W.var b0 b1.le
  try dsimp only
  refine ite_nil_congr (iff_MOD (W.mul hw vb vb (by bdw)) va) fun _ => ?_
  try dsimp only
  refine ite_nil_congr (iff_MOD (W.add hw (W.neg va) (W.tdiv (W.mul hw vb vb (by bdw)) va) (by bdw)) vc) fun _ => ?_
  refine fm_congr fun e he => ?_
  obtain ⟨e0, e1, e2⟩ := half_le hf he
  have ve := W.var e0 e1
  refine fm_congr fun d hd => ?_
  obtain ⟨d0, d1, d2⟩ := half_le hf hd
  have vd := W.var d0 d1
  try dsimp only
  refine ite_nil_congr (iff_MOD (W.mul hw vb vd (by bdw)) va) fun _ => ?_
  try dsimp only
  refine ite_nil_congr (and_congr (iff_MOD (W.subL (W.add hw (W.neg vd) (W.tdiv (W.mul hw vb vd (by bdw)) va) (by bdw)) (W.tdiv (W.mulL ve (W.add hw (W.neg va) (W.tdiv (W.mul hw vb vb (by bdw)) va) (by bdw))) vc)) vf)
      (iff_MOD (W.sub hw (W.sub hw (W.tdiv (W.mul hw vc vd (by bdw)) va) ve (by bdw)) (W.tdiv (W.mul hw vb ve (by bdw)) va) (by bdw)) vf)) fun _ => ?_
  try rfl

theorem baseco_23_w {w : ℤ → ℤ} (hw : Int32 w) {n : ℤ} (hn : n ≤ 46000) :
    baseco_23 w n = baseco_23 id n := by
  unfold baseco_23
  refine fm_congr fun x hx => ?_
  obtain ⟨a, c, f⟩ := x
  obtain ⟨⟨ha, hc, hf⟩, ⟨ba, bc, bf⟩, ⟨bac, baf, bcf⟩, ⟨baa, bcc, bff⟩⟩ := diag_boundsW hn hx
  have va := W.var ha.le (le_refl a)
  have vc := W.var hc.le (le_refl c)
  have vf := W.var hf.le (le_refl f)
  try dsimp only
  refine ite_nil_congr (iff_MOD vf va) fun _ => ?_
  refine fm_congr fun b hb => ?_
  obtain ⟨b0, b1, b2⟩ := half_le hc hb
  have vb := W.var b0 b1
  try dsimp only
  refine ite_nil_congr (iff_MOD (W.mul hw vb vf (by bdw)) (W.mul hw va vc (by bdw))) fun _ => ?_
  refine fm_congr fun e he => ?_
  obtain ⟨e0, e1, e2⟩ := half_le hf he
  have ve := W.var e0 e1
  try dsimp only
  refine ite_nil_congr (and_congr (iff_MOD (W.mul hw vb ve (by bdw)) (W.mul hw va vc (by bdw)))
      (and_congr (iff_MOD (W.mul hw (W.mulB hw (W.var (B := 2) (x := 2) (by norm_num) (by norm_num)) vb (C := c) (by rw [abs_of_nonneg (by omega)]; omega) (by bdw)) ve (by bdw)) (W.mul hw vc vf (by bdw)))
      (iff_MOD ve va))) fun _ => ?_
  refine fm_congr fun d hd => ?_
  obtain ⟨-, d0, d1⟩ := (mem_step_q ha).1 hd
  have vd := W.var d0 d1.le
  try dsimp only
  refine ite_nil_congr (iff_MOD (W.mul hw vb vd (by bdw)) va) fun _ => ?_
  try dsimp only
  refine ite_nil_congr (and_congr (iff_MOD (W.mulL (W.add hw (W.neg vb) (W.tdiv (W.mul hw vb vd (by bdw)) va) (by bdw)) ve) vc)
      (iff_MOD (W.mul hw vd vd (by bdw)) va)) fun _ => ?_
  try dsimp only
  refine ite_nil_congr (and_congr (iff_MOD (W.add hw (W.neg vb) (W.tdiv (W.mul hw vb vd (by bdw)) va) (by bdw)) vc)
      (and_congr (iff_MOD (W.subL (W.add hw (W.neg va) (W.tdiv (W.mul hw vd vd (by bdw)) va) (by bdw)) (W.tdiv (W.mulL (W.add hw (W.neg vb) (W.tdiv (W.mul hw vb vd (by bdw)) va) (by bdw)) ve) vc)) vf)
      (iff_MOD (W.sub hw (W.add hw ve (W.tdiv (W.mulB hw vd ve (C := 23000 * f) (by rw [abs_of_nonneg (by positivity)]; nlinarith [mul_le_mul d1.le e2 (by positivity) hf.le, mul_nonneg d0 (sub_nonneg.2 e2), mul_nonneg (sub_nonneg.2 bf) hf.le]) (by bdw)) va) (by bdw)) (W.tdiv (W.mulB hw (W.mul hw vb ve (by bdw)) ve (C := 11500 * f) (by rw [abs_of_nonneg (by positivity)]; nlinarith [mul_le_mul b2 e2 (by positivity) hc.le, mul_nonneg b0 e0, mul_nonneg (mul_nonneg b0 e0) e0, mul_nonneg (mul_nonneg b0 e0) (sub_nonneg.2 e2), mul_nonneg (sub_nonneg.2 bcf) hf.le]) (by bdw)) (W.mul hw va vc (by bdw))) (by bdw)) vf))) fun _ => ?_
  try rfl

theorem baseco_40_w {w : ℤ → ℤ} (hw : Int32 w) {n : ℤ} (hn : n ≤ 46000) :
    baseco_40 w n = baseco_40 id n := by
  unfold baseco_40
  refine fm_congr fun x hx => ?_
  obtain ⟨a, c, f⟩ := x
  obtain ⟨⟨ha, hc, hf⟩, ⟨ba, bc, bf⟩, ⟨bac, baf, bcf⟩, ⟨baa, bcc, bff⟩⟩ := diag_boundsW hn hx
  have va := W.var ha.le (le_refl a)
  have vc := W.var hc.le (le_refl c)
  have vf := W.var hf.le (le_refl f)
  try dsimp only
  refine ite_nil_congr (iff_MOD vf vc) fun _ => ?_
  refine fm_congr fun e he => ?_
  obtain ⟨-, e0, e1⟩ := (mem_step_q hc).1 he
  have ve := W.var e0 e1.le
  try dsimp only
  refine ite_nil_congr (iff_MOD (W.sub hw (W.mul hw (W.var (B := 2) (x := 2) (by norm_num) (by norm_num)) ve (by bdw)) (W.tdiv (W.mul hw ve ve (by bdw)) vc) (by bdw)) vf) fun _ => ?_
  refine fm_congr fun d hd => ?_
  obtain ⟨-, d0, d1⟩ := (mem_step_q hc).1 hd
  have vd := W.var d0 d1.le
  try dsimp only
  refine ite_nil_congr (iff_MOD (W.sub hw (W.mul hw (W.var (B := 2) (x := 2) (by norm_num) (by norm_num)) vd (by bdw)) (W.tdiv (W.mul hw vd ve (by bdw)) vc) (by bdw)) vf) fun _ => ?_
  refine fm_congr fun b hb => ?_
  obtain ⟨b0, b1⟩ := mem_pyRange.1 hb
  have vb := W.var b0 b1.le
  try dsimp only
  refine ite_nil_congr (and_congr (iff_MOD (W.sub hw (W.mul hw (W.var (B := 2) (x := 2) (by norm_num) (by norm_num)) vb (by bdw)) vd (by bdw)) vc)
      (iff_MOD (W.tdiv (W.mulL (W.sub hw (W.mul hw (W.var (B := 2) (x := 2) (by norm_num) (by norm_num)) vb (by bdw)) vd (by bdw)) ve) vc) vf)) fun _ => ?_
  try rfl

theorem baseco_36_w {w : ℤ → ℤ} (hw : Int32 w) {n : ℤ} (hn : n ≤ 46000) :
    baseco_36 w n = baseco_36 id n := by
  unfold baseco_36
  refine fm_congr fun x hx => ?_
  obtain ⟨a, c, f⟩ := x
  obtain ⟨⟨ha, hc, hf⟩, ⟨ba, bc, bf⟩, ⟨bac, baf, bcf⟩, ⟨baa, bcc, bff⟩⟩ := diag_boundsW hn hx
  have va := W.var ha.le (le_refl a)
  have vc := W.var hc.le (le_refl c)
  have vf := W.var hf.le (le_refl f)
  try dsimp only
  refine ite_nil_congr (iff_MOD vf va) fun _ => ?_
  refine fm_congr fun b hb => ?_
  obtain ⟨b0, b1, b2⟩ := half_le hc hb
  have vb := W.var b0 b1
  try dsimp only
  refine ite_nil_congr (iff_MOD (W.neg (W.tdiv (W.mul hw vb vf (by bdw)) va)) vc) fun _ => ?_
  refine fm_congr fun e he => ?_
  obtain ⟨e0, e1, e2⟩ := half_le hf he
  have ve := W.var e0 e1
  try dsimp only
  refine ite_nil_congr (and_congr (iff_MOD ve va)
      (iff_MOD (W.mul hw vb ve (by bdw)) vc)) fun _ => ?_
  try dsimp only
  refine ite_nil_congr (and_congr (iff_MOD (W.neg (W.tdiv (W.mul hw vb ve (by bdw)) va)) vc)
      (iff_MOD (W.neg (W.tdiv (W.mul hw (W.mulB hw (W.var (B := 2) (x := 2) (by norm_num) (by norm_num)) vb (C := c) (by rw [abs_of_nonneg (by omega)]; omega) (by bdw)) ve (by bdw)) vc)) vf)) fun _ => ?_
  refine fm_congr fun d hd => ?_
  obtain ⟨d0, d1⟩ := mem_pyRange.1 hd
  have vd := W.var d0 d1.le
  try dsimp only
  refine ite_nil_congr (and_congr (iff_MOD (W.mul hw vb vd (by bdw)) va)
      (iff_MOD (W.mul hw vd vd (by bdw)) va)) fun _ => ?_
  try dsimp only
  refine ite_nil_congr (iff_MOD (W.mulL (W.neg (W.tdiv (W.mul hw vb vd (by bdw)) va)) ve) vc) fun _ => ?_
  try dsimp only
  refine ite_nil_congr (and_congr (iff_MOD (W.neg (W.tdiv (W.mul hw vb vd (by bdw)) va)) vc)
      (and_congr (iff_MOD (W.subL (W.sub hw (W.mul hw (W.var (B := 2) (x := 2) (by norm_num) (by norm_num)) vd (by bdw)) (W.tdiv (W.mul hw vd vd (by bdw)) va) (by bdw)) (W.tdiv (W.mulL (W.neg (W.tdiv (W.mul hw vb vd (by bdw)) va)) ve) vc)) vf)
      (iff_MOD (W.subL (W.sub hw (W.mulB hw (W.var (B := 2) (x := 2) (by norm_num) (by norm_num)) ve (C := f) (by rw [abs_of_nonneg (by omega)]; omega) (by bdw)) (W.tdiv (W.mul hw vd ve (by bdw)) va) (by bdw)) (W.tdiv (W.mulL (W.neg (W.tdiv (W.mul hw vb ve (by bdw)) va)) ve) vc)) vf))) fun _ => ?_
  try rfl

theorem basecm_20_25_w {w : ℤ → ℤ} (hw : Int32 w) {n : ℤ} (hn : n ≤ 46000) :
    basecm_20_25 w n = basecm_20_25 id n := by
  unfold basecm_20_25
  refine fm_congr fun x hx => ?_
  obtain ⟨a, c, f⟩ := x
  obtain ⟨⟨ha, hc, hf⟩, ⟨ba, bc, bf⟩, ⟨bac, baf, bcf⟩, ⟨baa, bcc, bff⟩⟩ := diag_boundsW hn hx
  have va := W.var ha.le (le_refl a)
  have vc := W.var hc.le (le_refl c)
  have vf := W.var hf.le (le_refl f)
  refine fm_congr fun e he => ?_
  obtain ⟨e0, e1⟩ := mem_pyRange.1 he
  have ve := W.var e0 e1.le
  try dsimp only
  refine ite_nil_congr (iff_MOD (W.sub hw (W.neg vc) (W.mul hw (W.var (B := 2) (x := 2) (by norm_num) (by norm_num)) ve (by bdw)) (by bdw)) vf) fun _ => ?_
  refine fm_congr fun b hb => ?_
  obtain ⟨b0, b1, b2⟩ := half_le hc hb
  have vb := W.var b0 b1
  try dsimp only
  refine ite_nil_congr (iff_MOD (W.mul hw (W.mulB hw (W.var (B := 2) (x := 2) (by norm_num) (by norm_num)) vb (C := c) (by rw [abs_of_nonneg (by omega)]; omega) (by bdw)) ve (by bdw)) vc) fun _ => ?_
  try dsimp only
  refine ite_nil_congr (iff_MOD (W.sub hw (W.neg vb) (W.tdiv (W.mul hw (W.mulB hw (W.var (B := 2) (x := 2) (by norm_num) (by norm_num)) vb (C := c) (by rw [abs_of_nonneg (by omega)]; omega) (by bdw)) ve (by bdw)) vc) (by bdw)) vf) fun _ => ?_
  refine fm_congr fun d hd => ?_
  obtain ⟨d0, d1⟩ := mem_pyRange.1 hd
  have vd := W.var d0 d1.le
  try rfl

theorem basecm_28_w {w : ℤ → ℤ} (hw : Int32 w) {n : ℤ} (hn : n ≤ 46000) :
    basecm_28 w n = basecm_28 id n := by
  unfold basecm_28
  refine fm_congr fun x hx => ?_
  obtain ⟨a, c, f⟩ := x
  obtain ⟨⟨ha, hc, hf⟩, ⟨ba, bc, bf⟩, ⟨bac, baf, bcf⟩, ⟨baa, bcc, bff⟩⟩ := diag_boundsW hn hx
  have va := W.var ha.le (le_refl a)
  have vc := W.var hc.le (le_refl c)
  have vf := W.var hf.le (le_refl f)
  try dsimp only
  refine ite_nil_congr (iff_MOD vf vc) fun _ => ?_
  refine fm_congr fun e he => ?_
  obtain ⟨-, e0, e1⟩ := (mem_step_q hc).1 he
  have ve := W.var e0 e1.le
  try dsimp only
  refine ite_nil_congr (iff_MOD (W.add hw (W.mul hw (W.var (B := 2) (x := 2) (by norm_num) (by norm_num)) ve (by bdw)) (W.tdiv (W.mul hw ve ve (by bdw)) vc) (by bdw)) vf) fun _ => ?_
  refine fm_congr fun d hd => ?_
  obtain ⟨-, d0, d1⟩ := (mem_step_q hc).1 hd
  have vd := W.var d0 d1.le
  try dsimp only
  refine ite_nil_congr (iff_MOD (W.add hw (W.mul hw (W.var (B := 2) (x := 2) (by norm_num) (by norm_num)) vd (by bdw)) (W.tdiv (W.mul hw vd ve (by bdw)) vc) (by bdw)) vf) fun _ => ?_
  refine fm_congr fun b hb => ?_
  obtain ⟨b0, b1⟩ := mem_pyRange.1 hb
  have vb := W.var b0 b1.le
  try rfl

theorem basecm_29_30_w {w : ℤ → ℤ} (hw : Int32 w) {n : ℤ} (hn : n ≤ 46000) :
    basecm_29_30 w n = basecm_29_30 id n := by
  unfold basecm_29_30
  refine fm_congr fun x hx => ?_
  obtain ⟨a, c, f⟩ := x
  obtain ⟨⟨ha, hc, hf⟩, ⟨ba, bc, bf⟩, ⟨bac, baf, bcf⟩, ⟨baa, bcc, bff⟩⟩ := diag_boundsW hn hx
  have va := W.var ha.le (le_refl a)
  have vc := W.var hc.le (le_refl c)
  have vf := W.var hf.le (le_refl f)
  try dsimp only
  refine ite_nil_congr (iff_MOD vf vc) fun _ => ?_
  refine fm_congr fun e he => ?_
  obtain ⟨-, e0, e1⟩ := (mem_step_q hc).1 he
  have ve := W.var e0 e1.le
  try dsimp only
  refine ite_nil_congr (iff_MOD (W.add hw (W.mul hw (W.var (B := 2) (x := 2) (by norm_num) (by norm_num)) ve (by bdw)) (W.tdiv (W.mul hw ve ve (by bdw)) vc) (by bdw)) vf) fun _ => ?_
  refine fm_congr fun d hd => ?_
  obtain ⟨-, d0, d1⟩ := (mem_step_q hc).1 hd
  have vd := W.var d0 d1.le
  try dsimp only
  refine ite_nil_congr (iff_MOD (W.add hw (W.mul hw (W.var (B := 2) (x := 2) (by norm_num) (by norm_num)) vd (by bdw)) (W.tdiv (W.mul hw vd ve (by bdw)) vc) (by bdw)) vf) fun _ => ?_
  refine fm_congr fun b hb => ?_
  obtain ⟨b0, b1⟩ := mem_pyRange.1 hb
  have vb := W.var b0 b1.le
  try rfl

theorem basecm_10_14_17_27_37_39_41_w {w : ℤ → ℤ} (hw : Int32 w) {n : ℤ} (hn : n ≤ 46000) :
    basecm_10_14_17_27_37_39_41 w n = basecm_10_14_17_27_37_39_41 id n := by
  unfold basecm_10_14_17_27_37_39_41
  refine fm_congr fun x hx => ?_
  obtain ⟨a, c, f⟩ := x
  obtain ⟨⟨ha, hc, hf⟩, ⟨ba, bc, bf⟩, ⟨bac, baf, bcf⟩, ⟨baa, bcc, bff⟩⟩ := diag_boundsW hn hx
  have va := W.var ha.le (le_refl a)
  have vc := W.var hc.le (le_refl c)
  have vf := W.var hf.le (le_refl f)
  refine fm_congr fun e he => ?_
  obtain ⟨e0, e1, e2⟩ := half_le hf he
  have ve := W.var e0 e1
  refine fm_congr fun d hd => ?_
  obtain ⟨d0, d1⟩ := mem_pyRange.1 hd
  have vd := W.var d0 d1.le
  try dsimp only
  refine ite_nil_congr (iff_MOD (W.add hw (W.mul hw (W.neg (W.var (B := 1) (x := 1) (by norm_num) (by norm_num))) va (by bdw)) (W.mul hw (W.var (B := 2) (x := 2) (by norm_num) (by norm_num)) vd (by bdw)) (by bdw)) vf) fun _ => ?_
  refine fm_congr fun b hb => ?_
  obtain ⟨b0, b1⟩ := mem_pyRange.1 hb
  have vb := W.var b0 b1.le
  try rfl

theorem basecm_43_w {w : ℤ → ℤ} (hw : Int32 w) {n : ℤ} (hn : n ≤ 46000) :
    basecm_43 w n = basecm_43 id n := by
  unfold basecm_43
  refine fm_congr fun x hx => ?_
  obtain ⟨a, c, f⟩ := x
  obtain ⟨⟨ha, hc, hf⟩, ⟨ba, bc, bf⟩, ⟨bac, baf, bcf⟩, ⟨baa, bcc, bff⟩⟩ := diag_boundsW hn hx
  have va := W.var ha.le (le_refl a)
  have vc := W.var hc.le (le_refl c)
  have vf := W.var hf.le (le_refl f)
  try dsimp only
  refine ite_nil_congr (iff_MOD vf vc) fun _ => ?_
  refine fm_congr fun e he => ?_
  obtain ⟨-, e0, e1⟩ := (mem_step_q hc).1 he
  have ve := W.var e0 e1.le
  try dsimp only
  refine ite_nil_congr (iff_MOD (W.sub hw (W.mul hw (W.var (B := 2) (x := 2) (by norm_num) (by norm_num)) ve (by bdw)) (W.tdiv (W.mul hw ve ve (by bdw)) vc) (by bdw)) vf) fun _ => ?_
  refine fm_congr fun d hd => ?_
  obtain ⟨d0, d1⟩ := mem_pyRange.1 hd
  have vd := W.var d0 d1.le
  try dsimp only
  refine ite_nil_congr (and_congr (iff_MOD (W.add hw va vd (by bdw)) vc)
      (iff_MOD (W.subL (W.add hw (W.mul hw (W.var (B := 2) (x := 2) (by norm_num) (by norm_num)) va (by bdw)) (W.mul hw (W.var (B := 2) (x := 2) (by norm_num) (by norm_num)) vd (by bdw)) (by bdw)) (W.tdiv (W.mulL (W.add hw va vd (by bdw)) ve) vc)) vf)) fun _ => ?_
  refine fm_congr fun b hb => ?_
  obtain ⟨b0, b1⟩ := mem_pyRange.1 hb
  have vb := W.var b0 b1.le
  try rfl

theorem sm_33_w {w : ℤ → ℤ} (hw : Int32 w) {n : ℤ} (hn : n ≤ 46000) :
    sm_33 w n = sm_33 id n := by
  unfold sm_33
  refine fm_congr fun x hx => ?_
  obtain ⟨a, c, f⟩ := x
  obtain ⟨⟨ha, hc, hf⟩, ⟨ba, bc, bf⟩, ⟨bac, baf, bcf⟩, ⟨baa, bcc, bff⟩⟩ := diag_boundsW hn hx
  have va := W.var ha.le (le_refl a)
  have vc := W.var hc.le (le_refl c)
  have vf := W.var hf.le (le_refl f)
  refine fm_congr fun b hb => ?_
  obtain ⟨b0, b1, b2⟩ := half_le hc hb
  have vb := W.var b0 b1
  refine fm_congr fun e he => ?_
  obtain ⟨e0, e1, e2⟩ := half_le hf he
  have ve := W.var e0 e1
  try dsimp only
  refine ite_nil_congr (iff_MOD (W.mul hw (W.mulB hw (W.var (B := 2) (x := 2) (by norm_num) (by norm_num)) vb (C := c) (by rw [abs_of_nonneg (by omega)]; omega) (by bdw)) ve (by bdw)) vc) fun _ => ?_
  try dsimp only
  refine ite_nil_congr (iff_MOD (W.tdiv (W.mul hw (W.mulB hw (W.var (B := 2) (x := 2) (by norm_num) (by norm_num)) vb (C := c) (by rw [abs_of_nonneg (by omega)]; omega) (by bdw)) ve (by bdw)) vc) vf) fun _ => ?_
  refine fm_congr fun d hd => ?_
  obtain ⟨d0, d1⟩ := mem_pyRange.1 hd
  have vd := W.var d0 d1.le
  try rfl

end Fortran

end AutoGR
