import Verif.Lemmas.FloatCubic

/-! # Rounding does not change the other generators (part 1) -/

set_option linter.unusedSimpArgs false
set_option linter.unusedVariables false
set_option linter.unusedTactic false

namespace AutoGR

open Spec

theorem hex_12_fl {fl : ℚ → ℚ} (hfl : Binary64 fl) {n : ℤ} (hn : n ≤ 10 ^ 7) :
    hex_12 fl n = hex_12 id n := by
  unfold hex_12
  refine fm_congr fun x hx => ?_
  obtain ⟨a, c, f⟩ := x
  obtain ⟨⟨ha, hc, hf⟩, ⟨a1q, c1q, f1q⟩, ⟨ba, bc, bf⟩, ⟨bac, baf, bcf⟩, ⟨baa, bcc, bff⟩,
    ⟨bccf, bcff⟩⟩ := diag_bounds hn hx
  have ha' : (a : ℚ) ≠ 0 := by exact_mod_cast ha.ne'
  have hc' : (c : ℚ) ≠ 0 := by exact_mod_cast hc.ne'
  have hf' : (f : ℚ) ≠ 0 := by exact_mod_cast hf.ne'
  have va := Ev.var ha.le (le_refl a)
  have vc := Ev.var hc.le (le_refl c)
  have vf := Ev.var hf.le (le_refl f)
  try dsimp only
  refine ite_nil_congr ?_ ?_
  · exact Iff.rfl
  rintro u0
  have t0 := (emod_q ha).1 u0
  refine fm_congr fun b hb => ?_
  obtain ⟨t1, b0, b1⟩ := (mem_step_q ha).1 hb
  have vb := Ev.var b0 b1.le
  try dsimp only
  refine ite_nil_congr ?_ ?_
  · have Et2 := (Ev.add hfl va (Ev.mul hfl Ev.two vb (by bd)) (by bd))
    refine and_dep (iff_mod Et2) fun u2 => ?_
    have t2 := (pyMod_q hc).1 u2
    simp only [fadd, fsub, fmul, fdiv, id] at t2
    have Et3 := (Ev.add hfl (Ev.mul hfl Ev.two vb (by bd)) (Ev.div hfl (Ev.mul hfl vb vb (by bd)) va a1q (((t1.mul (IsInt.int b))).of_eq (by q_eq)) (by bd)) (by bd))
    exact iff_mod Et3
  rintro ⟨u2, u3⟩
  have t2 := (pyMod_q hc).1 u2
  simp only [fadd, fsub, fmul, fdiv, id] at t2
  have t3 := (pyMod_q hc).1 u3
  simp only [fadd, fsub, fmul, fdiv, id] at t3
  refine fm_congr fun e he => ?_
  obtain ⟨t4, e0, e1⟩ := (mem_halves_q hf).1 he
  have ve := Ev.var e0 e1.le
  try dsimp only
  refine ite_nil_congr ?_ ?_
  · have Et5 := (Ev.div hfl (Ev.mul hfl (Ev.add hfl va (Ev.mul hfl Ev.two vb (by bd)) (by bd)) ve (by bd)) vc c1q (((t2.mul (IsInt.int e))).of_eq (by q_eq)) (by bd))
    exact iff_mod Et5
  rintro u5
  have t5 := (pyMod_q hf).1 u5
  simp only [fadd, fsub, fmul, fdiv, id] at t5
  refine fm_congr fun d hd => ?_
  obtain ⟨d0, d1⟩ := mem_pyRange.1 hd
  have vd := Ev.var d0 d1.le
  try dsimp only
  refine ite_nil_congr ?_ ?_
  · have Et6 := (Ev.sub hfl (Ev.div hfl (Ev.mul hfl vb vd (by bd)) va a1q (((t1.mul (IsInt.int d))).of_eq (by q_eq)) (by bd)) (Ev.div hfl (Ev.mul hfl ve (Ev.add hfl (Ev.mul hfl Ev.two vb (by bd)) (Ev.div hfl (Ev.mul hfl vb vb (by bd)) va a1q ((((IsInt.smul (-2) (IsInt.int b)).add ((IsInt.int c).mul t3))).of_eq (by q_eq)) (by bd)) (by bd)) (by bd)) vc c1q (((t3.mul (IsInt.int e))).of_eq (by q_eq)) (by bd)) (by bd))
    refine and_dep (iff_mod Et6) fun u6 => ?_
    have t6 := (pyMod_q hf).1 u6
    simp only [fadd, fsub, fmul, fdiv, id] at t6
    have Et7 := (Ev.sub hfl (Ev.add hfl (Ev.mul hfl Ev.two vd (by bd)) (Ev.div hfl (Ev.mul hfl vb vd (by bd)) va a1q (((t1.mul (IsInt.int d))).of_eq (by q_eq)) (by bd)) (by bd)) (Ev.div hfl (Ev.mul hfl ve (Ev.add hfl (Ev.mul hfl Ev.two vb (by bd)) (Ev.div hfl (Ev.mul hfl vb vb (by bd)) va a1q ((((IsInt.smul (-2) (IsInt.int b)).add ((IsInt.int c).mul t3))).of_eq (by q_eq)) (by bd)) (by bd)) (by bd)) vc c1q ((((IsInt.smul (-1) ((IsInt.int f).mul t6)).add (t1.mul (IsInt.int d)))).of_eq (by q_eq)) (by bd)) (by bd))
    refine and_dep (iff_mod Et7) fun u7 => ?_
    have t7 := (pyMod_q hf).1 u7
    simp only [fadd, fsub, fmul, fdiv, id] at t7
    have Et8 := (Ev.sub hfl (Ev.sub hfl (Ev.div hfl (Ev.mul hfl vc vd (by bd)) va a1q (((t0.mul (IsInt.int d))).of_eq (by q_eq)) (by bd)) (Ev.mul hfl Ev.two ve (by bd)) (by bd)) (Ev.div hfl (Ev.mul hfl vb ve (by bd)) va a1q (((t1.mul (IsInt.int e))).of_eq (by q_eq)) (by bd)) (by bd))
    refine and_dep (iff_mod Et8) fun u8 => ?_
    have t8 := (pyMod_q hf).1 u8
    simp only [fadd, fsub, fmul, fdiv, id] at t8
    have Et9 := (Ev.div hfl (Ev.sub hfl (Ev.mul hfl vc vd (by bd)) (Ev.mul hfl vb ve (by bd)) (by bd)) va a1q ((((IsInt.smul 2 (IsInt.int e)).add ((IsInt.int f).mul t8))).of_eq (by q_eq)) (by bd))
    exact iff_mod Et9
  rintro ⟨u6, u7, u8, u9⟩
  have t6 := (pyMod_q hf).1 u6
  simp only [fadd, fsub, fmul, fdiv, id] at t6
  have t7 := (pyMod_q hf).1 u7
  simp only [fadd, fsub, fmul, fdiv, id] at t7
  have t8 := (pyMod_q hf).1 u8
  simp only [fadd, fsub, fmul, fdiv, id] at t8
  have t9 := (pyMod_q hf).1 u9
  simp only [fadd, fsub, fmul, fdiv, id] at t9
  try rfl

theorem rhom_9_24_fl {fl : ℚ → ℚ} (hfl : Binary64 fl) {n : ℤ} (hn : n ≤ 10 ^ 7) :
    rhom_9_24 fl n = rhom_9_24 id n := by
  unfold rhom_9_24
  refine fm_congr fun x hx => ?_
  obtain ⟨a, c, f⟩ := x
  obtain ⟨⟨ha, hc, hf⟩, ⟨a1q, c1q, f1q⟩, ⟨ba, bc, bf⟩, ⟨bac, baf, bcf⟩, ⟨baa, bcc, bff⟩,
    ⟨bccf, bcff⟩⟩ := diag_bounds hn hx
  have ha' : (a : ℚ) ≠ 0 := by exact_mod_cast ha.ne'
  have hc' : (c : ℚ) ≠ 0 := by exact_mod_cast hc.ne'
  have hf' : (f : ℚ) ≠ 0 := by exact_mod_cast hf.ne'
  have va := Ev.var ha.le (le_refl a)
  have vc := Ev.var hc.le (le_refl c)
  have vf := Ev.var hf.le (le_refl f)
  try dsimp only
  refine ite_nil_congr ?_ ?_
  · exact Iff.rfl
  rintro u0
  have t0 := (emod_q ha).1 u0
  refine fm_congr fun b hb => ?_
  obtain ⟨t1, b0, b1⟩ := (mem_halves_q hc).1 hb
  have vb := Ev.var b0 b1.le
  try dsimp only
  refine ite_nil_congr ?_ ?_
  · have Et2 := (Ev.add hfl vf (Ev.div hfl (Ev.mul hfl vb vf (by bd)) va a1q (((t0.mul (IsInt.int b))).of_eq (by q_eq)) (by bd)) (by bd))
    exact iff_mod Et2
  rintro u2
  have t2 := (pyMod_q hc).1 u2
  simp only [fadd, fsub, fmul, fdiv, id] at t2
  refine fm_congr fun e he => ?_
  obtain ⟨t3, e0, e1⟩ := (mem_step_q ha).1 he
  have ve := Ev.var e0 e1.le
  try dsimp only
  refine ite_nil_congr ?_ ?_
  · have Et4 := (Ev.add hfl ve (Ev.div hfl (Ev.mul hfl vb ve (by bd)) va a1q ((((IsInt.int b).mul t3)).of_eq (by q_eq)) (by bd)) (by bd))
    refine and_dep (iff_mod Et4) fun u4 => ?_
    have t4 := (pyMod_q hc).1 u4
    simp only [fadd, fsub, fmul, fdiv, id] at t4
    have Et5 := (Ev.add hfl vc (Ev.mul hfl Ev.two ve (by bd)) (by bd))
    refine and_dep (iff_mod Et5) fun u5 => ?_
    have t5 := (pyMod_q hf).1 u5
    simp only [fadd, fsub, fmul, fdiv, id] at t5
    have Et6 := (Ev.add hfl vb (Ev.div hfl (Ev.mul hfl (Ev.mul hfl Ev.two vb (by bd)) ve (by bd)) vc c1q (((t1.mul (IsInt.int e))).of_eq (by q_eq)) (by bd)) (by bd))
    exact iff_mod Et6
  rintro ⟨u4, u5, u6⟩
  have t4 := (pyMod_q hc).1 u4
  simp only [fadd, fsub, fmul, fdiv, id] at t4
  have t5 := (pyMod_q hf).1 u5
  simp only [fadd, fsub, fmul, fdiv, id] at t5
  have t6 := (pyMod_q hf).1 u6
  simp only [fadd, fsub, fmul, fdiv, id] at t6
  refine fm_congr fun d hd => ?_
  obtain ⟨t7, d0, d1⟩ := (mem_step_q ha).1 hd
  have vd := Ev.var d0 d1.le
  try dsimp only
  refine ite_nil_congr ?_ ?_
  · have Et8 := (Ev.add hfl (Ev.add hfl (Ev.add hfl (va).neg vb (by bd)) vd (by bd)) (Ev.div hfl (Ev.mul hfl vd vb (by bd)) va a1q ((((IsInt.int b).mul t7)).of_eq (by q_eq)) (by bd)) (by bd))
    refine and_dep (iff_mod Et8) fun u8 => ?_
    have t8 := (pyMod_q hc).1 u8
    simp only [fadd, fsub, fmul, fdiv, id] at t8
    have Et9 := (Ev.sub hfl (Ev.add hfl (Ev.sub hfl (vb).neg vd (by bd)) (Ev.div hfl (Ev.mul hfl vd vd (by bd)) va a1q (((t7.mul (IsInt.int d))).of_eq (by q_eq)) (by bd)) (by bd)) (Ev.div hfl (Ev.mul hfl ve (Ev.add hfl (Ev.add hfl (Ev.add hfl (va).neg vb (by bd)) vd (by bd)) (Ev.div hfl (Ev.mul hfl vd vb (by bd)) va a1q ((((IsInt.int b).mul t7)).of_eq (by q_eq)) (by bd)) (by bd)) (by bd)) vc c1q ((((IsInt.int e).mul t8)).of_eq (by q_eq)) (by bd)) (by bd))
    refine and_dep (iff_mod Et9) fun u9 => ?_
    have t9 := (pyMod_q hf).1 u9
    simp only [fadd, fsub, fmul, fdiv, id] at t9
    have Et10 := (Ev.sub hfl (Ev.add hfl (Ev.sub hfl (vc).neg (Ev.mul hfl Ev.two ve (by bd)) (by bd)) (Ev.div hfl (Ev.mul hfl vd ve (by bd)) va a1q (((t3.mul (IsInt.int d))).of_eq (by q_eq)) (by bd)) (by bd)) (Ev.div hfl (Ev.mul hfl ve (Ev.add hfl ve (Ev.div hfl (Ev.mul hfl vb ve (by bd)) va a1q ((((IsInt.smul (-1) (IsInt.int e)).add ((IsInt.int c).mul t4))).of_eq (by q_eq)) (by bd)) (by bd)) (by bd)) vc c1q ((((IsInt.int e).mul t4)).of_eq (by q_eq)) (by bd)) (by bd))
    exact iff_mod Et10
  rintro ⟨u8, u9, u10⟩
  have t8 := (pyMod_q hc).1 u8
  simp only [fadd, fsub, fmul, fdiv, id] at t8
  have t9 := (pyMod_q hf).1 u9
  simp only [fadd, fsub, fmul, fdiv, id] at t9
  have t10 := (pyMod_q hf).1 u10
  simp only [fadd, fsub, fmul, fdiv, id] at t10
  try rfl

theorem stet_11_fl {fl : ℚ → ℚ} (hfl : Binary64 fl) {n : ℤ} (hn : n ≤ 10 ^ 7) :
    stet_11 fl n = stet_11 id n := by
  unfold stet_11
  refine fm_congr fun x hx => ?_
  obtain ⟨a, c, f⟩ := x
  obtain ⟨⟨ha, hc, hf⟩, ⟨a1q, c1q, f1q⟩, ⟨ba, bc, bf⟩, ⟨bac, baf, bcf⟩, ⟨baa, bcc, bff⟩,
    ⟨bccf, bcff⟩⟩ := diag_bounds hn hx
  have ha' : (a : ℚ) ≠ 0 := by exact_mod_cast ha.ne'
  have hc' : (c : ℚ) ≠ 0 := by exact_mod_cast hc.ne'
  have hf' : (f : ℚ) ≠ 0 := by exact_mod_cast hf.ne'
  have va := Ev.var ha.le (le_refl a)
  have vc := Ev.var hc.le (le_refl c)
  have vf := Ev.var hf.le (le_refl f)
  try dsimp only
  refine ite_nil_congr ?_ ?_
  · exact Iff.rfl
  rintro u0
  have t0 := (emod_q ha).1 u0
  refine fm_congr fun b hb => ?_
  obtain ⟨t1, b0, b1⟩ := (mem_halves_q hc).1 hb
  have vb := Ev.var b0 b1.le
  try dsimp only
  refine ite_nil_congr ?_ ?_
  · exact Iff.rfl
  rintro u2
  have t2 := (emod_q ha).1 u2
  refine ite_nil_congr ?_ ?_
  · have Et3 := (Ev.add hfl (va).neg (Ev.div hfl (Ev.mul hfl vb vb (by bd)) va a1q ((((IsInt.int b).mul t2)).of_eq (by q_eq)) (by bd)) (by bd))
    exact iff_mod Et3
  rintro u3
  have t3 := (pyMod_q hc).1 u3
  simp only [fadd, fsub, fmul, fdiv, id] at t3
  refine fm_congr fun e he => ?_
  obtain ⟨t4, e0, e1⟩ := (mem_halves_q hf).1 he
  have ve := Ev.var e0 e1.le
  try dsimp only
  refine ite_nil_congr ?_ ?_
  · have Et5 := (Ev.div hfl (Ev.mul hfl (Ev.mul hfl Ev.two vb (by bd)) ve (by bd)) vc c1q (((t1.mul (IsInt.int e))).of_eq (by q_eq)) (by bd))
    exact iff_mod Et5
  rintro u5
  have t5 := (pyMod_q hf).1 u5
  simp only [fadd, fsub, fmul, fdiv, id] at t5
  refine fm_congr fun d hd => ?_
  obtain ⟨d0, d1⟩ := mem_pyRange.1 hd
  have vd := Ev.var d0 d1.le
  try dsimp only
  refine ite_nil_congr ?_ ?_
  · have Et6 := (Ev.add hfl (Ev.div hfl (Ev.mul hfl (ve).neg (Ev.add hfl (va).neg (Ev.div hfl (Ev.mul hfl vb vb (by bd)) va a1q ((((IsInt.int a).add ((IsInt.int c).mul t3))).of_eq (by q_eq)) (by bd)) (by bd)) (by bd)) vc c1q (((IsInt.smul (-1) (t3.mul (IsInt.int e)))).of_eq (by q_eq)) (by bd)) (Ev.mul hfl vd (Ev.sub hfl (Ev.div hfl vb va a1q ((t2).of_eq (by q_eq)) (by bd)) Ev.one (by bd)) (by bd)) (by bd))
    refine and_dep (iff_mod Et6) fun u6 => ?_
    have t6 := (pyMod_q hf).1 u6
    simp only [fadd, fsub, fmul, fdiv, id] at t6
    have Et7 := (Ev.add hfl (Ev.mul hfl (ve).neg (Ev.add hfl (Ev.div hfl vb va a1q ((t2).of_eq (by q_eq)) (by bd)) Ev.one (by bd)) (by bd)) (Ev.div hfl (Ev.mul hfl vd vc (by bd)) va a1q (((t0.mul (IsInt.int d))).of_eq (by q_eq)) (by bd)) (by bd))
    exact iff_mod Et7
  rintro ⟨u6, u7⟩
  have t6 := (pyMod_q hf).1 u6
  simp only [fadd, fsub, fmul, fdiv, id] at t6
  have t7 := (pyMod_q hf).1 u7
  simp only [fadd, fsub, fmul, fdiv, id] at t7
  try rfl

theorem body_tet_6_7_15_18_fl {fl : ℚ → ℚ} (hfl : Binary64 fl) {n : ℤ} (hn : n ≤ 10 ^ 7) :
    body_tet_6_7_15_18 fl n = body_tet_6_7_15_18 id n := by
  unfold body_tet_6_7_15_18
  refine fm_congr fun x hx => ?_
  obtain ⟨a, c, f⟩ := x
  obtain ⟨⟨ha, hc, hf⟩, ⟨a1q, c1q, f1q⟩, ⟨ba, bc, bf⟩, ⟨bac, baf, bcf⟩, ⟨baa, bcc, bff⟩,
    ⟨bccf, bcff⟩⟩ := diag_bounds hn hx
  have ha' : (a : ℚ) ≠ 0 := by exact_mod_cast ha.ne'
  have hc' : (c : ℚ) ≠ 0 := by exact_mod_cast hc.ne'
  have hf' : (f : ℚ) ≠ 0 := by exact_mod_cast hf.ne'
  have va := Ev.var ha.le (le_refl a)
  have vc := Ev.var hc.le (le_refl c)
  have vf := Ev.var hf.le (le_refl f)
  try dsimp only
  refine ite_nil_congr ?_ ?_
  · exact Iff.rfl
  rintro u0
  have t0 := (emod_q hc).1 u0
  refine fm_congr fun e he => ?_
  obtain ⟨t1, e0, e1⟩ := (mem_halves_q hf).1 he
  have ve := Ev.var e0 e1.le
  try dsimp only
  refine ite_nil_congr ?_ ?_
  · exact Iff.rfl
  rintro u2
  have t2 := (emod_q hc).1 u2
  refine ite_nil_congr ?_ ?_
  · have Et3 := (Ev.add hfl (vc).neg (Ev.div hfl (Ev.mul hfl ve ve (by bd)) vc c1q ((((IsInt.int e).mul t2)).of_eq (by q_eq)) (by bd)) (by bd))
    exact iff_mod Et3
  rintro u3
  have t3 := (pyMod_q hf).1 u3
  simp only [fadd, fsub, fmul, fdiv, id] at t3
  refine fm_congr fun d hd => ?_
  obtain ⟨d0, d1⟩ := mem_pyRange.1 hd
  have vd := Ev.var d0 d1.le
  try dsimp only
  refine ite_nil_congr ?_ ?_
  · have Et4 := (Ev.add hfl va (Ev.mul hfl Ev.two vd (by bd)) (by bd))
    exact iff_mod Et4
  rintro u4
  have t4 := (pyMod_q hf).1 u4
  simp only [fadd, fsub, fmul, fdiv, id] at t4
  refine fm_congr fun b hb => ?_
  obtain ⟨b0, b1⟩ := mem_pyRange.1 hb
  have vb := Ev.var b0 b1.le
  try dsimp only
  refine ite_nil_congr ?_ ?_
  · have Et5 := (Ev.sub hfl vb vd (by bd))
    exact iff_mod Et5
  rintro u5
  have t5 := (pyMod_q hc).1 u5
  simp only [fadd, fsub, fmul, fdiv, id] at t5
  refine ite_nil_congr ?_ ?_
  · have Et6 := (Ev.sub hfl (Ev.add hfl (vb).neg vd (by bd)) (Ev.div hfl (Ev.mul hfl (Ev.sub hfl vb vd (by bd)) ve (by bd)) vc c1q ((((IsInt.int e).mul t5)).of_eq (by q_eq)) (by bd)) (by bd))
    exact iff_mod Et6
  rintro u6
  have t6 := (pyMod_q hf).1 u6
  simp only [fadd, fsub, fmul, fdiv, id] at t6
  try rfl

theorem body_ortho_8_fl {fl : ℚ → ℚ} (hfl : Binary64 fl) {n : ℤ} (hn : n ≤ 10 ^ 7) :
    body_ortho_8 fl n = body_ortho_8 id n := by
  unfold body_ortho_8
  refine fm_congr fun x hx => ?_
  obtain ⟨a, c, f⟩ := x
  obtain ⟨⟨ha, hc, hf⟩, ⟨a1q, c1q, f1q⟩, ⟨ba, bc, bf⟩, ⟨bac, baf, bcf⟩, ⟨baa, bcc, bff⟩,
    ⟨bccf, bcff⟩⟩ := diag_bounds hn hx
  have ha' : (a : ℚ) ≠ 0 := by exact_mod_cast ha.ne'
  have hc' : (c : ℚ) ≠ 0 := by exact_mod_cast hc.ne'
  have hf' : (f : ℚ) ≠ 0 := by exact_mod_cast hf.ne'
  have va := Ev.var ha.le (le_refl a)
  have vc := Ev.var hc.le (le_refl c)
  have vf := Ev.var hf.le (le_refl f)
  try dsimp only
  refine ite_nil_congr ?_ ?_
  · exact Iff.rfl
  rintro u0
  have t0 := (emod_q hc).1 u0
  refine fm_congr fun b hb => ?_
  obtain ⟨t1, b0, b1⟩ := (mem_halves_q hc).1 hb
  have vb := Ev.var b0 b1.le
  try dsimp only
  refine fm_congr fun e he => ?_
  obtain ⟨e0, e1⟩ := mem_pyRange.1 he
  have ve := Ev.var e0 e1.le
  try dsimp only
  refine ite_nil_congr ?_ ?_
  · have Et2 := (Ev.mul hfl Ev.two ve (by bd))
    refine and_dep (iff_mod Et2) fun u2 => ?_
    have t2 := (pyMod_q hc).1 u2
    simp only [fadd, fsub, fmul, fdiv, id] at t2
    have Et3 := (Ev.add hfl ((Ev.mul hfl Ev.two ve (by bd))).neg (Ev.div hfl (Ev.mul hfl (Ev.mul hfl Ev.two ve (by bd)) ve (by bd)) vc c1q ((((IsInt.int e).mul t2)).of_eq (by q_eq)) (by bd)) (by bd))
    exact iff_mod Et3
  rintro ⟨u2, u3⟩
  have t2 := (pyMod_q hc).1 u2
  simp only [fadd, fsub, fmul, fdiv, id] at t2
  have t3 := (pyMod_q hf).1 u3
  simp only [fadd, fsub, fmul, fdiv, id] at t3
  refine fm_congr fun d hd => ?_
  obtain ⟨d0, d1⟩ := mem_pyRange.1 hd
  have vd := Ev.var d0 d1.le
  try dsimp only
  refine ite_nil_congr ?_ ?_
  · have Et4 := (Ev.sub hfl (Ev.add hfl (va).neg (Ev.mul hfl Ev.two vb (by bd)) (by bd)) (Ev.mul hfl Ev.two vd (by bd)) (by bd))
    refine and_dep (iff_mod Et4) fun u4 => ?_
    have t4 := (pyMod_q hc).1 u4
    simp only [fadd, fsub, fmul, fdiv, id] at t4
    have Et5 := (Ev.div hfl (Ev.mul hfl ((Ev.sub hfl (Ev.add hfl (va).neg (Ev.mul hfl Ev.two vb (by bd)) (by bd)) (Ev.mul hfl Ev.two vd (by bd)) (by bd))).neg ve (by bd)) vc c1q (((IsInt.smul (-1) ((IsInt.int e).mul t4))).of_eq (by q_eq)) (by bd))
    refine and_dep (iff_mod Et5) fun u5 => ?_
    have t5 := (pyMod_q hf).1 u5
    simp only [fadd, fsub, fmul, fdiv, id] at t5
    have Et6 := (Ev.sub hfl (Ev.add hfl va (Ev.mul hfl Ev.two vd (by bd)) (by bd)) (Ev.div hfl (Ev.mul hfl (Ev.mul hfl Ev.two ve (by bd)) vb (by bd)) vc c1q (((t1.mul (IsInt.int e))).of_eq (by q_eq)) (by bd)) (by bd))
    exact iff_mod Et6
  rintro ⟨u4, u5, u6⟩
  have t4 := (pyMod_q hc).1 u4
  simp only [fadd, fsub, fmul, fdiv, id] at t4
  have t5 := (pyMod_q hf).1 u5
  simp only [fadd, fsub, fmul, fdiv, id] at t5
  have t6 := (pyMod_q hf).1 u6
  simp only [fadd, fsub, fmul, fdiv, id] at t6
  try rfl

theorem face_ortho_26_fl {fl : ℚ → ℚ} (hfl : Binary64 fl) {n : ℤ} (hn : n ≤ 10 ^ 7) :
    face_ortho_26 fl n = face_ortho_26 id n := by
  unfold face_ortho_26
  refine fm_congr fun x hx => ?_
  obtain ⟨a, c, f⟩ := x
  obtain ⟨⟨ha, hc, hf⟩, ⟨a1q, c1q, f1q⟩, ⟨ba, bc, bf⟩, ⟨bac, baf, bcf⟩, ⟨baa, bcc, bff⟩,
    ⟨bccf, bcff⟩⟩ := diag_bounds hn hx
  have ha' : (a : ℚ) ≠ 0 := by exact_mod_cast ha.ne'
  have hc' : (c : ℚ) ≠ 0 := by exact_mod_cast hc.ne'
  have hf' : (f : ℚ) ≠ 0 := by exact_mod_cast hf.ne'
  have va := Ev.var ha.le (le_refl a)
  have vc := Ev.var hc.le (le_refl c)
  have vf := Ev.var hf.le (le_refl f)
  try dsimp only
  refine fm_congr fun b hb => ?_
  obtain ⟨t0, b0, b1⟩ := (mem_halves_q hc).1 hb
  have vb := Ev.var b0 b1.le
  try dsimp only
  refine fm_congr fun e he => ?_
  obtain ⟨e0, e1⟩ := mem_pyRange.1 he
  have ve := Ev.var e0 e1.le
  try dsimp only
  refine ite_nil_congr ?_ ?_
  · have Et1 := (Ev.add hfl vc (Ev.mul hfl Ev.two ve (by bd)) (by bd))
    refine and_dep (iff_mod Et1) fun u1 => ?_
    have t1 := (pyMod_q hf).1 u1
    simp only [fadd, fsub, fmul, fdiv, id] at t1
    have Et2 := (Ev.add hfl vb (Ev.div hfl (Ev.mul hfl (Ev.mul hfl Ev.two vb (by bd)) ve (by bd)) vc c1q (((t0.mul (IsInt.int e))).of_eq (by q_eq)) (by bd)) (by bd))
    exact iff_mod Et2
  rintro ⟨u1, u2⟩
  have t1 := (pyMod_q hf).1 u1
  simp only [fadd, fsub, fmul, fdiv, id] at t1
  have t2 := (pyMod_q hf).1 u2
  simp only [fadd, fsub, fmul, fdiv, id] at t2
  refine fm_congr fun d hd => ?_
  obtain ⟨d0, d1⟩ := mem_pyRange.1 hd
  have vd := Ev.var d0 d1.le
  try dsimp only
  refine ite_nil_congr ?_ ?_
  · have Et3 := (Ev.add hfl (Ev.add hfl va vb (by bd)) (Ev.mul hfl Ev.two vd (by bd)) (by bd))
    exact iff_mod Et3
  rintro u3
  have t3 := (pyMod_q hf).1 u3
  simp only [fadd, fsub, fmul, fdiv, id] at t3
  try rfl

theorem base_ortho_38_13_fl {fl : ℚ → ℚ} (hfl : Binary64 fl) {n : ℤ} (hn : n ≤ 10 ^ 7) :
    base_ortho_38_13 fl n = base_ortho_38_13 id n := by
  unfold base_ortho_38_13
  refine fm_congr fun x hx => ?_
  obtain ⟨a, c, f⟩ := x
  obtain ⟨⟨ha, hc, hf⟩, ⟨a1q, c1q, f1q⟩, ⟨ba, bc, bf⟩, ⟨bac, baf, bcf⟩, ⟨baa, bcc, bff⟩,
    ⟨bccf, bcff⟩⟩ := diag_bounds hn hx
  have ha' : (a : ℚ) ≠ 0 := by exact_mod_cast ha.ne'
  have hc' : (c : ℚ) ≠ 0 := by exact_mod_cast hc.ne'
  have hf' : (f : ℚ) ≠ 0 := by exact_mod_cast hf.ne'
  have va := Ev.var ha.le (le_refl a)
  have vc := Ev.var hc.le (le_refl c)
  have vf := Ev.var hf.le (le_refl f)
  try dsimp only
  refine ite_nil_congr ?_ ?_
  · exact Iff.rfl
  rintro u0
  have t0 := (emod_q ha).1 u0
  refine fm_congr fun b hb => ?_
  obtain ⟨t1, b0, b1⟩ := (mem_step_q ha).1 hb
  have vb := Ev.var b0 b1.le
  try dsimp only
  refine ite_nil_congr ?_ ?_
  · have Et2 := (Ev.add hfl (va).neg (Ev.div hfl (Ev.mul hfl vb vb (by bd)) va a1q (((t1.mul (IsInt.int b))).of_eq (by q_eq)) (by bd)) (by bd))
    exact iff_mod Et2
  rintro u2
  have t2 := (pyMod_q hc).1 u2
  simp only [fadd, fsub, fmul, fdiv, id] at t2
  refine fm_congr fun e he => ?_
  obtain ⟨t3, e0, e1⟩ := (mem_halves_q hf).1 he
  have ve := Ev.var e0 e1.le
  try dsimp only
  refine fm_congr fun d hd => ?_
  obtain ⟨t4, d0, d1⟩ := (mem_halves_q hf).1 hd
  have vd := Ev.var d0 d1.le
  try dsimp only
  refine ite_nil_congr ?_ ?_
  · have Et5 := (Ev.sub hfl (Ev.add hfl (vd).neg (Ev.div hfl (Ev.mul hfl vb vd (by bd)) va a1q (((t1.mul (IsInt.int d))).of_eq (by q_eq)) (by bd)) (by bd)) (Ev.div hfl (Ev.mul hfl ve (Ev.add hfl (va).neg (Ev.div hfl (Ev.mul hfl vb vb (by bd)) va a1q ((((IsInt.int a).add ((IsInt.int c).mul t2))).of_eq (by q_eq)) (by bd)) (by bd)) (by bd)) vc c1q (((t2.mul (IsInt.int e))).of_eq (by q_eq)) (by bd)) (by bd))
    refine and_dep (iff_mod Et5) fun u5 => ?_
    have t5 := (pyMod_q hf).1 u5
    simp only [fadd, fsub, fmul, fdiv, id] at t5
    have Et6 := (Ev.sub hfl (Ev.sub hfl (Ev.div hfl (Ev.mul hfl vc vd (by bd)) va a1q (((t0.mul (IsInt.int d))).of_eq (by q_eq)) (by bd)) ve (by bd)) (Ev.div hfl (Ev.mul hfl vb ve (by bd)) va a1q (((t1.mul (IsInt.int e))).of_eq (by q_eq)) (by bd)) (by bd))
    exact iff_mod Et6
  rintro ⟨u5, u6⟩
  have t5 := (pyMod_q hf).1 u5
  simp only [fadd, fsub, fmul, fdiv, id] at t5
  have t6 := (pyMod_q hf).1 u6
  simp only [fadd, fsub, fmul, fdiv, id] at t6
  try rfl

theorem base_ortho_40_fl {fl : ℚ → ℚ} (hfl : Binary64 fl) {n : ℤ} (hn : n ≤ 10 ^ 7) :
    base_ortho_40 fl n = base_ortho_40 id n := by
  unfold base_ortho_40
  refine fm_congr fun x hx => ?_
  obtain ⟨a, c, f⟩ := x
  obtain ⟨⟨ha, hc, hf⟩, ⟨a1q, c1q, f1q⟩, ⟨ba, bc, bf⟩, ⟨bac, baf, bcf⟩, ⟨baa, bcc, bff⟩,
    ⟨bccf, bcff⟩⟩ := diag_bounds hn hx
  have ha' : (a : ℚ) ≠ 0 := by exact_mod_cast ha.ne'
  have hc' : (c : ℚ) ≠ 0 := by exact_mod_cast hc.ne'
  have hf' : (f : ℚ) ≠ 0 := by exact_mod_cast hf.ne'
  have va := Ev.var ha.le (le_refl a)
  have vc := Ev.var hc.le (le_refl c)
  have vf := Ev.var hf.le (le_refl f)
  try dsimp only
  refine ite_nil_congr ?_ ?_
  · exact Iff.rfl
  rintro u0
  have t0 := (emod_q hc).1 u0
  refine fm_congr fun e he => ?_
  obtain ⟨t1, e0, e1⟩ := (mem_step_q hc).1 he
  have ve := Ev.var e0 e1.le
  try dsimp only
  refine ite_nil_congr ?_ ?_
  · have Et2 := (Ev.sub hfl (Ev.mul hfl Ev.two ve (by bd)) (Ev.div hfl (Ev.mul hfl ve ve (by bd)) vc c1q (((t1.mul (IsInt.int e))).of_eq (by q_eq)) (by bd)) (by bd))
    exact iff_mod Et2
  rintro u2
  have t2 := (pyMod_q hf).1 u2
  simp only [fadd, fsub, fmul, fdiv, id] at t2
  refine fm_congr fun d hd => ?_
  obtain ⟨t3, d0, d1⟩ := (mem_step_q hc).1 hd
  have vd := Ev.var d0 d1.le
  try dsimp only
  refine ite_nil_congr ?_ ?_
  · have Et4 := (Ev.sub hfl (Ev.mul hfl Ev.two vd (by bd)) (Ev.div hfl (Ev.mul hfl vd ve (by bd)) vc c1q (((t1.mul (IsInt.int d))).of_eq (by q_eq)) (by bd)) (by bd))
    exact iff_mod Et4
  rintro u4
  have t4 := (pyMod_q hf).1 u4
  simp only [fadd, fsub, fmul, fdiv, id] at t4
  refine fm_congr fun b hb => ?_
  obtain ⟨b0, b1⟩ := mem_pyRange.1 hb
  have vb := Ev.var b0 b1.le
  try dsimp only
  refine ite_nil_congr ?_ ?_
  · have Et5 := (Ev.sub hfl (Ev.mul hfl Ev.two vb (by bd)) vd (by bd))
    refine and_dep (iff_mod Et5) fun u5 => ?_
    have t5 := (pyMod_q hc).1 u5
    simp only [fadd, fsub, fmul, fdiv, id] at t5
    have Et6 := (Ev.div hfl (Ev.mul hfl (Ev.sub hfl (Ev.mul hfl Ev.two vb (by bd)) vd (by bd)) ve (by bd)) vc c1q ((((IsInt.int e).mul t5)).of_eq (by q_eq)) (by bd))
    exact iff_mod Et6
  rintro ⟨u5, u6⟩
  have t5 := (pyMod_q hc).1 u5
  simp only [fadd, fsub, fmul, fdiv, id] at t5
  have t6 := (pyMod_q hf).1 u6
  simp only [fadd, fsub, fmul, fdiv, id] at t6
  try rfl

theorem base_mono_20_25_fl {fl : ℚ → ℚ} (hfl : Binary64 fl) {n : ℤ} (hn : n ≤ 10 ^ 7) :
    base_mono_20_25 fl n = base_mono_20_25 id n := by
  unfold base_mono_20_25
  refine fm_congr fun x hx => ?_
  obtain ⟨a, c, f⟩ := x
  obtain ⟨⟨ha, hc, hf⟩, ⟨a1q, c1q, f1q⟩, ⟨ba, bc, bf⟩, ⟨bac, baf, bcf⟩, ⟨baa, bcc, bff⟩,
    ⟨bccf, bcff⟩⟩ := diag_bounds hn hx
  have ha' : (a : ℚ) ≠ 0 := by exact_mod_cast ha.ne'
  have hc' : (c : ℚ) ≠ 0 := by exact_mod_cast hc.ne'
  have hf' : (f : ℚ) ≠ 0 := by exact_mod_cast hf.ne'
  have va := Ev.var ha.le (le_refl a)
  have vc := Ev.var hc.le (le_refl c)
  have vf := Ev.var hf.le (le_refl f)
  try dsimp only
  refine fm_congr fun e he => ?_
  obtain ⟨e0, e1⟩ := mem_pyRange.1 he
  have ve := Ev.var e0 e1.le
  try dsimp only
  refine ite_nil_congr ?_ ?_
  · have Et0 := (Ev.sub hfl (vc).neg (Ev.mul hfl Ev.two ve (by bd)) (by bd))
    exact iff_mod Et0
  rintro u0
  have t0 := (pyMod_q hf).1 u0
  simp only [fadd, fsub, fmul, fdiv, id] at t0
  refine fm_congr fun b hb => ?_
  obtain ⟨t1, b0, b1⟩ := (mem_halves_q hc).1 hb
  have vb := Ev.var b0 b1.le
  try dsimp only
  refine ite_nil_congr ?_ ?_
  · have Et2 := (Ev.sub hfl (vb).neg (Ev.div hfl (Ev.mul hfl (Ev.mul hfl Ev.two vb (by bd)) ve (by bd)) vc c1q ((((IsInt.int e).mul t1)).of_eq (by q_eq)) (by bd)) (by bd))
    exact iff_mod Et2
  rintro u2
  have t2 := (pyMod_q hf).1 u2
  simp only [fadd, fsub, fmul, fdiv, id] at t2
  refine fm_congr fun d hd => ?_
  obtain ⟨d0, d1⟩ := mem_pyRange.1 hd
  have vd := Ev.var d0 d1.le
  try dsimp only
  try rfl

theorem base_mono_29_30_fl {fl : ℚ → ℚ} (hfl : Binary64 fl) {n : ℤ} (hn : n ≤ 10 ^ 7) :
    base_mono_29_30 fl n = base_mono_29_30 id n := by
  unfold base_mono_29_30
  refine fm_congr fun x hx => ?_
  obtain ⟨a, c, f⟩ := x
  obtain ⟨⟨ha, hc, hf⟩, ⟨a1q, c1q, f1q⟩, ⟨ba, bc, bf⟩, ⟨bac, baf, bcf⟩, ⟨baa, bcc, bff⟩,
    ⟨bccf, bcff⟩⟩ := diag_bounds hn hx
  have ha' : (a : ℚ) ≠ 0 := by exact_mod_cast ha.ne'
  have hc' : (c : ℚ) ≠ 0 := by exact_mod_cast hc.ne'
  have hf' : (f : ℚ) ≠ 0 := by exact_mod_cast hf.ne'
  have va := Ev.var ha.le (le_refl a)
  have vc := Ev.var hc.le (le_refl c)
  have vf := Ev.var hf.le (le_refl f)
  try dsimp only
  refine ite_nil_congr ?_ ?_
  · exact Iff.rfl
  rintro u0
  have t0 := (emod_q hc).1 u0
  refine fm_congr fun e he => ?_
  obtain ⟨t1, e0, e1⟩ := (mem_step_q hc).1 he
  have ve := Ev.var e0 e1.le
  try dsimp only
  refine ite_nil_congr ?_ ?_
  · have Et2 := (Ev.add hfl (Ev.mul hfl Ev.two ve (by bd)) (Ev.div hfl (Ev.mul hfl ve ve (by bd)) vc c1q (((t1.mul (IsInt.int e))).of_eq (by q_eq)) (by bd)) (by bd))
    exact iff_mod Et2
  rintro u2
  have t2 := (pyMod_q hf).1 u2
  simp only [fadd, fsub, fmul, fdiv, id] at t2
  refine fm_congr fun d hd => ?_
  obtain ⟨t3, d0, d1⟩ := (mem_step_q hc).1 hd
  have vd := Ev.var d0 d1.le
  try dsimp only
  refine ite_nil_congr ?_ ?_
  · have Et4 := (Ev.add hfl (Ev.mul hfl Ev.two vd (by bd)) (Ev.div hfl (Ev.mul hfl vd ve (by bd)) vc c1q (((t1.mul (IsInt.int d))).of_eq (by q_eq)) (by bd)) (by bd))
    exact iff_mod Et4
  rintro u4
  have t4 := (pyMod_q hf).1 u4
  simp only [fadd, fsub, fmul, fdiv, id] at t4
  refine fm_congr fun b hb => ?_
  obtain ⟨b0, b1⟩ := mem_pyRange.1 hb
  have vb := Ev.var b0 b1.le
  try dsimp only
  try rfl

theorem base_mono_43_fl {fl : ℚ → ℚ} (hfl : Binary64 fl) {n : ℤ} (hn : n ≤ 10 ^ 7) :
    base_mono_43 fl n = base_mono_43 id n := by
  unfold base_mono_43
  refine fm_congr fun x hx => ?_
  obtain ⟨a, c, f⟩ := x
  obtain ⟨⟨ha, hc, hf⟩, ⟨a1q, c1q, f1q⟩, ⟨ba, bc, bf⟩, ⟨bac, baf, bcf⟩, ⟨baa, bcc, bff⟩,
    ⟨bccf, bcff⟩⟩ := diag_bounds hn hx
  have ha' : (a : ℚ) ≠ 0 := by exact_mod_cast ha.ne'
  have hc' : (c : ℚ) ≠ 0 := by exact_mod_cast hc.ne'
  have hf' : (f : ℚ) ≠ 0 := by exact_mod_cast hf.ne'
  have va := Ev.var ha.le (le_refl a)
  have vc := Ev.var hc.le (le_refl c)
  have vf := Ev.var hf.le (le_refl f)
  try dsimp only
  refine ite_nil_congr ?_ ?_
  · exact Iff.rfl
  rintro u0
  have t0 := (emod_q hc).1 u0
  refine fm_congr fun e he => ?_
  obtain ⟨t1, e0, e1⟩ := (mem_step_q hc).1 he
  have ve := Ev.var e0 e1.le
  try dsimp only
  refine ite_nil_congr ?_ ?_
  · have Et2 := (Ev.sub hfl (Ev.mul hfl Ev.two ve (by bd)) (Ev.div hfl (Ev.mul hfl ve ve (by bd)) vc c1q (((t1.mul (IsInt.int e))).of_eq (by q_eq)) (by bd)) (by bd))
    exact iff_mod Et2
  rintro u2
  have t2 := (pyMod_q hf).1 u2
  simp only [fadd, fsub, fmul, fdiv, id] at t2
  refine fm_congr fun d hd => ?_
  obtain ⟨d0, d1⟩ := mem_pyRange.1 hd
  have vd := Ev.var d0 d1.le
  try dsimp only
  refine ite_nil_congr ?_ ?_
  · have Et3 := (Ev.add hfl va vd (by bd))
    refine and_dep (iff_mod Et3) fun u3 => ?_
    have t3 := (pyMod_q hc).1 u3
    simp only [fadd, fsub, fmul, fdiv, id] at t3
    have Et4 := (Ev.sub hfl (Ev.add hfl (Ev.mul hfl Ev.two va (by bd)) (Ev.mul hfl Ev.two vd (by bd)) (by bd)) (Ev.div hfl (Ev.mul hfl (Ev.add hfl va vd (by bd)) ve (by bd)) vc c1q (((((IsInt.int a).mul t1).add (t1.mul (IsInt.int d)))).of_eq (by q_eq)) (by bd)) (by bd))
    exact iff_mod Et4
  rintro ⟨u3, u4⟩
  have t3 := (pyMod_q hc).1 u3
  simp only [fadd, fsub, fmul, fdiv, id] at t3
  have t4 := (pyMod_q hf).1 u4
  simp only [fadd, fsub, fmul, fdiv, id] at t4
  refine fm_congr fun b hb => ?_
  obtain ⟨b0, b1⟩ := mem_pyRange.1 hb
  have vb := Ev.var b0 b1.le
  try dsimp only
  try rfl

end AutoGR
