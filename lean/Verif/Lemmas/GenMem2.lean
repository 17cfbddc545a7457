import Verif.Lemmas.IsInt

/-! # What each generator lists, as integrality conditions (part 2) -/

set_option linter.unusedSimpArgs false

namespace AutoGR

open Spec

theorem hex_22_mem {n : ℤ} {H : IntMat} : H ∈ hex_22 id n ↔
    (IsHNF H ∧ H.det = n) ∧ Keeps !![1, 0, 0; 0, 0, 1; 0, 1, 0] H ∧
      Keeps !![1, 0, 0; 0, 0, 1; 0, -1, 1] H := by
  unfold hex_22
  refine gen_mem (Q := fun H => Keeps !![1, 0, 0; 0, 0, 1; 0, 1, 0] H ∧
    Keeps !![1, 0, 0; 0, 0, 1; 0, -1, 1] H) ?_
  intro a c f ha hc hf H
  have ha' : (a : ℚ) ≠ 0 := by exact_mod_cast ha.ne'
  have hc' : (c : ℚ) ≠ 0 := by exact_mod_cast hc.ne'
  have hf' : (f : ℚ) ≠ 0 := by exact_mod_cast hf.ne'
  simp only [List.mem_flatMap, List.mem_ite_nil_right, List.mem_singleton]
  simp only [emod_q hc, mem_step_q hc, pyMod_q hf, mem_pyRange, fadd,
    fsub, fmul, fdiv, id]
  constructor
  · rintro ⟨t0, e, ⟨t1, e0, e1⟩, ⟨t2, t3, t4⟩, b, ⟨b0, b1⟩, d, ⟨t5, d0, d1⟩, ⟨t6, t7⟩, rfl⟩
    exact ⟨b, d, e, ⟨b0, b1⟩, ⟨d0, d1⟩, ⟨e0, e1⟩,
      ⟨(keeps_q ha hc hf).2 ⟨⟨((IsInt.int 1)).of_eq (by q_eq),
        (((IsInt.smul (-1) t5).add (t0.mul t6))).of_eq (by q_eq),
        (((IsInt.smul (-1) t7).add (IsInt.smul (-1) (t1.mul t6)))).of_eq (by q_eq)⟩,
        ⟨((IsInt.int 0)).of_eq (by q_eq),
        (t1).of_eq (by q_eq),
        (((IsInt.smul (-1) t3).add (IsInt.smul (-1) (t1.mul t2)))).of_eq (by q_eq)⟩,
        ⟨((IsInt.int 0)).of_eq (by q_eq),
        (t0).of_eq (by q_eq),
        ((IsInt.smul (-1) t1)).of_eq (by q_eq)⟩⟩,
      (keeps_q ha hc hf).2 ⟨⟨((IsInt.int 1)).of_eq (by q_eq),
        (((IsInt.smul (-1) t5).add (t0.mul t6))).of_eq (by q_eq),
        (((t7.add (IsInt.smul (-1) (t1.mul t6))).add (t2.mul t5))).of_eq (by q_eq)⟩,
        ⟨((IsInt.int 0)).of_eq (by q_eq),
        (t1).of_eq (by q_eq),
        (t3).of_eq (by q_eq)⟩,
        ⟨((IsInt.int 0)).of_eq (by q_eq),
        (t0).of_eq (by q_eq),
        (((IsInt.int 1).add (IsInt.smul (-1) t1))).of_eq (by q_eq)⟩⟩⟩, rfl⟩
  · rintro ⟨b, d, e, ⟨b0, b1⟩, ⟨d0, d1⟩, ⟨e0, e1⟩, ⟨k0, k1⟩, rfl⟩
    obtain ⟨⟨y00, y01, y02⟩, ⟨y03, y04, y05⟩, ⟨y06, y07, y08⟩⟩ := (keeps_q ha hc hf).1 k0
    obtain ⟨⟨y10, y11, y12⟩, ⟨y13, y14, y15⟩, ⟨y16, y17, y18⟩⟩ := (keeps_q ha hc hf).1 k1
    exact ⟨(y07).of_eq (by q_eq),
      e, ⟨(y04).of_eq (by q_eq), e0, e1⟩,
      ⟨((((IsInt.smul (-1) y05).add (y04.mul y05)).add (IsInt.smul (-1) (y04.mul y15)))).of_eq (by q_eq),
      (y15).of_eq (by q_eq),
      (y04).of_eq (by q_eq)⟩,
      b, ⟨b0, b1⟩,
      d, ⟨(((y01.add (IsInt.smul (-1) (y01.mul y04))).add (IsInt.smul (-1) (y07.mul y12)))).of_eq (by q_eq), d0, d1⟩,
      ⟨((((IsInt.smul (-1) y12).add (y01.mul y05)).add (IsInt.smul (-1) (y01.mul y15)))).of_eq (by q_eq),
      (((IsInt.smul (-1) (y01.mul y15)).add (y04.mul y12))).of_eq (by q_eq)⟩, rfl⟩

theorem stet_11_mem {n : ℤ} {H : IntMat} : H ∈ stet_11 id n ↔
    (IsHNF H ∧ H.det = n) ∧ Keeps !![0, 1, 0; 1, 0, 0; 0, 0, 1] H ∧
      Keeps !![1, 0, 0; 0, -1, 0; 0, 0, 1] H := by
  unfold stet_11
  refine gen_mem (Q := fun H => Keeps !![0, 1, 0; 1, 0, 0; 0, 0, 1] H ∧
    Keeps !![1, 0, 0; 0, -1, 0; 0, 0, 1] H) ?_
  intro a c f ha hc hf H
  have ha' : (a : ℚ) ≠ 0 := by exact_mod_cast ha.ne'
  have hc' : (c : ℚ) ≠ 0 := by exact_mod_cast hc.ne'
  have hf' : (f : ℚ) ≠ 0 := by exact_mod_cast hf.ne'
  simp only [List.mem_flatMap, List.mem_ite_nil_right, List.mem_singleton]
  simp only [emod_q ha, mem_halves_q hc, pyMod_q hc, mem_halves_q hf, pyMod_q hf,
    mem_pyRange, fadd, fsub, fmul, fdiv,
    id]
  constructor
  · rintro ⟨t0, b, ⟨t1, b0, b1⟩, t2, t3, e, ⟨t4, e0, e1⟩, t5, d, ⟨d0, d1⟩, ⟨t6, t7⟩, rfl⟩
    exact ⟨b, d, e, ⟨b0, b1⟩, ⟨d0, d1⟩, ⟨e0, e1⟩,
      ⟨(keeps_q ha hc hf).2 ⟨⟨(t2).of_eq (by q_eq),
        ((IsInt.smul (-1) t3)).of_eq (by q_eq),
        ((IsInt.smul (-1) t6)).of_eq (by q_eq)⟩,
        ⟨(t0).of_eq (by q_eq),
        ((IsInt.smul (-1) t2)).of_eq (by q_eq),
        ((IsInt.smul (-1) t7)).of_eq (by q_eq)⟩,
        ⟨((IsInt.int 0)).of_eq (by q_eq),
        ((IsInt.int 0)).of_eq (by q_eq),
        ((IsInt.int 1)).of_eq (by q_eq)⟩⟩,
      (keeps_q ha hc hf).2 ⟨⟨((IsInt.int 1)).of_eq (by q_eq),
        ((IsInt.smul (-1) t1)).of_eq (by q_eq),
        (t5).of_eq (by q_eq)⟩,
        ⟨((IsInt.int 0)).of_eq (by q_eq),
        ((IsInt.int (-1))).of_eq (by q_eq),
        (t4).of_eq (by q_eq)⟩,
        ⟨((IsInt.int 0)).of_eq (by q_eq),
        ((IsInt.int 0)).of_eq (by q_eq),
        ((IsInt.int 1)).of_eq (by q_eq)⟩⟩⟩, rfl⟩
  · rintro ⟨b, d, e, ⟨b0, b1⟩, ⟨d0, d1⟩, ⟨e0, e1⟩, ⟨k0, k1⟩, rfl⟩
    obtain ⟨⟨y00, y01, y02⟩, ⟨y03, y04, y05⟩, ⟨y06, y07, y08⟩⟩ := (keeps_q ha hc hf).1 k0
    obtain ⟨⟨y10, y11, y12⟩, ⟨y13, y14, y15⟩, ⟨y16, y17, y18⟩⟩ := (keeps_q ha hc hf).1 k1
    exact ⟨(y03).of_eq (by q_eq),
      b, ⟨((IsInt.smul (-1) y11)).of_eq (by q_eq), b0, b1⟩,
      (y00).of_eq (by q_eq),
      ((IsInt.smul (-1) y01)).of_eq (by q_eq),
      e, ⟨(y15).of_eq (by q_eq), e0, e1⟩,
      (y12).of_eq (by q_eq),
      d, ⟨d0, d1⟩,
      ⟨((IsInt.smul (-1) y02)).of_eq (by q_eq),
      ((IsInt.smul (-1) y05)).of_eq (by q_eq)⟩, rfl⟩

theorem so_32_mem {n : ℤ} {H : IntMat} : H ∈ so_32 n ↔
    (IsHNF H ∧ H.det = n) ∧ Keeps !![1, 0, 0; 0, 1, 0; 0, 0, -1] H ∧
      Keeps !![1, 0, 0; 0, -1, 0; 0, 0, -1] H := by
  unfold so_32
  refine gen_mem (Q := fun H => Keeps !![1, 0, 0; 0, 1, 0; 0, 0, -1] H ∧
    Keeps !![1, 0, 0; 0, -1, 0; 0, 0, -1] H) ?_
  intro a c f ha hc hf H
  have ha' : (a : ℚ) ≠ 0 := by exact_mod_cast ha.ne'
  have hc' : (c : ℚ) ≠ 0 := by exact_mod_cast hc.ne'
  have hf' : (f : ℚ) ≠ 0 := by exact_mod_cast hf.ne'
  simp only [List.mem_flatMap, List.mem_ite_nil_right, List.mem_singleton]
  simp only [mem_halves_q hc, mem_halves_q hf, emod_q (mul_pos hf hc)]
  constructor
  · rintro ⟨b, ⟨t0, b0, b1⟩, e, ⟨t1, e0, e1⟩, t2, d, ⟨t3, d0, d1⟩, rfl⟩
    exact ⟨b, d, e, ⟨b0, b1⟩, ⟨d0, d1⟩, ⟨e0, e1⟩,
      ⟨(keeps_q ha hc hf).2 ⟨⟨((IsInt.int 1)).of_eq (by q_eq),
        ((IsInt.int 0)).of_eq (by q_eq),
        ((IsInt.smul (-1) t3)).of_eq (by q_eq)⟩,
        ⟨((IsInt.int 0)).of_eq (by q_eq),
        ((IsInt.int 1)).of_eq (by q_eq),
        ((IsInt.smul (-1) t1)).of_eq (by q_eq)⟩,
        ⟨((IsInt.int 0)).of_eq (by q_eq),
        ((IsInt.int 0)).of_eq (by q_eq),
        ((IsInt.int (-1))).of_eq (by q_eq)⟩⟩,
      (keeps_q ha hc hf).2 ⟨⟨((IsInt.int 1)).of_eq (by q_eq),
        ((IsInt.smul (-1) t0)).of_eq (by q_eq),
        ((t2.add (IsInt.smul (-1) t3))).of_eq (by q_eq)⟩,
        ⟨((IsInt.int 0)).of_eq (by q_eq),
        ((IsInt.int (-1))).of_eq (by q_eq),
        ((IsInt.int 0)).of_eq (by q_eq)⟩,
        ⟨((IsInt.int 0)).of_eq (by q_eq),
        ((IsInt.int 0)).of_eq (by q_eq),
        ((IsInt.int (-1))).of_eq (by q_eq)⟩⟩⟩, rfl⟩
  · rintro ⟨b, d, e, ⟨b0, b1⟩, ⟨d0, d1⟩, ⟨e0, e1⟩, ⟨k0, k1⟩, rfl⟩
    obtain ⟨⟨y00, y01, y02⟩, ⟨y03, y04, y05⟩, ⟨y06, y07, y08⟩⟩ := (keeps_q ha hc hf).1 k0
    obtain ⟨⟨y10, y11, y12⟩, ⟨y13, y14, y15⟩, ⟨y16, y17, y18⟩⟩ := (keeps_q ha hc hf).1 k1
    exact ⟨b, ⟨((IsInt.smul (-1) y11)).of_eq (by q_eq), b0, b1⟩,
      e, ⟨((IsInt.smul (-1) y05)).of_eq (by q_eq), e0, e1⟩,
      (((IsInt.smul (-1) y02).add y12)).of_eq (by q_eq),
      d, ⟨((IsInt.smul (-1) y02)).of_eq (by q_eq), d0, d1⟩, rfl⟩

theorem body_ortho_42_mem {n : ℤ} {H : IntMat} : H ∈ body_ortho_42 id n ↔
    (IsHNF H ∧ H.det = n) ∧ Keeps !![1, 0, 0; 1, -1, 0; 0, 0, 1] H ∧
      Keeps !![1, 0, 0; 0, 1, 0; 1, 0, -1] H := by
  unfold body_ortho_42
  refine gen_mem (Q := fun H => Keeps !![1, 0, 0; 1, -1, 0; 0, 0, 1] H ∧
    Keeps !![1, 0, 0; 0, 1, 0; 1, 0, -1] H) ?_
  intro a c f ha hc hf H
  have ha' : (a : ℚ) ≠ 0 := by exact_mod_cast ha.ne'
  have hc' : (c : ℚ) ≠ 0 := by exact_mod_cast hc.ne'
  have hf' : (f : ℚ) ≠ 0 := by exact_mod_cast hf.ne'
  simp only [List.mem_flatMap, List.mem_ite_nil_right, List.mem_singleton]
  simp only [mem_halves_q hf, mem_pyRange, pyMod_q hc, pyMod_q hf, fadd,
    fsub, fmul, fdiv, id]
  constructor
  · rintro ⟨e, ⟨t0, e0, e1⟩, b, ⟨b0, b1⟩, ⟨t1, t2⟩, d, ⟨d0, d1⟩, ⟨t3, t4⟩, rfl⟩
    exact ⟨b, d, e, ⟨b0, b1⟩, ⟨d0, d1⟩, ⟨e0, e1⟩,
      ⟨(keeps_q ha hc hf).2 ⟨⟨((IsInt.int 1)).of_eq (by q_eq),
        ((IsInt.smul (-1) t1)).of_eq (by q_eq),
        ((IsInt.smul (-1) t2)).of_eq (by q_eq)⟩,
        ⟨((IsInt.int 0)).of_eq (by q_eq),
        ((IsInt.int (-1))).of_eq (by q_eq),
        (t0).of_eq (by q_eq)⟩,
        ⟨((IsInt.int 0)).of_eq (by q_eq),
        ((IsInt.int 0)).of_eq (by q_eq),
        ((IsInt.int 1)).of_eq (by q_eq)⟩⟩,
      (keeps_q ha hc hf).2 ⟨⟨((IsInt.int 1)).of_eq (by q_eq),
        ((IsInt.int 0)).of_eq (by q_eq),
        ((t2.add (IsInt.smul (-1) t3))).of_eq (by q_eq)⟩,
        ⟨((IsInt.int 0)).of_eq (by q_eq),
        ((IsInt.int 1)).of_eq (by q_eq),
        ((IsInt.smul (-1) t0)).of_eq (by q_eq)⟩,
        ⟨((IsInt.int 0)).of_eq (by q_eq),
        ((IsInt.int 0)).of_eq (by q_eq),
        ((IsInt.int (-1))).of_eq (by q_eq)⟩⟩⟩, rfl⟩
  · rintro ⟨b, d, e, ⟨b0, b1⟩, ⟨d0, d1⟩, ⟨e0, e1⟩, ⟨k0, k1⟩, rfl⟩
    obtain ⟨⟨y00, y01, y02⟩, ⟨y03, y04, y05⟩, ⟨y06, y07, y08⟩⟩ := (keeps_q ha hc hf).1 k0
    obtain ⟨⟨y10, y11, y12⟩, ⟨y13, y14, y15⟩, ⟨y16, y17, y18⟩⟩ := (keeps_q ha hc hf).1 k1
    exact ⟨e, ⟨(y05).of_eq (by q_eq), e0, e1⟩,
      b, ⟨b0, b1⟩,
      ⟨((IsInt.smul (-1) y01)).of_eq (by q_eq),
      ((IsInt.smul (-1) y02)).of_eq (by q_eq)⟩,
      d, ⟨d0, d1⟩,
      ⟨(((IsInt.smul (-1) y02).add (IsInt.smul (-1) y12))).of_eq (by q_eq),
      ((IsInt.smul (-1) y12)).of_eq (by q_eq)⟩, rfl⟩

theorem base_ortho_38_13_mem {n : ℤ} {H : IntMat} : H ∈ base_ortho_38_13 id n ↔
    (IsHNF H ∧ H.det = n) ∧ Keeps !![1, 0, 0; 0, 1, 0; 0, 0, -1] H ∧
      Keeps !![0, 1, 0; 1, 0, 0; 0, 0, 1] H := by
  unfold base_ortho_38_13
  refine gen_mem (Q := fun H => Keeps !![1, 0, 0; 0, 1, 0; 0, 0, -1] H ∧
    Keeps !![0, 1, 0; 1, 0, 0; 0, 0, 1] H) ?_
  intro a c f ha hc hf H
  have ha' : (a : ℚ) ≠ 0 := by exact_mod_cast ha.ne'
  have hc' : (c : ℚ) ≠ 0 := by exact_mod_cast hc.ne'
  have hf' : (f : ℚ) ≠ 0 := by exact_mod_cast hf.ne'
  simp only [List.mem_flatMap, List.mem_ite_nil_right, List.mem_singleton]
  simp only [emod_q ha, mem_step_q ha, pyMod_q hc, mem_halves_q hf, pyMod_q hf,
    fadd, fsub, fmul, fdiv, id]
  constructor
  · rintro ⟨t0, b, ⟨t1, b0, b1⟩, t2, e, ⟨t3, e0, e1⟩, d, ⟨t4, d0, d1⟩, ⟨t5, t6⟩, rfl⟩
    exact ⟨b, d, e, ⟨b0, b1⟩, ⟨d0, d1⟩, ⟨e0, e1⟩,
      ⟨(keeps_q ha hc hf).2 ⟨⟨((IsInt.int 1)).of_eq (by q_eq),
        ((IsInt.int 0)).of_eq (by q_eq),
        ((IsInt.smul (-1) t4)).of_eq (by q_eq)⟩,
        ⟨((IsInt.int 0)).of_eq (by q_eq),
        ((IsInt.int 1)).of_eq (by q_eq),
        ((IsInt.smul (-1) t3)).of_eq (by q_eq)⟩,
        ⟨((IsInt.int 0)).of_eq (by q_eq),
        ((IsInt.int 0)).of_eq (by q_eq),
        ((IsInt.int (-1))).of_eq (by q_eq)⟩⟩,
      (keeps_q ha hc hf).2 ⟨⟨(t1).of_eq (by q_eq),
        ((IsInt.smul (-1) t2)).of_eq (by q_eq),
        ((IsInt.smul (-1) t5)).of_eq (by q_eq)⟩,
        ⟨(t0).of_eq (by q_eq),
        ((IsInt.smul (-1) t1)).of_eq (by q_eq),
        ((IsInt.smul (-1) t6)).of_eq (by q_eq)⟩,
        ⟨((IsInt.int 0)).of_eq (by q_eq),
        ((IsInt.int 0)).of_eq (by q_eq),
        ((IsInt.int 1)).of_eq (by q_eq)⟩⟩⟩, rfl⟩
  · rintro ⟨b, d, e, ⟨b0, b1⟩, ⟨d0, d1⟩, ⟨e0, e1⟩, ⟨k0, k1⟩, rfl⟩
    obtain ⟨⟨y00, y01, y02⟩, ⟨y03, y04, y05⟩, ⟨y06, y07, y08⟩⟩ := (keeps_q ha hc hf).1 k0
    obtain ⟨⟨y10, y11, y12⟩, ⟨y13, y14, y15⟩, ⟨y16, y17, y18⟩⟩ := (keeps_q ha hc hf).1 k1
    exact ⟨(y13).of_eq (by q_eq),
      b, ⟨(y10).of_eq (by q_eq), b0, b1⟩,
      ((IsInt.smul (-1) y11)).of_eq (by q_eq),
      e, ⟨((IsInt.smul (-1) y05)).of_eq (by q_eq), e0, e1⟩,
      d, ⟨((IsInt.smul (-1) y02)).of_eq (by q_eq), d0, d1⟩,
      ⟨((IsInt.smul (-1) y12)).of_eq (by q_eq),
      ((IsInt.smul (-1) y15)).of_eq (by q_eq)⟩, rfl⟩

theorem base_ortho_36_mem {n : ℤ} {H : IntMat} : H ∈ base_ortho_36 id n ↔
    (IsHNF H ∧ H.det = n) ∧ Keeps !![1, 0, 0; 0, -1, 0; 0, 0, 1] H ∧
      Keeps !![1, 0, -1; 0, -1, 0; 0, 0, -1] H := by
  unfold base_ortho_36
  refine gen_mem (Q := fun H => Keeps !![1, 0, 0; 0, -1, 0; 0, 0, 1] H ∧
    Keeps !![1, 0, -1; 0, -1, 0; 0, 0, -1] H) ?_
  intro a c f ha hc hf H
  have ha' : (a : ℚ) ≠ 0 := by exact_mod_cast ha.ne'
  have hc' : (c : ℚ) ≠ 0 := by exact_mod_cast hc.ne'
  have hf' : (f : ℚ) ≠ 0 := by exact_mod_cast hf.ne'
  simp only [List.mem_flatMap, List.mem_ite_nil_right, List.mem_singleton]
  simp only [emod_q ha, mem_halves_q hc, pyMod_q hc, mem_halves_q hf, pyMod_q hf,
    mem_step_q ha, fadd, fsub, fmul, fdiv,
    id]
  constructor
  · rintro ⟨t0, b, ⟨t1, b0, b1⟩, t2, e, ⟨t3, e0, e1⟩, ⟨t4, t5, t6⟩, d, ⟨t7, d0, d1⟩, ⟨t8, t9, t10⟩, rfl⟩
    exact ⟨b, d, e, ⟨b0, b1⟩, ⟨d0, d1⟩, ⟨e0, e1⟩,
      ⟨(keeps_q ha hc hf).2 ⟨⟨((IsInt.int 1)).of_eq (by q_eq),
        ((IsInt.smul (-1) t1)).of_eq (by q_eq),
        ((IsInt.smul (-1) t5)).of_eq (by q_eq)⟩,
        ⟨((IsInt.int 0)).of_eq (by q_eq),
        ((IsInt.int (-1))).of_eq (by q_eq),
        (t3).of_eq (by q_eq)⟩,
        ⟨((IsInt.int 0)).of_eq (by q_eq),
        ((IsInt.int 0)).of_eq (by q_eq),
        ((IsInt.int 1)).of_eq (by q_eq)⟩⟩,
      (keeps_q ha hc hf).2 ⟨⟨(((IsInt.int 1).add (IsInt.smul (-1) t7))).of_eq (by q_eq),
        (((IsInt.smul (-1) t1).add (IsInt.smul (-1) t8))).of_eq (by q_eq),
        (((IsInt.smul (-1) t5).add (IsInt.smul (-1) t9))).of_eq (by q_eq)⟩,
        ⟨((IsInt.smul (-1) t6)).of_eq (by q_eq),
        (((IsInt.int (-1)).add (IsInt.smul (-1) t4))).of_eq (by q_eq),
        ((t3.add (IsInt.smul (-1) t10))).of_eq (by q_eq)⟩,
        ⟨((IsInt.smul (-1) t0)).of_eq (by q_eq),
        ((IsInt.smul (-1) t2)).of_eq (by q_eq),
        ((((IsInt.int (-1)).add t4).add t7)).of_eq (by q_eq)⟩⟩⟩, rfl⟩
  · rintro ⟨b, d, e, ⟨b0, b1⟩, ⟨d0, d1⟩, ⟨e0, e1⟩, ⟨k0, k1⟩, rfl⟩
    obtain ⟨⟨y00, y01, y02⟩, ⟨y03, y04, y05⟩, ⟨y06, y07, y08⟩⟩ := (keeps_q ha hc hf).1 k0
    obtain ⟨⟨y10, y11, y12⟩, ⟨y13, y14, y15⟩, ⟨y16, y17, y18⟩⟩ := (keeps_q ha hc hf).1 k1
    exact ⟨((IsInt.smul (-1) y16)).of_eq (by q_eq),
      b, ⟨((IsInt.smul (-1) y01)).of_eq (by q_eq), b0, b1⟩,
      ((IsInt.smul (-1) y17)).of_eq (by q_eq),
      e, ⟨(y05).of_eq (by q_eq), e0, e1⟩,
      ⟨(((IsInt.int (-1)).add (IsInt.smul (-1) y14))).of_eq (by q_eq),
      ((IsInt.smul (-1) y02)).of_eq (by q_eq),
      ((IsInt.smul (-1) y13)).of_eq (by q_eq)⟩,
      d, ⟨(((IsInt.int 1).add (IsInt.smul (-1) y10))).of_eq (by q_eq), d0, d1⟩,
      ⟨((y01.add (IsInt.smul (-1) y11))).of_eq (by q_eq),
      ((y02.add (IsInt.smul (-1) y12))).of_eq (by q_eq),
      ((y05.add (IsInt.smul (-1) y15))).of_eq (by q_eq)⟩, rfl⟩

theorem base_mono_29_30_mem {n : ℤ} {H : IntMat} : H ∈ base_mono_29_30 id n ↔
    (IsHNF H ∧ H.det = n) ∧ Keeps !![1, 0, 0; 0, 1, 1; 0, 0, -1] H := by
  unfold base_mono_29_30
  refine gen_mem (Q := fun H => Keeps !![1, 0, 0; 0, 1, 1; 0, 0, -1] H) ?_
  intro a c f ha hc hf H
  have ha' : (a : ℚ) ≠ 0 := by exact_mod_cast ha.ne'
  have hc' : (c : ℚ) ≠ 0 := by exact_mod_cast hc.ne'
  have hf' : (f : ℚ) ≠ 0 := by exact_mod_cast hf.ne'
  simp only [List.mem_flatMap, List.mem_ite_nil_right, List.mem_singleton]
  simp only [emod_q hc, mem_step_q hc, pyMod_q hf, mem_pyRange, fadd,
    fsub, fmul, fdiv, id]
  constructor
  · rintro ⟨t0, e, ⟨t1, e0, e1⟩, t2, d, ⟨t3, d0, d1⟩, t4, b, ⟨b0, b1⟩, rfl⟩
    exact ⟨b, d, e, ⟨b0, b1⟩, ⟨d0, d1⟩, ⟨e0, e1⟩,
      (keeps_q ha hc hf).2 ⟨⟨((IsInt.int 1)).of_eq (by q_eq),
        (t3).of_eq (by q_eq),
        ((IsInt.smul (-1) t4)).of_eq (by q_eq)⟩,
        ⟨((IsInt.int 0)).of_eq (by q_eq),
        (((IsInt.int 1).add t1)).of_eq (by q_eq),
        ((IsInt.smul (-1) t2)).of_eq (by q_eq)⟩,
        ⟨((IsInt.int 0)).of_eq (by q_eq),
        (t0).of_eq (by q_eq),
        (((IsInt.int (-1)).add (IsInt.smul (-1) t1))).of_eq (by q_eq)⟩⟩, rfl⟩
  · rintro ⟨b, d, e, ⟨b0, b1⟩, ⟨d0, d1⟩, ⟨e0, e1⟩, k0, rfl⟩
    obtain ⟨⟨y00, y01, y02⟩, ⟨y03, y04, y05⟩, ⟨y06, y07, y08⟩⟩ := (keeps_q ha hc hf).1 k0
    exact ⟨(y07).of_eq (by q_eq),
      e, ⟨(((IsInt.int (-1)).add y04)).of_eq (by q_eq), e0, e1⟩,
      ((IsInt.smul (-1) y05)).of_eq (by q_eq),
      d, ⟨(y01).of_eq (by q_eq), d0, d1⟩,
      ((IsInt.smul (-1) y02)).of_eq (by q_eq),
      b, ⟨b0, b1⟩, rfl⟩

theorem sm_33_mem {n : ℤ} {H : IntMat} : H ∈ sm_33 id n ↔
    (IsHNF H ∧ H.det = n) ∧ Keeps !![1, 0, 0; 0, -1, 0; 0, 0, 1] H := by
  unfold sm_33
  refine gen_mem (Q := fun H => Keeps !![1, 0, 0; 0, -1, 0; 0, 0, 1] H) ?_
  intro a c f ha hc hf H
  have ha' : (a : ℚ) ≠ 0 := by exact_mod_cast ha.ne'
  have hc' : (c : ℚ) ≠ 0 := by exact_mod_cast hc.ne'
  have hf' : (f : ℚ) ≠ 0 := by exact_mod_cast hf.ne'
  simp only [List.mem_flatMap, List.mem_ite_nil_right, List.mem_singleton]
  simp only [mem_halves_q hc, mem_halves_q hf, pyMod_q hf, mem_pyRange, fadd,
    fsub, fmul, fdiv, id]
  constructor
  · rintro ⟨b, ⟨t0, b0, b1⟩, e, ⟨t1, e0, e1⟩, t2, d, ⟨d0, d1⟩, rfl⟩
    exact ⟨b, d, e, ⟨b0, b1⟩, ⟨d0, d1⟩, ⟨e0, e1⟩,
      (keeps_q ha hc hf).2 ⟨⟨((IsInt.int 1)).of_eq (by q_eq),
        ((IsInt.smul (-1) t0)).of_eq (by q_eq),
        (t2).of_eq (by q_eq)⟩,
        ⟨((IsInt.int 0)).of_eq (by q_eq),
        ((IsInt.int (-1))).of_eq (by q_eq),
        (t1).of_eq (by q_eq)⟩,
        ⟨((IsInt.int 0)).of_eq (by q_eq),
        ((IsInt.int 0)).of_eq (by q_eq),
        ((IsInt.int 1)).of_eq (by q_eq)⟩⟩, rfl⟩
  · rintro ⟨b, d, e, ⟨b0, b1⟩, ⟨d0, d1⟩, ⟨e0, e1⟩, k0, rfl⟩
    obtain ⟨⟨y00, y01, y02⟩, ⟨y03, y04, y05⟩, ⟨y06, y07, y08⟩⟩ := (keeps_q ha hc hf).1 k0
    exact ⟨b, ⟨((IsInt.smul (-1) y01)).of_eq (by q_eq), b0, b1⟩,
      e, ⟨(y05).of_eq (by q_eq), e0, e1⟩,
      (y02).of_eq (by q_eq),
      d, ⟨d0, d1⟩, rfl⟩

end AutoGR
