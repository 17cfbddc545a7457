import Verif.Lemmas.IsInt

/-! # What each generator lists, as integrality conditions (part 3) -/

set_option linter.unusedSimpArgs false

namespace AutoGR

open Spec

theorem rhom_9_24_mem {n : ℤ} {H : IntMat} : H ∈ rhom_9_24 id n ↔
    (IsHNF H ∧ H.det = n) ∧ Keeps !![1, 0, 0; 0, -1, 0; 0, 1, 1] H ∧
      Keeps !![0, 0, 1; -1, 1, 1; 1, 0, 0] H := by
  unfold rhom_9_24
  refine gen_mem (Q := fun H => Keeps !![1, 0, 0; 0, -1, 0; 0, 1, 1] H ∧
    Keeps !![0, 0, 1; -1, 1, 1; 1, 0, 0] H) ?_
  intro a c f ha hc hf H
  have ha' : (a : ℚ) ≠ 0 := by exact_mod_cast ha.ne'
  have hc' : (c : ℚ) ≠ 0 := by exact_mod_cast hc.ne'
  have hf' : (f : ℚ) ≠ 0 := by exact_mod_cast hf.ne'
  simp only [List.mem_flatMap, List.mem_ite_nil_right, List.mem_singleton]
  simp only [emod_q ha, mem_halves_q hc, pyMod_q hc, mem_step_q ha, pyMod_q hf,
    fadd, fsub, fmul, fdiv, id]
  constructor
  · rintro ⟨t0, b, ⟨t1, b0, b1⟩, t2, e, ⟨t3, e0, e1⟩, ⟨t4, t5, t6⟩, d, ⟨t7, d0, d1⟩, ⟨t8, t9, t10⟩, rfl⟩
    exact ⟨b, d, e, ⟨b0, b1⟩, ⟨d0, d1⟩, ⟨e0, e1⟩,
      ⟨(keeps_q ha hc hf).2 ⟨⟨((IsInt.int 1)).of_eq (by q_eq),
        ((IsInt.smul (-1) t1)).of_eq (by q_eq),
        (t6).of_eq (by q_eq)⟩,
        ⟨((IsInt.int 0)).of_eq (by q_eq),
        ((IsInt.int (-1))).of_eq (by q_eq),
        (t5).of_eq (by q_eq)⟩,
        ⟨((IsInt.int 0)).of_eq (by q_eq),
        ((IsInt.int 0)).of_eq (by q_eq),
        ((IsInt.int 1)).of_eq (by q_eq)⟩⟩,
      (keeps_q ha hc hf).2 ⟨⟨(t7).of_eq (by q_eq),
        ((t8.add (IsInt.smul (-1) (t1.mul t7)))).of_eq (by q_eq),
        ((((IsInt.smul (-1) t9).add (IsInt.smul (-1) (t5.mul t8))).add (t6.mul t7))).of_eq (by q_eq)⟩,
        ⟨(t3).of_eq (by q_eq),
        ((((IsInt.int 1).add t4).add (IsInt.smul (-1) (t1.mul t3)))).of_eq (by q_eq),
        (((((IsInt.smul (-1) t5).add (IsInt.smul (-1) t10)).add (t3.mul t6)).add (IsInt.smul (-1) (t4.mul t5)))).of_eq (by q_eq)⟩,
        ⟨(t0).of_eq (by q_eq),
        ((t2.add (IsInt.smul (-1) (t0.mul t1)))).of_eq (by q_eq),
        ((((IsInt.smul (-1) t4).add (IsInt.smul (-1) t7)).add (t1.mul t3))).of_eq (by q_eq)⟩⟩⟩, rfl⟩
  · rintro ⟨b, d, e, ⟨b0, b1⟩, ⟨d0, d1⟩, ⟨e0, e1⟩, ⟨k0, k1⟩, rfl⟩
    obtain ⟨⟨y00, y01, y02⟩, ⟨y03, y04, y05⟩, ⟨y06, y07, y08⟩⟩ := (keeps_q ha hc hf).1 k0
    obtain ⟨⟨y10, y11, y12⟩, ⟨y13, y14, y15⟩, ⟨y16, y17, y18⟩⟩ := (keeps_q ha hc hf).1 k1
    exact ⟨(y16).of_eq (by q_eq),
      b, ⟨((IsInt.smul (-1) y01)).of_eq (by q_eq), b0, b1⟩,
      ((y17.add (IsInt.smul (-1) (y01.mul y16)))).of_eq (by q_eq),
      e, ⟨(y13).of_eq (by q_eq), e0, e1⟩,
      ⟨((((IsInt.int (-1)).add y14).add (IsInt.smul (-1) (y01.mul y13)))).of_eq (by q_eq),
      (y05).of_eq (by q_eq),
      (y02).of_eq (by q_eq)⟩,
      d, ⟨(y10).of_eq (by q_eq), d0, d1⟩,
      ⟨((y11.add (IsInt.smul (-1) (y01.mul y10)))).of_eq (by q_eq),
      ((((IsInt.smul (-1) y12).add (IsInt.smul (-1) (y02.mul y10))).add (IsInt.smul (-1) (y05.mul y11)))).of_eq (by q_eq),
      ((((IsInt.smul (-1) y15).add (IsInt.smul (-1) (y02.mul y13))).add (IsInt.smul (-1) (y05.mul y14)))).of_eq (by q_eq)⟩, rfl⟩

theorem stet_21_mem {n : ℤ} {H : IntMat} : H ∈ stet_21 id n ↔
    (IsHNF H ∧ H.det = n) ∧ Keeps !![1, 0, 0; 0, -1, 0; 0, 0, 1] H ∧
      Keeps !![1, 0, 0; 0, 0, -1; 0, 1, 0] H := by
  unfold stet_21
  refine gen_mem (Q := fun H => Keeps !![1, 0, 0; 0, -1, 0; 0, 0, 1] H ∧
    Keeps !![1, 0, 0; 0, 0, -1; 0, 1, 0] H) ?_
  intro a c f ha hc hf H
  have ha' : (a : ℚ) ≠ 0 := by exact_mod_cast ha.ne'
  have hc' : (c : ℚ) ≠ 0 := by exact_mod_cast hc.ne'
  have hf' : (f : ℚ) ≠ 0 := by exact_mod_cast hf.ne'
  simp only [List.mem_flatMap, List.mem_ite_nil_right, List.mem_singleton]
  simp only [emod_q hc, mem_halves_q hc, mem_halves_q hf, pyMod_q hc, pyMod_q hf,
    fadd, fsub, fmul, fdiv, id]
  constructor
  · rintro ⟨t0, b, ⟨t1, b0, b1⟩, d, ⟨t2, d0, d1⟩, t3, e, ⟨t4, e0, e1⟩, ⟨t5, t6, t7⟩, rfl⟩
    have hx : IsInt ((e : ℚ) / c) := IsInt.of_sq (((t0.mul t7).add (IsInt.int 1)).of_eq (by q_eq))
    exact ⟨b, d, e, ⟨b0, b1⟩, ⟨d0, d1⟩, ⟨e0, e1⟩,
      ⟨(keeps_q ha hc hf).2 ⟨⟨((IsInt.int 1)).of_eq (by q_eq),
        ((IsInt.smul (-1) t1)).of_eq (by q_eq),
        (((t2.mul hx).add (t3.mul t4))).of_eq (by q_eq)⟩,
        ⟨((IsInt.int 0)).of_eq (by q_eq),
        ((IsInt.int (-1))).of_eq (by q_eq),
        (t4).of_eq (by q_eq)⟩,
        ⟨((IsInt.int 0)).of_eq (by q_eq),
        ((IsInt.int 0)).of_eq (by q_eq),
        ((IsInt.int 1)).of_eq (by q_eq)⟩⟩,
      (keeps_q ha hc hf).2 ⟨⟨((IsInt.int 1)).of_eq (by q_eq),
        (((IsInt.smul (-1) t1).add t3)).of_eq (by q_eq),
        (((t2.add (IsInt.smul (-1) t5)).add (IsInt.smul (-1) t6))).of_eq (by q_eq)⟩,
        ⟨((IsInt.int 0)).of_eq (by q_eq),
        ((IsInt.smul (-1) hx)).of_eq (by q_eq),
        (((IsInt.smul (-1) t7).add (t4.mul hx))).of_eq (by q_eq)⟩,
        ⟨((IsInt.int 0)).of_eq (by q_eq),
        ((IsInt.smul (-1) t0)).of_eq (by q_eq),
        (hx).of_eq (by q_eq)⟩⟩⟩, rfl⟩
  · rintro ⟨b, d, e, ⟨b0, b1⟩, ⟨d0, d1⟩, ⟨e0, e1⟩, ⟨k0, k1⟩, rfl⟩
    obtain ⟨⟨y00, y01, y02⟩, ⟨y03, y04, y05⟩, ⟨y06, y07, y08⟩⟩ := (keeps_q ha hc hf).1 k0
    obtain ⟨⟨y10, y11, y12⟩, ⟨y13, y14, y15⟩, ⟨y16, y17, y18⟩⟩ := (keeps_q ha hc hf).1 k1
    exact ⟨((IsInt.smul (-1) y17)).of_eq (by q_eq),
      b, ⟨((IsInt.smul (-1) y01)).of_eq (by q_eq), b0, b1⟩,
      d, ⟨(((((IsInt.smul (-2) y12).add (IsInt.smul (-1) (y01.mul y15))).add (y02.mul y14)).add (IsInt.smul (-1) (y05.mul y11)))).of_eq (by q_eq), d0, d1⟩,
      (((IsInt.smul (-1) y01).add y11)).of_eq (by q_eq),
      e, ⟨(y05).of_eq (by q_eq), e0, e1⟩,
      ⟨((((y02.add (IsInt.smul (-2) y12)).add (IsInt.smul (-1) (y01.mul y15))).add (y02.mul y14))).of_eq (by q_eq),
      ((((IsInt.smul (-1) y02).add (IsInt.smul (-1) y12)).add (IsInt.smul (-1) (y05.mul y11)))).of_eq (by q_eq),
      (((IsInt.smul (-1) y15).add (IsInt.smul (-1) (y05.mul y14)))).of_eq (by q_eq)⟩, rfl⟩

theorem body_ortho_19_mem {n : ℤ} {H : IntMat} : H ∈ body_ortho_19 id n ↔
    (IsHNF H ∧ H.det = n) ∧ Keeps !![1, 0, 0; 0, 1, 0; -1, 0, -1] H ∧
      Keeps !![1, 0, 0; -1, -1, 0; 0, 0, 1] H := by
  unfold body_ortho_19
  refine gen_mem (Q := fun H => Keeps !![1, 0, 0; 0, 1, 0; -1, 0, -1] H ∧
    Keeps !![1, 0, 0; -1, -1, 0; 0, 0, 1] H) ?_
  intro a c f ha hc hf H
  have ha' : (a : ℚ) ≠ 0 := by exact_mod_cast ha.ne'
  have hc' : (c : ℚ) ≠ 0 := by exact_mod_cast hc.ne'
  have hf' : (f : ℚ) ≠ 0 := by exact_mod_cast hf.ne'
  simp only [List.mem_flatMap, List.mem_ite_nil_right, List.mem_singleton]
  simp only [mem_pyRange, pyMod_q hc, mem_halves_q hf, pyMod_q hf, fadd,
    fsub, fmul, fdiv, id]
  constructor
  · rintro ⟨b, ⟨b0, b1⟩, t0, e, ⟨t1, e0, e1⟩, t2, d, ⟨d0, d1⟩, t3, rfl⟩
    exact ⟨b, d, e, ⟨b0, b1⟩, ⟨d0, d1⟩, ⟨e0, e1⟩,
      ⟨(keeps_q ha hc hf).2 ⟨⟨((IsInt.int 1)).of_eq (by q_eq),
        ((IsInt.int 0)).of_eq (by q_eq),
        ((IsInt.smul (-1) t3)).of_eq (by q_eq)⟩,
        ⟨((IsInt.int 0)).of_eq (by q_eq),
        ((IsInt.int 1)).of_eq (by q_eq),
        ((IsInt.smul (-1) t1)).of_eq (by q_eq)⟩,
        ⟨((IsInt.int 0)).of_eq (by q_eq),
        ((IsInt.int 0)).of_eq (by q_eq),
        ((IsInt.int (-1))).of_eq (by q_eq)⟩⟩,
      (keeps_q ha hc hf).2 ⟨⟨((IsInt.int 1)).of_eq (by q_eq),
        ((IsInt.smul (-1) t0)).of_eq (by q_eq),
        (t2).of_eq (by q_eq)⟩,
        ⟨((IsInt.int 0)).of_eq (by q_eq),
        ((IsInt.int (-1))).of_eq (by q_eq),
        (t1).of_eq (by q_eq)⟩,
        ⟨((IsInt.int 0)).of_eq (by q_eq),
        ((IsInt.int 0)).of_eq (by q_eq),
        ((IsInt.int 1)).of_eq (by q_eq)⟩⟩⟩, rfl⟩
  · rintro ⟨b, d, e, ⟨b0, b1⟩, ⟨d0, d1⟩, ⟨e0, e1⟩, ⟨k0, k1⟩, rfl⟩
    obtain ⟨⟨y00, y01, y02⟩, ⟨y03, y04, y05⟩, ⟨y06, y07, y08⟩⟩ := (keeps_q ha hc hf).1 k0
    obtain ⟨⟨y10, y11, y12⟩, ⟨y13, y14, y15⟩, ⟨y16, y17, y18⟩⟩ := (keeps_q ha hc hf).1 k1
    exact ⟨b, ⟨b0, b1⟩,
      ((IsInt.smul (-1) y11)).of_eq (by q_eq),
      e, ⟨((IsInt.smul (-1) y05)).of_eq (by q_eq), e0, e1⟩,
      (y12).of_eq (by q_eq),
      d, ⟨d0, d1⟩,
      ((IsInt.smul (-1) y02)).of_eq (by q_eq), rfl⟩

theorem face_ortho_26_mem {n : ℤ} {H : IntMat} : H ∈ face_ortho_26 id n ↔
    (IsHNF H ∧ H.det = n) ∧ Keeps !![1, 0, 0; 0, -1, 0; -1, 0, -1] H ∧
      Keeps !![1, 0, 0; 0, -1, 0; 0, 1, 1] H := by
  unfold face_ortho_26
  refine gen_mem (Q := fun H => Keeps !![1, 0, 0; 0, -1, 0; -1, 0, -1] H ∧
    Keeps !![1, 0, 0; 0, -1, 0; 0, 1, 1] H) ?_
  intro a c f ha hc hf H
  have ha' : (a : ℚ) ≠ 0 := by exact_mod_cast ha.ne'
  have hc' : (c : ℚ) ≠ 0 := by exact_mod_cast hc.ne'
  have hf' : (f : ℚ) ≠ 0 := by exact_mod_cast hf.ne'
  simp only [List.mem_flatMap, List.mem_ite_nil_right, List.mem_singleton]
  simp only [mem_halves_q hc, mem_pyRange, pyMod_q hf, fadd, fsub,
    fmul, fdiv, id]
  constructor
  · rintro ⟨b, ⟨t0, b0, b1⟩, e, ⟨e0, e1⟩, ⟨t1, t2⟩, d, ⟨d0, d1⟩, t3, rfl⟩
    exact ⟨b, d, e, ⟨b0, b1⟩, ⟨d0, d1⟩, ⟨e0, e1⟩,
      ⟨(keeps_q ha hc hf).2 ⟨⟨((IsInt.int 1)).of_eq (by q_eq),
        ((IsInt.smul (-1) t0)).of_eq (by q_eq),
        ((t2.add (IsInt.smul (-1) t3))).of_eq (by q_eq)⟩,
        ⟨((IsInt.int 0)).of_eq (by q_eq),
        ((IsInt.int (-1))).of_eq (by q_eq),
        ((IsInt.int 0)).of_eq (by q_eq)⟩,
        ⟨((IsInt.int 0)).of_eq (by q_eq),
        ((IsInt.int 0)).of_eq (by q_eq),
        ((IsInt.int (-1))).of_eq (by q_eq)⟩⟩,
      (keeps_q ha hc hf).2 ⟨⟨((IsInt.int 1)).of_eq (by q_eq),
        ((IsInt.smul (-1) t0)).of_eq (by q_eq),
        (t2).of_eq (by q_eq)⟩,
        ⟨((IsInt.int 0)).of_eq (by q_eq),
        ((IsInt.int (-1))).of_eq (by q_eq),
        (t1).of_eq (by q_eq)⟩,
        ⟨((IsInt.int 0)).of_eq (by q_eq),
        ((IsInt.int 0)).of_eq (by q_eq),
        ((IsInt.int 1)).of_eq (by q_eq)⟩⟩⟩, rfl⟩
  · rintro ⟨b, d, e, ⟨b0, b1⟩, ⟨d0, d1⟩, ⟨e0, e1⟩, ⟨k0, k1⟩, rfl⟩
    obtain ⟨⟨y00, y01, y02⟩, ⟨y03, y04, y05⟩, ⟨y06, y07, y08⟩⟩ := (keeps_q ha hc hf).1 k0
    obtain ⟨⟨y10, y11, y12⟩, ⟨y13, y14, y15⟩, ⟨y16, y17, y18⟩⟩ := (keeps_q ha hc hf).1 k1
    exact ⟨b, ⟨((IsInt.smul (-1) y01)).of_eq (by q_eq), b0, b1⟩,
      e, ⟨e0, e1⟩,
      ⟨(y15).of_eq (by q_eq),
      (y12).of_eq (by q_eq)⟩,
      d, ⟨d0, d1⟩,
      (((IsInt.smul (-1) y02).add y12)).of_eq (by q_eq), rfl⟩

theorem base_ortho_23_mem {n : ℤ} {H : IntMat} : H ∈ base_ortho_23 id n ↔
    (IsHNF H ∧ H.det = n) ∧ Keeps !![0, 0, 1; 0, 1, 0; 1, 0, 0] H ∧
      Keeps !![1, 0, 0; 0, -1, 0; 0, 0, 1] H := by
  unfold base_ortho_23
  refine gen_mem (Q := fun H => Keeps !![0, 0, 1; 0, 1, 0; 1, 0, 0] H ∧
    Keeps !![1, 0, 0; 0, -1, 0; 0, 0, 1] H) ?_
  intro a c f ha hc hf H
  have ha' : (a : ℚ) ≠ 0 := by exact_mod_cast ha.ne'
  have hc' : (c : ℚ) ≠ 0 := by exact_mod_cast hc.ne'
  have hf' : (f : ℚ) ≠ 0 := by exact_mod_cast hf.ne'
  simp only [List.mem_flatMap, List.mem_ite_nil_right, List.mem_singleton]
  simp only [emod_q ha, mem_halves_q hc, emod_q (mul_pos ha hc), mem_halves_q hf, emod_q (mul_pos hc hf),
    mem_step_q ha, pyMod_q hc, pyMod_q hf, fadd, fsub,
    fmul, fdiv, id]
  constructor
  · rintro ⟨t0, b, ⟨t1, b0, b1⟩, t2, e, ⟨t3, e0, e1⟩, ⟨t4, t5, t6⟩, d, ⟨t7, d0, d1⟩, ⟨t8, t9, t10⟩, rfl⟩
    exact ⟨b, d, e, ⟨b0, b1⟩, ⟨d0, d1⟩, ⟨e0, e1⟩,
      ⟨(keeps_q ha hc hf).2 ⟨⟨(t7).of_eq (by q_eq),
        ((IsInt.smul (-1) t8)).of_eq (by q_eq),
        ((IsInt.smul (-1) t9)).of_eq (by q_eq)⟩,
        ⟨(t6).of_eq (by q_eq),
        (((IsInt.int 1).add (IsInt.smul (-1) t4))).of_eq (by q_eq),
        ((IsInt.smul (-1) t10)).of_eq (by q_eq)⟩,
        ⟨(t0).of_eq (by q_eq),
        ((IsInt.smul (-1) t2)).of_eq (by q_eq),
        ((t4.add (IsInt.smul (-1) t7))).of_eq (by q_eq)⟩⟩,
      (keeps_q ha hc hf).2 ⟨⟨((IsInt.int 1)).of_eq (by q_eq),
        ((IsInt.smul (-1) t1)).of_eq (by q_eq),
        (t5).of_eq (by q_eq)⟩,
        ⟨((IsInt.int 0)).of_eq (by q_eq),
        ((IsInt.int (-1))).of_eq (by q_eq),
        (t3).of_eq (by q_eq)⟩,
        ⟨((IsInt.int 0)).of_eq (by q_eq),
        ((IsInt.int 0)).of_eq (by q_eq),
        ((IsInt.int 1)).of_eq (by q_eq)⟩⟩⟩, rfl⟩
  · rintro ⟨b, d, e, ⟨b0, b1⟩, ⟨d0, d1⟩, ⟨e0, e1⟩, ⟨k0, k1⟩, rfl⟩
    obtain ⟨⟨y00, y01, y02⟩, ⟨y03, y04, y05⟩, ⟨y06, y07, y08⟩⟩ := (keeps_q ha hc hf).1 k0
    obtain ⟨⟨y10, y11, y12⟩, ⟨y13, y14, y15⟩, ⟨y16, y17, y18⟩⟩ := (keeps_q ha hc hf).1 k1
    exact ⟨(y06).of_eq (by q_eq),
      b, ⟨((IsInt.smul (-1) y11)).of_eq (by q_eq), b0, b1⟩,
      ((IsInt.smul (-1) y07)).of_eq (by q_eq),
      e, ⟨(y15).of_eq (by q_eq), e0, e1⟩,
      ⟨(((IsInt.int 1).add (IsInt.smul (-1) y04))).of_eq (by q_eq),
      (y12).of_eq (by q_eq),
      (y03).of_eq (by q_eq)⟩,
      d, ⟨(y00).of_eq (by q_eq), d0, d1⟩,
      ⟨((IsInt.smul (-1) y01)).of_eq (by q_eq),
      ((IsInt.smul (-1) y02)).of_eq (by q_eq),
      ((IsInt.smul (-1) y05)).of_eq (by q_eq)⟩, rfl⟩

theorem base_mono_20_25_mem {n : ℤ} {H : IntMat} : H ∈ base_mono_20_25 id n ↔
    (IsHNF H ∧ H.det = n) ∧ Keeps !![1, 0, 0; 0, -1, 0; 0, 1, 1] H := by
  unfold base_mono_20_25
  refine gen_mem (Q := fun H => Keeps !![1, 0, 0; 0, -1, 0; 0, 1, 1] H) ?_
  intro a c f ha hc hf H
  have ha' : (a : ℚ) ≠ 0 := by exact_mod_cast ha.ne'
  have hc' : (c : ℚ) ≠ 0 := by exact_mod_cast hc.ne'
  have hf' : (f : ℚ) ≠ 0 := by exact_mod_cast hf.ne'
  simp only [List.mem_flatMap, List.mem_ite_nil_right, List.mem_singleton]
  simp only [mem_pyRange, pyMod_q hf, mem_halves_q hc, fadd, fsub,
    fmul, fdiv, id]
  constructor
  · rintro ⟨e, ⟨e0, e1⟩, t0, b, ⟨t1, b0, b1⟩, t2, d, ⟨d0, d1⟩, rfl⟩
    exact ⟨b, d, e, ⟨b0, b1⟩, ⟨d0, d1⟩, ⟨e0, e1⟩,
      (keeps_q ha hc hf).2 ⟨⟨((IsInt.int 1)).of_eq (by q_eq),
        ((IsInt.smul (-1) t1)).of_eq (by q_eq),
        ((IsInt.smul (-1) t2)).of_eq (by q_eq)⟩,
        ⟨((IsInt.int 0)).of_eq (by q_eq),
        ((IsInt.int (-1))).of_eq (by q_eq),
        ((IsInt.smul (-1) t0)).of_eq (by q_eq)⟩,
        ⟨((IsInt.int 0)).of_eq (by q_eq),
        ((IsInt.int 0)).of_eq (by q_eq),
        ((IsInt.int 1)).of_eq (by q_eq)⟩⟩, rfl⟩
  · rintro ⟨b, d, e, ⟨b0, b1⟩, ⟨d0, d1⟩, ⟨e0, e1⟩, k0, rfl⟩
    obtain ⟨⟨y00, y01, y02⟩, ⟨y03, y04, y05⟩, ⟨y06, y07, y08⟩⟩ := (keeps_q ha hc hf).1 k0
    exact ⟨e, ⟨e0, e1⟩,
      ((IsInt.smul (-1) y05)).of_eq (by q_eq),
      b, ⟨((IsInt.smul (-1) y01)).of_eq (by q_eq), b0, b1⟩,
      ((IsInt.smul (-1) y02)).of_eq (by q_eq),
      d, ⟨d0, d1⟩, rfl⟩

theorem base_mono_10_14_17_27_37_39_41_mem {n : ℤ} {H : IntMat} : H ∈ base_mono_10_14_17_27_37_39_41 id n ↔
    (IsHNF H ∧ H.det = n) ∧ Keeps !![1, 0, 0; 0, 1, 0; 1, 0, -1] H := by
  unfold base_mono_10_14_17_27_37_39_41
  refine gen_mem (Q := fun H => Keeps !![1, 0, 0; 0, 1, 0; 1, 0, -1] H) ?_
  intro a c f ha hc hf H
  have ha' : (a : ℚ) ≠ 0 := by exact_mod_cast ha.ne'
  have hc' : (c : ℚ) ≠ 0 := by exact_mod_cast hc.ne'
  have hf' : (f : ℚ) ≠ 0 := by exact_mod_cast hf.ne'
  simp only [List.mem_flatMap, List.mem_ite_nil_right, List.mem_singleton]
  simp only [mem_halves_q hf, mem_pyRange, pyMod_q hf, fadd, fsub,
    fmul, fdiv, id]
  constructor
  · rintro ⟨e, ⟨t0, e0, e1⟩, d, ⟨d0, d1⟩, t1, b, ⟨b0, b1⟩, rfl⟩
    exact ⟨b, d, e, ⟨b0, b1⟩, ⟨d0, d1⟩, ⟨e0, e1⟩,
      (keeps_q ha hc hf).2 ⟨⟨((IsInt.int 1)).of_eq (by q_eq),
        ((IsInt.int 0)).of_eq (by q_eq),
        ((IsInt.smul (-1) t1)).of_eq (by q_eq)⟩,
        ⟨((IsInt.int 0)).of_eq (by q_eq),
        ((IsInt.int 1)).of_eq (by q_eq),
        ((IsInt.smul (-1) t0)).of_eq (by q_eq)⟩,
        ⟨((IsInt.int 0)).of_eq (by q_eq),
        ((IsInt.int 0)).of_eq (by q_eq),
        ((IsInt.int (-1))).of_eq (by q_eq)⟩⟩, rfl⟩
  · rintro ⟨b, d, e, ⟨b0, b1⟩, ⟨d0, d1⟩, ⟨e0, e1⟩, k0, rfl⟩
    obtain ⟨⟨y00, y01, y02⟩, ⟨y03, y04, y05⟩, ⟨y06, y07, y08⟩⟩ := (keeps_q ha hc hf).1 k0
    exact ⟨e, ⟨((IsInt.smul (-1) y05)).of_eq (by q_eq), e0, e1⟩,
      d, ⟨d0, d1⟩,
      ((IsInt.smul (-1) y02)).of_eq (by q_eq),
      b, ⟨b0, b1⟩, rfl⟩

theorem sm_34_mem {n : ℤ} {H : IntMat} : H ∈ sm_34 n ↔
    (IsHNF H ∧ H.det = n) ∧ Keeps !![1, 0, 0; 0, 1, 0; 0, 0, -1] H := by
  unfold sm_34
  refine gen_mem (Q := fun H => Keeps !![1, 0, 0; 0, 1, 0; 0, 0, -1] H) ?_
  intro a c f ha hc hf H
  have ha' : (a : ℚ) ≠ 0 := by exact_mod_cast ha.ne'
  have hc' : (c : ℚ) ≠ 0 := by exact_mod_cast hc.ne'
  have hf' : (f : ℚ) ≠ 0 := by exact_mod_cast hf.ne'
  simp only [List.mem_flatMap, List.mem_ite_nil_right, List.mem_singleton]
  simp only [mem_halves_q hf, mem_pyRange]
  constructor
  · rintro ⟨d, ⟨t0, d0, d1⟩, e, ⟨t1, e0, e1⟩, b, ⟨b0, b1⟩, rfl⟩
    exact ⟨b, d, e, ⟨b0, b1⟩, ⟨d0, d1⟩, ⟨e0, e1⟩,
      (keeps_q ha hc hf).2 ⟨⟨((IsInt.int 1)).of_eq (by q_eq),
        ((IsInt.int 0)).of_eq (by q_eq),
        ((IsInt.smul (-1) t0)).of_eq (by q_eq)⟩,
        ⟨((IsInt.int 0)).of_eq (by q_eq),
        ((IsInt.int 1)).of_eq (by q_eq),
        ((IsInt.smul (-1) t1)).of_eq (by q_eq)⟩,
        ⟨((IsInt.int 0)).of_eq (by q_eq),
        ((IsInt.int 0)).of_eq (by q_eq),
        ((IsInt.int (-1))).of_eq (by q_eq)⟩⟩, rfl⟩
  · rintro ⟨b, d, e, ⟨b0, b1⟩, ⟨d0, d1⟩, ⟨e0, e1⟩, k0, rfl⟩
    obtain ⟨⟨y00, y01, y02⟩, ⟨y03, y04, y05⟩, ⟨y06, y07, y08⟩⟩ := (keeps_q ha hc hf).1 k0
    exact ⟨d, ⟨((IsInt.smul (-1) y02)).of_eq (by q_eq), d0, d1⟩,
      e, ⟨((IsInt.smul (-1) y05)).of_eq (by q_eq), e0, e1⟩,
      b, ⟨b0, b1⟩, rfl⟩

end AutoGR
