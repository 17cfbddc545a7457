import Verif.Lemmas.FortranBase

/-! # What each Fortran subroutine lists, as integrality conditions (part 1) -/

set_option linter.unusedSimpArgs false
set_option linter.unusedVariables false
set_option maxHeartbeats 2000000

namespace AutoGR

namespace Fortran

open Spec

theorem hex_12_mem {n : ℤ} {H : IntMat} : H ∈ hex_12 id n ↔
    (IsHNF H ∧ H.det = n) ∧ Keeps !![0, 1, 0; 1, 0, 0; 0, 0, -1] H ∧
      Keeps !![1, 1, 0; 0, -1, 0; 0, 0, -1] H := by
  unfold hex_12
  rw [get_HNF_diagonals_eq]
  refine gen_mem (Q := fun H => Keeps !![0, 1, 0; 1, 0, 0; 0, 0, -1] H ∧
    Keeps !![1, 1, 0; 0, -1, 0; 0, 0, -1] H) ?_
  intro a c f ha hc hf H
  have ha' : (a : ℚ) ≠ 0 := by exact_mod_cast ha.ne'
  have hc' : (c : ℚ) ≠ 0 := by exact_mod_cast hc.ne'
  have hf' : (f : ℚ) ≠ 0 := by exact_mod_cast hf.ne'
  simp only [List.mem_flatMap, List.mem_ite_nil_right, List.mem_singleton]
  simp only [mod_q ha, mem_step_q ha, mod_q hc, mem_halves_q hf, mod_q hf,
    mem_pyRange, iadd, isub, imul, id]
  constructor
  · rintro ⟨t0, b, ⟨t1, b0, b1⟩, t2, ⟨t3, t4⟩, e, ⟨t5, e0, e1⟩, t6, t7, d, ⟨d0, d1⟩, ⟨t8, t9, t10, t11, t12⟩, ⟨t13, t14, t15, t16⟩, rfl⟩
    have q0 : ((Int.tdiv (b * b) a : ℤ) : ℚ) = ((b : ℚ) * (b : ℚ)) / (a : ℚ) :=
      tdiv_q (by q_cs) (by q_cs) ((t2).of_eq (by q_eq))
    replace t4 : IsInt ((((2 : ℚ) * (b : ℚ)) + (((b : ℚ) * (b : ℚ)) / (a : ℚ))) / (c : ℚ)) := t4.of_eq (by q_st [q0])
    have q1 : ((Int.tdiv ((a + (2 * b)) * e) c : ℤ) : ℚ) = (((a : ℚ) + ((2 : ℚ) * (b : ℚ))) * (e : ℚ)) / (c : ℚ) :=
      tdiv_q (by q_cst [q0]) (by q_cst [q0]) ((t6).of_eq (by q_eq))
    replace t7 : IsInt (((((a : ℚ) + ((2 : ℚ) * (b : ℚ))) * (e : ℚ)) / (c : ℚ)) / (f : ℚ)) := t7.of_eq (by q_st [q0, q1])
    replace t9 : IsInt (((e : ℚ) * (((2 : ℚ) * (b : ℚ)) + (((b : ℚ) * (b : ℚ)) / (a : ℚ)))) / (c : ℚ)) := t9.of_eq (by q_st [q0, q1])
    have q2 : ((Int.tdiv (b * d) a : ℤ) : ℚ) = ((b : ℚ) * (d : ℚ)) / (a : ℚ) :=
      tdiv_q (by q_cst [q0, q1]) (by q_cst [q0, q1]) ((t8).of_eq (by q_eq))
    have q3 : ((Int.tdiv (e * ((2 * b) + (Int.tdiv (b * b) a))) c : ℤ) : ℚ) = ((e : ℚ) * (((2 : ℚ) * (b : ℚ)) + (((b : ℚ) * (b : ℚ)) / (a : ℚ)))) / (c : ℚ) :=
      tdiv_q (by q_cst [q0, q1, q2]) (by q_cst [q0, q1, q2]) ((t9).of_eq (by q_eq))
    replace t13 : IsInt (((((b : ℚ) * (d : ℚ)) / (a : ℚ)) - (((e : ℚ) * (((2 : ℚ) * (b : ℚ)) + (((b : ℚ) * (b : ℚ)) / (a : ℚ)))) / (c : ℚ))) / (f : ℚ)) := t13.of_eq (by q_st [q0, q1, q2, q3])
    replace t14 : IsInt (((((2 : ℚ) * (d : ℚ)) + (((b : ℚ) * (d : ℚ)) / (a : ℚ))) - (((e : ℚ) * (((2 : ℚ) * (b : ℚ)) + (((b : ℚ) * (b : ℚ)) / (a : ℚ)))) / (c : ℚ))) / (f : ℚ)) := t14.of_eq (by q_st [q0, q1, q2, q3])
    have q4 : ((Int.tdiv (c * d) a : ℤ) : ℚ) = ((c : ℚ) * (d : ℚ)) / (a : ℚ) :=
      tdiv_q (by q_cst [q0, q1, q2, q3]) (by q_cst [q0, q1, q2, q3]) ((t11).of_eq (by q_eq))
    have q5 : ((Int.tdiv (b * e) a : ℤ) : ℚ) = ((b : ℚ) * (e : ℚ)) / (a : ℚ) :=
      tdiv_q (by q_cst [q0, q1, q2, q3, q4]) (by q_cst [q0, q1, q2, q3, q4]) ((t10).of_eq (by q_eq))
    replace t15 : IsInt ((((((c : ℚ) * (d : ℚ)) / (a : ℚ)) - ((2 : ℚ) * (e : ℚ))) - (((b : ℚ) * (e : ℚ)) / (a : ℚ))) / (f : ℚ)) := t15.of_eq (by q_st [q0, q1, q2, q3, q4, q5])
    have q6 : ((Int.tdiv ((c * d) - (b * e)) a : ℤ) : ℚ) = (((c : ℚ) * (d : ℚ)) - ((b : ℚ) * (e : ℚ))) / (a : ℚ) :=
      tdiv_q (by q_cst [q0, q1, q2, q3, q4, q5]) (by q_cst [q0, q1, q2, q3, q4, q5]) ((t12).of_eq (by q_eq))
    replace t16 : IsInt (((((c : ℚ) * (d : ℚ)) - ((b : ℚ) * (e : ℚ))) / (a : ℚ)) / (f : ℚ)) := t16.of_eq (by q_st [q0, q1, q2, q3, q4, q5, q6])
    exact ⟨b, d, e, ⟨b0, b1⟩, ⟨d0, d1⟩, ⟨e0, e1⟩,
      ⟨(keeps_q ha hc hf).2 ⟨⟨(t1).of_eq (by q_eq),
        ((t3.add (IsInt.smul (-1) t4))).of_eq (by q_eq),
        (((((((IsInt.smul (-3) t7).add (IsInt.smul (-1) t13)).add (IsInt.smul (-1) (t1.mul t7))).add (IsInt.smul (-1) (t1.mul t13))).add (IsInt.smul (-1) (t3.mul t15))).add (t4.mul t16))).of_eq (by q_eq)⟩,
        ⟨(t0).of_eq (by q_eq),
        ((IsInt.smul (-1) t1)).of_eq (by q_eq),
        ((((IsInt.smul (-1) t16).add (IsInt.smul (-1) (t0.mul t7))).add (t1.mul t5))).of_eq (by q_eq)⟩,
        ⟨((IsInt.int 0)).of_eq (by q_eq),
        ((IsInt.int 0)).of_eq (by q_eq),
        ((IsInt.int (-1))).of_eq (by q_eq)⟩⟩,
      (keeps_q ha hc hf).2 ⟨⟨(((IsInt.int 1).add t1)).of_eq (by q_eq),
        ((IsInt.smul (-1) t4)).of_eq (by q_eq),
        ((IsInt.smul (-1) t14)).of_eq (by q_eq)⟩,
        ⟨(t0).of_eq (by q_eq),
        (((IsInt.int (-1)).add (IsInt.smul (-1) t1))).of_eq (by q_eq),
        (((IsInt.smul (-1) t5).add (IsInt.smul (-1) t15))).of_eq (by q_eq)⟩,
        ⟨((IsInt.int 0)).of_eq (by q_eq),
        ((IsInt.int 0)).of_eq (by q_eq),
        ((IsInt.int (-1))).of_eq (by q_eq)⟩⟩⟩, rfl⟩
  · rintro ⟨b, d, e, ⟨b0, b1⟩, ⟨d0, d1⟩, ⟨e0, e1⟩, ⟨k0, k1⟩, rfl⟩
    obtain ⟨⟨y00, y01, y02⟩, ⟨y03, y04, y05⟩, ⟨y06, y07, y08⟩⟩ := (keeps_q ha hc hf).1 k0
    obtain ⟨⟨y10, y11, y12⟩, ⟨y13, y14, y15⟩, ⟨y16, y17, y18⟩⟩ := (keeps_q ha hc hf).1 k1
    have p0 : IsInt (((c : ℚ))/((a : ℚ))) := (y03).of_eq (by q_eq)
    have p1 : IsInt ((b : ℚ)/(a : ℚ)) := (y00).of_eq (by q_eq)
    have p2 : IsInt (((a : ℚ) + 2 * (b : ℚ))/((c : ℚ))) := ((y01.add (IsInt.smul (-1) y11))).of_eq (by q_eq)
    have p3 : IsInt ((2 * (b : ℚ) + (b : ℚ) * (b : ℚ) / (a : ℚ))/((c : ℚ))) := ((IsInt.smul (-1) y11)).of_eq (by q_eq)
    have p4 : IsInt (2*(e : ℚ)/(f : ℚ)) := (((IsInt.smul (-2) y05).add (IsInt.smul 2 y15))).of_eq (by q_eq)
    have p5 : IsInt ((((a : ℚ) + 2 * (b : ℚ)) * (e : ℚ) / (c : ℚ))/((f : ℚ))) := ((((((IsInt.smul (-1) y02).add (y00.mul y02)).add (y00.mul y12)).add (y01.mul y15)).add (y05.mul y11))).of_eq (by q_eq)
    have p6 : IsInt (((b : ℚ) * (d : ℚ) / (a : ℚ) - (e : ℚ) * (2 * (b : ℚ) + (b : ℚ) * (b : ℚ) / (a : ℚ)) / (c : ℚ))/((f : ℚ))) := (((((y12.add (IsInt.smul (-2) (y00.mul y02))).add (IsInt.smul (-2) (y00.mul y12))).add (IsInt.smul (-2) (y01.mul y15))).add (IsInt.smul (-2) (y05.mul y11)))).of_eq (by q_eq)
    have p7 : IsInt ((2 * (d : ℚ) + (b : ℚ) * (d : ℚ) / (a : ℚ) - (e : ℚ) * (2 * (b : ℚ) + (b : ℚ) * (b : ℚ) / (a : ℚ)) / (c : ℚ))/((f : ℚ))) := ((IsInt.smul (-1) y12)).of_eq (by q_eq)
    have p8 : IsInt (((c : ℚ) * (d : ℚ) / (a : ℚ) - 2 * (e : ℚ) - (b : ℚ) * (e : ℚ) / (a : ℚ))/((f : ℚ))) := (((IsInt.smul 2 y05).add (IsInt.smul (-3) y15))).of_eq (by q_eq)
    have p9 : IsInt ((((c : ℚ) * (d : ℚ) - (b : ℚ) * (e : ℚ)) / (a : ℚ))/((f : ℚ))) := ((IsInt.smul (-1) y15)).of_eq (by q_eq)
    have t0 : IsInt ((c : ℚ)/(a : ℚ)) := (y03).of_eq (by q_eq)
    have t1 : IsInt ((b : ℚ)/(a : ℚ)) := (y00).of_eq (by q_eq)
    have t2 : IsInt (((b : ℚ)*(b : ℚ))/(a : ℚ)) := (((IsInt.int b).mul y00)).of_eq (by q_eq)
    have t3 : IsInt (((a : ℚ)+(2*(b : ℚ)))/(c : ℚ)) := (p2).of_eq (by q_eq)
    have q0 : ((Int.tdiv (b * b) a : ℤ) : ℚ) = ((b : ℚ) * (b : ℚ)) / (a : ℚ) :=
      tdiv_q (by q_cs) (by q_cs) ((t2).of_eq (by q_eq))
    have t4 : IsInt (((2*(b : ℚ))+(((b : ℚ)*(b : ℚ))/(a : ℚ)))/(c : ℚ)) := (p3).of_eq (by q_eq)
    have t5 : IsInt (2*(e : ℚ)/(f : ℚ)) := (p4).of_eq (by q_eq)
    have t6 : IsInt ((((a : ℚ)+(2*(b : ℚ)))*(e : ℚ))/(c : ℚ)) := (((IsInt.int e).mul p2)).of_eq (by q_eq)
    have q1 : ((Int.tdiv ((a + (2 * b)) * e) c : ℤ) : ℚ) = (((a : ℚ) + ((2 : ℚ) * (b : ℚ))) * (e : ℚ)) / (c : ℚ) :=
      tdiv_q (by q_cst [q0]) (by q_cst [q0]) ((t6).of_eq (by q_eq))
    have t7 : IsInt (((((a : ℚ)+(2*(b : ℚ)))*(e : ℚ))/(c : ℚ))/(f : ℚ)) := (p5).of_eq (by q_eq)
    have t8 : IsInt (((b : ℚ)*(d : ℚ))/(a : ℚ)) := (((IsInt.int d).mul y00)).of_eq (by q_eq)
    have t9 : IsInt (((e : ℚ)*((2*(b : ℚ))+(((b : ℚ)*(b : ℚ))/(a : ℚ))))/(c : ℚ)) := ((IsInt.smul (-1) ((IsInt.int e).mul y11))).of_eq (by q_eq)
    have t10 : IsInt (((b : ℚ)*(e : ℚ))/(a : ℚ)) := (((IsInt.int e).mul y00)).of_eq (by q_eq)
    have t11 : IsInt (((c : ℚ)*(d : ℚ))/(a : ℚ)) := (((IsInt.int d).mul y03)).of_eq (by q_eq)
    have t12 : IsInt ((((c : ℚ)*(d : ℚ))-((b : ℚ)*(e : ℚ)))/(a : ℚ)) := ((IsInt.smul (-1) ((IsInt.int f).mul y15))).of_eq (by q_eq)
    have q2 : ((Int.tdiv (b * d) a : ℤ) : ℚ) = ((b : ℚ) * (d : ℚ)) / (a : ℚ) :=
      tdiv_q (by q_cst [q0, q1]) (by q_cst [q0, q1]) ((t8).of_eq (by q_eq))
    have q3 : ((Int.tdiv (e * ((2 * b) + (Int.tdiv (b * b) a))) c : ℤ) : ℚ) = ((e : ℚ) * (((2 : ℚ) * (b : ℚ)) + (((b : ℚ) * (b : ℚ)) / (a : ℚ)))) / (c : ℚ) :=
      tdiv_q (by q_cst [q0, q1, q2]) (by q_cst [q0, q1, q2]) ((t9).of_eq (by q_eq))
    have t13 : IsInt (((((b : ℚ)*(d : ℚ))/(a : ℚ))-(((e : ℚ)*((2*(b : ℚ))+(((b : ℚ)*(b : ℚ))/(a : ℚ))))/(c : ℚ)))/(f : ℚ)) := (p6).of_eq (by q_eq)
    have t14 : IsInt ((((2*(d : ℚ))+(((b : ℚ)*(d : ℚ))/(a : ℚ)))-(((e : ℚ)*((2*(b : ℚ))+(((b : ℚ)*(b : ℚ))/(a : ℚ))))/(c : ℚ)))/(f : ℚ)) := (p7).of_eq (by q_eq)
    have q4 : ((Int.tdiv (c * d) a : ℤ) : ℚ) = ((c : ℚ) * (d : ℚ)) / (a : ℚ) :=
      tdiv_q (by q_cst [q0, q1, q2, q3]) (by q_cst [q0, q1, q2, q3]) ((t11).of_eq (by q_eq))
    have q5 : ((Int.tdiv (b * e) a : ℤ) : ℚ) = ((b : ℚ) * (e : ℚ)) / (a : ℚ) :=
      tdiv_q (by q_cst [q0, q1, q2, q3, q4]) (by q_cst [q0, q1, q2, q3, q4]) ((t10).of_eq (by q_eq))
    have t15 : IsInt ((((((c : ℚ)*(d : ℚ))/(a : ℚ))-(2*(e : ℚ)))-(((b : ℚ)*(e : ℚ))/(a : ℚ)))/(f : ℚ)) := (p8).of_eq (by q_eq)
    have q6 : ((Int.tdiv ((c * d) - (b * e)) a : ℤ) : ℚ) = (((c : ℚ) * (d : ℚ)) - ((b : ℚ) * (e : ℚ))) / (a : ℚ) :=
      tdiv_q (by q_cst [q0, q1, q2, q3, q4, q5]) (by q_cst [q0, q1, q2, q3, q4, q5]) ((t12).of_eq (by q_eq))
    have t16 : IsInt (((((c : ℚ)*(d : ℚ))-((b : ℚ)*(e : ℚ)))/(a : ℚ))/(f : ℚ)) := (p9).of_eq (by q_eq)
    exact ⟨t0.of_eq (by q_st [q0, q1, q2, q3, q4, q5, q6]),
      b, ⟨t1.of_eq (by q_st [q0, q1, q2, q3, q4, q5, q6]), b0, b1⟩,
      t2.of_eq (by q_st [q0, q1, q2, q3, q4, q5, q6]),
      ⟨t3.of_eq (by q_st [q0, q1, q2, q3, q4, q5, q6]),
      t4.of_eq (by q_st [q0, q1, q2, q3, q4, q5, q6])⟩,
      e, ⟨t5.of_eq (by q_st [q0, q1, q2, q3, q4, q5, q6]), e0, e1⟩,
      t6.of_eq (by q_st [q0, q1, q2, q3, q4, q5, q6]),
      t7.of_eq (by q_st [q0, q1, q2, q3, q4, q5, q6]),
      d, ⟨d0, d1⟩,
      ⟨t8.of_eq (by q_st [q0, q1, q2, q3, q4, q5, q6]),
      t9.of_eq (by q_st [q0, q1, q2, q3, q4, q5, q6]),
      t10.of_eq (by q_st [q0, q1, q2, q3, q4, q5, q6]),
      t11.of_eq (by q_st [q0, q1, q2, q3, q4, q5, q6]),
      t12.of_eq (by q_st [q0, q1, q2, q3, q4, q5, q6])⟩,
      ⟨t13.of_eq (by q_st [q0, q1, q2, q3, q4, q5, q6]),
      t14.of_eq (by q_st [q0, q1, q2, q3, q4, q5, q6]),
      t15.of_eq (by q_st [q0, q1, q2, q3, q4, q5, q6]),
      t16.of_eq (by q_st [q0, q1, q2, q3, q4, q5, q6])⟩, rfl⟩

theorem rhom_4_2_mem {n : ℤ} {H : IntMat} : H ∈ rhom_4_2 id n ↔
    (IsHNF H ∧ H.det = n) ∧ Keeps !![1, 0, 0; 0, -1, 0; 0, -1, 1] H ∧
      Keeps !![0, 1, -1; -1, 0, -1; -1, 0, 0] H := by
  unfold rhom_4_2
  rw [get_HNF_diagonals_eq]
  refine gen_mem (Q := fun H => Keeps !![1, 0, 0; 0, -1, 0; 0, -1, 1] H ∧
    Keeps !![0, 1, -1; -1, 0, -1; -1, 0, 0] H) ?_
  intro a c f ha hc hf H
  have ha' : (a : ℚ) ≠ 0 := by exact_mod_cast ha.ne'
  have hc' : (c : ℚ) ≠ 0 := by exact_mod_cast hc.ne'
  have hf' : (f : ℚ) ≠ 0 := by exact_mod_cast hf.ne'
  simp only [List.mem_flatMap, List.mem_ite_nil_right, List.mem_singleton]
  simp only [mod_q ha, mem_halves_q hc, mod_q hc, mem_pyRange, mod_q hf,
    iadd, isub, imul, id]
  constructor
  · rintro ⟨t0, b, ⟨t1, b0, b1⟩, t2, t3, e, ⟨e0, e1⟩, ⟨t4, t5⟩, ⟨t6, t7, t8, t9⟩, d, ⟨d0, d1⟩, t10, ⟨t11, t12, t13⟩, ⟨t14, t15, t16, t17⟩, rfl⟩
    have q0 : ((Int.tdiv (b * f) a : ℤ) : ℚ) = ((b : ℚ) * (f : ℚ)) / (a : ℚ) :=
      tdiv_q (by q_cs) (by q_cs) ((t2).of_eq (by q_eq))
    replace t3 : IsInt (((-(f : ℚ)) + (((b : ℚ) * (f : ℚ)) / (a : ℚ))) / (c : ℚ)) := t3.of_eq (by q_st [q0])
    have q1 : ((Int.tdiv (b * e) a : ℤ) : ℚ) = ((b : ℚ) * (e : ℚ)) / (a : ℚ) :=
      tdiv_q (by q_cst [q0]) (by q_cst [q0]) ((t4).of_eq (by q_eq))
    replace t7 : IsInt (((-(e : ℚ)) + (((b : ℚ) * (e : ℚ)) / (a : ℚ))) / (c : ℚ)) := t7.of_eq (by q_st [q0, q1])
    have q2 : ((Int.tdiv ((2 * b) * e) c : ℤ) : ℚ) = (((2 : ℚ) * (b : ℚ)) * (e : ℚ)) / (c : ℚ) :=
      tdiv_q (by q_cst [q0, q1]) (by q_cst [q0, q1]) ((t5).of_eq (by q_eq))
    replace t8 : IsInt (((b : ℚ) - ((((2 : ℚ) * (b : ℚ)) * (e : ℚ)) / (c : ℚ))) / (f : ℚ)) := t8.of_eq (by q_st [q0, q1, q2])
    have q3 : ((Int.tdiv (b * d) a : ℤ) : ℚ) = ((b : ℚ) * (d : ℚ)) / (a : ℚ) :=
      tdiv_q (by q_cst [q0, q1, q2]) (by q_cst [q0, q1, q2]) ((t10).of_eq (by q_eq))
    replace t11 : IsInt (((e : ℚ) * ((((-(a : ℚ)) + (b : ℚ)) - (d : ℚ)) + (((b : ℚ) * (d : ℚ)) / (a : ℚ)))) / (c : ℚ)) := t11.of_eq (by q_st [q0, q1, q2, q3])
    replace t15 : IsInt (((((-(a : ℚ)) + (b : ℚ)) - (d : ℚ)) + (((b : ℚ) * (d : ℚ)) / (a : ℚ))) / (c : ℚ)) := t15.of_eq (by q_st [q0, q1, q2, q3])
    have q4 : ((Int.tdiv (d * d) a : ℤ) : ℚ) = ((d : ℚ) * (d : ℚ)) / (a : ℚ) :=
      tdiv_q (by q_cst [q0, q1, q2, q3]) (by q_cst [q0, q1, q2, q3]) ((t12).of_eq (by q_eq))
    have q5 : ((Int.tdiv (e * ((((-a) + b) - d) + (Int.tdiv (b * d) a))) c : ℤ) : ℚ) = ((e : ℚ) * ((((-(a : ℚ)) + (b : ℚ)) - (d : ℚ)) + (((b : ℚ) * (d : ℚ)) / (a : ℚ)))) / (c : ℚ) :=
      tdiv_q (by q_cst [q0, q1, q2, q3, q4]) (by q_cst [q0, q1, q2, q3, q4]) ((t11).of_eq (by q_eq))
    replace t16 : IsInt ((((-(a : ℚ)) + (((d : ℚ) * (d : ℚ)) / (a : ℚ))) - (((e : ℚ) * ((((-(a : ℚ)) + (b : ℚ)) - (d : ℚ)) + (((b : ℚ) * (d : ℚ)) / (a : ℚ)))) / (c : ℚ))) / (f : ℚ)) := t16.of_eq (by q_st [q0, q1, q2, q3, q4, q5])
    have q6 : ((Int.tdiv (d * e) a : ℤ) : ℚ) = ((d : ℚ) * (e : ℚ)) / (a : ℚ) :=
      tdiv_q (by q_cst [q0, q1, q2, q3, q4, q5]) (by q_cst [q0, q1, q2, q3, q4, q5]) ((t13).of_eq (by q_eq))
    have q7 : ((Int.tdiv (e * ((-e) + (Int.tdiv (b * e) a))) c : ℤ) : ℚ) = ((e : ℚ) * ((-(e : ℚ)) + (((b : ℚ) * (e : ℚ)) / (a : ℚ)))) / (c : ℚ) :=
      tdiv_q (by q_cst [q0, q1, q2, q3, q4, q5, q6]) (by q_cst [q0, q1, q2, q3, q4, q5, q6]) ((((IsInt.int e).mul t7)).of_eq (by q_eq))
    replace t17 : IsInt ((((-(e : ℚ)) + (((d : ℚ) * (e : ℚ)) / (a : ℚ))) - (((e : ℚ) * ((-(e : ℚ)) + (((b : ℚ) * (e : ℚ)) / (a : ℚ)))) / (c : ℚ))) / (f : ℚ)) := t17.of_eq (by q_st [q0, q1, q2, q3, q4, q5, q6, q7])
    exact ⟨b, d, e, ⟨b0, b1⟩, ⟨d0, d1⟩, ⟨e0, e1⟩,
      ⟨(keeps_q ha hc hf).2 ⟨⟨((IsInt.int 1)).of_eq (by q_eq),
        ((IsInt.smul (-1) t1)).of_eq (by q_eq),
        ((IsInt.smul (-1) t8)).of_eq (by q_eq)⟩,
        ⟨((IsInt.int 0)).of_eq (by q_eq),
        ((IsInt.int (-1))).of_eq (by q_eq),
        ((IsInt.smul (-1) t9)).of_eq (by q_eq)⟩,
        ⟨((IsInt.int 0)).of_eq (by q_eq),
        ((IsInt.int 0)).of_eq (by q_eq),
        ((IsInt.int 1)).of_eq (by q_eq)⟩⟩,
      (keeps_q ha hc hf).2 ⟨⟨((((IsInt.smul (-1) t14).add (t0.mul t8)).add (t1.mul t6))).of_eq (by q_eq),
        (((((IsInt.smul (-1) t1).add t15).add (IsInt.smul (-1) (t1.mul t7))).add (IsInt.smul (-1) (t3.mul t8)))).of_eq (by q_eq),
        ((((t16.add (IsInt.smul (-1) (t1.mul t17))).add (t7.mul t8)).add (IsInt.smul (-1) (t8.mul t14)))).of_eq (by q_eq)⟩,
        ⟨((t6.add (t0.mul t9))).of_eq (by q_eq),
        (((t7.add (IsInt.smul (-1) (t0.mul t8))).add (IsInt.smul (-1) (t1.mul t6)))).of_eq (by q_eq),
        ((((IsInt.smul (-1) t17).add (t7.mul t9)).add (IsInt.smul (-1) (t9.mul t14)))).of_eq (by q_eq)⟩,
        ⟨((IsInt.smul (-1) t0)).of_eq (by q_eq),
        (t3).of_eq (by q_eq),
        (((IsInt.smul (-1) t7).add t14)).of_eq (by q_eq)⟩⟩⟩, rfl⟩
  · rintro ⟨b, d, e, ⟨b0, b1⟩, ⟨d0, d1⟩, ⟨e0, e1⟩, ⟨k0, k1⟩, rfl⟩
    obtain ⟨⟨y00, y01, y02⟩, ⟨y03, y04, y05⟩, ⟨y06, y07, y08⟩⟩ := (keeps_q ha hc hf).1 k0
    obtain ⟨⟨y10, y11, y12⟩, ⟨y13, y14, y15⟩, ⟨y16, y17, y18⟩⟩ := (keeps_q ha hc hf).1 k1
    have p0 : IsInt (((f : ℚ))/((a : ℚ))) := ((IsInt.smul (-1) y16)).of_eq (by q_eq)
    have p1 : IsInt (2*(b : ℚ)/(c : ℚ)) := ((IsInt.smul (-1) y01)).of_eq (by q_eq)
    have p2 : IsInt ((-(f : ℚ) + (b : ℚ) * (f : ℚ) / (a : ℚ))/((c : ℚ))) := (y17).of_eq (by q_eq)
    have p3 : IsInt (((e : ℚ))/((a : ℚ))) := ((y13.add (IsInt.smul (-1) (y05.mul y16)))).of_eq (by q_eq)
    have p4 : IsInt ((-(e : ℚ) + (b : ℚ) * (e : ℚ) / (a : ℚ))/((c : ℚ))) := (((y14.add (IsInt.smul (-1) (y01.mul y13))).add (IsInt.smul (-1) (y02.mul y16)))).of_eq (by q_eq)
    have p5 : IsInt (((b : ℚ) - 2 * (b : ℚ) * (e : ℚ) / (c : ℚ))/((f : ℚ))) := ((IsInt.smul (-1) y02)).of_eq (by q_eq)
    have p6 : IsInt (((c : ℚ) - 2 * (e : ℚ))/((f : ℚ))) := ((IsInt.smul (-1) y05)).of_eq (by q_eq)
    have p7 : IsInt (((d : ℚ))/((a : ℚ))) := ((((IsInt.smul (-1) y10).add (IsInt.smul (-1) (y01.mul y13))).add (IsInt.smul (-1) (y02.mul y16)))).of_eq (by q_eq)
    have p8 : IsInt ((-(a : ℚ) + (b : ℚ) - (d : ℚ) + (b : ℚ) * (d : ℚ) / (a : ℚ))/((c : ℚ))) := (((y11.add (y01.mul y14)).add (y02.mul y17))).of_eq (by q_eq)
    have p9 : IsInt ((-(a : ℚ) + (d : ℚ) * (d : ℚ) / (a : ℚ) - (e : ℚ) * (-(a : ℚ) + (b : ℚ) - (d : ℚ) + (b : ℚ) * (d : ℚ) / (a : ℚ)) / (c : ℚ))/((f : ℚ))) := (((y12.add (y01.mul y15)).add (y02.mul y18))).of_eq (by q_eq)
    have p10 : IsInt ((-(e : ℚ) + (d : ℚ) * (e : ℚ) / (a : ℚ) - (e : ℚ) * (-(e : ℚ) + (b : ℚ) * (e : ℚ) / (a : ℚ)) / (c : ℚ))/((f : ℚ))) := (((IsInt.smul (-1) y15).add (y05.mul y18))).of_eq (by q_eq)
    have t0 : IsInt ((f : ℚ)/(a : ℚ)) := (p0).of_eq (by q_eq)
    have t1 : IsInt (2*(b : ℚ)/(c : ℚ)) := (p1).of_eq (by q_eq)
    have t2 : IsInt (((b : ℚ)*(f : ℚ))/(a : ℚ)) := ((IsInt.smul (-1) ((IsInt.int b).mul y16))).of_eq (by q_eq)
    have q0 : ((Int.tdiv (b * f) a : ℤ) : ℚ) = ((b : ℚ) * (f : ℚ)) / (a : ℚ) :=
      tdiv_q (by q_cs) (by q_cs) ((t2).of_eq (by q_eq))
    have t3 : IsInt (((-(f : ℚ))+(((b : ℚ)*(f : ℚ))/(a : ℚ)))/(c : ℚ)) := (y17).of_eq (by q_eq)
    have t4 : IsInt (((b : ℚ)*(e : ℚ))/(a : ℚ)) := (((IsInt.int b).mul p3)).of_eq (by q_eq)
    have t5 : IsInt (((2*(b : ℚ))*(e : ℚ))/(c : ℚ)) := ((IsInt.smul (-1) ((IsInt.int e).mul y01))).of_eq (by q_eq)
    have t6 : IsInt ((e : ℚ)/(a : ℚ)) := (p3).of_eq (by q_eq)
    have q1 : ((Int.tdiv (b * e) a : ℤ) : ℚ) = ((b : ℚ) * (e : ℚ)) / (a : ℚ) :=
      tdiv_q (by q_cst [q0]) (by q_cst [q0]) ((t4).of_eq (by q_eq))
    have t7 : IsInt (((-(e : ℚ))+(((b : ℚ)*(e : ℚ))/(a : ℚ)))/(c : ℚ)) := (p4).of_eq (by q_eq)
    have q2 : ((Int.tdiv ((2 * b) * e) c : ℤ) : ℚ) = (((2 : ℚ) * (b : ℚ)) * (e : ℚ)) / (c : ℚ) :=
      tdiv_q (by q_cst [q0, q1]) (by q_cst [q0, q1]) ((t5).of_eq (by q_eq))
    have t8 : IsInt (((b : ℚ)-(((2*(b : ℚ))*(e : ℚ))/(c : ℚ)))/(f : ℚ)) := (p5).of_eq (by q_eq)
    have t9 : IsInt (((c : ℚ)-(2*(e : ℚ)))/(f : ℚ)) := (p6).of_eq (by q_eq)
    have t10 : IsInt (((b : ℚ)*(d : ℚ))/(a : ℚ)) := (((IsInt.int b).mul p7)).of_eq (by q_eq)
    have q3 : ((Int.tdiv (b * d) a : ℤ) : ℚ) = ((b : ℚ) * (d : ℚ)) / (a : ℚ) :=
      tdiv_q (by q_cst [q0, q1, q2]) (by q_cst [q0, q1, q2]) ((t10).of_eq (by q_eq))
    have t11 : IsInt (((e : ℚ)*((((-(a : ℚ))+(b : ℚ))-(d : ℚ))+(((b : ℚ)*(d : ℚ))/(a : ℚ))))/(c : ℚ)) := (((IsInt.int e).mul p8)).of_eq (by q_eq)
    have t12 : IsInt (((d : ℚ)*(d : ℚ))/(a : ℚ)) := (((IsInt.int d).mul p7)).of_eq (by q_eq)
    have t13 : IsInt (((d : ℚ)*(e : ℚ))/(a : ℚ)) := (((IsInt.int d).mul p3)).of_eq (by q_eq)
    have t14 : IsInt ((d : ℚ)/(a : ℚ)) := (p7).of_eq (by q_eq)
    have t15 : IsInt (((((-(a : ℚ))+(b : ℚ))-(d : ℚ))+(((b : ℚ)*(d : ℚ))/(a : ℚ)))/(c : ℚ)) := (p8).of_eq (by q_eq)
    have q4 : ((Int.tdiv (d * d) a : ℤ) : ℚ) = ((d : ℚ) * (d : ℚ)) / (a : ℚ) :=
      tdiv_q (by q_cst [q0, q1, q2, q3]) (by q_cst [q0, q1, q2, q3]) ((t12).of_eq (by q_eq))
    have q5 : ((Int.tdiv (e * ((((-a) + b) - d) + (Int.tdiv (b * d) a))) c : ℤ) : ℚ) = ((e : ℚ) * ((((-(a : ℚ)) + (b : ℚ)) - (d : ℚ)) + (((b : ℚ) * (d : ℚ)) / (a : ℚ)))) / (c : ℚ) :=
      tdiv_q (by q_cst [q0, q1, q2, q3, q4]) (by q_cst [q0, q1, q2, q3, q4]) ((t11).of_eq (by q_eq))
    have t16 : IsInt ((((-(a : ℚ))+(((d : ℚ)*(d : ℚ))/(a : ℚ)))-(((e : ℚ)*((((-(a : ℚ))+(b : ℚ))-(d : ℚ))+(((b : ℚ)*(d : ℚ))/(a : ℚ))))/(c : ℚ)))/(f : ℚ)) := (p9).of_eq (by q_eq)
    have q6 : ((Int.tdiv (d * e) a : ℤ) : ℚ) = ((d : ℚ) * (e : ℚ)) / (a : ℚ) :=
      tdiv_q (by q_cst [q0, q1, q2, q3, q4, q5]) (by q_cst [q0, q1, q2, q3, q4, q5]) ((t13).of_eq (by q_eq))
    have q7 : ((Int.tdiv (e * ((-e) + (Int.tdiv (b * e) a))) c : ℤ) : ℚ) = ((e : ℚ) * ((-(e : ℚ)) + (((b : ℚ) * (e : ℚ)) / (a : ℚ)))) / (c : ℚ) :=
      tdiv_q (by q_cst [q0, q1, q2, q3, q4, q5, q6]) (by q_cst [q0, q1, q2, q3, q4, q5, q6]) ((((IsInt.int e).mul p4)).of_eq (by q_eq))
    have t17 : IsInt ((((-(e : ℚ))+(((d : ℚ)*(e : ℚ))/(a : ℚ)))-(((e : ℚ)*((-(e : ℚ))+(((b : ℚ)*(e : ℚ))/(a : ℚ))))/(c : ℚ)))/(f : ℚ)) := (p10).of_eq (by q_eq)
    exact ⟨t0.of_eq (by q_st [q0, q1, q2, q3, q4, q5, q6, q7]),
      b, ⟨t1.of_eq (by q_st [q0, q1, q2, q3, q4, q5, q6, q7]), b0, b1⟩,
      t2.of_eq (by q_st [q0, q1, q2, q3, q4, q5, q6, q7]),
      t3.of_eq (by q_st [q0, q1, q2, q3, q4, q5, q6, q7]),
      e, ⟨e0, e1⟩,
      ⟨t4.of_eq (by q_st [q0, q1, q2, q3, q4, q5, q6, q7]),
      t5.of_eq (by q_st [q0, q1, q2, q3, q4, q5, q6, q7])⟩,
      ⟨t6.of_eq (by q_st [q0, q1, q2, q3, q4, q5, q6, q7]),
      t7.of_eq (by q_st [q0, q1, q2, q3, q4, q5, q6, q7]),
      t8.of_eq (by q_st [q0, q1, q2, q3, q4, q5, q6, q7]),
      t9.of_eq (by q_st [q0, q1, q2, q3, q4, q5, q6, q7])⟩,
      d, ⟨d0, d1⟩,
      t10.of_eq (by q_st [q0, q1, q2, q3, q4, q5, q6, q7]),
      ⟨t11.of_eq (by q_st [q0, q1, q2, q3, q4, q5, q6, q7]),
      t12.of_eq (by q_st [q0, q1, q2, q3, q4, q5, q6, q7]),
      t13.of_eq (by q_st [q0, q1, q2, q3, q4, q5, q6, q7])⟩,
      ⟨t14.of_eq (by q_st [q0, q1, q2, q3, q4, q5, q6, q7]),
      t15.of_eq (by q_st [q0, q1, q2, q3, q4, q5, q6, q7]),
      t16.of_eq (by q_st [q0, q1, q2, q3, q4, q5, q6, q7]),
      t17.of_eq (by q_st [q0, q1, q2, q3, q4, q5, q6, q7])⟩, rfl⟩

theorem st_21_mem {n : ℤ} {H : IntMat} : H ∈ st_21 id n ↔
    (IsHNF H ∧ H.det = n) ∧ Keeps !![1, 0, 0; 0, -1, 0; 0, 0, 1] H ∧
      Keeps !![1, 0, 0; 0, 0, -1; 0, 1, 0] H := by
  unfold st_21
  rw [get_HNF_diagonals_eq]
  refine gen_mem (Q := fun H => Keeps !![1, 0, 0; 0, -1, 0; 0, 0, 1] H ∧
    Keeps !![1, 0, 0; 0, 0, -1; 0, 1, 0] H) ?_
  intro a c f ha hc hf H
  have ha' : (a : ℚ) ≠ 0 := by exact_mod_cast ha.ne'
  have hc' : (c : ℚ) ≠ 0 := by exact_mod_cast hc.ne'
  have hf' : (f : ℚ) ≠ 0 := by exact_mod_cast hf.ne'
  simp only [List.mem_flatMap, List.mem_ite_nil_right, List.mem_singleton]
  simp only [mod_q hc, mem_halves_q hc, mem_halves_q hf, mod_q hf, iadd,
    isub, imul, id]
  constructor
  · rintro ⟨t0, b, ⟨t1, b0, b1⟩, d, ⟨t2, d0, d1⟩, t3, e, ⟨t4, e0, e1⟩, ⟨t5, t6⟩, ⟨t7, t8, t9⟩, rfl⟩
    have q0 : ((Int.tdiv ((2 * d) * e) c : ℤ) : ℚ) = (((2 : ℚ) * (d : ℚ)) * (e : ℚ)) / (c : ℚ) :=
      tdiv_q (by q_cs) (by q_cs) ((t5).of_eq (by q_eq))
    replace t7 : IsInt ((((2 : ℚ) * (d : ℚ)) - ((((2 : ℚ) * (d : ℚ)) * (e : ℚ)) / (c : ℚ))) / (f : ℚ)) := t7.of_eq (by q_st [q0])
    have q1 : ((Int.tdiv (e * (b - d)) c : ℤ) : ℚ) = ((e : ℚ) * ((b : ℚ) - (d : ℚ))) / (c : ℚ) :=
      tdiv_q (by q_cst [q0]) (by q_cst [q0]) ((((IsInt.int e).mul t3)).of_eq (by q_eq))
    replace t8 : IsInt ((((-(b : ℚ)) + (d : ℚ)) - (((e : ℚ) * ((b : ℚ) - (d : ℚ))) / (c : ℚ))) / (f : ℚ)) := t8.of_eq (by q_st [q0, q1])
    have q2 : ((Int.tdiv (e * e) c : ℤ) : ℚ) = ((e : ℚ) * (e : ℚ)) / (c : ℚ) :=
      tdiv_q (by q_cst [q0, q1]) (by q_cst [q0, q1]) ((t6).of_eq (by q_eq))
    replace t9 : IsInt (((-(c : ℚ)) + (((e : ℚ) * (e : ℚ)) / (c : ℚ))) / (f : ℚ)) := t9.of_eq (by q_st [q0, q1, q2])
    have hx : IsInt ((e : ℚ)/(c : ℚ)) := IsInt.of_sq (((t0.mul t9).add (IsInt.int 1)).of_eq (by q_eq))
    exact ⟨b, d, e, ⟨b0, b1⟩, ⟨d0, d1⟩, ⟨e0, e1⟩,
      ⟨(keeps_q ha hc hf).2 ⟨⟨((IsInt.int 1)).of_eq (by q_eq),
        ((IsInt.smul (-1) t1)).of_eq (by q_eq),
        (((t2.mul hx).add (t3.mul t4))).of_eq (by q_eq)⟩,
        ⟨((IsInt.int 0)).of_eq (by q_eq),
        ((IsInt.int (-1))).of_eq (by q_eq),
        (t4).of_eq (by q_eq)⟩,
        ⟨((IsInt.int 0)).of_eq (by q_eq),
        ((IsInt.int 0)).of_eq (by q_eq),
        ((IsInt.int 1)).of_eq (by q_eq)⟩⟩,
      (keeps_q ha hc hf).2 ⟨⟨((IsInt.int 1)).of_eq (by q_eq),
        (((IsInt.smul (-1) t1).add t3)).of_eq (by q_eq),
        (((t2.add (IsInt.smul (-1) t7)).add (IsInt.smul (-1) t8))).of_eq (by q_eq)⟩,
        ⟨((IsInt.int 0)).of_eq (by q_eq),
        ((IsInt.smul (-1) hx)).of_eq (by q_eq),
        (((IsInt.smul (-1) t9).add (t4.mul hx))).of_eq (by q_eq)⟩,
        ⟨((IsInt.int 0)).of_eq (by q_eq),
        ((IsInt.smul (-1) t0)).of_eq (by q_eq),
        (hx).of_eq (by q_eq)⟩⟩⟩, rfl⟩
  · rintro ⟨b, d, e, ⟨b0, b1⟩, ⟨d0, d1⟩, ⟨e0, e1⟩, ⟨k0, k1⟩, rfl⟩
    obtain ⟨⟨y00, y01, y02⟩, ⟨y03, y04, y05⟩, ⟨y06, y07, y08⟩⟩ := (keeps_q ha hc hf).1 k0
    obtain ⟨⟨y10, y11, y12⟩, ⟨y13, y14, y15⟩, ⟨y16, y17, y18⟩⟩ := (keeps_q ha hc hf).1 k1
    have p0 : IsInt (((f : ℚ))/((c : ℚ))) := ((IsInt.smul (-1) y17)).of_eq (by q_eq)
    have p1 : IsInt (2*(b : ℚ)/(c : ℚ)) := ((IsInt.smul (-1) y01)).of_eq (by q_eq)
    have p2 : IsInt (2*(d : ℚ)/(f : ℚ)) := (((((IsInt.smul (-2) y12).add (IsInt.smul (-1) (y01.mul y15))).add (y02.mul y14)).add (IsInt.smul (-1) (y05.mul y11)))).of_eq (by q_eq)
    have p3 : IsInt (((b : ℚ) - (d : ℚ))/((c : ℚ))) := (((IsInt.smul (-1) y01).add y11)).of_eq (by q_eq)
    have p4 : IsInt (2*(e : ℚ)/(f : ℚ)) := (y05).of_eq (by q_eq)
    have p5 : IsInt ((2 * (d : ℚ) - 2 * (d : ℚ) * (e : ℚ) / (c : ℚ))/((f : ℚ))) := ((((y02.add (IsInt.smul (-2) y12)).add (IsInt.smul (-1) (y01.mul y15))).add (y02.mul y14))).of_eq (by q_eq)
    have p6 : IsInt ((-(b : ℚ) + (d : ℚ) - ((b : ℚ) - (d : ℚ)) * (e : ℚ) / (c : ℚ))/((f : ℚ))) := ((((IsInt.smul (-1) y02).add (IsInt.smul (-1) y12)).add (IsInt.smul (-1) (y05.mul y11)))).of_eq (by q_eq)
    have p7 : IsInt ((-(c : ℚ) + (e : ℚ) * (e : ℚ) / (c : ℚ))/((f : ℚ))) := (((IsInt.smul (-1) y15).add (IsInt.smul (-1) (y05.mul y14)))).of_eq (by q_eq)
    have t0 : IsInt ((f : ℚ)/(c : ℚ)) := (p0).of_eq (by q_eq)
    have t1 : IsInt (2*(b : ℚ)/(c : ℚ)) := (p1).of_eq (by q_eq)
    have t2 : IsInt (2*(d : ℚ)/(f : ℚ)) := (p2).of_eq (by q_eq)
    have t3 : IsInt (((b : ℚ)-(d : ℚ))/(c : ℚ)) := (p3).of_eq (by q_eq)
    have t4 : IsInt (2*(e : ℚ)/(f : ℚ)) := (y05).of_eq (by q_eq)
    have t5 : IsInt (((2*(d : ℚ))*(e : ℚ))/(c : ℚ)) := ((IsInt.smul (-2) ((IsInt.int d).mul y14))).of_eq (by q_eq)
    have t6 : IsInt (((e : ℚ)*(e : ℚ))/(c : ℚ)) := ((IsInt.smul (-1) ((IsInt.int e).mul y14))).of_eq (by q_eq)
    have q0 : ((Int.tdiv ((2 * d) * e) c : ℤ) : ℚ) = (((2 : ℚ) * (d : ℚ)) * (e : ℚ)) / (c : ℚ) :=
      tdiv_q (by q_cs) (by q_cs) ((t5).of_eq (by q_eq))
    have t7 : IsInt (((2*(d : ℚ))-(((2*(d : ℚ))*(e : ℚ))/(c : ℚ)))/(f : ℚ)) := (p5).of_eq (by q_eq)
    have q1 : ((Int.tdiv (e * (b - d)) c : ℤ) : ℚ) = ((e : ℚ) * ((b : ℚ) - (d : ℚ))) / (c : ℚ) :=
      tdiv_q (by q_cst [q0]) (by q_cst [q0]) ((((IsInt.int e).mul p3)).of_eq (by q_eq))
    have t8 : IsInt ((((-(b : ℚ))+(d : ℚ))-(((e : ℚ)*((b : ℚ)-(d : ℚ)))/(c : ℚ)))/(f : ℚ)) := (p6).of_eq (by q_eq)
    have q2 : ((Int.tdiv (e * e) c : ℤ) : ℚ) = ((e : ℚ) * (e : ℚ)) / (c : ℚ) :=
      tdiv_q (by q_cst [q0, q1]) (by q_cst [q0, q1]) ((t6).of_eq (by q_eq))
    have t9 : IsInt (((-(c : ℚ))+(((e : ℚ)*(e : ℚ))/(c : ℚ)))/(f : ℚ)) := (p7).of_eq (by q_eq)
    exact ⟨t0.of_eq (by q_st [q0, q1, q2]),
      b, ⟨t1.of_eq (by q_st [q0, q1, q2]), b0, b1⟩,
      d, ⟨t2.of_eq (by q_st [q0, q1, q2]), d0, d1⟩,
      t3.of_eq (by q_st [q0, q1, q2]),
      e, ⟨t4.of_eq (by q_st [q0, q1, q2]), e0, e1⟩,
      ⟨t5.of_eq (by q_st [q0, q1, q2]),
      t6.of_eq (by q_st [q0, q1, q2])⟩,
      ⟨t7.of_eq (by q_st [q0, q1, q2]),
      t8.of_eq (by q_st [q0, q1, q2]),
      t9.of_eq (by q_st [q0, q1, q2])⟩, rfl⟩

theorem so_32_mem {n : ℤ} {H : IntMat} : H ∈ so_32 id n ↔
    (IsHNF H ∧ H.det = n) ∧ Keeps !![1, 0, 0; 0, 1, 0; 0, 0, -1] H ∧
      Keeps !![1, 0, 0; 0, -1, 0; 0, 0, -1] H := by
  unfold so_32
  rw [get_HNF_diagonals_eq]
  refine gen_mem (Q := fun H => Keeps !![1, 0, 0; 0, 1, 0; 0, 0, -1] H ∧
    Keeps !![1, 0, 0; 0, -1, 0; 0, 0, -1] H) ?_
  intro a c f ha hc hf H
  have ha' : (a : ℚ) ≠ 0 := by exact_mod_cast ha.ne'
  have hc' : (c : ℚ) ≠ 0 := by exact_mod_cast hc.ne'
  have hf' : (f : ℚ) ≠ 0 := by exact_mod_cast hf.ne'
  simp only [List.mem_flatMap, List.mem_ite_nil_right, List.mem_singleton]
  simp only [mem_halves_q hc, mem_halves_q hf, mod_q (mul_pos hf hc), iadd, isub,
    imul, id]
  constructor
  · rintro ⟨b, ⟨t0, b0, b1⟩, e, ⟨t1, e0, e1⟩, t2, d, ⟨t3, d0, d1⟩, rfl⟩
    exact ⟨b, d, e, ⟨b0, b1⟩, ⟨d0, d1⟩, ⟨e0, e1⟩,
      ⟨(keeps_q ha hc hf).2 ⟨⟨((IsInt.int 1)).of_eq (by q_eq),
        ((IsInt.int 0)).of_eq (by q_eq),
        ((IsInt.smul (-1) t3)).of_eq (by q_eq)⟩,
        ⟨((IsInt.int 0)).of_eq (by q_eq),
        ((IsInt.int 1)).of_eq (by q_eq),
        ((IsInt.smul (-1) t1)).of_eq (by q_eq)⟩,
        ⟨((IsInt.int 0)).of_eq (by q_eq),
        ((IsInt.int 0)).of_eq (by q_eq),
        ((IsInt.int (-1))).of_eq (by q_eq)⟩⟩,
      (keeps_q ha hc hf).2 ⟨⟨((IsInt.int 1)).of_eq (by q_eq),
        ((IsInt.smul (-1) t0)).of_eq (by q_eq),
        ((t2.add (IsInt.smul (-1) t3))).of_eq (by q_eq)⟩,
        ⟨((IsInt.int 0)).of_eq (by q_eq),
        ((IsInt.int (-1))).of_eq (by q_eq),
        ((IsInt.int 0)).of_eq (by q_eq)⟩,
        ⟨((IsInt.int 0)).of_eq (by q_eq),
        ((IsInt.int 0)).of_eq (by q_eq),
        ((IsInt.int (-1))).of_eq (by q_eq)⟩⟩⟩, rfl⟩
  · rintro ⟨b, d, e, ⟨b0, b1⟩, ⟨d0, d1⟩, ⟨e0, e1⟩, ⟨k0, k1⟩, rfl⟩
    obtain ⟨⟨y00, y01, y02⟩, ⟨y03, y04, y05⟩, ⟨y06, y07, y08⟩⟩ := (keeps_q ha hc hf).1 k0
    obtain ⟨⟨y10, y11, y12⟩, ⟨y13, y14, y15⟩, ⟨y16, y17, y18⟩⟩ := (keeps_q ha hc hf).1 k1
    have p0 : IsInt (2*(b : ℚ)/(c : ℚ)) := ((IsInt.smul (-1) y11)).of_eq (by q_eq)
    have p1 : IsInt (2*(e : ℚ)/(f : ℚ)) := ((IsInt.smul (-1) y05)).of_eq (by q_eq)
    have p2 : IsInt (((2 * (b : ℚ) * (e : ℚ)))/(((f : ℚ) * (c : ℚ)))) := (((IsInt.smul (-1) y02).add y12)).of_eq (by q_eq)
    have p3 : IsInt (2*(d : ℚ)/(f : ℚ)) := ((IsInt.smul (-1) y02)).of_eq (by q_eq)
    have t0 : IsInt (2*(b : ℚ)/(c : ℚ)) := (p0).of_eq (by q_eq)
    have t1 : IsInt (2*(e : ℚ)/(f : ℚ)) := (p1).of_eq (by q_eq)
    have t2 : IsInt (((2*(b : ℚ))*(e : ℚ))/((f : ℚ)*(c : ℚ))) := (p2).of_eq (by q_eq)
    have t3 : IsInt (2*(d : ℚ)/(f : ℚ)) := (p3).of_eq (by q_eq)
    exact ⟨b, ⟨t0.of_eq (by q_eq), b0, b1⟩,
      e, ⟨t1.of_eq (by q_eq), e0, e1⟩,
      t2.of_eq (by q_eq),
      d, ⟨t3.of_eq (by q_eq), d0, d1⟩, rfl⟩

theorem fco_26_mem {n : ℤ} {H : IntMat} : H ∈ fco_26 id n ↔
    (IsHNF H ∧ H.det = n) ∧ Keeps !![1, 0, 0; 0, -1, 0; -1, 0, -1] H ∧
      Keeps !![1, 0, 0; 0, -1, 0; 0, 1, 1] H := by
  unfold fco_26
  rw [get_HNF_diagonals_eq]
  refine gen_mem (Q := fun H => Keeps !![1, 0, 0; 0, -1, 0; -1, 0, -1] H ∧
    Keeps !![1, 0, 0; 0, -1, 0; 0, 1, 1] H) ?_
  intro a c f ha hc hf H
  have ha' : (a : ℚ) ≠ 0 := by exact_mod_cast ha.ne'
  have hc' : (c : ℚ) ≠ 0 := by exact_mod_cast hc.ne'
  have hf' : (f : ℚ) ≠ 0 := by exact_mod_cast hf.ne'
  simp only [List.mem_flatMap, List.mem_ite_nil_right, List.mem_singleton]
  simp only [mem_halves_q hc, mem_pyRange, mod_q hc, mod_q hf, iadd,
    isub, imul, id]
  constructor
  · rintro ⟨b, ⟨t0, b0, b1⟩, e, ⟨e0, e1⟩, t1, ⟨t2, t3⟩, d, ⟨d0, d1⟩, t4, rfl⟩
    have q0 : ((Int.tdiv ((2 * b) * e) c : ℤ) : ℚ) = (((2 : ℚ) * (b : ℚ)) * (e : ℚ)) / (c : ℚ) :=
      tdiv_q (by q_cs) (by q_cs) ((t1).of_eq (by q_eq))
    replace t3 : IsInt (((b : ℚ) + ((((2 : ℚ) * (b : ℚ)) * (e : ℚ)) / (c : ℚ))) / (f : ℚ)) := t3.of_eq (by q_st [q0])
    exact ⟨b, d, e, ⟨b0, b1⟩, ⟨d0, d1⟩, ⟨e0, e1⟩,
      ⟨(keeps_q ha hc hf).2 ⟨⟨((IsInt.int 1)).of_eq (by q_eq),
        ((IsInt.smul (-1) t0)).of_eq (by q_eq),
        ((t3.add (IsInt.smul (-1) t4))).of_eq (by q_eq)⟩,
        ⟨((IsInt.int 0)).of_eq (by q_eq),
        ((IsInt.int (-1))).of_eq (by q_eq),
        ((IsInt.int 0)).of_eq (by q_eq)⟩,
        ⟨((IsInt.int 0)).of_eq (by q_eq),
        ((IsInt.int 0)).of_eq (by q_eq),
        ((IsInt.int (-1))).of_eq (by q_eq)⟩⟩,
      (keeps_q ha hc hf).2 ⟨⟨((IsInt.int 1)).of_eq (by q_eq),
        ((IsInt.smul (-1) t0)).of_eq (by q_eq),
        (t3).of_eq (by q_eq)⟩,
        ⟨((IsInt.int 0)).of_eq (by q_eq),
        ((IsInt.int (-1))).of_eq (by q_eq),
        (t2).of_eq (by q_eq)⟩,
        ⟨((IsInt.int 0)).of_eq (by q_eq),
        ((IsInt.int 0)).of_eq (by q_eq),
        ((IsInt.int 1)).of_eq (by q_eq)⟩⟩⟩, rfl⟩
  · rintro ⟨b, d, e, ⟨b0, b1⟩, ⟨d0, d1⟩, ⟨e0, e1⟩, ⟨k0, k1⟩, rfl⟩
    obtain ⟨⟨y00, y01, y02⟩, ⟨y03, y04, y05⟩, ⟨y06, y07, y08⟩⟩ := (keeps_q ha hc hf).1 k0
    obtain ⟨⟨y10, y11, y12⟩, ⟨y13, y14, y15⟩, ⟨y16, y17, y18⟩⟩ := (keeps_q ha hc hf).1 k1
    have p0 : IsInt (2*(b : ℚ)/(c : ℚ)) := ((IsInt.smul (-1) y01)).of_eq (by q_eq)
    have p1 : IsInt (((c : ℚ) + 2 * (e : ℚ))/((f : ℚ))) := (y15).of_eq (by q_eq)
    have p2 : IsInt (((b : ℚ) + 2 * (b : ℚ) * (e : ℚ) / (c : ℚ))/((f : ℚ))) := (y12).of_eq (by q_eq)
    have p3 : IsInt (((a : ℚ) + (b : ℚ) + 2 * (d : ℚ))/((f : ℚ))) := (((IsInt.smul (-1) y02).add y12)).of_eq (by q_eq)
    have t0 : IsInt (2*(b : ℚ)/(c : ℚ)) := (p0).of_eq (by q_eq)
    have t1 : IsInt (((2*(b : ℚ))*(e : ℚ))/(c : ℚ)) := ((IsInt.smul (-1) ((IsInt.int e).mul y01))).of_eq (by q_eq)
    have t2 : IsInt (((c : ℚ)+(2*(e : ℚ)))/(f : ℚ)) := (y15).of_eq (by q_eq)
    have q0 : ((Int.tdiv ((2 * b) * e) c : ℤ) : ℚ) = (((2 : ℚ) * (b : ℚ)) * (e : ℚ)) / (c : ℚ) :=
      tdiv_q (by q_cs) (by q_cs) ((t1).of_eq (by q_eq))
    have t3 : IsInt (((b : ℚ)+(((2*(b : ℚ))*(e : ℚ))/(c : ℚ)))/(f : ℚ)) := (y12).of_eq (by q_eq)
    have t4 : IsInt ((((a : ℚ)+(b : ℚ))+(2*(d : ℚ)))/(f : ℚ)) := (p3).of_eq (by q_eq)
    exact ⟨b, ⟨t0.of_eq (by q_st [q0]), b0, b1⟩,
      e, ⟨e0, e1⟩,
      t1.of_eq (by q_st [q0]),
      ⟨t2.of_eq (by q_st [q0]),
      t3.of_eq (by q_st [q0])⟩,
      d, ⟨d0, d1⟩,
      t4.of_eq (by q_st [q0]), rfl⟩

theorem baseco_40_mem {n : ℤ} {H : IntMat} : H ∈ baseco_40 id n ↔
    (IsHNF H ∧ H.det = n) ∧ Keeps !![1, 0, 0; 0, -1, 0; 0, 0, -1] H ∧
      Keeps !![1, 0, 0; 0, -1, 1; 0, 0, 1] H := by
  unfold baseco_40
  rw [get_HNF_diagonals_eq]
  refine gen_mem (Q := fun H => Keeps !![1, 0, 0; 0, -1, 0; 0, 0, -1] H ∧
    Keeps !![1, 0, 0; 0, -1, 1; 0, 0, 1] H) ?_
  intro a c f ha hc hf H
  have ha' : (a : ℚ) ≠ 0 := by exact_mod_cast ha.ne'
  have hc' : (c : ℚ) ≠ 0 := by exact_mod_cast hc.ne'
  have hf' : (f : ℚ) ≠ 0 := by exact_mod_cast hf.ne'
  simp only [List.mem_flatMap, List.mem_ite_nil_right, List.mem_singleton]
  simp only [mod_q hc, mem_step_q hc, mod_q hf, mem_pyRange, iadd,
    isub, imul, id]
  constructor
  · rintro ⟨t0, e, ⟨t1, e0, e1⟩, t2, d, ⟨t3, d0, d1⟩, t4, b, ⟨b0, b1⟩, ⟨t5, t6⟩, rfl⟩
    have q0 : ((Int.tdiv (e * e) c : ℤ) : ℚ) = ((e : ℚ) * (e : ℚ)) / (c : ℚ) :=
      tdiv_q (by q_cs) (by q_cs) ((((IsInt.int e).mul t1)).of_eq (by q_eq))
    replace t2 : IsInt ((((2 : ℚ) * (e : ℚ)) - (((e : ℚ) * (e : ℚ)) / (c : ℚ))) / (f : ℚ)) := t2.of_eq (by q_st [q0])
    have q1 : ((Int.tdiv (d * e) c : ℤ) : ℚ) = ((d : ℚ) * (e : ℚ)) / (c : ℚ) :=
      tdiv_q (by q_cst [q0]) (by q_cst [q0]) ((((IsInt.int d).mul t1)).of_eq (by q_eq))
    replace t4 : IsInt ((((2 : ℚ) * (d : ℚ)) - (((d : ℚ) * (e : ℚ)) / (c : ℚ))) / (f : ℚ)) := t4.of_eq (by q_st [q0, q1])
    have q2 : ((Int.tdiv (((2 * b) - d) * e) c : ℤ) : ℚ) = ((((2 : ℚ) * (b : ℚ)) - (d : ℚ)) * (e : ℚ)) / (c : ℚ) :=
      tdiv_q (by q_cst [q0, q1]) (by q_cst [q0, q1]) ((((IsInt.int e).mul t5)).of_eq (by q_eq))
    replace t6 : IsInt ((((((2 : ℚ) * (b : ℚ)) - (d : ℚ)) * (e : ℚ)) / (c : ℚ)) / (f : ℚ)) := t6.of_eq (by q_st [q0, q1, q2])
    exact ⟨b, d, e, ⟨b0, b1⟩, ⟨d0, d1⟩, ⟨e0, e1⟩,
      ⟨(keeps_q ha hc hf).2 ⟨⟨((IsInt.int 1)).of_eq (by q_eq),
        (((IsInt.smul (-1) t3).add (IsInt.smul (-1) t5))).of_eq (by q_eq),
        (((IsInt.smul (-1) t4).add t6)).of_eq (by q_eq)⟩,
        ⟨((IsInt.int 0)).of_eq (by q_eq),
        ((IsInt.int (-1))).of_eq (by q_eq),
        ((IsInt.int 0)).of_eq (by q_eq)⟩,
        ⟨((IsInt.int 0)).of_eq (by q_eq),
        ((IsInt.int 0)).of_eq (by q_eq),
        ((IsInt.int (-1))).of_eq (by q_eq)⟩⟩,
      (keeps_q ha hc hf).2 ⟨⟨((IsInt.int 1)).of_eq (by q_eq),
        ((IsInt.smul (-1) t5)).of_eq (by q_eq),
        (t6).of_eq (by q_eq)⟩,
        ⟨((IsInt.int 0)).of_eq (by q_eq),
        (((IsInt.int (-1)).add t1)).of_eq (by q_eq),
        (t2).of_eq (by q_eq)⟩,
        ⟨((IsInt.int 0)).of_eq (by q_eq),
        (t0).of_eq (by q_eq),
        (((IsInt.int 1).add (IsInt.smul (-1) t1))).of_eq (by q_eq)⟩⟩⟩, rfl⟩
  · rintro ⟨b, d, e, ⟨b0, b1⟩, ⟨d0, d1⟩, ⟨e0, e1⟩, ⟨k0, k1⟩, rfl⟩
    obtain ⟨⟨y00, y01, y02⟩, ⟨y03, y04, y05⟩, ⟨y06, y07, y08⟩⟩ := (keeps_q ha hc hf).1 k0
    obtain ⟨⟨y10, y11, y12⟩, ⟨y13, y14, y15⟩, ⟨y16, y17, y18⟩⟩ := (keeps_q ha hc hf).1 k1
    have p0 : IsInt (((f : ℚ))/((c : ℚ))) := (y17).of_eq (by q_eq)
    have p1 : IsInt ((e : ℚ)/(c : ℚ)) := (((IsInt.int 1).add y14)).of_eq (by q_eq)
    have p2 : IsInt ((2 * (e : ℚ) - (e : ℚ) * (e : ℚ) / (c : ℚ))/((f : ℚ))) := (y15).of_eq (by q_eq)
    have p3 : IsInt ((d : ℚ)/(c : ℚ)) := (((IsInt.smul (-1) y01).add y11)).of_eq (by q_eq)
    have p4 : IsInt ((2 * (d : ℚ) - (d : ℚ) * (e : ℚ) / (c : ℚ))/((f : ℚ))) := (((IsInt.smul (-1) y02).add y12)).of_eq (by q_eq)
    have p5 : IsInt ((2 * (b : ℚ) - (d : ℚ))/((c : ℚ))) := ((IsInt.smul (-1) y11)).of_eq (by q_eq)
    have p6 : IsInt (((2 * (b : ℚ) - (d : ℚ)) * (e : ℚ) / (c : ℚ))/((f : ℚ))) := (y12).of_eq (by q_eq)
    have t0 : IsInt ((f : ℚ)/(c : ℚ)) := (y17).of_eq (by q_eq)
    have t1 : IsInt ((e : ℚ)/(c : ℚ)) := (p1).of_eq (by q_eq)
    have q0 : ((Int.tdiv (e * e) c : ℤ) : ℚ) = ((e : ℚ) * (e : ℚ)) / (c : ℚ) :=
      tdiv_q (by q_cs) (by q_cs) ((((IsInt.int e).mul p1)).of_eq (by q_eq))
    have t2 : IsInt (((2*(e : ℚ))-(((e : ℚ)*(e : ℚ))/(c : ℚ)))/(f : ℚ)) := (y15).of_eq (by q_eq)
    have t3 : IsInt ((d : ℚ)/(c : ℚ)) := (p3).of_eq (by q_eq)
    have q1 : ((Int.tdiv (d * e) c : ℤ) : ℚ) = ((d : ℚ) * (e : ℚ)) / (c : ℚ) :=
      tdiv_q (by q_cst [q0]) (by q_cst [q0]) ((((IsInt.int d).mul p1)).of_eq (by q_eq))
    have t4 : IsInt (((2*(d : ℚ))-(((d : ℚ)*(e : ℚ))/(c : ℚ)))/(f : ℚ)) := (p4).of_eq (by q_eq)
    have t5 : IsInt (((2*(b : ℚ))-(d : ℚ))/(c : ℚ)) := (p5).of_eq (by q_eq)
    have q2 : ((Int.tdiv (((2 * b) - d) * e) c : ℤ) : ℚ) = ((((2 : ℚ) * (b : ℚ)) - (d : ℚ)) * (e : ℚ)) / (c : ℚ) :=
      tdiv_q (by q_cst [q0, q1]) (by q_cst [q0, q1]) (((IsInt.smul (-1) ((IsInt.int e).mul y11))).of_eq (by q_eq))
    have t6 : IsInt (((((2*(b : ℚ))-(d : ℚ))*(e : ℚ))/(c : ℚ))/(f : ℚ)) := (y12).of_eq (by q_eq)
    exact ⟨t0.of_eq (by q_st [q0, q1, q2]),
      e, ⟨t1.of_eq (by q_st [q0, q1, q2]), e0, e1⟩,
      t2.of_eq (by q_st [q0, q1, q2]),
      d, ⟨t3.of_eq (by q_st [q0, q1, q2]), d0, d1⟩,
      t4.of_eq (by q_st [q0, q1, q2]),
      b, ⟨b0, b1⟩,
      ⟨t5.of_eq (by q_st [q0, q1, q2]),
      t6.of_eq (by q_st [q0, q1, q2])⟩, rfl⟩

theorem sm_33_mem {n : ℤ} {H : IntMat} : H ∈ sm_33 id n ↔
    (IsHNF H ∧ H.det = n) ∧ Keeps !![1, 0, 0; 0, -1, 0; 0, 0, 1] H := by
  unfold sm_33
  rw [get_HNF_diagonals_eq]
  refine gen_mem (Q := fun H => Keeps !![1, 0, 0; 0, -1, 0; 0, 0, 1] H) ?_
  intro a c f ha hc hf H
  have ha' : (a : ℚ) ≠ 0 := by exact_mod_cast ha.ne'
  have hc' : (c : ℚ) ≠ 0 := by exact_mod_cast hc.ne'
  have hf' : (f : ℚ) ≠ 0 := by exact_mod_cast hf.ne'
  simp only [List.mem_flatMap, List.mem_ite_nil_right, List.mem_singleton]
  simp only [mem_halves_q hc, mem_halves_q hf, mod_q hc, mod_q hf, mem_pyRange,
    iadd, isub, imul, id]
  constructor
  · rintro ⟨b, ⟨t0, b0, b1⟩, e, ⟨t1, e0, e1⟩, t2, t3, d, ⟨d0, d1⟩, rfl⟩
    have q0 : ((Int.tdiv ((2 * b) * e) c : ℤ) : ℚ) = (((2 : ℚ) * (b : ℚ)) * (e : ℚ)) / (c : ℚ) :=
      tdiv_q (by q_cs) (by q_cs) ((t2).of_eq (by q_eq))
    replace t3 : IsInt (((((2 : ℚ) * (b : ℚ)) * (e : ℚ)) / (c : ℚ)) / (f : ℚ)) := t3.of_eq (by q_st [q0])
    exact ⟨b, d, e, ⟨b0, b1⟩, ⟨d0, d1⟩, ⟨e0, e1⟩,
      (keeps_q ha hc hf).2 ⟨⟨((IsInt.int 1)).of_eq (by q_eq),
        ((IsInt.smul (-1) t0)).of_eq (by q_eq),
        (t3).of_eq (by q_eq)⟩,
        ⟨((IsInt.int 0)).of_eq (by q_eq),
        ((IsInt.int (-1))).of_eq (by q_eq),
        (t1).of_eq (by q_eq)⟩,
        ⟨((IsInt.int 0)).of_eq (by q_eq),
        ((IsInt.int 0)).of_eq (by q_eq),
        ((IsInt.int 1)).of_eq (by q_eq)⟩⟩, rfl⟩
  · rintro ⟨b, d, e, ⟨b0, b1⟩, ⟨d0, d1⟩, ⟨e0, e1⟩, k0, rfl⟩
    obtain ⟨⟨y00, y01, y02⟩, ⟨y03, y04, y05⟩, ⟨y06, y07, y08⟩⟩ := (keeps_q ha hc hf).1 k0
    have p0 : IsInt (2*(b : ℚ)/(c : ℚ)) := ((IsInt.smul (-1) y01)).of_eq (by q_eq)
    have p1 : IsInt (2*(e : ℚ)/(f : ℚ)) := (y05).of_eq (by q_eq)
    have p2 : IsInt ((2 * (b : ℚ) * (e : ℚ) / (c : ℚ))/((f : ℚ))) := (y02).of_eq (by q_eq)
    have t0 : IsInt (2*(b : ℚ)/(c : ℚ)) := (p0).of_eq (by q_eq)
    have t1 : IsInt (2*(e : ℚ)/(f : ℚ)) := (y05).of_eq (by q_eq)
    have t2 : IsInt (((2*(b : ℚ))*(e : ℚ))/(c : ℚ)) := ((IsInt.smul (-1) ((IsInt.int e).mul y01))).of_eq (by q_eq)
    have q0 : ((Int.tdiv ((2 * b) * e) c : ℤ) : ℚ) = (((2 : ℚ) * (b : ℚ)) * (e : ℚ)) / (c : ℚ) :=
      tdiv_q (by q_cs) (by q_cs) ((t2).of_eq (by q_eq))
    have t3 : IsInt ((((2*(b : ℚ))*(e : ℚ))/(c : ℚ))/(f : ℚ)) := (y02).of_eq (by q_eq)
    exact ⟨b, ⟨t0.of_eq (by q_st [q0]), b0, b1⟩,
      e, ⟨t1.of_eq (by q_st [q0]), e0, e1⟩,
      t2.of_eq (by q_st [q0]),
      t3.of_eq (by q_st [q0]),
      d, ⟨d0, d1⟩, rfl⟩

theorem basecm_28_mem {n : ℤ} {H : IntMat} : H ∈ basecm_28 id n ↔
    (IsHNF H ∧ H.det = n) ∧ Keeps !![1, 0, 0; 0, 1, 1; 0, 0, -1] H := by
  unfold basecm_28
  rw [get_HNF_diagonals_eq]
  refine gen_mem (Q := fun H => Keeps !![1, 0, 0; 0, 1, 1; 0, 0, -1] H) ?_
  intro a c f ha hc hf H
  have ha' : (a : ℚ) ≠ 0 := by exact_mod_cast ha.ne'
  have hc' : (c : ℚ) ≠ 0 := by exact_mod_cast hc.ne'
  have hf' : (f : ℚ) ≠ 0 := by exact_mod_cast hf.ne'
  simp only [List.mem_flatMap, List.mem_ite_nil_right, List.mem_singleton]
  simp only [mod_q hc, mem_step_q hc, mod_q hf, mem_pyRange, iadd,
    isub, imul, id]
  constructor
  · rintro ⟨t0, e, ⟨t1, e0, e1⟩, t2, d, ⟨t3, d0, d1⟩, t4, b, ⟨b0, b1⟩, rfl⟩
    have q0 : ((Int.tdiv (e * e) c : ℤ) : ℚ) = ((e : ℚ) * (e : ℚ)) / (c : ℚ) :=
      tdiv_q (by q_cs) (by q_cs) ((((IsInt.int e).mul t1)).of_eq (by q_eq))
    replace t2 : IsInt ((((2 : ℚ) * (e : ℚ)) + (((e : ℚ) * (e : ℚ)) / (c : ℚ))) / (f : ℚ)) := t2.of_eq (by q_st [q0])
    have q1 : ((Int.tdiv (d * e) c : ℤ) : ℚ) = ((d : ℚ) * (e : ℚ)) / (c : ℚ) :=
      tdiv_q (by q_cst [q0]) (by q_cst [q0]) ((((IsInt.int d).mul t1)).of_eq (by q_eq))
    replace t4 : IsInt ((((2 : ℚ) * (d : ℚ)) + (((d : ℚ) * (e : ℚ)) / (c : ℚ))) / (f : ℚ)) := t4.of_eq (by q_st [q0, q1])
    exact ⟨b, d, e, ⟨b0, b1⟩, ⟨d0, d1⟩, ⟨e0, e1⟩,
      (keeps_q ha hc hf).2 ⟨⟨((IsInt.int 1)).of_eq (by q_eq),
        (t3).of_eq (by q_eq),
        ((IsInt.smul (-1) t4)).of_eq (by q_eq)⟩,
        ⟨((IsInt.int 0)).of_eq (by q_eq),
        (((IsInt.int 1).add t1)).of_eq (by q_eq),
        ((IsInt.smul (-1) t2)).of_eq (by q_eq)⟩,
        ⟨((IsInt.int 0)).of_eq (by q_eq),
        (t0).of_eq (by q_eq),
        (((IsInt.int (-1)).add (IsInt.smul (-1) t1))).of_eq (by q_eq)⟩⟩, rfl⟩
  · rintro ⟨b, d, e, ⟨b0, b1⟩, ⟨d0, d1⟩, ⟨e0, e1⟩, k0, rfl⟩
    obtain ⟨⟨y00, y01, y02⟩, ⟨y03, y04, y05⟩, ⟨y06, y07, y08⟩⟩ := (keeps_q ha hc hf).1 k0
    have p0 : IsInt (((f : ℚ))/((c : ℚ))) := (y07).of_eq (by q_eq)
    have p1 : IsInt ((e : ℚ)/(c : ℚ)) := (((IsInt.int (-1)).add y04)).of_eq (by q_eq)
    have p2 : IsInt ((2 * (e : ℚ) + (e : ℚ) * (e : ℚ) / (c : ℚ))/((f : ℚ))) := ((IsInt.smul (-1) y05)).of_eq (by q_eq)
    have p3 : IsInt ((d : ℚ)/(c : ℚ)) := (y01).of_eq (by q_eq)
    have p4 : IsInt ((2 * (d : ℚ) + (d : ℚ) * (e : ℚ) / (c : ℚ))/((f : ℚ))) := ((IsInt.smul (-1) y02)).of_eq (by q_eq)
    have t0 : IsInt ((f : ℚ)/(c : ℚ)) := (y07).of_eq (by q_eq)
    have t1 : IsInt ((e : ℚ)/(c : ℚ)) := (p1).of_eq (by q_eq)
    have q0 : ((Int.tdiv (e * e) c : ℤ) : ℚ) = ((e : ℚ) * (e : ℚ)) / (c : ℚ) :=
      tdiv_q (by q_cs) (by q_cs) ((((IsInt.int e).mul p1)).of_eq (by q_eq))
    have t2 : IsInt (((2*(e : ℚ))+(((e : ℚ)*(e : ℚ))/(c : ℚ)))/(f : ℚ)) := (p2).of_eq (by q_eq)
    have t3 : IsInt ((d : ℚ)/(c : ℚ)) := (y01).of_eq (by q_eq)
    have q1 : ((Int.tdiv (d * e) c : ℤ) : ℚ) = ((d : ℚ) * (e : ℚ)) / (c : ℚ) :=
      tdiv_q (by q_cst [q0]) (by q_cst [q0]) ((((IsInt.int d).mul p1)).of_eq (by q_eq))
    have t4 : IsInt (((2*(d : ℚ))+(((d : ℚ)*(e : ℚ))/(c : ℚ)))/(f : ℚ)) := (p4).of_eq (by q_eq)
    exact ⟨t0.of_eq (by q_st [q0, q1]),
      e, ⟨t1.of_eq (by q_st [q0, q1]), e0, e1⟩,
      t2.of_eq (by q_st [q0, q1]),
      d, ⟨t3.of_eq (by q_st [q0, q1]), d0, d1⟩,
      t4.of_eq (by q_st [q0, q1]),
      b, ⟨b0, b1⟩, rfl⟩

end Fortran

end AutoGR
