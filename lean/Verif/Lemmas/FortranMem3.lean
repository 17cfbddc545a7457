import Verif.Lemmas.FortranBase

/-! # What each Fortran subroutine lists, as integrality conditions (part 3) -/

set_option linter.unusedSimpArgs false
set_option linter.unusedVariables false
set_option maxHeartbeats 2000000

namespace AutoGR

namespace Fortran

open Spec

theorem baseco_36_mem {n : ℤ} {H : IntMat} : H ∈ baseco_36 id n ↔
    (IsHNF H ∧ H.det = n) ∧ Keeps !![1, 0, 0; 0, -1, 0; 0, 0, 1] H ∧
      Keeps !![1, 0, -1; 0, -1, 0; 0, 0, -1] H := by
  unfold baseco_36
  rw [get_HNF_diagonals_eq]
  refine gen_mem (Q := fun H => Keeps !![1, 0, 0; 0, -1, 0; 0, 0, 1] H ∧
    Keeps !![1, 0, -1; 0, -1, 0; 0, 0, -1] H) ?_
  intro a c f ha hc hf H
  have ha' : (a : ℚ) ≠ 0 := by exact_mod_cast ha.ne'
  have hc' : (c : ℚ) ≠ 0 := by exact_mod_cast hc.ne'
  have hf' : (f : ℚ) ≠ 0 := by exact_mod_cast hf.ne'
  simp only [List.mem_flatMap, List.mem_ite_nil_right, List.mem_singleton]
  simp only [mod_q ha, mem_halves_q hc, mod_q hc, mem_halves_q hf, mod_q hf,
    mem_pyRange, iadd, isub, imul, id]
  constructor
  · rintro ⟨t0, b, ⟨t1, b0, b1⟩, t2, e, ⟨t3, e0, e1⟩, ⟨t4, t5⟩, ⟨t6, t7⟩, d, ⟨d0, d1⟩, ⟨t8, t9⟩, t10, ⟨t11, t12, t13⟩, rfl⟩
    have q0 : ((Int.tdiv (b * f) a : ℤ) : ℚ) = ((b : ℚ) * (f : ℚ)) / (a : ℚ) :=
      tdiv_q (by q_cs) (by q_cs) ((((IsInt.int b).mul t0)).of_eq (by q_eq))
    replace t2 : IsInt ((-(((b : ℚ) * (f : ℚ)) / (a : ℚ))) / (c : ℚ)) := t2.of_eq (by q_st [q0])
    have q1 : ((Int.tdiv (b * e) a : ℤ) : ℚ) = ((b : ℚ) * (e : ℚ)) / (a : ℚ) :=
      tdiv_q (by q_cst [q0]) (by q_cst [q0]) ((((IsInt.int b).mul t4)).of_eq (by q_eq))
    replace t6 : IsInt ((-(((b : ℚ) * (e : ℚ)) / (a : ℚ))) / (c : ℚ)) := t6.of_eq (by q_st [q0, q1])
    have q2 : ((Int.tdiv ((2 * b) * e) c : ℤ) : ℚ) = (((2 : ℚ) * (b : ℚ)) * (e : ℚ)) / (c : ℚ) :=
      tdiv_q (by q_cst [q0, q1]) (by q_cst [q0, q1]) (((IsInt.smul 2 t5)).of_eq (by q_eq))
    replace t7 : IsInt ((-((((2 : ℚ) * (b : ℚ)) * (e : ℚ)) / (c : ℚ))) / (f : ℚ)) := t7.of_eq (by q_st [q0, q1, q2])
    have q3 : ((Int.tdiv (b * d) a : ℤ) : ℚ) = ((b : ℚ) * (d : ℚ)) / (a : ℚ) :=
      tdiv_q (by q_cst [q0, q1, q2]) (by q_cst [q0, q1, q2]) ((t8).of_eq (by q_eq))
    replace t10 : IsInt (((-(((b : ℚ) * (d : ℚ)) / (a : ℚ))) * (e : ℚ)) / (c : ℚ)) := t10.of_eq (by q_st [q0, q1, q2, q3])
    replace t11 : IsInt ((-(((b : ℚ) * (d : ℚ)) / (a : ℚ))) / (c : ℚ)) := t11.of_eq (by q_st [q0, q1, q2, q3])
    have q4 : ((Int.tdiv (d * d) a : ℤ) : ℚ) = ((d : ℚ) * (d : ℚ)) / (a : ℚ) :=
      tdiv_q (by q_cst [q0, q1, q2, q3]) (by q_cst [q0, q1, q2, q3]) ((t9).of_eq (by q_eq))
    have q5 : ((Int.tdiv ((-(Int.tdiv (b * d) a)) * e) c : ℤ) : ℚ) = ((-(((b : ℚ) * (d : ℚ)) / (a : ℚ))) * (e : ℚ)) / (c : ℚ) :=
      tdiv_q (by q_cst [q0, q1, q2, q3, q4]) (by q_cst [q0, q1, q2, q3, q4]) ((t10).of_eq (by q_eq))
    replace t12 : IsInt (((((2 : ℚ) * (d : ℚ)) - (((d : ℚ) * (d : ℚ)) / (a : ℚ))) - (((-(((b : ℚ) * (d : ℚ)) / (a : ℚ))) * (e : ℚ)) / (c : ℚ))) / (f : ℚ)) := t12.of_eq (by q_st [q0, q1, q2, q3, q4, q5])
    have q6 : ((Int.tdiv (d * e) a : ℤ) : ℚ) = ((d : ℚ) * (e : ℚ)) / (a : ℚ) :=
      tdiv_q (by q_cst [q0, q1, q2, q3, q4, q5]) (by q_cst [q0, q1, q2, q3, q4, q5]) ((((IsInt.int d).mul t4)).of_eq (by q_eq))
    have q7 : ((Int.tdiv ((-(Int.tdiv (b * e) a)) * e) c : ℤ) : ℚ) = ((-(((b : ℚ) * (e : ℚ)) / (a : ℚ))) * (e : ℚ)) / (c : ℚ) :=
      tdiv_q (by q_cst [q0, q1, q2, q3, q4, q5, q6]) (by q_cst [q0, q1, q2, q3, q4, q5, q6]) ((((IsInt.int e).mul t6)).of_eq (by q_eq))
    replace t13 : IsInt (((((2 : ℚ) * (e : ℚ)) - (((d : ℚ) * (e : ℚ)) / (a : ℚ))) - (((-(((b : ℚ) * (e : ℚ)) / (a : ℚ))) * (e : ℚ)) / (c : ℚ))) / (f : ℚ)) := t13.of_eq (by q_st [q0, q1, q2, q3, q4, q5, q6, q7])
    have hx : IsInt ((d : ℚ)/(a : ℚ)) := ((IsInt.of_sq (q := (d : ℚ) / a - 1) ((((IsInt.int 1).add (IsInt.smul (-1) (t12.mul t0))).add
        (IsInt.smul (-1) (t11.mul t4))).of_eq (by q_eq))).add (IsInt.int 1)).of_eq (by push_cast; ring)
    exact ⟨b, d, e, ⟨b0, b1⟩, ⟨d0, d1⟩, ⟨e0, e1⟩,
      ⟨(keeps_q ha hc hf).2 ⟨⟨((IsInt.int 1)).of_eq (by q_eq),
        ((IsInt.smul (-1) t1)).of_eq (by q_eq),
        ((IsInt.smul (-1) t7)).of_eq (by q_eq)⟩,
        ⟨((IsInt.int 0)).of_eq (by q_eq),
        ((IsInt.int (-1))).of_eq (by q_eq),
        (t3).of_eq (by q_eq)⟩,
        ⟨((IsInt.int 0)).of_eq (by q_eq),
        ((IsInt.int 0)).of_eq (by q_eq),
        ((IsInt.int 1)).of_eq (by q_eq)⟩⟩,
      (keeps_q ha hc hf).2 ⟨⟨(((IsInt.int 1).add (IsInt.smul (-1) hx))).of_eq (by q_eq),
        (((IsInt.smul (-1) t1).add (IsInt.smul (-1) t11))).of_eq (by q_eq),
        (((IsInt.smul (-1) t7).add (IsInt.smul (-1) t12))).of_eq (by q_eq)⟩,
        ⟨((IsInt.smul (-1) t4)).of_eq (by q_eq),
        (((IsInt.int (-1)).add (IsInt.smul (-1) t6))).of_eq (by q_eq),
        ((t3.add (IsInt.smul (-1) t13))).of_eq (by q_eq)⟩,
        ⟨((IsInt.smul (-1) t0)).of_eq (by q_eq),
        ((IsInt.smul (-1) t2)).of_eq (by q_eq),
        ((((IsInt.int (-1)).add t6).add hx)).of_eq (by q_eq)⟩⟩⟩, rfl⟩
  · rintro ⟨b, d, e, ⟨b0, b1⟩, ⟨d0, d1⟩, ⟨e0, e1⟩, ⟨k0, k1⟩, rfl⟩
    obtain ⟨⟨y00, y01, y02⟩, ⟨y03, y04, y05⟩, ⟨y06, y07, y08⟩⟩ := (keeps_q ha hc hf).1 k0
    obtain ⟨⟨y10, y11, y12⟩, ⟨y13, y14, y15⟩, ⟨y16, y17, y18⟩⟩ := (keeps_q ha hc hf).1 k1
    have p0 : IsInt (((f : ℚ))/((a : ℚ))) := ((IsInt.smul (-1) y16)).of_eq (by q_eq)
    have p1 : IsInt (2*(b : ℚ)/(c : ℚ)) := ((IsInt.smul (-1) y01)).of_eq (by q_eq)
    have p2 : IsInt ((-(b : ℚ) * (f : ℚ) / (a : ℚ))/((c : ℚ))) := ((IsInt.smul (-1) y17)).of_eq (by q_eq)
    have p3 : IsInt (2*(e : ℚ)/(f : ℚ)) := (y05).of_eq (by q_eq)
    have p4 : IsInt ((-(b : ℚ) * (e : ℚ) / (a : ℚ))/((c : ℚ))) := (((IsInt.int (-1)).add (IsInt.smul (-1) y14))).of_eq (by q_eq)
    have p5 : IsInt ((-2 * (b : ℚ) * (e : ℚ) / (c : ℚ))/((f : ℚ))) := ((IsInt.smul (-1) y02)).of_eq (by q_eq)
    have p6 : IsInt (((e : ℚ))/((a : ℚ))) := ((IsInt.smul (-1) y13)).of_eq (by q_eq)
    have p7 : IsInt ((d : ℚ)/(a : ℚ)) := (((IsInt.int 1).add (IsInt.smul (-1) y10))).of_eq (by q_eq)
    have p8 : IsInt ((-(b : ℚ) * (d : ℚ) / (a : ℚ))/((c : ℚ))) := ((y01.add (IsInt.smul (-1) y11))).of_eq (by q_eq)
    have p9 : IsInt ((2 * (d : ℚ) - (d : ℚ) * (d : ℚ) / (a : ℚ) - (-(b : ℚ) * (d : ℚ) / (a : ℚ)) * (e : ℚ) / (c : ℚ))/((f : ℚ))) := ((y02.add (IsInt.smul (-1) y12))).of_eq (by q_eq)
    have p10 : IsInt ((2 * (e : ℚ) - (d : ℚ) * (e : ℚ) / (a : ℚ) - (-(b : ℚ) * (e : ℚ) / (a : ℚ)) * (e : ℚ) / (c : ℚ))/((f : ℚ))) := ((y05.add (IsInt.smul (-1) y15))).of_eq (by q_eq)
    have hz : IsInt ((b : ℚ)*(e : ℚ)/(c : ℚ)) := halves_prod hc hf b0 b1 e0 e1 p1 p3 ((IsInt.smul (-1) p5).of_eq (by q_eq))
    have t0 : IsInt ((f : ℚ)/(a : ℚ)) := (p0).of_eq (by q_eq)
    have t1 : IsInt (2*(b : ℚ)/(c : ℚ)) := (p1).of_eq (by q_eq)
    have q0 : ((Int.tdiv (b * f) a : ℤ) : ℚ) = ((b : ℚ) * (f : ℚ)) / (a : ℚ) :=
      tdiv_q (by q_cs) (by q_cs) (((IsInt.smul (-1) ((IsInt.int b).mul y16))).of_eq (by q_eq))
    have t2 : IsInt ((-(((b : ℚ)*(f : ℚ))/(a : ℚ)))/(c : ℚ)) := (p2).of_eq (by q_eq)
    have t3 : IsInt (2*(e : ℚ)/(f : ℚ)) := (y05).of_eq (by q_eq)
    have t4 : IsInt ((e : ℚ)/(a : ℚ)) := (p6).of_eq (by q_eq)
    have t5 : IsInt (((b : ℚ)*(e : ℚ))/(c : ℚ)) := (hz).of_eq (by q_eq)
    have q1 : ((Int.tdiv (b * e) a : ℤ) : ℚ) = ((b : ℚ) * (e : ℚ)) / (a : ℚ) :=
      tdiv_q (by q_cst [q0]) (by q_cst [q0]) (((IsInt.smul (-1) ((IsInt.int b).mul y13))).of_eq (by q_eq))
    have t6 : IsInt ((-(((b : ℚ)*(e : ℚ))/(a : ℚ)))/(c : ℚ)) := (p4).of_eq (by q_eq)
    have q2 : ((Int.tdiv ((2 * b) * e) c : ℤ) : ℚ) = (((2 : ℚ) * (b : ℚ)) * (e : ℚ)) / (c : ℚ) :=
      tdiv_q (by q_cst [q0, q1]) (by q_cst [q0, q1]) (((IsInt.smul 2 hz)).of_eq (by q_eq))
    have t7 : IsInt ((-(((2*(b : ℚ))*(e : ℚ))/(c : ℚ)))/(f : ℚ)) := (p5).of_eq (by q_eq)
    have t8 : IsInt (((b : ℚ)*(d : ℚ))/(a : ℚ)) := (((IsInt.int b).mul p7)).of_eq (by q_eq)
    have t9 : IsInt (((d : ℚ)*(d : ℚ))/(a : ℚ)) := (((IsInt.int d).mul p7)).of_eq (by q_eq)
    have q3 : ((Int.tdiv (b * d) a : ℤ) : ℚ) = ((b : ℚ) * (d : ℚ)) / (a : ℚ) :=
      tdiv_q (by q_cst [q0, q1, q2]) (by q_cst [q0, q1, q2]) ((t8).of_eq (by q_eq))
    have t10 : IsInt (((-(((b : ℚ)*(d : ℚ))/(a : ℚ)))*(e : ℚ))/(c : ℚ)) := (((IsInt.int d).mul p4)).of_eq (by q_eq)
    have t11 : IsInt ((-(((b : ℚ)*(d : ℚ))/(a : ℚ)))/(c : ℚ)) := (p8).of_eq (by q_eq)
    have q4 : ((Int.tdiv (d * d) a : ℤ) : ℚ) = ((d : ℚ) * (d : ℚ)) / (a : ℚ) :=
      tdiv_q (by q_cst [q0, q1, q2, q3]) (by q_cst [q0, q1, q2, q3]) ((t9).of_eq (by q_eq))
    have q5 : ((Int.tdiv ((-(Int.tdiv (b * d) a)) * e) c : ℤ) : ℚ) = ((-(((b : ℚ) * (d : ℚ)) / (a : ℚ))) * (e : ℚ)) / (c : ℚ) :=
      tdiv_q (by q_cst [q0, q1, q2, q3, q4]) (by q_cst [q0, q1, q2, q3, q4]) ((t10).of_eq (by q_eq))
    have t12 : IsInt ((((2*(d : ℚ))-(((d : ℚ)*(d : ℚ))/(a : ℚ)))-(((-(((b : ℚ)*(d : ℚ))/(a : ℚ)))*(e : ℚ))/(c : ℚ)))/(f : ℚ)) := (p9).of_eq (by q_eq)
    have q6 : ((Int.tdiv (d * e) a : ℤ) : ℚ) = ((d : ℚ) * (e : ℚ)) / (a : ℚ) :=
      tdiv_q (by q_cst [q0, q1, q2, q3, q4, q5]) (by q_cst [q0, q1, q2, q3, q4, q5]) (((IsInt.smul (-1) ((IsInt.int d).mul y13))).of_eq (by q_eq))
    have q7 : ((Int.tdiv ((-(Int.tdiv (b * e) a)) * e) c : ℤ) : ℚ) = ((-(((b : ℚ) * (e : ℚ)) / (a : ℚ))) * (e : ℚ)) / (c : ℚ) :=
      tdiv_q (by q_cst [q0, q1, q2, q3, q4, q5, q6]) (by q_cst [q0, q1, q2, q3, q4, q5, q6]) ((((IsInt.int e).mul p4)).of_eq (by q_eq))
    have t13 : IsInt ((((2*(e : ℚ))-(((d : ℚ)*(e : ℚ))/(a : ℚ)))-(((-(((b : ℚ)*(e : ℚ))/(a : ℚ)))*(e : ℚ))/(c : ℚ)))/(f : ℚ)) := (p10).of_eq (by q_eq)
    exact ⟨t0.of_eq (by q_st [q0, q1, q2, q3, q4, q5, q6, q7]),
      b, ⟨t1.of_eq (by q_st [q0, q1, q2, q3, q4, q5, q6, q7]), b0, b1⟩,
      t2.of_eq (by q_st [q0, q1, q2, q3, q4, q5, q6, q7]),
      e, ⟨t3.of_eq (by q_st [q0, q1, q2, q3, q4, q5, q6, q7]), e0, e1⟩,
      ⟨t4.of_eq (by q_st [q0, q1, q2, q3, q4, q5, q6, q7]),
      t5.of_eq (by q_st [q0, q1, q2, q3, q4, q5, q6, q7])⟩,
      ⟨t6.of_eq (by q_st [q0, q1, q2, q3, q4, q5, q6, q7]),
      t7.of_eq (by q_st [q0, q1, q2, q3, q4, q5, q6, q7])⟩,
      d, ⟨d0, d1⟩,
      ⟨t8.of_eq (by q_st [q0, q1, q2, q3, q4, q5, q6, q7]),
      t9.of_eq (by q_st [q0, q1, q2, q3, q4, q5, q6, q7])⟩,
      t10.of_eq (by q_st [q0, q1, q2, q3, q4, q5, q6, q7]),
      ⟨t11.of_eq (by q_st [q0, q1, q2, q3, q4, q5, q6, q7]),
      t12.of_eq (by q_st [q0, q1, q2, q3, q4, q5, q6, q7]),
      t13.of_eq (by q_st [q0, q1, q2, q3, q4, q5, q6, q7])⟩, rfl⟩

theorem baseco_23_mem {n : ℤ} {H : IntMat} : H ∈ baseco_23 id n ↔
    (IsHNF H ∧ H.det = n) ∧ Keeps !![0, 0, 1; 0, 1, 0; 1, 0, 0] H ∧
      Keeps !![1, 0, 0; 0, -1, 0; 0, 0, 1] H := by
  unfold baseco_23
  rw [get_HNF_diagonals_eq]
  refine gen_mem (Q := fun H => Keeps !![0, 0, 1; 0, 1, 0; 1, 0, 0] H ∧
    Keeps !![1, 0, 0; 0, -1, 0; 0, 0, 1] H) ?_
  intro a c f ha hc hf H
  have ha' : (a : ℚ) ≠ 0 := by exact_mod_cast ha.ne'
  have hc' : (c : ℚ) ≠ 0 := by exact_mod_cast hc.ne'
  have hf' : (f : ℚ) ≠ 0 := by exact_mod_cast hf.ne'
  simp only [List.mem_flatMap, List.mem_ite_nil_right, List.mem_singleton]
  simp only [mod_q ha, mem_halves_q hc, mod_q (mul_pos ha hc), mem_halves_q hf, mod_q (mul_pos hc hf),
    mem_step_q ha, mod_q hc, mod_q hf, iadd, isub,
    imul, id]
  constructor
  · rintro ⟨t0, b, ⟨t1, b0, b1⟩, t2, e, ⟨t3, e0, e1⟩, ⟨t4, t5, t6⟩, d, ⟨t7, d0, d1⟩, t8, ⟨t9, t10⟩, ⟨t11, t12, t13⟩, rfl⟩
    have q0 : ((Int.tdiv (b * d) a : ℤ) : ℚ) = ((b : ℚ) * (d : ℚ)) / (a : ℚ) :=
      tdiv_q (by q_cs) (by q_cs) ((t8).of_eq (by q_eq))
    replace t9 : IsInt ((((-(b : ℚ)) + (((b : ℚ) * (d : ℚ)) / (a : ℚ))) * (e : ℚ)) / (c : ℚ)) := t9.of_eq (by q_st [q0])
    replace t11 : IsInt (((-(b : ℚ)) + (((b : ℚ) * (d : ℚ)) / (a : ℚ))) / (c : ℚ)) := t11.of_eq (by q_st [q0])
    have q1 : ((Int.tdiv (d * d) a : ℤ) : ℚ) = ((d : ℚ) * (d : ℚ)) / (a : ℚ) :=
      tdiv_q (by q_cst [q0]) (by q_cst [q0]) ((t10).of_eq (by q_eq))
    have q2 : ((Int.tdiv (((-b) + (Int.tdiv (b * d) a)) * e) c : ℤ) : ℚ) = (((-(b : ℚ)) + (((b : ℚ) * (d : ℚ)) / (a : ℚ))) * (e : ℚ)) / (c : ℚ) :=
      tdiv_q (by q_cst [q0, q1]) (by q_cst [q0, q1]) ((t9).of_eq (by q_eq))
    replace t12 : IsInt ((((-(a : ℚ)) + (((d : ℚ) * (d : ℚ)) / (a : ℚ))) - ((((-(b : ℚ)) + (((b : ℚ) * (d : ℚ)) / (a : ℚ))) * (e : ℚ)) / (c : ℚ))) / (f : ℚ)) := t12.of_eq (by q_st [q0, q1, q2])
    have q3 : ((Int.tdiv (d * e) a : ℤ) : ℚ) = ((d : ℚ) * (e : ℚ)) / (a : ℚ) :=
      tdiv_q (by q_cst [q0, q1, q2]) (by q_cst [q0, q1, q2]) ((((IsInt.int d).mul t6)).of_eq (by q_eq))
    have q4 : ((Int.tdiv ((b * e) * e) (a * c) : ℤ) : ℚ) = (((b : ℚ) * (e : ℚ)) * (e : ℚ)) / ((a : ℚ) * (c : ℚ)) :=
      tdiv_q (by q_cst [q0, q1, q2, q3]) (by q_cst [q0, q1, q2, q3]) ((((IsInt.int e).mul t4)).of_eq (by q_eq))
    replace t13 : IsInt ((((e : ℚ) + (((d : ℚ) * (e : ℚ)) / (a : ℚ))) - ((((b : ℚ) * (e : ℚ)) * (e : ℚ)) / ((a : ℚ) * (c : ℚ)))) / (f : ℚ)) := t13.of_eq (by q_st [q0, q1, q2, q3, q4])
    exact ⟨b, d, e, ⟨b0, b1⟩, ⟨d0, d1⟩, ⟨e0, e1⟩,
      ⟨(keeps_q ha hc hf).2 ⟨⟨(t7).of_eq (by q_eq),
        ((IsInt.smul (-1) t11)).of_eq (by q_eq),
        ((IsInt.smul (-1) t12)).of_eq (by q_eq)⟩,
        ⟨(t6).of_eq (by q_eq),
        (((IsInt.int 1).add (IsInt.smul (-1) t4))).of_eq (by q_eq),
        ((IsInt.smul (-1) t13)).of_eq (by q_eq)⟩,
        ⟨(t0).of_eq (by q_eq),
        ((IsInt.smul (-1) t2)).of_eq (by q_eq),
        ((t4.add (IsInt.smul (-1) t7))).of_eq (by q_eq)⟩⟩,
      (keeps_q ha hc hf).2 ⟨⟨((IsInt.int 1)).of_eq (by q_eq),
        ((IsInt.smul (-1) t1)).of_eq (by q_eq),
        (t5).of_eq (by q_eq)⟩,
        ⟨((IsInt.int 0)).of_eq (by q_eq),
        ((IsInt.int (-1))).of_eq (by q_eq),
        (t3).of_eq (by q_eq)⟩,
        ⟨((IsInt.int 0)).of_eq (by q_eq),
        ((IsInt.int 0)).of_eq (by q_eq),
        ((IsInt.int 1)).of_eq (by q_eq)⟩⟩⟩, rfl⟩
  · rintro ⟨b, d, e, ⟨b0, b1⟩, ⟨d0, d1⟩, ⟨e0, e1⟩, ⟨k0, k1⟩, rfl⟩
    obtain ⟨⟨y00, y01, y02⟩, ⟨y03, y04, y05⟩, ⟨y06, y07, y08⟩⟩ := (keeps_q ha hc hf).1 k0
    obtain ⟨⟨y10, y11, y12⟩, ⟨y13, y14, y15⟩, ⟨y16, y17, y18⟩⟩ := (keeps_q ha hc hf).1 k1
    have p0 : IsInt (((f : ℚ))/((a : ℚ))) := (y06).of_eq (by q_eq)
    have p1 : IsInt (2*(b : ℚ)/(c : ℚ)) := ((IsInt.smul (-1) y11)).of_eq (by q_eq)
    have p2 : IsInt (((b : ℚ) * (f : ℚ))/(((a : ℚ) * (c : ℚ)))) := ((IsInt.smul (-1) y07)).of_eq (by q_eq)
    have p3 : IsInt (2*(e : ℚ)/(f : ℚ)) := (y15).of_eq (by q_eq)
    have p4 : IsInt (((b : ℚ) * (e : ℚ))/(((a : ℚ) * (c : ℚ)))) := (((IsInt.int 1).add (IsInt.smul (-1) y04))).of_eq (by q_eq)
    have p5 : IsInt ((2 * (b : ℚ) * (e : ℚ))/(((c : ℚ) * (f : ℚ)))) := (y12).of_eq (by q_eq)
    have p6 : IsInt (((e : ℚ))/((a : ℚ))) := (y03).of_eq (by q_eq)
    have p7 : IsInt ((d : ℚ)/(a : ℚ)) := (y00).of_eq (by q_eq)
    have p8 : IsInt ((-(b : ℚ) + (b : ℚ) * (d : ℚ) / (a : ℚ))/((c : ℚ))) := ((IsInt.smul (-1) y01)).of_eq (by q_eq)
    have p9 : IsInt ((-(a : ℚ) + (d : ℚ) * (d : ℚ) / (a : ℚ) - (-(b : ℚ) + (b : ℚ) * (d : ℚ) / (a : ℚ)) * (e : ℚ) / (c : ℚ))/((f : ℚ))) := ((IsInt.smul (-1) y02)).of_eq (by q_eq)
    have p10 : IsInt (((e : ℚ) + (d : ℚ) * (e : ℚ) / (a : ℚ) - (b : ℚ) * (e : ℚ) * (e : ℚ) / ((a : ℚ) * (c : ℚ)))/((f : ℚ))) := ((IsInt.smul (-1) y05)).of_eq (by q_eq)
    have t0 : IsInt ((f : ℚ)/(a : ℚ)) := (y06).of_eq (by q_eq)
    have t1 : IsInt (2*(b : ℚ)/(c : ℚ)) := (p1).of_eq (by q_eq)
    have t2 : IsInt (((b : ℚ)*(f : ℚ))/((a : ℚ)*(c : ℚ))) := (p2).of_eq (by q_eq)
    have t3 : IsInt (2*(e : ℚ)/(f : ℚ)) := (y15).of_eq (by q_eq)
    have t4 : IsInt (((b : ℚ)*(e : ℚ))/((a : ℚ)*(c : ℚ))) := (p4).of_eq (by q_eq)
    have t5 : IsInt (((2*(b : ℚ))*(e : ℚ))/((c : ℚ)*(f : ℚ))) := (y12).of_eq (by q_eq)
    have t6 : IsInt ((e : ℚ)/(a : ℚ)) := (y03).of_eq (by q_eq)
    have t7 : IsInt ((d : ℚ)/(a : ℚ)) := (y00).of_eq (by q_eq)
    have t8 : IsInt (((b : ℚ)*(d : ℚ))/(a : ℚ)) := (((IsInt.int b).mul y00)).of_eq (by q_eq)
    have q0 : ((Int.tdiv (b * d) a : ℤ) : ℚ) = ((b : ℚ) * (d : ℚ)) / (a : ℚ) :=
      tdiv_q (by q_cs) (by q_cs) ((t8).of_eq (by q_eq))
    have t9 : IsInt ((((-(b : ℚ))+(((b : ℚ)*(d : ℚ))/(a : ℚ)))*(e : ℚ))/(c : ℚ)) := ((IsInt.smul (-1) ((IsInt.int e).mul y01))).of_eq (by q_eq)
    have t10 : IsInt (((d : ℚ)*(d : ℚ))/(a : ℚ)) := (((IsInt.int d).mul y00)).of_eq (by q_eq)
    have t11 : IsInt (((-(b : ℚ))+(((b : ℚ)*(d : ℚ))/(a : ℚ)))/(c : ℚ)) := (p8).of_eq (by q_eq)
    have q1 : ((Int.tdiv (d * d) a : ℤ) : ℚ) = ((d : ℚ) * (d : ℚ)) / (a : ℚ) :=
      tdiv_q (by q_cst [q0]) (by q_cst [q0]) ((t10).of_eq (by q_eq))
    have q2 : ((Int.tdiv (((-b) + (Int.tdiv (b * d) a)) * e) c : ℤ) : ℚ) = (((-(b : ℚ)) + (((b : ℚ) * (d : ℚ)) / (a : ℚ))) * (e : ℚ)) / (c : ℚ) :=
      tdiv_q (by q_cst [q0, q1]) (by q_cst [q0, q1]) ((t9).of_eq (by q_eq))
    have t12 : IsInt ((((-(a : ℚ))+(((d : ℚ)*(d : ℚ))/(a : ℚ)))-((((-(b : ℚ))+(((b : ℚ)*(d : ℚ))/(a : ℚ)))*(e : ℚ))/(c : ℚ)))/(f : ℚ)) := (p9).of_eq (by q_eq)
    have q3 : ((Int.tdiv (d * e) a : ℤ) : ℚ) = ((d : ℚ) * (e : ℚ)) / (a : ℚ) :=
      tdiv_q (by q_cst [q0, q1, q2]) (by q_cst [q0, q1, q2]) ((((IsInt.int d).mul y03)).of_eq (by q_eq))
    have q4 : ((Int.tdiv ((b * e) * e) (a * c) : ℤ) : ℚ) = (((b : ℚ) * (e : ℚ)) * (e : ℚ)) / ((a : ℚ) * (c : ℚ)) :=
      tdiv_q (by q_cst [q0, q1, q2, q3]) (by q_cst [q0, q1, q2, q3]) ((((IsInt.int e).mul p4)).of_eq (by q_eq))
    have t13 : IsInt ((((e : ℚ)+(((d : ℚ)*(e : ℚ))/(a : ℚ)))-((((b : ℚ)*(e : ℚ))*(e : ℚ))/((a : ℚ)*(c : ℚ))))/(f : ℚ)) := (p10).of_eq (by q_eq)
    exact ⟨t0.of_eq (by q_st [q0, q1, q2, q3, q4]),
      b, ⟨t1.of_eq (by q_st [q0, q1, q2, q3, q4]), b0, b1⟩,
      t2.of_eq (by q_st [q0, q1, q2, q3, q4]),
      e, ⟨t3.of_eq (by q_st [q0, q1, q2, q3, q4]), e0, e1⟩,
      ⟨t4.of_eq (by q_st [q0, q1, q2, q3, q4]),
      t5.of_eq (by q_st [q0, q1, q2, q3, q4]),
      t6.of_eq (by q_st [q0, q1, q2, q3, q4])⟩,
      d, ⟨t7.of_eq (by q_st [q0, q1, q2, q3, q4]), d0, d1⟩,
      t8.of_eq (by q_st [q0, q1, q2, q3, q4]),
      ⟨t9.of_eq (by q_st [q0, q1, q2, q3, q4]),
      t10.of_eq (by q_st [q0, q1, q2, q3, q4])⟩,
      ⟨t11.of_eq (by q_st [q0, q1, q2, q3, q4]),
      t12.of_eq (by q_st [q0, q1, q2, q3, q4]),
      t13.of_eq (by q_st [q0, q1, q2, q3, q4])⟩, rfl⟩

theorem baseco_38_13_mem {n : ℤ} {H : IntMat} : H ∈ baseco_38_13 id n ↔
    (IsHNF H ∧ H.det = n) ∧ Keeps !![1, 0, 0; 0, 1, 0; 0, 0, -1] H ∧
      Keeps !![0, 1, 0; 1, 0, 0; 0, 0, 1] H := by
  unfold baseco_38_13
  rw [get_HNF_diagonals_eq]
  refine gen_mem (Q := fun H => Keeps !![1, 0, 0; 0, 1, 0; 0, 0, -1] H ∧
    Keeps !![0, 1, 0; 1, 0, 0; 0, 0, 1] H) ?_
  intro a c f ha hc hf H
  have ha' : (a : ℚ) ≠ 0 := by exact_mod_cast ha.ne'
  have hc' : (c : ℚ) ≠ 0 := by exact_mod_cast hc.ne'
  have hf' : (f : ℚ) ≠ 0 := by exact_mod_cast hf.ne'
  simp only [List.mem_flatMap, List.mem_ite_nil_right, List.mem_singleton]
  simp only [mod_q ha, mem_step_q ha, mod_q hc, mem_halves_q hf, mod_q hf,
    iadd, isub, imul, id]
  constructor
  · rintro ⟨t0, b, ⟨t1, b0, b1⟩, t2, t3, e, ⟨t4, e0, e1⟩, d, ⟨t5, d0, d1⟩, t6, ⟨t7, t8⟩, rfl⟩
    have q0 : ((Int.tdiv (b * b) a : ℤ) : ℚ) = ((b : ℚ) * (b : ℚ)) / (a : ℚ) :=
      tdiv_q (by q_cs) (by q_cs) ((t2).of_eq (by q_eq))
    replace t3 : IsInt (((-(a : ℚ)) + (((b : ℚ) * (b : ℚ)) / (a : ℚ))) / (c : ℚ)) := t3.of_eq (by q_st [q0])
    have q1 : ((Int.tdiv (b * d) a : ℤ) : ℚ) = ((b : ℚ) * (d : ℚ)) / (a : ℚ) :=
      tdiv_q (by q_cst [q0]) (by q_cst [q0]) ((t6).of_eq (by q_eq))
    have q2 : ((Int.tdiv (e * ((-a) + (Int.tdiv (b * b) a))) c : ℤ) : ℚ) = ((e : ℚ) * ((-(a : ℚ)) + (((b : ℚ) * (b : ℚ)) / (a : ℚ)))) / (c : ℚ) :=
      tdiv_q (by q_cst [q0, q1]) (by q_cst [q0, q1]) ((((IsInt.int e).mul t3)).of_eq (by q_eq))
    replace t7 : IsInt ((((-(d : ℚ)) + (((b : ℚ) * (d : ℚ)) / (a : ℚ))) - (((e : ℚ) * ((-(a : ℚ)) + (((b : ℚ) * (b : ℚ)) / (a : ℚ)))) / (c : ℚ))) / (f : ℚ)) := t7.of_eq (by q_st [q0, q1, q2])
    have q3 : ((Int.tdiv (c * d) a : ℤ) : ℚ) = ((c : ℚ) * (d : ℚ)) / (a : ℚ) :=
      tdiv_q (by q_cst [q0, q1, q2]) (by q_cst [q0, q1, q2]) ((((IsInt.int d).mul t0)).of_eq (by q_eq))
    have q4 : ((Int.tdiv (b * e) a : ℤ) : ℚ) = ((b : ℚ) * (e : ℚ)) / (a : ℚ) :=
      tdiv_q (by q_cst [q0, q1, q2, q3]) (by q_cst [q0, q1, q2, q3]) ((((IsInt.int e).mul t1)).of_eq (by q_eq))
    replace t8 : IsInt ((((((c : ℚ) * (d : ℚ)) / (a : ℚ)) - (e : ℚ)) - (((b : ℚ) * (e : ℚ)) / (a : ℚ))) / (f : ℚ)) := t8.of_eq (by q_st [q0, q1, q2, q3, q4])
    exact ⟨b, d, e, ⟨b0, b1⟩, ⟨d0, d1⟩, ⟨e0, e1⟩,
      ⟨(keeps_q ha hc hf).2 ⟨⟨((IsInt.int 1)).of_eq (by q_eq),
        ((IsInt.int 0)).of_eq (by q_eq),
        ((IsInt.smul (-1) t5)).of_eq (by q_eq)⟩,
        ⟨((IsInt.int 0)).of_eq (by q_eq),
        ((IsInt.int 1)).of_eq (by q_eq),
        ((IsInt.smul (-1) t4)).of_eq (by q_eq)⟩,
        ⟨((IsInt.int 0)).of_eq (by q_eq),
        ((IsInt.int 0)).of_eq (by q_eq),
        ((IsInt.int (-1))).of_eq (by q_eq)⟩⟩,
      (keeps_q ha hc hf).2 ⟨⟨(t1).of_eq (by q_eq),
        ((IsInt.smul (-1) t3)).of_eq (by q_eq),
        ((IsInt.smul (-1) t7)).of_eq (by q_eq)⟩,
        ⟨(t0).of_eq (by q_eq),
        ((IsInt.smul (-1) t1)).of_eq (by q_eq),
        ((IsInt.smul (-1) t8)).of_eq (by q_eq)⟩,
        ⟨((IsInt.int 0)).of_eq (by q_eq),
        ((IsInt.int 0)).of_eq (by q_eq),
        ((IsInt.int 1)).of_eq (by q_eq)⟩⟩⟩, rfl⟩
  · rintro ⟨b, d, e, ⟨b0, b1⟩, ⟨d0, d1⟩, ⟨e0, e1⟩, ⟨k0, k1⟩, rfl⟩
    obtain ⟨⟨y00, y01, y02⟩, ⟨y03, y04, y05⟩, ⟨y06, y07, y08⟩⟩ := (keeps_q ha hc hf).1 k0
    obtain ⟨⟨y10, y11, y12⟩, ⟨y13, y14, y15⟩, ⟨y16, y17, y18⟩⟩ := (keeps_q ha hc hf).1 k1
    have p0 : IsInt (((c : ℚ))/((a : ℚ))) := (y13).of_eq (by q_eq)
    have p1 : IsInt ((b : ℚ)/(a : ℚ)) := (y10).of_eq (by q_eq)
    have p2 : IsInt ((-(a : ℚ) + (b : ℚ) * (b : ℚ) / (a : ℚ))/((c : ℚ))) := ((IsInt.smul (-1) y11)).of_eq (by q_eq)
    have p3 : IsInt (2*(e : ℚ)/(f : ℚ)) := ((IsInt.smul (-1) y05)).of_eq (by q_eq)
    have p4 : IsInt (2*(d : ℚ)/(f : ℚ)) := ((IsInt.smul (-1) y02)).of_eq (by q_eq)
    have p5 : IsInt ((-(d : ℚ) + (b : ℚ) * (d : ℚ) / (a : ℚ) - (e : ℚ) * (-(a : ℚ) + (b : ℚ) * (b : ℚ) / (a : ℚ)) / (c : ℚ))/((f : ℚ))) := ((IsInt.smul (-1) y12)).of_eq (by q_eq)
    have p6 : IsInt (((c : ℚ) * (d : ℚ) / (a : ℚ) - (e : ℚ) - (b : ℚ) * (e : ℚ) / (a : ℚ))/((f : ℚ))) := ((IsInt.smul (-1) y15)).of_eq (by q_eq)
    have t0 : IsInt ((c : ℚ)/(a : ℚ)) := (y13).of_eq (by q_eq)
    have t1 : IsInt ((b : ℚ)/(a : ℚ)) := (y10).of_eq (by q_eq)
    have t2 : IsInt (((b : ℚ)*(b : ℚ))/(a : ℚ)) := (((IsInt.int b).mul y10)).of_eq (by q_eq)
    have q0 : ((Int.tdiv (b * b) a : ℤ) : ℚ) = ((b : ℚ) * (b : ℚ)) / (a : ℚ) :=
      tdiv_q (by q_cs) (by q_cs) ((t2).of_eq (by q_eq))
    have t3 : IsInt (((-(a : ℚ))+(((b : ℚ)*(b : ℚ))/(a : ℚ)))/(c : ℚ)) := (p2).of_eq (by q_eq)
    have t4 : IsInt (2*(e : ℚ)/(f : ℚ)) := (p3).of_eq (by q_eq)
    have t5 : IsInt (2*(d : ℚ)/(f : ℚ)) := (p4).of_eq (by q_eq)
    have t6 : IsInt (((b : ℚ)*(d : ℚ))/(a : ℚ)) := (((IsInt.int d).mul y10)).of_eq (by q_eq)
    have q1 : ((Int.tdiv (b * d) a : ℤ) : ℚ) = ((b : ℚ) * (d : ℚ)) / (a : ℚ) :=
      tdiv_q (by q_cst [q0]) (by q_cst [q0]) ((t6).of_eq (by q_eq))
    have q2 : ((Int.tdiv (e * ((-a) + (Int.tdiv (b * b) a))) c : ℤ) : ℚ) = ((e : ℚ) * ((-(a : ℚ)) + (((b : ℚ) * (b : ℚ)) / (a : ℚ)))) / (c : ℚ) :=
      tdiv_q (by q_cst [q0, q1]) (by q_cst [q0, q1]) (((IsInt.smul (-1) ((IsInt.int e).mul y11))).of_eq (by q_eq))
    have t7 : IsInt ((((-(d : ℚ))+(((b : ℚ)*(d : ℚ))/(a : ℚ)))-(((e : ℚ)*((-(a : ℚ))+(((b : ℚ)*(b : ℚ))/(a : ℚ))))/(c : ℚ)))/(f : ℚ)) := (p5).of_eq (by q_eq)
    have q3 : ((Int.tdiv (c * d) a : ℤ) : ℚ) = ((c : ℚ) * (d : ℚ)) / (a : ℚ) :=
      tdiv_q (by q_cst [q0, q1, q2]) (by q_cst [q0, q1, q2]) ((((IsInt.int d).mul y13)).of_eq (by q_eq))
    have q4 : ((Int.tdiv (b * e) a : ℤ) : ℚ) = ((b : ℚ) * (e : ℚ)) / (a : ℚ) :=
      tdiv_q (by q_cst [q0, q1, q2, q3]) (by q_cst [q0, q1, q2, q3]) ((((IsInt.int e).mul y10)).of_eq (by q_eq))
    have t8 : IsInt ((((((c : ℚ)*(d : ℚ))/(a : ℚ))-(e : ℚ))-(((b : ℚ)*(e : ℚ))/(a : ℚ)))/(f : ℚ)) := (p6).of_eq (by q_eq)
    exact ⟨t0.of_eq (by q_st [q0, q1, q2, q3, q4]),
      b, ⟨t1.of_eq (by q_st [q0, q1, q2, q3, q4]), b0, b1⟩,
      t2.of_eq (by q_st [q0, q1, q2, q3, q4]),
      t3.of_eq (by q_st [q0, q1, q2, q3, q4]),
      e, ⟨t4.of_eq (by q_st [q0, q1, q2, q3, q4]), e0, e1⟩,
      d, ⟨t5.of_eq (by q_st [q0, q1, q2, q3, q4]), d0, d1⟩,
      t6.of_eq (by q_st [q0, q1, q2, q3, q4]),
      ⟨t7.of_eq (by q_st [q0, q1, q2, q3, q4]),
      t8.of_eq (by q_st [q0, q1, q2, q3, q4])⟩, rfl⟩

theorem basecm_20_25_mem {n : ℤ} {H : IntMat} : H ∈ basecm_20_25 id n ↔
    (IsHNF H ∧ H.det = n) ∧ Keeps !![1, 0, 0; 0, -1, 0; 0, 1, 1] H := by
  unfold basecm_20_25
  rw [get_HNF_diagonals_eq]
  refine gen_mem (Q := fun H => Keeps !![1, 0, 0; 0, -1, 0; 0, 1, 1] H) ?_
  intro a c f ha hc hf H
  have ha' : (a : ℚ) ≠ 0 := by exact_mod_cast ha.ne'
  have hc' : (c : ℚ) ≠ 0 := by exact_mod_cast hc.ne'
  have hf' : (f : ℚ) ≠ 0 := by exact_mod_cast hf.ne'
  simp only [List.mem_flatMap, List.mem_ite_nil_right, List.mem_singleton]
  simp only [mem_pyRange, mod_q hf, mem_halves_q hc, mod_q hc, iadd,
    isub, imul, id]
  constructor
  · rintro ⟨e, ⟨e0, e1⟩, t0, b, ⟨t1, b0, b1⟩, t2, t3, d, ⟨d0, d1⟩, rfl⟩
    have q0 : ((Int.tdiv ((2 * b) * e) c : ℤ) : ℚ) = (((2 : ℚ) * (b : ℚ)) * (e : ℚ)) / (c : ℚ) :=
      tdiv_q (by q_cs) (by q_cs) ((t2).of_eq (by q_eq))
    replace t3 : IsInt (((-(b : ℚ)) - ((((2 : ℚ) * (b : ℚ)) * (e : ℚ)) / (c : ℚ))) / (f : ℚ)) := t3.of_eq (by q_st [q0])
    exact ⟨b, d, e, ⟨b0, b1⟩, ⟨d0, d1⟩, ⟨e0, e1⟩,
      (keeps_q ha hc hf).2 ⟨⟨((IsInt.int 1)).of_eq (by q_eq),
        ((IsInt.smul (-1) t1)).of_eq (by q_eq),
        ((IsInt.smul (-1) t3)).of_eq (by q_eq)⟩,
        ⟨((IsInt.int 0)).of_eq (by q_eq),
        ((IsInt.int (-1))).of_eq (by q_eq),
        ((IsInt.smul (-1) t0)).of_eq (by q_eq)⟩,
        ⟨((IsInt.int 0)).of_eq (by q_eq),
        ((IsInt.int 0)).of_eq (by q_eq),
        ((IsInt.int 1)).of_eq (by q_eq)⟩⟩, rfl⟩
  · rintro ⟨b, d, e, ⟨b0, b1⟩, ⟨d0, d1⟩, ⟨e0, e1⟩, k0, rfl⟩
    obtain ⟨⟨y00, y01, y02⟩, ⟨y03, y04, y05⟩, ⟨y06, y07, y08⟩⟩ := (keeps_q ha hc hf).1 k0
    have p0 : IsInt ((-(c : ℚ) - 2 * (e : ℚ))/((f : ℚ))) := ((IsInt.smul (-1) y05)).of_eq (by q_eq)
    have p1 : IsInt (2*(b : ℚ)/(c : ℚ)) := ((IsInt.smul (-1) y01)).of_eq (by q_eq)
    have p2 : IsInt ((-(b : ℚ) - 2 * (b : ℚ) * (e : ℚ) / (c : ℚ))/((f : ℚ))) := ((IsInt.smul (-1) y02)).of_eq (by q_eq)
    have t0 : IsInt (((-(c : ℚ))-(2*(e : ℚ)))/(f : ℚ)) := (p0).of_eq (by q_eq)
    have t1 : IsInt (2*(b : ℚ)/(c : ℚ)) := (p1).of_eq (by q_eq)
    have t2 : IsInt (((2*(b : ℚ))*(e : ℚ))/(c : ℚ)) := ((IsInt.smul (-1) ((IsInt.int e).mul y01))).of_eq (by q_eq)
    have q0 : ((Int.tdiv ((2 * b) * e) c : ℤ) : ℚ) = (((2 : ℚ) * (b : ℚ)) * (e : ℚ)) / (c : ℚ) :=
      tdiv_q (by q_cs) (by q_cs) ((t2).of_eq (by q_eq))
    have t3 : IsInt (((-(b : ℚ))-(((2*(b : ℚ))*(e : ℚ))/(c : ℚ)))/(f : ℚ)) := (p2).of_eq (by q_eq)
    exact ⟨e, ⟨e0, e1⟩,
      t0.of_eq (by q_st [q0]),
      b, ⟨t1.of_eq (by q_st [q0]), b0, b1⟩,
      t2.of_eq (by q_st [q0]),
      t3.of_eq (by q_st [q0]),
      d, ⟨d0, d1⟩, rfl⟩

theorem basecm_10_14_17_27_37_39_41_mem {n : ℤ} {H : IntMat} : H ∈ basecm_10_14_17_27_37_39_41 id n ↔
    (IsHNF H ∧ H.det = n) ∧ Keeps !![1, 0, 0; 0, 1, 0; 1, 0, -1] H := by
  unfold basecm_10_14_17_27_37_39_41
  rw [get_HNF_diagonals_eq]
  refine gen_mem (Q := fun H => Keeps !![1, 0, 0; 0, 1, 0; 1, 0, -1] H) ?_
  intro a c f ha hc hf H
  have ha' : (a : ℚ) ≠ 0 := by exact_mod_cast ha.ne'
  have hc' : (c : ℚ) ≠ 0 := by exact_mod_cast hc.ne'
  have hf' : (f : ℚ) ≠ 0 := by exact_mod_cast hf.ne'
  simp only [List.mem_flatMap, List.mem_ite_nil_right, List.mem_singleton]
  simp only [mem_halves_q hf, mem_pyRange, mod_q hf, iadd, isub,
    imul, id]
  constructor
  · rintro ⟨e, ⟨t0, e0, e1⟩, d, ⟨d0, d1⟩, t1, b, ⟨b0, b1⟩, rfl⟩
    exact ⟨b, d, e, ⟨b0, b1⟩, ⟨d0, d1⟩, ⟨e0, e1⟩,
      (keeps_q ha hc hf).2 ⟨⟨((IsInt.int 1)).of_eq (by q_eq),
        ((IsInt.int 0)).of_eq (by q_eq),
        ((IsInt.smul (-1) t1)).of_eq (by q_eq)⟩,
        ⟨((IsInt.int 0)).of_eq (by q_eq),
        ((IsInt.int 1)).of_eq (by q_eq),
        ((IsInt.smul (-1) t0)).of_eq (by q_eq)⟩,
        ⟨((IsInt.int 0)).of_eq (by q_eq),
        ((IsInt.int 0)).of_eq (by q_eq),
        ((IsInt.int (-1))).of_eq (by q_eq)⟩⟩, rfl⟩
  · rintro ⟨b, d, e, ⟨b0, b1⟩, ⟨d0, d1⟩, ⟨e0, e1⟩, k0, rfl⟩
    obtain ⟨⟨y00, y01, y02⟩, ⟨y03, y04, y05⟩, ⟨y06, y07, y08⟩⟩ := (keeps_q ha hc hf).1 k0
    have p0 : IsInt (2*(e : ℚ)/(f : ℚ)) := ((IsInt.smul (-1) y05)).of_eq (by q_eq)
    have p1 : IsInt ((-(a : ℚ) + 2 * (d : ℚ))/((f : ℚ))) := ((IsInt.smul (-1) y02)).of_eq (by q_eq)
    have t0 : IsInt (2*(e : ℚ)/(f : ℚ)) := (p0).of_eq (by q_eq)
    have t1 : IsInt ((((-1)*(a : ℚ))+(2*(d : ℚ)))/(f : ℚ)) := (p1).of_eq (by q_eq)
    exact ⟨e, ⟨t0.of_eq (by q_eq), e0, e1⟩,
      d, ⟨d0, d1⟩,
      t1.of_eq (by q_eq),
      b, ⟨b0, b1⟩, rfl⟩

theorem basecm_43_mem {n : ℤ} {H : IntMat} : H ∈ basecm_43 id n ↔
    (IsHNF H ∧ H.det = n) ∧ Keeps !![1, 0, 0; -1, 1, -1; -2, 0, -1] H := by
  unfold basecm_43
  rw [get_HNF_diagonals_eq]
  refine gen_mem (Q := fun H => Keeps !![1, 0, 0; -1, 1, -1; -2, 0, -1] H) ?_
  intro a c f ha hc hf H
  have ha' : (a : ℚ) ≠ 0 := by exact_mod_cast ha.ne'
  have hc' : (c : ℚ) ≠ 0 := by exact_mod_cast hc.ne'
  have hf' : (f : ℚ) ≠ 0 := by exact_mod_cast hf.ne'
  simp only [List.mem_flatMap, List.mem_ite_nil_right, List.mem_singleton]
  simp only [mod_q hc, mem_step_q hc, mod_q hf, mem_pyRange, iadd,
    isub, imul, id]
  constructor
  · rintro ⟨t0, e, ⟨t1, e0, e1⟩, t2, d, ⟨d0, d1⟩, ⟨t3, t4⟩, b, ⟨b0, b1⟩, rfl⟩
    have q0 : ((Int.tdiv (e * e) c : ℤ) : ℚ) = ((e : ℚ) * (e : ℚ)) / (c : ℚ) :=
      tdiv_q (by q_cs) (by q_cs) ((((IsInt.int e).mul t1)).of_eq (by q_eq))
    replace t2 : IsInt ((((2 : ℚ) * (e : ℚ)) - (((e : ℚ) * (e : ℚ)) / (c : ℚ))) / (f : ℚ)) := t2.of_eq (by q_st [q0])
    have q1 : ((Int.tdiv ((a + d) * e) c : ℤ) : ℚ) = (((a : ℚ) + (d : ℚ)) * (e : ℚ)) / (c : ℚ) :=
      tdiv_q (by q_cst [q0]) (by q_cst [q0]) ((((IsInt.int e).mul t3)).of_eq (by q_eq))
    replace t4 : IsInt (((((2 : ℚ) * (a : ℚ)) + ((2 : ℚ) * (d : ℚ))) - ((((a : ℚ) + (d : ℚ)) * (e : ℚ)) / (c : ℚ))) / (f : ℚ)) := t4.of_eq (by q_st [q0, q1])
    exact ⟨b, d, e, ⟨b0, b1⟩, ⟨d0, d1⟩, ⟨e0, e1⟩,
      (keeps_q ha hc hf).2 ⟨⟨((IsInt.int 1)).of_eq (by q_eq),
        ((IsInt.smul (-1) t3)).of_eq (by q_eq),
        ((IsInt.smul (-1) t4)).of_eq (by q_eq)⟩,
        ⟨((IsInt.int 0)).of_eq (by q_eq),
        (((IsInt.int 1).add (IsInt.smul (-1) t1))).of_eq (by q_eq),
        ((IsInt.smul (-1) t2)).of_eq (by q_eq)⟩,
        ⟨((IsInt.int 0)).of_eq (by q_eq),
        ((IsInt.smul (-1) t0)).of_eq (by q_eq),
        (((IsInt.int (-1)).add t1)).of_eq (by q_eq)⟩⟩, rfl⟩
  · rintro ⟨b, d, e, ⟨b0, b1⟩, ⟨d0, d1⟩, ⟨e0, e1⟩, k0, rfl⟩
    obtain ⟨⟨y00, y01, y02⟩, ⟨y03, y04, y05⟩, ⟨y06, y07, y08⟩⟩ := (keeps_q ha hc hf).1 k0
    have p0 : IsInt (((f : ℚ))/((c : ℚ))) := ((IsInt.smul (-1) y07)).of_eq (by q_eq)
    have p1 : IsInt ((e : ℚ)/(c : ℚ)) := (((IsInt.int 1).add (IsInt.smul (-1) y04))).of_eq (by q_eq)
    have p2 : IsInt ((2 * (e : ℚ) - (e : ℚ) * (e : ℚ) / (c : ℚ))/((f : ℚ))) := ((IsInt.smul (-1) y05)).of_eq (by q_eq)
    have p3 : IsInt (((a : ℚ) + (d : ℚ))/((c : ℚ))) := ((IsInt.smul (-1) y01)).of_eq (by q_eq)
    have p4 : IsInt ((2 * (a : ℚ) + 2 * (d : ℚ) - ((a : ℚ) + (d : ℚ)) * (e : ℚ) / (c : ℚ))/((f : ℚ))) := ((IsInt.smul (-1) y02)).of_eq (by q_eq)
    have t0 : IsInt ((f : ℚ)/(c : ℚ)) := (p0).of_eq (by q_eq)
    have t1 : IsInt ((e : ℚ)/(c : ℚ)) := (p1).of_eq (by q_eq)
    have q0 : ((Int.tdiv (e * e) c : ℤ) : ℚ) = ((e : ℚ) * (e : ℚ)) / (c : ℚ) :=
      tdiv_q (by q_cs) (by q_cs) ((((IsInt.int e).mul p1)).of_eq (by q_eq))
    have t2 : IsInt (((2*(e : ℚ))-(((e : ℚ)*(e : ℚ))/(c : ℚ)))/(f : ℚ)) := (p2).of_eq (by q_eq)
    have t3 : IsInt (((a : ℚ)+(d : ℚ))/(c : ℚ)) := (p3).of_eq (by q_eq)
    have q1 : ((Int.tdiv ((a + d) * e) c : ℤ) : ℚ) = (((a : ℚ) + (d : ℚ)) * (e : ℚ)) / (c : ℚ) :=
      tdiv_q (by q_cst [q0]) (by q_cst [q0]) (((IsInt.smul (-1) ((IsInt.int e).mul y01))).of_eq (by q_eq))
    have t4 : IsInt ((((2*(a : ℚ))+(2*(d : ℚ)))-((((a : ℚ)+(d : ℚ))*(e : ℚ))/(c : ℚ)))/(f : ℚ)) := (p4).of_eq (by q_eq)
    exact ⟨t0.of_eq (by q_st [q0, q1]),
      e, ⟨t1.of_eq (by q_st [q0, q1]), e0, e1⟩,
      t2.of_eq (by q_st [q0, q1]),
      d, ⟨d0, d1⟩,
      ⟨t3.of_eq (by q_st [q0, q1]),
      t4.of_eq (by q_st [q0, q1])⟩,
      b, ⟨b0, b1⟩, rfl⟩

theorem sm_34_35_mem {n : ℤ} {H : IntMat} : H ∈ sm_34_35 n ↔
    (IsHNF H ∧ H.det = n) ∧ Keeps !![1, 0, 0; 0, 1, 0; 0, 0, -1] H := by
  unfold sm_34_35
  rw [get_HNF_diagonals_eq]
  refine gen_mem (Q := fun H => Keeps !![1, 0, 0; 0, 1, 0; 0, 0, -1] H) ?_
  intro a c f ha hc hf H
  have ha' : (a : ℚ) ≠ 0 := by exact_mod_cast ha.ne'
  have hc' : (c : ℚ) ≠ 0 := by exact_mod_cast hc.ne'
  have hf' : (f : ℚ) ≠ 0 := by exact_mod_cast hf.ne'
  simp only [List.mem_flatMap, List.mem_ite_nil_right, List.mem_singleton]
  simp only [mem_halves_q hf, mem_pyRange, iadd, isub, imul,
    id]
  constructor
  · rintro ⟨d, ⟨t0, d0, d1⟩, e, ⟨t1, e0, e1⟩, b, ⟨b0, b1⟩, rfl⟩
    exact ⟨b, d, e, ⟨b0, b1⟩, ⟨d0, d1⟩, ⟨e0, e1⟩,
      (keeps_q ha hc hf).2 ⟨⟨((IsInt.int 1)).of_eq (by q_eq),
        ((IsInt.int 0)).of_eq (by q_eq),
        ((IsInt.smul (-1) t0)).of_eq (by q_eq)⟩,
        ⟨((IsInt.int 0)).of_eq (by q_eq),
        ((IsInt.int 1)).of_eq (by q_eq),
        ((IsInt.smul (-1) t1)).of_eq (by q_eq)⟩,
        ⟨((IsInt.int 0)).of_eq (by q_eq),
        ((IsInt.int 0)).of_eq (by q_eq),
        ((IsInt.int (-1))).of_eq (by q_eq)⟩⟩, rfl⟩
  · rintro ⟨b, d, e, ⟨b0, b1⟩, ⟨d0, d1⟩, ⟨e0, e1⟩, k0, rfl⟩
    obtain ⟨⟨y00, y01, y02⟩, ⟨y03, y04, y05⟩, ⟨y06, y07, y08⟩⟩ := (keeps_q ha hc hf).1 k0
    have p0 : IsInt (2*(d : ℚ)/(f : ℚ)) := ((IsInt.smul (-1) y02)).of_eq (by q_eq)
    have p1 : IsInt (2*(e : ℚ)/(f : ℚ)) := ((IsInt.smul (-1) y05)).of_eq (by q_eq)
    have t0 : IsInt (2*(d : ℚ)/(f : ℚ)) := (p0).of_eq (by q_eq)
    have t1 : IsInt (2*(e : ℚ)/(f : ℚ)) := (p1).of_eq (by q_eq)
    exact ⟨d, ⟨t0.of_eq (by q_eq), d0, d1⟩,
      e, ⟨t1.of_eq (by q_eq), e0, e1⟩,
      b, ⟨b0, b1⟩, rfl⟩

end Fortran

end AutoGR
