import Verif.Lemmas.FortranWBase
import Verif.Lemmas.Cubic

/-! # The Fortran cubic generators -/

namespace AutoGR

namespace Fortran

open Spec

theorem quot_iff {a f k : ℤ} (ha : 0 < a) : (Int.tdiv f a = k ∧ MOD f a = 0) ↔ (f : ℚ) / a = k := by
  have ha' : (a : ℚ) ≠ 0 := by exact_mod_cast ha.ne'
  constructor
  · rintro ⟨h, h'⟩
    rw [← tdiv_q (x := f) (y := a) rfl rfl ((mod_q ha).1 h'), h]
  · intro h
    have hi : IsInt ((f : ℚ) / a) := ⟨k, h⟩
    refine ⟨?_, (mod_q ha).2 hi⟩
    have := tdiv_q (x := f) (y := a) rfl rfl hi
    rw [h] at this
    exact_mod_cast this

theorem quot_two {a f : ℤ} (ha : 0 < a) : (Int.tdiv f a = 2 ∧ MOD f a = 0) ↔
    fdiv id (f : ℚ) a = 2 := by
  rw [quot_iff ha]; norm_num [fdiv]

theorem quot_four {a f : ℤ} (ha : 0 < a) : (Int.tdiv f a = 4 ∧ MOD f a = 0) ↔
    fdiv id (f : ℚ) a = 4 := by
  rw [quot_iff ha]; norm_num [fdiv]

theorem sc3Loop_eq (l : List (ℤ × ℤ × ℤ)) (hl : ∀ x ∈ l, 0 < x.1) :
    sc3Loop l = AutoGR.sc3Loop id l := by
  induction l with
  | nil => rfl
  | cons x l ih =>
    obtain ⟨a, c, f⟩ := x
    have ha : 0 < a := hl (a, c, f) (by simp)
    have ih := ih fun x hx => hl x (by simp [hx])
    have h2 : c = f ∧ Int.tdiv f a = 2 ∧ MOD f a = 0 ↔ c = f ∧ fdiv id (f : ℚ) a = 2 :=
      and_congr_right fun _ => quot_two ha
    unfold sc3Loop AutoGR.sc3Loop
    exact if_congr Iff.rfl rfl (if_congr (and_congr_right fun _ => quot_two ha) rfl
      (if_congr h2 rfl ih))

theorem sc_3_eq (n : ℤ) : sc_3 n = AutoGR.sc_3 id n := by
  unfold sc_3 AutoGR.sc_3
  rw [get_HNF_diagonals_eq]
  exact sc3Loop_eq _ fun x hx => (mem_getHNFDiagonals.1 hx).1

/-- A list without repetition whose members are all equal has at most one member. -/
theorem take_one {l : List Mat3} (hn : l.Nodup) (h : ∀ x ∈ l, ∀ y ∈ l, x = y) :
    l.take 1 = l := by
  match l, hn, h with
  | [], _, _ => rfl
  | [x], _, _ => rfl
  | x :: y :: t, hn, h =>
    have := h x (by simp) y (by simp)
    simp [this] at hn

theorem fcc1Loop_eq (l : List (ℤ × ℤ × ℤ)) (hl : ∀ x ∈ l, 0 < x.1) :
    fcc1Loop l = (l.flatMap fun ((a, c, f) : ℤ × ℤ × ℤ) =>
      if a = c ∧ a = f then [hnf a 0 c 0 0 f]
      else if c = f ∧ (fdiv id (f : ℚ) a = 2 ∨ fdiv id (f : ℚ) a = 4) then [hnf a a c a 0 f]
      else []).take 1 := by
  induction l with
  | nil => rfl
  | cons x l ih =>
    obtain ⟨a, c, f⟩ := x
    have ha : 0 < a := hl (a, c, f) (by simp)
    have ih := ih fun x hx => hl x (by simp [hx])
    have h2 := quot_two (f := f) ha
    have h4 := quot_four (f := f) ha
    unfold fcc1Loop
    rw [ih, List.flatMap_cons]
    dsimp only
    refine (if_congr Iff.rfl rfl (if_congr (and_congr_right fun _ => or_congr h2 h4) rfl
      rfl)).trans ?_
    split_ifs <;> rfl

theorem bcc5Loop_eq (l : List (ℤ × ℤ × ℤ)) (hl : ∀ x ∈ l, 0 < x.1) :
    bcc5Loop id l = (l.flatMap fun ((a, c, f) : ℤ × ℤ × ℤ) =>
      if a = c ∧ a = f then [hnf a 0 c 0 0 f]
      else if a = c ∧ fdiv id (f : ℚ) a = 2 then [hnf a 0 c a a f]
      else if a = c ∧ fdiv id (f : ℚ) a = 4 then [hnf a 0 c (3 * a) (3 * a) f]
      else []).take 1 := by
  induction l with
  | nil => rfl
  | cons x l ih =>
    obtain ⟨a, c, f⟩ := x
    have ha : 0 < a := hl (a, c, f) (by simp)
    have ih := ih fun x hx => hl x (by simp [hx])
    have h2 := quot_two (f := f) ha
    have h4 := quot_four (f := f) ha
    unfold bcc5Loop
    rw [ih, List.flatMap_cons]
    dsimp only
    refine (if_congr Iff.rfl rfl (if_congr (and_congr_right fun _ => h2) rfl
      (if_congr (and_congr_right fun _ => h4) rfl rfl))).trans ?_
    split_ifs <;> rfl

theorem fcc_1_eq (n : ℤ) : fcc_1 n = AutoGR.fcc_1 id n := by
  unfold fcc_1
  rw [get_HNF_diagonals_eq, fcc1Loop_eq _ fun x hx => (mem_getHNFDiagonals.1 hx).1]
  exact take_one (fcc_1_nodup n) fun x hx y hy => fcc_1_unique hx hy

theorem bcc_5_eq (n : ℤ) : bcc_5 id n = AutoGR.bcc_5 id n := by
  unfold bcc_5
  rw [get_HNF_diagonals_eq, bcc5Loop_eq _ fun x hx => (mem_getHNFDiagonals.1 hx).1]
  exact take_one (bcc_5_nodup n) fun x hx y hy => bcc_5_unique hx hy

theorem bcc5Loop_w {w : ℤ → ℤ} (hw : Int32 w) (l : List (ℤ × ℤ × ℤ))
    (hl : ∀ x ∈ l, 0 < x.1 ∧ x.1 ≤ 46000) : bcc5Loop w l = bcc5Loop id l := by
  induction l with
  | nil => rfl
  | cons x l ih =>
    obtain ⟨a, c, f⟩ := x
    have ha : 0 < a ∧ a ≤ 46000 := hl (a, c, f) (by simp)
    have ih := ih fun x hx => hl x (by simp [hx])
    have h3 : imul w 3 a = imul id 3 a := by
      unfold imul
      rw [hw.exact _ (by omega) (by omega)]
      rfl
    unfold bcc5Loop
    rw [h3, ih]

theorem bcc_5_w {w : ℤ → ℤ} (hw : Int32 w) {n : ℤ} (hn : n ≤ 46000) : bcc_5 w n = bcc_5 id n :=
  bcc5Loop_w hw _ fun x hx => by
    obtain ⟨a, c, f⟩ := x
    have := diag_boundsW hn hx
    exact ⟨this.1.1, this.2.1.1⟩

theorem tric_31_44_eq (n : ℤ) : tric_31_44 n = AutoGR.tric_31_44 n := by
  unfold tric_31_44 AutoGR.tric_31_44
  rw [get_HNF_diagonals_eq]

end Fortran

end AutoGR
