import Verif.Model.FortranOutput
import Verif.Spec.Kpoints
import Mathlib.Data.Nat.Digits.Lemmas
import Mathlib.Tactic.Linarith
import Mathlib.Tactic.Ring
import Mathlib.Tactic.FieldSimp
import Mathlib.Tactic.IntervalCases

/-! # Fields written by Fortran read back -/

namespace AutoGR.Fortran

open Spec

theorem words_append (s t : List Char) : words (s ++ ' ' :: t) = words s ++ words t := by
  unfold words
  rw [List.splitOnP_append_cons _ _ (by simp), List.filter_append]

theorem words_cons (t : List Char) : words (' ' :: t) = words t := by
  have := words_append [] t
  simpa [words] using this

theorem words_pad (n : ℕ) (t : List Char) : words (List.replicate n ' ' ++ t) = words t := by
  induction n with
  | zero => simp
  | succ n ih => rw [List.replicate_succ, List.cons_append, words_cons, ih]

theorem words_one {s : List Char} (h0 : s ≠ []) (h : ∀ c ∈ s, c ≠ ' ') : words s = [s] := by
  unfold words
  rw [List.splitOnP_eq_singleton (by simpa using h)]
  simp [h0]

/-- A digit. -/
theorem digit_facts {k : ℕ} (hk : k < 10) :
    let c := Char.ofNat ('0'.toNat + k)
    ('0' ≤ c ∧ c ≤ '9') ∧ c.toNat - '0'.toNat = k := by
  interval_cases k <;> decide

theorem decimal_ne_nil (n : ℕ) : decimal n ≠ [] := by
  unfold decimal
  split_ifs with h
  · simp
  · simpa [Nat.digits_eq_nil_iff_eq_zero] using h

private def codes (n : ℕ) : List ℕ := if n = 0 then [0] else (Nat.digits 10 n).reverse

private theorem codes_lt {n k : ℕ} (h : k ∈ codes n) : k < 10 := by
  unfold codes at h
  split_ifs at h
  · simp at h; omega
  · exact Nat.digits_lt_base (by norm_num) (List.mem_reverse.1 h)

theorem decimal_digits {n : ℕ} {c : Char} (h : c ∈ decimal n) : '0' ≤ c ∧ c ≤ '9' := by
  change c ∈ (codes n).map _ at h
  obtain ⟨k, hk, rfl⟩ := List.mem_map.1 h
  exact (digit_facts (codes_lt hk)).1

private theorem foldl_codes (l : List ℕ) (hl : ∀ k ∈ l, k < 10) (a : ℕ) :
    (l.map fun k => Char.ofNat ('0'.toNat + k)).foldl (fun n c => 10 * n + (c.toNat - '0'.toNat)) a =
      l.foldl (fun n k => 10 * n + k) a := by
  induction l generalizing a with
  | nil => rfl
  | cons k l ih =>
    simp only [List.map_cons, List.foldl_cons]
    rw [(digit_facts (hl k (by simp))).2, ih fun k hk => hl k (by simp [hk])]

theorem decimal_value (n : ℕ) : (decimal n).foldl (fun n c => 10 * n + (c.toNat - '0'.toNat)) 0 = n := by
  change ((codes n).map _).foldl _ _ = _
  rw [foldl_codes _ fun k hk => codes_lt hk]
  unfold codes
  split_ifs with h
  · simp [h]
  · rw [List.foldl_reverse]
    have := Nat.ofDigits_digits 10 n
    rw [Nat.ofDigits_eq_foldr] at this
    conv_rhs => rw [← this]
    congr 1
    funext x y
    simp
    ring

theorem natOf_zeros (k n : ℕ) : natOf (List.replicate k '0' ++ decimal n) = some n := by
  unfold natOf
  rw [if_pos, List.foldl_append]
  · have : ∀ k : ℕ, (List.replicate k '0').foldl (fun n c => 10 * n + (c.toNat - '0'.toNat)) 0 = 0 := by
      intro k
      induction k with
      | zero => rfl
      | succ k ih => rw [List.replicate_succ, List.foldl_cons]; simpa using ih
    rw [this, decimal_value]
  · refine ⟨by simp [decimal_ne_nil], ?_⟩
    rw [List.all_eq_true]
    intro c hc
    rcases List.mem_append.1 hc with h | h
    · rw [List.eq_of_mem_replicate h]; decide
    · simpa using decimal_digits h

theorem natOf_decimal (n : ℕ) : natOf (decimal n) = some n := by
  simpa using natOf_zeros 0 n

theorem decimal_length_le {n k : ℕ} (hk : 0 < k) : (decimal n).length ≤ k ↔ n < 10 ^ k := by
  unfold decimal
  rw [List.length_map]
  split_ifs with h
  · subst h
    simp only [List.length_singleton]
    exact ⟨fun _ => by positivity, fun _ => hk⟩
  · rw [List.length_reverse]
    exact Nat.digits_length_le_iff (by norm_num) n

theorem decimal_ne (n : ℕ) {c : Char} (hc : ¬('0' ≤ c ∧ c ≤ '9')) : ∀ x ∈ decimal n, x ≠ c := by
  intro x hx h
  exact hc (h ▸ decimal_digits hx)

/-- Digits do not begin with a minus sign. -/
theorem intOf_decimal (n : ℕ) : intOf (decimal n) = some (n : ℤ) := by
  have h := decimal_ne n (c := '-') (by decide)
  have e : intOf (decimal n) = (natOf (decimal n)).map fun n : ℕ => (n : ℤ) := by
    unfold intOf
    split
    · next s hs => exact absurd rfl (h '-' (by rw [hs]; simp))
    · rfl
  rw [e, natOf_decimal]
  rfl

/-- A field that is wide enough is one word. -/
theorem words_field {w : ℕ} {s : List Char} (h0 : s ≠ []) (h : ∀ c ∈ s, c ≠ ' ') (hw : s.length ≤ w) :
    words (field w s) = [s] := by
  rw [field, if_pos hw, words_pad, words_one h0 h]

/-- Otherwise it is stars. -/
theorem words_stars {w : ℕ} {s : List Char} (hw0 : 0 < w) (hw : w < s.length) :
    words (field w s) = [List.replicate w '*'] := by
  rw [field, if_neg (by omega), words_one]
  · cases w <;> simp_all [List.replicate_succ]
  · intro c hc
    rw [List.eq_of_mem_replicate hc]
    decide

theorem natOf_stars {w : ℕ} : natOf (List.replicate w '*') = none := by
  unfold natOf
  rw [if_neg]
  rintro ⟨h, h'⟩
  cases w with
  | zero => simp at h
  | succ w => simp [List.replicate_succ] at h'

theorem intOf_stars {w : ℕ} : intOf (List.replicate w '*') = none := by
  have e : intOf (List.replicate w '*') = (natOf (List.replicate w '*')).map fun n : ℕ => (n : ℤ) := by
    unfold intOf
    split
    · next s hs =>
      have : '-' ∈ List.replicate w '*' := by rw [hs]; simp
      exact absurd (List.eq_of_mem_replicate this) (by decide)
    · rfl
  rw [e, natOf_stars]
  rfl

theorem decOf_stars {w : ℕ} : decOf (List.replicate w '*') = none := by
  have e : decOf (List.replicate w '*') = fracOf (List.replicate w '*') := by
    unfold decOf
    split
    · next s hs =>
      have : '-' ∈ List.replicate w '*' := by rw [hs]; simp
      exact absurd (List.eq_of_mem_replicate this) (by decide)
    · rfl
  have e2 : List.takeWhile (fun c => decide (c ≠ '.')) (List.replicate w '*') = List.replicate w '*' := by
    simp
  rw [e, fracOf, e2, natOf_stars]

/-- `Iw` in a field that is wide enough. -/
theorem editI_read {w : ℕ} {z : ℤ} (hw : 1 < w) (h1 : z < 10 ^ w) (h2 : -10 ^ (w - 1) < z) :
    ∃ s, words (editI w z) = [s] ∧ intOf s = some z := by
  unfold editI
  split_ifs with hz
  · refine ⟨_, words_field (by simp) ?_ ?_, ?_⟩
    · intro c hc
      rcases List.mem_append.1 hc with h | h
      · rw [List.mem_singleton.1 h]; decide
      · exact decimal_ne _ (by decide) c h
    · rw [List.length_append, List.length_singleton]
      have : (decimal z.natAbs).length ≤ w - 1 := by
        rw [decimal_length_le (by omega)]
        have : (z.natAbs : ℤ) < ((10 ^ (w - 1) : ℕ) : ℤ) := by push_cast; rw [abs_of_neg hz]; linarith
        exact_mod_cast this
      omega
    · change intOf ('-' :: decimal z.natAbs) = _
      simp only [intOf, natOf_decimal]
      change some (-(z.natAbs : ℤ)) = some z
      congr 1
      omega
  · refine ⟨_, words_field (by simpa using decimal_ne_nil _) ?_ ?_, ?_⟩
    · simpa using decimal_ne z.natAbs (c := ' ') (by decide)
    · rw [List.nil_append, decimal_length_le (by omega)]
      have : (z.natAbs : ℤ) < ((10 ^ w : ℕ) : ℤ) := by push_cast; rw [abs_of_nonneg (by omega)]; exact h1
      exact_mod_cast this
    · rw [List.nil_append, intOf_decimal]
      congr 1
      omega

/-- `Iw` in a field that is not wide enough. -/
theorem editI_stars {w : ℕ} {z : ℤ} (hw : 1 < w) (h : 10 ^ w ≤ z ∨ z ≤ -10 ^ (w - 1)) :
    words (editI w z) = [List.replicate w '*'] := by
  unfold editI
  have p1 : (0 : ℤ) < 10 ^ w := by positivity
  have p2 : (0 : ℤ) < 10 ^ (w - 1) := by positivity
  split_ifs with hz
  · refine words_stars (by omega) ?_
    rw [List.length_append, List.length_singleton]
    have : ¬ (decimal z.natAbs).length ≤ w - 1 := by
      rw [decimal_length_le (by omega), not_lt]
      have : ((10 ^ (w - 1) : ℕ) : ℤ) ≤ (z.natAbs : ℤ) := by
        push_cast
        rw [abs_of_neg hz]
        rcases h with h | h <;> linarith
      exact_mod_cast this
    omega
  · refine words_stars (by omega) ?_
    rw [List.nil_append]
    have : ¬ (decimal z.natAbs).length ≤ w := by
      rw [decimal_length_le (by omega), not_lt]
      have : ((10 ^ w : ℕ) : ℤ) ≤ (z.natAbs : ℤ) := by
        push_cast
        rw [abs_of_nonneg (by omega)]
        rcases h with h | h <;> linarith
      exact_mod_cast this
    omega

/-- The digits of `Fw.d`. -/
def fixed (d m : ℕ) : List Char :=
  decimal (m / 10 ^ d) ++ '.' :: (List.replicate (d - (decimal (m % 10 ^ d)).length) '0' ++ decimal (m % 10 ^ d))

theorem fixed_frac_length {d : ℕ} (hd : 0 < d) (m : ℕ) :
    (List.replicate (d - (decimal (m % 10 ^ d)).length) '0' ++ decimal (m % 10 ^ d)).length = d := by
  have : (decimal (m % 10 ^ d)).length ≤ d := (decimal_length_le hd).2 (Nat.mod_lt _ (by positivity))
  rw [List.length_append, List.length_replicate]
  omega

theorem fixed_length {d : ℕ} (hd : 0 < d) (m : ℕ) : (fixed d m).length = (decimal (m / 10 ^ d)).length + 1 + d := by
  unfold fixed
  rw [List.length_append, List.length_cons, fixed_frac_length hd]
  omega

theorem fixed_ne {d m : ℕ} {c : Char} (h1 : ¬('0' ≤ c ∧ c ≤ '9')) (h2 : c ≠ '.') : ∀ x ∈ fixed d m, x ≠ c := by
  intro x hx
  unfold fixed at hx
  rcases List.mem_append.1 hx with h | h
  · exact decimal_ne _ h1 x h
  · rcases List.mem_cons.1 h with rfl | h
    · exact h2.symm
    · rcases List.mem_append.1 h with h | h
      · rw [List.eq_of_mem_replicate h]
        rintro rfl
        exact h1 (by decide)
      · exact decimal_ne _ h1 x h

theorem fracOf_fixed {d : ℕ} (hd : 0 < d) (m : ℕ) : fracOf (fixed d m) = some ((m : ℚ) / 10 ^ d) := by
  have h := decimal_ne (m / 10 ^ d) (c := '.') (by decide)
  have e1 : (fixed d m).takeWhile (fun c => decide (c ≠ '.')) = decimal (m / 10 ^ d) := by
    unfold fixed
    rw [List.takeWhile_append_of_pos (by simpa using h)]
    simp
  have e2 : (fixed d m).dropWhile (fun c => decide (c ≠ '.')) =
      '.' :: (List.replicate (d - (decimal (m % 10 ^ d)).length) '0' ++ decimal (m % 10 ^ d)) := by
    unfold fixed
    rw [List.dropWhile_append_of_pos (by simpa using h)]
    simp
  unfold fracOf
  simp only [e1, e2, natOf_decimal]
  rw [natOf_zeros, Option.map_some, fixed_frac_length hd]
  congr 1
  have : (m : ℚ) = ((10 ^ d * (m / 10 ^ d) + m % 10 ^ d : ℕ) : ℚ) := by rw [Nat.div_add_mod]
  rw [eq_div_iff (by positivity)]
  conv_rhs => rw [this]
  push_cast
  field_simp

theorem decOf_fixed {d : ℕ} (hd : 0 < d) (m : ℕ) : decOf (fixed d m) = some ((m : ℚ) / 10 ^ d) := by
  have h := fixed_ne (d := d) (m := m) (c := '-') (by decide) (by decide)
  have e : decOf (fixed d m) = fracOf (fixed d m) := by
    unfold decOf
    split
    · next s hs => exact absurd rfl (h '-' (by rw [hs]; simp))
    · rfl
  rw [e, fracOf_fixed hd]

theorem editF_eq (rnd : ℚ → ℕ) (w d : ℕ) (x : ℚ) :
    editF rnd w d x = field w ((if x < 0 then ['-'] else []) ++ fixed d (rnd (|x| * 10 ^ d))) := by
  simp [editF, fixed]

/-- `Fw.d` in a field that is wide enough: `k` digits before the point. -/
theorem editF_read {rnd : ℚ → ℕ} {w d : ℕ} (hd : 0 < d) (hw : d + 2 < w) {x : ℚ}
    (hx : rnd (|x| * 10 ^ d) < 10 ^ (w - 1 - if x < 0 then 1 else 0)) :
    ∃ s, words (editF rnd w d x) = [s] ∧
      decOf s = some (if x < 0 then -((rnd (|x| * 10 ^ d) : ℚ) / 10 ^ d) else (rnd (|x| * 10 ^ d) : ℚ) / 10 ^ d) := by
  rw [editF_eq]
  generalize rnd (|x| * 10 ^ d) = m at hx
  have hlen : ∀ k, 0 < k → m < 10 ^ (d + k) → (decimal (m / 10 ^ d)).length ≤ k := by
    intro k hk hm
    rw [decimal_length_le hk, Nat.div_lt_iff_lt_mul (by positivity), ← pow_add, add_comm k d]
    exact hm
  have hb := fixed_ne (d := d) (m := m) (c := ' ') (by decide) (by decide)
  split_ifs at hx ⊢ with h0
  · refine ⟨_, words_field (by simp) ?_ ?_, ?_⟩
    · intro c hc
      rcases List.mem_append.1 hc with h | h
      · rw [List.mem_singleton.1 h]; decide
      · exact hb c h
    · rw [List.length_append, fixed_length hd, List.length_singleton]
      have := hlen (w - 2 - d) (by omega) (by
        refine lt_of_lt_of_le hx (Nat.pow_le_pow_right (by norm_num) ?_)
        omega)
      omega
    · change decOf ('-' :: fixed d m) = _
      simp only [decOf, fracOf_fixed hd, Option.map_some]
  · refine ⟨_, words_field ?_ (by simpa using hb) ?_, ?_⟩
    · rw [List.nil_append, Ne, ← List.length_eq_zero_iff, fixed_length hd]
      omega
    · rw [List.nil_append, fixed_length hd]
      have := hlen (w - 1 - d) (by omega) (by
        refine lt_of_lt_of_le hx (Nat.pow_le_pow_right (by norm_num) ?_)
        omega)
      omega
    · rw [List.nil_append, decOf_fixed hd]

/-- `Fw.d` in a field that is not wide enough. -/
theorem editF_stars {rnd : ℚ → ℕ} {w d : ℕ} (hd : 0 < d) (hw : d + 2 < w) {x : ℚ}
    (hx : 10 ^ (w - 1 - if x < 0 then 1 else 0) ≤ rnd (|x| * 10 ^ d)) :
    words (editF rnd w d x) = [List.replicate w '*'] := by
  rw [editF_eq]
  generalize rnd (|x| * 10 ^ d) = m at hx
  have hlen : ∀ k, 0 < k → 10 ^ (d + k) ≤ m → k < (decimal (m / 10 ^ d)).length := by
    intro k hk hm
    rw [← not_le, decimal_length_le hk, not_lt, Nat.le_div_iff_mul_le (by positivity), ← pow_add, add_comm k d]
    exact hm
  split_ifs at hx ⊢ with h0
  · refine words_stars (by omega) ?_
    rw [List.length_append, fixed_length hd, List.length_singleton]
    have := hlen (w - 2 - d) (by omega) (by
      refine le_trans (Nat.pow_le_pow_right (by norm_num) ?_) hx
      omega)
    omega
  · refine words_stars (by omega) ?_
    rw [List.nil_append, fixed_length hd]
    have := hlen (w - 1 - d) (by omega) (by
      refine le_trans (Nat.pow_le_pow_right (by norm_num) ?_) hx
      omega)
    omega

end AutoGR.Fortran
