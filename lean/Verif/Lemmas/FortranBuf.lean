import Verif.Props.Fortran
import Mathlib.NumberTheory.ArithmeticFunction.Misc

/-! # How many factorisations and Hermite normal forms there are, for the Fortran buffers -/

namespace AutoGR.Fortran

open Spec ArithmeticFunction

/-- The number of ways to write `n` as a product of three factors. -/
def d3 : ArithmeticFunction ℕ := sigma 0 * zeta

theorem d3_mult : d3.IsMultiplicative :=
  isMultiplicative_sigma.mul isMultiplicative_zeta

theorem d3_apply (n : ℕ) : d3 n = ∑ d ∈ n.divisors, d.divisors.card := by
  rw [d3, ArithmeticFunction.mul_zeta_apply]
  exact Finset.sum_congr rfl fun d _ => sigma_zero_apply d

theorem d3_prime_pow {p k : ℕ} (hp : p.Prime) : 2 * d3 (p ^ k) = (k + 1) * (k + 2) := by
  rw [d3_apply, Nat.divisors_prime_pow hp, Finset.sum_map]
  have h : ∀ i ∈ Finset.range (k + 1), ((⟨(p ^ ·), Nat.pow_right_injective hp.two_le⟩ : ℕ ↪ ℕ) i).divisors.card = i + 1 := by
    intro i _
    have := sigma_zero_apply_prime_pow (i := i) hp
    rw [sigma_zero_apply] at this
    exact this
  rw [Finset.sum_congr rfl h]
  clear h
  induction k with
  | zero => simp
  | succ k ih =>
    rw [Finset.sum_range_succ, Nat.mul_add, ih]
    ring

theorem pow_bound (k : ℕ) : (k + 1) * (k + 2) ≤ 3 * 2 ^ k := by
  induction k with
  | zero => norm_num
  | succ k ih =>
    rcases k with _ | k
    · norm_num
    · rw [pow_succ]
      nlinarith

theorem pow_bound' {p k : ℕ} (hp : 3 ≤ p) : (k + 1) * (k + 2) ≤ 2 * p ^ k := by
  induction k with
  | zero => norm_num
  | succ k ih =>
    have h : (k + 1 + 1) * (k + 1 + 2) ≤ 3 * ((k + 1) * (k + 2)) := by nlinarith
    calc _ ≤ 3 * ((k + 1) * (k + 2)) := h
      _ ≤ p * (2 * p ^ k) := Nat.mul_le_mul hp ih
      _ = _ := by ring

theorem d3_odd (n : ℕ) : Odd n → d3 n ≤ n := by
  induction n using Nat.recOnPosPrimePosCoprime with
  | zero => intro _; simp
  | one => intro _; simp [d3_apply]
  | prime_pow p k hp hk =>
    intro ho
    have hp3 : 3 ≤ p := by
      have h2 : p ≠ 2 := by
        rintro rfl
        exact (Nat.not_odd_iff_even.2 ((Nat.even_pow).2 ⟨even_two, hk.ne'⟩)) ho
      have := hp.two_le
      omega
    have := pow_bound' (k := k) hp3
    rw [← d3_prime_pow hp] at this
    omega
  | coprime a b _ _ hab iha ihb =>
    intro ho
    rw [Nat.odd_mul] at ho
    rw [d3_mult.map_mul_of_coprime hab]
    exact Nat.mul_le_mul (iha ho.1) (ihb ho.2)

theorem d3_bound (n : ℕ) : 2 * d3 n ≤ 3 * n := by
  rcases Nat.eq_zero_or_pos n with rfl | hn
  · simp
  obtain ⟨k, m, hm, rfl⟩ := Nat.exists_eq_two_pow_mul_odd hn.ne'
  rw [d3_mult.map_mul_of_coprime (Nat.Coprime.pow_left k (Nat.coprime_two_left.2 hm))]
  have h1 := pow_bound k
  rw [← d3_prime_pow Nat.prime_two] at h1
  calc 2 * (d3 (2 ^ k) * d3 m) = (2 * d3 (2 ^ k)) * d3 m := by ring
    _ ≤ (3 * 2 ^ k) * m := Nat.mul_le_mul h1 (d3_odd m hm)
    _ = _ := by ring

theorem diag_length (n : ℕ) : (get_HNF_diagonals n).length ≤ d3 n := by
  rw [get_HNF_diagonals_eq, ← List.toFinset_card_of_nodup (nodup_getHNFDiagonals n), d3_apply,
    ← Finset.card_sigma]
  refine Finset.card_le_card_of_injOn
    (fun x => (⟨(x.2.1 * x.2.2).toNat, x.2.1.toNat⟩ : Σ _ : ℕ, ℕ)) ?_ ?_
  · rintro ⟨a, c, f⟩ hx
    simp only [List.coe_toFinset, Set.mem_ofPred_eq] at hx
    obtain ⟨ha, hc, hf, hn⟩ := mem_getHNFDiagonals.1 hx
    lift a to ℕ using ha.le
    lift c to ℕ using hc.le
    lift f to ℕ using hf.le
    norm_cast at ha hc hf hn
    have e1 : ((c : ℤ) * f).toNat = c * f := by norm_cast
    have e2 : ((c : ℕ) : ℤ).toNat = c := by norm_cast
    rw [Finset.mem_coe, Finset.mem_sigma]
    simp only [e1, e2]
    have : n ≠ 0 := by subst hn; positivity
    refine ⟨Nat.mem_divisors.2 ⟨⟨a, by rw [← hn]; ring⟩, this⟩,
      Nat.mem_divisors.2 ⟨⟨f, rfl⟩, by positivity⟩⟩
  · rintro ⟨a, c, f⟩ hx ⟨a', c', f'⟩ hx' h
    simp only [List.coe_toFinset, Set.mem_ofPred_eq] at hx hx'
    obtain ⟨ha, hc, hf, hn⟩ := mem_getHNFDiagonals.1 hx
    obtain ⟨ha', hc', hf', hn'⟩ := mem_getHNFDiagonals.1 hx'
    simp only [Sigma.mk.injEq, heq_eq_eq] at h
    obtain ⟨h1, h2⟩ := h
    have hcc : c = c' := by omega
    subst hcc
    have p1 : 0 < c * f := by positivity
    have p2 : 0 < c * f' := by positivity
    have hff : c * f = c * f' := by omega
    have hff : f = f' := mul_left_cancel₀ hc.ne' hff
    subst hff
    have : a * (c * f) = a' * (c * f) := by rw [← mul_assoc, ← mul_assoc, hn, hn']
    rw [mul_right_cancel₀ p1.ne' this]

theorem length_pyRange (m : ℤ) : (pyRange 0 m).length = m.toNat := by simp [pyRange]

theorem tric_length_eq (n : ℤ) : ((tric_31_44 n).length : ℤ) =
    ((get_HNF_diagonals n).map fun x => x.2.1 * (x.2.2 * x.2.2)).sum := by
  have hpos : ∀ x ∈ get_HNF_diagonals n, 0 ≤ x.2.1 ∧ 0 ≤ x.2.2 := by
    rintro ⟨a, c, f⟩ h
    rw [get_HNF_diagonals_eq] at h
    obtain ⟨-, h1, h2, -⟩ := mem_getHNFDiagonals.1 h
    exact ⟨h1.le, h2.le⟩
  unfold tric_31_44
  generalize get_HNF_diagonals n = l at hpos
  induction l with
  | nil => simp
  | cons x l ih =>
    obtain ⟨a, c, f⟩ := x
    have h0 := hpos _ (List.mem_cons_self)
    rw [List.flatMap_cons, List.length_append, Nat.cast_add,
      ih fun y hy => hpos y (List.mem_cons_of_mem _ hy), List.map_cons, List.sum_cons]
    congr 1
    simp only [List.length_flatMap, List.length_singleton, List.map_const', List.sum_replicate,
      length_pyRange, smul_eq_mul, mul_one]
    push_cast
    rw [Int.toNat_of_nonneg h0.1, Int.toNat_of_nonneg h0.2]

theorem foldl_add_eq {α : Type*} (g : α → ℤ) (l : List α) (t : ℤ) :
    l.foldl (fun t x => t + g x) t = t + (l.map g).sum := by
  induction l generalizing t with
  | nil => simp
  | cons x l ih => rw [List.foldl_cons, ih, List.map_cons, List.sum_cons]; ring

theorem diag_prod {n : ℤ} {x : ℤ × ℤ × ℤ} (h : x ∈ get_HNF_diagonals n) :
    0 < x.2.1 ∧ 0 < x.2.2 ∧ x.2.2 * x.2.2 ≤ n * n ∧ x.2.1 * (x.2.2 * x.2.2) ≤ n * n := by
  obtain ⟨a, c, f⟩ := x
  rw [get_HNF_diagonals_eq] at h
  obtain ⟨h0, h1, h2, h3⟩ := mem_getHNFDiagonals.1 h
  have hcf : c * f ≤ n := by nlinarith [mul_pos h1 h2]
  have hf : f ≤ n := by nlinarith
  refine ⟨h1, h2, by nlinarith, ?_⟩
  show c * (f * f) ≤ n * n
  nlinarith [mul_pos h1 h2]

/-- The 32-bit products in `total_hnfs` do not overflow. -/
theorem prod_exact {w : ℤ → ℤ} {n : ℤ} (hf : IntsFit w n) {x : ℤ × ℤ × ℤ}
    (h : x ∈ get_HNF_diagonals n) :
    imul w x.2.1 (imul w x.2.2 x.2.2) = x.2.1 * (x.2.2 * x.2.2) := by
  rcases hf with rfl | ⟨hw, hn⟩
  · rfl
  obtain ⟨h1, h2, h3, h4⟩ := diag_prod h
  have hn0 : 0 ≤ n := by
    obtain ⟨a, c, f⟩ := x
    rw [get_HNF_diagonals_eq] at h
    obtain ⟨h0, h1, h2, h3⟩ := mem_getHNFDiagonals.1 h
    rw [← h3]; positivity
  have hb : n * n < 2 ^ 31 := by nlinarith
  have p1 : 0 < x.2.2 * x.2.2 := by positivity
  have p2 : 0 < x.2.1 * (x.2.2 * x.2.2) := by positivity
  unfold imul
  rw [hw.exact (x.2.2 * x.2.2) (by linarith) (by linarith), hw.exact _ (by linarith) (by linarith)]

theorem total_eq {w : ℤ → ℤ} {n : ℤ} (hf : IntsFit w n) :
    total_hnfs w n = (tric_31_44 n).length := by
  unfold total_hnfs
  rw [foldl_add_eq fun x : ℤ × ℤ × ℤ => imul w x.2.1 (imul w x.2.2 x.2.2), zero_add, tric_length_eq]
  congr 1
  exact List.map_congr_left fun x hx => prod_exact hf hx

end AutoGR.Fortran
