import Verif.Lemmas.RoundedCompare
import Verif.Props.RoundedPack
import Verif.Props.FortranSelect

/-!
# C128: with rounding, the grids kept are those with the longest shortest vectors

Grids with the same smallest distance get slightly different computed ones.  The tolerance of `compare_grids` covers the
difference: equal lengths stay together, and different ones are put in the right order.
-/

namespace AutoGR.Fortran

open Arith Spec

variable {K G Off : Type} [Arith K] {val : K → ℝ} {u φ ψ e t₁ t₂ : ℝ}

omit [Arith K] in
/-- The matrices counted as packed densely enough. -/
def packedOf (geom : Mat3 → GeomK K G) (Hs : List Mat3) : List Mat3 := Hs.filter fun H => (geom H).packed

omit [Arith K] in
open Classical in
/-- The entries of the matrices with a property, in the order of the list. -/
noncomputable def entriesWith (geom : Mat3 → GeomK K G) (P : Mat3 → Prop) (Hs : List Mat3) : List (G × Mat3) :=
  ((packedOf geom Hs).filter fun H => decide (P H)).map fun H => ((geom H).grid, H)

/-! ## The lists -/

section

variable (geom : Mat3 → GeomK K G) (len : Mat3 → ℝ) (Hs : List Mat3)

omit [Arith K] in
private theorem mem_lengths {r : ℚ} : r ∈ lengthsOf (rankGeom geom len (packedOf geom Hs)) Hs ↔
    ∃ H ∈ packedOf geom Hs, rank len (packedOf geom Hs) H = r := List.mem_map

omit [Arith K] in
private theorem rank_le {l : List Mat3} {x y : Mat3} (hx : x ∈ l) (hy : y ∈ l) :
    rank len l x ≤ rank len l y ↔ len x ≤ len y := by
  rw [← not_lt, rank_lt hy hx, not_lt]

omit [Arith K] in
private theorem largest_iff {H : Mat3} (hH : H ∈ packedOf geom Hs) :
    Largest (lengthsOf (rankGeom geom len (packedOf geom Hs)) Hs) (rank len (packedOf geom Hs) H) ↔
      Longest len (packedOf geom Hs) H := by
  constructor
  · rintro ⟨-, h⟩
    exact ⟨hH, fun y hy => (rank_le len hy hH).1 (h _ ((mem_lengths ..).2 ⟨y, hy, rfl⟩))⟩
  · rintro ⟨-, h⟩
    refine ⟨(mem_lengths ..).2 ⟨H, hH, rfl⟩, fun r hr => ?_⟩
    obtain ⟨y, hy, rfl⟩ := (mem_lengths ..).1 hr
    exact (rank_le len hy hH).2 (h y hy)

omit [Arith K] in
private theorem second_iff {H : Mat3} (hH : H ∈ packedOf geom Hs) :
    SecondLargest (lengthsOf (rankGeom geom len (packedOf geom Hs)) Hs) (rank len (packedOf geom Hs) H) ↔
      SecondLongest len (packedOf geom Hs) H := by
  constructor
  · rintro ⟨-, r1, h1, hlt, h⟩
    obtain ⟨x, hx, rfl⟩ := (mem_lengths ..).1 h1.1
    rw [rank_lt hH hx] at hlt
    refine ⟨hH, fun hL => absurd (hL.2 x hx) (not_le.2 hlt), fun y hy hn => ?_⟩
    refine (rank_le len hy hH).1 (h _ ((mem_lengths ..).2 ⟨y, hy, rfl⟩) fun he => hn ?_)
    rw [rank_eq hy hx] at he
    have := (largest_iff geom len Hs hx).1 h1
    exact ⟨hy, fun z hz => he ▸ this.2 z hz⟩
  · rintro ⟨-, hn, h⟩
    obtain ⟨x, hx, hm⟩ : ∃ x ∈ packedOf geom Hs, ∀ y ∈ packedOf geom Hs, len y ≤ len x := by
      obtain ⟨x, hx, hm⟩ := ((packedOf geom Hs).toFinset).exists_max_image len ⟨H, List.mem_toFinset.2 hH⟩
      exact ⟨x, List.mem_toFinset.1 hx, fun y hy => hm y (List.mem_toFinset.2 hy)⟩
    refine ⟨(mem_lengths ..).2 ⟨H, hH, rfl⟩, _, (largest_iff geom len Hs hx).2 ⟨hx, hm⟩, ?_, ?_⟩
    · rw [rank_lt hH hx]
      refine lt_of_le_of_ne (hm H hH) fun he => hn ⟨hH, fun y hy => he ▸ hm y hy⟩
    · intro r hr hne
      obtain ⟨y, hy, rfl⟩ := (mem_lengths ..).1 hr
      rw [Ne, rank_eq hy hx] at hne
      refine (rank_le len hy hH).2 (h y hy fun hL => hne (le_antisymm (hm y hy) (hL.2 x hx)))

omit [Arith K] in
private theorem entries_eq {P : Mat3 → Prop} {r : ℚ}
    (h : ∀ H ∈ packedOf geom Hs, P H ↔ rank len (packedOf geom Hs) H = r) :
    entriesOf (rankGeom geom len (packedOf geom Hs)) Hs r = entriesWith geom P Hs := by
  unfold entriesOf entriesWith
  have hp : packedHNFs (rankGeom geom len (packedOf geom Hs)) Hs = packedOf geom Hs := rfl
  rw [hp]
  refine congrArg (List.map _) (List.filter_congr fun H hH => ?_)
  rw [Bool.eq_iff_iff]
  simp only [decide_eq_true_eq]
  exact (h H hH).symm

omit [Arith K] in
private theorem entriesWith_nil {P : Mat3 → Prop} (h : ∀ H ∈ packedOf geom Hs, ¬ P H) : entriesWith geom P Hs = [] := by
  unfold entriesWith
  rw [List.map_eq_nil_iff, List.filter_eq_nil_iff]
  intro H hH hP
  exact h H hH (by simpa using hP)

/-- If the comparisons agree with the lengths, the first list holds the longest grids and the second one the second
longest. -/
theorem compareAllK_told {equal : K → K → Bool} {eps : K} (hne : Hs ≠ [])
    (hT : Told (aboveK eps) equal (ofInt 0) (fun H => (geom H).rmin) len (packedOf geom Hs)) :
    ∃ s, compareAllK equal eps geom none Hs = .ok (some s) ∧
      s.list1 = entriesWith geom (Longest len (packedOf geom Hs)) Hs ∧
      s.list2 = entriesWith geom (SecondLongest len (packedOf geom Hs)) Hs := by
  have hA : LengthsApart idealEqual 0 (lengthsOf (rankGeom geom len (packedOf geom Hs)) Hs) := by
    refine ⟨le_rfl, fun r hr => ?_, fun r _ => by simp [idealEqual], fun r _ r' _ h => ?_⟩
    · obtain ⟨x, -, rfl⟩ := (mem_lengths ..).1 hr
      have := rank_pos len (packedOf geom Hs) x
      exact ⟨this, by simpa using this, by simpa [idealEqual] using this.ne'⟩
    · exact ⟨by simpa using h, by simpa [idealEqual] using h.ne', by simpa [idealEqual] using h.ne⟩
  obtain ⟨t, ht, l1, l2, n1, n2⟩ := compareAll_lists_partial idealEqual 0 _ Hs hne hA
  obtain ⟨s, hs, hsim⟩ := compareAll_sim hT Hs none none
    (fun H hH hp => List.mem_filter.2 ⟨hH, hp⟩) .none _ ht
  cases hsim with
  | some h =>
    refine ⟨_, hs, ?_, ?_⟩
    · rw [h.list1]
      by_cases hex : ∃ r, Largest (lengthsOf (rankGeom geom len (packedOf geom Hs)) Hs) r
      · obtain ⟨r, hr⟩ := hex
        rw [l1 r hr]
        obtain ⟨x, hx, rfl⟩ := (mem_lengths ..).1 hr.1
        refine entries_eq geom len Hs fun H hH => ?_
        have hx' := (largest_iff geom len Hs hx).1 hr
        rw [rank_eq hH hx]
        exact ⟨fun hL => le_antisymm (hx'.2 H hH) (hL.2 x hx), fun he => ⟨hH, fun y hy => he ▸ hx'.2 y hy⟩⟩
      · rw [n1 hex]
        exact (entriesWith_nil geom Hs fun H hH hL => hex ⟨_, (largest_iff geom len Hs hH).2 hL⟩).symm
    · rw [h.list2]
      by_cases hex : ∃ r, SecondLargest (lengthsOf (rankGeom geom len (packedOf geom Hs)) Hs) r
      · obtain ⟨r, hr⟩ := hex
        rw [l2 r hr]
        obtain ⟨x, hx, rfl⟩ := (mem_lengths ..).1 hr.1
        refine entries_eq geom len Hs fun H hH => ?_
        have hx' := (second_iff geom len Hs hx).1 hr
        rw [rank_eq hH hx]
        refine ⟨fun hL => le_antisymm (hx'.2.2 H hH hL.2.1) (hL.2.2 x hx hx'.2.1), fun he => ?_⟩
        refine (second_iff geom len Hs hH).1 ?_
        rw [(rank_eq hH hx).2 he]
        exact hr
      · rw [n2 hex]
        exact (entriesWith_nil geom Hs fun H hH hL => hex ⟨_, (second_iff geom len Hs hH).2 hL⟩).symm

end

/-! ## The comparison of lengths -/

/-- Lengths computed up to a factor are told apart. -/
theorem told_of_factors {equal : K → K → Bool} {eps : K} {α : Type} {r : α → K} {len : α → ℝ} {l : List α}
    (hu : Relative K val u) (hu1 : u < 1) (hlt : ComparesLt K val) (hF : FactorsRight u φ ψ (val eps))
    (hE : EqualRight val equal t₁ t₂) (hL : FactorsApart φ ψ t₁ t₂ len l)
    (hr : ∀ x ∈ l, Within val (r x) (len x) φ) : Told (aboveK eps) equal (ofInt 0) r len l := by
  have hu0 := hu.nonneg
  have h00 : val (ofInt 0 : K) = 0 := by have := hu.ofInt 0 (by norm_num); simpa using this
  have hpos : ∀ x ∈ l, 0 < val (r x) := fun x hx =>
    lt_of_lt_of_le (div_pos (hr x hx).pos (lt_of_lt_of_le one_pos (hr x hx).one)) (hr x hx).low
  -- the value compared with
  have hval : ∀ (m : K) (x : α), x ∈ l → 0 ≤ val m →
      (val m + val (r x) * val eps * (1 - u)) * (1 - u) ≤ val (add m (mul (r x) eps)) ∧
      val (add m (mul (r x) eps)) ≤ (val m + val (r x) * val eps * (1 + u)) * (1 + u) := by
    intro m x hx hm
    have p0 : 0 ≤ val (r x) * val eps := mul_nonneg (hpos x hx).le hF.pos
    have a1 := abs_le.1 (hu.mul (r x) eps)
    rw [abs_of_nonneg p0] at a1
    have q0 : 0 ≤ val (mul (r x) eps) := by nlinarith
    have a2 := abs_le.1 (hu.add m (mul (r x) eps))
    rw [abs_of_nonneg (add_nonneg hm q0)] at a2
    constructor
    · nlinarith
    · nlinarith
  refine ⟨fun x hx => ⟨?_, ?_⟩, fun x hx y hy => ?_, fun x hx y hy => ?_⟩
  · have hx0 := hpos x hx
    have h1 : 0 ≤ φ ^ 2 / ψ := by have := hF.gap; positivity
    refine (hlt _ _).2 (lt_of_le_of_lt (hval _ x hx (by rw [h00])).2 ?_)
    rw [h00]
    have := hF.differ
    have : val eps * (1 + u) * (1 + u) < 1 := by nlinarith
    nlinarith
  · rw [Bool.eq_false_iff]
    intro h
    have h1 := hE.far _ _ h
    rw [h00, sub_zero, abs_of_pos (hpos x hx)] at h1
    have := hL.zero x hx
    linarith [(hr x hx).low]
  · have hx0 := hpos x hx
    have hφ : 1 ≤ φ := (hr x hx).one
    have hφ0 : 0 < φ := by linarith
    unfold aboveK
    rw [hlt]
    have hv := hval (r y) x hx (hpos y hy).le
    have lx := (hr x hx).low
    have ly := (hr y hy).low
    rw [div_le_iff₀ hφ0] at lx ly
    have ux := (hr x hx).high
    have uy := (hr y hy).high
    constructor
    · intro h
      by_contra hn
      have hle := not_lt.1 hn
      have h1 : val (r x) * (1 / φ ^ 2) ≤ val (r y) := by
        rw [mul_one_div, div_le_iff₀ (by positivity)]
        nlinarith
      have h2 := lt_of_le_of_lt hv.1 h
      have h3 := mul_le_mul_of_nonneg_left hF.same hx0.le
      have h4 := mul_le_mul_of_nonneg_right h1 (show 0 ≤ 1 - u by linarith)
      nlinarith
    · intro h
      have hg := (hL.gap x hx y hy h).1
      have hψ : 0 < ψ := by linarith [hF.gap]
      have h1 : val (r y) ≤ val (r x) * (φ ^ 2 / ψ) := by
        rw [← mul_div_assoc, le_div_iff₀ hψ]
        nlinarith
      refine lt_of_le_of_lt hv.2 ?_
      have h3 := mul_lt_mul_of_pos_left hF.differ hx0
      have h4 := mul_le_mul_of_nonneg_right h1 (show 0 ≤ 1 + u by linarith)
      nlinarith
  · have hdiff : ∀ x ∈ l, ∀ y ∈ l, len y < len x → t₂ < val (r x) - val (r y) := fun x hx y hy h => by
      have := (hL.gap x hx y hy h).2
      linarith [(hr x hx).low, (hr y hy).high]
    constructor
    · intro h
      have h1 := abs_le.1 (hE.far _ _ h)
      rcases lt_trichotomy (len x) (len y) with g | g | g
      · linarith [hdiff y hy x hx g]
      · exact g
      · linarith [hdiff x hx y hy g]
    · intro h
      refine hE.near _ _ (le_trans ?_ (hL.near x hx))
      have a := (hr x hx).low
      have b := (hr x hx).high
      have c := (hr y hy).low
      have d := (hr y hy).high
      rw [← h] at c d
      rw [mul_sub, mul_one_div]
      exact abs_le.2 ⟨by linarith, by linarith⟩

/-! ## The grids -/

/-- The smallest distances computed by `compare_grids` from bases with small errors are told apart. -/
theorem told_rounded {equal : K → K → Bool} {eps : K} {sqrt : K → K} {γ s ℓ σ : ℝ}
    {B : Mat3 → Matrix (Fin 3) (Fin 3) K} {B0 : Mat3 → Matrix (Fin 3) (Fin 3) ℝ} {len : Mat3 → ℝ} {Hs : List Mat3}
    (hu : RelativeOps K val u) (hc : Compares K val) (hlt : ComparesLt K val) (hr : RootRight val u sqrt)
    (hB : ∀ H ∈ Hs, CloseTo val (B H) (B0 H) γ s ∧ HasShortest (B0 H) ∧ SmallestDistance (B0 H) (len H) ∧ ℓ ≤ len H)
    (hℓ : 0 < ℓ) (hσ : 1 ≤ σ) (hlen : LengthRight γ ℓ σ) (hφ : φ = (1 / (1 - u)) ^ 3 * σ)
    (hF : FactorsRight u φ ψ (val eps)) (hE : EqualRight val equal t₁ t₂)
    (hL : FactorsApart φ ψ t₁ t₂ len (packedOf (fun H => compareGeomK sqrt (B H)) Hs)) :
    Told (aboveK eps) equal (ofInt 0) (fun H => tempRminK sqrt (B H)) len
      (packedOf (fun H => compareGeomK sqrt (B H)) Hs) := by
  refine told_of_factors hu.toRelative hu.lt_one hlt hF hE hL fun H hH => ?_
  obtain ⟨h1, h2, ⟨⟨w, hw, hw'⟩, h3⟩, h4⟩ := hB H (List.mem_filter.1 hH).1
  obtain ⟨v, hv, hv2, l1, l2⟩ := rmin_pack_rounded hu hc hr h1 h2 hℓ (fun v hv => h4.trans (h3 v hv)) hσ hlen
  have he : gridLength (B0 H) v = len H := le_antisymm (hw' ▸ hv2 w hw) (h3 v hv)
  rw [he] at l1 l2
  have hw1 := one_le_w hu.nonneg hu.lt_one
  exact ⟨by linarith, by rw [hφ]; nlinarith [one_le_pow₀ hw1 (n := 3)], by rw [hφ]; exact l1, by rw [hφ]; exact l2⟩

/-- C128: `B H` is the reduced basis computed for the matrix `H`, close to the basis `B0 H` of a grid with the smallest
distance `len H`.  Of the grids counted as packed densely enough, the first list of `compare_grids` holds those whose smallest
distance is the largest, and the second list those for which it is the second largest. -/
theorem compareAllK_rounded {equal : K → K → Bool} {eps : K} {sqrt : K → K} {γ s ℓ σ : ℝ}
    {B : Mat3 → Matrix (Fin 3) (Fin 3) K} {B0 : Mat3 → Matrix (Fin 3) (Fin 3) ℝ} {len : Mat3 → ℝ} {Hs : List Mat3}
    (hne : Hs ≠ []) (hu : RelativeOps K val u) (hc : Compares K val) (hlt : ComparesLt K val) (hr : RootRight val u sqrt)
    (hB : ∀ H ∈ Hs, CloseTo val (B H) (B0 H) γ s ∧ HasShortest (B0 H) ∧ SmallestDistance (B0 H) (len H) ∧ ℓ ≤ len H)
    (hℓ : 0 < ℓ) (hσ : 1 ≤ σ) (hlen : LengthRight γ ℓ σ) (hφ : φ = (1 / (1 - u)) ^ 3 * σ)
    (hF : FactorsRight u φ ψ (val eps)) (hE : EqualRight val equal t₁ t₂)
    (hL : FactorsApart φ ψ t₁ t₂ len (packedOf (fun H => compareGeomK sqrt (B H)) Hs)) :
    ∃ st, compareAllK equal eps (fun H => compareGeomK sqrt (B H)) none Hs = .ok (some st) ∧
      st.list1 = entriesWith (fun H => compareGeomK sqrt (B H))
        (Longest len (packedOf (fun H => compareGeomK sqrt (B H)) Hs)) Hs ∧
      st.list2 = entriesWith (fun H => compareGeomK sqrt (B H))
        (SecondLongest len (packedOf (fun H => compareGeomK sqrt (B H)) Hs)) Hs := by
  exact compareAllK_told _ len Hs hne (told_rounded hu hc hlt hr hB hℓ hσ hlen hφ hF hE hL)

/-- C128, for the choice: the grid chosen has the largest or the second largest smallest distance of those counted as packed
densely enough, and no more irreducible k-points than any grid with the largest one, with any of the offsets. -/
theorem tryHNFsK_longest {equal : K → K → Bool} {eps : K} {geom : Mat3 → GeomK K G} {len : Mat3 → ℝ} {Hs : List Mat3}
    {irr irrDefault : G → Off → Option ℕ} {offsets : List Off} (hne : Hs ≠ [])
    (hT : Told (aboveK eps) equal (ofInt 0) (fun H => (geom H).rmin) len (packedOf geom Hs))
    (hirr : ∀ g o m, irr g o = some m → 1 ≤ m) :
    ∃ r, tryHNFsK equal eps geom irr irrDefault offsets Hs = .ok ⟨Hs.length, r⟩ ∧
      (∀ b, r = some b → b.offset ∈ offsets ∧ b.grid = (geom b.HNF).grid ∧ 1 ≤ b.n_irr ∧
        (irr b.grid b.offset = some b.n_irr ∨ irrDefault b.grid b.offset = some b.n_irr) ∧
        (Longest len (packedOf geom Hs) b.HNF ∨ SecondLongest len (packedOf geom Hs) b.HNF) ∧
        ∀ H, Longest len (packedOf geom Hs) H → ∀ o ∈ offsets, ∀ m, irr (geom H).grid o = some m → b.n_irr ≤ m) ∧
      (r = none → ∀ H, Longest len (packedOf geom Hs) H → ∀ o ∈ offsets, irr (geom H).grid o = none) := by
  obtain ⟨s, hs, h1, h2⟩ := compareAllK_told geom len Hs hne hT
  have hmem : ∀ {P : Mat3 → Prop} {x : G × Mat3}, x ∈ entriesWith geom P Hs → P x.2 ∧ x.1 = (geom x.2).grid := by
    intro P x hx
    unfold entriesWith at hx
    obtain ⟨H, hH, rfl⟩ := List.mem_map.1 hx
    exact ⟨by simpa using (List.mem_filter.1 hH).2, rfl⟩
  have hin : ∀ H, Longest len (packedOf geom Hs) H → ((geom H).grid, H) ∈ s.list1 := by
    intro H hH
    rw [h1]
    unfold entriesWith
    exact List.mem_map.2 ⟨H, List.mem_filter.2 ⟨hH.1, by simpa using hH⟩, rfl⟩
  unfold tryHNFsK
  rw [hs]
  dsimp only
  by_cases hl : 0 < s.list1.length ∨ 0 < s.list2.length
  · rw [if_pos hl]
    obtain ⟨r, hr, g1, g2⟩ := gridSelection_partial irr irrDefault hirr s.list1 s.list2 offsets
    rw [hr]
    refine ⟨r, rfl, fun b hb => ?_, fun hn H hH o ho => g2 hn _ (hin H hH) o ho⟩
    obtain ⟨k1, k0, k2, k3⟩ := g1 b hb
    have k4 : b.grid = (geom b.HNF).grid ∧
        (Longest len (packedOf geom Hs) b.HNF ∨ SecondLongest len (packedOf geom Hs) b.HNF) := by
      rcases k2 with ⟨k, -⟩ | ⟨k, -⟩
      · rw [h1] at k
        exact ⟨(hmem k).2, .inl (hmem k).1⟩
      · rw [h2] at k
        exact ⟨(hmem k).2, .inr (hmem k).1⟩
    exact ⟨k1, k4.1, k0, k2.imp And.right And.right, k4.2, fun H hH o ho m hm => k3 _ (hin H hH) o ho m hm⟩
  · rw [if_neg hl]
    refine ⟨none, rfl, fun b hb => (by cases hb), fun _ H hH => ?_⟩
    have := List.length_pos_of_mem (hin H hH)
    exact absurd (.inl this) hl

/-- C128, for the choice, with bases computed with small errors. -/
theorem tryHNFsK_rounded {equal : K → K → Bool} {eps : K} {sqrt : K → K} {γ s ℓ σ : ℝ}
    {B : Mat3 → Matrix (Fin 3) (Fin 3) K} {B0 : Mat3 → Matrix (Fin 3) (Fin 3) ℝ} {len : Mat3 → ℝ} {Hs : List Mat3}
    (hne : Hs ≠ []) (hu : RelativeOps K val u) (hc : Compares K val) (hlt : ComparesLt K val) (hr : RootRight val u sqrt)
    (hB : ∀ H ∈ Hs, CloseTo val (B H) (B0 H) γ s ∧ HasShortest (B0 H) ∧ SmallestDistance (B0 H) (len H) ∧ ℓ ≤ len H)
    (hℓ : 0 < ℓ) (hσ : 1 ≤ σ) (hlen : LengthRight γ ℓ σ) (hφ : φ = (1 / (1 - u)) ^ 3 * σ)
    (hF : FactorsRight u φ ψ (val eps)) (hE : EqualRight val equal t₁ t₂)
    (hL : FactorsApart φ ψ t₁ t₂ len (packedOf (fun H => compareGeomK sqrt (B H)) Hs))
    {irr irrDefault : Matrix (Fin 3) (Fin 3) K → Off → Option ℕ} {offsets : List Off}
    (hirr : ∀ g o m, irr g o = some m → 1 ≤ m) :
    ∃ r, tryHNFsK equal eps (fun H => compareGeomK sqrt (B H)) irr irrDefault offsets Hs = .ok ⟨Hs.length, r⟩ ∧
      (∀ b, r = some b → b.offset ∈ offsets ∧ b.grid = B b.HNF ∧ 1 ≤ b.n_irr ∧
        (irr b.grid b.offset = some b.n_irr ∨ irrDefault b.grid b.offset = some b.n_irr) ∧
        (Longest len (packedOf (fun H => compareGeomK sqrt (B H)) Hs) b.HNF ∨
          SecondLongest len (packedOf (fun H => compareGeomK sqrt (B H)) Hs) b.HNF) ∧
        ∀ H, Longest len (packedOf (fun H => compareGeomK sqrt (B H)) Hs) H → ∀ o ∈ offsets, ∀ m,
          irr (B H) o = some m → b.n_irr ≤ m) ∧
      (r = none → ∀ H, Longest len (packedOf (fun H => compareGeomK sqrt (B H)) Hs) H → ∀ o ∈ offsets,
        irr (B H) o = none) :=
  tryHNFsK_longest hne (told_rounded hu hc hlt hr hB hℓ hσ hlen hφ hF hE hL) hirr

/-! ## Instances -/

theorem comparesLt_rounded {fl : ℚ → ℚ} : ComparesLt (Rounded fl) (fun x => (x.q : ℝ)) := fun x y => by
  show decide (x.q < y.q) = true ↔ _
  rw [decide_eq_true_eq, Rat.cast_lt]

/-- In exact arithmetic this is the model of C70. -/
theorem compareGridsK_rat (equal : ℚ → ℚ → Bool) (eps : ℚ) (geom : Mat3 → Geom G) (s : Grids G) (H : Mat3) :
    (match compareGridsK equal eps (fun H => ⟨(geom H).grid, (geom H).rmin, (geom H).packed⟩)
        ⟨s.rmin1, s.rmin2, s.list1, s.list2, s.size⟩ H with
      | .ok t => Except.ok (ε := GridErr) (⟨t.rmin1, t.rmin2, t.list1, t.list2, t.size⟩ : Grids G)
      | .error e => .error e) = compareGrids equal eps geom s H := by
  have push1 : ∀ (t : GridsK ℚ G) (x : G × Mat3), (match t.push1 x with
      | .ok t => Except.ok (ε := GridErr) (⟨t.rmin1, t.rmin2, t.list1, t.list2, t.size⟩ : Grids G)
      | .error e => .error e) = Grids.push1 ⟨t.rmin1, t.rmin2, t.list1, t.list2, t.size⟩ x := by
    intro t x
    unfold GridsK.push1 Grids.push1
    by_cases c : t.list1.length + 1 ≤ t.size
    · rw [if_pos c, if_pos c]
    · rw [if_neg c, if_neg c]
  have push2 : ∀ (t : GridsK ℚ G) (x : G × Mat3), (match t.push2 x with
      | .ok t => Except.ok (ε := GridErr) (⟨t.rmin1, t.rmin2, t.list1, t.list2, t.size⟩ : Grids G)
      | .error e => .error e) = Grids.push2 ⟨t.rmin1, t.rmin2, t.list1, t.list2, t.size⟩ x := by
    intro t x
    unfold GridsK.push2 Grids.push2
    by_cases c : t.list2.length + 1 ≤ t.size
    · rw [if_pos c, if_pos c]
    · rw [if_neg c, if_neg c]
  have hab : ∀ m r : ℚ, aboveK eps m r = true ↔ m + r * eps < r := fun m r => by
    show decide (m + r * eps < r) = true ↔ _
    rw [decide_eq_true_eq]
  unfold compareGridsK compareGrids
  simp only [hab]
  by_cases hp : (geom H).packed = true
  swap
  · rw [if_neg hp, if_neg hp]
  rw [if_pos hp, if_pos hp]
  by_cases c1 : s.rmin1 + (geom H).rmin * eps < (geom H).rmin ∧ equal (geom H).rmin s.rmin1 = false
  · rw [if_pos c1, if_pos c1]
    exact push1 _ _
  rw [if_neg c1, if_neg c1]
  by_cases c2 : s.rmin2 + (geom H).rmin * eps < (geom H).rmin ∧ equal (geom H).rmin s.rmin1 = false ∧
      equal (geom H).rmin s.rmin2 = false
  · rw [if_pos c2, if_pos c2]
    exact push2 _ _
  rw [if_neg c2, if_neg c2]
  by_cases c3 : equal (geom H).rmin s.rmin1 = true
  · rw [if_pos c3, if_pos c3]
    by_cases c5 : s.size = s.list1.length
    · rw [if_pos c5, if_pos c5]
      unfold GridsK.resize Grids.resize
      dsimp only
      by_cases c6 : s.list1.length ≤ 2 * s.list1.length ∧ s.list2.length ≤ 2 * s.list1.length
      · rw [if_pos c6, if_pos c6]
        exact push1 _ _
      · rw [if_neg c6, if_neg c6]
    · rw [if_neg c5, if_neg c5]
      exact push1 _ _
  rw [if_neg c3, if_neg c3]
  by_cases c4 : equal (geom H).rmin s.rmin2 = true
  · rw [if_pos c4, if_pos c4]
    by_cases c5 : s.size = s.list2.length
    · rw [if_pos c5, if_pos c5]
      unfold GridsK.resize Grids.resize
      dsimp only
      by_cases c6 : s.list1.length ≤ 2 * s.list2.length ∧ s.list2.length ≤ 2 * s.list2.length
      · rw [if_pos c6, if_pos c6]
        exact push2 _ _
      · rw [if_neg c6, if_neg c6]
    · rw [if_neg c5, if_neg c5]
      exact push2 _ _
  rw [if_neg c4, if_neg c4]

/-- Cubic grids: with the spacing one third, the same with another rounding, and with the spacing one. -/
def cubeBasis (H : Mat3) : Matrix (Fin 3) (Fin 3) (Rounded roundNearest) :=
  if H 2 2 = 1 then thirdGrid
  else if H 2 2 = 2 then fun i j => if i = j then ⟨6004799503160662 / 2 ^ 54⟩ else ⟨0⟩
  else fun i j => if i = j then ⟨1⟩ else ⟨0⟩

noncomputable def cubeLen (H : Mat3) : ℝ := if H 2 2 = 1 ∨ H 2 2 = 2 then 1 / 3 else 1

def cubeHNFs : List Mat3 := [hnf 1 0 1 0 0 1, hnf 1 0 1 0 0 3, hnf 1 0 1 0 0 2]

/-- The two roundings of one third are different. -/
example : cubeBasis (hnf 1 0 1 0 0 1) 0 0 ≠ cubeBasis (hnf 1 0 1 0 0 2) 0 0 := by
  intro h
  have := congrArg Rounded.q h
  revert this
  decide +kernel

theorem cube_length (c : ℝ) (hc : 0 ≤ c) (v : Fin 3 → ℤ) :
    gridLength (c • 1) v = c * √((v 0 : ℝ) ^ 2 + (v 1 : ℝ) ^ 2 + (v 2 : ℝ) ^ 2) := by
  unfold gridLength
  rw [← Real.sqrt_sq hc, ← Real.sqrt_mul (sq_nonneg c), Real.sqrt_sq hc]
  congr 1
  rw [Fin.sum_univ_three, Matrix.smul_mulVec, Matrix.one_mulVec]
  simp only [Pi.smul_apply, smul_eq_mul]
  ring

theorem cube_smallest {c : ℝ} (hc : 0 < c) : HasShortest (c • 1) ∧ SmallestDistance (c • 1) c := by
  have h1 : gridLength (c • 1) (Pi.single 0 1) = c := by
    rw [cube_length c hc.le]
    simp
  have h0 : (Pi.single 0 1 : Fin 3 → ℤ) ≠ 0 := fun h => by have := congrFun h 0; simp at this
  have h2 : ∀ v : Fin 3 → ℤ, v ≠ 0 → c ≤ gridLength (c • 1) v := by
    intro v hv
    rw [cube_length c hc.le]
    have : (1 : ℤ) ≤ v 0 ^ 2 + v 1 ^ 2 + v 2 ^ 2 := by
      by_contra hn
      have a := sq_nonneg (v 0)
      have b := sq_nonneg (v 1)
      have c := sq_nonneg (v 2)
      apply hv
      funext i
      fin_cases i
      · exact pow_eq_zero_iff (two_ne_zero) |>.1 (by show v 0 ^ 2 = 0; omega)
      · exact pow_eq_zero_iff (two_ne_zero) |>.1 (by show v 1 ^ 2 = 0; omega)
      · exact pow_eq_zero_iff (two_ne_zero) |>.1 (by show v 2 ^ 2 = 0; omega)
    have : (1 : ℝ) ≤ (v 0 : ℝ) ^ 2 + (v 1 : ℝ) ^ 2 + (v 2 : ℝ) ^ 2 := by exact_mod_cast this
    have := Real.one_le_sqrt.2 this
    nlinarith
  exact ⟨⟨0, fun v hv => by rw [h1]; exact h2 v hv⟩, ⟨_, h0, h1⟩, h2⟩

theorem cube_close {H : Mat3} (hH : H ∈ cubeHNFs) : CloseTo (fun x : Rounded roundNearest => (x.q : ℝ)) (cubeBasis H)
    (cubeLen H • 1) (1 / 10 ^ 16) 1 := by
  have key : ∀ H ∈ cubeHNFs, ∀ i j : Fin 3,
      |(cubeBasis H i j).q - (if i = j then (if H 2 2 = 1 ∨ H 2 2 = 2 then 1 / 3 else 1) else 0)| ≤ 1 / 10 ^ 16 := by
    decide +kernel
  constructor
  · intro i j
    have := (Rat.cast_le (K := ℝ)).2 (key H hH i j)
    unfold cubeLen
    push_cast at this
    by_cases h : i = j
    · by_cases g : H 2 2 = 1 ∨ H 2 2 = 2
      · simpa [h, g, Matrix.smul_apply, Matrix.one_apply] using this
      · simpa [h, g, Matrix.smul_apply, Matrix.one_apply] using this
    · simpa [h, Matrix.smul_apply, Matrix.one_apply] using this
  · intro i j
    unfold cubeLen
    by_cases h : i = j
    · by_cases g : H 2 2 = 1 ∨ H 2 2 = 2
      · simp [h, g, Matrix.smul_apply]
        norm_num
      · simp [h, g, Matrix.smul_apply]
    · simp [h, Matrix.smul_apply]

theorem cubeLen_pos (H : Mat3) : 1 / 3 ≤ cubeLen H ∧ cubeLen H ≤ 1 := by
  unfold cubeLen
  split_ifs <;> norm_num

theorem cube_packed {sqrt : Rounded roundNearest → Rounded roundNearest}
    (hr : RootRight (fun x : Rounded roundNearest => (x.q : ℝ)) (1 / 2 ^ 53) sqrt) {H : Mat3} (hH : H ∈ cubeHNFs) :
    packedK sqrt (cubeBasis H) = true := by
  obtain ⟨hl, hl1⟩ := cubeLen_pos H
  have hc : 0 < cubeLen H := by linarith
  have hdet : (cubeLen H • (1 : Matrix (Fin 3) (Fin 3) ℝ)).det = cubeLen H ^ 3 := by
    rw [Matrix.det_smul, Fintype.card_fin, Matrix.det_one, mul_one]
  have h3 : (1 / 27 : ℝ) ≤ cubeLen H ^ 3 := by
    have := pow_le_pow_left₀ (by norm_num) hl 3
    norm_num at this ⊢
    linarith
  refine (packed_rounded (relativeOps_rounded roundNearest_binary64) (by norm_num) compares_rounded hr (cube_close hH)
    (by rw [hdet]; positivity) (cube_smallest hc).1 (ℓ := 1 / 3) (by norm_num)
    (fun v hv => hl.trans ((cube_smallest hc).2.2 v hv)) (σ := 1 + 1 / 10 ^ 14) (by norm_num)
    third_lengthRight (ρ := 1 + 1 / 10 ^ 12) (by norm_num) ?_).1 ?_
  · rw [hdet]
    refine le_trans (b := 1 / 27 * (1 - 1 / (1 + 1 / 10 ^ 12))) (by norm_num)
      (mul_le_mul_of_nonneg_right h3 (by norm_num))
  · intro v hv
    have h1 := pow_le_pow_left₀ hc.le ((cube_smallest hc).2.2 v hv) 3
    have hpi := Real.pi_gt_d2
    have hf : packFactor (1 / 2 ^ 53) (1 + 1 / 10 ^ 12) (1 + 1 / 10 ^ 14) ≤ 1 + 1 / 10 ^ 11 := by
      unfold packFactor
      norm_num
    rw [hdet, abs_of_pos (by positivity)]
    generalize packFactor _ _ _ = f at *
    have h4 : 3 / 10 * f ≤ Real.pi / 6 := by norm_num at hf hpi ⊢; linarith
    generalize cubeLen H ^ 3 = a at *
    generalize gridLength _ _ ^ 3 = b at *
    nlinarith

/-- Lengths are equal when they differ by at most 0.001. -/
def nearEqual (a b : Rounded roundNearest) : Bool := decide (|a.q - b.q| ≤ 1 / 1000)

/-- C128 is not vacuous: one grid has the spacing one, two have the spacing one third, rounded in different ways.  The first
list holds the first, the second list the others. -/
theorem cube_lists {sqrt : Rounded roundNearest → Rounded roundNearest}
    (hr : RootRight (fun x : Rounded roundNearest => (x.q : ℝ)) (1 / 2 ^ 53) sqrt) :
    ∃ st, compareAllK nearEqual (⟨1 / 1000⟩ : Rounded roundNearest) (fun H => compareGeomK sqrt (cubeBasis H)) none
        cubeHNFs = .ok (some st) ∧
      st.list1 = [(cubeBasis (hnf 1 0 1 0 0 3), hnf 1 0 1 0 0 3)] ∧
      st.list2 = [(cubeBasis (hnf 1 0 1 0 0 1), hnf 1 0 1 0 0 1), (cubeBasis (hnf 1 0 1 0 0 2), hnf 1 0 1 0 0 2)] := by
  have hp : packedOf (fun H => compareGeomK sqrt (cubeBasis H)) cubeHNFs = cubeHNFs :=
    List.filter_eq_self.2 fun H hH => cube_packed hr hH
  have e1 : cubeLen (hnf 1 0 1 0 0 1) = 1 / 3 := if_pos (.inl rfl)
  have e2 : cubeLen (hnf 1 0 1 0 0 2) = 1 / 3 := if_pos (.inr rfl)
  have e3 : cubeLen (hnf 1 0 1 0 0 3) = 1 := if_neg (by decide)
  have hall : ∀ {P : Mat3 → Prop}, (∀ H ∈ cubeHNFs, P H) ↔
      P (hnf 1 0 1 0 0 1) ∧ P (hnf 1 0 1 0 0 3) ∧ P (hnf 1 0 1 0 0 2) := by
    intro P
    unfold cubeHNFs
    simp
  have hm1 : hnf 1 0 1 0 0 1 ∈ cubeHNFs := by simp [cubeHNFs]
  have hm2 : hnf 1 0 1 0 0 2 ∈ cubeHNFs := by simp [cubeHNFs]
  have hm3 : hnf 1 0 1 0 0 3 ∈ cubeHNFs := by simp [cubeHNFs]
  have hE : EqualRight (fun x : Rounded roundNearest => (x.q : ℝ)) nearEqual (1 / 1000) (1 / 1000) := by
    refine ⟨fun a b h => ?_, fun a b h => ?_⟩
    · have := (Rat.cast_le (K := ℝ) (p := |a.q - b.q|) (q := 1 / 1000)).1 (by push_cast; exact h)
      exact decide_eq_true this
    · have := (Rat.cast_le (K := ℝ)).2 (of_decide_eq_true h)
      push_cast at this
      exact this
  have hL : FactorsApart ((1 / (1 - 1 / 2 ^ 53)) ^ 3 * (1 + 1 / 10 ^ 14)) 2 (1 / 1000) (1 / 1000) cubeLen
      (packedOf (fun H => compareGeomK sqrt (cubeBasis H)) cubeHNFs) := by
    rw [hp]
    refine ⟨fun x hx => ?_, fun x hx => ?_, hall.2 ⟨hall.2 ?_, hall.2 ?_, hall.2 ?_⟩⟩
    · have := (cubeLen_pos x).2
      refine le_trans (mul_le_mul_of_nonneg_right this (by norm_num)) (by norm_num)
    · have := (cubeLen_pos x).1
      refine lt_of_lt_of_le (b := 1 / 3 / ((1 / (1 - 1 / 2 ^ 53)) ^ 3 * (1 + 1 / 10 ^ 14))) (by norm_num)
        (div_le_div_of_nonneg_right this (by norm_num))
    · rw [e1, e2, e3]; norm_num
    · rw [e1, e2, e3]; norm_num
    · rw [e1, e2, e3]; norm_num
  obtain ⟨st, h1, h2, h3⟩ := compareAllK_rounded (val := fun x : Rounded roundNearest => (x.q : ℝ)) (u := 1 / 2 ^ 53)
    (γ := 1 / 10 ^ 16) (s := 1) (ℓ := 1 / 3) (σ := 1 + 1 / 10 ^ 14)
    (φ := (1 / (1 - 1 / 2 ^ 53)) ^ 3 * (1 + 1 / 10 ^ 14)) (ψ := 2) (t₁ := 1 / 1000) (t₂ := 1 / 1000)
    (equal := nearEqual) (eps := (⟨1 / 1000⟩ : Rounded roundNearest)) (B := cubeBasis) (B0 := fun H => cubeLen H • 1)
    (len := cubeLen) (Hs := cubeHNFs) (by simp [cubeHNFs]) (relativeOps_rounded roundNearest_binary64) compares_rounded
    comparesLt_rounded hr
    (fun H hH => ⟨cube_close hH, (cube_smallest (by linarith [(cubeLen_pos H).1])).1,
      (cube_smallest (by linarith [(cubeLen_pos H).1])).2, (cubeLen_pos H).1⟩)
    (by norm_num) (by norm_num) third_lengthRight rfl ⟨by norm_num, by norm_num, by norm_num, by norm_num⟩
    hE hL
  have hfil : ∀ f : Mat3 → Bool, cubeHNFs.filter f = [hnf 1 0 1 0 0 1, hnf 1 0 1 0 0 3, hnf 1 0 1 0 0 2].filter f :=
    fun _ => rfl
  have a1 : ¬ Longest cubeLen cubeHNFs (hnf 1 0 1 0 0 1) := fun h => by
    have := h.2 _ hm3
    rw [e1, e3] at this
    norm_num at this
  have a2 : ¬ Longest cubeLen cubeHNFs (hnf 1 0 1 0 0 2) := fun h => by
    have := h.2 _ hm3
    rw [e2, e3] at this
    norm_num at this
  have a3 : Longest cubeLen cubeHNFs (hnf 1 0 1 0 0 3) := ⟨hm3, hall.2 (by rw [e1, e2, e3]; norm_num)⟩
  have b1 : SecondLongest cubeLen cubeHNFs (hnf 1 0 1 0 0 1) :=
    ⟨hm1, a1, hall.2 ⟨fun _ => le_rfl, fun h => absurd a3 h, fun _ => by rw [e1, e2]⟩⟩
  have b2 : SecondLongest cubeLen cubeHNFs (hnf 1 0 1 0 0 2) :=
    ⟨hm2, a2, hall.2 ⟨fun _ => by rw [e1, e2], fun h => absurd a3 h, fun _ => le_rfl⟩⟩
  have b3 : ¬ SecondLongest cubeLen cubeHNFs (hnf 1 0 1 0 0 3) := fun h => h.2.1 a3
  refine ⟨st, h1, ?_, ?_⟩
  · rw [h2, hp]
    unfold entriesWith
    rw [hp, hfil]
    simp [List.filter, a1, a2, a3, compareGeomK]
  · rw [h3, hp]
    unfold entriesWith
    rw [hp, hfil]
    simp [List.filter, b1, b2, b3, compareGeomK]

/-- The grids kept reach the choice: with ten irreducible k-points for the grid with the spacing one and three for the others,
a grid of the second list is chosen. -/
example {sqrt : Rounded roundNearest → Rounded roundNearest}
    (hr : RootRight (fun x : Rounded roundNearest => (x.q : ℝ)) (1 / 2 ^ 53) sqrt) :
    ∃ b, tryHNFsK nearEqual (⟨1 / 1000⟩ : Rounded roundNearest) (fun H => compareGeomK sqrt (cubeBasis H))
        (fun g (_ : Unit) => some (if (g 0 0).q = 1 then 10 else 3)) (fun g _ => some (if (g 0 0).q = 1 then 10 else 3)) [()]
        cubeHNFs = .ok ⟨3, some b⟩ ∧ b.n_irr = 3 := by
  obtain ⟨st, h1, h2, h3⟩ := cube_lists hr
  unfold tryHNFsK
  rw [h1]
  dsimp only
  rw [h2, h3, if_pos (by simp)]
  have key : (match gridSelection (fun (g : Matrix (Fin 3) (Fin 3) (Rounded roundNearest)) (_ : Unit) =>
      some (if (g 0 0).q = 1 then 10 else 3)) (fun g _ => some (if (g 0 0).q = 1 then 10 else 3))
      [(cubeBasis (hnf 1 0 1 0 0 3), hnf 1 0 1 0 0 3)]
      [(cubeBasis (hnf 1 0 1 0 0 1), hnf 1 0 1 0 0 1), (cubeBasis (hnf 1 0 1 0 0 2), hnf 1 0 1 0 0 2)] [()] with
    | .ok (some b) => decide (b.n_irr = 3)
    | _ => false) = true := by decide +kernel
  split at key
  · rename_i b hb
    rw [hb]
    exact ⟨b, rfl, of_decide_eq_true key⟩
  · cases key

end AutoGR.Fortran
