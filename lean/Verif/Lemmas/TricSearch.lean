import Verif.Props.OneOffset
import Verif.Props.FortranFindCubic

/-!
# Lemmas for the search over the grids of a triclinic lattice

The supercells are listed in an order that depends on the cell.  Two lists that hold the same grids in a different order
give the same number of points and of irreducible points.
-/

namespace AutoGR.Fortran

open Spec

variable {G Off : Type}

theorem tricLoop_of {tryN : ℤ → Except GridErr (Tried G Off)} (mult : ℤ) (k : ℕ) : ∀ (fuel : ℕ) (a : ℤ), k < fuel →
    (∀ j : ℕ, j < k → ∃ m, tryN (a + j) = .ok ⟨m, none⟩) → ∀ b m, tryN (a + k) = .ok ⟨m, some b⟩ → 0 < m →
      tricLoop tryN mult fuel a = .ok ⟨b, (a + k) * mult⟩ := by
  induction k with
  | zero =>
    intro fuel a hk _ b m hb hm
    obtain ⟨fuel, rfl⟩ : ∃ f, fuel = f + 1 := ⟨fuel - 1, by omega⟩
    unfold tricLoop
    rw [Nat.cast_zero, add_zero] at hb ⊢
    rw [hb]
    dsimp only
    rw [if_pos hm]
  | succ k ih =>
    intro fuel a hk hno b m hb hm
    obtain ⟨fuel, rfl⟩ : ∃ f, fuel = f + 1 := ⟨fuel - 1, by omega⟩
    unfold tricLoop
    obtain ⟨m0, h0⟩ := hno 0 (by omega)
    rw [Nat.cast_zero, add_zero] at h0
    rw [h0]
    dsimp only
    have e : a + ((k + 1 : ℕ) : ℤ) = a + 1 + k := by push_cast; ring
    rw [e] at hb ⊢
    refine ih fuel (a + 1) (by omega) (fun j hj => ?_) b m hb hm
    obtain ⟨m', h'⟩ := hno (j + 1) (by omega)
    refine ⟨m', ?_⟩
    rw [← h']
    congr 1
    push_cast
    ring

theorem tricLoop_inv {tryN : ℤ → Except GridErr (Tried G Off)} (mult : ℤ) (fuel : ℕ) : ∀ a : ℤ,
    (∀ n, a ≤ n → ∃ m r, tryN n = .ok ⟨m, r⟩ ∧ 0 < m) → ∀ e, tricLoop tryN mult fuel a = .ok e →
      ∃ (k m : ℕ) (b : Selected G Off), k < fuel ∧ (∀ j : ℕ, j < k → ∃ m, tryN (a + j) = .ok ⟨m, none⟩) ∧
        tryN (a + k) = .ok ⟨m, some b⟩ ∧ 0 < m ∧ e = ⟨b, (a + k) * mult⟩ := by
  induction fuel with
  | zero => intro a _ e he; unfold tricLoop at he; cases he
  | succ fuel ih =>
    intro a h e he
    obtain ⟨m, r, h1, h2⟩ := h a le_rfl
    unfold tricLoop at he
    rw [h1] at he
    dsimp only at he
    cases r with
    | some b =>
      dsimp only at he
      rw [if_pos h2] at he
      cases he
      exact ⟨0, m, b, by omega, fun j hj => by omega, by simpa using h1, h2, by simp⟩
    | none =>
      dsimp only at he
      obtain ⟨k, m', b, k1, k2, k3, k4, k5⟩ := ih (a + 1) (fun n hn => h n (by omega)) e he
      have e' : a + ((k + 1 : ℕ) : ℤ) = a + 1 + k := by push_cast; ring
      refine ⟨k + 1, m', b, by omega, fun j hj => ?_, by rw [e']; exact k3, k4, by rw [e']; exact k5⟩
      cases j with
      | zero => exact ⟨m, by simpa using h1⟩
      | succ j =>
        obtain ⟨m'', h'⟩ := k2 j (by omega)
        refine ⟨m'', ?_⟩
        rw [← h']
        congr 1
        push_cast
        ring

/-- `find_grid` for a triclinic lattice, as a loop. -/
theorem findGrid_tric_loop (lib : Lib G Off) (w : ℤ → ℤ) (eps : ℚ) (offsets : List Off) (min_kpts : Bool) (root : ℤ)
    (fuel k : ℕ) (hk : k ∈ [31, 44]) (s_range : ℕ) (kpd a m : ℤ) (h : get_kpd_tric kpd = some (a, m)) :
    findGrid lib w eps offsets min_kpts root fuel k s_range kpd =
      tricLoop (fun n => tryHNFs lib.equal eps lib.geom lib.irr lib.irrDefault offsets ((tric_31_44 n).map (m • ·)))
        m fuel a := by
  unfold findGrid
  simp only [List.mem_cons, List.not_mem_nil, or_false] at hk
  rw [if_neg (by omega), if_pos (by omega), h]

/-- A grid is found if one is packed densely enough and the library counts the points of the grids of the list. -/
theorem tryHNFs_some_offsets (lib : Lib G Off) (hirr : ∀ g o m, lib.irr g o = some m → 1 ≤ m) (eps : ℚ) (offsets : List Off)
    (Hs : List Mat3) (htot : ∀ H ∈ Hs, ∃ o ∈ offsets, lib.irr (lib.geom H).grid o ≠ none) (H : Mat3) (hH : H ∈ Hs)
    (hp : (lib.geom H).packed = true) (hr : (lib.geom H).rmin * eps < (lib.geom H).rmin) :
    ∃ b, tryHNFs lib.equal eps lib.geom lib.irr lib.irrDefault offsets Hs = .ok ⟨Hs.length, some b⟩ := by
  obtain ⟨s, h1, -, h3⟩ := compareAll_ok lib.equal eps lib.geom Hs (List.ne_nil_of_mem hH)
  have hne : s.list1 ≠ [] := by
    have := foldl_bestStep_ne_nil lib.equal eps lib.geom Hs H hH hp hr ⟨0, 0, [], []⟩ rfl
    rw [← h3] at this
    exact this
  unfold tryHNFs
  rw [h1]
  dsimp only
  rw [if_pos (.inl (List.length_pos_of_ne_nil hne))]
  obtain ⟨r, k1, -, k3⟩ := gridSelection_partial lib.irr lib.irrDefault hirr s.list1 s.list2 offsets
  rw [k1]
  cases r with
  | some b => exact ⟨b, rfl⟩
  | none =>
    obtain ⟨g, hg⟩ := List.exists_mem_of_ne_nil _ hne
    have hg' : g ∈ s.best.list1 ∨ g ∈ s.best.list2 := .inl hg
    rw [h3] at hg'
    rcases foldl_bestStep_mem lib.equal eps lib.geom Hs _ g hg' with h | ⟨H', hH', e, -⟩
    · simp at h
    · obtain ⟨o, ho, hto⟩ := htot H' hH'
      have := k3 rfl g hg o ho
      rw [e] at this
      exact absurd this hto

/-- With one offset. -/
theorem tryHNFs_some_on (lib : Lib G Off) (hirr : ∀ g o m, lib.irr g o = some m → 1 ≤ m) (eps : ℚ) (o : Off)
    (Hs : List Mat3) (htot : ∀ H ∈ Hs, lib.irr (lib.geom H).grid o ≠ none) (H : Mat3) (hH : H ∈ Hs)
    (hp : (lib.geom H).packed = true) (hr : (lib.geom H).rmin * eps < (lib.geom H).rmin) :
    ∃ b, tryHNFs lib.equal eps lib.geom lib.irr lib.irrDefault [o] Hs = .ok ⟨Hs.length, some b⟩ :=
  tryHNFs_some_offsets lib hirr eps [o] Hs (fun H hH => ⟨o, by simp, htot H hH⟩) H hH hp hr

/-- Two supercells, of one cell of the crystal and of another, whose grids look the same to the program. -/
structure Alike (lib lib' : Lib G Off) (o : Off) (H H' : Mat3) : Prop where
  rmin : (lib'.geom H').rmin = (lib.geom H).rmin
  packed : (lib'.geom H').packed = (lib.geom H).packed
  irr : lib'.irr (lib'.geom H').grid o = lib.irr (lib.geom H).grid o
  irrDefault : lib'.irrDefault (lib'.geom H').grid o = lib.irrDefault (lib.geom H).grid o

theorem mem_lengthsOf {geom : Mat3 → Geom G} {Hs : List Mat3} {x : ℚ} :
    x ∈ lengthsOf geom Hs ↔ ∃ H ∈ Hs, (geom H).packed = true ∧ (geom H).rmin = x := by
  unfold lengthsOf packedHNFs
  simp only [List.mem_map, List.mem_filter, and_assoc]

theorem mem_entriesOf {geom : Mat3 → Geom G} {Hs : List Mat3} {r : ℚ} {g : G × Mat3} :
    g ∈ entriesOf geom Hs r ↔ ∃ H ∈ Hs, (geom H).packed = true ∧ (geom H).rmin = r ∧ g = ((geom H).grid, H) := by
  unfold entriesOf packedHNFs
  simp only [List.mem_map, List.mem_filter, decide_eq_true_eq, and_assoc]
  refine exists_congr fun H => and_congr_right fun _ => and_congr_right fun _ => and_congr_right fun _ => eq_comm

/-- The search over two lists that hold the same grids. -/
theorem tryHNFs_alike {lib lib' : Lib G Off} (heq : lib'.equal = lib.equal) (eps : ℚ) (o : Off)
    (hirr : ∀ g o m, lib.irr g o = some m → 1 ≤ m) (hdef : ∀ g o m, lib.irrDefault g o = some m → 1 ≤ m)
    (hirr' : ∀ g o m, lib'.irr g o = some m → 1 ≤ m) (hdef' : ∀ g o m, lib'.irrDefault g o = some m → 1 ≤ m)
    {Hs Hs' : List Mat3} (h1 : ∀ H ∈ Hs, ∃ H' ∈ Hs', Alike lib lib' o H H')
    (h2 : ∀ H' ∈ Hs', ∃ H ∈ Hs, Alike lib lib' o H H') (hA : LengthsApart lib.equal eps (lengthsOf lib.geom Hs))
    {n : ℕ} {b : Selected G Off}
    (hb : tryHNFs lib.equal eps lib.geom lib.irr lib.irrDefault [o] Hs = .ok ⟨n, some b⟩) :
    ∃ b', tryHNFs lib'.equal eps lib'.geom lib'.irr lib'.irrDefault [o] Hs' = .ok ⟨Hs'.length, some b'⟩ ∧
      b'.n_irr = b.n_irr ∧ b'.offset = b.offset ∧
      b.HNF ∈ Hs ∧ b.grid = (lib.geom b.HNF).grid ∧ b'.HNF ∈ Hs' ∧ b'.grid = (lib'.geom b'.HNF).grid ∧
      (lib'.geom b'.HNF).rmin = (lib.geom b.HNF).rmin := by
  have hmem : ∀ x, x ∈ lengthsOf lib'.geom Hs' ↔ x ∈ lengthsOf lib.geom Hs := by
    intro x
    rw [mem_lengthsOf, mem_lengthsOf]
    constructor
    · rintro ⟨H', hH', p, q⟩
      obtain ⟨H, hH, e⟩ := h2 H' hH'
      exact ⟨H, hH, by rw [← e.packed, p], by rw [← e.rmin, q]⟩
    · rintro ⟨H, hH, p, q⟩
      obtain ⟨H', hH', e⟩ := h1 H hH
      exact ⟨H', hH', by rw [e.packed, p], by rw [e.rmin, q]⟩
  have hA' : LengthsApart lib'.equal eps (lengthsOf lib'.geom Hs') := by
    rw [heq]
    exact ⟨hA.nonneg, fun r hr => hA.zero r ((hmem r).1 hr), fun r hr => hA.same r ((hmem r).1 hr),
      fun r hr r' hr' => hA.apart r ((hmem r).1 hr) r' ((hmem r').1 hr')⟩
  have hL : ∀ r, Largest (lengthsOf lib'.geom Hs') r ↔ Largest (lengthsOf lib.geom Hs) r := by
    intro r
    simp only [Largest, hmem]
  have hS : ∀ r, SecondLargest (lengthsOf lib'.geom Hs') r ↔ SecondLargest (lengthsOf lib.geom Hs) r := by
    intro r
    simp only [SecondLargest, hmem, hL]
  have hne : Hs ≠ [] := by
    rintro rfl
    unfold tryHNFs compareAll at hb
    cases hb
  have hne' : Hs' ≠ [] := by
    obtain ⟨H, hH⟩ := List.exists_mem_of_ne_nil _ hne
    obtain ⟨H', hH', -⟩ := h1 H hH
    exact List.ne_nil_of_mem hH'
  obtain ⟨s, s1, s2, s3, s4, s5⟩ := compareAll_lists_partial lib.equal eps lib.geom Hs hne hA
  obtain ⟨t, t1, t2, t3, t4, t5⟩ := compareAll_lists_partial lib'.equal eps lib'.geom Hs' hne' hA'
  unfold tryHNFs at hb
  rw [s1] at hb
  dsimp only at hb
  by_cases hpos : 0 < s.list1.length ∨ 0 < s.list2.length
  swap
  · rw [if_neg hpos] at hb
    cases hb
  rw [if_pos hpos] at hb
  obtain ⟨q, q1, q2, -⟩ := gridSelection_one_offset lib.irr lib.irrDefault hirr hdef s.list1 s.list2 o
  rw [q1] at hb
  have hq : q = some b := by
    cases hb
    rfl
  obtain ⟨b1, b2, b3, b4⟩ := q2 b hq
  -- the largest length
  obtain ⟨r1, hr1⟩ : ∃ r, Largest (lengthsOf lib.geom Hs) r := by
    by_contra hno
    have e1 := s4 hno
    have e2 := s5 (fun ⟨r, hr⟩ => hno (by obtain ⟨-, r1, h, -⟩ := hr; exact ⟨r1, h⟩))
    rw [e1, e2] at hpos
    simp at hpos
  have l1 := s2 r1 hr1
  have l1' := t2 r1 ((hL r1).2 hr1)
  -- the entries of one length
  have hgo : ∀ r, ∀ g ∈ entriesOf lib.geom Hs r, ∃ g' ∈ entriesOf lib'.geom Hs' r,
      lib'.irr g'.1 o = lib.irr g.1 o ∧ lib'.irrDefault g'.1 o = lib.irrDefault g.1 o := by
    intro r g hg
    obtain ⟨H, hH, p, q, rfl⟩ := mem_entriesOf.1 hg
    obtain ⟨H', hH', e⟩ := h1 H hH
    exact ⟨_, mem_entriesOf.2 ⟨H', hH', by rw [e.packed, p], by rw [e.rmin, q], rfl⟩, e.irr, e.irrDefault⟩
  have hback : ∀ r, ∀ g' ∈ entriesOf lib'.geom Hs' r, ∃ g ∈ entriesOf lib.geom Hs r,
      lib'.irr g'.1 o = lib.irr g.1 o ∧ lib'.irrDefault g'.1 o = lib.irrDefault g.1 o := by
    intro r g hg
    obtain ⟨H', hH', p, q, rfl⟩ := mem_entriesOf.1 hg
    obtain ⟨H, hH, e⟩ := h2 H' hH'
    exact ⟨_, mem_entriesOf.2 ⟨H, hH, by rw [← e.packed, p], by rw [← e.rmin, q], rfl⟩, e.irr, e.irrDefault⟩
  have hgo1 : ∀ g ∈ s.list1, ∃ g' ∈ t.list1, lib'.irr g'.1 o = lib.irr g.1 o := by
    intro g hg
    rw [l1] at hg
    obtain ⟨g', hg', e, -⟩ := hgo r1 g hg
    exact ⟨g', by rw [l1']; exact hg', e⟩
  have hback1 : ∀ g' ∈ t.list1, ∃ g ∈ s.list1, lib'.irr g'.1 o = lib.irr g.1 o := by
    intro g hg
    rw [l1'] at hg
    obtain ⟨g', hg', e, -⟩ := hback r1 g hg
    exact ⟨g', by rw [l1]; exact hg', e⟩
  have hsecond : s.list2 = [] ∧ t.list2 = [] ∨ ∃ r2, s.list2 = entriesOf lib.geom Hs r2 ∧ t.list2 = entriesOf lib'.geom Hs' r2 := by
    by_cases hex : ∃ r, SecondLargest (lengthsOf lib.geom Hs) r
    · obtain ⟨r2, hr2⟩ := hex
      exact .inr ⟨r2, s3 r2 hr2, t3 r2 ((hS r2).2 hr2)⟩
    · exact .inl ⟨s5 hex, t5 fun ⟨r, hr⟩ => hex ⟨r, (hS r).1 hr⟩⟩
  have hgo2 : ∀ g ∈ s.list2, ∃ g' ∈ t.list2, lib'.irrDefault g'.1 o = lib.irrDefault g.1 o := by
    intro g hg
    rcases hsecond with ⟨e, -⟩ | ⟨r2, e, e'⟩
    · rw [e] at hg
      simp at hg
    · rw [e] at hg
      obtain ⟨g', hg', -, e2⟩ := hgo r2 g hg
      exact ⟨g', by rw [e']; exact hg', e2⟩
  have hback2 : ∀ g' ∈ t.list2, ∃ g ∈ s.list2, lib'.irrDefault g'.1 o = lib.irrDefault g.1 o := by
    intro g hg
    rcases hsecond with ⟨-, e⟩ | ⟨r2, e, e'⟩
    · rw [e] at hg
      simp at hg
    · rw [e'] at hg
      obtain ⟨g', hg', -, e2⟩ := hback r2 g hg
      exact ⟨g', by rw [e]; exact hg', e2⟩
  have hin : ∀ {r : ℚ} {g : G} {H : Mat3}, (g, H) ∈ entriesOf lib.geom Hs r → H ∈ Hs ∧ g = (lib.geom H).grid ∧ (lib.geom H).rmin = r := by
    intro r g H h
    obtain ⟨H0, hH0, -, q, e⟩ := mem_entriesOf.1 h
    cases e
    exact ⟨hH0, rfl, q⟩
  have hin' : ∀ {r : ℚ} {g : G} {H : Mat3}, (g, H) ∈ entriesOf lib'.geom Hs' r →
      H ∈ Hs' ∧ g = (lib'.geom H).grid ∧ (lib'.geom H).rmin = r := by
    intro r g H h
    obtain ⟨H0, hH0, -, q, e⟩ := mem_entriesOf.1 h
    cases e
    exact ⟨hH0, rfl, q⟩
  obtain ⟨q', u1, u2, u3⟩ := gridSelection_one_offset lib'.irr lib'.irrDefault hirr' hdef' t.list1 t.list2 o
  have hpos' : 0 < t.list1.length ∨ 0 < t.list2.length := by
    left
    obtain ⟨H, hH, p, q⟩ := mem_lengthsOf.1 ((hmem r1).2 hr1.1)
    rw [l1']
    exact List.length_pos_of_mem (mem_entriesOf.2 ⟨H, hH, p, q, rfl⟩)
  have htry : tryHNFs lib'.equal eps lib'.geom lib'.irr lib'.irrDefault [o] Hs' = .ok ⟨Hs'.length, q'⟩ := by
    unfold tryHNFs
    rw [t1]
    dsimp only
    rw [if_pos hpos', u1]
  cases q' with
  | none =>
    exfalso
    obtain ⟨v1, v2⟩ := u3 rfl
    rcases b2 with ⟨c1, c2⟩ | ⟨c1, c2, -⟩
    · obtain ⟨g', hg', e⟩ := hgo1 _ c1
      rw [v1 g' hg', c2] at e
      cases e
    · obtain ⟨g', hg', e⟩ := hgo2 _ c1
      rw [v2 g' hg', c2] at e
      cases e
  | some b' =>
    obtain ⟨d1, d2, d3, d4⟩ := u2 b' rfl
    have hle : b'.n_irr ≤ b.n_irr := by
      rcases b2 with ⟨c1, c2⟩ | ⟨c1, c2, -⟩
      · obtain ⟨g', hg', e⟩ := hgo1 _ c1
        exact d3 g' hg' _ (e.trans c2)
      · obtain ⟨g', hg', e⟩ := hgo2 _ c1
        exact d4 g' hg' _ (e.trans c2)
    have hge : b.n_irr ≤ b'.n_irr := by
      rcases d2 with ⟨c1, c2⟩ | ⟨c1, c2, -⟩
      · obtain ⟨g, hg, e⟩ := hback1 _ c1
        exact b3 g hg _ (e.symm.trans c2)
      · obtain ⟨g, hg, e⟩ := hback2 _ c1
        exact b4 g hg _ (e.symm.trans c2)
    refine ⟨b', htry, le_antisymm hle hge, d1.trans b1.symm, ?_⟩
    rcases b2 with ⟨c1, c2⟩ | ⟨c1, c2, c3⟩ <;> rcases d2 with ⟨f1, f2⟩ | ⟨f1, f2, f3⟩
    · rw [l1] at c1
      rw [l1'] at f1
      obtain ⟨i1, i2, i3⟩ := hin c1
      obtain ⟨j1, j2, j3⟩ := hin' f1
      exact ⟨i1, i2, j1, j2, j3.trans i3.symm⟩
    · exfalso
      obtain ⟨g', hg', e⟩ := hgo1 _ c1
      have := f3 g' hg' _ (e.trans c2)
      omega
    · exfalso
      obtain ⟨g, hg, e⟩ := hback1 _ f1
      have := c3 g hg _ (e.symm.trans f2)
      omega
    · rcases hsecond with ⟨e, -⟩ | ⟨r2, e, e'⟩
      · rw [e] at c1
        simp at c1
      · rw [e] at c1
        rw [e'] at f1
        obtain ⟨i1, i2, i3⟩ := hin c1
        obtain ⟨j1, j2, j3⟩ := hin' f1
        exact ⟨i1, i2, j1, j2, j3.trans i3.symm⟩

end AutoGR.Fortran
