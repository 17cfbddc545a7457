import Verif.Model.BruteForce
import Mathlib.Algebra.Group.Submonoid.Membership
import Mathlib.Data.List.Perm.Subperm

/-! # Finding generators of a finite group of matrices -/

namespace AutoGR.Brute

open Matrix

/-- `pg` lists the elements of a finite group of matrices, each once. -/
structure ListsGroup (pg : List R3) : Prop where
  nodup : pg.Nodup
  one : (1 : R3) ∈ pg
  mul : ∀ x ∈ pg, ∀ y ∈ pg, x * y ∈ pg
  inv : ∀ x ∈ pg, ∃ y ∈ pg, y * x = 1

/-- The comparison tells the elements of `pg` apart. -/
def TellsApart (equal : R3 → R3 → Bool) (pg : List R3) : Prop :=
  ∀ x ∈ pg, ∀ y ∈ pg, equal x y = true ↔ x = y

/-- Every element of `pg` is a product of elements of `gens`. -/
def Generates (gens pg : List R3) : Prop := ∀ x ∈ pg, x ∈ Submonoid.closure {g | g ∈ gens}

theorem ListsGroup.closure_mem {pg gens : List R3} (h : ListsGroup pg) (hg : ∀ g ∈ gens, g ∈ pg) {x : R3}
    (hx : x ∈ Submonoid.closure {g | g ∈ gens}) : x ∈ pg := by
  induction hx using Submonoid.closure_induction with
  | mem x hx => exact hg x hx
  | one => exact h.one
  | mul x y _ _ hx hy => exact h.mul x hx y hy

theorem ListsGroup.cancel {pg : List R3} (h : ListsGroup pg) {g x y : R3} (hg : g ∈ pg) (he : g * x = g * y) :
    x = y := by
  obtain ⟨z, _, hz⟩ := h.inv g hg
  calc x = z * (g * x) := by rw [← Matrix.mul_assoc, hz, Matrix.one_mul]
    _ = z * (g * y) := by rw [he]
    _ = y := by rw [← Matrix.mul_assoc, hz, Matrix.one_mul]

/-- Left multiplication by an element that maps a finite part of the group into itself is onto it. -/
theorem ListsGroup.surj {pg l : List R3} (h : ListsGroup pg) (hl : l.Nodup) {g : R3} (hg : g ∈ pg)
    (hc : ∀ x ∈ l, g * x ∈ l) : ∀ y ∈ l, ∃ x ∈ l, g * x = y := by
  have h1 : (l.map (g * ·)).Nodup := hl.map fun x y hxy => h.cancel hg hxy
  have h2 : l.map (g * ·) ⊆ l := by
    intro y hy
    obtain ⟨x, hx, rfl⟩ := List.mem_map.1 hy
    exact hc x hx
  have h3 := (h1.subperm h2).perm_of_length_le (by simp)
  intro y hy
  exact List.mem_map.1 (h3.mem_iff.2 hy)

/-- A part of the group that contains the products of the generators and is closed under multiplication by
generators contains everything generated. -/
theorem ListsGroup.closed_all {pg gens l : List R3} (h : ListsGroup pg) (hl : l.Nodup) (hg : ∀ g ∈ gens, g ∈ pg)
    (hne : gens ≠ []) (hp : ∀ g ∈ gens, g * g ∈ l) (hc : ∀ g ∈ gens, ∀ x ∈ l, g * x ∈ l) {x : R3}
    (hx : x ∈ Submonoid.closure {g | g ∈ gens}) : x ∈ l := by
  obtain ⟨g, hgm⟩ := List.exists_mem_of_ne_nil gens hne
  have hs := h.surj hl (hg g hgm) (hc g hgm)
  obtain ⟨y, hy, hye⟩ := hs _ (hp g hgm)
  have hyg := h.cancel (hg g hgm) hye
  subst hyg
  obtain ⟨z, hz, hze⟩ := hs _ hy
  have hz1 : z = 1 := h.cancel (hg y hgm) (by rw [hze, Matrix.mul_one])
  subst hz1
  have key : ∀ x ∈ Submonoid.closure {g | g ∈ gens}, ∀ w ∈ l, x * w ∈ l := by
    intro x hx
    induction hx using Submonoid.closure_induction with
    | mem x hx => exact fun w hw => hc x hx w hw
    | one => intro w hw; rwa [Matrix.one_mul]
    | mul x y _ _ hx hy => intro w hw; rw [Matrix.mul_assoc]; exact hx _ (hy w hw)
  have := key x hx 1 hz
  rwa [Matrix.mul_one] at this

theorem length_lt_of_not_mem {l pg : List R3} (hl : l.Nodup) (hs : ∀ x ∈ l, x ∈ pg) {x : R3} (hx : x ∈ pg)
    (hxl : x ∉ l) : l.length + 1 ≤ pg.length := by
  have : (x :: l).Nodup := List.nodup_cons.2 ⟨hxl, hl⟩
  exact (this.subperm (fun y hy => by
    rcases List.mem_cons.1 hy with rfl | h
    · exact hx
    · exact hs y h)).length_le

theorem mem_all_of_length {l pg : List R3} (hl : l.Nodup) (hs : ∀ x ∈ l, x ∈ pg) (h : pg.length ≤ l.length) :
    ∀ x ∈ pg, x ∈ l := fun _ hx =>
  ((hl.subperm (fun y hy => hs y hy)).perm_of_length_le h).mem_iff.2 hx

/-! ## Fortran -/

section

variable {equal : R3 → R3 → Bool} {pg gens behind : List R3}

/-- What is true of `test_set` all the time. -/
structure Inv (pg gens : List R3) (t : TestSet) : Prop where
  size : t.size = pg.length
  nodup : t.used.Nodup
  sub : ∀ x ∈ t.used, x ∈ pg
  gen : ∀ x ∈ t.used, x ∈ Submonoid.closure {g | g ∈ gens}

theorem inGroup_iff (ht : TellsApart equal pg) (h0 : ∀ x ∈ pg, equal x 0 = false)
    (hb : ∀ x ∈ pg, ∀ y ∈ behind, equal x y = false) {t : TestSet} (hi : ∀ x ∈ t.used, x ∈ pg) {x : R3}
    (hx : x ∈ pg) : inGroup equal behind t x = true ↔ x ∈ t.used := by
  rw [inGroup, List.any_eq_true]
  constructor
  · rintro ⟨y, hy, he⟩
    simp only [TestSet.cells, List.mem_append, List.mem_replicate] at hy
    rcases hy with (h | ⟨_, rfl⟩) | h
    · rw [(ht x hx y (hi y h)).1 he]
      exact h
    · rw [h0 x hx] at he
      cases he
    · rw [hb x hx y h] at he
      cases he
  · intro h
    exact ⟨x, by simp [TestSet.cells, h], (ht x hx x hx).2 rfl⟩

variable (ht : TellsApart equal pg) (h0 : ∀ x ∈ pg, equal x 0 = false)
  (hb : ∀ x ∈ pg, ∀ y ∈ behind, equal x y = false)

include ht h0 hb

theorem addProducts_spec (ps : List R3) (hps : ∀ p ∈ ps, p ∈ pg ∧ p ∈ Submonoid.closure {g | g ∈ gens})
    (t : TestSet) (hi : Inv pg gens t) : ∃ t', addProducts equal behind ps t = (t', true) ∧ Inv pg gens t' ∧
      t.used <+: t'.used ∧ ∀ p ∈ ps, p ∈ t'.used := by
  induction ps generalizing t with
  | nil => exact ⟨t, rfl, hi, List.prefix_refl _, by simp⟩
  | cons p rest ih =>
    obtain ⟨hp1, hp2⟩ := hps p (by simp)
    have hrest := fun q hq => hps q (List.mem_cons_of_mem p hq)
    rw [addProducts, addProduct]
    by_cases hm : p ∈ t.used
    · rw [if_pos ((inGroup_iff ht h0 hb hi.sub hp1).2 hm)]
      obtain ⟨t', e1, e2, e3, e4⟩ := ih hrest t hi
      refine ⟨t', e1, e2, e3, fun q hq => ?_⟩
      rcases List.mem_cons.1 hq with rfl | h
      · exact e3.subset hm
      · exact e4 q h
    · rw [if_neg (fun h => hm ((inGroup_iff ht h0 hb hi.sub hp1).1 h))]
      have hlen := length_lt_of_not_mem hi.nodup hi.sub hp1 hm
      rw [if_neg (by rw [hi.size]; omega)]
      have hi' : Inv pg gens { t with used := t.used ++ [p] } := by
        refine ⟨hi.size, ?_, ?_, ?_⟩
        · exact List.nodup_append.2 ⟨hi.nodup, by simp, by
            intro a ha b hb' hab
            rw [List.mem_singleton] at hb'
            subst hab hb'
            exact hm ha⟩
        · intro x hx
          rcases List.mem_append.1 hx with h | h
          · exact hi.sub x h
          · rw [List.mem_singleton] at h
            exact h ▸ hp1
        · intro x hx
          rcases List.mem_append.1 hx with h | h
          · exact hi.gen x h
          · rw [List.mem_singleton] at h
            exact h ▸ hp2
      obtain ⟨t', e1, e2, e3, e4⟩ := ih hrest _ hi'
      refine ⟨t', e1, e2, (List.prefix_append _ _).trans e3, fun q hq => ?_⟩
      rcases List.mem_cons.1 hq with rfl | h
      · exact e3.subset (by simp)
      · exact e4 q h

theorem passLoop_spec (hG : ListsGroup pg) (hg : ∀ g ∈ gens, g ∈ pg) (l : List R3) (gs : List R3)
    (hgs : ∀ g ∈ gs, g ∈ gens) (t : TestSet) (hi : Inv pg gens t) (hl : l <+: t.used) :
    ∃ t', passLoop equal behind l.length gs t = (t', true) ∧ Inv pg gens t' ∧ t.used <+: t'.used ∧
      ∀ g ∈ gs, ∀ x ∈ l, g * x ∈ t'.used := by
  induction gs generalizing t with
  | nil => exact ⟨t, rfl, hi, List.prefix_refl _, by simp⟩
  | cons g rest ih =>
    have hgg := hgs g (by simp)
    have htake : t.used.take l.length = l := List.prefix_iff_eq_take.1 hl |>.symm
    obtain ⟨t1, e1, e2, e3, e4⟩ := addProducts_spec ht h0 hb ((t.used.take l.length).map (g * ·)) (by
      intro p hp
      rw [htake] at hp
      obtain ⟨x, hx, rfl⟩ := List.mem_map.1 hp
      exact ⟨hG.mul g (hg g hgg) x (hi.sub x (hl.subset hx)),
        Submonoid.mul_mem _ (Submonoid.subset_closure hgg) (hi.gen x (hl.subset hx))⟩) t hi
    obtain ⟨t2, f1, f2, f3, f4⟩ := ih (fun q hq => hgs q (List.mem_cons_of_mem g hq)) t1 e2 (hl.trans e3)
    refine ⟨t2, ?_, f2, e3.trans f3, ?_⟩
    · rw [passLoop, e1]
      exact f1
    · intro q hq x hx
      rcases List.mem_cons.1 hq with rfl | h
      · exact f3.subset (e4 _ (by rw [htake]; exact List.mem_map_of_mem hx))
      · exact f4 q h x hx

theorem grow_spec (hG : ListsGroup pg) (hg : ∀ g ∈ gens, g ∈ pg) (fuel : ℕ) (t : TestSet) (hi : Inv pg gens t)
    (hf : pg.length < fuel + t.used.length) : ∃ t', grow equal behind gens fuel t = some t' ∧ Inv pg gens t' ∧
      t.used <+: t'.used ∧ ∀ g ∈ gens, ∀ x ∈ t'.used, g * x ∈ t'.used := by
  induction fuel generalizing t with
  | zero =>
    have := (hi.nodup.subperm fun x hx => hi.sub x hx).length_le
    omega
  | succ fuel ih =>
    obtain ⟨t1, e1, e2, e3, e4⟩ := passLoop_spec ht h0 hb hG hg t.used gens (fun g h => h) t hi (List.prefix_refl _)
    rw [grow, e1]
    by_cases hlen : t1.used.length = t.used.length
    · simp only [hlen, if_true]
      have he : t.used = t1.used := e3.eq_of_length hlen.symm
      exact ⟨t1, rfl, e2, e3, by rw [← he]; rw [← he] at e4; exact e4⟩
    · simp only [hlen, if_false]
      have := e3.length_le
      obtain ⟨t2, f1, f2, f3, f4⟩ := ih t1 e2 (by omega)
      exact ⟨t2, f1, f2, e3.trans f3, f4⟩

theorem allInGroup_spec {t : TestSet} (hi : ∀ x ∈ t.used, x ∈ pg) (l : List R3) (hl : ∀ x ∈ l, x ∈ pg) :
    allInGroup equal behind t l true = true ↔ ∀ x ∈ l, x ∈ t.used := by
  induction l with
  | nil => simp [allInGroup]
  | cons p rest ih =>
    rw [allInGroup, List.forall_mem_cons, ← ih fun x hx => hl x (by simp [hx]),
      ← inGroup_iff ht h0 hb hi (hl p (by simp))]
    split_ifs with h <;> simp [h]

/-- `forms_group` says whether the candidates generate the group. -/
theorem forms_group_spec (hG : ListsGroup pg) (hg : ∀ g ∈ gens, g ∈ pg) (hn : gens.Nodup) (hne : gens ≠ []) :
    ∃ b, forms_group equal behind gens pg = some b ∧ (b = true ↔ Generates gens pg) := by
  have hi : Inv pg gens ⟨pg.length, gens⟩ := ⟨rfl, hn, hg, fun x hx => Submonoid.subset_closure hx⟩
  obtain ⟨t1, e1, e2, e3, e4⟩ := addProducts_spec ht h0 hb (gens.flatMap fun g => gens.map (g * ·)) (by
    intro p hp
    simp only [List.mem_flatMap, List.mem_map] at hp
    obtain ⟨x, hx, y, hy, rfl⟩ := hp
    exact ⟨hG.mul x (hg x hx) y (hg y hy),
      Submonoid.mul_mem _ (Submonoid.subset_closure hx) (Submonoid.subset_closure hy)⟩) _ hi
  obtain ⟨t2, f1, f2, f3, f4⟩ := grow_spec ht h0 hb hG hg (pg.length + 1) t1 e2 (by omega)
  refine ⟨allInGroup equal behind t2 pg true, ?_, ?_⟩
  · rw [forms_group]
    simp only [e1, if_true, f1]
    rfl
  · rw [allInGroup_spec ht h0 hb f2.sub pg fun x hx => hx]
    constructor
    · exact fun h x hx => f2.gen x (h x hx)
    · intro h x hx
      refine hG.closed_all f2.nodup hg hne (fun g hgm => f3.subset (e4 _ ?_)) f4 (h x hx)
      exact List.mem_flatMap.2 ⟨g, hgm, List.mem_map_of_mem hgm⟩

end

theorem mem_combinations {r : ℕ} {l c : List R3} : c ∈ combinations r l ↔ c.Sublist l ∧ c.length = r := by
  induction l generalizing r c with
  | nil =>
    cases r with
    | zero =>
      simp only [combinations, List.mem_singleton, List.sublist_nil]
      exact ⟨fun h => ⟨h, by simp [h]⟩, fun h => h.1⟩
    | succ r =>
      simp only [combinations, List.not_mem_nil, List.sublist_nil, false_iff]
      rintro ⟨rfl, h⟩
      cases h
  | cons p rest ih =>
    cases r with
    | zero =>
      simp only [combinations, List.mem_singleton]
      constructor
      · rintro rfl
        simp
      · exact fun h => List.length_eq_zero_iff.1 h.2
    | succ r =>
      simp only [combinations, List.mem_append, List.mem_map, ih]
      constructor
      · rintro (⟨d, ⟨h1, h2⟩, rfl⟩ | ⟨h1, h2⟩)
        · exact ⟨h1.cons_cons p, by simp [h2]⟩
        · exact ⟨h1.cons p, h2⟩
      · rintro ⟨h1, h2⟩
        cases h1 with
        | cons _ h => exact Or.inr ⟨h, h2⟩
        | cons_cons _ h => exact Or.inl ⟨_, ⟨h, by simpa using h2⟩, rfl⟩

theorem firstGens_spec {equal : R3 → R3 → Bool} {behind pg : List R3} (cs : List (List R3))
    (h : ∀ c ∈ cs, ∃ b, forms_group equal behind c pg = some b ∧ (b = true ↔ Generates c pg)) :
    (∃ c ∈ cs, firstGens equal behind pg cs = some (some c) ∧ Generates c pg) ∨
      (firstGens equal behind pg cs = some none ∧ ∀ c ∈ cs, ¬ Generates c pg) := by
  induction cs with
  | nil => exact Or.inr ⟨rfl, by simp⟩
  | cons c rest ih =>
    obtain ⟨b, hb, hb'⟩ := h c (by simp)
    rw [firstGens, hb]
    cases b with
    | true => exact Or.inl ⟨c, by simp, rfl, hb'.1 rfl⟩
    | false =>
      rcases ih fun d hd => h d (by simp [hd]) with ⟨d, hd, h1, h2⟩ | ⟨h1, h2⟩
      · exact Or.inl ⟨d, by simp [hd], h1, h2⟩
      · refine Or.inr ⟨h1, ?_⟩
        intro d hd
        rcases List.mem_cons.1 hd with rfl | hd
        · exact fun hg => absurd (hb'.2 hg) (by decide)
        · exact h2 d hd

/-- Only the elements of a list matter, not their order. -/
theorem Generates.mono {c d pg : List R3} (h : Generates c pg) (hs : ∀ x ∈ c, x ∈ d) : Generates d pg :=
  fun x hx => Submonoid.closure_mono (fun y hy => hs y hy) (h x hx)

/-- A list of different elements of `pg` is, up to the order, one of the combinations. -/
theorem exists_combination {pg c : List R3} (hn : pg.Nodup) (hc : c.Nodup) (hs : ∀ x ∈ c, x ∈ pg) :
    ∃ d ∈ combinations c.length pg, ∀ x, x ∈ d ↔ x ∈ c := by
  classical
  refine ⟨pg.filter fun x => decide (x ∈ c), mem_combinations.2 ⟨List.filter_sublist, ?_⟩, ?_⟩
  · have : (pg.filter fun x => decide (x ∈ c)).Perm c := by
      refine (List.perm_ext_iff_of_nodup (hn.filter _) hc).2 fun x => ?_
      rw [List.mem_filter, decide_eq_true_iff]
      exact ⟨fun h => h.2, fun h => ⟨hs x h, h⟩⟩
    exact this.length_eq
  · intro x
    rw [List.mem_filter, decide_eq_true_iff]
    exact ⟨fun h => h.2, fun h => ⟨hs x h, h⟩⟩

/-! ## Python -/

section

variable {allclose : R3 → R3 → Bool} {pg gens : List R3}

/-- What is true of `group` all the time. -/
structure PyInv (pg gens l : List R3) : Prop where
  nodup : l.Nodup
  sub : ∀ x ∈ l, x ∈ pg
  gen : ∀ x ∈ l, x ∈ Submonoid.closure {g | g ∈ gens}

variable (ht : TellsApart allclose pg)

include ht

theorem pyAdd_spec {l : List R3} (hi : PyInv pg gens l) {p : R3}
    (hp : p ∈ pg ∧ p ∈ Submonoid.closure {g | g ∈ gens}) :
    PyInv pg gens (pyAdd allclose l p) ∧ l <+: pyAdd allclose l p ∧ p ∈ pyAdd allclose l p := by
  have key : (l.any fun k => allclose p k) = true ↔ p ∈ l := by
    rw [List.any_eq_true]
    constructor
    · rintro ⟨y, hy, he⟩
      rw [(ht p hp.1 y (hi.sub y hy)).1 he]
      exact hy
    · exact fun h => ⟨p, h, (ht p hp.1 p hp.1).2 rfl⟩
  unfold pyAdd
  by_cases hm : p ∈ l
  · rw [if_pos (key.2 hm)]
    exact ⟨hi, List.prefix_refl _, hm⟩
  · rw [if_neg fun h => hm (key.1 h)]
    refine ⟨⟨?_, ?_, ?_⟩, List.prefix_append _ _, by simp⟩
    · exact List.nodup_append.2 ⟨hi.nodup, by simp, by
        intro a ha b hb' hab
        rw [List.mem_singleton] at hb'
        subst hab hb'
        exact hm ha⟩
    · intro x hx
      rcases List.mem_append.1 hx with h | h
      · exact hi.sub x h
      · rw [List.mem_singleton] at h
        exact h ▸ hp.1
    · intro x hx
      rcases List.mem_append.1 hx with h | h
      · exact hi.gen x h
      · rw [List.mem_singleton] at h
        exact h ▸ hp.2

theorem pyFold_spec (ps : List R3) (hps : ∀ p ∈ ps, p ∈ pg ∧ p ∈ Submonoid.closure {g | g ∈ gens}) (l : List R3)
    (hi : PyInv pg gens l) : PyInv pg gens (ps.foldl (pyAdd allclose) l) ∧ l <+: ps.foldl (pyAdd allclose) l ∧
      ∀ p ∈ ps, p ∈ ps.foldl (pyAdd allclose) l := by
  induction ps generalizing l with
  | nil => exact ⟨hi, List.prefix_refl _, by simp⟩
  | cons p rest ih =>
    obtain ⟨e1, e2, e3⟩ := pyAdd_spec ht hi (hps p (by simp))
    obtain ⟨f1, f2, f3⟩ := ih (fun q hq => hps q (by simp [hq])) _ e1
    rw [List.foldl_cons]
    refine ⟨f1, e2.trans f2, fun q hq => ?_⟩
    rcases List.mem_cons.1 hq with rfl | h
    · exact f2.subset e3
    · exact f3 q h

theorem pyScan_spec (hG : ListsGroup pg) {i : R3} (hi0 : i ∈ pg ∧ i ∈ Submonoid.closure {g | g ∈ gens})
    (fuel j : ℕ) (l : List R3) (hi : PyInv pg gens l) (hf : pg.length < fuel + j) (hj : j ≤ l.length)
    (hdone : ∀ x ∈ l.take j, i * x ∈ l) :
    ∃ l', pyScan allclose i fuel j l = some l' ∧ PyInv pg gens l' ∧ l <+: l' ∧ ∀ x ∈ l', i * x ∈ l' := by
  induction fuel generalizing j l with
  | zero =>
    have := (hi.nodup.subperm fun x hx => hi.sub x hx).length_le
    omega
  | succ fuel ih =>
    rw [pyScan]
    cases hx : l[j]? with
    | none =>
      have hlen : l.length ≤ j := List.getElem?_eq_none_iff.1 hx
      rw [List.take_of_length_le hlen] at hdone
      exact ⟨l, rfl, hi, List.prefix_refl _, hdone⟩
    | some x =>
      obtain ⟨hlt, rfl⟩ := List.getElem?_eq_some_iff.1 hx
      have hxm : l[j] ∈ l := List.getElem_mem hlt
      obtain ⟨e1, e2, e3⟩ := pyAdd_spec ht hi (p := i * l[j])
        ⟨hG.mul i hi0.1 _ (hi.sub _ hxm), Submonoid.mul_mem _ hi0.2 (hi.gen _ hxm)⟩
      obtain ⟨l', f1, f2, f3, f4⟩ := ih (j + 1) _ e1 (by omega) (hlt.trans_le e2.length_le) (by
        obtain ⟨r, hr⟩ := e2
        intro y hy
        rw [← hr, List.take_append_of_le_length (by omega), ← List.take_concat_get' l j hlt] at hy
        rcases List.mem_append.1 hy with h | h
        · exact (List.prefix_iff_eq_append.2 (by rw [← hr]; simp) : l <+: pyAdd allclose l (i * l[j])).subset
            (hdone y h)
        · rw [List.mem_singleton] at h
          rw [h]
          exact e3)
      exact ⟨l', f1, f2, e2.trans f3, f4⟩

theorem pyPass_spec (hG : ListsGroup pg) (hg : ∀ g ∈ gens, g ∈ pg) (fuel : ℕ) (hf : pg.length < fuel) (gs : List R3)
    (hgs : ∀ g ∈ gs, g ∈ gens) (l : List R3) (hi : PyInv pg gens l) :
    ∃ l', pyPass allclose fuel gs l = some l' ∧ PyInv pg gens l' ∧ l <+: l' ∧
      (l'.length = l.length → ∀ g ∈ gs, ∀ x ∈ l, g * x ∈ l) := by
  induction gs generalizing l with
  | nil => exact ⟨l, rfl, hi, List.prefix_refl _, by simp⟩
  | cons g rest ih =>
    have hgg := hgs g (by simp)
    obtain ⟨l1, e1, e2, e3, e4⟩ := pyScan_spec ht hG ⟨hg g hgg, Submonoid.subset_closure hgg⟩ fuel 0 l hi
      (by omega) (by omega) (by simp)
    obtain ⟨l2, f1, f2, f3, f4⟩ := ih (fun q hq => hgs q (by simp [hq])) l1 e2
    refine ⟨l2, ?_, f2, e3.trans f3, ?_⟩
    · rw [pyPass, e1]
      exact f1
    · intro hlen q hq x hx
      have h1 := e3.length_le
      have h2 := f3.length_le
      have h3 : l = l1 := e3.eq_of_length (by omega)
      subst h3
      rcases List.mem_cons.1 hq with rfl | h
      · exact e4 x hx
      · exact f4 hlen q h x hx

theorem pyGrow_spec (hG : ListsGroup pg) (hg : ∀ g ∈ gens, g ∈ pg) (fuel : ℕ) (hf : pg.length < fuel) (passes : ℕ)
    (l : List R3) (hi : PyInv pg gens l) (hp : pg.length < passes + l.length) :
    ∃ l', pyGrow allclose gens fuel passes l = some l' ∧ PyInv pg gens l' ∧ l <+: l' ∧
      ∀ g ∈ gens, ∀ x ∈ l', g * x ∈ l' := by
  induction passes generalizing l with
  | zero =>
    have := (hi.nodup.subperm fun x hx => hi.sub x hx).length_le
    omega
  | succ passes ih =>
    obtain ⟨l1, e1, e2, e3, e4⟩ := pyPass_spec ht hG hg fuel hf gens (fun g h => h) l hi
    rw [pyGrow, e1, Option.bind_some]
    by_cases hlen : l1.length = l.length
    · rw [if_pos hlen]
      have he : l = l1 := e3.eq_of_length hlen.symm
      subst he
      exact ⟨l, rfl, e2, e3, e4 rfl⟩
    · rw [if_neg hlen]
      have := e3.length_le
      obtain ⟨l2, f1, f2, f3, f4⟩ := ih l1 e2 (by omega)
      exact ⟨l2, f1, f2, e3.trans f3, f4⟩

/-- `forms_group` of the Python code says whether the candidates generate the group. -/
theorem pyFormsGroup_spec (hG : ListsGroup pg) (hg : ∀ g ∈ gens, g ∈ pg) (hne : gens ≠ []) (fuel : ℕ)
    (hf : pg.length < fuel) :
    ∃ b, pyFormsGroup allclose fuel gens pg = some b ∧ (b = true ↔ Generates gens pg) := by
  obtain ⟨e1, e2, e3⟩ := pyFold_spec ht (gens := gens) (gens.flatMap fun g => gens.map (g * ·)) (by
    intro p hp
    simp only [List.mem_flatMap, List.mem_map] at hp
    obtain ⟨x, hx, y, hy, rfl⟩ := hp
    exact ⟨hG.mul x (hg x hx) y (hg y hy),
      Submonoid.mul_mem _ (Submonoid.subset_closure hx) (Submonoid.subset_closure hy)⟩) [] ⟨by simp, by simp, by simp⟩
  obtain ⟨l, f1, f2, f3, f4⟩ := pyGrow_spec ht hG hg fuel hf fuel _ e1 (by omega)
  refine ⟨_, by rw [pyFormsGroup]; simp only [f1]; rfl, ?_⟩
  have hle := (f2.nodup.subperm fun x hx => f2.sub x hx).length_le
  constructor
  · intro h
    beta_reduce at h
    split_ifs at h with hlen
    have := mem_all_of_length f2.nodup f2.sub (by omega)
    exact fun x hx => f2.gen x (this x hx)
  · intro h
    have hall : ∀ x ∈ pg, x ∈ l := fun x hx => hG.closed_all f2.nodup hg hne
      (fun g hgm => f3.subset (e3 _ (List.mem_flatMap.2 ⟨g, hgm, List.mem_map_of_mem hgm⟩))) f4 (h x hx)
    have hlen := (hG.nodup.subperm fun x hx => hall x hx).length_le
    beta_reduce
    rw [if_neg (by omega)]
    have hany : ∀ x ∈ pg, (l.any fun k => allclose x k) = true := fun x hx =>
      List.any_eq_true.2 ⟨x, hall x hx, (ht x hx x hx).2 rfl⟩
    have hone : pg ≠ [] := List.ne_nil_of_mem hG.one
    have key : ∀ m : List R3, (∀ x ∈ m, x ∈ pg) → ∀ b, (b = true ∨ m ≠ []) → pyAll allclose l m b = true := by
      intro m
      induction m with
      | nil => rintro _ b (h | h); exacts [h, absurd rfl h]
      | cons x rest ih =>
        intro hm b _
        rw [pyAll]
        simp only [hany x (hm x (by simp)), Bool.or_true, if_true]
        exact ih (fun y hy => hm y (by simp [hy])) true (Or.inl rfl)
    exact key pg (fun x hx => hx) false (Or.inr hone)

end

theorem pyFirst_spec {allclose : R3 → R3 → Bool} {pg : List R3} {fuel : ℕ} (cs : List (List R3))
    (h : ∀ c ∈ cs, ∃ b, pyFormsGroup allclose fuel c pg = some b ∧ (b = true ↔ Generates c pg)) :
    (∃ c ∈ cs, pyFirst allclose fuel pg cs = some (some c) ∧ Generates c pg) ∨
      (pyFirst allclose fuel pg cs = some none ∧ ∀ c ∈ cs, ¬ Generates c pg) := by
  induction cs with
  | nil => exact Or.inr ⟨rfl, by simp⟩
  | cons c rest ih =>
    obtain ⟨b, hb, hb'⟩ := h c (by simp)
    rw [pyFirst, hb]
    cases b with
    | true => exact Or.inl ⟨c, by simp, rfl, hb'.1 rfl⟩
    | false =>
      rcases ih fun d hd => h d (by simp [hd]) with ⟨d, hd, h1, h2⟩ | ⟨h1, h2⟩
      · exact Or.inl ⟨d, by simp [hd], h1, h2⟩
      · refine Or.inr ⟨h1, ?_⟩
        intro d hd
        rcases List.mem_cons.1 hd with rfl | hd
        · exact fun hg => absurd (hb'.2 hg) (by decide)
        · exact h2 d hd

end AutoGR.Brute
