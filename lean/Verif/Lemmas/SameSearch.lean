import Verif.Model.FortranGrid
import Mathlib.Data.List.Forall2
import Mathlib.Data.Option.Basic

/-!
# Two searches that see the same lengths and the same numbers of irreducible points take the same way

`P g g'` says that `g` and `g'` are the same grid for the two searches.
-/

namespace AutoGR.Fortran

variable {G G' Off : Type}

/-- Both fail in the same way, or both answer, with related answers. -/
def ExRel {E α β : Type} (P : α → β → Prop) : Except E α → Except E β → Prop
  | .error e, .error e' => e' = e
  | .ok a, .ok b => P a b
  | _, _ => False

theorem ExRel.ok_left {E α β : Type} {P : α → β → Prop} {x : Except E α} {y : Except E β} (h : ExRel P x y) {a : α}
    (hx : x = .ok a) : ∃ b, y = .ok b ∧ P a b := by
  subst hx
  cases y with
  | error e => exact h.elim
  | ok b => exact ⟨b, rfl, h⟩

theorem ExRel.error_left {E α β : Type} {P : α → β → Prop} {x : Except E α} {y : Except E β} (h : ExRel P x y) {e : E}
    (hx : x = .error e) : y = .error e := by
  subst hx
  cases y with
  | error e' => exact congrArg _ h
  | ok b => exact h.elim

/-- Related grids with the same supercell. -/
def ItemRel (P : G → G' → Prop) (x : G × Mat3) (y : G' × Mat3) : Prop := P x.1 y.1 ∧ y.2 = x.2

/-- The same state of `compare_grids`. -/
structure GridsRel (P : G → G' → Prop) (s : Grids G) (s' : Grids G') : Prop where
  rmin1 : s'.rmin1 = s.rmin1
  rmin2 : s'.rmin2 = s.rmin2
  list1 : List.Forall₂ (ItemRel P) s.list1 s'.list1
  list2 : List.Forall₂ (ItemRel P) s.list2 s'.list2
  size : s'.size = s.size

/-- The same geometry. -/
structure GeomRel (P : G → G' → Prop) (g : Geom G) (g' : Geom G') : Prop where
  grid : P g.grid g'.grid
  rmin : g'.rmin = g.rmin
  packed : g'.packed = g.packed

/-- The same selection. -/
structure SelRel (P : G → G' → Prop) (a : Selected G Off) (b : Selected G' Off) : Prop where
  grid : P a.grid b.grid
  HNF : b.HNF = a.HNF
  offset : b.offset = a.offset
  n_irr : b.n_irr = a.n_irr

/-- The same entry. -/
structure EntryRel (P : G → G' → Prop) (a : Entry G Off) (b : Entry G' Off) : Prop where
  sel : SelRel P a.sel b.sel
  nt_kpts : b.nt_kpts = a.nt_kpts

/-- The same result for one density. -/
structure TriedRel (P : G → G' → Prop) (a : Tried G Off) (b : Tried G' Off) : Prop where
  nhnfs : b.nhnfs = a.nhnfs
  best : Option.Rel (SelRel P) a.best b.best

variable {P : G → G' → Prop}

theorem append_rel {α β : Type} {R : α → β → Prop} {l : List α} {l' : List β} (h : List.Forall₂ R l l') {a : α} {b : β}
    (hab : R a b) : List.Forall₂ R (l ++ [a]) (l' ++ [b]) :=
  List.rel_append h (.cons hab .nil)

theorem push1_rel {s : Grids G} {s' : Grids G'} (h : GridsRel P s s') {x : G × Mat3} {y : G' × Mat3}
    (hx : ItemRel P x y) : ExRel (GridsRel P) (s.push1 x) (s'.push1 y) := by
  unfold Grids.push1
  rw [← h.list1.length_eq, h.size]
  split
  · exact ⟨h.rmin1, h.rmin2, append_rel h.list1 hx, h.list2, rfl⟩
  · exact rfl

theorem push2_rel {s : Grids G} {s' : Grids G'} (h : GridsRel P s s') {x : G × Mat3} {y : G' × Mat3}
    (hx : ItemRel P x y) : ExRel (GridsRel P) (s.push2 x) (s'.push2 y) := by
  unfold Grids.push2
  rw [← h.list2.length_eq, h.size]
  split
  · exact ⟨h.rmin1, h.rmin2, h.list1, append_rel h.list2 hx, rfl⟩
  · exact rfl

theorem resize_rel {s : Grids G} {s' : Grids G'} (h : GridsRel P s s') (m : ℕ) :
    ExRel (GridsRel P) (s.resize m) (s'.resize m) := by
  unfold Grids.resize
  rw [← h.list1.length_eq, ← h.list2.length_eq]
  split
  · exact ⟨h.rmin1, h.rmin2, h.list1, h.list2, rfl⟩
  · exact rfl

theorem compareGrids_rel {equal : ℚ → ℚ → Bool} {eps : ℚ} {geom : Mat3 → Geom G} {geom' : Mat3 → Geom G'} {H : Mat3}
    (hg : GeomRel P (geom H) (geom' H)) {s : Grids G} {s' : Grids G'} (h : GridsRel P s s') :
    ExRel (GridsRel P) (compareGrids equal eps geom s H) (compareGrids equal eps geom' s' H) := by
  have hi : ItemRel P ((geom H).grid, H) ((geom' H).grid, H) := ⟨hg.grid, rfl⟩
  unfold compareGrids
  dsimp only
  rw [hg.packed, hg.rmin, h.rmin1, h.rmin2, h.size, ← h.list1.length_eq, ← h.list2.length_eq]
  split
  · split
    · exact push1_rel (P := P) ⟨rfl, rfl, .nil, h.list1, rfl⟩ hi
    · split
      · exact push2_rel (P := P) (s := ⟨s.rmin1, (geom H).rmin, s.list1, [], s.size⟩)
          (s' := ⟨s.rmin1, (geom H).rmin, s'.list1, [], s.size⟩) ⟨rfl, rfl, h.list1, .nil, rfl⟩ hi
      · split
        · have hm : ExRel (GridsRel P)
              (if s.size = s.list1.length then s.resize (2 * s.list1.length) else Except.ok s)
              (if s.size = s.list1.length then s'.resize (2 * s.list1.length) else Except.ok s') := by
            split
            · exact resize_rel h _
            · exact h
          revert hm
          generalize (if s.size = s.list1.length then s.resize (2 * s.list1.length) else Except.ok s) = u
          generalize (if s.size = s.list1.length then s'.resize (2 * s.list1.length) else Except.ok s') = v
          intro hm
          cases u <;> cases v
          · exact hm
          · exact hm.elim
          · exact hm.elim
          · exact push1_rel hm hi
        · split
          · have hm : ExRel (GridsRel P)
                (if s.size = s.list2.length then s.resize (2 * s.list2.length) else Except.ok s)
                (if s.size = s.list2.length then s'.resize (2 * s.list2.length) else Except.ok s') := by
              split
              · exact resize_rel h _
              · exact h
            revert hm
            generalize (if s.size = s.list2.length then s.resize (2 * s.list2.length) else Except.ok s) = u
            generalize (if s.size = s.list2.length then s'.resize (2 * s.list2.length) else Except.ok s') = v
            intro hm
            cases u <;> cases v
            · exact hm
            · exact hm.elim
            · exact hm.elim
            · exact push2_rel hm hi
          · exact h
  · exact h

theorem compareAll_rel {equal : ℚ → ℚ → Bool} {eps : ℚ} {geom : Mat3 → Geom G} {geom' : Mat3 → Geom G'}
    {Hs : List Mat3} (hg : ∀ H ∈ Hs, GeomRel P (geom H) (geom' H)) {s : Option (Grids G)} {s' : Option (Grids G')}
    (h : Option.Rel (GridsRel P) s s') :
    ExRel (Option.Rel (GridsRel P)) (compareAll equal eps geom s Hs) (compareAll equal eps geom' s' Hs) := by
  induction Hs generalizing s s' with
  | nil => exact h
  | cons H Hs ih =>
    unfold compareAll
    have h0 : GridsRel P (s.getD ⟨0, 0, [], [], 10⟩) (s'.getD ⟨0, 0, [], [], 10⟩) := by
      cases h with
      | none => exact ⟨rfl, rfl, .nil, .nil, rfl⟩
      | some h => exact h
    have hm := compareGrids_rel (equal := equal) (eps := eps) (hg H (List.mem_cons_self ..)) h0
    generalize compareGrids equal eps geom _ H = u at hm
    generalize compareGrids equal eps geom' _ H = v at hm
    cases u <;> cases v
    · exact hm
    · exact hm.elim
    · exact hm.elim
    · exact ih (fun H' hH' => hg H' (List.mem_cons_of_mem _ hH')) (.some hm)

theorem gridLoop_rel {irr : G → Off → Option ℕ} {irr' : G' → Off → Option ℕ} {offsets : List Off}
    (hirr : ∀ g g', P g g' → ∀ o ∈ offsets, irr' g' o = irr g o) (base : ℕ) {l : List (G × Mat3)} {l' : List (G' × Mat3)}
    (h : List.Forall₂ (ItemRel P) l l') (s : SelState Off) (i : ℕ) :
    gridLoop irr' offsets base s i l' = gridLoop irr offsets base s i l := by
  induction h generalizing s i with
  | nil => rfl
  | @cons x y _ _ hx _ ih =>
    have key : ∀ (os : List Off) (s : SelState Off), (∀ o ∈ os, o ∈ offsets) → ∀ rd wr,
        offsetLoop (irr' y.1) rd wr s os = offsetLoop (irr x.1) rd wr s os := by
      intro os
      induction os with
      | nil => intro s _ rd wr; rfl
      | cons o os ih =>
        intro s hos rd wr
        rw [offsetLoop, offsetLoop, offsetStep, offsetStep, hirr _ _ hx.1 o (hos o (List.mem_cons_self ..))]
        exact ih _ (fun o' ho' => hos o' (List.mem_cons_of_mem _ ho')) rd wr
    rw [gridLoop, gridLoop, key _ _ (fun o ho => ho), ih]

theorem getElem?_rel {α β : Type} {R : α → β → Prop} {l : List α} {l' : List β} (h : List.Forall₂ R l l') (i : ℕ) :
    Option.Rel R l[i]? l'[i]? := by
  induction h generalizing i with
  | nil => simp
  | cons hx _ ih =>
    cases i with
    | zero => simpa using Option.Rel.some hx
    | succ i => simpa using ih i

theorem gridSelection_rel {irr irrD : G → Off → Option ℕ} {irr' irrD' : G' → Off → Option ℕ} {offsets : List Off}
    (hirr : ∀ g g', P g g' → ∀ o ∈ offsets, irr' g' o = irr g o)
    (hirrD : ∀ g g', P g g' → ∀ o ∈ offsets, irrD' g' o = irrD g o)
    {l1 l2 : List (G × Mat3)} {l1' l2' : List (G' × Mat3)}
    (h1 : List.Forall₂ (ItemRel P) l1 l1') (h2 : List.Forall₂ (ItemRel P) l2 l2') :
    ExRel (Option.Rel (SelRel P)) (gridSelection irr irrD l1 l2 offsets) (gridSelection irr' irrD' l1' l2' offsets) := by
  unfold gridSelection
  dsimp only
  rw [gridLoop_rel hirr 0 h1, ← h1.length_eq, ← h2.length_eq, gridLoop_rel hirrD _ h2]
  split
  · have hr : ∀ p, Option.Rel (ItemRel P) (if p ≤ l1.length then l1[p - 1]? else l2[p - l1.length - 1]?)
        (if p ≤ l1.length then l1'[p - 1]? else l2'[p - l1.length - 1]?) := by
      intro p
      split
      · exact getElem?_rel h1 _
      · exact getElem?_rel h2 _
    generalize minloc _ _ = p
    have hr := hr p
    generalize (if p ≤ l1.length then l1[p - 1]? else l2[p - l1.length - 1]?) = a at hr
    generalize (if p ≤ l1.length then l1'[p - 1]? else l2'[p - l1.length - 1]?) = b at hr
    cases hr with
    | none => exact rfl
    | some hx =>
      dsimp only
      split
      · exact rfl
      · exact .some ⟨hx.1, hx.2, rfl, rfl⟩
  · exact .none

theorem tryHNFs_rel {equal : ℚ → ℚ → Bool} {eps : ℚ} {geom : Mat3 → Geom G} {geom' : Mat3 → Geom G'}
    {irr irrD : G → Off → Option ℕ} {irr' irrD' : G' → Off → Option ℕ} {offsets : List Off}
    (hirr : ∀ g g', P g g' → ∀ o ∈ offsets, irr' g' o = irr g o)
    (hirrD : ∀ g g', P g g' → ∀ o ∈ offsets, irrD' g' o = irrD g o)
    {Hs : List Mat3} (hg : ∀ H ∈ Hs, GeomRel P (geom H) (geom' H)) :
    ExRel (TriedRel P) (tryHNFs equal eps geom irr irrD offsets Hs) (tryHNFs equal eps geom' irr' irrD' offsets Hs) := by
  unfold tryHNFs
  have h := compareAll_rel (equal := equal) (eps := eps) hg (Option.Rel.none (r := GridsRel P))
  generalize compareAll equal eps geom none Hs = x at h
  generalize compareAll equal eps geom' none Hs = y at h
  cases x with
  | error e =>
    cases y with
    | error e' => exact h
    | ok b => exact h.elim
  | ok a =>
    cases y with
    | error e' => exact h.elim
    | ok b =>
      cases (show Option.Rel (GridsRel P) a b from h) with
      | none => exact rfl
      | some hs =>
        dsimp only
        rw [← hs.list1.length_eq, ← hs.list2.length_eq]
        split
        · have hsel := gridSelection_rel hirr hirrD hs.list1 hs.list2
          generalize gridSelection irr irrD _ _ offsets = u at hsel
          generalize gridSelection irr' irrD' _ _ offsets = v at hsel
          cases u <;> cases v
          · exact hsel
          · exact hsel.elim
          · exact hsel.elim
          · exact ⟨rfl, hsel⟩
        · exact ⟨rfl, .none⟩

theorem tryCubic_rel {gridOf : Mat3 → G} {gridOf' : Mat3 → G'}
    {irr irrD : G → Off → Option ℕ} {irr' irrD' : G' → Off → Option ℕ} {offsets : List Off}
    (hirr : ∀ g g', P g g' → ∀ o ∈ offsets, irr' g' o = irr g o)
    (hirrD : ∀ g g', P g g' → ∀ o ∈ offsets, irrD' g' o = irrD g o)
    {Hs : List Mat3} (hg : ∀ H ∈ Hs, P (gridOf H) (gridOf' H)) :
    ExRel (TriedRel P) (tryCubic gridOf irr irrD offsets Hs) (tryCubic gridOf' irr' irrD' offsets Hs) := by
  unfold tryCubic
  cases Hs with
  | nil => exact rfl
  | cons H Hs =>
    dsimp only
    have hsel := gridSelection_rel hirr hirrD
      (l1 := [(gridOf H, H)]) (l1' := [(gridOf' H, H)]) (.cons ⟨hg H (List.mem_cons_self ..), rfl⟩ .nil)
      (.nil : List.Forall₂ (ItemRel P) [] [])
    generalize gridSelection irr irrD _ _ offsets = u at hsel
    generalize gridSelection irr' irrD' _ _ offsets = v at hsel
    cases u <;> cases v
    · exact hsel
    · exact hsel.elim
    · exact hsel.elim
    · exact ⟨rfl, hsel⟩

theorem generalLoop_rel {tryN : ℤ → Except GridErr (Tried G Off)} {tryN' : ℤ → Except GridErr (Tried G' Off)}
    (s_range : ℕ) (kpd : ℤ) (fuel : ℕ) (a_kpd : ℤ) (h : ∀ n, a_kpd ≤ n → n < a_kpd + fuel → ExRel (TriedRel P) (tryN n) (tryN' n))
    {found : List (Entry G Off)} {found' : List (Entry G' Off)} (hf : List.Forall₂ (EntryRel P) found found') :
    ExRel (List.Forall₂ (EntryRel P)) (generalLoop tryN s_range kpd fuel a_kpd found)
      (generalLoop tryN' s_range kpd fuel a_kpd found') := by
  induction fuel generalizing a_kpd found found' with
  | zero => exact rfl
  | succ fuel ih =>
    unfold generalLoop
    rw [← hf.length_eq]
    have ih' := fun {found : List (Entry G Off)} {found' : List (Entry G' Off)}
        (hf : List.Forall₂ (EntryRel P) found found') =>
      ih (a_kpd + 1) (fun n h1 h2 => h n (by omega) (by push_cast; omega)) hf
    split
    · have ht := h a_kpd le_rfl (by push_cast; omega)
      generalize tryN a_kpd = u at ht
      generalize tryN' a_kpd = v at ht
      cases u with
      | error e =>
        cases v with
        | error e' => exact ht
        | ok b => exact ht.elim
      | ok t =>
        cases v with
        | error e' => exact ht.elim
        | ok t' =>
          have ht : TriedRel P t t' := ht
          obtain ⟨n, b⟩ := t
          obtain ⟨n', b'⟩ := t'
          obtain ⟨h1, h2⟩ := ht
          dsimp only at h1 h2 ⊢
          subst h1
          cases h2 with
          | none => exact ih' hf
          | some hb =>
            dsimp only
            split
            · split
              · exact ih' (append_rel hf ⟨hb, rfl⟩)
              · exact rfl
            · exact ih' hf
    · exact hf

theorem cubicLoop_rel {tryN : ℤ → Except GridErr (Tried G Off)} {tryN' : ℤ → Except GridErr (Tried G' Off)}
    (ns : List ℤ) (h : ∀ n ∈ ns, ExRel (TriedRel P) (tryN n) (tryN' n)) (i : ℕ)
    {arr : List (Option (Entry G Off))} {arr' : List (Option (Entry G' Off))}
    (ha : List.Forall₂ (Option.Rel (EntryRel P)) arr arr') (count : ℕ) :
    ExRel (fun x y => List.Forall₂ (Option.Rel (EntryRel P)) x.1 y.1 ∧ y.2 = x.2) (cubicLoop tryN ns i arr count)
      (cubicLoop tryN' ns i arr' count) := by
  induction ns generalizing i arr arr' count with
  | nil => exact ⟨ha, rfl⟩
  | cons n ns ih =>
    unfold cubicLoop
    have ih' := fun (i : ℕ) {arr : List (Option (Entry G Off))} {arr' : List (Option (Entry G' Off))}
        (ha : List.Forall₂ (Option.Rel (EntryRel P)) arr arr') (count : ℕ) =>
      ih (fun m hm => h m (List.mem_cons_of_mem _ hm)) i ha count
    split
    · have ht := h n (List.mem_cons_self ..)
      generalize tryN n = u at ht
      generalize tryN' n = v at ht
      cases u with
      | error e =>
        cases v with
        | error e' => exact ht
        | ok b => exact ht.elim
      | ok t =>
        cases v with
        | error e' => exact ht.elim
        | ok t' =>
          have ht : TriedRel P t t' := ht
          obtain ⟨m, b⟩ := t
          obtain ⟨m', b'⟩ := t'
          obtain ⟨h1, h2⟩ := ht
          dsimp only at h1 h2 ⊢
          subst h1
          cases h2 with
          | none => exact ih' _ ha _
          | some hb =>
            dsimp only
            split
            · refine ih' _ ?_ _
              have key : ∀ {l : List (Option (Entry G Off))} {l' : List (Option (Entry G' Off))},
                  List.Forall₂ (Option.Rel (EntryRel P)) l l' → ∀ (j : ℕ) {x y}, Option.Rel (EntryRel P) x y →
                    List.Forall₂ (Option.Rel (EntryRel P)) (l.set j x) (l'.set j y) := by
                intro l l' hl
                induction hl with
                | nil => intro j x y _; simp
                | cons hx hl ih =>
                  intro j x y hxy
                  cases j with
                  | zero => exact .cons hxy hl
                  | succ j => exact .cons hx (ih j hxy)
              exact key ha _ (.some ⟨hb, rfl⟩)
            · exact rfl
    · exact ⟨ha, rfl⟩

theorem minFirst_rel {α β : Type} {R : α → β → Prop} {f : α → ℚ} {g : β → ℚ} (hfg : ∀ a b, R a b → g b = f a)
    {l : List α} {l' : List β} (h : List.Forall₂ R l l') : Option.Rel R (minFirst f l) (minFirst g l') := by
  induction h with
  | nil => exact .none
  | cons hx _ ih =>
    unfold minFirst
    generalize minFirst f _ = u at ih
    generalize minFirst g _ = v at ih
    cases ih with
    | none => exact .some hx
    | some hy =>
      dsimp only
      rw [hfg _ _ hx, hfg _ _ hy]
      split
      · exact .some hy
      · exact .some hx

theorem filter_rel {α β : Type} {R : α → β → Prop} {f : α → Bool} {g : β → Bool} (hfg : ∀ a b, R a b → g b = f a)
    {l : List α} {l' : List β} (h : List.Forall₂ R l l') : List.Forall₂ R (l.filter f) (l'.filter g) := by
  induction h with
  | nil => exact .nil
  | cons hx _ ih =>
    rw [List.filter_cons, List.filter_cons, hfg _ _ hx]
    split
    · exact .cons hx ih
    · exact ih

theorem ratio_rel (a : Entry G Off) (b : Entry G' Off) (h : EntryRel P a b) : ratio b = ratio a := by
  rw [ratio, ratio, h.sel.n_irr, h.nt_kpts]

theorem choose_rel (min_kpts : Bool) (kpd : ℤ) {found : List (Entry G Off)} {found' : List (Entry G' Off)}
    (hf : List.Forall₂ (EntryRel P) found found') :
    ExRel (EntryRel P) (choose min_kpts kpd found) (choose min_kpts kpd found') := by
  unfold choose
  rw [← hf.length_eq]
  split
  · split
    · have hm := minFirst_rel ratio_rel hf
      generalize minFirst ratio _ = u at hm
      generalize minFirst ratio _ = v at hm
      cases hm with
      | none => exact rfl
      | some h => exact h
    · have hm := minFirst_rel (R := EntryRel P) (f := fun e => (e.sel.n_irr : ℚ)) (g := fun e => (e.sel.n_irr : ℚ))
        (fun a b h => by rw [h.sel.n_irr])
        (filter_rel (f := fun e => decide (0 < e.sel.n_irr)) (g := fun e => decide (0 < e.sel.n_irr))
          (fun a b h => by rw [h.sel.n_irr]) hf)
      generalize minFirst _ _ = u at hm ⊢
      generalize minFirst _ _ = v at hm ⊢
      cases hm with
      | none => exact rfl
      | some h => exact h
  · exact rfl

theorem filterMap_rel {α β : Type} {R : α → β → Prop} {l : List (Option α)} {l' : List (Option β)}
    (h : List.Forall₂ (Option.Rel R) l l') : List.Forall₂ R (l.filterMap id) (l'.filterMap id) := by
  induction h with
  | nil => exact .nil
  | cons hx _ ih =>
    cases hx with
    | none => simpa using ih
    | some hx => simpa using ⟨hx, ih⟩

theorem all_isSome_rel {α β : Type} {R : α → β → Prop} {l : List (Option α)} {l' : List (Option β)}
    (h : List.Forall₂ (Option.Rel R) l l') : l'.all Option.isSome = l.all Option.isSome := by
  induction h with
  | nil => rfl
  | cons hx _ ih =>
    rw [List.all_cons, List.all_cons, ih]
    cases hx <;> rfl

theorem chooseCubic_rel (min_kpts : Bool) (kpd : ℤ) {arr : List (Option (Entry G Off))}
    {arr' : List (Option (Entry G' Off))} (ha : List.Forall₂ (Option.Rel (EntryRel P)) arr arr') (count : ℕ) :
    ExRel (EntryRel P) (chooseCubic min_kpts kpd arr count) (chooseCubic min_kpts kpd arr' count) := by
  have ht : List.Forall₂ (Option.Rel (EntryRel P)) (arr.take count) (arr'.take count) := List.forall₂_take _ ha
  unfold chooseCubic
  rw [all_isSome_rel ht]
  split
  · split
    · split
      · have hm := minFirst_rel ratio_rel (filterMap_rel ht)
        generalize minFirst ratio _ = u at hm
        generalize minFirst ratio _ = v at hm
        cases hm with
        | none => exact rfl
        | some h => exact h
      · have hm := minFirst_rel (R := EntryRel P) (f := fun e => (e.sel.n_irr : ℚ)) (g := fun e => (e.sel.n_irr : ℚ))
          (fun a b h => by rw [h.sel.n_irr])
          (filter_rel (f := fun e => decide (0 < e.sel.n_irr)) (g := fun e => decide (0 < e.sel.n_irr))
            (fun a b h => by rw [h.sel.n_irr]) (filterMap_rel ha))
        generalize minFirst _ _ = u at hm ⊢
        generalize minFirst _ _ = v at hm ⊢
        cases hm with
        | none => exact rfl
        | some h => exact h
    · exact rfl
  · exact rfl

/-- The two searches, for the lattices that are not triclinic. -/
theorem findGrid_rel {lib : Lib G Off} {lib' : Lib G' Off} (hequal : lib'.equal = lib.equal) {offsets : List Off}
    (hirr : ∀ g g', P g g' → ∀ o ∈ offsets, lib'.irr g' o = lib.irr g o)
    (hirrD : ∀ g g', P g g' → ∀ o ∈ offsets, lib'.irrDefault g' o = lib.irrDefault g o)
    (w : ℤ → ℤ) (eps : ℚ) (min_kpts : Bool) (root : ℤ) (fuel lat_id s_range : ℕ) (kpd : ℤ)
    (hk : lat_id ∉ [31, 44])
    (hcub : lat_id ∈ [1, 3, 5] → ∀ n ∈ get_kpd_cubic lat_id root kpd, ∀ H ∈ (if lat_id = 3 then sc_3 n else if lat_id = 5 then bcc_5 w n else fcc_1 n),
      P (lib.gridOf H) (lib'.gridOf H))
    (hgen : lat_id ∉ [1, 3, 5] → ∀ gen, generatorOf w lat_id = some gen → ∀ n, kpd ≤ n → n < kpd + fuel → ∀ H ∈ gen n,
      GeomRel P (lib.geom H) (lib'.geom H)) :
    ExRel (EntryRel P) (findGrid lib w eps offsets min_kpts root fuel lat_id s_range kpd)
      (findGrid lib' w eps offsets min_kpts root fuel lat_id s_range kpd) := by
  simp only [List.mem_cons, List.not_mem_nil, or_false, not_or] at hk
  unfold findGrid
  rw [hequal]
  split
  · rename_i hc
    have hc' : lat_id ∈ [1, 3, 5] := by simp; omega
    dsimp only
    have hl := cubicLoop_rel (P := P) (Off := Off)
      (tryN := fun n => tryCubic lib.gridOf lib.irr lib.irrDefault offsets
        ((if lat_id = 3 then sc_3 else if lat_id = 5 then bcc_5 w else fcc_1) n))
      (tryN' := fun n => tryCubic lib'.gridOf lib'.irr lib'.irrDefault offsets
        ((if lat_id = 3 then sc_3 else if lat_id = 5 then bcc_5 w else fcc_1) n))
      (get_kpd_cubic lat_id root kpd) (fun n hn => tryCubic_rel hirr hirrD fun H hH => hcub hc' n hn H (by
        split_ifs at hH ⊢ <;> exact hH)) 1 (arr := List.replicate 5 none) (arr' := List.replicate 5 none)
      (by simp only [List.replicate]; exact .cons .none (.cons .none (.cons .none (.cons .none (.cons .none .nil))))) 0
    generalize cubicLoop (fun n => tryCubic lib.gridOf _ _ _ _) _ _ _ _ = u at hl ⊢
    generalize cubicLoop (fun n => tryCubic lib'.gridOf _ _ _ _) _ _ _ _ = v at hl ⊢
    cases u <;> cases v
    · exact hl
    · exact hl.elim
    · exact hl.elim
    · rename_i a b
      obtain ⟨a1, a2⟩ := a
      obtain ⟨b1, b2⟩ := b
      obtain ⟨h1, h2⟩ : List.Forall₂ (Option.Rel (EntryRel P)) a1 b1 ∧ b2 = a2 := hl
      subst h2
      exact chooseCubic_rel _ _ h1 _
  · rename_i hc
    have hc' : lat_id ∉ [1, 3, 5] := by simp; omega
    rw [if_neg (by omega), if_neg (by omega)]
    cases hg : generatorOf w lat_id with
    | none => exact rfl
    | some gen =>
      dsimp only
      have hl := generalLoop_rel (P := P)
        (tryN := fun n => tryHNFs lib.equal eps lib.geom lib.irr lib.irrDefault offsets (gen n))
        (tryN' := fun n => tryHNFs lib.equal eps lib'.geom lib'.irr lib'.irrDefault offsets (gen n))
        s_range kpd fuel kpd (fun n h1 h2 => tryHNFs_rel hirr hirrD (hgen hc' gen hg n h1 h2)) .nil
      generalize generalLoop (fun n => tryHNFs _ _ lib.geom _ _ _ _) _ _ _ _ _ = u at hl ⊢
      generalize generalLoop (fun n => tryHNFs _ _ lib'.geom _ _ _ _) _ _ _ _ _ = v at hl ⊢
      cases u <;> cases v
      · exact hl
      · exact hl.elim
      · exact hl.elim
      · exact choose_rel _ _ hl

end AutoGR.Fortran
