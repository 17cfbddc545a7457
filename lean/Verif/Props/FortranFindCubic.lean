import Verif.Props.FortranFind
import Verif.Props.FortranDens

/-!
# C74, C75: the grid `find_grid` returns for a cubic or triclinic lattice
-/

namespace AutoGR.Fortran

open Spec

variable {G Off : Type}

/-- The five smallest of an increasing list. -/
private theorem take5_iff {lo : ℤ} {P : ℤ → Prop} {l : List ℤ} (hlen : l.length = 5)
    (hs : l.Pairwise (· < ·)) (hl : ∀ v ∈ l, lo ≤ v ∧ P v)
    (hall : ∀ v, lo ≤ v → P v → v ∈ l ∨ ∀ u ∈ l, u < v) (v : ℤ) :
    v ∈ l.take 5 ↔ AmongFirst 5 lo P v := by
  have hfin : ∀ x, {u | lo ≤ u ∧ u < x ∧ P u}.Finite := fun x =>
    (Set.finite_Ico lo x).subset fun u hu => ⟨hu.1, hu.2.1⟩
  have hsort : ∀ i j (hi : i < l.length) (hj : j < l.length), i < j → l[i] < l[j] := fun i j hi hj hij =>
    (List.pairwise_iff_getElem.1 hs) i j hi hj hij
  constructor
  · intro hv
    obtain ⟨i, hi, rfl⟩ := List.mem_iff_getElem.1 hv
    have hi' : i < 5 := by rw [List.length_take] at hi; omega
    rw [List.getElem_take]
    have hm := hl l[i] (List.getElem_mem _)
    refine ⟨hm.1, hm.2, ?_⟩
    have hsub : {u | lo ≤ u ∧ u < l[i] ∧ P u} ⊆ ((l.take i).toFinset : Set ℤ) := by
      rintro u ⟨h1, h2, h3⟩
      rcases hall u h1 h3 with h | h
      · obtain ⟨j, hj, rfl⟩ := List.mem_iff_getElem.1 h
        have hji : j < i := by
          by_contra hn
          rcases Nat.lt_or_eq_of_le (not_lt.1 hn) with h | h
          · have := hsort i j (by omega) hj h
            omega
          · subst h
            omega
        simp only [List.coe_toFinset, Set.mem_ofPred_eq]
        exact List.mem_iff_getElem.2 ⟨j, by rw [List.length_take]; omega, List.getElem_take⟩
      · have := h l[i] (List.getElem_mem _)
        omega
    calc _ ≤ ((l.take i).toFinset : Set ℤ).ncard := Set.ncard_le_ncard hsub (Finset.finite_toSet _)
      _ = (l.take i).toFinset.card := Set.ncard_coe_finset _
      _ ≤ (l.take i).length := List.toFinset_card_le _
      _ < 5 := by rw [List.length_take]; omega
  · rintro ⟨h1, h2, h3⟩
    by_contra hv
    have hsub : ((l.take 5).toFinset : Set ℤ) ⊆ {u | lo ≤ u ∧ u < v ∧ P u} := by
      intro u hu
      simp only [List.coe_toFinset, Set.mem_ofPred_eq] at hu
      have hu' := List.mem_of_mem_take hu
      refine ⟨(hl u hu').1, ?_, (hl u hu').2⟩
      rcases hall v h1 h2 with h | h
      · obtain ⟨j, hj, rfl⟩ := List.mem_iff_getElem.1 h
        have hj5 : 5 ≤ j := by
          by_contra hn
          exact hv (List.mem_iff_getElem.2 ⟨j, by rw [List.length_take]; omega, List.getElem_take⟩)
        obtain ⟨i, hi, rfl⟩ := List.mem_iff_getElem.1 hu
        rw [List.length_take] at hi
        rw [List.getElem_take]
        exact hsort i j (by omega) hj (by omega)
      · exact h u hu'
    have hnd : (l.take 5).Nodup := (hs.imp fun h => ne_of_lt h).sublist (List.take_sublist _ _)
    have := Set.ncard_le_ncard hsub (hfin v)
    rw [Set.ncard_coe_finset, List.toFinset_card_of_nodup hnd, List.length_take] at this
    omega

private theorem cubicLoop_five (tryN : ℤ → Except GridErr (Tried G Off)) (l : List ℤ) (hlen : (l.take 5).length = 5)
    (h : ∀ v ∈ l.take 5, ∃ b, tryN v = .ok ⟨1, some b⟩) :
    ∃ f : List (Entry G Off), cubicLoop tryN l 1 (List.replicate 5 none) 0 = .ok (f.map some, 5) ∧
      f.length = 5 ∧ (∀ e ∈ f, e.nt_kpts ∈ l.take 5 ∧ tryN e.nt_kpts = .ok ⟨1, some e.sel⟩) ∧
      ∀ v ∈ l.take 5, ∃ e ∈ f, e.nt_kpts = v := by
  match l, hlen with
  | v1 :: v2 :: v3 :: v4 :: v5 :: rest, _ =>
    obtain ⟨b1, h1⟩ := h v1 (by simp)
    obtain ⟨b2, h2⟩ := h v2 (by simp)
    obtain ⟨b3, h3⟩ := h v3 (by simp)
    obtain ⟨b4, h4⟩ := h v4 (by simp)
    obtain ⟨b5, h5⟩ := h v5 (by simp)
    refine ⟨[⟨b1, v1⟩, ⟨b2, v2⟩, ⟨b3, v3⟩, ⟨b4, v4⟩, ⟨b5, v5⟩], ?_, rfl, ?_, ?_⟩
    · cases rest <;> simp [cubicLoop, h1, h2, h3, h4, h5]
    · simp [h1, h2, h3, h4, h5]
    · simp

theorem bcc5Loop_big {w : ℤ → ℤ} (hw : Int32 w) (l : List (ℤ × ℤ × ℤ))
    (hl : ∀ x ∈ l, 0 < x.1 ∧ x.1 ≤ 700000000) : bcc5Loop w l = bcc5Loop id l := by
  induction l with
  | nil => rfl
  | cons x l ih =>
    obtain ⟨a, c, f⟩ := x
    have ha : 0 < a ∧ a ≤ 700000000 := hl (a, c, f) (by simp)
    have ih := ih fun x hx => hl x (by simp [hx])
    have h3 : imul w 3 a = imul id 3 a := by
      unfold imul
      rw [hw.exact _ (by omega) (by omega)]
      rfl
    unfold bcc5Loop
    rw [h3, ih]

/-- The cubic generators give at most one matrix. -/
private theorem cubic_list (w : ℤ → ℤ) (hw : w = id ∨ Int32 w) (k : ℕ) (hk : k ∈ [1, 3, 5]) (Co : IMat)
    (hCo : reducedCanonical ℚ k = .ok Co) (v : ℤ) (hv : v ≤ 700000000)
    (hex : ∃ H, H ∈ SymmetricHNFs (ClassSym k Co.toMat) v) :
    ∃ H, (if k = 3 then sc_3 else if k = 5 then bcc_5 w else fcc_1) v = [H] ∧
      ∀ H', H' ∈ SymmetricHNFs (ClassSym k Co.toMat) v ↔ H' = H := by
  have fin : ∀ l : List Mat3, l.length ≤ 1 → (∀ H, H ∈ l ↔ H ∈ SymmetricHNFs (ClassSym k Co.toMat) v) →
      ∃ H, l = [H] ∧ ∀ H', H' ∈ SymmetricHNFs (ClassSym k Co.toMat) v ↔ H' = H := by
    intro l hl hm
    obtain ⟨H, hH⟩ := hex
    match l, hl with
    | [], _ => exact absurd ((hm H).2 hH) (by simp)
    | [H0], _ => exact ⟨H0, rfl, fun H' => by rw [← hm]; simp⟩
  have len3 : ∀ l, (sc3Loop l).length ≤ 1 := by
    intro l
    induction l with
    | nil => simp [sc3Loop]
    | cons x l ih =>
      unfold sc3Loop
      split_ifs <;> simp [ih]
  have len5 : ∀ l, (bcc5Loop w l).length ≤ 1 := by
    intro l
    induction l with
    | nil => simp [bcc5Loop]
    | cons x l ih =>
      unfold bcc5Loop
      split_ifs <;> simp [ih]
  have len1 : ∀ l, (fcc1Loop l).length ≤ 1 := by
    intro l
    induction l with
    | nil => simp [fcc1Loop]
    | cons x l ih =>
      unfold fcc1Loop
      split_ifs <;> simp [ih]
  simp only [List.mem_cons, List.not_mem_nil, or_false] at hk
  rcases hk with rfl | rfl | rfl
  · exact fin (fcc_1 v) (len1 _) (fcc_1_correct v Co hCo).2
  · exact fin (sc_3 v) (len3 _) (sc_3_correct v Co hCo).2
  · refine fin (bcc_5 w v) (len5 _) fun H => ?_
    rcases hw with rfl | hw
    · exact (bcc_5_correct v (.inl rfl) Co hCo).2 H
    · have : bcc_5 w v = bcc_5 id v := bcc5Loop_big hw _ fun x hx => by
        obtain ⟨a, c, f⟩ := x
        rw [get_HNF_diagonals_eq] at hx
        obtain ⟨ha, hc, hf, he⟩ := mem_getHNFDiagonals.1 hx
        have hcf : 1 ≤ c * f := Int.mul_pos hc hf
        exact ⟨ha, by nlinarith⟩
      rw [this]
      exact (bcc_5_correct v (.inl rfl) Co hCo).2 H

/-- The densities of `get_kpd_cubic` are moderate. -/
theorem get_kpd_cubic_le (k : ℕ) (kpd root : ℤ) (h1 : 1 ≤ kpd) (hr : 0 ≤ root) (hr' : root ≤ 281) :
    ∀ v ∈ get_kpd_cubic k root kpd, v ≤ 700000000 := by
  obtain ⟨l, hl, he⟩ := get_kpd_cubic_tried k root kpd h1 hr
  rw [he]
  intro v hv
  unfold padded at hv
  rcases List.mem_append.1 hv with hv | hv
  · obtain ⟨R, hR, -⟩ := hl.rest
    obtain ⟨-, m, hm, j, hj, -, hj', rfl⟩ := (mem_tried h1).1 (hR.subset (List.mem_append_left _ hv))
    have hj3 : j ^ 3 ≤ 116 ^ 3 := pow_le_pow_left₀ (by omega) (by omega) 3
    have := mults_pos k m hm
    nlinarith [pow_pos (show 0 < j by omega) 3]
  · have := List.eq_of_mem_replicate hv
    omega

/-- The cubic branch of `find_grid` if the first five densities have symmetric supercells: the answer is one of these five, and
none of them is preferable. -/
theorem findGrid_cubic_of (lib : Lib G Off) (hirr : ∀ g o m, lib.irr g o = some m → 1 ≤ m) (w : ℤ → ℤ)
    (hw : w = id ∨ Int32 w) (eps : ℚ) (offsets : List Off) (min_kpts : Bool) (fuel : ℕ) (k : ℕ) (hk : k ∈ [1, 3, 5])
    (Co : IMat) (hCo : reducedCanonical ℚ k = .ok Co)
    (htot : ∀ v, 1 ≤ v → ∀ H ∈ SymmetricHNFs (ClassSym k Co.toMat) v, ∃ o ∈ offsets, lib.irr (lib.gridOf H) o ≠ none)
    (s_range : ℕ) (kpd root : ℤ) (h1 : 1 ≤ kpd) (hr : 0 ≤ root) (hr' : root ≤ 281)
    (l1 : ((get_kpd_cubic k root kpd).take 5).length = 5)
    (l3 : ∀ v ∈ (get_kpd_cubic k root kpd).take 5, kpd ≤ v ∧ ∃ H, H ∈ SymmetricHNFs (ClassSym k Co.toMat) v) :
    ∃ e, findGrid lib w eps offsets min_kpts root fuel k s_range kpd = .ok e ∧
      e.nt_kpts ∈ (get_kpd_cubic k root kpd).take 5 ∧ e.sel.HNF ∈ SymmetricHNFs (ClassSym k Co.toMat) e.nt_kpts ∧
      e.sel.grid = lib.gridOf e.sel.HNF ∧ e.sel.offset ∈ offsets ∧
      lib.irr e.sel.grid e.sel.offset = some e.sel.n_irr ∧
      ∀ v ∈ (get_kpd_cubic k root kpd).take 5,
        ∀ H ∈ SymmetricHNFs (ClassSym k Co.toMat) v, ∀ o ∈ offsets, ∀ m, lib.irr (lib.gridOf H) o = some m →
          Preferred min_kpts kpd e.sel.n_irr e.nt_kpts m v := by
  have hbound := get_kpd_cubic_le k kpd root h1 hr hr'
  have hfg : findGrid lib w eps offsets min_kpts root fuel k s_range kpd =
      match cubicLoop (fun n => tryCubic lib.gridOf lib.irr lib.irrDefault offsets
          ((if k = 3 then sc_3 else if k = 5 then bcc_5 w else fcc_1) n))
        (get_kpd_cubic k root kpd) 1 (List.replicate 5 none) 0 with
      | .error e => .error e
      | .ok (arr, count) => chooseCubic min_kpts kpd arr count := by
    unfold findGrid
    simp only [List.mem_cons, List.not_mem_nil, or_false] at hk
    rw [if_pos (by omega)]
    rfl
  generalize get_kpd_cubic k root kpd = l at *
  generalize hgen : (if k = 3 then sc_3 else if k = 5 then bcc_5 w else fcc_1) = gen at *
  -- one density
  have hone : ∀ v ∈ l.take 5, ∃ b : Selected G Off,
      tryCubic lib.gridOf lib.irr lib.irrDefault offsets (gen v) = .ok ⟨1, some b⟩ ∧
      b.HNF ∈ SymmetricHNFs (ClassSym k Co.toMat) v ∧ b.grid = lib.gridOf b.HNF ∧ b.offset ∈ offsets ∧
      lib.irr b.grid b.offset = some b.n_irr ∧
      ∀ H ∈ SymmetricHNFs (ClassSym k Co.toMat) v, ∀ o ∈ offsets, ∀ m, lib.irr (lib.gridOf H) o = some m →
        b.n_irr ≤ m := by
    intro v hv
    obtain ⟨H, e1, e2⟩ := cubic_list w hw k hk Co hCo v (hbound v (List.mem_of_mem_take hv)) (l3 v hv).2
    rw [hgen] at e1
    obtain ⟨o, ho, hto⟩ := htot v (h1.trans (l3 v hv).1) H ((e2 H).2 rfl)
    obtain ⟨b, c1, c2, c3, c4, c5⟩ := gridSelection_one_list lib.irr lib.irrDefault hirr [(lib.gridOf H, H)]
      offsets ⟨(lib.gridOf H, H), by simp, o, ho, hto⟩
    obtain ⟨d1, d2⟩ := Prod.mk.inj (List.mem_singleton.1 c2)
    refine ⟨b, ?_, by rw [e2, d2], by rw [d1, d2], c3, c4, ?_⟩
    · rw [e1]
      simp only [tryCubic, c1]
    · intro H' hH' o ho m hm
      rw [(e2 H').1 hH'] at hm
      exact c5 (lib.gridOf H, H) (by simp) o ho m hm
  obtain ⟨f, f1, f2, f3, f4⟩ := cubicLoop_five (fun n => tryCubic lib.gridOf lib.irr lib.irrDefault offsets
    (gen n)) l l1 fun v hv => by
      obtain ⟨b, hb, -⟩ := hone v hv
      exact ⟨b, hb⟩
  rw [hfg, f1]
  dsimp only
  have hch : chooseCubic min_kpts kpd (f.map some) 5 = choose min_kpts kpd f := by
    unfold chooseCubic choose
    have ht : (f.map some).take 5 = f.map some := List.take_of_length_le (by simp [f2])
    have hi : (f.map some).filterMap id = f := by simp
    rw [ht, hi]
    simp [f2]
  have hf : ∀ e ∈ f, e.nt_kpts ∈ l.take 5 ∧
      e.sel.HNF ∈ SymmetricHNFs (ClassSym k Co.toMat) e.nt_kpts ∧ e.sel.grid = lib.gridOf e.sel.HNF ∧
      e.sel.offset ∈ offsets ∧ lib.irr e.sel.grid e.sel.offset = some e.sel.n_irr ∧
      ∀ H ∈ SymmetricHNFs (ClassSym k Co.toMat) e.nt_kpts, ∀ o ∈ offsets, ∀ m,
        lib.irr (lib.gridOf H) o = some m → e.sel.n_irr ≤ m := by
    intro e he
    obtain ⟨g1, g2⟩ := f3 e he
    obtain ⟨b, hb, hb'⟩ := hone e.nt_kpts g1
    rw [hb] at g2
    cases g2
    exact ⟨g1, hb'⟩
  obtain ⟨e, c1, c2, c3⟩ := choose_spec min_kpts kpd h1 f (List.ne_nil_of_length_pos (by omega)) fun e he =>
    ⟨hirr _ _ _ (hf e he).2.2.2.2.1, (l3 _ (hf e he).1).1⟩
  obtain ⟨g1, g2, g3, g4, g5, -⟩ := hf e c2
  refine ⟨e, by rw [hch, c1], g1, g2, g3, g4, g5, ?_⟩
  intro v hv H hH o ho m hm
  obtain ⟨e', he', rfl⟩ := f4 v hv
  have hle := (hf e' he').2.2.2.2.2 H hH o ho m hm
  have := c3 e' he'
  have hpos : 1 ≤ e.nt_kpts := h1.trans (l3 _ g1).1
  unfold Preferred at this ⊢
  split_ifs at this ⊢
  · have : (e'.sel.n_irr : ℤ) * e.nt_kpts ≤ m * e.nt_kpts :=
      mul_le_mul_of_nonneg_right (by exact_mod_cast hle) (by omega)
    omega
  · omega

/-- C74: for a cubic lattice, up to density 1092727 (face centred) or 1098500 (simple and body centred), if the
library counts the k-points of every symmetric grid with one of the offsets at least, `find_grid` ends and returns a grid whose
number of points is one of the five smallest that have a symmetric supercell and are not below the requested density; the
supercell has all symmetries of the class, and no supercell, offset and number of points among those five is preferable by
the program's rule.

Missing: larger densities, and grids for which the library reports an error for every offset, where it fails, see
`findGrid_cubic_large` and `findGrid_cubic_bounds`. -/
theorem findGrid_cubic_counted_partial (lib : Lib G Off) (hirr : ∀ g o m, lib.irr g o = some m → 1 ≤ m) (w : ℤ → ℤ)
    (hw : w = id ∨ Int32 w) (eps : ℚ) (offsets : List Off) (min_kpts : Bool) (fuel : ℕ) (k : ℕ) (hk : k ∈ [1, 3, 5])
    (Co : IMat) (hCo : reducedCanonical ℚ k = .ok Co)
    (htot : ∀ v, 1 ≤ v → ∀ H ∈ SymmetricHNFs (ClassSym k Co.toMat) v, ∃ o ∈ offsets, lib.irr (lib.gridOf H) o ≠ none)
    (s_range : ℕ) (kpd root : ℤ) (h1 : 1 ≤ kpd)
    (hkpd : kpd ≤ if k = 1 then 1092727 else 1098500) (hroot : root ^ 3 ≤ kpd ∧ kpd < (root + 2) ^ 3)
    (hr : 0 ≤ root) :
    ∃ e, findGrid lib w eps offsets min_kpts root fuel k s_range kpd = .ok e ∧
      AmongFirst 5 kpd (fun v => ∃ H, H ∈ SymmetricHNFs (ClassSym k Co.toMat) v) e.nt_kpts ∧
      e.sel.HNF ∈ SymmetricHNFs (ClassSym k Co.toMat) e.nt_kpts ∧
      e.sel.grid = lib.gridOf e.sel.HNF ∧ e.sel.offset ∈ offsets ∧
      lib.irr e.sel.grid e.sel.offset = some e.sel.n_irr ∧
      ∀ v, AmongFirst 5 kpd (fun v => ∃ H, H ∈ SymmetricHNFs (ClassSym k Co.toMat) v) v →
        ∀ H ∈ SymmetricHNFs (ClassSym k Co.toMat) v, ∀ o ∈ offsets, ∀ m, lib.irr (lib.gridOf H) o = some m →
          Preferred min_kpts kpd e.sel.n_irr e.nt_kpts m v := by
  obtain ⟨l1, l2, l3, l4⟩ := get_kpd_cubic_five_partial k hk kpd root h1 hkpd hroot Co hCo
  have hr281 : root ≤ 281 := by
    by_contra h
    have : (282 : ℤ) ^ 3 ≤ root ^ 3 := pow_le_pow_left₀ (by norm_num) (by omega) 3
    split_ifs at hkpd <;> omega
  obtain ⟨e, a1, a2, a3, a4, a5, a6, a7⟩ := findGrid_cubic_of lib hirr w hw eps offsets min_kpts fuel k hk Co hCo htot s_range kpd
    root h1 hr hr281 l1 l3
  have hfirst : ∀ v, v ∈ (get_kpd_cubic k root kpd).take 5 ↔
      AmongFirst 5 kpd (fun v => ∃ H, H ∈ SymmetricHNFs (ClassSym k Co.toMat) v) v := fun v => by
    rw [← take5_iff l1 l2 l3 l4 v, List.take_take, min_self]
  exact ⟨e, a1, (hfirst _).1 a2, a3, a4, a5, a6, fun v hv => a7 v ((hfirst v).2 hv)⟩

/-- The cubic branch of `find_grid` up to its limit: it returns a supercell with all symmetries of the class and not fewer points
than requested, nor many more, if the library counts the points of every symmetric grid with one of the offsets at least. -/
theorem findGrid_cubic_answers (lib : Lib G Off) (hirr : ∀ g o m, lib.irr g o = some m → 1 ≤ m) (w : ℤ → ℤ)
    (hw : w = id ∨ Int32 w) (eps : ℚ) (offsets : List Off) (min_kpts : Bool) (fuel : ℕ) (k : ℕ) (hk : k ∈ [1, 3, 5])
    (Co : IMat) (hCo : reducedCanonical ℚ k = .ok Co)
    (htot : ∀ v, 1 ≤ v → ∀ H ∈ SymmetricHNFs (ClassSym k Co.toMat) v, ∃ o ∈ offsets, lib.irr (lib.gridOf H) o ≠ none)
    (s_range : ℕ) (kpd root : ℤ) (h1 : 1 ≤ kpd) (hkpd : kpd ≤ cubicLimit k)
    (hroot : root ^ 3 ≤ kpd ∧ kpd < (root + 2) ^ 3) (hr : 0 ≤ root) :
    ∃ e, findGrid lib w eps offsets min_kpts root fuel k s_range kpd = .ok e ∧ kpd ≤ e.nt_kpts ∧
      (∀ m, 0 ≤ m → kpd ≤ m ^ 3 → e.nt_kpts ≤ (m + if k = 1 then 13 else 8) ^ 3) ∧
      e.sel.HNF ∈ SymmetricHNFs (ClassSym k Co.toMat) e.nt_kpts ∧
      e.sel.grid = lib.gridOf e.sel.HNF ∧ e.sel.offset ∈ offsets ∧
      lib.irr e.sel.grid e.sel.offset = some e.sel.n_irr := by
  obtain ⟨l1, l3⟩ := get_kpd_cubic_enough k hk kpd root h1 hkpd hroot Co hCo
  have hr281 : root ≤ 281 := by
    by_contra h
    have : (282 : ℤ) ^ 3 ≤ root ^ 3 := pow_le_pow_left₀ (by norm_num) (by omega) 3
    unfold cubicLimit at hkpd
    split_ifs at hkpd <;> omega
  obtain ⟨e, a1, a2, a3, a4, a5, a6, -⟩ := findGrid_cubic_of lib hirr w hw eps offsets min_kpts fuel k hk Co hCo htot s_range kpd
    root h1 hr hr281 l1 fun v hv => ⟨(l3 v hv).1, (l3 v hv).2.1⟩
  exact ⟨e, a1, (l3 _ a2).1, (l3 _ a2).2.2, a3, a4, a5, a6⟩

/-- C74 if the library counts the points of every grid. -/
theorem findGrid_cubic_partial (lib : Lib G Off) (hirr : ∀ g o m, lib.irr g o = some m → 1 ≤ m) (w : ℤ → ℤ)
    (hw : w = id ∨ Int32 w) (eps : ℚ) (offsets : List Off) (hoff : offsets ≠ [])
    (htot : ∀ g, ∀ o ∈ offsets, lib.irr g o ≠ none) (min_kpts : Bool) (fuel : ℕ) (k : ℕ) (hk : k ∈ [1, 3, 5])
    (Co : IMat) (hCo : reducedCanonical ℚ k = .ok Co) (s_range : ℕ) (kpd root : ℤ) (h1 : 1 ≤ kpd)
    (hkpd : kpd ≤ if k = 1 then 1092727 else 1098500) (hroot : root ^ 3 ≤ kpd ∧ kpd < (root + 2) ^ 3)
    (hr : 0 ≤ root) :
    ∃ e, findGrid lib w eps offsets min_kpts root fuel k s_range kpd = .ok e ∧
      AmongFirst 5 kpd (fun v => ∃ H, H ∈ SymmetricHNFs (ClassSym k Co.toMat) v) e.nt_kpts ∧
      e.sel.HNF ∈ SymmetricHNFs (ClassSym k Co.toMat) e.nt_kpts ∧
      e.sel.grid = lib.gridOf e.sel.HNF ∧ e.sel.offset ∈ offsets ∧
      lib.irr e.sel.grid e.sel.offset = some e.sel.n_irr ∧
      ∀ v, AmongFirst 5 kpd (fun v => ∃ H, H ∈ SymmetricHNFs (ClassSym k Co.toMat) v) v →
        ∀ H ∈ SymmetricHNFs (ClassSym k Co.toMat) v, ∀ o ∈ offsets, ∀ m, lib.irr (lib.gridOf H) o = some m →
          Preferred min_kpts kpd e.sel.n_irr e.nt_kpts m v := by
  obtain ⟨o, ho⟩ := List.exists_mem_of_ne_nil _ hoff
  exact findGrid_cubic_counted_partial lib hirr w hw eps offsets min_kpts fuel k hk Co hCo (fun _ _ H _ => ⟨o, ho, htot _ o ho⟩)
    s_range kpd root h1 hkpd hroot hr

/-- C74 is not vacuous: simple cubic, 1000 points requested, 32-bit integers.  The program takes the supercell
with 1331 points because its share of irreducible k-points is the smallest. -/
example : ∃ e, findGrid sampleLib wrap32 (1 / 1000) [true, false] false 9 0 3 1 1000 = .ok e ∧
    AmongFirst 5 1000 (fun v => ∃ H, H ∈ SymmetricHNFs (ClassSym 3 (canonC 3).toMat) v) e.nt_kpts ∧
    e.sel.HNF ∈ SymmetricHNFs (ClassSym 3 (canonC 3).toMat) e.nt_kpts := by
  obtain ⟨e, h1, h2, h3, -⟩ := findGrid_cubic_partial sampleLib
    (fun g o m h => by simp only [sampleLib, Option.some.injEq] at h; omega) wrap32 (.inr wrap32_int32) (1 / 1000)
    [true, false] (by simp) (fun g o _ => by simp [sampleLib]) false 0 3 (by simp) (canonC 3) reduced_3 1 1000 9
    (by norm_num) (by norm_num) (by norm_num) (by norm_num)
  exact ⟨e, h1, h2, h3⟩

example : (match findGrid sampleLib wrap32 (1 / 1000) [true, false] false 9 0 3 1 1000 with
    | .ok e => some (e.nt_kpts, e.sel.HNF, e.sel.offset, e.sel.n_irr)
    | .error _ => none) = some (1331, hnf 11 0 11 0 0 11, false, 23) := by decide +kernel

private theorem error_of {α : Type} {r : Except GridErr α} {e : GridErr}
    (h : (match r with | .error e => some e | .ok _ => none) = some e) : r = .error e := by
  cases r with
  | error e' => simpa using h
  | ok a => simp at h

/-- C74 needs the library to count the k-points of the first densities: if it reports an error for the grid
with 8 points and for no other, the program writes the result for the sixth density behind the end of its
arrays, which have five places. -/
theorem findGrid_cubic_bounds :
    let irr : Mat3 → Unit → Option ℕ := fun g _ => if g 0 0 * g 1 1 * g 2 2 = 8 then none else some 1
    findGrid ⟨sampleEqual, fun H => ⟨H, 1, true⟩, id, irr, irr⟩ wrap32 (1 / 1000) [()] false 2 0 3 1 8 =
      .error .bounds := by
  intro irr
  refine error_of ?_
  decide +kernel

private theorem cubicLoop_zero {tryN : ℤ → Except GridErr (Tried G Off)} (h0 : tryN 0 = .error .singular) (rest : List ℤ) :
    ∀ (l : List ℤ) (i : ℕ) (arr : List (Option (Entry G Off))) (count : ℕ), (∀ v ∈ l, ∃ t, tryN v = .ok t) →
      count + l.length < 5 → i + l.length ≤ 5 → cubicLoop tryN (l ++ 0 :: rest) i arr count = .error .singular
  | [], i, arr, count, _, hc, _ => by
    simp only [List.length_nil, add_zero] at hc
    simp [cubicLoop, hc, h0]
  | v :: l, i, arr, count, hl, hc, hi => by
    simp only [List.length_cons] at hc hi
    obtain ⟨t, ht⟩ := hl v (by simp)
    have ih := cubicLoop_zero h0 rest l
    have hl' : ∀ v ∈ l, ∃ t, tryN v = .ok t := fun v hv => hl v (by simp [hv])
    rw [List.cons_append, cubicLoop, if_pos (by omega), ht]
    dsimp only
    split
    · rw [if_pos (by omega)]
      exact ih _ _ _ hl' (by omega) (by omega)
    · exact ih _ _ _ hl' (by omega) (by omega)

/-- C74 needs a bound on the density: beyond 21882096 points of a face centred lattice, and 4499456 points of another cubic one,
the program asks for the supercells with 0 points and inverts the zero matrix, whatever the library counts. -/
theorem findGrid_cubic_large (lib : Lib G Off) (hirr : ∀ g o m, lib.irr g o = some m → 1 ≤ m) (w : ℤ → ℤ)
    (hw : w = id ∨ Int32 w) (eps : ℚ) (offsets : List Off) (min_kpts : Bool) (fuel : ℕ) (k : ℕ) (hk : k ∈ [1, 3, 5])
    (s_range : ℕ) (kpd root : ℤ) (hkpd : cubicLimit k < kpd) (hroot : root ^ 3 ≤ kpd) (hr : 0 ≤ root) :
    findGrid lib w eps offsets min_kpts root fuel k s_range kpd = .error .singular := by
  obtain ⟨l, rest, hl, hlen, hv⟩ := get_kpd_cubic_short k kpd root hkpd hroot hr
  have hCo : reducedCanonical ℚ k = .ok (canonC k) := by
    simp only [List.mem_cons, List.not_mem_nil, or_false] at hk
    rcases hk with rfl | rfl | rfl
    exacts [reduced_1, reduced_3, reduced_5]
  have h0 : (if k = 3 then sc_3 else if k = 5 then bcc_5 w else fcc_1) 0 = [] := by
    split_ifs <;> rfl
  unfold findGrid
  rw [if_pos (by simp at hk; omega), hl]
  dsimp only
  rw [cubicLoop_zero _ rest l]
  · intro v hv'
    obtain ⟨-, b, m, hm, j, hj, rfl⟩ := hv v hv'
    obtain ⟨H, hH, -⟩ := cubic_list w hw k hk _ hCo _ b ((admissible_iff k hk _ hCo _).2 ⟨m, hm, j, hj, rfl⟩)
    obtain ⟨b, hb, -⟩ := gridSelection_partial lib.irr lib.irrDefault hirr [(lib.gridOf H, H)] [] offsets
    exact ⟨⟨1, b⟩, by simp only [hH, tryCubic, hb]⟩
  · omega
  · omega
  · rw [h0]
    rfl

private theorem cubicLoop_mem {tryN : ℤ → Except GridErr (Tried G Off)} :
    ∀ (l : List ℤ) (i : ℕ) (arr : List (Option (Entry G Off))) (count : ℕ) (r : List (Option (Entry G Off)) × ℕ),
      cubicLoop tryN l i arr count = .ok r → ∀ e, some e ∈ r.1 →
        some e ∈ arr ∨ e.nt_kpts ∈ l.take (6 - i) ∧ ∃ t, tryN e.nt_kpts = .ok t ∧ t.best = some e.sel
  | [], i, arr, count, r, h, e, he => by
    cases h
    exact .inl he
  | v :: l, i, arr, count, r, h, e, he => by
    have ih := cubicLoop_mem (tryN := tryN) l
    have up : ∀ {x}, x ∈ l.take (6 - (i + 1)) → x ∈ (v :: l).take (6 - i) := by
      intro x hx
      by_cases hi : i < 6
      · rw [show 6 - i = (6 - (i + 1)) + 1 by omega, List.take_succ_cons]
        exact List.mem_cons_of_mem _ hx
      · rw [show 6 - (i + 1) = 0 by omega] at hx
        simp at hx
    rw [cubicLoop] at h
    by_cases hc : count < 5
    · rw [if_pos hc] at h
      split at h
      · cases h
      · rename_i t ht
        split at h
        · rename_i b hb
          by_cases hi : i ≤ 5
          · rw [if_pos hi] at h
            rcases ih _ _ _ _ h e he with h' | ⟨h1, h2⟩
            · rcases List.mem_or_eq_of_mem_set h' with h' | h'
              · exact .inl h'
              · cases h'
                refine .inr ⟨?_, t, ht, hb⟩
                rw [show 6 - i = (5 - i) + 1 by omega, List.take_succ_cons]
                exact List.mem_cons_self
            · exact .inr ⟨up h1, h2⟩
          · rw [if_neg hi] at h
            cases h
        · rcases ih _ _ _ _ h e he with h' | ⟨h1, h2⟩
          · exact .inl h'
          · exact .inr ⟨up h1, h2⟩
    · rw [if_neg hc] at h
      cases h
      exact .inl he

private theorem minFirst_mem {α : Type} {f : α → ℚ} : ∀ {l : List α} {x : α}, minFirst f l = some x → x ∈ l
  | [], x, h => by cases h
  | y :: l, x, h => by
    rw [minFirst] at h
    split at h
    · cases h
      exact List.mem_cons_self
    · rename_i z hz
      split_ifs at h <;> cases h
      · exact List.mem_cons_of_mem _ (minFirst_mem hz)
      · exact List.mem_cons_self

/-- Whatever the library does: if the cubic branch of `find_grid` returns a grid, the supercell has all symmetries of the class,
its number of points is not below the requested one and not far above it. -/
theorem findGrid_cubic_sound (lib : Lib G Off) (hirr : ∀ g o m, lib.irr g o = some m → 1 ≤ m) (w : ℤ → ℤ)
    (hw : w = id ∨ Int32 w) (eps : ℚ) (offsets : List Off) (min_kpts : Bool) (fuel : ℕ) (k : ℕ) (hk : k ∈ [1, 3, 5])
    (Co : IMat) (hCo : reducedCanonical ℚ k = .ok Co) (s_range : ℕ) (kpd root : ℤ) (h1 : 1 ≤ kpd)
    (hroot : root ^ 3 ≤ kpd ∧ kpd < (root + 2) ^ 3) (hr : 0 ≤ root) (e : Entry G Off)
    (he : findGrid lib w eps offsets min_kpts root fuel k s_range kpd = .ok e) :
    kpd ≤ cubicLimit k ∧ kpd ≤ e.nt_kpts ∧
      (∀ m, 0 ≤ m → kpd ≤ m ^ 3 → e.nt_kpts ≤ (m + if k = 1 then 13 else 8) ^ 3) ∧
      e.sel.HNF ∈ SymmetricHNFs (ClassSym k Co.toMat) e.nt_kpts ∧
      e.sel.grid = lib.gridOf e.sel.HNF ∧ e.sel.offset ∈ offsets ∧
      lib.irr e.sel.grid e.sel.offset = some e.sel.n_irr := by
  have hkpd : kpd ≤ cubicLimit k := by
    by_contra hc
    rw [findGrid_cubic_large lib hirr w hw eps offsets min_kpts fuel k hk s_range kpd root (not_le.1 hc) hroot.1 hr] at he
    cases he
  have hr281 : root ≤ 281 := by
    by_contra h
    have : (282 : ℤ) ^ 3 ≤ root ^ 3 := pow_le_pow_left₀ (by norm_num) (by omega) 3
    unfold cubicLimit at hkpd
    split_ifs at hkpd <;> omega
  obtain ⟨l1, l3⟩ := get_kpd_cubic_enough k hk kpd root h1 hkpd hroot Co hCo
  have hbound := get_kpd_cubic_le k kpd root h1 hr hr281
  unfold findGrid at he
  rw [if_pos (by simp at hk; omega)] at he
  dsimp only at he
  split at he
  · cases he
  · rename_i arr count hloop
    have hmem : some e ∈ arr := by
      unfold chooseCubic at he
      split_ifs at he
      · split at he
        · rename_i e' he'
          cases he
          have := minFirst_mem he'
          rw [List.mem_filterMap] at this
          obtain ⟨x, hx, hx'⟩ := this
          rw [← show x = some e from hx']
          exact List.mem_of_mem_take hx
        · cases he
      · split at he
        · rename_i e' he'
          cases he
          have := List.mem_of_mem_filter (minFirst_mem he')
          rw [List.mem_filterMap] at this
          obtain ⟨x, hx, hx'⟩ := this
          rw [← show x = some e from hx']
          exact hx
        · cases he
    rcases cubicLoop_mem _ _ _ _ _ hloop e hmem with h | ⟨hv, t, ht, hb⟩
    · simp at h
    · obtain ⟨b1, b2, b3⟩ := l3 _ hv
      obtain ⟨H, e1, e2⟩ := cubic_list w hw k hk Co hCo _ (hbound _ (List.mem_of_mem_take hv)) b2
      rw [e1] at ht
      simp only [tryCubic] at ht
      obtain ⟨r, c1, c2, -⟩ := gridSelection_partial lib.irr lib.irrDefault hirr [(lib.gridOf H, H)] [] offsets
      rw [c1] at ht
      cases ht
      obtain ⟨d1, -, d2, -⟩ := c2 _ hb
      rcases d2 with ⟨d2, d3⟩ | ⟨d2, -⟩
      · obtain ⟨f1, f2⟩ := Prod.mk.inj (List.mem_singleton.1 d2)
        exact ⟨hkpd, b1, b3, by rw [e2, f2], by rw [f1, f2], d1, d3⟩
      · simp at d2

/-- At the limit itself, simple cubic: 165³ = 4492125 points are too few, and the answer has at most 174³ points. -/
example : ∃ e, findGrid sampleLib wrap32 (1 / 1000) [true, false] false 165 0 3 1 4499456 = .ok e ∧
    4499456 ≤ e.nt_kpts ∧ e.nt_kpts ≤ 174 ^ 3 ∧
    e.sel.HNF ∈ SymmetricHNFs (ClassSym 3 (canonC 3).toMat) e.nt_kpts := by
  have hirr : ∀ g o m, sampleLib.irr g o = some m → 1 ≤ m := fun g o m h => by
    simp only [sampleLib, Option.some.injEq] at h
    omega
  obtain ⟨e, h1, -⟩ := findGrid_cubic_answers sampleLib hirr wrap32 (.inr wrap32_int32) (1 / 1000) [true, false] false 0 3
    (by simp) (canonC 3) reduced_3 (fun _ _ _ _ => ⟨true, by simp, by simp [sampleLib]⟩) 1 4499456 165 (by norm_num)
    (by decide) (by norm_num) (by norm_num)
  obtain ⟨-, h2, h3, h4, -⟩ := findGrid_cubic_sound sampleLib hirr wrap32 (.inr wrap32_int32) (1 / 1000) [true, false] false 0 3
    (by simp) (canonC 3) reduced_3 1 4499456 165 (by norm_num) (by norm_num) (by norm_num) e h1
  exact ⟨e, h1, h2, h3 166 (by norm_num) (by norm_num), h4⟩

/-- One point more is too many. -/
example : findGrid sampleLib wrap32 (1 / 1000) [true, false] false 165 0 3 1 4499457 = .error .singular :=
  findGrid_cubic_large sampleLib (fun g o m h => by simp only [sampleLib, Option.some.injEq] at h; omega) wrap32
    (.inr wrap32_int32) (1 / 1000) [true, false] false 0 3 (by simp) 1 4499457 165 (by decide) (by norm_num) (by norm_num)

/-! ## Triclinic lattices -/

theorem tric_ne_nil {n : ℤ} (hn : 1 ≤ n) : tric_31_44 n ≠ [] := by
  refine List.ne_nil_of_mem (a := hnf 1 0 1 0 0 n) ?_
  rw [tric_31_44_py]
  exact ((AutoGR.tric_31_44_correct 31 (by simp) n 1 (by simp)).2.1 _).2
    ⟨isHNF_hnf (by norm_num) (by norm_num) (by omega) (by norm_num) (by omega) (by omega),
      by rw [det_hnf]; ring⟩

/-- C76 for the triclinic classes. -/
theorem symmetric_supercell_exists_tric (k : ℕ) (hk : k ∈ [31, 44]) (Co : IntMat)
    (hCo : Co.det = 1 ∨ Co.det = -1) (n : ℤ) (hn : 1 ≤ n) :
    ∃ H, H ∈ SymmetricHNFs (ClassSym k Co) n := by
  obtain ⟨H, hH⟩ := List.exists_mem_of_ne_nil _ (tric_ne_nil hn)
  exact ⟨H, ((tric_31_44_correct k hk n Co hCo).2.2 H).1 hH⟩

theorem tricLoop_spec (tryN : ℤ → Except GridErr (Tried G Off)) (mult : ℤ) (fuel : ℕ) :
    ∀ a : ℤ, (∀ n, a ≤ n → ∃ t, tryN n = .ok t) → tricLoop tryN mult fuel a = .error .running ∨
      ∃ b n m, a ≤ n ∧ tricLoop tryN mult fuel a = .ok ⟨b, n * mult⟩ ∧ tryN n = .ok ⟨m, some b⟩ ∧
        ∀ n', a ≤ n' → n' < n → ∀ m' b', tryN n' = .ok ⟨m', some b'⟩ → m' = 0 := by
  induction fuel with
  | zero => intro a _; exact .inl rfl
  | succ fuel ih =>
    intro a h
    obtain ⟨⟨m, best⟩, ht⟩ := h a le_rfl
    have hnext : (∀ b, best = some b → m = 0) → tricLoop tryN mult fuel (a + 1) = .error .running ∨
      ∃ b n m, a ≤ n ∧ tricLoop tryN mult fuel (a + 1) = .ok ⟨b, n * mult⟩ ∧ tryN n = .ok ⟨m, some b⟩ ∧
        ∀ n', a ≤ n' → n' < n → ∀ m' b', tryN n' = .ok ⟨m', some b'⟩ → m' = 0 := by
      intro hno
      rcases ih (a + 1) fun n hn => h n (by omega) with h | ⟨b, n, m0, h1, h2, h3, h4⟩
      · exact .inl h
      · refine .inr ⟨b, n, m0, by omega, h2, h3, fun n' hn' hlt m' b' hb' => ?_⟩
        rcases lt_or_eq_of_le hn' with h | rfl
        · exact h4 n' (by omega) hlt m' b' hb'
        · rw [ht] at hb'
          cases hb'
          exact hno _ rfl
    unfold tricLoop
    rw [ht]
    dsimp only
    cases best with
    | none => exact hnext (by simp)
    | some b =>
      dsimp only
      by_cases hm : 0 < m
      · rw [if_pos hm]
        exact .inr ⟨b, a, m, le_rfl, rfl, ht, fun n' h h' => by omega⟩
      · rw [if_neg hm]
        exact hnext fun _ _ => by omega

/-- C75: for a triclinic lattice `find_grid` leaves no array and reads no variable that was not set; as long as
it has not been running for ever, it returns a supercell that is a Hermite normal form of determinant `n` scaled
by a factor `m`, has `n*m^3` points, more than `kpd - m^3`, and all symmetries of the class; the grid is packed
densely enough, the offset is one of those offered, and the number of irreducible k-points is the one of this
grid and offset. -/
theorem findGrid_tric (lib : Lib G Off) (hirr : ∀ g o m, lib.irr g o = some m → 1 ≤ m) (w : ℤ → ℤ) (eps : ℚ)
    (offsets : List Off) (min_kpts : Bool) (root : ℤ) (fuel k : ℕ) (hk : k ∈ [31, 44]) (Co : IntMat)
    (hCo : Co.det = 1 ∨ Co.det = -1) (s_range : ℕ) (kpd : ℤ) (h1 : 1 ≤ kpd) :
    findGrid lib w eps offsets min_kpts root fuel k s_range kpd = .error .running ∨
    ∃ e, findGrid lib w eps offsets min_kpts root fuel k s_range kpd = .ok e ∧
      (∃ (n m : ℤ) (H : IntMat), 1 ≤ n ∧ 1 ≤ m ∧ IsHNF H ∧ H.det = n ∧ e.sel.HNF = m • H ∧
        e.sel.HNF.det = n * m ^ 3 ∧ kpd - m ^ 3 < n * m ^ 3) ∧
      (∀ X ∈ ClassSym k Co, Keeps X e.sel.HNF) ∧
      e.sel.grid = (lib.geom e.sel.HNF).grid ∧ (lib.geom e.sel.HNF).packed = true ∧
      e.sel.offset ∈ offsets ∧
      (lib.irr e.sel.grid e.sel.offset = some e.sel.n_irr ∨
        lib.irrDefault e.sel.grid e.sel.offset = some e.sel.n_irr) := by
  obtain ⟨n0, mult, g1, g2, -, g3, -, g4, -⟩ := get_kpd_tric_partial kpd h1
  have hfg : findGrid lib w eps offsets min_kpts root fuel k s_range kpd =
      tricLoop (fun n => tryHNFs lib.equal eps lib.geom lib.irr lib.irrDefault offsets
        ((tric_31_44 n).map (mult • ·))) mult fuel n0 := by
    unfold findGrid
    have hk' := hk
    simp only [List.mem_cons, List.not_mem_nil, or_false] at hk'
    rw [if_neg (by omega), if_pos (by omega), g1]
  rw [hfg]
  have hok : ∀ n, n0 ≤ n → ∃ r, tryHNFs lib.equal eps lib.geom lib.irr lib.irrDefault offsets
      ((tric_31_44 n).map (mult • ·)) = .ok ⟨((tric_31_44 n).map (mult • ·)).length, r⟩ ∧
        ∀ b, r = some b → Chosen lib offsets ((tric_31_44 n).map (mult • ·)) b := fun n hn =>
    tryHNFs_ok lib hirr eps offsets _ (by simpa using tric_ne_nil (by omega))
  rcases tricLoop_spec (fun n => tryHNFs lib.equal eps lib.geom lib.irr lib.irrDefault offsets
      ((tric_31_44 n).map (mult • ·))) mult fuel n0
      (fun n hn => by obtain ⟨r, h, -⟩ := hok n hn; exact ⟨_, h⟩) with h | ⟨b, n, m, a1, a2, a3, -⟩
  · exact .inl h
  · right
    obtain ⟨r, hr, hr'⟩ := hok n a1
    rw [hr] at a3
    cases a3
    have hc := hr' b rfl
    obtain ⟨H, hH, hHb⟩ := List.mem_map.1 hc.mem
    obtain ⟨-, q1, q2⟩ := tric_31_44_correct k hk n Co hCo
    obtain ⟨i1, i2⟩ := (q1 H).1 hH
    have i3 := ((q2 H).1 hH).2.2
    refine ⟨_, a2, ⟨n, mult, H, by omega, g3, i1, i2, hHb.symm, ?_, ?_⟩, ?_, hc.grid, hc.packed, hc.offset, hc.irr⟩
    · rw [← hHb, Matrix.det_smul, i2]
      simp
      ring
    · have : 0 < mult ^ 3 := by positivity
      nlinarith
    · intro X hX
      obtain ⟨Y, hY⟩ := i3 X hX
      refine ⟨Y, ?_⟩
      rw [← hHb, Matrix.mul_smul, Matrix.smul_mul, hY]

/-- C75: if one of the supercells for the first number of points is packed densely enough and the library
counts the k-points, the search ends there: the grid has `n*m^3` points, no more than requested. -/
theorem findGrid_tric_ends (lib : Lib G Off) (hirr : ∀ g o m, lib.irr g o = some m → 1 ≤ m) (w : ℤ → ℤ) (eps : ℚ)
    (offsets : List Off) (hoff : offsets ≠ []) (htot : ∀ g, ∀ o ∈ offsets, lib.irr g o ≠ none)
    (min_kpts : Bool) (root : ℤ) (fuel k : ℕ) (hfuel : 1 ≤ fuel) (hk : k ∈ [31, 44]) (s_range : ℕ)
    (kpd n m : ℤ) (h1 : 1 ≤ kpd) (hnm : get_kpd_tric kpd = some (n, m))
    (hex : ∃ H, IsHNF H ∧ H.det = n ∧ (lib.geom (m • H)).packed = true ∧
      (lib.geom (m • H)).rmin * eps < (lib.geom (m • H)).rmin) :
    ∃ e, findGrid lib w eps offsets min_kpts root fuel k s_range kpd = .ok e ∧
      e.sel.HNF.det = n * m ^ 3 ∧ e.sel.HNF.det ≤ kpd := by
  obtain ⟨n', m', g1, g2, -, g3, g4, -, -⟩ := get_kpd_tric_partial kpd h1
  rw [hnm] at g1
  cases g1
  obtain ⟨H, i1, i2, p1, p2⟩ := hex
  have hH : H ∈ tric_31_44 n := ((tric_31_44_correct 31 (by simp) n 1 (by simp)).2.1 H).2 ⟨i1, i2⟩
  obtain ⟨b, hb⟩ := tryHNFs_some lib hirr eps offsets hoff htot ((tric_31_44 n).map (m • ·)) (m • H)
    (List.mem_map.2 ⟨H, hH, rfl⟩) p1 p2
  obtain ⟨r, hr, hr'⟩ := tryHNFs_ok lib hirr eps offsets ((tric_31_44 n).map (m • ·))
    (by simpa using List.ne_nil_of_mem hH)
  have hrb : r = some b := by
    rw [hb] at hr
    cases hr
    rfl
  obtain ⟨H', hH', hHb⟩ := List.mem_map.1 (hr' b hrb).mem
  obtain ⟨fuel, rfl⟩ : ∃ f, fuel = f + 1 := ⟨fuel - 1, by omega⟩
  have hdet : b.HNF.det = n * m ^ 3 := by
    rw [← hHb, Matrix.det_smul, (((tric_31_44_correct 31 (by simp) n 1 (by simp)).2.1 H').1 hH').2]
    simp
    ring
  refine ⟨⟨b, n * m⟩, ?_, hdet, by rw [hdet]; exact g4⟩
  unfold findGrid
  have hk' := hk
  simp only [List.mem_cons, List.not_mem_nil, or_false] at hk'
  rw [if_neg (by omega), if_pos (by omega), hnm]
  dsimp only
  unfold tricLoop
  rw [hb]
  dsimp only
  rw [if_pos (by rw [List.length_map]; exact List.length_pos_of_mem hH)]

/-- C75 is not vacuous: 801 points requested; the grid has 800. -/
example : ∃ e, findGrid sampleLib wrap32 (1 / 1000) [true, false] false 9 1 44 1 801 = .ok e ∧
    e.sel.HNF.det = 100 * 2 ^ 3 ∧ e.sel.HNF.det ≤ 801 := by
  refine findGrid_tric_ends sampleLib
    (fun g o m h => by simp only [sampleLib, Option.some.injEq] at h; omega) wrap32 (1 / 1000)
    [true, false] (by simp) (fun g o _ => by simp [sampleLib]) false 9 1 44 le_rfl (by simp) 1 801 100 2 (by norm_num)
    get_kpd_tric_short.1 ⟨hnf 1 0 1 0 0 100, isHNF_hnf (by norm_num) (by norm_num) (by norm_num) (by norm_num)
      (by norm_num) (by norm_num), by rw [det_hnf]; norm_num, rfl, by decide +kernel⟩

end AutoGR.Fortran
