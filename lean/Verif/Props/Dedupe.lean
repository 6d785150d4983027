import Verif.Lemmas.Merge

/-!
# C23, C24, C25: removal of duplicate surfaces
-/

set_option linter.unusedSectionVars false

namespace Csg

open Spec

section
variable {K : Type} [Field K] [LinearOrder K] [IsStrictOrderedRing K]

private theorem dedupe_inv {cells cells' : List (Cell K)} {surfs surfs' : List (Surface K)} (h : dedupe cells surfs = .ok (cells', surfs')) :
    ∃ gs rs, surfs.mapM Surface.generalise = .ok gs ∧ renamings surfs (duplicates gs) = .ok rs ∧
      List.Forall₂ (fun c c' => renameAll rs c.interpreted = .ok c'.interpreted ∧ c' = { c with interpreted := c'.interpreted }) cells cells' ∧
      surfs' = remaining surfs ((duplicates gs).map Prod.fst) := by
  unfold dedupe at h
  obtain ⟨gs, h1, h⟩ := bind_ok h
  obtain ⟨rs, h2, h⟩ := bind_ok h
  obtain ⟨cs, h3, h⟩ := bind_ok h
  cases h
  refine ⟨gs, rs, h1, h2, forall₂_imp (fun c c' hc => ?_) (mapM_ok_iff.1 h3), rfl⟩
  obtain ⟨is, h4, h5⟩ := bind_ok hc
  cases h5
  exact ⟨h4, rfl⟩

private theorem sense_renamed (sqrt : K → K) {surfs gs : List (Surface K)} {rs : List (Int × Int × Bool)} (hids : (surfs.map Surface.id).Nodup)
    (hpos : ∀ s ∈ surfs, 0 < s.id) (hm : Mergeable surfs) (hg : surfs.mapM Surface.generalise = .ok gs)
    (hrs : renamings surfs (duplicates gs) = .ok rs) (p : Point K) (z : Int) :
    surfaceSense sqrt (fun _ q => q) (remaining surfs ((duplicates gs).map Prod.fst)) p (renameNum rs z) ↔ surfaceSense sqrt (fun _ q => q) surfs p z := by
  obtain ⟨rs', h1, hsep, hin, hback⟩ := separate_renamings hg hids hpos
  rw [hrs] at h1
  cases h1
  have hplain : ∀ s ∈ surfs, ∀ b, OnSide sqrt s p b ↔ side sqrt s.type s.coeffs p = some (if b then .pos else .neg) := by
    intro s hs b
    unfold OnSide
    rw [not_macro_of_shape (hm.shape s hs).2]
    simp
  by_cases hk : ∃ r ∈ rs, (z.natAbs : Int) = r.2.1
  · obtain ⟨r, hr, hz⟩ := hk
    obtain ⟨e, he, s, t, a, b, hent, rfl⟩ := hback r hr
    simp only at hz
    rw [renameNum_key hsep hr hz]
    have hs := List.mem_of_getElem? hent.first
    have ht := List.mem_of_getElem? hent.later
    have hps := hpos s hs
    have hpt := hpos t ht
    have hleft : ∀ y : Int, (y.natAbs : Int) = t.id →
        (surfaceSense sqrt (fun _ q => q) (remaining surfs ((duplicates gs).map Prod.fst)) p y ↔ OnSide sqrt t p (0 < y)) := by
      intro y hy
      constructor
      · rintro ⟨u, hu, e1, h⟩
        obtain ⟨i, hi, -⟩ := mem_remaining.1 hu
        have := getElem_of_nodup_ids hids hi hent.later (by omega)
        subst this
        rw [hent.later] at hi
        cases hi
        exact h
      · intro h
        exact ⟨t, mem_remaining.2 ⟨_, hent.later, later_stays he⟩, hy.symm, h⟩
    have hright : surfaceSense sqrt (fun _ q => q) surfs p z ↔ OnSide sqrt s p (0 < z) := by
      constructor
      · rintro ⟨u, hu, e1, h⟩
        have : u = s := List.inj_on_of_nodup_map hids hu hs (by omega)
        subst this
        exact h
      · intro h
        exact ⟨s, hs, hz.symm, h⟩
    rw [hright, hplain s hs, entered_side sqrt hids hm hent p]
    have hcases : z = s.id ∨ z = -s.id := by omega
    unfold renameOne
    simp only
    have hflip : ∀ (o : Option Side) (c : Bool), o.map Side.flip = some (if c then .pos else .neg) ↔ o = some (if c then .neg else .pos) := by
      intro o c
      cases o with
      | none => cases c <;> simp
      | some x => cases x <;> cases c <;> simp [Side.flip]
    rcases hcases with hz | hz
    · rw [if_pos hz]
      have hz' : decide (0 < z) = true := by simpa using (by omega : 0 < z)
      rw [hz']
      by_cases hr : e.2.2 = true
      · rw [if_pos hr, if_pos hr, hleft _ (by omega), hplain t ht, hflip]
        simp [show ¬ t.id < 0 by omega]
      · rw [if_neg hr, if_neg hr, hleft _ (by omega), hplain t ht]
        simp [hpt]
    · rw [if_neg (by omega), if_pos hz]
      have hz' : decide (0 < z) = false := by simpa using (by omega : z ≤ 0)
      rw [hz']
      by_cases hr : e.2.2 = true
      · rw [if_pos hr, if_pos hr, hleft _ (by omega), hplain t ht, hflip]
        simp [hpt]
      · rw [if_neg hr, if_neg hr, hleft _ (by omega), hplain t ht]
        simp [show ¬ t.id < 0 by omega]
  · push Not at hk
    rw [renameNum_other fun r hr => ⟨hk r hr, (hsep.pos r hr).2⟩]
    constructor
    · rintro ⟨u, hu, h⟩
      exact ⟨u, (remaining_sublist _ _).subset hu, h⟩
    · rintro ⟨u, hu, e1, h⟩
      obtain ⟨i, hi⟩ := List.mem_iff_getElem?.1 hu
      refine ⟨u, mem_remaining.2 ⟨i, hi, ?_⟩, e1, h⟩
      intro hmem
      obtain ⟨e, he, rfl⟩ := List.mem_map.1 hmem
      obtain ⟨s, t, a, b, hent, hr⟩ := hin e he
      have e2 := hent.first
      rw [hi] at e2
      cases e2
      exact hk _ hr e1.symm

/-- C23, in part. Duplicate removal succeeds, and each cell keeps its point set and everything but its interpreted description. Missing are decks in which
one-sheet cones have the same double cone (see `C23_refuted`). The surfaces are in the global system of coordinates here, since transformations
are applied before. -/
theorem C23_dedupe_regions_partial (sqrt : K → K) (cells : List (Cell K)) (surfs : List (Surface K)) (hids : (surfs.map Surface.id).Nodup)
    (hpos : ∀ s ∈ surfs, 0 < s.id) (hm : Mergeable surfs) (hw : ∀ c ∈ cells, OnlyNumbers c.interpreted) :
    ∃ cells' surfs', dedupe cells surfs = .ok (cells', surfs') ∧
      List.Forall₂ (fun c c' => c' = { c with interpreted := c'.interpreted } ∧ OnlyNumbers c'.interpreted ∧
        (Legal (itemSyms c.interpreted) ↔ Legal (itemSyms c'.interpreted)) ∧
        ∀ p, Holds (wordSense (surfaceSense sqrt (fun _ q => q) surfs p)) (itemSyms c.interpreted) ↔
          Holds (wordSense (surfaceSense sqrt (fun _ q => q) surfs' p)) (itemSyms c'.interpreted)) cells cells' := by
  obtain ⟨gs, hg, -⟩ := mapM_forall₂ (f := Surface.generalise) (R := fun _ _ => True) (l := surfs) (by
    intro s hs
    obtain ⟨hwf, hq | ht⟩ := hm.shape s hs
    · obtain ⟨g, h, -⟩ := C01_generalise_value s hwf hq
      exact ⟨g, h, trivial⟩
    · exact ⟨s, by unfold Surface.generalise; rw [if_pos ht.1], trivial⟩)
  obtain ⟨rs, hrs, hsep, -, -⟩ := separate_renamings hg hids hpos
  obtain ⟨cells', hc, hf⟩ := mapM_forall₂ (l := cells) (f := fun c => (do let is ← renameAll rs c.interpreted; .ok { c with interpreted := is } : Py (Cell K)))
    (R := fun c c' => c' = { c with interpreted := c'.interpreted } ∧ renameAll rs c.interpreted = .ok c'.interpreted ∧ OnlyNumbers c.interpreted) (by
      intro c hcm
      obtain ⟨is, h⟩ := renameAll_ok (fun e he => (hsep.pos e he).2) (hw c hcm)
      exact ⟨{ c with interpreted := is }, by rw [h]; rfl, rfl, h, hw c hcm⟩)
  refine ⟨cells', remaining surfs ((duplicates gs).map Prod.fst), ?_, forall₂_imp ?_ hf⟩
  · unfold dedupe
    rw [hg]
    show (renamings surfs (duplicates gs) >>= _) = _
    rw [hrs]
    simp only [Except.bind, bind] at hc ⊢
    rw [hc]
    rfl
  · rintro c c' ⟨h1, h2, h3⟩
    have hren := renameAll_renamed (fun e he => (hsep.pos e he).2) h3 h2
    exact ⟨h1, (renamed_onlyNumbers hren).2, (renamed_holds hren (fun _ => True) (fun _ => True) fun _ => Iff.rfl).1, fun p =>
      (renamed_holds hren _ _ fun z => sense_renamed sqrt hids hpos hm hg hrs p z).2⟩

/-- C24. The remaining surfaces are surfaces of the deck in the same order; if all numbers of a cell name surfaces before then all do after, and a number that
is used after is the number of a surface before or unchanged; no two remaining quadrics have the same equation up to sign and no two remaining
tori have the same type and coefficients. -/
theorem C24_dedupe_complete (cells cells' : List (Cell K)) (surfs surfs' : List (Surface K)) (hids : (surfs.map Surface.id).Nodup)
    (hpos : ∀ s ∈ surfs, 0 < s.id) (hw : ∀ c ∈ cells, OnlyNumbers c.interpreted) (h : dedupe cells surfs = .ok (cells', surfs')) :
    List.Sublist surfs' surfs ∧
    List.Forall₂ (fun c c' => List.Forall₂ (fun z z' => (∃ s ∈ surfs, s.id = z.natAbs) → ∃ s ∈ surfs', s.id = z'.natAbs)
        (numbers c.interpreted) (numbers c'.interpreted) ∧
      List.Forall₂ (fun z z' => (¬ ∃ s ∈ surfs, s.id = z.natAbs) → z' = z) (numbers c.interpreted) (numbers c'.interpreted)) cells cells' ∧
    surfs'.Pairwise (fun s t => WellFormed s → WellFormed t →
      (IsQuadric s.type → IsQuadric t.type → ¬ SameEquation s t) ∧
      (s.type.isTorus = true → ¬ (s.type = t.type ∧ s.coeffs = t.coeffs))) := by
  obtain ⟨gs, rs, hg, hrs, hc, rfl⟩ := dedupe_inv h
  obtain ⟨rs', h1, hsep, hin, hback⟩ := separate_renamings hg hids hpos
  rw [hrs] at h1
  cases h1
  have hnum : ∀ z, ((∃ s ∈ surfs, s.id = z.natAbs) → ∃ s ∈ remaining surfs ((duplicates gs).map Prod.fst), s.id = (renameNum rs z).natAbs) ∧
      ((¬ ∃ s ∈ surfs, s.id = z.natAbs) → renameNum rs z = z) := by
    intro z
    by_cases hk : ∃ r ∈ rs, (z.natAbs : Int) = r.2.1
    · obtain ⟨r, hr, hz⟩ := hk
      obtain ⟨e, he, s, t, a, b, hent, rfl⟩ := hback r hr
      simp only at hz
      have hps := hpos s (List.mem_of_getElem? hent.first)
      have hpt := hpos t (List.mem_of_getElem? hent.later)
      refine ⟨fun _ => ⟨t, mem_remaining.2 ⟨_, hent.later, later_stays he⟩, ?_⟩, fun hno => absurd ⟨s, List.mem_of_getElem? hent.first, hz.symm⟩ hno⟩
      rw [renameNum_key hsep hr hz]
      unfold renameOne
      simp only
      split_ifs <;> omega
    · push Not at hk
      rw [renameNum_other fun r hr => ⟨hk r hr, (hsep.pos r hr).2⟩]
      refine ⟨?_, fun _ => rfl⟩
      rintro ⟨u, hu, e1⟩
      obtain ⟨i, hi⟩ := List.mem_iff_getElem?.1 hu
      refine ⟨u, mem_remaining.2 ⟨i, hi, ?_⟩, e1⟩
      intro hmem
      obtain ⟨e, he, rfl⟩ := List.mem_map.1 hmem
      obtain ⟨s, t, a, b, hent, hr⟩ := hin e he
      have e2 := hent.first
      rw [hi] at e2
      cases e2
      exact hk _ hr e1.symm
  have hforall : ∀ (P : Int → Int → Prop) (l : List Int) (f : Int → Int), (∀ z, P z (f z)) → List.Forall₂ P l (l.map f) := by
    intro P l f hP
    induction l with
    | nil => exact .nil
    | cons z l ih => exact .cons (hP z) ih
  refine ⟨remaining_sublist _ _, ?_, ?_⟩
  · have hc' := hc
    clear hc h
    induction hc' with
    | nil => exact .nil
    | cons hx _ ih =>
      refine .cons ?_ (ih fun c hc => hw c (by simp [hc]))
      have hren := renameAll_renamed (fun e he => (hsep.pos e he).2) (hw _ (by simp)) hx.1
      rw [renamed_numbers hren]
      exact ⟨hforall _ _ _ fun z => (hnum z).1, hforall _ _ _ fun z => (hnum z).2⟩
  · unfold remaining
    rw [List.pairwise_map]
    refine List.Pairwise.imp_of_mem (R := fun a b => a.2 < b.2) ?_ ?_
    · rintro ⟨s, i⟩ ⟨t, j⟩ hs ht hij hws hwt
      simp only [List.mem_filter, decide_eq_true_eq, List.mk_mem_zipIdx_iff_getElem?] at hs ht hij
      obtain ⟨b, hb, gb⟩ := forall₂_get' (mapM_ok_iff.1 hg) hs.1
      obtain ⟨a, ha, ga⟩ := forall₂_get' (mapM_ok_iff.1 hg) ht.1
      have hnot : ¬ Alike a b := by
        intro hal
        have : (i, j, (a.diff b true).1.2) ∈ duplicateEntries gs := mem_duplicateEntries.2 ⟨hij, a, b, ha, hb, Prod.ext ((diff_iff _ _).2 hal) rfl⟩
        exact hs.2 ((duplicates_spec gs).keys _ this)
      refine ⟨fun hqs hqt he => hnot (alike_of_sameEquation hws hqs hwt hqt gb ga he.symm), ?_⟩
      rintro hts ⟨e1, e2⟩
      have := generalise_torus hts gb
      have h2 := generalise_torus (by rw [← e1]; exact hts) ga
      subst this h2
      exact hnot ⟨e1.symm, Or.inl e2.symm⟩
    · refine List.Pairwise.sublist List.filter_sublist ?_
      have := List.pairwise_lt_range' (s := 0) (n := surfs.length)
      rw [← List.zipIdx_map_snd 0 surfs, List.pairwise_map] at this
      exact this

/-- C25, in part. If duplicates carry the same boundary condition, then each number that names a surface is replaced by a number that names a surface with
the same condition. Missing are duplicates with different conditions (see `C25_refuted`). -/
theorem C25_dedupe_boundaries_partial (cells cells' : List (Cell K)) (surfs surfs' : List (Surface K)) (hids : (surfs.map Surface.id).Nodup)
    (hpos : ∀ s ∈ surfs, 0 < s.id) (hw : ∀ c ∈ cells, OnlyNumbers c.interpreted) (hshape : ∀ s ∈ surfs, WellFormed s ∧ (IsQuadric s.type ∨ ProperTorus s))
    (hbc : ∀ s ∈ surfs, ∀ t ∈ surfs, (IsQuadric s.type ∧ IsQuadric t.type ∧ SameEquation s t) ∨ (s.type = t.type ∧ s.coeffs = t.coeffs) → s.bc = t.bc)
    (h : dedupe cells surfs = .ok (cells', surfs')) :
    List.Forall₂ (fun c c' => List.Forall₂ (fun z z' => ∀ s ∈ surfs, s.id = z.natAbs → ∃ s' ∈ surfs', s'.id = z'.natAbs ∧ s'.bc = s.bc)
      (numbers c.interpreted) (numbers c'.interpreted)) cells cells' := by
  obtain ⟨gs, rs, hg, hrs, hc, rfl⟩ := dedupe_inv h
  obtain ⟨rs', h1, hsep, hin, hback⟩ := separate_renamings hg hids hpos
  rw [hrs] at h1
  cases h1
  have hnum : ∀ z, ∀ s ∈ surfs, s.id = z.natAbs →
      ∃ s' ∈ remaining surfs ((duplicates gs).map Prod.fst), s'.id = (renameNum rs z).natAbs ∧ s'.bc = s.bc := by
    intro z u hu hid
    by_cases hk : ∃ r ∈ rs, (z.natAbs : Int) = r.2.1
    · obtain ⟨r, hr, hz⟩ := hk
      obtain ⟨e, he, s, t, a, b, hent, rfl⟩ := hback r hr
      simp only at hz
      have hs := List.mem_of_getElem? hent.first
      have ht := List.mem_of_getElem? hent.later
      have hps := hpos s hs
      have hpt := hpos t ht
      have : u = s := List.inj_on_of_nodup_map hids hu hs (by omega)
      subst this
      refine ⟨t, mem_remaining.2 ⟨_, hent.later, later_stays he⟩, ?_, hbc t ht u hs ?_⟩
      · rw [renameNum_key hsep hr hz]
        unfold renameOne
        simp only
        split_ifs <;> omega
      · have hal : Alike a b := (diff_iff _ _).1 (by rw [hent.same])
        obtain ⟨hws, hqs | hts⟩ := hshape u hs <;> obtain ⟨hwt, hqt | htt⟩ := hshape t ht
        · exact Or.inl ⟨hqt, hqs, sameEquation_of_diff hws hqs hwt hqt hent.gen.1 hent.gen.2 hal⟩
        · have e1 := generalise_torus htt.1 hent.gen.2
          have e2 := (generalise_quadric hws hqs hent.gen.1).1
          subst e1
          have := htt.1
          rw [hal.1, e2] at this
          cases this
        · have e1 := generalise_torus hts.1 hent.gen.1
          have e2 := (generalise_quadric hwt hqt hent.gen.2).1
          subst e1
          have := hts.1
          rw [← hal.1, e2] at this
          cases this
        · have e1 := generalise_torus hts.1 hent.gen.1
          have e2 := generalise_torus htt.1 hent.gen.2
          subst e1 e2
          refine Or.inr ⟨hal.1, ?_⟩
          rcases hal.2 with h | h
          · exact h
          · obtain ⟨-, x, y, z, p, q, r, hcs, hp⟩ := hts
            obtain ⟨-, x', y', z', p', q', r', hct, hp'⟩ := htt
            rw [hcs, hct] at h
            have : p' = -p := by
              have := congrArg (fun l => l[3]?) h
              simpa [Surface.reverse] using this
            linarith
    · push Not at hk
      rw [renameNum_other fun r hr => ⟨hk r hr, (hsep.pos r hr).2⟩]
      obtain ⟨i, hi⟩ := List.mem_iff_getElem?.1 hu
      refine ⟨u, mem_remaining.2 ⟨i, hi, ?_⟩, hid, rfl⟩
      intro hmem
      obtain ⟨e, he, rfl⟩ := List.mem_map.1 hmem
      obtain ⟨s, t, a, b, hent, hr⟩ := hin e he
      have e2 := hent.first
      rw [hi] at e2
      cases e2
      exact hk _ hr hid.symm
  have hforall : ∀ (P : Int → Int → Prop) (l : List Int) (f : Int → Int), (∀ z, P z (f z)) → List.Forall₂ P l (l.map f) := by
    intro P l f hP
    induction l with
    | nil => exact .nil
    | cons z l ih => exact .cons (hP z) ih
  have hc' := hc
  clear hc h
  induction hc' with
  | nil => exact .nil
  | cons hx _ ih =>
    refine .cons ?_ (ih fun c hc => hw c (by simp [hc]))
    have hren := renameAll_renamed (fun e he => (hsep.pos e he).2) (hw _ (by simp)) hx.1
    rw [renamed_numbers hren]
    exact hforall _ _ _ fun z => hnum z

end

/-- Three surfaces with the same equation up to sign, a cone of one sheet and a torus. -/
def dupSurfaces : List (Surface ℚ) :=
  [plainCard 1 .planeX [1, 0, 0, 2], plainCard 2 .planeGeneral [-1, 0, 0, -2], plainCard 3 .coneZ [0, 0, 0, 1, 1],
   plainCard 4 .planeGeneral [1, 0, 0, 2], plainCard 5 .torusX [0, 0, 0, 3, 1, 1]]

def dupCells : List (Cell ℚ) :=
  [{ (Cell.blank : Cell ℚ) with id := 1, interpreted := [.str c!"-1", .op .and, .str c!"2", .op .union, .str c!"(", .str c!"4", .op .and, .str c!"-3", .str c!")"] }]

example : (dedupe dupCells dupSurfaces).map (fun r => (r.1.map Cell.interpreted, r.2.map Surface.id)) =
    .ok ([[.str c!"-4", .op .and, .str c!"-4", .op .union, .str c!"(", .str c!"4", .op .and, .str c!"-3", .str c!")"]], [3, 4, 5]) := by
  decide +kernel

private theorem dup_shape : ∀ s ∈ dupSurfaces, WellFormed s ∧ (IsQuadric s.type ∨ ProperTorus s) := by
  intro s hs
  simp only [dupSurfaces, List.mem_cons, List.not_mem_nil, or_false] at hs
  rcases hs with rfl | rfl | rfl | rfl | rfl
  · exact ⟨rfl, Or.inl trivial⟩
  · exact ⟨rfl, Or.inl trivial⟩
  · exact ⟨rfl, Or.inl trivial⟩
  · exact ⟨rfl, Or.inl trivial⟩
  · exact ⟨rfl, Or.inr ⟨rfl, _, _, _, _, _, _, rfl, by norm_num⟩⟩

example : (dupSurfaces.map Surface.id).Nodup ∧ (∀ s ∈ dupSurfaces, 0 < s.id) ∧ Mergeable dupSurfaces ∧ (∀ c ∈ dupCells, OnlyNumbers c.interpreted) := by
  refine ⟨by decide, by decide, ⟨dup_shape, ?_⟩, ?_⟩
  · intro s hs t ht hne he
    simp only [dupSurfaces, List.mem_cons, List.not_mem_nil, or_false] at hs ht
    rcases hs with rfl | rfl | rfl | rfl | rfl <;> try trivial
    exfalso
    rcases ht with rfl | rfl | rfl | rfl | rfl
    · rcases he with he | he <;> simpa [value, plainCard] using he ⟨2, 3, 2⟩
    · rcases he with he | he <;> simpa [value, plainCard] using he ⟨2, 3, 2⟩
    · exact hne rfl
    · rcases he with he | he <;> simpa [value, plainCard] using he ⟨2, 3, 2⟩
    · rcases he with he | he <;> simpa [value, plainCard] using he ⟨2, 3, 2⟩
  · intro c hc w hw
    simp only [dupCells, List.mem_cons, List.not_mem_nil, or_false] at hc
    subst hc
    have hw : w ∈ [c!"-1", c!"2", c!"(", c!"4", c!"-3", c!")"] := hw
    simp only [List.mem_cons, List.not_mem_nil, or_false] at hw
    rcases hw with rfl | rfl | rfl | rfl | rfl | rfl
    · exact Or.inr (Or.inr ⟨-1, by decide⟩)
    · exact Or.inr (Or.inr ⟨2, by decide⟩)
    · exact Or.inl rfl
    · exact Or.inr (Or.inr ⟨4, by decide⟩)
    · exact Or.inr (Or.inr ⟨-3, by decide⟩)
    · exact Or.inr (Or.inl rfl)

private def twoCones : List (Surface ℚ) := [plainCard 1 .coneZ [0, 0, 0, 1, 1], plainCard 2 .coneZ [0, 0, 0, 1, -1]]

private def coneCell (w : Str) : Cell ℚ := { (Cell.blank : Cell ℚ) with id := 1, interpreted := [.str w] }

/-- C23 is false for one-sheet cones: the upper and the lower sheet of the same double cone are taken for duplicates, and the cell inside the upper one becomes
the cell inside the lower one. -/
theorem C23_refuted : ∃ (cells cells' : List (Cell ℚ)) (surfs surfs' : List (Surface ℚ)), (surfs.map Surface.id).Nodup ∧ (∀ s ∈ surfs, 0 < s.id) ∧
    (∀ s ∈ surfs, WellFormed s ∧ IsQuadric s.type) ∧ (∀ c ∈ cells, OnlyNumbers c.interpreted) ∧ dedupe cells surfs = .ok (cells', surfs') ∧
    ∃ p, ¬ List.Forall₂ (fun c c' => Holds (wordSense (surfaceSense id (fun _ q => q) surfs p)) (itemSyms c.interpreted) ↔
      Holds (wordSense (surfaceSense id (fun _ q => q) surfs' p)) (itemSyms c'.interpreted)) cells cells' := by
  refine ⟨[coneCell c!"-1"], [coneCell c!"-2"], twoCones, [plainCard 2 .coneZ [0, 0, 0, 1, -1]], by decide, by decide, ?_, ?_, by decide +kernel, ⟨0, 0, 1⟩, ?_⟩
  · intro s hs
    simp only [twoCones, List.mem_cons, List.not_mem_nil, or_false] at hs
    rcases hs with rfl | rfl <;> exact ⟨rfl, trivial⟩
  · intro c hc w hw
    simp only [List.mem_cons, List.not_mem_nil, or_false] at hc
    subst hc
    have hw : w ∈ [c!"-1"] := hw
    simp only [List.mem_cons, List.not_mem_nil, or_false] at hw
    subst hw
    exact Or.inr (Or.inr ⟨-1, by decide⟩)
  · intro h
    cases h with
    | cons h _ =>
      have h1 : Holds (wordSense (surfaceSense id (fun _ q => q) twoCones ⟨0, 0, 1⟩)) (itemSyms (coneCell c!"-1").interpreted) := by
        refine (holds_iff (.one (.single (.atom c!"-1")))).2 ?_
        refine ⟨-1, by decide, plainCard 1 .coneZ [0, 0, 0, 1, 1], by simp [twoCones], by decide, ?_⟩
        simp [OnSide, plainCard, Surface.isMacrobody, side, torusValue, value, sheet, nappeSide]
      have h2 := (holds_iff (.one (.single (.atom c!"-2")))).1 (h.1 h1)
      obtain ⟨z, hz, s, hs, -, ho⟩ := h2
      have : z = -2 := by
        have e : parseInt c!"-2" = some (-2) := by decide
        rw [e] at hz
        exact (Option.some.inj hz).symm
      subst this
      simp only [List.mem_cons, List.not_mem_nil, or_false] at hs
      subst hs
      simp [OnSide, plainCard, Surface.isMacrobody, side, torusValue, value, sheet, nappeSide] at ho

/-- C25 is false: a reflecting plane that is listed before a plain one with the same equation is removed and the reflection is lost. -/
theorem C25_refuted : ∃ (cells cells' : List (Cell ℚ)) (surfs surfs' : List (Surface ℚ)), (surfs.map Surface.id).Nodup ∧ (∀ s ∈ surfs, 0 < s.id) ∧
    Mergeable surfs ∧ (∀ c ∈ cells, OnlyNumbers c.interpreted) ∧ dedupe cells surfs = .ok (cells', surfs') ∧
    (∃ s ∈ surfs, s.bc = .reflecting ∧ ∃ c ∈ cells, s.id ∈ numbers c.interpreted) ∧ ∀ s ∈ surfs', s.bc = .transmission := by
  refine ⟨[coneCell c!"1"], [coneCell c!"2"], [{ plainCard 1 .planeX [1, 0, 0, 2] with bc := .reflecting }, plainCard 2 .planeX [1, 0, 0, 2]],
    [plainCard 2 .planeX [1, 0, 0, 2]], by decide, by decide, ⟨?_, ?_⟩, ?_, by decide +kernel, ?_, by decide⟩
  · intro s hs
    simp only [List.mem_cons, List.not_mem_nil, or_false] at hs
    rcases hs with rfl | rfl <;> exact ⟨rfl, Or.inl trivial⟩
  · intro s hs t ht _ _
    simp only [List.mem_cons, List.not_mem_nil, or_false] at hs
    rcases hs with rfl | rfl <;> trivial
  · intro c hc w hw
    simp only [List.mem_cons, List.not_mem_nil, or_false] at hc
    subst hc
    have hw : w ∈ [c!"1"] := hw
    simp only [List.mem_cons, List.not_mem_nil, or_false] at hw
    subst hw
    exact Or.inr (Or.inr ⟨1, by decide⟩)
  · exact ⟨_, List.mem_cons_self .., rfl, _, List.mem_cons_self .., by decide⟩

example : ∀ s ∈ dupSurfaces, ∀ t ∈ dupSurfaces,
    (IsQuadric s.type ∧ IsQuadric t.type ∧ SameEquation s t) ∨ (s.type = t.type ∧ s.coeffs = t.coeffs) → s.bc = t.bc := by
  intro s hs t ht _
  have : ∀ s ∈ dupSurfaces, s.bc = .transmission := by decide
  rw [this s hs, this t ht]

end Csg
