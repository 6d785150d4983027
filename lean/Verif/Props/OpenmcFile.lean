import Verif.Lemmas.Outputs
import Verif.Lemmas.Xml
import Verif.Props.McnpFileBack
import Verif.Props.OpenMCUniverses
import Verif.Props.OtherCellText
import Verif.Props.OtherMaterials
import Verif.Props.SurfaceText
import Verif.Spec.OpenmcFile

/-!
# The OpenMC files: C91
-/

set_option linter.unusedSectionVars false

namespace Csg

open Spec

private theorem mapM_some {α β γ : Type} {f : β → Option γ} {g : α → β} {h : α → γ} {l : List α} (H : ∀ x ∈ l, f (g x) = some (h x)) : (l.map g).mapM f = some (l.map h) := by
  induction l with
  | nil => rfl
  | cons x l ih => rw [List.map_cons, List.mapM_cons, H x (by simp), ih fun y hy => H y (by simp [hy])]; rfl

private theorem mapM_append_some {α β : Type} {f : α → Option β} {l m : List α} {a b : List β} (h1 : l.mapM f = some a) (h2 : m.mapM f = some b) : (l ++ m).mapM f = some (a ++ b) := by
  rw [List.mapM_append, h1, h2]; rfl

private theorem lefts {α β : Type} (l : List α) (m : List β) : (l.map Sum.inl ++ m.map Sum.inr : List (Sum α β)).filterMap Sum.getLeft? = l := by
  have h1 : ∀ l : List α, (l.map Sum.inl : List (Sum α β)).filterMap Sum.getLeft? = l := fun l => by
    induction l with
    | nil => rfl
    | cons x l ih => exact congrArg (x :: ·) ih
  have h2 : ∀ m : List β, (m.map Sum.inr : List (Sum α β)).filterMap Sum.getLeft? = [] := fun m => by
    induction m with
    | nil => rfl
    | cons x m ih => rw [List.map_cons, List.filterMap_cons_none rfl, ih]
  rw [List.filterMap_append, h1, h2, List.append_nil]

private theorem rights {α β : Type} (l : List α) (m : List β) : (l.map Sum.inl ++ m.map Sum.inr : List (Sum α β)).filterMap Sum.getRight? = m := by
  have h1 : ∀ l : List α, (l.map Sum.inl : List (Sum α β)).filterMap Sum.getRight? = [] := fun l => by
    induction l with
    | nil => rfl
    | cons x l ih => rw [List.map_cons, List.filterMap_cons_none rfl, ih]
  have h2 : ∀ m : List β, (m.map Sum.inr : List (Sum α β)).filterMap Sum.getRight? = m := fun m => by
    induction m with
    | nil => rfl
    | cons x m ih => exact congrArg (x :: ·) ih
  rw [List.filterMap_append, h1, h2, List.nil_append]

/-! ## Reading the trees -/

private theorem read_surface (s : OpenmcSurface) (h : parseInt s.id ≠ none) : openmcElement (xmlSurface s).bare = some (.inl s) := by
  show (if parseInt s.id = none then none else some (.inl s) : Option (Sum OpenmcSurface OpenMCCellElem)) = _
  rw [if_neg h]

/-- The numbers of an element are numbers. -/
private def CellNumbers (e : OpenMCCellElem) : Prop := parseInt e.id ≠ none ∧ parseInt e.uni ≠ none ∧ (∀ m, e.material = some m → m = c!"void" ∨ parseInt m ≠ none) ∧
  ∀ f t, e.filled = some (f, t) → parseInt f ≠ none

private theorem read_cell (e : OpenMCCellElem) (h : e.filled = none ↔ e.material ≠ none) (hn : CellNumbers e) : openmcElement (xmlCell e).bare = some (.inr e) := by
  obtain ⟨h1, h2, h3, h4⟩ := hn
  obtain ⟨id, material, region, uni, filled⟩ := e
  have h12 : ¬ (parseInt id = none ∨ parseInt uni = none) := by rintro (h | h); exacts [h1 h, h2 h]
  cases filled with
  | none =>
    cases material with
    | none => exact absurd rfl (h.1 rfl)
    | some m =>
      show (if parseInt id = none ∨ parseInt uni = none then none else if m ≠ c!"void" ∧ parseInt m = none then none
        else some (.inr ⟨id, some m, region, uni, none⟩) : Option (Sum OpenmcSurface OpenMCCellElem)) = _
      rw [if_neg h12, if_neg]
      rintro ⟨ha, hb⟩
      exact (h3 m rfl).elim ha fun k => k hb
  | some f =>
    obtain ⟨f, r, t⟩ := f
    cases material with
    | none =>
      show (if parseInt id = none ∨ parseInt uni = none then none else if parseInt f = none then none
        else some (.inr ⟨id, none, region, uni, some (f, r, t)⟩) : Option (Sum OpenmcSurface OpenMCCellElem)) = _
      rw [if_neg h12, if_neg (h4 f (r, t) rfl)]
    | some m => cases h.2 (by simp)

private theorem read_nuclide (n : OpenmcNuclide) : openmcPart (xmlNuclide n).bare = some (.inr n) := by
  obtain ⟨name, mass, frac⟩ := n
  cases mass <;> rfl

private theorem read_material (m : OpenmcMaterial) (hn : parseInt m.id ≠ none) : openmcMaterial (xmlMaterial m).bare = some m := by
  obtain ⟨id, name, density, units, ns⟩ := m
  have h : (Xml.bareAll (.fresh c!"density" [(c!"value", density), (c!"units", units)] [] :: ns.map xmlNuclide)).mapM openmcPart = some (.inl (density, units) :: ns.map .inr) := by
    have := mapM_some (f := openmcPart) (g := fun n => (xmlNuclide n).bare) (h := Sum.inr) (l := ns) fun n _ => read_nuclide n
    rw [Xml.bareAll, List.mapM_cons, bareAll_eq, List.map_map]
    rw [show Xml.bare ∘ xmlNuclide = fun n => (xmlNuclide n).bare from rfl, this]
    rfl
  have hl := lefts [(density, units)] ns
  have hr := rights [(density, units)] ns
  rw [List.map_singleton, List.singleton_append] at hl hr
  show (do
    let ps ← (Xml.bareAll (.fresh c!"density" [(c!"value", density), (c!"units", units)] [] :: ns.map xmlNuclide)).mapM openmcPart
    if parseInt id = none then none
    else match ps.filterMap Sum.getLeft? with
    | [(d, u)] => some (OpenmcMaterial.mk id name d u (ps.filterMap Sum.getRight?))
    | _ => none) = _
  rw [h]
  simp only [Option.bind_eq_bind, Option.bind_some, hl, hr]
  rw [if_neg hn]

private theorem good_fresh (tag : Str) (attrs : List (Str × Str)) (cs : List Xml) (h1 : xmlName tag = true) (ks : List Str) (hk : attrs.map Prod.fst = ks) (h2 : ks.Nodup ∧ ∀ k ∈ ks, xmlName k = true)
    (h3 : ∀ a ∈ attrs, AttrText a.2) (h4 : ∀ x ∈ cs, x.Good) : (Xml.fresh tag attrs cs).Good := by
  unfold Xml.fresh Xml.Good
  refine ⟨h1, fun a ha => ⟨h2.2 _ ?_, h3 a ha⟩, by rw [hk]; exact h2.1, by simp, by simp, (allGood_iff cs).2 h4⟩
  rw [← hk]
  exact List.mem_map_of_mem ha

private def SurfaceText (s : OpenmcSurface) : Prop := AttrText s.id ∧ AttrText s.type ∧ AttrText s.coeffs ∧ AttrText s.boundary

private def CellText (e : OpenMCCellElem) : Prop := AttrText e.id ∧ AttrText e.region ∧ AttrText e.uni ∧ (∀ m, e.material = some m → AttrText m) ∧
  ∀ f r t, e.filled = some (f, r, t) → AttrText f ∧ AttrText r ∧ AttrText t

private def MaterialText (m : OpenmcMaterial) : Prop := AttrText m.id ∧ AttrText m.name ∧ AttrText m.density ∧ AttrText m.units ∧ ∀ n ∈ m.nuclides, AttrText n.name ∧ AttrText n.frac

private theorem surface_good (s : OpenmcSurface) (h : SurfaceText s) : (xmlSurface s).Good := by
  obtain ⟨h1, h2, h3, h4⟩ := h
  refine good_fresh _ _ _ (by decide) [c!"id", c!"type", c!"coeffs", c!"boundary"] rfl (by decide) ?_ (by simp)
  intro a ha
  simp only [List.mem_cons, List.not_mem_nil, or_false] at ha
  rcases ha with rfl | rfl | rfl | rfl
  exacts [h1, h2, h3, h4]

private theorem cell_good (e : OpenMCCellElem) (h : CellText e) : (xmlCell e).Good := by
  obtain ⟨h1, h2, h3, h4, h5⟩ := h
  obtain ⟨id, material, region, uni, filled⟩ := e
  unfold xmlCell
  rcases filled with _ | ⟨f, r, t⟩
  · refine good_fresh _ _ _ (by decide) [c!"id", c!"material", c!"region", c!"universe"] rfl (by decide) ?_ (by simp)
    intro a ha
    simp only [List.mem_cons, List.not_mem_nil, or_false] at ha
    rcases ha with rfl | rfl | rfl | rfl
    · exact h1
    · cases material with
      | none => intro c hc; cases hc
      | some m => exact h4 m rfl
    · exact h2
    · exact h3
  · obtain ⟨k1, k2, k3⟩ := h5 f r t rfl
    refine good_fresh _ _ _ (by decide) [c!"id", c!"region", c!"universe", c!"fill", c!"rotation", c!"translation"] rfl (by decide) ?_ (by simp)
    intro a ha
    simp only [List.mem_cons, List.not_mem_nil, or_false] at ha
    rcases ha with rfl | rfl | rfl | rfl | rfl | rfl
    exacts [h1, h2, h3, k1, k2, k3]

private theorem material_good (m : OpenmcMaterial) (h : MaterialText m) : (xmlMaterial m).Good := by
  obtain ⟨h1, h2, h3, h4, h5⟩ := h
  refine good_fresh _ _ _ (by decide) [c!"id", c!"name"] rfl (by decide) ?_ ?_
  · intro a ha
    simp only [List.mem_cons, List.not_mem_nil, or_false] at ha
    rcases ha with rfl | rfl
    exacts [h1, h2]
  · intro x hx
    rcases List.mem_cons.1 hx with rfl | hx
    · refine good_fresh _ _ _ (by decide) [c!"value", c!"units"] rfl (by decide) ?_ (by simp)
      intro a ha
      simp only [List.mem_cons, List.not_mem_nil, or_false] at ha
      rcases ha with rfl | rfl
      exacts [h3, h4]
    · obtain ⟨n, hn, rfl⟩ := List.mem_map.1 hx
      refine good_fresh _ _ _ (by decide) [c!"name", if n.mass then c!"wo" else c!"ao"] rfl (by cases n.mass <;> decide) ?_ (by simp)
      intro a ha
      simp only [List.mem_cons, List.not_mem_nil, or_false] at ha
      rcases ha with rfl | rfl
      exacts [(h5 n hn).1, (h5 n hn).2]

private theorem read_geometry (ss : List OpenmcSurface) (cs : List OpenMCCellElem) (hs : ∀ s ∈ ss, SurfaceText s ∧ parseInt s.id ≠ none)
    (hc : ∀ c ∈ cs, CellText c ∧ (c.filled = none ↔ c.material ≠ none) ∧ CellNumbers c)
    (h1 : (ss.map (·.id)).Nodup) (h2 : (cs.map (·.id)).Nodup) : openmcGeometry (geometryXml ss cs) = some (ss, cs) := by
  have hg : (Xml.fresh c!"geometry" [] (ss.map xmlSurface ++ cs.map xmlCell)).Good := by
    refine good_fresh _ _ _ (by decide) [] rfl (by decide) (by simp) ?_
    intro x hx
    rcases List.mem_append.1 hx with hx | hx
    · obtain ⟨s, h, rfl⟩ := List.mem_map.1 hx
      exact surface_good s (hs s h).1
    · obtain ⟨c, h, rfl⟩ := List.mem_map.1 hx
      exact cell_good c (hc c h).1
  have hm : (Xml.bareAll (ss.map xmlSurface ++ cs.map xmlCell)).mapM openmcElement = some (ss.map .inl ++ cs.map .inr) := by
    rw [bareAll_eq, List.map_append, List.map_map, List.map_map]
    exact mapM_append_some (mapM_some fun s h => read_surface s (hs s h).2) (mapM_some fun c h => read_cell c (hc c h).2.1 (hc c h).2.2)
  unfold openmcGeometry geometryXml
  rw [xmlRead_indent _ hg]
  show (do
    let es ← (Xml.bareAll (ss.map xmlSurface ++ cs.map xmlCell)).mapM openmcElement
    if ((es.filterMap Sum.getLeft?).map OpenmcSurface.id).Nodup ∧ ((es.filterMap Sum.getRight?).map OpenMCCellElem.id).Nodup then some (es.filterMap Sum.getLeft?, es.filterMap Sum.getRight?) else none) = _
  rw [hm]
  have hl := lefts ss cs
  have hr := rights ss cs
  simp only [Option.bind_eq_bind, Option.bind_some, hl, hr]
  rw [if_pos ⟨h1, h2⟩]

private theorem read_materials (ms : List OpenmcMaterial) (h : ∀ m ∈ ms, MaterialText m ∧ parseInt m.id ≠ none) (h1 : (ms.map (·.id)).Nodup) : openmcMaterials (materialsXml ms) = some ms := by
  have hg : (Xml.fresh c!"materials" [] (ms.map xmlMaterial)).Good := by
    refine good_fresh _ _ _ (by decide) [] rfl (by decide) (by simp) ?_
    intro x hx
    obtain ⟨m, hm, rfl⟩ := List.mem_map.1 hx
    exact material_good m (h m hm).1
  have hm : (Xml.bareAll (ms.map xmlMaterial)).mapM openmcMaterial = some ms := by
    rw [bareAll_eq, List.map_map]
    have := mapM_some (f := openmcMaterial) (g := Xml.bare ∘ xmlMaterial) (h := id) (l := ms) fun m hm => read_material m (h m hm).2
    rw [this, List.map_id]
  unfold openmcMaterials materialsXml
  rw [xmlRead_indent _ hg]
  show (do
    let es ← (Xml.bareAll (ms.map xmlMaterial)).mapM openmcMaterial
    if (es.map OpenmcMaterial.id).Nodup then some es else none) = _
  rw [hm]
  show (if (ms.map OpenmcMaterial.id).Nodup then some ms else none) = _
  rw [if_pos h1]

/-! ## Texts of attributes -/

private theorem attr_ascii {s : Str} (h : ∀ c ∈ s, 32 ≤ c.toNat ∧ c.toNat < 128) : AttrText s := by
  intro c hc
  obtain ⟨h1, h2⟩ := h c hc
  refine ⟨?_, ?_⟩
  · unfold xmlChar
    simp only [Bool.or_eq_true, Bool.and_eq_true, decide_eq_true_eq, bne_iff_ne]
    exact .inr ⟨⟨h1, by omega⟩, by omega⟩
  · rintro rfl
    revert h1
    decide

private theorem digit_ascii {c : Char} (h : isDigit c = true) : 32 ≤ c.toNat ∧ c.toNat < 128 := by
  simp only [isDigit, Bool.or_eq_true, beq_iff_eq] at h
  rcases h with ((((((((rfl | rfl) | rfl) | rfl) | rfl) | rfl) | rfl) | rfl) | rfl) | rfl <;> decide

private theorem attr_append {s t : Str} (hs : AttrText s) (ht : AttrText t) : AttrText (s ++ t) := fun c hc => (List.mem_append.1 hc).elim (hs c) (ht c)

private theorem attr_natStr (n : Nat) : AttrText (natStr n) := attr_ascii fun c hc => digit_ascii (natStr_digits n c hc)

private theorem attr_intStr (z : Int) : AttrText (intStr z) := by
  refine attr_ascii fun c hc => ?_
  by_cases h : isDigit c = true
  · exact digit_ascii h
  · by_cases hm : c = '-'
    · subst hm; decide
    · exact absurd hc (intStr_not_mem z (by simpa using h) hm)

private theorem attr_prints {K : Type} {read : Str → Option K} {print : K → Str} {x : K} (h : Prints read print x) : AttrText (print x) := by
  refine attr_ascii fun c hc => ?_
  rcases h.chars c hc with h | rfl | rfl | rfl | rfl
  · exact digit_ascii h
  all_goals decide

private theorem attr_join {ws : List Str} (h : ∀ w ∈ ws, AttrText w) : AttrText (join c!" " ws) := by
  induction ws with
  | nil => intro c hc; cases hc
  | cons w ws ih =>
    cases ws with
    | nil => exact h w (by simp)
    | cons v ws =>
      rw [join]
      · exact attr_append (attr_append (h w (by simp)) (attr_ascii (by decide))) (ih fun x hx => h x (by simp [hx]))
      · simp

private theorem attr_parseInt {s : Str} {z : Int} (h : parseInt s = some z) : AttrText s := by
  have hn : ∀ t : Str, ∀ n, parseNat t = some n → ∀ c ∈ t, isDigit c = true := by
    intro t n hn
    unfold parseNat at hn
    split at hn
    · next h => exact List.all_eq_true.1 h.2
    · cases hn
  have hm : ∀ (t : Str) (n : Int), (do let a ← parseNat t; pure (a : Int) : Option Int) = some n → ∀ c ∈ t, isDigit c = true := fun t n ht => by
    cases hp : parseNat t with
    | none => rw [hp] at ht; cases ht
    | some n => exact hn t n hp
  refine attr_ascii fun c hc => ?_
  unfold parseInt at h
  split at h
  · obtain ⟨n, hp, -⟩ := Option.map_eq_some_iff.1 h
    rcases List.mem_cons.1 hc with rfl | hc
    · decide
    · exact digit_ascii (hm _ _ hp c hc)
  · obtain ⟨n, hp, -⟩ := Option.map_eq_some_iff.1 h
    rcases List.mem_cons.1 hc with rfl | hc
    · decide
    · exact digit_ascii (hm _ _ hp c hc)
  · obtain ⟨n, hp, -⟩ := Option.map_eq_some_iff.1 h
    exact digit_ascii (hm _ _ hp c hc)

section
variable {K : Type} [Field K] [LinearOrder K] [IsStrictOrderedRing K]

private theorem attr_surface {io : NumIO K} {s : Surface K} {e : OpenmcSurface} (h : openmcSurface io s = .ok e) (hr : ∀ x ∈ s.coeffs, Prints io.parse io.render x) : SurfaceText e := by
  unfold openmcSurface at h
  obtain ⟨⟨ty, cs⟩, h1, h⟩ := bind_ok h
  obtain ⟨b, h2, h⟩ := bind_ok h
  cases h
  have lit : ∀ w : Str, (∀ c ∈ w, 32 ≤ c.toNat ∧ c.toNat < 128) → AttrText w := fun w => attr_ascii
  have hj : AttrText (join c!" " (s.coeffs.map io.render)) := attr_join fun w hw => by
    obtain ⟨x, hx, rfl⟩ := List.mem_map.1 hw
    exact attr_prints (hr x hx)
  have hk : AttrText (join c!" " ((s.coeffs.take 4).map io.render)) := attr_join fun w hw => by
    obtain ⟨x, hx, rfl⟩ := List.mem_map.1 hw
    exact attr_prints (hr x (List.mem_of_mem_take hx))
  have hp : ∀ (w : Str), (∀ c ∈ w, 32 ≤ c.toNat ∧ c.toNat < 128) → (do let x ← pyGet s.coeffs 3; .ok (w, io.render x) : Py (Str × Str)) = .ok (ty, cs) → AttrText ty ∧ AttrText cs := by
    intro w hw h
    obtain ⟨x, hx, h⟩ := bind_ok h
    cases h
    refine ⟨attr_ascii hw, attr_prints (hr x ?_)⟩
    unfold pyGet at hx
    split at hx
    · next heq => cases hx; exact List.mem_of_getElem? heq
    · cases hx
  have hinfo : AttrText ty ∧ AttrText cs := by
    unfold openmcInfo at h1
    split at h1 <;> first
      | exact hp _ (by decide) h1
      | (simp only [Except.ok.injEq, Prod.mk.injEq] at h1
         obtain ⟨rfl, rfl⟩ := h1
         exact ⟨lit _ (by decide), by first | exact hj | exact hk | exact lit _ (by decide)⟩)
  refine ⟨attr_intStr _, hinfo.1, hinfo.2, ?_⟩
  show AttrText b
  unfold openmcBoundary at h2
  split at h2 <;> simp only [Except.ok.injEq, reduceCtorEq] at h2
  all_goals (subst h2; exact lit _ (by decide))

private theorem attr_region {is : List Item} (h : WordsAre SurfaceWord is) : AttrText (openmcRegion is) := by
  have h0 : ∀ c ∈ is.flatMap openmcItem, 32 ≤ c.toNat ∧ c.toNat < 128 := by
    intro c hc
    obtain ⟨i, hi, hc⟩ := List.mem_flatMap.1 hc
    have lit : ∀ w : Str, (∀ c ∈ w, 32 ≤ c.toNat ∧ c.toNat < 128) → c ∈ w → 32 ≤ c.toNat ∧ c.toNat < 128 := fun w h hc => h c hc
    match i with
    | .op .not => exact lit c!" ~ " (by decide) hc
    | .op .and => exact lit c!" " (by decide) hc
    | .op .union => exact lit c!" | " (by decide) hc
    | .str s =>
      by_cases hp : IsParen s
      · rcases hp with rfl | rfl
        · exact lit c!"(" (by decide) hc
        · exact lit c!")" (by decide) hc
      · rcases (h s hi hp).1.2 c hc with h | rfl
        · exact digit_ascii h
        · decide
  have hr : ∀ (a : Char) (w s : Str), (∀ c ∈ w, 32 ≤ c.toNat ∧ c.toNat < 128) → (∀ c ∈ s, 32 ≤ c.toNat ∧ c.toNat < 128) → ∀ c ∈ replaceChar a w s, 32 ≤ c.toNat ∧ c.toNat < 128 := by
    intro a w s hw hs c hc
    unfold replaceChar at hc
    obtain ⟨d, hd, hc⟩ := List.mem_flatMap.1 hc
    split at hc
    · exact hw c hc
    · rw [List.mem_singleton.1 hc]; exact hs d hd
  unfold openmcRegion
  exact attr_ascii (hr _ _ _ (by decide) (hr _ _ _ (by decide) h0))

/-! ## Transforms -/

private theorem entries_words {io : NumIO K} {l : List (Entry K)} (h : ∀ e ∈ l, EntryPrints io e) :
    ∃ vs, l.mapM (entryValue io) = some vs ∧ (l.map fun e => e.text io).mapM io.parse = some vs ∧ vs.length = l.length := by
  induction l with
  | nil => exact ⟨[], rfl, rfl, rfl⟩
  | cons e l ih =>
    obtain ⟨vs, h1, h2, h3⟩ := ih fun x hx => h x (by simp [hx])
    obtain ⟨-, -, -, x, hx, hy⟩ := h e (by simp)
    exact ⟨x :: vs, by rw [List.mapM_cons, hx, h1]; rfl, by rw [List.map_cons, List.mapM_cons, hy, h2]; rfl, by simp [h3]⟩

private theorem zeros_words {io : NumIO K} (h0 : io.parse c!"0" = some 0) : (split c!"0 0 0").mapM io.parse = some [0, 0, 0] := by
  have : split c!"0 0 0" = [c!"0", c!"0", c!"0"] := by decide
  rw [this]
  simp [List.mapM_cons, h0]

private theorem rotation_words {io : NumIO K} {l : List (Entry K)} (hl : l.length = 9) (h : ∀ e ∈ l, EntryPrints io e) :
    ∃ r vs, openmcRotation io (some l) = .ok r ∧ AttrText r ∧ (split r).mapM io.parse = some vs ∧ l.mapM (entryValue io) = some vs ∧ vs.length = 9 := by
  obtain ⟨vs, h1, h2, h3⟩ := entries_words h
  refine ⟨join c!" " (l.map fun e => e.text io), vs, ?_, ?_, ?_, h1, h3.trans hl⟩
  · unfold openmcRotation
    simp only []
    rw [range_mapM_get (fun e => .ok (e.text io)) l 9 hl]
    have : l.mapM (fun e => (.ok (e.text io) : Py Str)) = .ok (l.map fun e => e.text io) := mapM_ok_of_forall fun x _ => rfl
    rw [this]
    rfl
  · refine attr_join fun w hw => ?_
    obtain ⟨e, he, rfl⟩ := List.mem_map.1 hw
    exact (h e he).2.2.1
  · rw [split_joinWords _ fun w hw => ?_, h2]
    obtain ⟨e, he, rfl⟩ := List.mem_map.1 hw
    exact ⟨(h e he).1, (h e he).2.1⟩

private theorem offset_words {io : NumIO K} {l : List (Entry K)} (hl : l.length = 3) (h : ∀ e ∈ l, EntryPrints io e) :
    ∃ r vs, offsetText io l = .ok r ∧ AttrText r ∧ (split r).mapM io.parse = some vs ∧ l.mapM (entryValue io) = some vs ∧ vs.length = 3 := by
  obtain ⟨vs, h1, h2, h3⟩ := entries_words h
  have hb : ∀ ws : List Str, (∀ w ∈ ws, w ≠ [] ∧ NoSpace w) → split (blanked ws) = ws := by
    intro ws
    induction ws with
    | nil => intro _; rfl
    | cons w ws ih =>
      intro hw
      rw [blanked_cons, split_word_space _ _ _ (by decide) (hw w (by simp)).2 (hw w (by simp)).1, ih fun x hx => hw x (by simp [hx])]
  refine ⟨blanked (l.map fun e => e.text io), vs, ?_, ?_, ?_, h1, h3.trans hl⟩
  · unfold offsetText
    rw [range_mapM_get (fun e => .ok (e.text io ++ c!" ")) l 3 hl]
    have : l.mapM (fun e => (.ok (e.text io ++ c!" ") : Py Str)) = .ok (l.map fun e => e.text io ++ c!" ") := mapM_ok_of_forall fun x _ => rfl
    rw [this]
    show Except.ok (l.map fun e => e.text io ++ c!" ").flatten = _
    rw [blanked, List.map_map]
    rfl
  · intro c hc
    unfold blanked at hc
    obtain ⟨t, ht, hc⟩ := List.mem_flatten.1 hc
    obtain ⟨w, hw, rfl⟩ := List.mem_map.1 ht
    obtain ⟨e, he, rfl⟩ := List.mem_map.1 hw
    exact attr_append (h e he).2.2.1 (attr_ascii (by decide)) c hc
  · rw [hb _ fun w hw => ?_, h2]
    obtain ⟨e, he, rfl⟩ := List.mem_map.1 hw
    exact ⟨(h e he).1, (h e he).2.1⟩

private theorem fill_words {io : NumIO K} (h0 : io.parse c!"0" = some 0) (c : Cell K)
    (ho : ∀ l, c.offset = some l → l.length = 3 ∧ ∀ e ∈ l, EntryPrints io e) (hr : ∀ l, c.rotation = some l → l.length = 9 ∧ ∀ e ∈ l, EntryPrints io e) :
    ∃ r t tr, openmcRotation io c.rotation = .ok r ∧ (match c.offset with | some l => offsetText io l | none => .ok c!"0 0 0" : Py Str) = .ok t ∧ AttrText r ∧ AttrText t ∧
      openmcTransform io r t = some tr ∧ fillTransform io c = some tr := by
  obtain ⟨t, vs, a1, a2, a3, a4, a5⟩ : ∃ t vs, (match c.offset with | some l => offsetText io l | none => .ok c!"0 0 0" : Py Str) = .ok t ∧ AttrText t ∧ (split t).mapM io.parse = some vs ∧
      (match c.offset with | none => some [0, 0, 0] | some l => l.mapM (entryValue io) : Option (List K)) = some vs ∧ vs.length = 3 := by
    cases h : c.offset with
    | none => exact ⟨_, [0, 0, 0], rfl, attr_ascii (by decide), zeros_words h0, rfl, rfl⟩
    | some l => exact offset_words (ho l h).1 (ho l h).2
  obtain ⟨r, ws, b1, b2, us, b3, b4, b5, b6⟩ : ∃ r ws, openmcRotation io c.rotation = .ok r ∧ AttrText r ∧ ∃ us, (split r).mapM io.parse = some us ∧ (if us = [0, 0, 0] then noRotation else us) = ws ∧
      (match c.rotation with | none => some noRotation | some l => l.mapM (entryValue io) : Option (List K)) = some ws ∧ ws.length = 9 := by
    cases h : c.rotation with
    | none => exact ⟨_, noRotation, rfl, attr_ascii (by decide), [0, 0, 0], zeros_words h0, if_pos rfl, rfl, rfl⟩
    | some l =>
      obtain ⟨r, us, b1, b2, b3, b4, b5⟩ := rotation_words (hr l h).1 (hr l h).2
      exact ⟨r, us, b1, b2, us, b3, if_neg (by rintro rfl; cases b5), b4, b5⟩
  obtain ⟨tr, htr⟩ : ∃ tr, transformOf vs ws = some tr := by
    match vs, ws, a5, b6 with
    | [_, _, _], [_, _, _, _, _, _, _, _, _], _, _ => exact ⟨_, rfl⟩
  refine ⟨r, t, tr, b1, a1, b2, a2, ?_, ?_⟩
  · unfold openmcTransform
    rw [a3, b3]
    show transformOf vs (if us = [0, 0, 0] then noRotation else us) = _
    rw [b4, htr]
  · unfold fillTransform
    have : ∀ a b : Option (List K), a = some vs → b = some ws → (do let offset ← a; let rotation ← b; transformOf offset rotation) = some tr := by
      rintro a b rfl rfl
      exact htr
    exact this _ _ a4 b5

/-! ## Cells -/

private theorem cell_made {io : NumIO K} (h0 : io.parse c!"0" = some 0) (c : Cell K) (hs : Spaced c.interpreted) (hw : WordsAre SurfaceWord c.interpreted) (hm : ∃ n, parseInt c.material.text = some n)
    (hu : ∃ u, parseInt (c.uni.getD c!"0") = some u) (hf : ∀ s, c.fill = some s → ∃ f, parseInt s = some f)
    (ho : ∀ l, c.offset = some l → l.length = 3 ∧ ∀ e ∈ l, EntryPrints io e) (hr : ∀ l, c.rotation = some l → l.length = 9 ∧ ∀ e ∈ l, EntryPrints io e) :
    ∃ e, writeOpenmcCell io c = .ok e ∧ OpenmcCellSays io c e ∧ CellText e ∧ (e.filled = none ↔ e.material ≠ none) ∧ CellNumbers e ∧ e.filled.map Prod.fst = c.fill := by
  obtain ⟨r, t, tr, a1, a2, a3, a4, a5, a6⟩ := fill_words h0 c ho hr
  obtain ⟨u, hu⟩ := hu
  obtain ⟨mn, hm⟩ := hm
  have huni : AttrText (optText c.uni) := attr_parseInt (s := optText c.uni) (z := u) hu
  cases hfill : c.fill with
  | none =>
    refine ⟨{ id := intStr c.id, material := some (if c.material.text = c!"0" then c!"void" else c.material.text), region := openmcRegion c.interpreted, uni := optText c.uni, filled := none }, ?_, ?_, ?_, ?_, ?_, rfl⟩
    · unfold writeOpenmcCell
      rw [a1]
      show (match c.offset with | some l => offsetText io l | none => .ok c!"0 0 0" : Py Str) >>= _ = _
      rw [a2, hfill]
      rfl
    · obtain ⟨-, k1, k2, -⟩ := C30_region io c _ (by
        show writeOpenmcCell io c = .ok { id := intStr c.id, material := some (if c.material.text = c!"0" then c!"void" else c.material.text), region := openmcRegion c.interpreted, uni := optText c.uni, filled := none }
        unfold writeOpenmcCell
        rw [a1]
        show (match c.offset with | some l => offsetText io l | none => .ok c!"0 0 0" : Py Str) >>= _ = _
        rw [a2, hfill]
        rfl) hs hw
      refine ⟨rfl, rfl, k1, k2, ?_⟩
      rw [hfill]
      exact ⟨rfl, rfl⟩
    · refine ⟨attr_intStr _, attr_region hw, huni, ?_, by simp⟩
      rintro m hm'
      cases hm'
      split
      · exact attr_ascii (by decide)
      · exact attr_parseInt hm
    · simp
    · refine ⟨by rw [parseInt_intStr]; simp, by show parseInt (optText c.uni) ≠ none; rw [show parseInt (optText c.uni) = some u from hu]; simp, ?_, by simp⟩
      rintro m hm'
      cases hm'
      split
      · exact .inl rfl
      · exact .inr (by rw [hm]; simp)
  | some f =>
    have hmade : writeOpenmcCell io c = .ok { id := intStr c.id, material := none, region := openmcRegion c.interpreted, uni := optText c.uni, filled := some (f, r, t) } := by
      unfold writeOpenmcCell
      rw [a1]
      show (match c.offset with | some l => offsetText io l | none => .ok c!"0 0 0" : Py Str) >>= _ = _
      rw [a2, hfill]
      rfl
    refine ⟨_, hmade, ?_, ?_, ?_, ?_, rfl⟩
    · obtain ⟨-, k1, k2, -⟩ := C30_region io c _ hmade hs hw
      refine ⟨rfl, rfl, k1, k2, ?_⟩
      rw [hfill]
      exact ⟨rfl, r, t, tr, rfl, a5, a6⟩
    · refine ⟨attr_intStr _, attr_region hw, huni, by simp, ?_⟩
      rintro f' r' t' h
      cases h
      obtain ⟨z, hz⟩ := hf f hfill
      exact ⟨attr_parseInt hz, a3, a4⟩
    · simp
    · refine ⟨by rw [parseInt_intStr]; simp, by show parseInt (optText c.uni) ≠ none; rw [show parseInt (optText c.uni) = some u from hu]; simp, by simp, ?_⟩
      rintro f' t' h
      cases h
      obtain ⟨z, hz⟩ := hf f hfill
      rw [hz]
      simp

/-! ## Universes -/

private theorem check_filter (fuel : Nat) : ∀ es es', checkUnusedUniverses fuel es = some (.ok es') → ∃ p : OpenMCCellElem → Bool, es' = es.filter p := by
  induction fuel with
  | zero =>
    intro es es' h
    unfold checkUnusedUniverses at h
    split at h
    · cases h
    · split at h
      · cases h
      · cases h; exact ⟨fun _ => true, by simp⟩
  | succ fuel ih =>
    intro es es' h
    unfold checkUnusedUniverses at h
    split at h
    · cases h
    · split at h
      · obtain ⟨p, hp⟩ := ih _ _ h
        exact ⟨_, hp.trans List.filter_filter⟩
      · cases h; exact ⟨fun _ => true, by simp⟩

private theorem forall₂_filter {α β : Type} {R : α → β → Prop} {p : α → Bool} {q : β → Bool} {l : List α} {m : List β} (h : List.Forall₂ R l m)
    (hpq : ∀ x ∈ l, ∀ y ∈ m, R x y → p x = q y) : List.Forall₂ R (l.filter p) (m.filter q) := by
  induction h with
  | nil => exact .nil
  | @cons x y l m hxy h ih =>
    have ih := ih fun a ha b hb => hpq a (by simp [ha]) b (by simp [hb])
    have e := hpq x (by simp) y (by simp) hxy
    rw [List.filter_cons, List.filter_cons, e]
    split
    · exact .cons hxy ih
    · exact ih

private theorem universe_iff {cs : List (Cell K)} {es : List OpenMCCellElem} (h : List.Forall₂ (fun c e => e.uni = c.uni.getD c!"0" ∧ e.filled.map Prod.fst = c.fill) cs es) (u : Int) :
    Reachable es u ↔ DeckUniverse cs u := by
  have filled : ∀ (c : Cell K) (e : OpenMCCellElem) f, e.filled.map Prod.fst = c.fill → (FilledWith e f ↔ ∃ s, c.fill = some s ∧ parseInt s = some f) := by
    intro c e f he
    rw [← he]
    constructor
    · rintro ⟨s, t, h1, h2⟩
      exact ⟨s, by rw [h1]; rfl, h2⟩
    · rintro ⟨s, h1, h2⟩
      obtain ⟨⟨s', t⟩, h3, rfl⟩ := Option.map_eq_some_iff.1 h1
      exact ⟨s', t, h3, h2⟩
  constructor
  · intro hr
    induction hr with
    | root => exact .root
    | fill he hu _ hf ih =>
      obtain ⟨c, hc, h1, h2⟩ := forall₂_mem_right h he
      obtain ⟨s, h3, h4⟩ := (filled c _ _ h2).1 hf
      exact .fill hc (by rw [← h1]; exact hu) ih h3 h4
  · intro hr
    induction hr with
    | root => exact .root
    | fill hc hu _ hs hf ih =>
      obtain ⟨e, he, h1, h2⟩ := forall₂_mem_right h.flip hc
      exact .fill he (by unfold InUniverse; rw [h1]; exact hu) ih ((filled _ e _ h2).2 ⟨_, hs, hf⟩)

/-! ## Materials -/

private theorem attr_symbol (z : Nat) : AttrText (symbol z) := by
  have h : ∀ s ∈ symbols, ∀ c ∈ s, 32 ≤ c.toNat ∧ c.toNat < 128 := by decide +kernel
  refine attr_ascii ?_
  unfold symbol
  rw [List.getD_eq_getElem?_getD]
  cases hg : symbols[z - 1]? with
  | none => simp
  | some s => exact h s (List.mem_of_getElem? hg)

private theorem material_made {io : NumIO K} (m : Material K) (l : List (Nuc K)) (hc : m.composition = compositionOf l)
    (hl : ∀ p ∈ l, 0 < p.1 ∧ p.1 ≤ 118 ∧ p.2.1 < 1000 ∧ (p.1 < 10 → p.2.1 < 100) ∧ Prints io.parse io.render |p.2.2|) (hd : Prints io.parse io.render |m.density|)
    (h1 : ∃ n, parseInt m.number = some n) (h2 : AttrText m.name) : ∃ e, writeOpenmcMaterial io m = .ok e ∧ OpenmcMaterialSays io m e ∧ MaterialText e ∧ e.id = m.number := by
  obtain ⟨e, k1, k2, k3, k4, k5⟩ := C78_material_partial io m l hc (fun p hp => ⟨(hl p hp).1, (hl p hp).2.1, (hl p hp).2.2.1, (hl p hp).2.2.2.1⟩) (fun p hp => (hl p hp).2.2.2.2.reads) hd.reads
  refine ⟨e, k1, ⟨k2, k3, k4, l, hc, k5⟩, ?_, k2⟩
  have hw := k1
  unfold writeOpenmcMaterial at hw
  obtain ⟨ns, hns, hw⟩ := bind_ok hw
  cases hw
  obtain ⟨n, h1⟩ := h1
  refine ⟨attr_parseInt h1, h2, attr_prints (x := |m.density|) hd, ?_, fun n hn => ⟨?_, ?_⟩⟩
  · show AttrText (if m.density < 0 then c!"g/cc" else c!"atom/b-cm")
    split <;> exact attr_ascii (by decide)
  · obtain ⟨p, hp, hq, -⟩ := forall₂_mem_right k5 hn
    rw [hq]
    exact attr_append (attr_symbol _) (attr_natStr _)
  · obtain ⟨q, hq, hr⟩ := forall₂_mem_right (mapM_ok_iff.1 hns) hn
    obtain ⟨w, -, hr⟩ := bind_ok hr
    cases hr
    rw [hc] at hq
    obtain ⟨p, hp, rfl⟩ := List.mem_map.1 hq
    exact attr_prints (x := |p.2.2|) (hl p hp).2.2.2.2

/-! ## The files -/

/-- C91: both files are written, and OpenMC reads them as exactly the surfaces, the materials, and the cells of those universes that are part of the geometry, in the order of the deck. Partial: see `OpenmcDeck`. Cones
have both sheets and boundaries are neither white nor periodic, see C68; some cell is in universe 0, see C54. -/
theorem C91_files_partial (e : Env K) (nucs : Material K → List (Nuc K)) (cs : List (Cell K)) (ss : List (Surface K)) (ms : List (Str × Material K)) (hd : OpenmcDeck e.io nucs cs ss ms)
    (hfuel : cs.length ≤ e.fuel) :
    ∃ g m xs es ys kept, Returns (openmcFiles e cs ss ms) (.xml g m) ∧ openmcGeometry g = some (xs, es) ∧ openmcMaterials m = some ys ∧ List.Forall₂ (OpenmcSurfaceSays e.sqrt e.io) ss xs ∧
      List.Forall₂ (fun m y => OpenmcMaterialSays e.io m.2 y) ms ys ∧ kept.Sublist cs ∧ (∀ c ∈ cs, c ∈ kept ↔ InGeometry cs c) ∧ List.Forall₂ (OpenmcCellSays e.io) kept es := by
  obtain ⟨⟨id1, id2, id3⟩, hs, hc, ⟨h0, ht⟩, ⟨hu, ⟨c0, hc0, hu0⟩, depth, hdepth⟩, hm⟩ := hd
  -- surfaces
  obtain ⟨xs, hxs⟩ := exists_forall₂ (R := fun s x => openmcSurface e.io s = .ok x ∧ OpenmcSurfaceSays e.sqrt e.io s x ∧ SurfaceText x) (xs := ss) fun s hs' => by
    obtain ⟨a1, a2, a3, a4, a5⟩ := hs s hs'
    obtain ⟨x, ns, b1, b2, b3, b4, b5⟩ := C68_surface_partial e.sqrt e.io.parse e.io s a1 a2 a3 a4 a5
    exact ⟨x, b1, ⟨b2, b3, ns, b4, b5⟩, attr_surface b1 a5⟩
  -- cells
  obtain ⟨es, hes⟩ := exists_forall₂ (R := fun c x => writeOpenmcCell e.io c = .ok x ∧ OpenmcCellSays e.io c x ∧ CellText x ∧ (x.filled = none ↔ x.material ≠ none) ∧ CellNumbers x ∧ x.filled.map Prod.fst = c.fill) (xs := cs) fun c hc' => by
    obtain ⟨a1, a2, a3⟩ := hc c hc'
    exact cell_made h0 c a1 a2 a3 (hu c hc').1 (fun s h => by obtain ⟨f, h, -⟩ := (hu c hc').2 s h; exact ⟨f, h⟩) (ht c hc').1 (ht c hc').2
  -- materials
  obtain ⟨ys, hys⟩ := exists_forall₂ (R := fun m y => writeOpenmcMaterial e.io m.2 = .ok y ∧ OpenmcMaterialSays e.io m.2 y ∧ MaterialText y ∧ y.id = m.2.number) (xs := ms) fun m hm' => by
    obtain ⟨a1, a2, a3, a4, a5⟩ := hm m hm'
    exact material_made m.2 (nucs m.2) a1 a2 a3 a4 a5
  have huni : List.Forall₂ (fun (c : Cell K) x => x.uni = c.uni.getD c!"0" ∧ x.filled.map Prod.fst = c.fill) cs es := hes.imp fun c x h => ⟨h.2.1.2.1, h.2.2.2.2.2⟩
  -- universes
  have hcell : ∀ x ∈ es, ∃ c ∈ cs, x.uni = c.uni.getD c!"0" ∧ x.filled.map Prod.fst = c.fill := fun x hx => by
    obtain ⟨c, hc, h⟩ := forall₂_mem_right huni hx
    exact ⟨c, hc, h⟩
  have hnum : Numbered es := by
    intro x hx
    obtain ⟨c, hc', h1, h2⟩ := hcell x hx
    refine ⟨by unfold InUniverse; rw [h1]; exact (hu c hc').1, fun s t h => ?_⟩
    rw [h] at h2
    obtain ⟨f, hf, -⟩ := (hu c hc').2 s h2.symm
    exact ⟨f, hf⟩
  obtain ⟨es', k1, k2, k3⟩ := C54_exactly_geometry_partial es hnum
    (by obtain ⟨x, hx, h1, -⟩ := forall₂_mem_right huni.flip hc0; exact ⟨x, hx, by unfold InUniverse; rw [h1]; exact hu0⟩)
    (by
      rintro x hx ⟨s, t, h1, h2⟩
      obtain ⟨c, hc', -, h3⟩ := hcell x hx
      rw [h1] at h3
      obtain ⟨f, hf, hne⟩ := (hu c hc').2 s h3.symm
      exact hne (Option.some.inj (hf.symm.trans h2)))
    depth
    (by
      rintro x hx u f h1 ⟨s, t, h2, h3⟩
      obtain ⟨c, hc', h4, h5⟩ := hcell x hx
      rw [h2] at h5
      exact hdepth c hc' u s f (by rw [← h4]; exact h1) h5.symm h3)
    e.fuel (by rw [← hes.length_eq]; exact hfuel)
  obtain ⟨p, hp⟩ := check_filter _ _ _ k1
  classical
  have hkept : List.Forall₂ (fun c x => writeOpenmcCell e.io c = .ok x ∧ OpenmcCellSays e.io c x ∧ CellText x ∧ (x.filled = none ↔ x.material ≠ none) ∧ CellNumbers x ∧ x.filled.map Prod.fst = c.fill)
      (cs.filter fun c => decide (InGeometry cs c)) es' := by
    rw [hp]
    refine forall₂_filter hes fun c hc' x hx h => ?_
    have h1 := k3 x hx
    rw [hp, List.mem_filter] at h1
    have h2 : InGeometry cs c ↔ ∃ u, InUniverse x u ∧ Reachable es u := by
      unfold InGeometry InUniverse
      rw [h.2.1.2.1]
      simp only [universe_iff huni]
    have h3 : InGeometry cs c ↔ p x = true := by rw [h2, ← h1]; simp [hx]
    by_cases hg : InGeometry cs c
    · rw [h3.1 hg]; simpa using hg
    · have : p x = false := by simpa using fun h => hg (h3.2 h)
      rw [this]
      simpa using hg
  refine ⟨geometryXml xs es', materialsXml ys, xs, es', ys, cs.filter fun c => decide (InGeometry cs c), ?_, ?_, ?_, hxs.imp fun _ _ h => h.2.1, hys.imp fun _ _ h => h.2.1, List.filter_sublist, ?_,
    hkept.imp fun _ _ h => h.2.1⟩
  · unfold openmcFiles
    refine (returns_bind _ _ _).2 ⟨xs, (returns_lift _ _).2 (mapM_ok_iff.2 (hxs.imp fun _ _ h => h.1)), ?_⟩
    refine (returns_bind _ _ _).2 ⟨es, (returns_lift _ _).2 (mapM_ok_iff.2 (hes.imp fun _ _ h => h.1)), ?_⟩
    refine (returns_bind _ _ _).2 ⟨es', (returns_mk _ _).2 (by rw [k1]; rfl), ?_⟩
    refine (returns_bind _ _ _).2 ⟨ys, (returns_lift _ _).2 (mapM_ok_iff.2 (hys.imp fun _ _ h => h.1)), ?_⟩
    exact (returns_pure _ _).2 rfl
  · refine read_geometry xs es' (fun x hx => ?_) (fun x hx => ?_) ?_ ?_
    · obtain ⟨s, -, h⟩ := forall₂_mem_right hxs hx
      exact ⟨h.2.2, by rw [h.2.1.1, parseInt_intStr]; simp⟩
    · obtain ⟨c, -, h⟩ := forall₂_mem_right hkept hx
      exact ⟨h.2.2.1, h.2.2.2.1, h.2.2.2.2.1⟩
    · have : xs.map (·.id) = (ss.map (·.id)).map intStr := by
        clear id2 hs
        induction hxs with
        | nil => rfl
        | cons h _ ih => rw [List.map_cons, List.map_cons, List.map_cons, ih, h.2.1.1]
      rw [this]
      exact id2.map fun _ _ => intStr_injective
    · have : es.map (·.id) = (cs.map (·.id)).map intStr := by
        clear id1 hc hu hdepth ht hc0 hcell hnum k1 k2 k3 hp hkept hfuel huni
        induction hes with
        | nil => rfl
        | cons h _ ih => rw [List.map_cons, List.map_cons, List.map_cons, ih, h.2.1.1]
      have h2 : (es.map (·.id)).Nodup := by
        rw [this]
        exact id1.map fun _ _ => intStr_injective
      exact h2.sublist (k2.map _)
  · refine read_materials ys (fun y hy => ?_) ?_
    · obtain ⟨m, hm', h⟩ := forall₂_mem_right hys hy
      obtain ⟨n, hn⟩ := (hm m hm').2.2.2.1
      exact ⟨h.2.2.1, by rw [h.2.2.2, hn]; simp⟩
    · have : ys.map (·.id) = ms.map (·.2.number) := by
        clear id3 hm
        induction hys with
        | nil => rfl
        | cons h _ ih => rw [List.map_cons, List.map_cons, ih, h.2.2.2]
      rw [this]
      exact id3
  · intro c hc
    rw [List.mem_filter]
    simp [hc]

/-- C91 without cells and surfaces, which `OpenmcDeck` does not cover: the geometry is empty, and the materials are described.
Partial: the conditions on materials of `OpenmcDeck`. -/
theorem C91_materials_partial (e : Env K) (nucs : Material K → List (Nuc K)) (ms : List (Str × Material K)) (id3 : (ms.map (·.2.number)).Nodup)
    (hm : ∀ m ∈ ms, m.2.composition = compositionOf (nucs m.2) ∧ (∀ p ∈ nucs m.2, 0 < p.1 ∧ p.1 ≤ 118 ∧ p.2.1 < 1000 ∧ (p.1 < 10 → p.2.1 < 100) ∧ Prints e.io.parse e.io.render |p.2.2|) ∧
      Prints e.io.parse e.io.render |m.2.density| ∧ (∃ n, parseInt m.2.number = some n) ∧ AttrText m.2.name) :
    ∃ g m ys, Returns (openmcFiles e [] [] ms) (.xml g m) ∧ openmcGeometry g = some ([], []) ∧ openmcMaterials m = some ys ∧ List.Forall₂ (fun m y => OpenmcMaterialSays e.io m.2 y) ms ys := by
  obtain ⟨ys, hys⟩ := exists_forall₂ (R := fun m y => writeOpenmcMaterial e.io m.2 = .ok y ∧ OpenmcMaterialSays e.io m.2 y ∧ MaterialText y ∧ y.id = m.2.number) (xs := ms) fun m hm' => by
    obtain ⟨a1, a2, a3, a4, a5⟩ := hm m hm'
    exact material_made m.2 (nucs m.2) a1 a2 a3 a4 a5
  refine ⟨geometryXml [] [], materialsXml ys, ys, ?_, read_geometry [] [] (by simp) (by simp) (by simp) (by simp), ?_, hys.imp fun _ _ h => h.2.1⟩
  · unfold openmcFiles
    refine (returns_bind _ _ _).2 ⟨[], (returns_lift _ _).2 rfl, ?_⟩
    refine (returns_bind _ _ _).2 ⟨[], (returns_lift _ _).2 rfl, ?_⟩
    refine (returns_bind _ _ _).2 ⟨[], ?_, ?_⟩
    · have : checkUnusedUniverses e.fuel [] = some (.ok []) := by cases e.fuel <;> rfl
      rw [this]
      rfl
    refine (returns_bind _ _ _).2 ⟨ys, (returns_lift _ _).2 (mapM_ok_iff.2 (hys.imp fun _ _ h => h.1)), ?_⟩
    exact (returns_pure _ _).2 rfl
  · refine read_materials ys (fun y hy => ?_) ?_
    · obtain ⟨m, hm', h⟩ := forall₂_mem_right hys hy
      obtain ⟨n, hn⟩ := (hm m hm').2.2.2.1
      exact ⟨h.2.2.1, by rw [h.2.2.2, hn]; simp⟩
    · have : ys.map (·.id) = ms.map (·.2.number) := by
        clear id3 hm
        induction hys with
        | nil => rfl
        | cons h _ ih => rw [List.map_cons, List.map_cons, ih, h.2.2.2]
      rw [this]
      exact id3

end

/-! ## A case that meets the hypotheses -/

private def sampleBall : Surface ℚ := { Surface.blank with id := 1, type := .sphereGeneral, coeffs := [0, 0, 0, 5], bc := .vacuum }

private def sampleGas : Material ℚ := { name := c!"\"gas\" < 1 & é", number := c!"2", composition := [(c!"1001", 1)], xsid := [], density := -7 }

/-- The cell `-1`, filled with universe 5, which is moved and turned. -/
private def sampleInner : Cell ℚ := { (Cell.blank : Cell ℚ) with
  id := 1, interpreted := [.op .and, .str c!"-1"], fill := some c!"5", offset := some [.txt c!"1", .num 2, .num 0],
  rotation := some [.num 0, .num 1, .num 0, .num (-1), .num 0, .num 0, .num 0, .num 0, .num 1] }

/-- The cell `1`. -/
private def sampleOuter : Cell ℚ := { (Cell.blank : Cell ℚ) with id := 2, interpreted := [.op .and, .str c!"1"] }

/-- A cell of gas in universe 5. -/
private def samplePart : Cell ℚ := { writtenCell with fill := none, offset := none }

/-- A cell in universe 9, which fills no cell. -/
private def sampleUnused : Cell ℚ := { (Cell.blank : Cell ℚ) with id := 4, interpreted := [.op .and, .str c!"1"], uni := some c!"9", fill := some c!"5" }

private def sampleEnv : Env ℚ :=
  { fuel := 100, io := sampleIO, fixed := sampleIO.render, sci := sampleIO.render, sci4 := sampleIO.render, sci3 := sampleIO.render, sqrt := id, degAtan := id, orderStr := id, orderInt := id }

example : Returns (openmcFiles sampleEnv [sampleInner, sampleOuter, samplePart, sampleUnused] [sampleBall] [(c!"2", sampleGas)]) (.xml
    (c!"<geometry>\n  <surface id=\"1\" type=\"sphere\" coeffs=\"0.0 0.0 0.0 5.0\" boundary=\"vacuum\" />\n" ++
      c!"  <cell id=\"1\" region=\" -1\" universe=\"0\" fill=\"5\" rotation=\"0.0 1.0 0.0 -1.0 0.0 0.0 0.0 0.0 1.0\" translation=\"1 2.0 0.0 \" />\n" ++
      c!"  <cell id=\"2\" material=\"void\" region=\" 1\" universe=\"0\" />\n" ++
      c!"  <cell id=\"3\" material=\"2\" region=\" ( -1 |  2 )  ~  ( 4 ) \" universe=\"5\" />\n</geometry>\n")
    (c!"<materials>\n  <material id=\"2\" name=\"&quot;gas&quot; &lt; 1 &amp; &#233;\">\n    <density value=\"7.0\" units=\"g/cc\" />\n" ++
      c!"    <nuclide name=\"H1\" ao=\"1.0\" />\n  </material>\n</materials>\n")) := by
  unfold Returns
  decide +kernel

private theorem single_good {w : Str} {c : Cell ℚ} (hi : c.interpreted = [.op .and, .str w]) (hg : generalise [w] = .ok ([.op .and, .str w], [1])) (ht : tokenSyms [w] = [.atom w])
    (hl : SurfaceWord w ∧ w.length ≤ 60) : Spaced c.interpreted ∧ WordsAre SurfaceWord c.interpreted := by
  rw [hi]
  refine ⟨generalise_spaced hg ⟨.atom w, ?_⟩, wordsAre_of fun i hi => ?_⟩
  · rw [ht]
    exact .one (.single (.atom _))
  · simp only [List.mem_cons, List.not_mem_nil, or_false] at hi
    rcases hi with rfl | rfl
    · trivial
    · exact .inr hl

private theorem sample_entry (n : Int) (h : decimal (sampleIO.render (n : ℚ)) = some (n : ℚ)) : EntryPrints sampleIO (.num (n : ℚ)) := by
  have hp := sample_prints n h
  exact ⟨hp.ne_nil, hp.noSpace, attr_prints (x := (n : ℚ)) hp, n, rfl, h⟩

example : OpenmcDeck sampleEnv.io (fun _ => [(1, 1, 1)]) [sampleInner, sampleOuter, samplePart, sampleUnused] [sampleBall] [(c!"2", sampleGas)] := by
  have p0 : Prints sampleIO.parse sampleIO.render (0 : ℚ) := by exact_mod_cast sample_prints 0 (by decide +kernel)
  have p1 : Prints sampleIO.parse sampleIO.render (1 : ℚ) := by exact_mod_cast sample_prints 1 (by decide +kernel)
  have p5 : Prints sampleIO.parse sampleIO.render (5 : ℚ) := by exact_mod_cast sample_prints 5 (by decide +kernel)
  have p7 : Prints sampleIO.parse sampleIO.render (7 : ℚ) := by exact_mod_cast sample_prints 7 (by decide +kernel)
  have e0 : EntryPrints sampleIO (.num 0) := by exact_mod_cast sample_entry 0 (by decide +kernel)
  have e1 : EntryPrints sampleIO (.num 1) := by exact_mod_cast sample_entry 1 (by decide +kernel)
  have e2 : EntryPrints sampleIO (.num 2) := by exact_mod_cast sample_entry 2 (by decide +kernel)
  have em : EntryPrints sampleIO (.num (-1)) := by exact_mod_cast sample_entry (-1) (by decide +kernel)
  have et : EntryPrints sampleIO (.txt c!"1") := ⟨by decide, by decide, attr_ascii (by decide), 1, by decide +kernel, by decide +kernel⟩
  refine ⟨⟨by decide, by decide, by decide⟩, ?_, ?_, ⟨by decide +kernel, ?_⟩, ⟨?_, ⟨sampleInner, by simp, by decide⟩, fun u => if u = 5 then 0 else 1, ?_⟩, ?_⟩
  · intro s hs
    rw [List.mem_singleton] at hs
    subst hs
    refine ⟨rfl, .inl trivial, trivial, .inr (.inl rfl), fun x hx => ?_⟩
    simp only [sampleBall, List.mem_cons, List.not_mem_nil, or_false, or_self_left] at hx
    rcases hx with rfl | rfl
    · exact p0
    · exact p5
  · intro c hc
    simp only [List.mem_cons, List.not_mem_nil, or_false] at hc
    rcases hc with rfl | rfl | rfl | rfl
    · exact ⟨(single_good rfl (by decide +kernel) (by decide +kernel) ⟨⟨by decide, by decide⟩, by decide⟩).1, (single_good rfl (by decide +kernel) (by decide +kernel) ⟨⟨by decide, by decide⟩, by decide⟩).2, 0, by decide⟩
    · exact ⟨(single_good rfl (by decide +kernel) (by decide +kernel) ⟨⟨by decide, by decide⟩, by decide⟩).1, (single_good rfl (by decide +kernel) (by decide +kernel) ⟨⟨by decide, by decide⟩, by decide⟩).2, 0, by decide⟩
    · exact ⟨writtenCell_writable.spaced, writtenCell_writable.words, 2, by decide⟩
    · exact ⟨(single_good rfl (by decide +kernel) (by decide +kernel) ⟨⟨by decide, by decide⟩, by decide⟩).1, (single_good rfl (by decide +kernel) (by decide +kernel) ⟨⟨by decide, by decide⟩, by decide⟩).2, 0, by decide⟩
  · intro c hc
    simp only [List.mem_cons, List.not_mem_nil, or_false] at hc
    rcases hc with rfl | rfl | rfl | rfl
    · refine ⟨fun l hl => ?_, fun l hl => ?_⟩
      · cases hl
        refine ⟨rfl, fun e he => ?_⟩
        simp only [List.mem_cons, List.not_mem_nil, or_false] at he
        rcases he with rfl | rfl | rfl
        exacts [et, e2, e0]
      · cases hl
        refine ⟨rfl, fun e he => ?_⟩
        simp only [List.mem_cons, List.not_mem_nil, or_false] at he
        rcases he with rfl | rfl | rfl | rfl | rfl | rfl | rfl | rfl | rfl
        exacts [e0, e1, e0, em, e0, e0, e0, e0, e1]
    all_goals exact ⟨fun l hl => (by cases hl), fun l hl => (by cases hl)⟩
  · intro c hc
    simp only [List.mem_cons, List.not_mem_nil, or_false] at hc
    rcases hc with rfl | rfl | rfl | rfl
    · exact ⟨⟨0, by decide⟩, fun s hs => by cases hs; exact ⟨5, by decide, by decide⟩⟩
    · exact ⟨⟨0, by decide⟩, fun s hs => by cases hs⟩
    · exact ⟨⟨5, by decide⟩, fun s hs => by cases hs⟩
    · exact ⟨⟨9, by decide⟩, fun s hs => by cases hs; exact ⟨5, by decide, by decide⟩⟩
  · intro c hc u s f hu hs hf
    simp only [List.mem_cons, List.not_mem_nil, or_false] at hc
    have h5 : parseInt c!"5" = some 5 := by decide
    rcases hc with rfl | rfl | rfl | rfl
    · cases hs
      cases h5.symm.trans hf
      cases (show parseInt (sampleInner.uni.getD c!"0") = some 0 by decide).symm.trans hu
      decide
    · cases hs
    · cases hs
    · cases hs
      cases h5.symm.trans hf
      cases (show parseInt (sampleUnused.uni.getD c!"0") = some 9 by decide).symm.trans hu
      decide
  · intro m hm
    rw [List.mem_singleton] at hm
    subst hm
    refine ⟨by decide +kernel, fun p hp => ?_, ?_, ⟨2, by decide⟩, by unfold AttrText; decide⟩
    · rw [List.mem_singleton] at hp
      subst hp
      exact ⟨by decide, by decide, by decide, fun _ => by decide, by show Prints sampleIO.parse sampleIO.render |(1 : ℚ)|; rw [abs_one]; exact p1⟩
    · show Prints sampleIO.parse sampleIO.render |(-7 : ℚ)|
      rw [show |(-7 : ℚ)| = 7 by norm_num]
      exact p7

/-- Without the conditions C91 fails: a white boundary is read as vacuum. -/
theorem C91_refuted_white : ∃ (s : Surface ℚ) (g m : Str) (x : OpenmcSurface), WellFormed s ∧ s.bc = .white ∧ Returns (openmcFiles sampleEnv [sampleOuter] [s] []) (.xml g m) ∧
    (openmcGeometry g).map Prod.fst = some [x] ∧ openmcBoundaryMeaning.lookup x.boundary = some .vacuum :=
  ⟨{ sampleBall with bc := .white },
    c!"<geometry>\n  <surface id=\"1\" type=\"sphere\" coeffs=\"0.0 0.0 0.0 5.0\" boundary=\"vacuum\" />\n  <cell id=\"2\" material=\"void\" region=\" 1\" universe=\"0\" />\n</geometry>\n",
    c!"<materials />", ⟨c!"1", c!"sphere", c!"0.0 0.0 0.0 5.0", c!"vacuum"⟩, rfl, rfl, by unfold Returns; decide +kernel, by decide +kernel, by decide⟩

end Csg
