import Verif.Lemmas.InputFile
import Verif.Props.McnpFileBack
import Verif.Spec.Converted
import Verif.Spec.Sample

/-!
# From the text of a file to the deck: C99
-/

set_option linter.unusedSectionVars false

namespace Csg

open Spec

/-! ## Lists -/

private theorem forall₂_split {α β : Type} {R : α → β → Prop} {l : List α} {a : List β} {x : β} {b : List β} (h : List.Forall₂ R l (a ++ x :: b)) :
    ∃ a' x' b', l = a' ++ x' :: b' ∧ List.Forall₂ R a' a ∧ R x' x ∧ List.Forall₂ R b' b := by
  induction a generalizing l with
  | nil =>
    cases h with
    | cons h1 h2 => exact ⟨[], _, _, rfl, .nil, h1, h2⟩
  | cons y a ih =>
    cases h with
    | cons h1 h2 =>
      obtain ⟨a', x', b', rfl, k1, k2, k3⟩ := ih h2
      exact ⟨_ :: a', x', b', rfl, .cons h1 k1, k2, k3⟩

private theorem lookup_of_mem {α β : Type} [BEq α] [LawfulBEq α] {l : List (α × β)} (h : (l.map Prod.fst).Nodup) {a : α} {b : β} (hm : (a, b) ∈ l) : l.lookup a = some b := by
  induction l with
  | nil => cases hm
  | cons p l ih =>
    obtain ⟨a', b'⟩ := p
    rw [List.map_cons, List.nodup_cons] at h
    rcases List.mem_cons.1 hm with e | hm
    · cases e
      simp
    · have hne : a ≠ a' := fun e => h.1 (e ▸ List.mem_map.2 ⟨_, hm, rfl⟩)
      rw [List.lookup_cons, show (a == a') = false by simpa using hne]
      exact ih h.2 hm

private theorem lookup_none {α β : Type} [BEq α] [LawfulBEq α] {l : List (α × β)} {a : α} (h : a ∉ l.map Prod.fst) : l.lookup a = none := by
  induction l with
  | nil => rfl
  | cons p l ih =>
    rw [List.map_cons, List.mem_cons, not_or] at h
    obtain ⟨a', b'⟩ := p
    rw [List.lookup_cons, show (a == a') = false by simpa using h.1]
    exact ih h.2

section
variable {K : Type} [Field K] [LinearOrder K] [IsStrictOrderedRing K]

/-! ## Data block -/

private theorem material_looks {l n : Str} (h : MaterialHead l n) : LooksLikeMaterial l := by
  obtain ⟨h1, h2, k, t, rfl, -⟩ := h
  cases n with
  | nil => exact absurd rfl h1
  | cons d n => exact ⟨k, d, n ++ t, by simp, h2 d (by simp)⟩

private theorem material_entry {io : NumIO K} {g : List Str} {e : DataEntry K} (h : DataSays io g e) {n : Str} : IsMaterialCard g n ↔ ∃ k es xs, e = .material k es xs ∧ n = natStr k := by
  constructor
  · intro hm
    cases e with
    | material k es xs => exact ⟨k, es, xs, rfl, isMaterial_unique hm h.card.1⟩
    | _ =>
      obtain ⟨first, more, rfl, hh⟩ := hm
      exact absurd (material_looks hh) (h.noMaterial first (by simp))
  · rintro ⟨k, es, xs, rfl, rfl⟩
    exact h.card.1

private theorem head_tr {io : NumIO K} {g : List Str} {e : DataEntry K} (h : DataSays io g e) (hne : ∀ n d v, e ≠ .transform n d v) : ∀ l, g.head? = some l → ∀ d t, l ≠ trName d t := by
  intro l hl d t hlt
  cases e with
  | transform n d v => exact hne n d v rfl
  | other => exact h.card l hl d t hlt
  | material k es xs =>
    obtain ⟨first, more, rfl, -, -, k, t', e, -⟩ := h.card.1
    cases hl
    rw [e] at hlt
    cases k <;> cases d <;> simp [trName, List.replicate_succ] at hlt
  | importance vs =>
    obtain ⟨body, conts, rfl, -⟩ := h.card
    cases hl
    cases d <;> simp [trName] at hlt

private theorem transform_entry {io : NumIO K} {g : List Str} {e : DataEntry K} (h : DataSays io g e) {n : Str} : (∃ d, IsTransformCard g d n) ↔ ∃ k d v, e = .transform k d v ∧ n = natStr k := by
  constructor
  · rintro ⟨d, hm⟩
    by_cases hne : ∃ n d v, e = .transform n d v
    · obtain ⟨k, d', v, rfl⟩ := hne
      exact ⟨k, d', v, rfl, isTransform_unique hm h.card.1.1⟩
    · obtain ⟨-, -, -, t, more, rfl, -⟩ := hm
      refine absurd ?_ (head_tr h (fun n d v e => hne ⟨n, d, v, e⟩) _ rfl d (n ++ t))
      cases d <;> simp [trName]
  · rintro ⟨k, d, v, rfl, rfl⟩
    exact ⟨d, h.card.1.1⟩

private theorem trPoint_of {cosDeg : K → K} {d : Bool} {v : List K} {t : Transform K} (h : TransformOf cosDeg d v t) (h9 : v.length ≠ 9) (p : Point K) : pullback t p = trPoint cosDeg d v p := by
  cases h with
  | three x y z => simp [pullback, trPoint]
  | nine => exact absurd rfl h9
  | twelve => cases d <;> simp [pullback, trPoint, trRow]

private theorem mem_materials {f : InputFile K} {m : Nat × List (Str × Str) × List K} : m ∈ f.materials ↔ .material m.1 m.2.1 m.2.2 ∈ f.data := by
  unfold InputFile.materials
  rw [List.mem_filterMap]
  constructor
  · rintro ⟨e, he, h⟩
    cases e <;> simp at h
    subst h
    exact he
  · intro h
    exact ⟨_, h, rfl⟩

private theorem mem_transforms {f : InputFile K} {m : Nat × Bool × List K} : m ∈ f.transforms ↔ .transform m.1 m.2.1 m.2.2 ∈ f.data := by
  unfold InputFile.transforms
  rw [List.mem_filterMap]
  constructor
  · rintro ⟨e, he, h⟩
    cases e <;> simp at h
    subst h
    exact he
  · intro h
    exact ⟨_, h, rfl⟩

private theorem mem_importances {f : InputFile K} {v : List K} : v ∈ f.importances ↔ .importance v ∈ f.data := by
  unfold InputFile.importances
  rw [List.mem_filterMap]
  constructor
  · rintro ⟨e, he, h⟩
    cases e <;> simp at h
    subst h
    exact he
  · intro h
    exact ⟨_, h, rfl⟩

private theorem read_materials (io : NumIO K) {gs : List (List Str)} {f : InputFile K} (hg : DataCards gs) (h : List.Forall₂ (DataSays io) gs f.data) (hn : (f.materials.map Prod.fst).Nodup) :
    ∃ mats, getMaterialCards io [] gs.flatten = .ok mats ∧ (∀ n, n ∈ mats.map Prod.fst ↔ ∃ m ∈ f.materials, n = natStr m.1) ∧
      ∀ m ∈ f.materials, ∃ x, mats.lookup (natStr m.1) = some x ∧ MaterialOf (natStr m.1) m.2.1 m.2.2 x := by
  obtain ⟨mats, h1, h2, h3⟩ := C72_materials_partial io gs hg
    (fun g hgm l hl => by
      obtain ⟨e, -, he⟩ := forall₂_exists_left h hgm
      apply he.noMaterial l
      cases e <;> first | exact hl | exact List.mem_of_mem_tail hl)
    (fun g hgm => by
      obtain ⟨e, -, he⟩ := forall₂_exists_left h hgm
      cases e with
      | material k es xs => exact .inl ⟨_, _, _, he.card⟩
      | _ => exact .inr fun l hl => he.noMaterial l hl)
  refine ⟨mats, h1, fun n => ?_, fun m hm => ?_⟩
  · rw [h2 n]
    constructor
    · rintro ⟨g, hgm, hc⟩
      obtain ⟨e, hem, he⟩ := forall₂_exists_left h hgm
      obtain ⟨k, es, xs, rfl, rfl⟩ := (material_entry he).1 hc
      exact ⟨(k, es, xs), mem_materials.2 hem, rfl⟩
    · rintro ⟨m, hm, rfl⟩
      obtain ⟨g, hgm, he⟩ := forall₂_exists_right h (mem_materials.1 hm)
      exact ⟨g, hgm, (material_entry he).2 ⟨_, _, _, rfl, rfl⟩⟩
  · obtain ⟨a, b, hab⟩ := List.append_of_mem (mem_materials.1 hm)
    rw [hab] at h
    obtain ⟨a', g, b', rfl, -, hx, hb⟩ := forall₂_split h
    apply h3 a' g b' _ _ _ rfl hx.card
    intro g' hg' hc
    obtain ⟨e, hem, he⟩ := forall₂_exists_left hb hg'
    obtain ⟨k, es, xs, rfl, hk⟩ := (material_entry he).1 hc
    have hk := natStr_injective hk
    unfold InputFile.materials at hn
    rw [hab, List.filterMap_append, List.map_append, List.filterMap_cons] at hn
    simp only [List.map_cons] at hn
    have := (List.nodup_cons.1 (List.nodup_append.1 hn).2.1).1
    exact this (List.mem_map.2 ⟨(k, es, xs), List.mem_filterMap.2 ⟨_, hem, rfl⟩, hk.symm⟩)

private theorem read_transforms (io : NumIO K) (cosDeg : K → K) {gs : List (List Str)} {f : InputFile K} (hg : DataCards gs) (h : List.Forall₂ (DataSays io) gs f.data) (hn : (f.transforms.map Prod.fst).Nodup)
    (hlast : ∃ before e, f.data = before ++ [e] ∧ ∀ n d v, e ≠ .transform n d v) :
    ∃ trs, getTransformCards io cosDeg [] gs.flatten = .ok trs ∧ (∀ n, n ∈ trs.map Prod.fst ↔ ∃ t ∈ f.transforms, n = natStr t.1) ∧
      ∀ tr p, placeBy trs (tr.map natStr) p = f.place cosDeg tr p := by
  obtain ⟨before, last, hd, hl⟩ := hlast
  have h0 := h
  rw [hd] at h
  obtain ⟨gs, g0, b', rfl, hgs, hg0, hb'⟩ := forall₂_split h
  cases hb'
  have tr_of : ∀ e ∈ f.data, ∀ k d v, e = .transform k d v → e ∈ before := by
    intro e he k d v hk
    rw [hd, List.mem_append, List.mem_singleton] at he
    rcases he with he | rfl
    · exact he
    · exact absurd hk (hl k d v)
  obtain ⟨trs, h1, h2, h3⟩ := C73_transforms_partial io cosDeg gs g0 hg
    (fun l hlm => by
      obtain ⟨first, more, rfl, -, hm, -⟩ := hg g0 (by simp)
      rcases List.mem_cons.1 hlm with rfl | hlm
      · exact head_tr hg0 hl _ rfl
      · obtain ⟨t, rfl⟩ := hm l hlm
        intro d t
        cases d <;> simp [trName])
    (fun g hgm => by
      obtain ⟨e, -, he⟩ := forall₂_exists_left hgs hgm
      by_cases hne : ∃ n d v, e = .transform n d v
      · obtain ⟨k, d, v, rfl⟩ := hne
        exact .inl ⟨_, _, _, he.card.1⟩
      · exact .inr (head_tr he fun n d v e => hne ⟨n, d, v, e⟩))
  have keys : ∀ n, n ∈ trs.map Prod.fst ↔ ∃ t ∈ f.transforms, n = natStr t.1 := by
    intro n
    rw [h2 n]
    constructor
    · rintro ⟨g, hgm, hc⟩
      obtain ⟨e, hem, he⟩ := forall₂_exists_left hgs hgm
      obtain ⟨k, d, v, rfl, rfl⟩ := (transform_entry he).1 hc
      exact ⟨(k, d, v), mem_transforms.2 (by rw [hd]; simp [hem]), rfl⟩
    · rintro ⟨m, hm, rfl⟩
      obtain ⟨g, hgm, he⟩ := forall₂_exists_right hgs (tr_of _ (mem_transforms.1 hm) _ _ _ rfl)
      exact ⟨g, hgm, (transform_entry he).2 ⟨_, _, _, rfl, rfl⟩⟩
  refine ⟨trs, h1, keys, fun tr p => ?_⟩
  cases tr with
  | none => rfl
  | some n =>
    show (match trs.lookup (natStr n) with | some t => pullback t p | none => p) = _
    unfold InputFile.place
    simp only
    by_cases hin : ∃ t ∈ f.transforms, n = t.1
    · obtain ⟨⟨n', d, v⟩, ht, rfl⟩ := hin
      rw [lookup_of_mem hn ht]
      obtain ⟨a, b, hab⟩ := List.append_of_mem (tr_of _ (mem_transforms.1 ht) _ _ _ rfl)
      have hgs' := hgs
      rw [hab] at hgs'
      obtain ⟨a', g, b', rfl, -, hx, hb⟩ := forall₂_split hgs'
      obtain ⟨t, k1, k2⟩ := h3 a' g b' _ _ _ rfl hx.card.1 (by
        intro g' hg' d' hc
        obtain ⟨e, hem, he⟩ := forall₂_exists_left hb hg'
        obtain ⟨k, es, xs, rfl, hk⟩ := (transform_entry he).1 ⟨d', hc⟩
        have hk := natStr_injective hk
        unfold InputFile.transforms at hn
        rw [hd, hab, List.filterMap_append, List.filterMap_append, List.filterMap_cons] at hn
        simp only [List.map_append, List.map_cons] at hn
        have := (List.nodup_cons.1 (List.nodup_append.1 (List.nodup_append.1 hn).1).2.1).1
        exact this (List.mem_map.2 ⟨(k, es, xs), List.mem_filterMap.2 ⟨_, hem, rfl⟩, hk.symm⟩))
      simp only at k1
      rw [k1]
      exact trPoint_of k2 hx.card.2 p
    · rw [lookup_none (l := trs) (a := natStr n), lookup_none (l := f.transforms) (a := n)]
      · intro hm
        obtain ⟨t, ht, e⟩ := List.mem_map.1 hm
        exact hin ⟨t, ht, e.symm⟩
      · rw [keys]
        rintro ⟨t, ht, e⟩
        exact hin ⟨t, ht, natStr_injective e⟩

private theorem importancesGo_none {ls : List Str} (h : ∀ l ∈ ls, hasInfix c!"imp" l = false) : importancesGo [] none ls = .ok [] := by
  have := importancesGo_skip [] ls [] h
  rw [List.append_nil] at this
  rw [this]
  rfl

private theorem read_importances (io : NumIO K) {gs : List (List Str)} {f : InputFile K} (hg : DataCards gs) (h : List.Forall₂ (DataSays io) gs f.data) (hn : f.importances.length ≤ 1)
    (hlast : ∃ before e, f.data = before ++ [e] ∧ ∀ v, e ≠ .importance v) :
    ∃ imps, getImportances gs.flatten = .ok imps ∧ (f.importances = [] → imps = []) ∧
      ∀ vs ∈ f.importances, ∃ t, imps = [(.neutron, t)] ∧ List.Forall₂ (fun w x => io.float w = .ok x) (split t) vs := by
  have quiet : ∀ {g : List Str} {e : DataEntry K}, DataSays io g e → (∀ vs, e ≠ .importance vs) → ∀ l ∈ g, hasInfix c!"imp" l = false := by
    intro g e he hne l hl
    by_contra hh
    rw [Bool.not_eq_false] at hh
    obtain ⟨a, b, e⟩ := (hasInfix_iff _ _).1 hh
    exact he.noImportance hne l hl a b e
  by_cases hex : ∃ vs, vs ∈ f.importances
  · obtain ⟨vs, hvs⟩ := hex
    obtain ⟨a, b, hab⟩ := List.append_of_mem (mem_importances.1 hvs)
    obtain ⟨x, b0, rfl⟩ : ∃ x b0, b = x :: b0 := by
      obtain ⟨before, e, hd, hne⟩ := hlast
      cases b with
      | cons x b0 => exact ⟨x, b0, rfl⟩
      | nil =>
        rw [hd] at hab
        have := List.append_inj_right' hab (by simp)
        exact absurd (List.singleton_inj.1 this) (hne vs)
    have honly : ∀ e ∈ a ++ x :: b0, ∀ vs', e ≠ .importance vs' := by
      rintro e he vs' rfl
      have hsplit : f.importances = (⟨[], [], a⟩ : InputFile K).importances ++ vs :: (⟨[], [], x :: b0⟩ : InputFile K).importances := by
        unfold InputFile.importances
        rw [hab, List.filterMap_append]
        rfl
      rw [hsplit, List.length_append, List.length_cons] at hn
      rcases List.mem_append.1 he with he | he
      · have := List.length_pos_of_mem (mem_importances (f := ⟨[], [], a⟩).2 he)
        omega
      · have := List.length_pos_of_mem (mem_importances (f := ⟨[], [], x :: b0⟩).2 he)
        omega
    have h0 := h
    rw [hab] at h0
    obtain ⟨a', g, b', rfl, ha, hx, hb⟩ := forall₂_split h0
    cases hb with
    | cons hy hb =>
      rename_i g2 b'
      obtain ⟨body, conts, rfl, hplain, hval⟩ := hx.card
      obtain ⟨next, more, rfl, hnb, hmore, -⟩ := hg g2 (by simp)
      obtain ⟨first, conts', e', -, hconts, -⟩ := hg ((c!"imp:n " ++ body) :: conts) (by simp)
      cases e'
      obtain ⟨t, ht, hs⟩ := getImportances_card a'.flatten conts (more ++ b'.flatten) body next
        (by
          intro l hl
          simp only [List.mem_append, List.mem_cons] at hl
          rcases hl with hl | rfl | hl | hl
          · obtain ⟨g, hgm, hl⟩ := List.mem_flatten.1 hl
            obtain ⟨e, hem, he⟩ := forall₂_exists_left ha hgm
            exact quiet he (honly e (by simp [hem])) l hl
          · exact quiet hy (honly _ (by simp)) l (by simp)
          · exact quiet hy (honly _ (by simp)) l (by simp [hl])
          · obtain ⟨g, hgm, hl⟩ := List.mem_flatten.1 hl
            obtain ⟨e, hem, he⟩ := forall₂_exists_left hb hgm
            exact quiet he (honly e (by simp [hem])) l hl)
        hconts hnb hplain
      refine ⟨[(.neutron, t)], ?_, fun he => ?_, fun vs' hvs' => ?_⟩
      · rw [← ht]
        simp
      · rw [he] at hvs
        cases hvs
      · have : vs' = vs := by
          by_contra hne
          have hm := mem_importances.1 hvs'
          rw [hab, List.mem_append, List.mem_cons] at hm
          rcases hm with hm | hm | hm
          · exact honly _ (by simp [hm]) vs' rfl
          · cases hm; exact hne rfl
          · exact honly _ (List.mem_append_right _ hm) vs' rfl
        subst this
        exact ⟨t, rfl, by rw [hs]; exact hval⟩
  · refine ⟨[], ?_, fun _ => rfl, fun vs hvs => absurd ⟨vs, hvs⟩ hex⟩
    unfold getImportances
    rw [importancesGo_none]
    · rfl
    · intro l hl
      obtain ⟨g, hgm, hl⟩ := List.mem_flatten.1 hl
      obtain ⟨e, hem, he⟩ := forall₂_exists_left h hgm
      exact quiet he (fun vs e' => hex ⟨vs, mem_importances.2 (e' ▸ hem)⟩) l hl

/-! ## Points -/

private theorem sense_agrees {io : NumIO K} {cosDeg sqrt : K → K} {f : InputFile K} {d : Deck K} (h : DeckAgrees io cosDeg sqrt f d) (p : Point K) (w : Str) :
    pointSense sqrt (placeBy d.transforms) d.surfaces p w ↔ entrySense cosDeg sqrt f p w := by
  have pl : ∀ {e : SurfaceEntry K} {s : Surface K}, SurfaceAgrees sqrt e s → placeBy d.transforms s.transform p = f.place cosDeg e.tr p := fun hs => by
    rw [hs.transform, h.place]
  unfold pointSense entrySense wordSense surfaceSense facetSense
  apply or_congr
  · apply exists_congr
    intro z
    apply and_congr Iff.rfl
    constructor
    · rintro ⟨s, hs, h1, h2⟩
      obtain ⟨e, he, ha⟩ := forall₂_exists_right h.surfaces hs
      exact ⟨e, he, by rw [← ha.number, h1], by rw [← ha.sides, ← pl ha]; exact h2⟩
    · rintro ⟨e, he, h1, h2⟩
      obtain ⟨s, hs, ha⟩ := forall₂_exists_left h.surfaces he
      exact ⟨s, hs, by rw [ha.number, h1], by rw [ha.sides, pl ha]; exact h2⟩
  · constructor
    · rintro ⟨s, hs, neg, k, v, h1, h2, h3, h4⟩
      obtain ⟨e, he, ha⟩ := forall₂_exists_right h.surfaces hs
      rw [ha.number] at h1
      cases neg
      · obtain ⟨ty, v', k1, k2, k3⟩ := (ha.facets k _).1 ⟨v, h3, by simpa using h4⟩
        exact ⟨e, he, ty, false, k, v', k1, h1, h2, by rw [← pl ha]; exact k2, by simpa using k3⟩
      · obtain ⟨ty, v', k1, k2, k3⟩ := (ha.facets' k _).1 ⟨v, h3, by simpa using h4⟩
        exact ⟨e, he, ty, true, k, v', k1, h1, h2, by rw [← pl ha]; exact k2, by simpa using k3⟩
    · rintro ⟨e, he, ty, neg, k, v, h0, h1, h2, h3, h4⟩
      obtain ⟨s, hs, ha⟩ := forall₂_exists_left h.surfaces he
      rw [← ha.number] at h1
      cases neg
      · obtain ⟨v', k1, k2⟩ := (ha.facets k _).2 ⟨ty, v, h0, h3, by simpa using h4⟩
        exact ⟨s, hs, false, k, v', h1, h2, by rw [pl ha]; exact k1, by simpa using k2⟩
      · obtain ⟨v', k1, k2⟩ := (ha.facets' k _).2 ⟨ty, v, h0, h3, by simpa using h4⟩
        exact ⟨s, hs, true, k, v', h1, h2, by rw [pl ha]; exact k1, by simpa using k2⟩

/-- The points of the cells. -/
theorem cells_agree {io : NumIO K} {cosDeg sqrt : K → K} {f : InputFile K} {d : Deck K} (h : DeckAgrees io cosDeg sqrt f d) (n : Int) (p : Point K) :
    InDeckCell sqrt d n p ↔ InFileCell cosDeg sqrt f n p := by
  unfold InDeckCell InFileCell IsCellTruth
  apply exists_congr
  intro T
  apply and_congr _ Iff.rfl
  have hσ : pointSense sqrt (placeBy d.transforms) d.surfaces p = entrySense cosDeg sqrt f p := funext fun w => propext (sense_agrees h p w)
  rw [hσ]
  constructor
  · intro hT e he
    obtain ⟨c, hc, ha⟩ := forall₂_exists_left h.cells he
    rw [← ha.number, ← ha.region.2]
    exact hT c hc
  · intro hT c hc
    obtain ⟨e, he, ha⟩ := forall₂_exists_right h.cells hc
    rw [ha.number, ha.region.2]
    exact hT e he

/-- What is read, and how it is stored. -/
theorem read_file (io : NumIO K) (cosDeg sqrt : K → K) (text : Str) (f : InputFile K) (h : FileSays io text f) :
    ∃ d, readDeck io cosDeg (readText text) = .ok d ∧ DeckAgrees io cosDeg sqrt f d ∧ List.Forall₂ StoredAs f.surfaces d.surfaces ∧ d.last = d.surfaces.foldl (fun m s => if m < s.id then s.id else m) 0 := by
  obtain ⟨⟨title, cells, surfs, data, hlay, hcells, hsurfs, hdata⟩, hmn, htn, hin, before, last, hlast, hl1, hl2⟩ := h
  obtain ⟨⟨body, b1, b2, htext, hlines, -, hbody, hb1, hb2⟩, hmsg, hcards, hdc⟩ := hlay
  have hok : ∀ {α β : Type} (a : α) (k : α → Py β), ((.ok a : Py α) >>= k) = k a := fun _ _ => rfl
  have hread : readText text = title :: body := readText_layout htext hlines
  have htitle : setTitle (title :: body) = .ok (title, body) := by
    unfold setTitle
    simp only [pyGet, List.getElem?_cons_zero, hok]
    rw [if_neg]
    · rfl
    · intro hi
      obtain ⟨a, b, e⟩ := (hasInfix_iff _ _).1 hi
      exact hmsg a b e
  have hdrop := dropComments_filter (ls := body) fun l hl => by
    obtain ⟨t, -, rfl⟩ := hlines l (by simp [hl])
    simp
  rw [hbody] at hdrop
  obtain ⟨cs, hcs⟩ := exists_forall₂ (R := fun (ge : List Str × CellEntry K) c => readCell io cosDeg (cardText ge.1) = .ok c ∧ CellAgrees io cosDeg ge.2 c) (xs := cells.zip f.cells)
    fun ge hge => readCell_says io cosDeg ((List.forall₂_iff_zip.1 hcells).2 hge)
  obtain ⟨ss, hss⟩ := exists_forall₂ (R := fun (ge : List Str × SurfaceEntry K) s => classify io (cardText ge.1) = .ok s ∧ SurfaceAgrees sqrt ge.2 s ∧ StoredAs ge.2 s) (xs := surfs.zip f.surfaces)
    fun ge hge => classify_says sqrt io ((List.forall₂_iff_zip.1 hsurfs).2 hge)
  have c1 : (cells.map cardText).mapM (readCell io cosDeg) = .ok cs := by
    rw [mapM_ok_iff, List.forall₂_map_left_iff]
    have : cells = (cells.zip f.cells).map Prod.fst := (List.map_fst_zip (by rw [hcells.length_eq])).symm
    rw [this, List.forall₂_map_left_iff]
    exact hcs.imp fun _ _ h => h.1
  have c2 : List.Forall₂ (CellAgrees io cosDeg) f.cells cs := by
    have : f.cells = (cells.zip f.cells).map Prod.snd := (List.map_snd_zip (by rw [hcells.length_eq])).symm
    rw [this, List.forall₂_map_left_iff]
    exact hcs.imp fun _ _ h => h.2
  have s1 : (surfs.map cardText).mapM (classify io) = .ok ss := by
    rw [mapM_ok_iff, List.forall₂_map_left_iff]
    have : surfs = (surfs.zip f.surfaces).map Prod.fst := (List.map_fst_zip (by rw [hsurfs.length_eq])).symm
    rw [this, List.forall₂_map_left_iff]
    exact hss.imp fun _ _ h => h.1
  have s3 : List.Forall₂ (fun e s => SurfaceAgrees sqrt e s ∧ StoredAs e s) f.surfaces ss := by
    have : f.surfaces = (surfs.zip f.surfaces).map Prod.snd := (List.map_snd_zip (by rw [hsurfs.length_eq])).symm
    rw [this, List.forall₂_map_left_iff]
    exact hss.imp fun _ _ h => h.2
  have s2 : List.Forall₂ (SurfaceAgrees sqrt) f.surfaces ss := s3.imp fun _ _ h => h.1
  have hblock1 := block_layout removeInline_code (fun g hg => hcards g (by simp [hg])) hb1 c1 (surfs.flatten ++ b2 :: data.flatten)
  have hblock2 := block_layout stripDollar_code (fun g hg => hcards g (by simp [hg])) hb2 s1 data.flatten
  obtain ⟨mats, m1, m2, m3⟩ := read_materials io hdc hdata hmn
  obtain ⟨trs, t1, t2, t3⟩ := read_transforms io cosDeg hdc hdata htn ⟨before, last, hlast, hl1⟩
  obtain ⟨imps, i1, i2, i3⟩ := read_importances io hdc hdata hin ⟨before, last, hlast, hl2⟩
  have hagree : DeckAgrees io cosDeg sqrt f { title := title, cells := cs, surfaces := ss, last := ss.foldl (fun m s => if m < s.id then s.id else m) 0, importances := imps, transforms := trs, materials := mats, bounding := [0, 0, 0, 0, 0, 0] } :=
    ⟨c2, s2, m2, m3, t2, t3, i2, i3⟩
  refine ⟨_, ?_, hagree, s3.imp fun _ _ h => h.2, rfl⟩
  unfold readDeck
  rw [hread, htitle, hok]
  simp only
  rw [hdrop, hok, hblock1, hok]
  simp only
  rw [hblock2, hok]
  simp only
  rw [i1, hok, t1, hok, m1, hok]

/-- **C99** (partial). A text that is laid out as an MCNP file and whose cards have the usual forms is read without an exception; the deck has the cells, surfaces, materials, transforms and importances that the cards
say, and each cell has the same points. Missing are files with a message block, comment lines that do not begin in the first column (C71), lines with only a comment (C37), comments on TR and importance cards, TR cards with nine
numbers (C41), importances with repetitions (C39), planes given by three points (C06), surfaces given by points (C07), parameters other than those of C70. -/
theorem C99_read_partial (io : NumIO K) (cosDeg sqrt : K → K) (text : Str) (f : InputFile K) (h : FileSays io text f) :
    ∃ d, readDeck io cosDeg (readText text) = .ok d ∧ DeckAgrees io cosDeg sqrt f d ∧ ∀ n p, InDeckCell sqrt d n p ↔ InFileCell cosDeg sqrt f n p := by
  obtain ⟨d, h1, h2, -⟩ := read_file io cosDeg sqrt text f h
  exact ⟨d, h1, h2, cells_agree h2⟩

end

/-! ## An example -/

theorem not_looks {l : Str} (h : ∀ d t, l.dropWhile (· == ' ') = 'm' :: d :: t → isDigit d = false) : ¬ LooksLikeMaterial l := by
  rintro ⟨k, d, t, rfl, hd⟩
  have : (List.replicate k ' ' ++ 'm' :: d :: t).dropWhile (· == ' ') = 'm' :: d :: t := by
    induction k with
    | zero => rfl
    | succ k ih => simpa [List.replicate_succ] using ih
  rw [h d t this] at hd
  cases hd

theorem not_imp {l : Str} (h : hasInfix c!"imp" l = false) (a b : Str) : l ≠ a ++ c!"imp" ++ b := fun e => by
  rw [(hasInfix_iff _ _).2 ⟨a, b, e⟩] at h
  cases h

theorem line_of {l : Str} (h : l.getLast? = some '\n' ∧ '\n' ∉ l.dropLast) : ∃ t, '\n' ∉ t ∧ l = t ++ c!"\n" := by
  refine ⟨l.dropLast, h.2, ?_⟩
  obtain ⟨t, e⟩ := List.getLast?_eq_some_iff.1 h.1
  rw [e]
  simp

/-- A title, three cells, a box, a sphere moved by TR 5 and a cone with one sheet; a material, importances and a card that the program does not use. -/
private def fileText : Str :=
  c!"A box and a sphere\nc cells\n1 1 -1.0 -1 2 $ inside\n     imp:n=1 U = 2\n2 0 (1:-1.2) #1\n3 0 -3 FILL=2 (1 2 3)\nC\n\n1 RPP -1 1 -1 1 -1 1\nc a moved sphere\n2 5 SO 3\n3 KZ 0\n     1 1 $ upper sheet\n\nM1 1001.70c 2\n     8016 1 $ water\nTR5 1 2 3\nIMP:N 1 1\n      0\nMODE n\n"

private def fileSaid : InputFile ℚ :=
  { cells := [⟨1, some (1, -1), c!"-1 2      ", [.importance c!"1", .uni c!"2"]⟩, ⟨2, none, c!"(1:-1.2) #1\n", []⟩, ⟨3, none, c!"-3 ", [.fill false c!"2" (some c!"1 2 3")]⟩]
    surfaces := [⟨1, none, c!"rpp", [-1, 1, -1, 1, -1, 1]⟩, ⟨2, some 5, c!"so", [3]⟩, ⟨3, none, c!"kz", [0, 1, 1]⟩]
    data := [.material 1 [(c!"1001.70c", c!"2"), (c!"8016", c!"1")] [2, 1], .transform 5 false [1, 2, 3], .importance [1, 1, 0], .other] }

private def fileCells : List (List Str) := [[c!"1 1 -1.0 -1 2 $ inside\n", c!"     imp:n=1 u = 2\n"], [c!"2 0 (1:-1.2) #1\n"], [c!"3 0 -3 fill=2 (1 2 3)\n"]]
private def fileSurfaces : List (List Str) := [[c!"1 rpp -1 1 -1 1 -1 1\n"], [c!"2 5 so 3\n"], [c!"3 kz 0\n", c!"     1 1 $ upper sheet\n"]]
private def fileData : List (List Str) := [[c!"m1 1001.70c 2\n", c!"     8016 1 $ water\n"], [c!"tr5 1 2 3\n"], [c!"imp:n 1 1\n", c!"      0\n"], [c!"mode n\n"]]

private def fileBody : List Str :=
  [c!"c cells\n", c!"1 1 -1.0 -1 2 $ inside\n", c!"     imp:n=1 u = 2\n", c!"2 0 (1:-1.2) #1\n", c!"3 0 -3 fill=2 (1 2 3)\n", c!"c\n", c!"\n", c!"1 rpp -1 1 -1 1 -1 1\n", c!"c a moved sphere\n", c!"2 5 so 3\n",
    c!"3 kz 0\n", c!"     1 1 $ upper sheet\n", c!"\n", c!"m1 1001.70c 2\n", c!"     8016 1 $ water\n", c!"tr5 1 2 3\n", c!"imp:n 1 1\n", c!"      0\n", c!"mode n\n"]

theorem not_five {l : Str} (h : l.take 5 ≠ c!"     ") : ¬ FiveBlanks l := by
  rintro ⟨t, rfl⟩
  exact h rfl

theorem five {l : Str} (h : l.take 5 = c!"     ") : FiveBlanks l := ⟨l.drop 5, by rw [← h, List.take_append_drop]⟩

private theorem grouped {gs : List (List Str)} (h : ∀ g ∈ gs, ∃ first more, g = first :: more ∧ first.take 5 ≠ c!"     " ∧ ∀ l ∈ more, l.take 5 = c!"     ") :
    ∀ g ∈ gs, ∃ first more, g = first :: more ∧ ¬ FiveBlanks first ∧ ∀ l ∈ more, FiveBlanks l := fun g hg => by
  obtain ⟨first, more, e, h1, h2⟩ := h g hg
  exact ⟨first, more, e, not_five h1, fun l hl => five (h2 l hl)⟩

theorem comment_iff {l : Str} (h : l.head? = some 'c' → ∀ x, l.tail.head? = some x → isSpace x = true) (h' : l.head? = some ' ' → l.take 5 = c!"     ") : CommentLine l ↔ l.head? = some 'c' := by
  constructor
  · rintro ⟨n, t, hn, rfl, -⟩
    cases n with
    | zero => rfl
    | succ n =>
      have := h' (by simp [List.replicate_succ])
      obtain rfl | rfl | rfl | rfl : n = 0 ∨ n = 1 ∨ n = 2 ∨ n = 3 := by omega
      all_goals simp [List.replicate_succ] at this
  · intro hc
    cases l with
    | nil => cases hc
    | cons a l => cases hc; exact ⟨0, l, by omega, rfl, h rfl⟩

private theorem file_layout : Layout fileText c!"a box and a sphere\n" fileCells fileSurfaces fileData where
  lines := ⟨fileBody, c!"\n", c!"\n", by decide +kernel, fun l hl => line_of (by revert l; decide +kernel), fun l hl => comment_iff (by revert l; decide +kernel) (by revert l; decide +kernel), by decide +kernel, by unfold BlankLine; decide, by unfold BlankLine; decide⟩
  noMessage := fun a b e => by
    have := (hasInfix_iff _ _).2 ⟨a, b, e⟩
    revert this
    decide +kernel
  cards := by
    intro g hg
    simp only [fileCells, fileSurfaces, List.cons_append, List.nil_append, List.mem_cons, List.not_mem_nil, or_false] at hg
    rcases hg with rfl | rfl | rfl | rfl | rfl | rfl <;> exact ⟨_, _, rfl, not_five (by decide), fun l hl => five (by revert l; decide), by decide +kernel⟩
  dataCards := by
    intro g hg
    simp only [fileData, List.mem_cons, List.not_mem_nil, or_false] at hg
    rcases hg with rfl | rfl | rfl | rfl <;>
      exact ⟨_, _, rfl, not_five (by decide), fun l hl => five (by revert l; decide), fun l hl => (line_of (l := l) (by revert l; decide)).imp fun _ h => ⟨h.1, .inr h.2⟩⟩

example : FileSays sampleIO fileText fileSaid where
  layout := by
    refine ⟨_, _, _, _, file_layout, .cons ?_ (.cons ?_ (.cons ?_ .nil)), .cons ?_ (.cons ?_ (.cons ?_ .nil)), .cons ?_ (.cons ?_ (.cons ?_ (.cons ?_ .nil)))⟩
    · refine ⟨⟨c!"1 1 -1.0", c!"1", c!"1", some c!"-1.0", [(.importance c!"1", c!"imp:n=1", c!" "), (.uni c!"2", c!"u = 2", c!"\n")], by decide, .inr ⟨?_, by decide, by decide, by decide⟩, rfl, by decide +kernel, by decide +kernel,
        ⟨by decide +kernel, by decide, c!"-1.0", rfl, by decide +kernel⟩, by decide, by decide⟩, ?_, ?_, ?_⟩
      · intro e he
        simp only [List.mem_cons, List.not_mem_nil, or_false] at he
        rcases he with rfl | rfl
        · exact ⟨.importance c!"1" c!"=" (by unfold EqualsSign; decide) (.whole [] c!"1" (by decide) (by decide) (by decide)), by decide⟩
        · exact ⟨.uni c!"2" c!" = " (by unfold EqualsSign; decide) (.whole [] c!"2" (by decide) (by decide) (by decide)), by decide⟩
      · have : lexGeometry c!"-1 2      " = [.atom c!"-1"] ++ [.atom c!"2"] := by decide +kernel
        simp only
        rw [this]
        exact ⟨_, .one (.inter (.single (.atom _)) (.atom _))⟩
      · intro v hv
        simp only [List.mem_cons, List.not_mem_nil, or_false, Param.importance.injEq, reduceCtorEq] at hv
        subst hv
        exact ⟨1, by decide +kernel⟩
      · intro v t hv
        simp at hv
    · refine ⟨⟨c!"2 0", c!"2", c!"0", none, [], by decide, .inl rfl, rfl, by decide +kernel, by decide +kernel, ⟨by decide +kernel, rfl⟩, by decide, by decide⟩, ?_, fun v hv => by simp at hv, fun v t hv => by simp at hv⟩
      have : lexGeometry c!"(1:-1.2) #1\n" = (.lp :: (([.atom c!"1"] ++ .un :: [.atom c!"-1.2"]) ++ [.rp])) ++ [.atom c!"#1"] := by decide +kernel
      simp only
      rw [this]
      exact ⟨_, .one (.inter (.single (.paren (.union (.one (.single (.atom _))) (.single (.atom _))))) (.atom _))⟩
    · refine ⟨⟨c!"3 0", c!"3", c!"0", none, [(.fill false c!"2" (some c!"1 2 3"), c!"fill=2 (1 2 3)", c!"\n")], by decide, .inr ⟨?_, by decide, by decide, by decide⟩, rfl, by decide +kernel, by decide +kernel, ⟨by decide +kernel, rfl⟩, by decide, by decide⟩, ?_,
        fun v hv => by simp at hv, fun v t hv => by simp at hv⟩
      · intro e he
        obtain rfl := List.mem_singleton.1 he
        exact ⟨.filled false c!"2" c!"=" c!" " c!"1 2 3" (by unfold EqualsSign; decide) (.whole [] c!"2" (by decide) (by decide) (by decide)) (by decide) (by unfold NumberChar; decide), by decide⟩
      · have : lexGeometry c!"-3 " = [.atom c!"-3"] := by decide +kernel
        simp only
        rw [this]
        exact ⟨_, .one (.single (.atom _))⟩
    · exact .inl ⟨[c!"-1", c!"1", c!"-1", c!"1", c!"-1", c!"1"], ⟨c!"1", by decide +kernel, by decide, ⟨c!"1 rpp -1 1 -1 1 -1 1\n", [], .inl (by decide +kernel), by decide, by decide +kernel⟩, by decide +kernel⟩, by unfold Reads; decide +kernel, by unfold EntriesSuit; right; right; right; left; decide⟩
    · exact .inl ⟨[c!"3"], ⟨c!"2", by decide +kernel, by decide, ⟨c!"2 5 so 3\n", [], .inl (by decide +kernel), by decide, by decide +kernel⟩, by decide +kernel⟩, by unfold Reads; decide +kernel, .inl ⟨.so, by decide, by decide +kernel⟩⟩
    · exact .inl ⟨[c!"0", c!"1", c!"1"], ⟨c!"3", by decide +kernel, by decide, ⟨c!"3 kz 0\n     1 1 ", [], .inl (by decide +kernel), by decide, by decide +kernel⟩, by decide +kernel⟩, by unfold Reads; decide +kernel, .inr (.inl ⟨.kz, by decide, _, _, _, _, rfl, by decide⟩)⟩
    · refine ⟨⟨⟨_, _, rfl, by decide, by decide, 0, c!" 1001.70c 2\n", by decide, by decide⟩, by decide +kernel, .cons (by decide +kernel) (.cons (by decide +kernel) .nil)⟩, ?_, ?_⟩
      · intro l hl
        obtain rfl := List.mem_singleton.1 hl
        exact not_looks (by intro d t h; revert h; simp [List.dropWhile])
      · intro _ l hl
        exact not_imp (by revert l; decide +kernel)
    · refine ⟨⟨⟨⟨by decide, by unfold IsTransformCard.NoBlank; decide, by decide, c!" 1 2 3\n", _, rfl, by decide⟩, by decide, ?_⟩, by decide⟩, ?_, ?_⟩
      · have : (cardWords [c!"tr5 1 2 3\n"]).drop 1 = [c!"1", c!"2", c!"3"] := by decide +kernel
        rw [this]
        exact .cons (by decide +kernel) (.cons (by decide +kernel) (.cons (by decide +kernel) .nil))
      · intro l hl
        obtain rfl := List.mem_singleton.1 hl
        exact not_looks (by intro d t h; revert h; simp [List.dropWhile])
      · intro _ l hl
        exact not_imp (by revert l; decide +kernel)
    · refine ⟨⟨c!"1 1\n", [c!"      0\n"], rfl, by decide +kernel, ?_⟩, ?_, fun h => absurd rfl (h _)⟩
      · have : split c!"1 1\n" ++ [c!"      0\n"].flatMap split = [c!"1", c!"1", c!"0"] := by decide +kernel
        rw [this]
        exact .cons (by decide +kernel) (.cons (by decide +kernel) (.cons (by decide +kernel) .nil))
      · intro l hl
        simp only [List.mem_cons, List.not_mem_nil, or_false] at hl
        rcases hl with rfl | rfl <;> exact not_looks (by intro d t h; revert h; simp [List.dropWhile])
    · refine ⟨?_, ?_, ?_⟩
      · intro l hl d t
        cases hl
        cases d <;> simp [trName]
      · intro l hl
        obtain rfl := List.mem_singleton.1 hl
        exact not_looks (by intro d t h; simp [List.dropWhile] at h; rw [← h.1]; decide)
      · intro _ l hl
        exact not_imp (by revert l; decide +kernel)
  materials := by decide
  transforms := by decide
  importances := by decide
  last := ⟨[.material 1 [(c!"1001.70c", c!"2"), (c!"8016", c!"1")] [2, 1], .transform 5 false [1, 2, 3], .importance [1, 1, 0]], .other, rfl, by intro n d v; simp, by intro v; simp⟩

/-- Cards with points: a plane through three points, `x + y + z = 2`, and a cone around the z axis with radius 1 at 0 and 3 at 1. -/
example : SurfaceSays sampleIO c!"4 p 2 0 0 0 2 0 0 0 2" ⟨4, none, c!"p", [1 / 2, 1 / 2, 1 / 2, 1]⟩ ∧ SurfaceSays sampleIO c!"5 z 0 1 1 3" ⟨5, none, c!"kz", [-1 / 2, 4, 1]⟩ := by
  refine ⟨.inr ⟨c!"p", [c!"2", c!"0", c!"0", c!"0", c!"2", c!"0", c!"0", c!"0", c!"2"], [2, 0, 0, 0, 2, 0, 0, 0, 2], ⟨c!"4", by decide +kernel, by decide +kernel, ⟨c!"4 p 2 0 0 0 2 0 0 0 2", [], .inl rfl, by decide +kernel, by decide +kernel⟩,
    by decide +kernel⟩, by unfold Reads; decide +kernel, ?_⟩, .inr ⟨c!"z", [c!"0", c!"1", c!"1", c!"3"], [0, 1, 1, 3], ⟨c!"5", by decide +kernel, by decide +kernel, ⟨c!"5 z 0 1 1 3", [], .inl rfl, by decide +kernel, by decide +kernel⟩,
    by decide +kernel⟩, by unfold Reads; decide +kernel, ?_⟩⟩
  · exact .plane (a := ⟨2, 0, 0⟩) (b := ⟨0, 2, 0⟩) (c := ⟨0, 0, 2⟩) (by norm_num [Collinear]) (by decide +kernel) (.inl rfl)
  · have := ByPoints.coneZ (K := ℚ) (a₁ := 0) (r₁ := 1) (a₂ := 1) (r₂ := 3) (k := 2) (by decide) (by decide) (by norm_num)
    norm_num at this
    convert this using 2
    norm_num

end Csg
