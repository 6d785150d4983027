import Verif.Lemmas.DataCards
import Verif.Props.Materials
import Verif.Props.TransformCards

/-!
# The cards of the data block: C72, C73, C74
-/

set_option linter.unusedSectionVars false

namespace Csg

open Spec

section
variable {K : Type} [Field K] [LinearOrder K] [IsStrictOrderedRing K]

private theorem dataCards_tail {g : List Str} {gs : List (List Str)} (h : DataCards (g :: gs)) : DataCards gs := fun x hx => h x (by simp [hx])

private theorem head_unique {l n n' : Str} (h : MaterialHead l n) (h' : MaterialHead l n') : n = n' := by
  obtain ⟨ws, e⟩ := head_words h
  obtain ⟨ws', e'⟩ := head_words h'
  rw [e] at e'
  cases e'
  rfl

theorem isMaterial_unique {g : List Str} {n n' : Str} (h : IsMaterialCard g n) (h' : IsMaterialCard g n') : n = n' := by
  obtain ⟨a, m, rfl, ha⟩ := h
  obtain ⟨b, m', e, hb⟩ := h'
  cases e
  exact head_unique ha hb

private theorem materialCard_read (io : NumIO K) {first n : Str} {more : List Str} {rest : List (List Str)} (hg : DataCards ((first :: more) :: rest)) (hh : MaterialHead first n)
    {entries : List (Str × Str)} {fracs : List K} (hw : ((cardWords (first :: more)).drop 1).filter (fun w => '=' ∉ w) = entryWords entries)
    (hf : List.Forall₂ (fun e x => fortranNumber io e.2 = .ok x) entries fracs) :
    ∃ m, getMaterialCard io first (more ++ rest.flatten) = .ok (n, m) ∧ MaterialOf n entries fracs m := by
  obtain ⟨f, mo, e, hf1, hf2, hf3⟩ := hg (first :: more) (by simp)
  cases e
  obtain ⟨ws, hws⟩ := head_words hh
  obtain ⟨m, h1, h2⟩ := C42_composition io n (cutDollar (join c!" " ((split first).drop 1) ++ c!" ") ++ (more.map cutDollar).flatten) entries fracs
    (by rw [material_words hh fun l hl => ⟨hf2 l hl, hf3 l (by simp [hl])⟩]; exact hw) hf
  refine ⟨m, ?_, h2⟩
  have hok : ∀ {α β : Type} (a : α) (k : α → Py β), ((.ok a : Py α) >>= k) = k a := fun _ _ => rfl
  unfold getMaterialCard
  rw [takeWhile_more hf2 (dataCards_tail hg)]
  have h0 : pyGet (split first) 0 = .ok ('m' :: n) := by rw [hws]; rfl
  simp only [h0, hok, replace_m hh.2.1, h1]

private theorem materials (io : NumIO K) (gs : List (List Str)) (hg : DataCards gs) (hc : ∀ g ∈ gs, ∀ l ∈ g.tail, ¬ LooksLikeMaterial l)
    (hk : ∀ g ∈ gs, (∃ n entries fracs, MaterialCardReads io g n entries fracs) ∨ ∀ l ∈ g, ¬ LooksLikeMaterial l) (mats : List (Str × Material K)) :
    ∃ mats', getMaterialCards io mats gs.flatten = .ok mats' ∧ (∀ n, n ∈ mats'.map Prod.fst ↔ n ∈ mats.map Prod.fst ∨ ∃ g ∈ gs, IsMaterialCard g n) ∧
      (∀ n, (∀ g ∈ gs, ¬ IsMaterialCard g n) → mats'.lookup n = mats.lookup n) ∧
      ∀ before g after n entries fracs, gs = before ++ g :: after → MaterialCardReads io g n entries fracs → (∀ g' ∈ after, ¬ IsMaterialCard g' n) →
        ∃ m, mats'.lookup n = some m ∧ MaterialOf n entries fracs m := by
  induction gs generalizing mats with
  | nil => exact ⟨mats, rfl, by simp, fun _ _ => rfl, fun before g after n e f h => by simp at h⟩
  | cons g gs ih =>
    have ih := ih (dataCards_tail hg) (fun x hx => hc x (by simp [hx])) (fun x hx => hk x (by simp [hx]))
    rcases hk g (by simp) with ⟨n, entries, fracs, ⟨first, more, rfl, hh⟩, hw, hf⟩ | ho
    · have step : ∀ {entries : List (Str × Str)} {fracs : List K}, ((cardWords (first :: more)).drop 1).filter (fun w => '=' ∉ w) = entryWords entries →
          List.Forall₂ (fun e x => fortranNumber io e.2 = .ok x) entries fracs → _ := fun {e f} a b => materialCard_read io hg hh (entries := e) (fracs := f) a b
      obtain ⟨m, hm, _⟩ := step hw hf
      obtain ⟨mats', h1, h2, h3, h4⟩ := ih (dictSet mats n m)
      refine ⟨mats', ?_, ?_, ?_, ?_⟩
      · rw [List.flatten_cons, List.cons_append, getMaterialCards, if_pos (isMaterialLine_iff.2 (looks_of_head hh)), hm]
        show getMaterialCards io (dictSet mats n m) _ = _
        rw [materials_skip io (ls := more) (hc (first :: more) (by simp)), h1]
      · intro k
        rw [h2 k, dictSet_mem_keys]
        constructor
        · rintro ((rfl | h) | ⟨g, hg, h⟩)
          · exact Or.inr ⟨_, by simp, first, more, rfl, hh⟩
          · exact Or.inl h
          · exact Or.inr ⟨g, by simp [hg], h⟩
        · rintro (h | ⟨g, hg, h⟩)
          · exact Or.inl (Or.inr h)
          · rcases List.mem_cons.1 hg with rfl | hg
            · exact Or.inl (Or.inl (isMaterial_unique h ⟨first, more, rfl, hh⟩))
            · exact Or.inr ⟨g, hg, h⟩
      · intro k hk'
        rw [h3 k fun g hg => hk' g (by simp [hg]), lookup_dictSet, if_neg]
        rintro rfl
        exact hk' _ (by simp) ⟨first, more, rfl, hh⟩
      · intro before g after k e f hs hr ha
        cases before with
        | cons b before =>
          cases hs
          exact h4 before g after k e f rfl hr ha
        | nil =>
          cases hs
          obtain rfl := isMaterial_unique hr.1 ⟨first, more, rfl, hh⟩
          obtain ⟨m', hm', hof⟩ := step hr.2.1 hr.2.2
          rw [hm] at hm'
          cases hm'
          exact ⟨m, by rw [h3 k ha, lookup_dictSet, if_pos rfl], hof⟩
    · have hno : ∀ n, ¬ IsMaterialCard g n := by
        rintro n ⟨first, more, rfl, hh⟩
        exact ho first (by simp) (looks_of_head hh)
      obtain ⟨mats', h1, h2, h3, h4⟩ := ih mats
      refine ⟨mats', ?_, ?_, ?_, ?_⟩
      · rw [List.flatten_cons, materials_skip io ho, h1]
      · intro k
        rw [h2 k]
        constructor
        · rintro (h | ⟨g, hg, h⟩)
          · exact Or.inl h
          · exact Or.inr ⟨g, by simp [hg], h⟩
        · rintro (h | ⟨g, hg, h⟩)
          · exact Or.inl h
          · rcases List.mem_cons.1 hg with rfl | hg
            · exact absurd h (hno k)
            · exact Or.inr ⟨g, hg, h⟩
      · intro k hk'
        exact h3 k fun g hg => hk' g (by simp [hg])
      · intro before g' after k e f hs hr ha
        cases before with
        | cons b before =>
          cases hs
          exact h4 before g' after k e f rfl hr ha
        | nil =>
          cases hs
          exact absurd hr.1 (hno k)

/-- C72: every material card of the data block is found, with its continuation lines and without its comments; of two cards with the same number the last counts; nothing else is taken for a
material. Partial: a continuation line whose first word begins with m and a digit is taken for a material card, see `C72_refuted`. -/
theorem C72_materials_partial (io : NumIO K) (gs : List (List Str)) (hg : DataCards gs) (hc : ∀ g ∈ gs, ∀ l ∈ g.tail, ¬ LooksLikeMaterial l)
    (hk : ∀ g ∈ gs, (∃ n entries fracs, MaterialCardReads io g n entries fracs) ∨ ∀ l ∈ g, ¬ LooksLikeMaterial l) :
    ∃ mats, getMaterialCards io [] gs.flatten = .ok mats ∧ (∀ n, n ∈ mats.map Prod.fst ↔ ∃ g ∈ gs, IsMaterialCard g n) ∧
      ∀ before g after n entries fracs, gs = before ++ g :: after → MaterialCardReads io g n entries fracs → (∀ g' ∈ after, ¬ IsMaterialCard g' n) →
        ∃ m, mats.lookup n = some m ∧ MaterialOf n entries fracs m := by
  obtain ⟨mats, h1, h2, _, h4⟩ := materials io gs hg hc hk []
  exact ⟨mats, h1, fun n => by rw [h2 n]; simp, h4⟩

/-! ## Transforms -/

private theorem trName_inj {d d' : Bool} {n n' : Str} (h : trName d n = trName d' n') : n = n' := by
  cases d <;> cases d' <;> cases h <;> rfl

private theorem transform_first {g : List Str} {d : Bool} {n : Str} (h : IsTransformCard g d n) :
    ∃ first more ws, g = first :: more ∧ isTransformLine first = true ∧ split first = trName d n :: ws := by
  obtain ⟨h1, h2, h3, t, more, rfl, ht⟩ := h
  have hw : NoSpace (trName d n) := by
    intro c hc
    have : c ∈ c!"*tr" ∨ c ∈ n := by
      cases d
      · rcases List.mem_append.1 hc with hc | hc
        · left
          have all : ∀ c ∈ c!"tr", c ∈ c!"*tr" := by decide
          exact all c hc
        · exact Or.inr hc
      · rcases List.mem_append.1 hc with hc | hc
        · exact Or.inl hc
        · exact Or.inr hc
    rcases this with h | h
    · have all : ∀ c ∈ c!"*tr", isSpace c = false := by decide
      exact all c h
    · exact h2 c h
  have hne : trName d n ≠ [] := by cases d <;> simp [trName]
  have : isTransformLine (trName d n ++ t) = true := isTransformLine_iff.2 ⟨d, n ++ t, by cases d <;> simp [trName]⟩
  cases t with
  | nil => exact ⟨_, more, [], rfl, this, by rw [List.append_nil, split_word _ hw hne]⟩
  | cons c t => exact ⟨_, more, split t, rfl, this, split_word_space _ _ _ (ht c rfl) hw hne⟩

theorem isTransform_unique {g : List Str} {d d' : Bool} {n n' : Str} (h : IsTransformCard g d n) (h' : IsTransformCard g d' n') : n = n' := by
  obtain ⟨f, m, ws, rfl, _, e⟩ := transform_first h
  obtain ⟨f', m', ws', e', _, e''⟩ := transform_first h'
  cases e'
  rw [e] at e''
  exact trName_inj (List.cons.inj e'').1

private theorem transformCard_read (io : NumIO K) (cosDeg : K → K) {first : Str} {more : List Str} {rest : List (List Str)} (hg : DataCards ((first :: more) :: rest))
    {d : Bool} {n : Str} {values : List K} (hr : TransformCardReads io (first :: more) d n values) :
    ∃ t, parseTransform io cosDeg (first ++ ((more ++ rest.flatten).takeWhile continues).flatten) = .ok (n, t) ∧ TransformOf cosDeg d values t := by
  obtain ⟨f, mo, e, hf1, hf2, hf3⟩ := hg (first :: more) (by simp)
  cases e
  obtain ⟨hi, hlen, hv⟩ := hr
  obtain ⟨f, mo, ws, e, _, hs⟩ := transform_first hi
  cases e
  rw [takeWhile_more hf2 (dataCards_tail hg)]
  have hw : split (first ++ more.flatten) = cardWords (first :: more) := transform_words hf2 hi.2.2.1
  obtain ⟨ws', hw'⟩ : ∃ ws', cardWords (first :: more) = trName d n :: ws' := by
    unfold cardWords
    rw [List.flatMap_cons]
    have : first.takeWhile (· ≠ '$') = first := by
      have := List.takeWhile_append_of_pos (p := fun x : Char => decide (x ≠ '$')) (l₁ := first) (l₂ := []) fun c hc => by
        simp only [decide_eq_true_eq]; rintro rfl; exact hi.2.2.1 first (by simp) hc
      simpa using this
    rw [this, hs]
    exact ⟨_, rfl⟩
  rw [hw'] at hw hv
  simp only [List.drop_succ_cons, List.drop_zero] at hv
  rcases hlen with hlen | hlen | hlen
  · obtain ⟨x, y, z, rfl⟩ := List.length_eq_three.1 hlen
    exact ⟨_, C41_shift io cosDeg _ n d ws' x y z hw hv, .three x y z⟩
  · match values, hlen with
    | [x, y, z, a1, a2, a3, b1, b2, b3], _ =>
      obtain ⟨t, h1, h2, h3, h4, _⟩ := C41_two_vectors_partial io cosDeg _ n d ws' x y z a1 a2 a3 b1 b2 b3 hi.1 hw hv
      refine ⟨t, h1, ?_⟩
      obtain ⟨s, v1, v2, v3⟩ := t
      simp only at h2 h3 h4
      subst h2 h3 h4
      exact .nine ..
  · match values, hlen with
    | [x, y, z, a1, a2, a3, b1, b2, b3, c1, c2, c3], _ =>
      exact ⟨_, C41_full io cosDeg _ n d ws' x y z a1 a2 a3 b1 b2 b3 c1 c2 c3 hi.1 hw hv, .twelve ..⟩

private theorem blanks_noTransform {l : Str} (h : FiveBlanks l) : isTransformLine l = false := by
  obtain ⟨t, rfl⟩ := h
  rfl

private theorem transforms (io : NumIO K) (cosDeg : K → K) (last : List Str) (hlast : ∀ l ∈ last, isTransformLine l = false) (gs : List (List Str)) (hg : DataCards (gs ++ [last]))
    (hk : ∀ g ∈ gs, (∃ d n values, TransformCardReads io g d n values) ∨ ∀ l, g.head? = some l → isTransformLine l = false) (trs : List (Str × Transform K)) :
    ∃ trs', getTransformCards io cosDeg trs (gs ++ [last]).flatten = .ok trs' ∧ (∀ n, n ∈ trs'.map Prod.fst ↔ n ∈ trs.map Prod.fst ∨ ∃ g ∈ gs, ∃ d, IsTransformCard g d n) ∧
      (∀ n, (∀ g ∈ gs, ∀ d, ¬ IsTransformCard g d n) → trs'.lookup n = trs.lookup n) ∧
      ∀ before g after d n values, gs = before ++ g :: after → TransformCardReads io g d n values → (∀ g' ∈ after, ∀ d, ¬ IsTransformCard g' d n) →
        ∃ t, trs'.lookup n = some t ∧ TransformOf cosDeg d values t := by
  induction gs generalizing trs with
  | nil =>
    refine ⟨trs, ?_, by simp, fun _ _ => rfl, fun before g after d n e h => by simp at h⟩
    have := transforms_skip io cosDeg hlast trs []
    simpa [getTransformCards] using this
  | cons g gs ih =>
    have hg' : DataCards (gs ++ [last]) := dataCards_tail hg
    have ih := ih hg' (fun x hx => hk x (by simp [hx]))
    obtain ⟨first, more, rfl, hf1, hf2, hf3⟩ := hg g (List.mem_append_left _ (by simp))
    have hmore : ∀ l ∈ more, isTransformLine l = false := fun l hl => blanks_noTransform (hf2 l hl)
    rcases hk (first :: more) (by simp) with ⟨d, n, values, hr⟩ | ho
    · obtain ⟨t, ht, _⟩ := transformCard_read io cosDeg (rest := gs ++ [last]) hg hr
      obtain ⟨trs', h1, h2, h3, h4⟩ := ih (dictSet trs n t)
      refine ⟨trs', ?_, ?_, ?_, ?_⟩
      · rw [List.cons_append, List.flatten_cons, List.cons_append, getTransformCards]
        obtain ⟨f, mo, ws, e, hfirst, _⟩ := transform_first hr.1
        cases e
        rw [if_pos hfirst, if_neg]
        · rw [ht]
          show getTransformCards io cosDeg (dictSet trs n t) _ = _
          rw [transforms_skip io cosDeg hmore, h1]
        · intro hall
          rw [List.all_eq_true] at hall
          obtain ⟨f, m, e, hf, _⟩ := hg last (by simp)
          exact hf (fiveBlanks_iff.1 (hall f (by simp [e])))
      · intro k
        rw [h2 k, dictSet_mem_keys]
        constructor
        · rintro ((rfl | h) | ⟨g, hg, h⟩)
          · exact Or.inr ⟨_, by simp, d, hr.1⟩
          · exact Or.inl h
          · exact Or.inr ⟨g, by simp [hg], h⟩
        · rintro (h | ⟨g, hg, d', h⟩)
          · exact Or.inl (Or.inr h)
          · rcases List.mem_cons.1 hg with rfl | hg
            · exact Or.inl (Or.inl (isTransform_unique h hr.1))
            · exact Or.inr ⟨g, hg, d', h⟩
      · intro k hk'
        rw [h3 k fun g hg => hk' g (by simp [hg]), lookup_dictSet, if_neg]
        rintro rfl
        exact hk' _ (by simp) d hr.1
      · intro before g after d' k v hs hr' ha
        cases before with
        | cons b before =>
          cases hs
          exact h4 before g after d' k v rfl hr' ha
        | nil =>
          cases hs
          obtain rfl := isTransform_unique hr'.1 hr.1
          obtain ⟨t', ht', hof⟩ := transformCard_read io cosDeg (rest := gs ++ [last]) hg hr'
          rw [ht] at ht'
          cases ht'
          exact ⟨t, by rw [h3 k ha, lookup_dictSet, if_pos rfl], hof⟩
    · have hall : ∀ l ∈ first :: more, isTransformLine l = false := by
        intro l hl
        rcases List.mem_cons.1 hl with rfl | hl
        · exact ho _ rfl
        · exact hmore l hl
      have hno : ∀ d n, ¬ IsTransformCard (first :: more) d n := by
        intro d n h
        obtain ⟨f, mo, ws, e, hf, _⟩ := transform_first h
        cases e
        rw [hall first (by simp)] at hf
        cases hf
      obtain ⟨trs', h1, h2, h3, h4⟩ := ih trs
      refine ⟨trs', ?_, ?_, ?_, ?_⟩
      · rw [List.cons_append, List.flatten_cons, transforms_skip io cosDeg hall, h1]
      · intro k
        rw [h2 k]
        constructor
        · rintro (h | ⟨g, hg, h⟩)
          · exact Or.inl h
          · exact Or.inr ⟨g, by simp [hg], h⟩
        · rintro (h | ⟨g, hg, d, h⟩)
          · exact Or.inl h
          · rcases List.mem_cons.1 hg with rfl | hg
            · exact absurd h (hno d k)
            · exact Or.inr ⟨g, hg, d, h⟩
      · intro k hk'
        exact h3 k fun g hg => hk' g (by simp [hg])
      · intro before g' after d k v hs hr ha
        cases before with
        | cons b before =>
          cases hs
          exact h4 before g' after d k v rfl hr ha
        | nil =>
          cases hs
          exact absurd hr.1 (hno d k)

/-- C73: every TR card of the data block is found and read with its continuation lines; of two cards with the same number the last counts; no other card is taken for one. Partial: the cards
begin in the first column, carry no comment, and are followed by another card (`last`), see `C73_refuted_comment`, `C73_refuted_column` and `C73_refuted_end`. -/
theorem C73_transforms_partial (io : NumIO K) (cosDeg : K → K) (gs : List (List Str)) (last : List Str) (hg : DataCards (gs ++ [last]))
    (hlast : ∀ l ∈ last, ∀ d t, l ≠ trName d t)
    (hk : ∀ g ∈ gs, (∃ d n values, TransformCardReads io g d n values) ∨ ∀ l, g.head? = some l → ∀ d t, l ≠ trName d t) :
    ∃ trs, getTransformCards io cosDeg [] (gs ++ [last]).flatten = .ok trs ∧ (∀ n, n ∈ trs.map Prod.fst ↔ ∃ g ∈ gs, ∃ d, IsTransformCard g d n) ∧
      ∀ before g after d n values, gs = before ++ g :: after → TransformCardReads io g d n values → (∀ g' ∈ after, ∀ d, ¬ IsTransformCard g' d n) →
        ∃ t, trs.lookup n = some t ∧ TransformOf cosDeg d values t := by
  have conv : ∀ l : Str, (∀ d t, l ≠ trName d t) → isTransformLine l = false := by
    intro l h
    by_contra hh
    rw [Bool.not_eq_false] at hh
    obtain ⟨d, t, e⟩ := isTransformLine_iff.1 hh
    exact h d t e
  obtain ⟨trs, h1, h2, _, h4⟩ := transforms io cosDeg last (fun l hl => conv l (hlast l hl)) gs hg
    (fun g hg => (hk g hg).imp id fun h l hl => conv l (h l hl)) []
  exact ⟨trs, h1, fun n => by rw [h2 n]; simp, h4⟩

/-! ## Transforms of filled cells -/

/-- C74: a filled cell that names a TR card gets its displacement and rotation, so that its points are looked up in the universe where the TR card puts them; all other fields stay, and cells
that name no TR card stay as they are. A cell that names a TR card that is missing is an error. -/
theorem C74_fill_transforms (io : NumIO K) (trs : List (Str × Transform K)) (cells : List (Cell K)) :
    ((∀ c ∈ cells, c.trId ≠ c!"0" → c.trId ∈ trs.map Prod.fst) →
      ∃ cells', applyUniverseTransformations trs cells = .ok cells' ∧
        List.Forall₂ (fun c c' => (c.trId = c!"0" → c' = c) ∧
          (c.trId ≠ c!"0" → c' = { c with offset := c'.offset, rotation := c'.rotation, trId := c!"0" } ∧
            ∀ t, trs.lookup c.trId = some t → ∀ p q, FillPoint io c' p q ↔ q = pullback t p)) cells cells') ∧
    ((∃ c ∈ cells, c.trId ≠ c!"0" ∧ c.trId ∉ trs.map Prod.fst) → applyUniverseTransformations trs cells = .error .keyError) := by
  have point : ∀ (c : Cell K) t p q, FillPoint io (c.applyUniverseTransform t) p q ↔ q = pullback t p := by
    intro c t p q
    constructor
    · rintro ⟨o, r, t', h1, h2, h3, h4, rfl⟩
      cases h1
      cases h2
      simp only [List.map_cons, List.map_nil, entryValue, List.cons.injEq, Option.some.injEq, and_true] at h3 h4
      obtain ⟨a1, a2, a3⟩ := h3
      obtain ⟨b1, b2, b3, b4, b5, b6, b7, b8, b9⟩ := h4
      unfold pullback
      rw [a1, a2, a3, b1, b2, b3, b4, b5, b6, b7, b8, b9]
    · rintro rfl
      exact ⟨_, _, t, rfl, rfl, rfl, rfl, rfl⟩
  unfold applyUniverseTransformations
  constructor
  · intro h
    induction cells with
    | nil => exact ⟨[], rfl, .nil⟩
    | cons c cells ih =>
      obtain ⟨cells', h1, h2⟩ := ih fun x hx => h x (by simp [hx])
      by_cases h0 : c.trId = c!"0"
      · refine ⟨c :: cells', ?_, .cons ⟨fun _ => rfl, fun hn => absurd h0 hn⟩ h2⟩
        rw [List.mapM_cons, h1, if_neg (by simpa using h0)]
        rfl
      · cases hl : trs.lookup c.trId with
        | none => exact absurd (h c (by simp) h0) (lookup_none_iff.1 hl)
        | some t =>
          refine ⟨c.applyUniverseTransform t :: cells', ?_, .cons ⟨fun hn => absurd hn h0, fun _ => ⟨rfl, ?_⟩⟩ h2⟩
          · rw [List.mapM_cons, h1, if_pos h0, hl]
            rfl
          · rintro t' ht p q
            cases hl.symm.trans ht
            exact point c t p q
  · rintro ⟨c, hc, h0, hn⟩
    induction cells with
    | nil => cases hc
    | cons x cells ih =>
      rw [List.mapM_cons]
      rcases List.mem_cons.1 hc with rfl | hc
      · rw [if_pos h0, lookup_none_iff.2 hn]
        rfl
      · by_cases hx : x.trId = c!"0"
        · rw [if_neg (by simpa using hx), ih hc]; rfl
        · rw [if_pos hx]
          cases trs.lookup x.trId with
          | none => rfl
          | some t => rw [ih hc]; rfl

end

/-! ## Cases that meet the hypotheses, and cases outside -/

private def dataBlock : List (List Str) := [[c!"mode n\n"], [c!"m1 1001.70c 2 $ water\n", c!"     8016 1 nlib=70c\n"], [c!"  m2 26000 -1.0\n"], [c!"mt1 lwtr\n"], [c!"tr5 1 2 3\n", c!"      1 0 0 0 1 0\n", c!"      0 0 1\n"], [c!"nps 100\n"]]

example : getMaterialCards sampleIO [] dataBlock.flatten = .ok [(c!"1", { name := c!"M1", number := c!"1", composition := [(c!"1001", 2), (c!"8016", 1)], xsid := [(c!"1001", c!"70c"), (c!"8016", [])], density := 0 }),
    (c!"2", { name := c!"M2", number := c!"2", composition := [(c!"26000", -1)], xsid := [(c!"26000", [])], density := 0 })] := by decide +kernel

example : getTransformCards sampleIO id [] dataBlock.flatten = .ok [(c!"5", ⟨⟨1, 2, 3⟩, ⟨1, 0, 0⟩, ⟨0, 1, 0⟩, ⟨0, 0, 1⟩⟩)] := by decide +kernel

example : MaterialCardReads sampleIO [c!"m1 1001.70c 2 $ water\n", c!"     8016 1 nlib=70c\n"] c!"1" [(c!"1001.70c", c!"2"), (c!"8016", c!"1")] [2, 1] :=
  ⟨⟨_, _, rfl, by decide, by decide, 0, c!" 1001.70c 2 $ water\n", by decide, by decide⟩, by decide +kernel, .cons (by decide +kernel) (.cons (by decide +kernel) .nil)⟩

example : TransformCardReads sampleIO [c!"tr5 1 2 3\n", c!"      1 0 0 0 1 0\n", c!"      0 0 1\n"] false c!"5" [1, 2, 3, 1, 0, 0, 0, 1, 0, 0, 0, 1] := by
  refine ⟨⟨by decide, by unfold IsTransformCard.NoBlank; decide, by decide, c!" 1 2 3\n", _, rfl, by decide⟩, by decide, ?_⟩
  have : (cardWords [c!"tr5 1 2 3\n", c!"      1 0 0 0 1 0\n", c!"      0 0 1\n"]).drop 1 = [c!"1", c!"2", c!"3", c!"1", c!"0", c!"0", c!"0", c!"1", c!"0", c!"0", c!"0", c!"1"] := by decide +kernel
  rw [this]
  exact .cons (by decide +kernel) (.cons (by decide +kernel) (.cons (by decide +kernel) (.cons (by decide +kernel) (.cons (by decide +kernel) (.cons (by decide +kernel) (.cons (by decide +kernel)
    (.cons (by decide +kernel) (.cons (by decide +kernel) (.cons (by decide +kernel) (.cons (by decide +kernel) (.cons (by decide +kernel) .nil)))))))))))

/-- C72 does not hold in general: the second line of a tally comment is taken for material 2. -/
theorem C72_refuted : ∃ gs : List (List Str), DataCards gs ∧ (∀ g ∈ gs, ∀ n, ¬ IsMaterialCard g n) ∧
    ∃ m, getMaterialCards sampleIO [] gs.flatten = .ok [(c!"2", m)] := by
  refine ⟨[[c!"fc4 heating in\n", c!"      m2 and 5\n", c!"\n"].take 2], ?_, ?_, ⟨{ name := c!"M2", number := c!"2", composition := [(c!"and", 5)], xsid := [(c!"and", [])], density := 0 }, by decide +kernel⟩⟩
  · intro g hg
    obtain rfl := List.mem_singleton.1 hg
    refine ⟨_, _, rfl, ?_, ?_, ?_⟩
    · rintro ⟨t, h⟩; exact absurd (List.cons.inj h).1 (by decide)
    · intro l hl; obtain rfl := List.mem_singleton.1 hl; exact ⟨_, rfl⟩
    · intro l hl
      simp only [List.mem_cons, List.not_mem_nil, or_false, List.take] at hl
      rcases hl with rfl | rfl
      · exact ⟨c!"fc4 heating in", by decide, Or.inr rfl⟩
      · exact ⟨c!"      m2 and 5", by decide, Or.inr rfl⟩
  · intro g hg n
    obtain rfl := List.mem_singleton.1 hg
    rintro ⟨first, more, e, h⟩
    obtain ⟨rfl, rfl⟩ := List.cons.inj e
    obtain ⟨ws, hws⟩ := head_words h
    have : split c!"fc4 heating in\n" = [c!"fc4", c!"heating", c!"in"] := by decide +kernel
    rw [this] at hws
    exact absurd (List.cons.inj (List.cons.inj hws).1).1 (by decide)

/-- C73 does not hold for TR cards with a comment: a comment of three words makes the rotation disappear. -/
theorem C73_refuted_comment : getTransformCards sampleIO id [] [c!"tr5 0 0 0 0 1 0 -1 0 0 0 0 1 $ turn it\n", c!"nps 100\n"] =
    .ok [(c!"5", ⟨⟨0, 0, 0⟩, ⟨1, 0, 0⟩, ⟨0, 1, 0⟩, ⟨0, 0, 1⟩⟩)] := by decide +kernel

/-- C73 does not hold for TR cards that do not begin in the first column, where MCNP allows the first five. -/
theorem C73_refuted_column : getTransformCards sampleIO id [] [c!" tr5 1 2 3\n", c!"nps 100\n"] = .ok [] := by decide +kernel

/-- C73 does not hold for a TR card at the end of the file. -/
theorem C73_refuted_end : getTransformCards sampleIO id [] [c!"tr5 1 2 3\n"] = .error .indexError := by decide +kernel

example : applyUniverseTransformations [(c!"5", ⟨⟨1, 2, 3⟩, ⟨0, 1, 0⟩, ⟨-1, 0, 0⟩, ⟨0, 0, 1⟩⟩)] [{ (Cell.blank : Cell ℚ) with trId := c!"5" }, Cell.blank] =
    .ok [{ (Cell.blank : Cell ℚ) with offset := some [.num 1, .num 2, .num 3], rotation := some [.num 0, .num 1, .num 0, .num (-1), .num 0, .num 0, .num 0, .num 0, .num 1] }, Cell.blank] := by
  decide +kernel

end Csg
