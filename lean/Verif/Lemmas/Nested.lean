import Verif.Spec.Nested
import Verif.Lemmas.WholeScone
import Verif.Props.Whole

/-!
# Searching for cells in related files
-/

set_option linter.unusedSectionVars false

namespace Csg

open Spec

/-- A search is followed in another file, where `V` relates the universes and `R` the cells, for points with `ok`. -/
theorem finds_follow {C C' U U' P : Type} {cells : List C} {cells' : List C'} {uni : C → U → Prop} {uni' : C' → U' → Prop} {fill : C → Option U} {fill' : C' → Option U'}
    {inside : C → P → Prop} {inside' : C' → P → Prop} {moves : C → P → P → Prop} {moves' : C' → P → P → Prop} {R : C → C' → Prop} {V : U → U' → Prop} {ok : P → Prop}
    (hc : ∀ c ∈ cells, ∀ u u', uni c u → V u u' → ∃ c' ∈ cells', R c c' ∧ uni' c' u')
    (hin : ∀ c c' p, R c c' → ok p → inside c p → inside' c' p)
    (hn : ∀ c c', R c c' → fill c = none → fill' c' = none)
    (hs : ∀ c c' u u' v, c ∈ cells → uni c u → V u u' → R c c' → fill c = some v → ∃ v', fill' c' = some v' ∧ V v v')
    (hm : ∀ c c' v p q, R c c' → fill c = some v → ok p → moves c p q → ok q ∧ moves' c' p q)
    {u : U} {p : P} {c : C} (h : Finds cells uni fill inside moves u p c) : ∀ {u' : U'}, V u u' → ok p → ∃ c', R c c' ∧ Finds cells' uni' fill' inside' moves' u' p c' := by
  induction h with
  | here h1 h2 h3 h4 =>
    intro u' hv hp
    obtain ⟨c', k1, k2, k3⟩ := hc _ h1 _ _ h2 hv
    exact ⟨c', k2, .here k1 k3 (hin _ _ _ k2 hp h3) (hn _ _ k2 h4)⟩
  | down h1 h2 h3 h4 h5 _ ih =>
    intro u' hv hp
    obtain ⟨c', k1, k2, k3⟩ := hc _ h1 _ _ h2 hv
    obtain ⟨v', j1, j2⟩ := hs _ _ _ _ _ h1 h2 hv k2 h4
    obtain ⟨j3, j4⟩ := hm _ _ _ _ _ k2 h4 hp h5
    obtain ⟨x, i1, i2⟩ := ih j2 j3
    exact ⟨x, i1, .down k1 k3 (hin _ _ _ k2 hp h3) j1 j4 i2⟩

/-- Searches in two files correspond to each other. -/
theorem finds_both {C C' U U' P : Type} {cells : List C} {cells' : List C'} {uni : C → U → Prop} {uni' : C' → U' → Prop} {fill : C → Option U} {fill' : C' → Option U'}
    {inside : C → P → Prop} {inside' : C' → P → Prop} {moves : C → P → P → Prop} {moves' : C' → P → P → Prop} {S : C → C' → Prop} {V : U → U' → Prop} {ok : P → Prop}
    (hl : ∀ c ∈ cells, ∀ u u', uni c u → V u u' → ∃ c' ∈ cells', S c c') (hr : ∀ c' ∈ cells', ∃ c ∈ cells, S c c')
    (huni : ∀ c c' u u', S c c' → V u u' → (uni c u ↔ uni' c' u')) (hin : ∀ c c' p, S c c' → ok p → (inside c p ↔ inside' c' p))
    (hnone : ∀ c c', S c c' → (fill c = none ↔ fill' c' = none))
    (hsome : ∀ c c' u u' v v', c ∈ cells → S c c' → V u u' → uni c u → fill c = some v → fill' c' = some v' → V v v')
    (hmoves : ∀ c c' p q, S c c' → fill c ≠ none → ok p → (moves c p q ↔ moves' c' p q)) (hok : ∀ c c' p q, S c c' → fill c ≠ none → ok p → moves c p q → ok q)
    {u : U} {u' : U'} {p : P} (hv : V u u') (hp : ok p) :
    (∀ c, Finds cells uni fill inside moves u p c → ∃ c', S c c' ∧ Finds cells' uni' fill' inside' moves' u' p c') ∧
      ∀ c', Finds cells' uni' fill' inside' moves' u' p c' → ∃ c, S c c' ∧ Finds cells uni fill inside moves u p c := by
  constructor
  · intro c h
    refine finds_follow (R := S) (V := V) (ok := ok) ?_ (fun c c' p hs ho => (hin c c' p hs ho).1) (fun c c' hs => (hnone c c' hs).1) ?_ ?_ h hv hp
    · intro c hc u u' hu hv
      obtain ⟨c', h1, h2⟩ := hl c hc u u' hu hv
      exact ⟨c', h1, h2, (huni c c' u u' h2 hv).1 hu⟩
    · intro c c' u u' v hc hu hv hs hf
      cases hf' : fill' c' with
      | none => rw [(hnone c c' hs).2 hf'] at hf; cases hf
      | some v' => exact ⟨v', rfl, hsome c c' u u' v v' hc hs hv hu hf hf'⟩
    · intro c c' v p q hs hf ho hm
      exact ⟨hok c c' p q hs (by rw [hf]; simp) ho hm, (hmoves c c' p q hs (by rw [hf]; simp) ho).1 hm⟩
  · intro c' h
    refine finds_follow (R := fun c' c => c ∈ cells ∧ S c c') (V := fun u' u => V u u') (ok := ok) ?_ (fun c' c p hs ho => (hin c c' p hs.2 ho).2) (fun c' c hs => (hnone c c' hs.2).2) ?_ ?_ h hv hp |>.imp
      fun c h => ⟨h.1.2, h.2⟩
    · intro c' hc' u' u hu hv
      obtain ⟨c, h1, h2⟩ := hr c' hc'
      exact ⟨c, h1, ⟨h1, h2⟩, (huni c c' u u' h2 hv).2 hu⟩
    · intro c' c u' u v' hc hu hv hs hf
      cases hf' : fill c with
      | none => rw [(hnone c c' hs.2).1 hf'] at hf; cases hf
      | some v => exact ⟨v, rfl, hsome c c' u u' v v' hs.1 hs.2 hv ((huni c c' u u' hs.2 hv).2 hu) hf' hf⟩
    · intro c' c v' p q hs hf ho hm
      have hn : fill c ≠ none := fun h => by rw [(hnone c c' hs.2).1 h] at hf; cases hf
      have := (hmoves c c' p q hs.2 hn ho).2 hm
      exact ⟨hok c c' p q hs.2 hn ho this, this⟩

section
variable {K : Type} [Field K] [LinearOrder K] [IsStrictOrderedRing K]

theorem deckUniverse_natStr {c : Cell K} {n : Nat} (h : c.uni.getD c!"0" = natStr n) : deckUniverse c = some n := by
  rw [deckUniverse, h, parseInt_natStr]; rfl

theorem deckFill_natStr {c : Cell K} {n : Nat} (h : c.fill = some (natStr n)) : deckFill c = some n := by
  rw [deckFill, h, Option.bind_some, parseInt_natStr]; rfl

theorem deckFill_none {c : Cell K} (h : c.fill = none) : deckFill c = none := by rw [deckFill, h]; rfl

theorem agree_imp {C C' P : Type} {found : P → C → Prop} {found' : P → C' → Prop} {same same' : C → C' → Prop} (h : Agree found found' same) (hi : ∀ c c', same c c' → same' c c') :
    Agree found found' same' :=
  ⟨fun p c hc => (h.1 p c hc).imp fun _ k => ⟨hi _ _ k.1, k.2⟩, fun p c hc => (h.2 p c hc).imp fun _ k => ⟨hi _ _ k.1, k.2⟩⟩

/-- A file whose cells are those of the deck agrees with the deck. -/
theorem agree_deck {io : NumIO K} {sqrt : K → K} {d : Deck K} {C' U' : Type} {cells' : List C'} {uni' : C' → U' → Prop} {fill' : C' → Option U'} {inside' : C' → Point K → Prop}
    {moves' : C' → Point K → Point K → Prop} {S : Cell K → C' → Prop} {V : Nat → U' → Prop} {root : U'} (h : List.Forall₂ S d.cells cells')
    (huni : ∀ c ∈ d.cells, ∀ x u u', S c x → V u u' → (deckUniverse c = some u ↔ uni' x u')) (hin : ∀ c ∈ d.cells, ∀ x p, S c x → (InDeckCell sqrt d c.id p ↔ inside' x p))
    (hnone : ∀ c ∈ d.cells, ∀ x, S c x → (deckFill c = none ↔ fill' x = none))
    (hsome : ∀ c ∈ d.cells, ∀ x v v', S c x → deckFill c = some v → fill' x = some v' → V v v')
    (hmoves : ∀ c ∈ d.cells, ∀ x p q, S c x → deckFill c ≠ none → (DeckMoves io d c p q ↔ moves' x p q)) (hroot : V 0 root) :
    Agree (DeckFinds io sqrt d) (Finds cells' uni' fill' inside' moves' root) S := by
  have main := fun p => finds_both (cells := d.cells) (cells' := cells') (S := fun c x => c ∈ d.cells ∧ S c x) (V := V) (ok := fun _ => True) (moves := DeckMoves io d) (moves' := moves')
    (uni := fun c u => deckUniverse c = some u) (uni' := uni') (fill := deckFill) (fill' := fill')
    (inside := fun c => InDeckCell sqrt d c.id) (inside' := inside') (u := 0) (u' := root) (p := p)
    (fun c hc u u' _ _ => (forall₂_left_mem h hc).imp fun x hx => ⟨hx.1, hc, hx.2⟩) (fun x hx => (forall₂_right h x hx).imp fun c hc => ⟨hc.1, hc.1, hc.2⟩)
    (fun c x u u' hs => huni c hs.1 x u u' hs.2) (fun c x p hs _ => hin c hs.1 x p hs.2) (fun c x hs => hnone c hs.1 x hs.2)
    (fun c x u u' v v' _ hs _ _ => hsome c hs.1 x v v' hs.2) (fun c x p q hs hf _ => hmoves c hs.1 x p q hs.2 hf) (fun _ _ _ _ _ _ _ _ => trivial) hroot trivial
  exact ⟨fun p c hc => ((main p).1 c hc).imp fun _ k => ⟨k.1.2, k.2⟩, fun p x hx => ((main p).2 x hx).imp fun _ k => ⟨k.1.2, k.2⟩⟩

/-- The same for a file in which universes have names that are texts. -/
theorem agree_text {io : NumIO K} {sqrt : K → K} {d : Deck K} (hu : PlainUniverses d) {C' : Type} {cells' : List C'} {uni' : C' → Str → Prop} {fill' : C' → Option Str} {inside' : C' → Point K → Prop}
    {moves' : C' → Point K → Point K → Prop} {S : Cell K → C' → Prop} (h : List.Forall₂ S d.cells cells')
    (huni : ∀ c x u, S c x → (uni' x u ↔ u = c.uni.getD c!"0")) (hfill : ∀ c x, S c x → fill' x = c.fill) (hin : ∀ c ∈ d.cells, ∀ x p, S c x → (InDeckCell sqrt d c.id p ↔ inside' x p))
    (hmoves : ∀ c ∈ d.cells, ∀ x p q, S c x → c.fill ≠ none → (DeckMoves io d c p q ↔ moves' x p q)) :
    Agree (DeckFinds io sqrt d) (Finds cells' uni' fill' inside' moves' c!"0") S := by
  refine agree_deck (V := fun (u : Nat) u' => u' = natStr u) h ?_ hin ?_ ?_ (fun c hc x p q hs hf => hmoves c hc x p q hs fun h => hf (deckFill_none h)) rfl
  · rintro c hc x u u' hs rfl
    obtain ⟨n, hn⟩ := (hu c hc).1
    rw [deckUniverse_natStr hn, huni c x _ hs, hn, Option.some.injEq]
    exact ⟨fun h => by rw [h], fun h => (natStr_injective h).symm⟩
  · intro c hc x hs
    rw [hfill c x hs]
    cases hf : c.fill with
    | none => simp [deckFill_none hf]
    | some f =>
      obtain ⟨n, rfl⟩ := (hu c hc).2 f hf
      simp [deckFill_natStr hf]
  · intro c hc x v v' hs hv hv'
    rw [hfill c x hs] at hv'
    obtain ⟨n, rfl⟩ := (hu c hc).2 v' hv'
    rw [deckFill_natStr hv'] at hv
    cases hv
    rfl

theorem mapM_of_map {α β : Type} {f : α → Option β} {l : List α} {ys : List β} (h : l.map f = ys.map some) : l.mapM f = some ys := by
  induction l generalizing ys with
  | nil => cases ys with
    | nil => rfl
    | cons y ys => simp at h
  | cons a l ih => cases ys with
    | nil => simp at h
    | cons y ys =>
      simp only [List.map_cons, List.cons.injEq] at h
      rw [List.mapM_cons, h.1, ih h.2]; rfl

theorem mapM_eq_of_map {α α' β : Type} {f : α → Option β} {g : α' → Option β} {l : List α} {l' : List α'} (h : l.map f = l'.map g) : l.mapM f = l'.mapM g := by
  induction l generalizing l' with
  | nil => cases l' with
    | nil => rfl
    | cons y ys => simp at h
  | cons a l ih => cases l' with
    | nil => simp at h
    | cons y ys =>
      simp only [List.map_cons, List.cons.injEq] at h
      rw [List.mapM_cons, List.mapM_cons, h.1, ih h.2]

theorem fillPoint_transform {io : NumIO K} {c : Cell K} {p q : Point K} (h : FillPoint io c p q) : ∃ t, fillTransform io c = some t ∧ q = pullback t p := by
  obtain ⟨offset, rotation, t, h1, h2, h3, h4, h5⟩ := h
  refine ⟨t, ?_, h5⟩
  unfold fillTransform
  rw [h1, h2]
  simp only
  rw [mapM_of_map (ys := [t.shift.x, t.shift.y, t.shift.z]) h3,
    mapM_of_map (ys := [t.v1.x, t.v1.y, t.v1.z, t.v2.x, t.v2.y, t.v2.z, t.v3.x, t.v3.y, t.v3.z]) h4]
  rfl

/-- Universes, fills and their transforms after processing. -/
theorem nested_processed {fuel : Nat} {io : NumIO K} (hio : Exact io) {cosDeg sqrt : K → K} {quick : Bool} {rank : Int → Nat} {d d' : Deck K}
    (hd : ProperDeck sqrt rank d) (hq : quick = true ∨ ∀ s ∈ d.surfaces, TwoSheet s) (h : finishDeck fuel io cosDeg sqrt quick d = some (.ok d')) :
    List.Forall₂ (fun c c' => c'.id = c.id ∧ c'.fill = c.fill ∧ c'.uni = c.uni ∧ (c.trId = c!"0" → c'.offset = c.offset ∧ c'.rotation = c.rotation) ∧
      ∀ p q, DeckMoves io d c p q ↔ ∃ t, fillTransform io c' = some t ∧ q = pullback t p) d.cells d'.cells := by
  obtain ⟨-, -, h1⟩ := processed_cells hio hd hq h
  refine forall₂_imp (fun c c' k => ?_) (forall₂_both h1 (C85_cells_partial fuel io hio cosDeg sqrt quick rank d d' hd h).1)
  obtain ⟨⟨⟨k1, -, k2, k3⟩, -⟩, k4, k5⟩ := k
  refine ⟨k1, k2, k3, fun h0 => (k4 h0).2, fun p q => ?_⟩
  unfold DeckMoves deckTransform
  by_cases h0 : c.trId = c!"0"
  · obtain ⟨-, e1, e2⟩ := k4 h0
    rw [if_pos h0, fillTransform, fillTransform, e1, e2]
  · obtain ⟨-, t, e1, e2⟩ := k5 h0
    rw [if_neg h0, e1]
    constructor
    · rintro ⟨t', ht, hq⟩
      cases ht
      exact fillPoint_transform ((e2 p q).2 hq)
    · rintro ⟨t', ht, hq⟩
      obtain ⟨t'', j1, j2⟩ := fillPoint_transform ((e2 p _).2 rfl)
      rw [ht] at j1
      cases j1
      exact ⟨t, rfl, hq.trans j2.symm⟩

end

end Csg
