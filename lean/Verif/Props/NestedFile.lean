import Verif.Props.Nested
import Verif.Props.FromText
import Verif.Spec.NestedFile

/-!
# C103: the cell and the material at a point of nested universes, from the text of the input file

For a text that says what `f` says: whatever cell a point of the MCNP file lies in, by the rules for nested universes, it lies in the same cell of the written file, with the same substance.
-/

set_option linter.unusedSectionVars false

namespace Csg

open Spec

section
variable {K : Type} [Field K] [LinearOrder K] [IsStrictOrderedRing K] {io : NumIO K} {cosDeg sqrt : K → K} {rank : Int → Nat} {f : InputFile K} {d : Deck K}

private theorem parse_float {w : Str} {x : K} (h : io.parse w = some x) : io.float w = .ok x := by rw [NumIO.float, h]

private theorem forall₂_same {α β : Type} {R : α → β → Prop} (hR : ∀ a b b', R a b → R a b' → b' = b) {l : List α} {bs bs' : List β} (h : List.Forall₂ R l bs) (h' : List.Forall₂ R l bs') : bs' = bs := by
  induction h generalizing bs' with
  | nil => cases h'; rfl
  | cons a _ ih =>
    cases h' with
    | cons b1 b2 => rw [hR _ _ _ a b1, ih b2]

/-- The fill of the cell moves points as the card says. -/
private theorem moves_agree (hn : (f.transforms.map Prod.fst).Nodup) (hz : NumberedTransforms f) (ha : DeckAgrees io cosDeg sqrt f d) (h : ConvertibleFile io cosDeg sqrt rank f) {e : CellEntry K} (he : e ∈ f.cells) {c : Cell K}
    (k : CellAgrees io cosDeg e c) (p q : Point K) : DeckMoves io d c p q ↔ FileMoves io cosDeg f e p q := by
  rcases carries_moves k.params with ⟨hm, h1, h2, h3⟩ | ⟨dg, ws, hm, h1, h3⟩
  · rw [still_moves h1 h2 h3, FileMoves, hm]
  · rcases h.fills e he dg ws hm with ⟨n, hnm, rfl⟩ | ⟨hl, hw⟩
    · obtain ⟨⟨n', dg', vs⟩, hmem, rfl⟩ := List.mem_map.1 hnm
      have h0 : natStr n' ≠ c!"0" := fun e => by
        have e0 : n' = 0 := natStr_injective (e.trans (by decide : c!"0" = natStr 0))
        have := hz _ hmem
        simp only at this
        omega
      have hpl := ha.place (some n') p
      rw [InputFile.place, (lookup_iff_mem hn).2 hmem, Option.map_some, placeBy] at hpl
      unfold DeckMoves deckTransform FileMoves
      rw [(h1 _ rfl).1, if_neg h0, hm]
      have hsome : ∃ t, d.transforms.lookup (natStr n') = some t := by
        cases hL : d.transforms.lookup (natStr n') with
        | some t => exact ⟨t, rfl⟩
        | none =>
          obtain ⟨t, ht, e⟩ := List.mem_map.1 ((ha.transforms (natStr n')).2 ⟨_, hmem, rfl⟩)
          rw [List.lookup_eq_none_iff] at hL
          exact absurd (hL t ht) (by simp [e])
      obtain ⟨t, ht⟩ := hsome
      rw [ht] at hpl
      simp only at hpl
      constructor
      · rintro ⟨t', ht', rfl⟩
        rw [ht] at ht'
        cases ht'
        exact ⟨n', dg', vs, rfl, hmem, hpl⟩
      · rintro ⟨n, dg, vs', e, hmem', rfl⟩
        obtain rfl := natStr_injective e
        have h1 := (lookup_iff_mem hn).2 hmem
        rw [(lookup_iff_mem hn).2 hmem'] at h1
        cases h1
        exact ⟨t, ht, hpl.symm⟩
    · have hval : ∀ w ∈ ws, ∃ x, io.parse w = some x := fun w hwm => (hw w hwm).2
      rcases ws with _ | ⟨x, _ | ⟨y, _ | ⟨z, rest⟩⟩⟩
      · simp at hl
      · simp at hl
      · simp at hl
      obtain ⟨k1, k2, k3, k4, k5⟩ := h3 x y z rest rfl
      have hfile : FileMoves io cosDeg f e p q ↔ ∃ values, List.Forall₂ (fun w x => io.parse w = some x) (x :: y :: z :: rest) values ∧ (values.length = 3 ∨ values.length = 12) ∧ q = trPoint cosDeg dg values p := by
        rw [FileMoves, hm]
      rw [hfile]
      obtain ⟨x', hx⟩ := hval x (by simp)
      obtain ⟨y', hy⟩ := hval y (by simp)
      obtain ⟨z', hz⟩ := hval z (by simp)
      obtain ⟨rs, hrs⟩ := exists_forall₂ (xs := rest) (R := fun w x => io.parse w = some x) fun w hw => hval w (by simp [hw])
      have huniq : ∀ values, List.Forall₂ (fun w x => io.parse w = some x) (x :: y :: z :: rest) values ↔ values = x' :: y' :: z' :: rs := by
        intro values
        constructor
        · exact fun hv => forall₂_same (fun a b b' h1 h2 => by rw [h1] at h2; cases h2; rfl) (.cons hx (.cons hy (.cons hz hrs))) hv
        · rintro rfl
          exact .cons hx (.cons hy (.cons hz hrs))
      have hlen : rest.length = 0 ∨ rest.length = 9 := by simpa using hl
      simp only [huniq, exists_eq_left]
      unfold DeckMoves deckTransform
      rw [if_pos k1]
      rcases hlen with hlen | hlen
      · obtain rfl := List.length_eq_zero_iff.1 hlen
        cases hrs
        have : fillTransform io c = some { shift := ⟨x', y', z'⟩, v1 := ⟨1, 0, 0⟩, v2 := ⟨0, 1, 0⟩, v3 := ⟨0, 0, 1⟩ } := by
          simp [fillTransform, k2, k3 (by simp), entryValue, hx, hy, hz, noRotation, transformOf]
        rw [this]
        simp [trPoint, pullback]
      · rcases rs with _ | ⟨a1, _ | ⟨a2, _ | ⟨a3, _ | ⟨b1, _ | ⟨b2, _ | ⟨b3, _ | ⟨c1, _ | ⟨c2, _ | ⟨c3, _ | ⟨_, _⟩⟩⟩⟩⟩⟩⟩⟩⟩⟩
        all_goals first
          | (exfalso; have := hrs.length_eq; simp only [List.length_nil, List.length_cons] at this; omega)
          | skip
        have htake : rest.take 9 = rest := List.take_of_length_le (by omega)
        cases dg with
        | false =>
          have hr := k4 rfl (by omega)
          rw [htake] at hr
          have hrm : (rest.map Entry.txt : List (Entry K)).mapM (entryValue io) = some [a1, a2, a3, b1, b2, b3, c1, c2, c3] := by
            rw [mapM_eq_of_map (g := io.parse) (l' := rest) (by simp [entryValue])]
            refine mapM_of_map ?_
            exact (forall₂_map_eq (f := io.parse) (g := some) (fun a b h => h.symm) hrs).symm
          have : fillTransform io c = some { shift := ⟨x', y', z'⟩, v1 := ⟨a1, a2, a3⟩, v2 := ⟨b1, b2, b3⟩, v3 := ⟨c1, c2, c3⟩ } := by
            unfold fillTransform
            rw [k2, hr]
            simp [entryValue, hx, hy, hz, hrm, transformOf]
          rw [this]
          simp [trPoint, pullback]
        | true =>
          obtain ⟨xs, hxs, hr⟩ := k5 rfl (by omega)
          rw [htake] at hxs
          have : xs = [a1, a2, a3, b1, b2, b3, c1, c2, c3] := by
            refine forall₂_same (R := fun w x => io.float w = .ok x) (fun a b b' h1 h2 => by rw [h1] at h2; cases h2; rfl) (forall₂_imp (fun _ _ h => parse_float h) hrs) (mapM_ok_iff.1 hxs)
          subst this
          have : fillTransform io c = some { shift := ⟨x', y', z'⟩, v1 := ⟨cosDeg a1, cosDeg a2, cosDeg a3⟩, v2 := ⟨cosDeg b1, cosDeg b2, cosDeg b3⟩, v3 := ⟨cosDeg c1, cosDeg c2, cosDeg c3⟩ } := by
            unfold fillTransform
            rw [k2, hr]
            simp [entryValue, hx, hy, hz, transformOf]
          rw [this]
          simp [trPoint, pullback]

private theorem uni_agree {e : CellEntry K} {c : Cell K} (k : CellAgrees io cosDeg e c) : deckUniverse c = fileUniverse e := by rw [deckUniverse, fileUniverse, universe_agrees k]

private theorem fill_agree {e : CellEntry K} {c : Cell K} (k : CellAgrees io cosDeg e c) : deckFill c = fileFill e := by rw [deckFill, fileFill, carries_fill k.params]

private theorem agree_symm {C C' P : Type} {found : P → C → Prop} {found' : P → C' → Prop} {same : C → C' → Prop} (h : Agree found found' same) : Agree found' found fun c' c => same c c' := ⟨h.2, h.1⟩

theorem agree_trans {C C' C'' P : Type} {found : P → C → Prop} {found' : P → C' → Prop} {found'' : P → C'' → Prop} {same : C → C' → Prop} {same' : C' → C'' → Prop} {both : C → C'' → Prop}
    (h : Agree found found' same) (h' : Agree found' found'' same') (hb : ∀ a b c, same a b → same' b c → both a c) : Agree found found'' both := by
  constructor
  · intro p c hc
    obtain ⟨c', k1, k2⟩ := h.1 p c hc
    obtain ⟨c'', k3, k4⟩ := h'.1 p c' k2
    exact ⟨c'', hb _ _ _ k1 k3, k4⟩
  · intro p c hc
    obtain ⟨c', k1, k2⟩ := h'.2 p c hc
    obtain ⟨c'', k3, k4⟩ := h.2 p c' k2
    exact ⟨c'', hb _ _ _ k3 k1, k4⟩

private theorem agree_near {C C' P : Type} {found : P → C → Prop} {found' : P → C' → Prop} {same : C → C' → Prop} (near : P → Prop) (h : Agree found found' same) :
    Agree (fun p c => near p ∧ found p c) (fun p c => near p ∧ found' p c) same :=
  ⟨fun p c hc => (h.1 p c hc.2).imp fun _ k => ⟨k.1, hc.1, k.2⟩, fun p c hc => (h.2 p c hc.2).imp fun _ k => ⟨k.1, hc.1, k.2⟩⟩

/-- The search in the deck as read is the search in the file. -/
theorem agree_file {text : Str} (hf : FileSays io text f) (hz : NumberedTransforms f) (ha : DeckAgrees io cosDeg sqrt f d) (h : ConvertibleFile io cosDeg sqrt rank f) :
    Agree (FileFinds io cosDeg sqrt f) (DeckFinds io sqrt d) fun e c => e ∈ f.cells ∧ CellAgrees io cosDeg e c := by
  refine agree_symm (agree_deck (S := fun c e => e ∈ f.cells ∧ CellAgrees io cosDeg e c) (V := Eq) ?_ ?_ ?_ ?_ ?_ ?_ rfl)
  · exact forall₂_imp (fun _ _ k => ⟨k.1, k.2.2⟩) (forall₂_mem ha.cells) |>.flip
  · rintro c - e u u' k rfl
    rw [uni_agree k.2]
  · intro c hc e p k
    rw [cells_agree ha, k.2.number]
  · intro c hc e k
    rw [fill_agree k.2]
  · intro c hc e v v' k h1 h2
    rw [fill_agree k.2, h2] at h1
    exact (Option.some.inj h1).symm
  · intro c hc e p q k _
    exact moves_agree hf.transforms hz ha h k.1 k.2 p q

private theorem plain_universes (ha : DeckAgrees io cosDeg sqrt f d) (h : PlainFile f) : PlainUniverses d := by
  intro c hc
  obtain ⟨e, he, k⟩ := forall₂_exists_right ha.cells hc
  rw [universe_agrees k, carries_fill k.params]
  exact h e he

private theorem unsigned_universes (ha : DeckAgrees io cosDeg sqrt f d) (h : UnsignedFile f) : UnsignedUniverses d := by
  intro c hc
  obtain ⟨e, he, k⟩ := forall₂_exists_right ha.cells hc
  rw [universe_agrees k, carries_fill k.params]
  exact h e he

private theorem defined_fills (ha : DeckAgrees io cosDeg sqrt f d) (h : DefinedFile f) : DefinedFills d := by
  intro c hc v hv
  obtain ⟨e, he, k⟩ := forall₂_exists_right ha.cells hc
  rw [fill_agree k] at hv
  obtain ⟨h1, x, hx, h2⟩ := h e he v hv
  obtain ⟨y, hy, k'⟩ := forall₂_exists_left ha.cells hx
  exact ⟨h1, y, hy, by rw [uni_agree k', h2]⟩

private theorem unrotated_fills {text : Str} (hf : FileSays io text f) (hz : NumberedTransforms f) (ha : DeckAgrees io cosDeg sqrt f d) (hc : ConvertibleFile io cosDeg sqrt rank f) (h : UnrotatedFile io cosDeg f) :
    UnrotatedFills io d := by
  intro c hcm hn
  obtain ⟨e, he, k⟩ := forall₂_exists_right ha.cells hcm
  obtain ⟨x, y, z, hm⟩ := h e he (by rw [← carries_fill k.params]; exact hn)
  exact ⟨x, y, z, fun p q => (moves_agree hf.transforms hz ha hc he k p q).trans (hm p q)⟩

private theorem still_fills (ha : DeckAgrees io cosDeg sqrt f d) (h : StillFile f) : StillFills d := by
  intro c hc _
  obtain ⟨e, he, k⟩ := forall₂_exists_right ha.cells hc
  rcases carries_moves k.params with ⟨-, h1⟩ | ⟨dg, ws, hm, -⟩
  · exact h1
  · rw [h e he] at hm
    cases hm

/-! ## Codes -/

/-- **C103** for OpenMC (partial). Missing is what is missing in C100; universes are written without a sign. -/
theorem C103_openmc_partial (e : Env K) (hio : Exact e.io) (cosDeg : K → K) (quick : Bool) (rank : Int → Nat) (text : Str) (f : InputFile K) (hf : FileSays e.io text f)
    (hc : ConvertibleFile e.io cosDeg e.sqrt rank f) (ho : OpenmcFile f) (hn : NumberedTransforms f) (hu : UnsignedFile f) :
    ∃ fuel₀, ∀ fuel ≥ fuel₀, ∃ g m xs es ys, Converts { e with fuel := fuel } cosDeg quick text .openmc (.xml g m) ∧ openmcGeometry g = some (xs, es) ∧ openmcMaterials m = some ys ∧
      Agree (FileFinds e.io cosDeg e.sqrt f) (OpenmcFinds e.sqrt e.io xs es) fun c x => x.id = intStr c.number ∧
        FileMadeOf f c (x.material = some c!"void") fun density comp => x.material ≠ some c!"void" ∧ OpenmcHas e.io ys x density comp := by
  obtain ⟨d, hr, ha, hs, hl⟩ := read_file e.io cosDeg e.sqrt text f hf
  have hd := convertible_file hf hr ha hs hl hc
  obtain ⟨fuel₀, h⟩ := C98_openmc_partial e hio cosDeg quick rank text d hr hd (openmc_file hio ⟨_, hr⟩ ha hc ho) (unsigned_universes ha hu)
  refine ⟨fuel₀, fun fuel hfu => ?_⟩
  obtain ⟨g, m, xs, es, ys, h1, h2, h3, h4⟩ := h fuel hfu
  exact ⟨g, m, xs, es, ys, h1, h2, h3, agree_trans (agree_file hf hn ha hc) h4 fun a b c k j => ⟨by rw [j.1, k.2.number], made_of ha hc (fun c hc => (file_legal hf c hc).2) k.1 k.2 j.2⟩⟩

/-- **C103** for Serpent (partial). Missing is what is missing in C100; fills are not rotated, and universes are written without leading zeros. -/
theorem C103_serpent_partial (e : Env K) (hio : Exact e.io) (cosDeg : K → K) (quick : Bool) (read : Str → Option K) (approx : K → K) (rank : Int → Nat) (text : Str) (f : InputFile K)
    (hsci : ∀ x, FloatText (e.sci x) ∧ e.io.parse (e.sci x) = some (approx x)) (hf : FileSays e.io text f) (hc : ConvertibleFile e.io cosDeg e.sqrt rank f) (hk : CardFile f)
    (hread : ∀ d fuel d', readDeck e.io cosDeg (readText text) = .ok d → finishDeck fuel e.io cosDeg e.sqrt quick d = some (.ok d') →
      ShortCells e.io d ∧ PrintedSurfaces read e.io d' ∧ ∀ s ∈ d.surfaces, IsCone s.type ∨ IsTorus s.type → ∀ x ∈ s.coeffs, Prints read e.fixed x)
    (hn : NumberedTransforms f) (hu : PlainFile f) (hone : e.io.parse c!"1" = some 1) (hrot : UnrotatedFile e.io cosDeg f) :
    ∃ fuel₀, ∀ fuel ≥ fuel₀, ∃ out cards, Converts { e with fuel := fuel } cosDeg quick text .serpent (.text out) ∧ serpentCards out = ([], cards) ∧
      Agree (FileFinds e.io cosDeg e.sqrt f) (SerpentFinds e.io e.sqrt read cards) fun c card => card[1]? = some (intStr c.number) ∧ FileMadeOf f c (serpentFilling card = some (intStr c.number, c!"void"))
        fun density comp => ∃ name, name ≠ c!"void" ∧ name ≠ c!"outside" ∧ serpentFilling card = some (intStr c.number, name) ∧ SerpentHas e.io approx cards name density comp := by
  obtain ⟨d, hr, ha, hs, hl⟩ := read_file e.io cosDeg e.sqrt text f hf
  have hd := convertible_file hf hr ha hs hl hc
  obtain ⟨fu, d', hfin⟩ := convertible_finishes (quick := quick) hio hr hd
  obtain ⟨fuel₀, h⟩ := C98_serpent_partial e hio cosDeg quick read approx rank text d hsci hr hd (card_file ha hc hk) (hread d fu d' hr hfin).2.2 (hread d fu d' hr hfin).1 (fun fuel d' h => (hread d fuel d' hr h).2.1)
    (plain_universes ha hu) hone (unrotated_fills hf hn ha hc hrot)
  refine ⟨fuel₀, fun fuel hfu => ?_⟩
  obtain ⟨out, cards, h1, h2, h3⟩ := h fuel hfu
  refine ⟨out, cards, h1, h2, agree_trans (agree_file hf hn ha hc) h3 fun a b c k j => ?_⟩
  rw [k.2.number] at j
  exact ⟨j.1, made_of ha hc (fun c hc => (file_legal hf c hc).2) k.1 k.2 j.2⟩

/-- **C103** for PHITS (partial). Missing is what is missing in C100; universes are written without leading zeros. -/
theorem C103_phits_partial (e : Env K) (hio : Exact e.io) (cosDeg : K → K) (quick : Bool) (rank : Int → Nat) (text : Str) (f : InputFile K) (hf : FileSays e.io text f)
    (hc : ConvertibleFile e.io cosDeg e.sqrt rank f) (hk : CardFile f)
    (hread : ∀ d fuel d', readDeck e.io cosDeg (readText text) = .ok d → finishDeck fuel e.io cosDeg e.sqrt quick d = some (.ok d') →
      ShortCells e.io d ∧ ShortSurfaces e.io d' ∧ ∀ m ∈ d.materials, PrintableXs m.2)
    (hn : NumberedTransforms f) (hu : PlainFile f) :
    ∃ fuel₀, ∀ fuel ≥ fuel₀, ∃ out secs sl cl ml scards ccards mcards, Converts { e with fuel := fuel } cosDeg quick text .phits (.text out) ∧ phitsSections (readlines out) = ([], secs) ∧
      secs.lookup c!"surface" = some sl ∧ secs.lookup c!"cell" = some cl ∧ secs.lookup c!"material" = some ml ∧ phitsCards sl = ([], scards) ∧ phitsCards cl = ([], ccards) ∧ phitsCards ml = ([], mcards) ∧
      Agree (FileFinds e.io cosDeg e.sqrt f) (PhitsFinds e.sqrt e.io scards ccards) fun c card => card.head? = some (intStr c.number) ∧ FileMadeOf f c (phitsFilling card = some (intStr c.number, c!"0", none))
        fun density comp => ∃ name dw, name ≠ c!"0" ∧ phitsFilling card = some (intStr c.number, name, some dw) ∧ e.io.parse dw = some density ∧ PhitsHas e.io mcards name comp := by
  obtain ⟨d, hr, ha, hs, hl⟩ := read_file e.io cosDeg e.sqrt text f hf
  have hd := convertible_file hf hr ha hs hl hc
  obtain ⟨fu, d', hfin⟩ := convertible_finishes (quick := quick) hio hr hd
  obtain ⟨fuel₀, h⟩ := C98_phits_partial e hio cosDeg quick rank text d hr hd (card_file ha hc hk) (hread d fu d' hr hfin).2.2 (hread d fu d' hr hfin).1 (fun fuel d' h => (hread d fuel d' hr h).2.1)
    (plain_universes ha hu)
  refine ⟨fuel₀, fun fuel hfu => ?_⟩
  obtain ⟨out, secs, sl, cl, ml, sc, cc, mc, h1, h2, h3, h4, h5, h6, h7, h8, h9⟩ := h fuel hfu
  refine ⟨out, secs, sl, cl, ml, sc, cc, mc, h1, h2, h3, h4, h5, h6, h7, h8, agree_trans (agree_file hf hn ha hc) h9 fun a b c k j => ?_⟩
  rw [k.2.number] at j
  exact ⟨j.1, made_of ha hc (fun c hc => (file_legal hf c hc).2) k.1 k.2 j.2⟩

/-- **C103** for MCNP (partial). The written file is read again. Missing is what is missing in C100. -/
theorem C103_mcnp_partial (e : Env K) (hio : Exact e.io) (cosDeg : K → K) (quick : Bool) (rank : Int → Nat) (text : Str) (f : InputFile K) (hmn : ∀ mn ∈ printedMnemonics, e.io.parse mn = none)
    (hf : FileSays e.io text f) (hc : ConvertibleFile e.io cosDeg e.sqrt rank f) (hk : CardFile f)
    (hi : ∀ (i : Nat) c x, f.cells[i]? = some c → FileImportance e.io f i c x → PlainNumber (e.io.render x))
    (hread : ∀ d fuel d', readDeck e.io cosDeg (readText text) = .ok d → finishDeck fuel e.io cosDeg e.sqrt quick d = some (.ok d') → ShortCells e.io d ∧ ShortSurfaces e.io d')
    (hn : NumberedTransforms f) :
    ∃ fuel₀, ∀ fuel ≥ fuel₀, ∃ out d2, Converts { e with fuel := fuel } cosDeg quick text .mcnp (.text out) ∧ readDeck e.io cosDeg (readText out) = .ok d2 ∧
      Agree (FileFinds e.io cosDeg e.sqrt f) (DeckFinds e.io e.sqrt d2) fun c c2 => c2.id = c.number ∧ FileMadeOf f c (c2.material.text = c!"0")
        fun density comp => c2.material.text ≠ c!"0" ∧ c2.density = density ∧ ∃ m2, d2.materials.lookup c2.material.text = some m2 ∧ m2.composition = comp := by
  obtain ⟨d, hr, ha, hs, hl⟩ := read_file e.io cosDeg e.sqrt text f hf
  have hd := convertible_file hf hr ha hs hl hc
  obtain ⟨fu, d', hfin⟩ := convertible_finishes (quick := quick) hio hr hd
  obtain ⟨fuel₀, h⟩ := C98_mcnp_partial e hio cosDeg quick rank text d hmn hr hd (card_file ha hc hk) (hread d fu d' hr hfin).1
    (fun i c x hcx hx => by
      obtain ⟨y, hy, k⟩ := forall₂_getElem? ha.cells.flip hcx
      exact hi i y x hy (file_importance ha hf.importances k hx))
    fun fuel d' h => (hread d fuel d' hr h).2
  refine ⟨fuel₀, fun fuel hfu => ?_⟩
  obtain ⟨out, d2, h1, h2, h3⟩ := h fuel hfu
  exact ⟨out, d2, h1, h2, agree_trans (agree_file hf hn ha hc) h3 fun a b c k j => ⟨by rw [j.1, k.2.number], made_of ha hc (fun c hc => (file_legal hf c hc).2) k.1 k.2 j.2⟩⟩

/-- **C103** for SCONE (partial). Missing is what is missing in C100; fills are not displaced or rotated, and universes that fill cells exist. Inside the border of the root. -/
theorem C103_scone_partial (e : Env K) (hio : Exact e.io) (hsci : ∀ x, SconeOrdinary (e.sci x)) (ho : ∀ l, (e.orderInt l).Perm l) (cosDeg tanSq : K → K) (quick : Bool) (read : Str → Option K)
    (hlit : ∀ w x, Literal w x → read w = some x) (rank : Int → Nat) (text : Str) (f : InputFile K) (hf : FileSays e.io text f) (hc : ConvertibleFile e.io cosDeg e.sqrt rank f) (hk : SconeFile e.io f)
    (hread : ∀ d fuel d', readDeck e.io cosDeg (readText text) = .ok d → finishDeck fuel e.io cosDeg e.sqrt quick d = some (.ok d') → PrintedSurfaces read e.io d' ∧
      ∀ s ∈ d.surfaces, IsCone s.type → (∀ x ∈ s.coeffs, Prints read e.fixed x) ∧ ∀ t, s.coeffs[3]? = some t → 0 ≤ t ∧ Prints read e.io.render (e.degAtan (e.sqrt t)) ∧ tanSq (e.degAtan (e.sqrt t)) = t)
    (hn : NumberedTransforms f) (hu : UnsignedFile f) (hdef : DefinedFile f) (hstill : StillFile f) :
    ∃ fuel₀ d d', readDeck e.io cosDeg (readText text) = .ok d ∧ ∀ fuel ≥ fuel₀, finishDeck fuel e.io cosDeg e.sqrt quick d = some (.ok d') ∧
      ∃ out gs ns ses ces ues mes, Converts { e with fuel := fuel } cosDeg quick text .scone (.text out) ∧ sconeRead out = some [.dict c!"geometry" gs, .dict c!"nuclearData" ns] ∧
        .dict c!"surfaces" ses ∈ gs ∧ .dict c!"cells" ces ∈ gs ∧ .dict c!"universes" ues ∈ gs ∧ .dict c!"materials" mes ∈ ns ∧
        ∀ near : Point K → Prop, (∀ p, near p → ∀ s ∈ d'.surfaces, ∀ u, coneOffset s.type s.coeffs p = some u → |u| < 10 ^ 10) →
          Agree (fun p c => near p ∧ FileFinds e.io cosDeg e.sqrt f p c) (fun p x => near p ∧ SconeFinds tanSq read ses ces ues p x) fun c x => sconeNumber x = some (intStr c.number) ∧
            FileMadeOf f c (sconeMaterialOf x = some (intStr c.number, c!"void"))
              fun density comp => ∃ name, name ≠ c!"void" ∧ sconeMaterialOf x = some (intStr c.number, name) ∧ SconeHas e.sci mes name density comp := by
  obtain ⟨d, hr, ha, hs, hl⟩ := read_file e.io cosDeg e.sqrt text f hf
  have hd := convertible_file hf hr ha hs hl hc
  obtain ⟨fu, d', hfin⟩ := convertible_finishes (quick := quick) hio hr hd
  obtain ⟨fuel₀, d', h⟩ := C98_scone_partial e hio hsci ho cosDeg tanSq quick read hlit rank text d hr hd (scone_file hf ⟨_, hr⟩ ha hs hl hc hk (hread d fu d' hr hfin).2) (fun fuel d' h => (hread d fuel d' hr h).1)
    (unsigned_universes ha hu) (defined_fills ha hdef) (still_fills ha hstill)
  refine ⟨fuel₀, d, d', hr, fun fuel hfu => ?_⟩
  obtain ⟨h0, out, gs, ns, ses, ces, ues, mes, h1, h2, h3, h4, h5, h6, h7⟩ := h fuel hfu
  refine ⟨h0, out, gs, ns, ses, ces, ues, mes, h1, h2, h3, h4, h5, h6, fun near hnear => agree_trans (agree_near near (agree_file hf hn ha hc)) (h7 near hnear) fun a b c k j => ?_⟩
  rw [k.2.number] at j
  exact ⟨j.1, made_of ha hc (fun c hc => (file_legal hf c hc).2) k.1 k.2 j.2⟩

end

end Csg
