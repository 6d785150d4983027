import Verif.Lemmas.ConvertibleFile
import Verif.Props.Whole

/-!
# From the text of the input file to the text of the written file: C100
-/

set_option linter.unusedSectionVars false

namespace Csg

open Spec

section
variable {K : Type} [Field K] [LinearOrder K] [IsStrictOrderedRing K]
variable {io : NumIO K} {cosDeg sqrt : K → K} {rank : Int → Nat} {f : InputFile K} {d : Deck K}

/-! ## Conditions on the deck -/

private theorem word_attr {w : Str} (h : ∀ c ∈ w, NumberChar c) : AttrText w := by
  intro c hc
  rcases h c hc with h | rfl | rfl | rfl | rfl
  · exact digit_attr h
  all_goals decide

private theorem word_space {w : Str} (h : ∀ c ∈ w, NumberChar c) : ∀ c ∈ w, isSpace c = false := fun c hc => (numberChar_plain (h c hc)).1

/-- The offset and the rotation of a fill that names no TR card. -/
private theorem moved_cells (ha : DeckAgrees io cosDeg sqrt f d) (h : ConvertibleFile io cosDeg sqrt rank f) {c : Cell K} (hc : c ∈ d.cells) :
    ∃ e ∈ f.cells, CellAgrees io cosDeg e c ∧
      (c.trId = c!"0" → (∀ l, c.offset = some l → l.length = 3 ∧ ∀ x ∈ l, ∃ dg ws w, e.moves = some (dg, ws) ∧ w ∈ ws ∧ x = .txt w ∧ w ≠ [] ∧ (∀ ch ∈ w, NumberChar ch) ∧ ∃ v, io.parse w = some v) ∧
        ∀ l, c.rotation = some l → l.length = 9 ∧ ∀ x ∈ l, (∃ v, x = .num v) ∨ ∃ dg ws w, e.moves = some (dg, ws) ∧ w ∈ ws ∧ x = .txt w ∧ w ≠ [] ∧ (∀ ch ∈ w, NumberChar ch) ∧ ∃ v, io.parse w = some v) := by
  obtain ⟨e, he, k⟩ := forall₂_exists_right ha.cells hc
  refine ⟨e, he, k, fun h0 => ?_⟩
  rcases carries_moves k.params with ⟨-, -, h2, h3⟩ | ⟨dg, ws, hm, h1, h3⟩
  · rw [h2, h3]
    simp
  · rcases h.fills e he dg ws hm with ⟨n, hn, rfl⟩ | ⟨hl, hw⟩
    · rw [(h1 _ rfl).2.1, (h1 _ rfl).2.2]
      simp
    · have hne : ∀ w ∈ ws, w ≠ [] := by
        obtain ⟨v, t, -, rfl⟩ := moves_some hm
        exact fun w hw => (split_words t w hw).1
      match ws, hl with
      | x :: y :: z :: rest, hl =>
        obtain ⟨-, k2, k3, k4, k5⟩ := h3 x y z rest rfl
        rw [k2]
        refine ⟨fun l hl => ?_, fun l hl' => ?_⟩
        · cases hl
          refine ⟨rfl, fun u hu => ?_⟩
          simp only [List.mem_cons, List.not_mem_nil, or_false] at hu
          rcases hu with rfl | rfl | rfl
          · exact ⟨dg, _, x, hm, by simp, rfl, hne x (by simp), hw x (by simp)⟩
          · exact ⟨dg, _, y, hm, by simp, rfl, hne y (by simp), hw y (by simp)⟩
          · exact ⟨dg, _, z, hm, by simp, rfl, hne z (by simp), hw z (by simp)⟩
        · rcases hl with hl | hl
          · rw [k3 (by simp at hl; simp [hl])] at hl'
            cases hl'
          · have h9 : rest.length = 9 := by simpa using hl
            cases dg with
            | false =>
              rw [k4 rfl (by omega)] at hl'
              cases hl'
              refine ⟨by simp [h9], fun u hu => ?_⟩
              obtain ⟨w, hwm, rfl⟩ := List.mem_map.1 hu
              have hwm := List.mem_of_mem_take hwm
              exact .inr ⟨_, _, w, hm, by simp [hwm], rfl, hne w (by simp [hwm]), hw w (by simp [hwm])⟩
            | true =>
              obtain ⟨xs, hxs, e1⟩ := k5 rfl (by omega)
              rw [e1] at hl'
              cases hl'
              refine ⟨?_, fun u hu => ?_⟩
              · rw [List.length_map, ← (mapM_ok_iff.1 hxs).length_eq]
                simp [h9]
              · obtain ⟨v, -, rfl⟩ := List.mem_map.1 hu
                exact .inl ⟨_, rfl⟩
      | [], hl => simp at hl
      | [_], hl => simp at hl
      | [_, _], hl => simp at hl

theorem universe_agrees {e : CellEntry K} {c : Cell K} (k : CellAgrees io cosDeg e c) : c.uni.getD c!"0" = e.uni.getD c!"0" := by rw [carries_uni k.params]

theorem openmc_file (hio : Exact io) (hr : ∃ lines, readDeck io cosDeg lines = .ok d) (ha : DeckAgrees io cosDeg sqrt f d) (h : ConvertibleFile io cosDeg sqrt rank f) (ho : OpenmcFile f) : OpenmcInput io d := by
  obtain ⟨lines, hr⟩ := hr
  refine ⟨hio.zero, fun m hm x hx => ?_, fun c hc h0 => ?_, fun c hc => ?_, ?_, ?_⟩
  · obtain ⟨m', hm', e⟩ := (ha.materials m.1).1 (List.mem_map.2 ⟨m, hm, rfl⟩)
    obtain ⟨y, hy, hof⟩ := ha.material m' hm'
    rw [← e, (lookup_iff_mem (readDeck_listed hr).1).2 (show (m.1, m.2) ∈ d.materials from hm)] at hy
    cases hy
    obtain ⟨u, hu, e1⟩ := ((composition_of hof).nuclides x.1).1 (List.mem_map.2 ⟨x, hx, rfl⟩)
    rw [← e1]
    exact ho.nuclides m' hm' u hu
  · obtain ⟨e, he, k, hmv⟩ := moved_cells ha h hc
    obtain ⟨h1, h2⟩ := hmv h0
    have txt : ∀ x : Entry K, (∃ dg ws w, e.moves = some (dg, ws) ∧ w ∈ ws ∧ x = .txt w ∧ w ≠ [] ∧ (∀ ch ∈ w, NumberChar ch) ∧ ∃ v, io.parse w = some v) → EntryPrints io x := by
      rintro x ⟨-, -, w, -, -, rfl, hne, hch, v, hv⟩
      exact ⟨hne, word_space hch, word_attr hch, v, hv, hv⟩
    refine ⟨fun l hl => ⟨(h1 l hl).1, fun x hx => txt x ((h1 l hl).2 x hx)⟩, fun l hl => ⟨(h2 l hl).1, fun x hx => ?_⟩⟩
    rcases (h2 l hl).2 x hx with ⟨v, rfl⟩ | hx
    · exact numbers_print hio [v] _ (by simp)
    · exact txt x hx
  · obtain ⟨e, he, k⟩ := forall₂_exists_right ha.cells hc
    rw [universe_agrees k, carries_fill k.params]
    exact ho.universes e he
  · obtain ⟨e, he, hu⟩ := ho.root
    obtain ⟨c, hc, k⟩ := forall₂_exists_left ha.cells he
    exact ⟨c, hc, by rw [universe_agrees k]; exact hu⟩
  · obtain ⟨depth, hd⟩ := ho.nested
    refine ⟨depth, fun c hc => ?_⟩
    obtain ⟨e, he, k⟩ := forall₂_exists_right ha.cells hc
    rw [universe_agrees k, carries_fill k.params]
    exact hd e he

theorem card_file (ha : DeckAgrees io cosDeg sqrt f d) (h : ConvertibleFile io cosDeg sqrt rank f) (hk : CardFile f) : CardInput io d := by
  refine ⟨fun c hc => ?_, fun c hc => ?_, fun c hc h0 => ?_⟩
  · obtain ⟨e, he, k⟩ := forall₂_exists_right ha.cells hc
    rw [k.number]
    exact hk.ids e he
  · obtain ⟨e, he, k⟩ := forall₂_exists_right ha.cells hc
    rw [carries_uni k.params, carries_fill k.params]
    exact hk.universes e he
  · obtain ⟨e, he, k, hmv⟩ := moved_cells ha h hc
    obtain ⟨h1, h2⟩ := hmv h0
    refine ⟨fun l hl => ⟨(h1 l hl).1, fun x hx => ?_⟩, fun l hl => ⟨(h2 l hl).1, fun x hx => ?_⟩⟩
    · obtain ⟨dg, ws, w, hm, hw, rfl, hne, hch, -⟩ := (h1 l hl).2 x hx
      exact ⟨hne, hk.moves e he dg ws hm w hw, hch⟩
    · rcases (h2 l hl).2 x hx with ⟨v, rfl⟩ | ⟨dg, ws, w, hm, hw, rfl, hne, hch, v, hv⟩
      · exact ⟨v, rfl⟩
      · exact ⟨v, hv⟩

/-- Materials of the deck. -/
private theorem material_file (hr : ∃ lines, readDeck io cosDeg lines = .ok d) (ha : DeckAgrees io cosDeg sqrt f d) {m : Str × Material K} (hm : m ∈ d.materials) :
    ∃ m' ∈ f.materials, CompositionOf m'.2.1 m'.2.2 m.2.composition := by
  obtain ⟨lines, hr⟩ := hr
  obtain ⟨m', hm', e⟩ := (ha.materials m.1).1 (List.mem_map.2 ⟨m, hm, rfl⟩)
  obtain ⟨x, hx, hof⟩ := ha.material m' hm'
  rw [← e, (lookup_iff_mem (readDeck_listed hr).1).2 (show (m.1, m.2) ∈ d.materials from hm)] at hx
  cases hx
  exact ⟨m', hm', composition_of hof⟩

private theorem type_file {e : SurfaceEntry K} {s : Surface K} (h : ConvertibleFile io cosDeg sqrt rank f) (he : e ∈ f.surfaces) (k : StoredAs e s) (ht : e.mn ∉ [c!"tx", c!"ty", c!"tz"]) :
    ¬ IsTorus s.type ∧ (IsCone s.type → ∃ m : Mn, e.mn = m.word ∧ IsConeEquation (mcnpValue m e.values)) := by
  rcases h.surfaces e he with ⟨m, e1, e2⟩ | ⟨e1, -⟩ | ⟨ty, e1, -⟩
  · obtain ⟨hq, h2, hv⟩ := k.quadric m e1 e2
    have hwf := (k.plain (by rw [e1]; exact bodyType_word m)).2
    refine ⟨fun h => ?_, fun h => ⟨m, e1, ?_⟩⟩
    · rcases h with h | h | h <;> rw [h] at hq <;> exact hq
    · have hv' : mcnpValue m e.values = fun p => value s.type s.coeffs p := funext fun p => (hv p).symm
      rw [hv']
      rcases h with h | h | h
      · rw [h]
        unfold WellFormed at hwf
        rw [h] at hwf
        match s.coeffs, hwf with
        | [x, y, z, t, w], _ => exact ⟨x, y, z, t, .inl fun p => rfl⟩
      · rw [h]
        unfold WellFormed at hwf
        rw [h] at hwf
        match s.coeffs, hwf with
        | [x, y, z, t, w], _ => exact ⟨x, y, z, t, .inr (.inl fun p => rfl)⟩
      · rw [h]
        unfold WellFormed at hwf
        rw [h] at hwf
        match s.coeffs, hwf with
        | [x, y, z, t, w], _ => exact ⟨x, y, z, t, .inr (.inr fun p => rfl)⟩
  · exact absurd e1 ht
  · have hb := (k.body ty e1).1
    unfold Surface.isMacrobody at hb
    constructor
    · rintro (h | h | h) <;> rw [h] at hb <;> cases hb
    · rintro (h | h | h) <;> rw [h] at hb <;> cases hb

private theorem open_file {ss : List (Sym Str)} (h : ∀ a b, ss = a ++ .no :: b → b.head? = some .lp) : OpenSyms ss := by
  induction ss with
  | nil => trivial
  | cons x ss ih => exact ⟨fun e => h [] ss (by rw [e]; rfl), ih fun a b e => h (x :: a) b (by rw [e]; rfl)⟩

theorem fluka_file {text : Str} (hsays : FileSays io text f) (hr : ∃ lines, readDeck io cosDeg lines = .ok d) (ha : DeckAgrees io cosDeg sqrt f d) (hs : List.Forall₂ StoredAs f.surfaces d.surfaces)
    (h : ConvertibleFile io cosDeg sqrt rank f) (hz : (io.render 0).length ≤ 10) (hk : FlukaFile io cosDeg sqrt f) : FlukaSource io sqrt d := by
  refine ⟨fun s hsm => ?_, fun c hc => ?_, fun c hc => ?_, fun i c x hc hx => ?_, fun m hm x hx => ?_, fun c hc => ?_, fun m hm => ?_, fun m hm => ?_⟩
  · obtain ⟨e, he, k1, k2⟩ := forall₂_exists_right (forall₂_both ha.surfaces hs) hsm
    obtain ⟨j1, j2, j3, j4⟩ := hk.surfaces e he
    obtain ⟨t1, t2⟩ := type_file h he k2 j1
    refine ⟨fun hc => ?_, t1, fun hb => ?_, fun hb => ?_⟩
    · obtain ⟨m, e1, e2⟩ := t2 hc
      exact j2 m e1 e2
    · rw [k1.transform, j3 ((stored_macro k2).1 hb)]
      rfl
    · have hb' : bodyType e.mn = none := by
        cases hbt : bodyType e.mn with
        | none => rfl
        | some ty => rw [(stored_macro k2).2 (by rw [hbt]; rfl)] at hb; cases hb
      obtain ⟨p, q, b, h1, h2⟩ := j4 hb'
      refine ⟨p, q, b, ?_, ?_⟩
      · rw [k1.sides, k1.transform, ha.place]
        exact h1
      · rw [k1.sides, k1.transform, ha.place]
        exact h2
  · obtain ⟨e, he, k⟩ := forall₂_exists_right ha.cells hc
    rw [hashOpen_iff, k.region.1]
    exact open_file (hk.hashes e he)
  · obtain ⟨e, he, k⟩ := forall₂_exists_right ha.cells hc
    rw [k.number]
    exact hk.ids e he
  · obtain ⟨e, he, k⟩ := forall₂_getElem? ha.cells.flip hc
    exact hk.importances i e x he (file_importance ha hsays.importances k hx)
  · obtain ⟨m', hm', hof⟩ := material_file hr ha hm
    obtain ⟨u, hu, e1⟩ := (hof.nuclides x.1).1 (List.mem_map.2 ⟨x, hx, rfl⟩)
    rw [← e1]
    exact hk.nuclides m' hm' u hu
  · obtain ⟨e, he, k⟩ := forall₂_exists_right ha.cells hc
    have hcon := k.content
    cases hx : e.content with
    | none =>
      rw [hx] at hcon
      rw [hcon.2, abs_zero]
      exact hz
    | some mx =>
      rw [hx] at hcon
      rw [hcon.2]
      exact hk.densities e he mx.1 mx.2 hx
  · obtain ⟨m', hm', hof⟩ := material_file hr ha hm
    exact (hk.fractions m' hm' _ hof).1
  · obtain ⟨m', hm', hof⟩ := material_file hr ha hm
    exact (hk.fractions m' hm' _ hof).2

theorem scone_file {text : Str} {degAtan tanSq : K → K} {read : Str → Option K} {fixed : K → Str} (hsays : FileSays io text f) (hr : ∃ lines, readDeck io cosDeg lines = .ok d) (ha : DeckAgrees io cosDeg sqrt f d)
    (hs : List.Forall₂ StoredAs f.surfaces d.surfaces) (hlast : d.last = d.surfaces.foldl (fun m s => if m < s.id then s.id else m) 0) (h : ConvertibleFile io cosDeg sqrt rank f) (hk : SconeFile io f)
    (hcone : ∀ s ∈ d.surfaces, IsCone s.type → (∀ x ∈ s.coeffs, Prints read fixed x) ∧ ∀ t, s.coeffs[3]? = some t → 0 ≤ t ∧ Prints read io.render (degAtan (sqrt t)) ∧ tanSq (degAtan (sqrt t)) = t) :
    SconeSource io sqrt degAtan tanSq read fixed d := by
  refine ⟨?_, fun s hsm => ⟨?_, hcone s hsm⟩, fun c hc => ?_, fun c hc => ?_, fun c hc w hw => ?_, fun c hc => ?_, fun m hm => ?_, ?_⟩
  · have hlen : d.surfaces.length = f.surfaces.length := ha.surfaces.length_eq.symm
    rw [hlast, hlen]
    rcases last_mem (ss := d.surfaces) (m := 0) with e | ⟨s, hsm, e⟩
    · rw [e]
      cases hf : f.surfaces with
      | nil => norm_num
      | cons x l =>
        have k1 := (h.numbers.2 x (by rw [hf]; simp)).1
        have k2 := (hk.surfaces x (by rw [hf]; simp)).2
        rw [hf] at k2
        omega
    · rw [e]
      obtain ⟨x, hx, k⟩ := forall₂_exists_right ha.surfaces hsm
      rw [k.number]
      exact (hk.surfaces x hx).2
  · obtain ⟨e, he, k⟩ := forall₂_exists_right hs hsm
    exact (type_file h he k (hk.surfaces e he).1).1
  · obtain ⟨e, he, k⟩ := forall₂_exists_right ha.cells hc
    rw [k.number]
    exact hk.ids e he
  · obtain ⟨e, he, k⟩ := forall₂_exists_right ha.cells hc
    have hcon := k.content
    cases hx : e.content with
    | none =>
      rw [hx] at hcon
      rw [hcon.2]
      exact hk.densities.1
    | some mx =>
      rw [hx] at hcon
      rw [hcon.2]
      exact hk.densities.2 e he mx.1 mx.2 hx
  · obtain ⟨e, he, k⟩ := forall₂_exists_right ha.cells hc
    by_cases ha : tokenSym w = .atom w
    · exact hk.words e he w (by rw [← k.region.1]; exact List.mem_map.2 ⟨w, hw, ha⟩)
    · unfold tokenSym wordSym at ha
      split_ifs at ha with h1 h2 h3 h4
      · rw [h1]; decide
      · rw [h2]; decide
      · rw [h3]; decide
      · rw [h4]; decide
      · exact absurd rfl ha
  · obtain ⟨e, he, k⟩ := forall₂_exists_right ha.cells hc
    rw [universe_agrees k, carries_fill k.params]
    exact hk.universes e he
  · obtain ⟨m', hm', hof⟩ := material_file hr ha hm
    exact hk.fractions m' hm' _ hof
  · rcases hk.used with h0 | ⟨e, he, hne⟩
    · refine .inl (List.eq_nil_iff_forall_not_mem.2 fun m hm => ?_)
      obtain ⟨m', hm', -⟩ := material_file hr ha hm
      rw [h0] at hm'
      cases hm'
    · obtain ⟨c, hc, k⟩ := forall₂_exists_left ha.cells he
      refine .inr ⟨c, hc, ?_⟩
      have hcon := k.content
      cases hx : e.content with
      | none => exact absurd hx hne
      | some mx =>
        rw [hx] at hcon
        have := (file_legal hsays e he).2 mx.1 mx.2 hx
        rw [hcon.1]
        intro h
        have : mx.1 = 0 := by injection h
        omega

private theorem forall₂_via {A B C : Type} {P : A → B → Prop} {R : B → C → Prop} {S : A → C → Prop} {l : List A} {m : List B} {n : List C} (h1 : List.Forall₂ P l m) (h2 : List.Forall₂ R m n)
    (h : ∀ a ∈ l, ∀ b c, P a b → R b c → S a c) : List.Forall₂ S l n := by
  induction h1 generalizing n with
  | nil => cases h2; exact .nil
  | cons p _ ih =>
    cases h2 with
    | cons r h2 => exact .cons (h _ (by simp) _ _ p r) (ih h2 fun a ha => h a (List.mem_cons_of_mem _ ha))

/-! ## Universes and fillings -/

private theorem universe_iff (ha : DeckAgrees io cosDeg sqrt f d) (u : Int) : DeckUniverse d.cells u ↔ FileUniverse f u := by
  constructor
  · intro h
    induction h with
    | root => exact .root
    | fill hc hu _ hf hv ih =>
      obtain ⟨e, he, k⟩ := forall₂_exists_right ha.cells hc
      exact .fill he (by rw [← universe_agrees k]; exact hu) ih (by rw [← carries_fill k.params]; exact hf) hv
  · intro h
    induction h with
    | root => exact .root
    | fill he hu _ hf hv ih =>
      obtain ⟨c, hc, k⟩ := forall₂_exists_left ha.cells he
      exact .fill hc (by rw [universe_agrees k]; exact hu) ih (by rw [carries_fill k.params]; exact hf) hv

theorem geometry_iff (ha : DeckAgrees io cosDeg sqrt f d) {e : CellEntry K} {c : Cell K} (k : CellAgrees io cosDeg e c) : InGeometry d.cells c ↔ InFileGeometry f e := by
  unfold InGeometry InFileGeometry
  rw [universe_agrees k]
  simp only [universe_iff ha]

theorem made_of (ha : DeckAgrees io cosDeg sqrt f d) (h : ConvertibleFile io cosDeg sqrt rank f) (hpos : ∀ c ∈ f.cells, ∀ m x, c.content = some (m, x) → 0 < m) {e : CellEntry K} (he : e ∈ f.cells) {c : Cell K}
    (k : CellAgrees io cosDeg e c) {void : Prop} {has : K → List (Str × K) → Prop} (hm : MadeOf d c void has) : FileMadeOf f e void has := by
  intro hf
  obtain ⟨h1, h2⟩ := hm (by rw [carries_fill k.params]; exact hf)
  have hcon := k.content
  cases hx : e.content with
  | none =>
    rw [hx] at hcon
    exact h1 hcon.1
  | some mx =>
    rw [hx] at hcon
    have := hpos e he mx.1 mx.2 hx
    obtain ⟨m, comp, k1, k2, k3⟩ := h2 mx.1 (by omega) hcon.1
    obtain ⟨n, hn, e1⟩ := h.materials e he mx.1 mx.2 hx
    obtain ⟨m', hm', rfl⟩ := List.mem_map.1 hn
    obtain ⟨y, hy, hof⟩ := ha.material m' hm'
    rw [← e1, show intStr (m'.1 : Int) = natStr m'.1 by simp [intStr], hy] at k1
    cases k1
    exact ⟨m'.1, m'.2.1, m'.2.2, _, comp, hm', e1, composition_of hof, k2, by rw [← hcon.2]; exact k3⟩

/-! ## Codes -/

/-- **C100** for OpenMC (partial). A text that says what `f` says is converted, and the cells of the OpenMC file have the points and the materials that `f` has. Missing is what is missing in C99 and C96. -/
theorem C100_openmc_partial (e : Env K) (hio : Exact e.io) (cosDeg : K → K) (quick : Bool) (rank : Int → Nat) (text : Str) (f : InputFile K) (hf : FileSays e.io text f)
    (hc : ConvertibleFile e.io cosDeg e.sqrt rank f) (ho : OpenmcFile f) :
    ∃ fuel₀, ∀ fuel ≥ fuel₀, ∃ g m xs es ys, Converts { e with fuel := fuel } cosDeg quick text .openmc (.xml g m) ∧ openmcGeometry g = some (xs, es) ∧ openmcMaterials m = some ys ∧
      (∀ c ∈ f.cells, InFileGeometry f c → ∃ x ∈ es, x.id = intStr c.number) ∧
      ∀ x ∈ es, ∃ c ∈ f.cells, InFileGeometry f c ∧ x.id = intStr c.number ∧ (∀ p, InOpenmc e.sqrt e.io xs x p ↔ InFileCell cosDeg e.sqrt f c.number p) ∧
        FileMadeOf f c (x.material = some c!"void") fun density comp => x.material ≠ some c!"void" ∧ OpenmcHas e.io ys x density comp := by
  obtain ⟨d, hr, ha, hs, hl⟩ := read_file e.io cosDeg e.sqrt text f hf
  have hd := convertible_file hf hr ha hs hl hc
  obtain ⟨fuel₀, h⟩ := C96_openmc_partial e hio cosDeg quick rank text d hr hd (openmc_file hio ⟨_, hr⟩ ha hc ho)
  refine ⟨fuel₀, fun fuel hfu => ?_⟩
  obtain ⟨g, m, xs, es, ys, h1, h2, h3, h4, h5⟩ := h fuel hfu
  refine ⟨g, m, xs, es, ys, h1, h2, h3, fun c hcm hg => ?_, fun x hx => ?_⟩
  · obtain ⟨c', hc', k⟩ := forall₂_exists_left ha.cells hcm
    rw [← k.number]
    exact h4 c' hc' ((geometry_iff ha k).2 hg)
  · obtain ⟨c, hcm, j1, j2, j3, j4⟩ := h5 x hx
    obtain ⟨c', hc', k⟩ := forall₂_exists_right ha.cells hcm
    refine ⟨c', hc', (geometry_iff ha k).1 j1, by rw [j2, k.number], fun p => ?_, made_of ha hc (fun c hc => (file_legal hf c hc).2) hc' k j4⟩
    rw [j3 p, cells_agree ha, k.number]

/-- **C100** for Serpent (partial). Also missing: the texts of numbers must fit on a card and be such that Serpent reads them (`hread`), which is a condition on the result of reading and processing. -/
theorem C100_serpent_partial (e : Env K) (hio : Exact e.io) (cosDeg : K → K) (quick : Bool) (read : Str → Option K) (approx : K → K) (rank : Int → Nat) (text : Str) (f : InputFile K)
    (hsci : ∀ x, FloatText (e.sci x) ∧ e.io.parse (e.sci x) = some (approx x)) (hf : FileSays e.io text f) (hc : ConvertibleFile e.io cosDeg e.sqrt rank f) (hk : CardFile f)
    (hread : ∀ d fuel d', readDeck e.io cosDeg (readText text) = .ok d → finishDeck fuel e.io cosDeg e.sqrt quick d = some (.ok d') →
      ShortCells e.io d ∧ PrintedSurfaces read e.io d' ∧ ∀ s ∈ d.surfaces, IsCone s.type ∨ IsTorus s.type → ∀ x ∈ s.coeffs, Prints read e.fixed x) :
    ∃ fuel₀, ∀ fuel ≥ fuel₀, ∃ out cards, Converts { e with fuel := fuel } cosDeg quick text .serpent (.text out) ∧ serpentCards out = ([], cards) ∧
      List.Forall₂ (fun c r => ∃ g, r = some (intStr c.number, g) ∧ ∀ p, InSerpent e.sqrt read cards g p ↔ InFileCell cosDeg e.sqrt f c.number p) f.cells (serpentRegions cards) ∧
      List.Forall₂ (fun c x => FileMadeOf f c (x = some (intStr c.number, c!"void"))
        fun density comp => ∃ name, name ≠ c!"void" ∧ name ≠ c!"outside" ∧ x = some (intStr c.number, name) ∧ SerpentHas e.io approx cards name density comp) f.cells (serpentFillings cards) := by
  obtain ⟨d, hr, ha, hs, hl⟩ := read_file e.io cosDeg e.sqrt text f hf
  have hd := convertible_file hf hr ha hs hl hc
  obtain ⟨fu, d', hfin⟩ := convertible_finishes (quick := quick) hio hr hd
  obtain ⟨fuel₀, h⟩ := C96_serpent_partial e hio cosDeg quick read approx rank text d hsci hr hd (card_file ha hc hk) (hread d fu d' hr hfin).2.2 (hread d fu d' hr hfin).1 fun fuel d' h => (hread d fuel d' hr h).2.1
  refine ⟨fuel₀, fun fuel hfu => ?_⟩
  obtain ⟨out, cards, h1, h2, h3, h4⟩ := h fuel hfu
  refine ⟨out, cards, h1, h2, forall₂_via ha.cells h3 fun x hx c r k j => ?_, forall₂_via ha.cells h4 fun x hx c r k j => ?_⟩
  · obtain ⟨g, j1, j2⟩ := j
    exact ⟨g, by rw [j1, k.number], fun p => by rw [j2 p, cells_agree ha, k.number]⟩
  · rw [k.number] at j
    exact made_of ha hc (fun c hc => (file_legal hf c hc).2) hx k j

/-- **C100** for PHITS (partial). Also missing: the texts of numbers and of library names must fit on a card (`hread`), which is a condition on the result of reading and processing. -/
theorem C100_phits_partial (e : Env K) (hio : Exact e.io) (cosDeg : K → K) (quick : Bool) (rank : Int → Nat) (text : Str) (f : InputFile K) (hf : FileSays e.io text f)
    (hc : ConvertibleFile e.io cosDeg e.sqrt rank f) (hk : CardFile f)
    (hread : ∀ d fuel d', readDeck e.io cosDeg (readText text) = .ok d → finishDeck fuel e.io cosDeg e.sqrt quick d = some (.ok d') →
      ShortCells e.io d ∧ ShortSurfaces e.io d' ∧ ∀ m ∈ d.materials, PrintableXs m.2) :
    ∃ fuel₀, ∀ fuel ≥ fuel₀, ∃ out secs sl cl ml scards ccards mcards, Converts { e with fuel := fuel } cosDeg quick text .phits (.text out) ∧ phitsSections (readlines out) = ([], secs) ∧
      secs.lookup c!"surface" = some sl ∧ secs.lookup c!"cell" = some cl ∧ secs.lookup c!"material" = some ml ∧ phitsCards sl = ([], scards) ∧ phitsCards cl = ([], ccards) ∧ phitsCards ml = ([], mcards) ∧
      List.Forall₂ (fun c card => ∃ g, phitsRegion card = some (intStr c.number, g) ∧ ∀ p, InPhits e.sqrt e.io scards g p ↔ InFileCell cosDeg e.sqrt f c.number p) f.cells ccards ∧
      List.Forall₂ (fun c card => FileMadeOf f c (phitsFilling card = some (intStr c.number, c!"0", none))
        fun density comp => ∃ name dw, name ≠ c!"0" ∧ phitsFilling card = some (intStr c.number, name, some dw) ∧ e.io.parse dw = some density ∧ PhitsHas e.io mcards name comp) f.cells ccards := by
  obtain ⟨d, hr, ha, hs, hl⟩ := read_file e.io cosDeg e.sqrt text f hf
  have hd := convertible_file hf hr ha hs hl hc
  obtain ⟨fu, d', hfin⟩ := convertible_finishes (quick := quick) hio hr hd
  obtain ⟨fuel₀, h⟩ := C96_phits_partial e hio cosDeg quick rank text d hr hd (card_file ha hc hk) (hread d fu d' hr hfin).2.2 (hread d fu d' hr hfin).1 fun fuel d' h => (hread d fuel d' hr h).2.1
  refine ⟨fuel₀, fun fuel hfu => ?_⟩
  obtain ⟨out, secs, sl, cl, ml, sc, cc, mc, h1, h2, h3, h4, h5, h6, h7, h8, h9, h10⟩ := h fuel hfu
  refine ⟨out, secs, sl, cl, ml, sc, cc, mc, h1, h2, h3, h4, h5, h6, h7, h8, forall₂_via ha.cells h9 fun x hx c r k j => ?_, forall₂_via ha.cells h10 fun x hx c r k j => ?_⟩
  · obtain ⟨g, j1, j2⟩ := j
    exact ⟨g, by rw [j1, k.number], fun p => by rw [j2 p, cells_agree ha, k.number]⟩
  · rw [k.number] at j
    exact made_of ha hc (fun c hc => (file_legal hf c hc).2) hx k j

/-- **C100** for MCNP (partial). The written file is read again; it has the same cells. Also missing: the texts of numbers must fit on a card (`hread`), which is a condition on the result of reading and processing, and importances must have
texts that the reader of cell cards takes (`hi`). -/
theorem C100_mcnp_partial (e : Env K) (hio : Exact e.io) (cosDeg : K → K) (quick : Bool) (rank : Int → Nat) (text : Str) (f : InputFile K) (hmn : ∀ mn ∈ printedMnemonics, e.io.parse mn = none)
    (hf : FileSays e.io text f) (hc : ConvertibleFile e.io cosDeg e.sqrt rank f) (hk : CardFile f)
    (hi : ∀ (i : Nat) c x, f.cells[i]? = some c → FileImportance e.io f i c x → PlainNumber (e.io.render x))
    (hread : ∀ d fuel d', readDeck e.io cosDeg (readText text) = .ok d → finishDeck fuel e.io cosDeg e.sqrt quick d = some (.ok d') → ShortCells e.io d ∧ ShortSurfaces e.io d') :
    ∃ fuel₀, ∀ fuel ≥ fuel₀, ∃ out d2, Converts { e with fuel := fuel } cosDeg quick text .mcnp (.text out) ∧ readDeck e.io cosDeg (readText out) = .ok d2 ∧
      List.Forall₂ (fun c c2 => c2.id = c.number ∧ (∀ p, InDeckCell e.sqrt d2 c2.id p ↔ InFileCell cosDeg e.sqrt f c.number p) ∧ FileMadeOf f c (c2.material.text = c!"0")
        fun density comp => c2.material.text ≠ c!"0" ∧ c2.density = density ∧ ∃ m2, d2.materials.lookup c2.material.text = some m2 ∧ m2.composition = comp) f.cells d2.cells := by
  obtain ⟨d, hr, ha, hs, hl⟩ := read_file e.io cosDeg e.sqrt text f hf
  have hd := convertible_file hf hr ha hs hl hc
  obtain ⟨fu, d', hfin⟩ := convertible_finishes (quick := quick) hio hr hd
  obtain ⟨fuel₀, h⟩ := C96_mcnp_partial e hio cosDeg quick rank text d hmn hr hd (card_file ha hc hk) (hread d fu d' hr hfin).1
    (fun i c x hcx hx => by
      obtain ⟨y, hy, k⟩ := forall₂_getElem? ha.cells.flip hcx
      exact hi i y x hy (file_importance ha hf.importances k hx))
    fun fuel d' h => (hread d fuel d' hr h).2
  refine ⟨fuel₀, fun fuel hfu => ?_⟩
  obtain ⟨out, d2, h1, h2, h3⟩ := h fuel hfu
  refine ⟨out, d2, h1, h2, forall₂_via ha.cells h3 fun x hx c c2 k j => ?_⟩
  obtain ⟨j1, j2, j3⟩ := j
  exact ⟨by rw [j1, k.number], fun p => by rw [j2 p, cells_agree ha, k.number], made_of ha hc (fun c hc => (file_legal hf c hc).2) hx k j3⟩

/-- **C100** for FLUKA (partial). Also missing: cones, tori and macrobodies with a transformation are left out, and so are points on the surfaces of the processed deck. -/
theorem C100_fluka_partial (e : Env K) (hio : Exact e.io) (hz : e.io.parse c!"0." = some 0) (hz' : e.io.parse c!"0.0" = some 0) (hzero : (e.io.render 0).length ≤ 10)
    (h3 : ∀ x, x = 0 ∨ 1 / 10 ^ 99 ≤ x → x ≤ 10 ^ 9 → (e.sci3 x).length = 10 ∧ '\n' ∉ e.sci3 x)
    (h4 : ∀ x, 1 / 10 ^ 99 ≤ x → x ≤ 100000 → (e.sci4 x).length ≤ 10 ∧ ' ' ∉ e.sci4 x ∧ '\n' ∉ e.sci4 x) (ho : ∀ l, (e.orderStr l).Perm l)
    (cosDeg : K → K) (quick : Bool) (rank : Int → Nat) (text : Str) (f : InputFile K) (hf : FileSays e.io text f) (hc : ConvertibleFile e.io cosDeg e.sqrt rank f) (hk : FlukaFile e.io cosDeg e.sqrt f) :
    ∃ fuel₀ d d', readDeck e.io cosDeg (readText text) = .ok d ∧ ∀ fuel ≥ fuel₀, finishDeck fuel e.io cosDeg e.sqrt quick d = some (.ok d') ∧
      ∃ out input, Converts { e with fuel := fuel } cosDeg quick text .fluka (.text out) ∧ flukaRead out = some input ∧
        List.Forall₂ (fun c r => r.1 = c!"C" ++ intStr c.number ∧
          ∀ p, (∀ s ∈ d'.surfaces, side e.sqrt s.type s.coeffs p ≠ some .on) → (InFluka e.io input.bodies r.2 p ↔ InFileCell cosDeg e.sqrt f c.number p)) f.cells input.regions ∧
        List.Forall₂ (fun c l => field l 2 = c!"C" ++ intStr c.number ∧ FileMadeOf f c (field l 1 = c!"BLCKHOLE" ∨ field l 1 = c!"VACUUM")
          fun density comp => FlukaHas e.io e.sci3 input.cards (field l 1) density comp) f.cells (input.cards.filter fun l => decide (field l 0 = c!"ASSIGNMA")) := by
  obtain ⟨d, hr, ha, hs, hl⟩ := read_file e.io cosDeg e.sqrt text f hf
  have hd := convertible_file hf hr ha hs hl hc
  obtain ⟨fuel₀, d', h⟩ := C96_fluka_partial e hio hz hz' hzero h3 h4 ho cosDeg quick rank text d hr hd (fluka_file hf ⟨_, hr⟩ ha hs hc hzero hk)
  refine ⟨fuel₀, d, d', hr, fun fuel hfu => ?_⟩
  obtain ⟨h0, out, input, h1, h2, h5, h6⟩ := h fuel hfu
  refine ⟨h0, out, input, h1, h2, forall₂_via ha.cells h5 fun x hx c r k j => ?_, forall₂_via ha.cells h6 fun x hx c r k j => ?_⟩
  · exact ⟨by rw [j.1, k.number], fun p hp => by rw [j.2 p hp, cells_agree ha, k.number]⟩
  · exact ⟨by rw [j.1, k.number], made_of ha hc (fun c hc => (file_legal hf c hc).2) hx k j.2⟩

/-- **C100** for SCONE (partial). Also missing: tori and points far from the tip of a cone are left out, and the texts of numbers must be such that SCONE reads them (`hread`), which is a condition on the result of reading and processing. -/
theorem C100_scone_partial (e : Env K) (hio : Exact e.io) (hsci : ∀ x, SconeOrdinary (e.sci x)) (ho : ∀ l, (e.orderInt l).Perm l) (cosDeg tanSq : K → K) (quick : Bool) (read : Str → Option K)
    (hlit : ∀ w x, Literal w x → read w = some x) (rank : Int → Nat) (text : Str) (f : InputFile K) (hf : FileSays e.io text f) (hc : ConvertibleFile e.io cosDeg e.sqrt rank f) (hk : SconeFile e.io f)
    (hread : ∀ d fuel d', readDeck e.io cosDeg (readText text) = .ok d → finishDeck fuel e.io cosDeg e.sqrt quick d = some (.ok d') → PrintedSurfaces read e.io d' ∧
      ∀ s ∈ d.surfaces, IsCone s.type → (∀ x ∈ s.coeffs, Prints read e.fixed x) ∧ ∀ t, s.coeffs[3]? = some t → 0 ≤ t ∧ Prints read e.io.render (e.degAtan (e.sqrt t)) ∧ tanSq (e.degAtan (e.sqrt t)) = t) :
    ∃ fuel₀ d d', readDeck e.io cosDeg (readText text) = .ok d ∧ ∀ fuel ≥ fuel₀, finishDeck fuel e.io cosDeg e.sqrt quick d = some (.ok d') ∧
      ∃ out gs ns ses ces mes, Converts { e with fuel := fuel } cosDeg quick text .scone (.text out) ∧ sconeRead out = some [.dict c!"geometry" gs, .dict c!"nuclearData" ns] ∧
        .dict c!"surfaces" ses ∈ gs ∧ .dict c!"cells" ces ∈ gs ∧ .dict c!"materials" mes ∈ ns ∧
        List.Forall₂ (fun c x => ∃ g, sconeRegion x = some (intStr c.number, g) ∧
          ∀ p, (∀ s ∈ d'.surfaces, ∀ u, coneOffset s.type s.coeffs p = some u → |u| < 10 ^ 10) → (InScone tanSq read ses g p ↔ InFileCell cosDeg e.sqrt f c.number p)) f.cells ces ∧
        List.Forall₂ (fun c x => FileMadeOf f c (sconeMaterialOf x = some (intStr c.number, c!"void"))
          fun density comp => ∃ name, name ≠ c!"void" ∧ sconeMaterialOf x = some (intStr c.number, name) ∧ SconeHas e.sci mes name density comp) f.cells ces := by
  obtain ⟨d, hr, ha, hs, hl⟩ := read_file e.io cosDeg e.sqrt text f hf
  have hd := convertible_file hf hr ha hs hl hc
  obtain ⟨fu, d', hfin⟩ := convertible_finishes (quick := quick) hio hr hd
  obtain ⟨fuel₀, d', h⟩ := C96_scone_partial e hio hsci ho cosDeg tanSq quick read hlit rank text d hr hd (scone_file hf ⟨_, hr⟩ ha hs hl hc hk (hread d fu d' hr hfin).2) fun fuel d' h => (hread d fuel d' hr h).1
  refine ⟨fuel₀, d, d', hr, fun fuel hfu => ?_⟩
  obtain ⟨h0, out, gs, ns, ses, ces, mes, h1, h2, h3, h4, h5, h6, h7⟩ := h fuel hfu
  refine ⟨h0, out, gs, ns, ses, ces, mes, h1, h2, h3, h4, h5, forall₂_via ha.cells h6 fun x hx c r k j => ?_, forall₂_via ha.cells h7 fun x hx c r k j => ?_⟩
  · obtain ⟨g, j1, j2⟩ := j
    exact ⟨g, by rw [j1, k.number], fun p hp => by rw [j2 p hp, cells_agree ha, k.number]⟩
  · rw [k.number] at j
    exact made_of ha hc (fun c hc => (file_legal hf c hc).2) hx k j

end

end Csg
