import Verif.Spec.ConvertibleFile
import Verif.Props.InputFile
import Verif.Lemmas.Whole

/-!
# From conditions on a file to conditions on the deck
-/

set_option linter.unusedSectionVars false

namespace Csg

open Spec

section
variable {K : Type} [Field K]

/-! ## Parameters -/

theorem carries_uni {io : NumIO K} {cosDeg : K → K} {e : CellEntry K} {c : Cell K} (h : Carries io cosDeg e.params c) : c.uni = e.uni := by
  unfold CellEntry.uni
  cases hu : e.params.findSome? fun | .uni v => some v | _ => none with
  | none =>
    rw [List.findSome?_eq_none_iff] at hu
    cases hc : c.uni with
    | none => rfl
    | some v => exact absurd (hu _ ((h.uni v).1 hc)) (by simp)
  | some v =>
    obtain ⟨p, hp, hv⟩ := List.exists_of_findSome?_eq_some hu
    cases p <;> simp at hv
    subst hv
    exact (h.uni _).2 hp

theorem carries_fill {io : NumIO K} {cosDeg : K → K} {e : CellEntry K} {c : Cell K} (h : Carries io cosDeg e.params c) : c.fill = e.fill := by
  unfold CellEntry.fill
  cases hu : e.params.findSome? fun | .fill _ v _ => some v | _ => none with
  | none =>
    rw [List.findSome?_eq_none_iff] at hu
    cases hc : c.fill with
    | none => rfl
    | some v =>
      obtain ⟨d, tr, hm⟩ := (h.fill v).1 hc
      exact absurd (hu _ hm) (by simp)
  | some v =>
    obtain ⟨p, hp, hv⟩ := List.exists_of_findSome?_eq_some hu
    cases p <;> simp at hv
    subst hv
    exact (h.fill _).2 ⟨_, _, hp⟩

theorem moves_some {e : CellEntry K} {d : Bool} {ws : List Str} (h : e.moves = some (d, ws)) : ∃ v t, .fill d v (some t) ∈ e.params ∧ split t = ws := by
  obtain ⟨p, hp, hv⟩ := List.exists_of_findSome?_eq_some h
  cases p with
  | fill d' v t =>
    cases t <;> simp at hv
    obtain ⟨rfl, rfl⟩ := hv
    exact ⟨_, _, hp, rfl⟩
  | _ => simp at hv

theorem moves_none {e : CellEntry K} (h : e.moves = none) : ∀ d v t, .fill d v (some t) ∉ e.params := by
  intro d v t hm
  unfold CellEntry.moves at h
  rw [List.findSome?_eq_none_iff] at h
  exact absurd (h _ hm) (by simp)

/-- The three forms of a fill. -/
theorem carries_moves {io : NumIO K} {cosDeg : K → K} {e : CellEntry K} {c : Cell K} (h : Carries io cosDeg e.params c) :
    (e.moves = none ∧ c.trId = c!"0" ∧ c.offset = none ∧ c.rotation = none) ∨
    ∃ d ws, e.moves = some (d, ws) ∧ (∀ w, ws = [w] → c.trId = w ∧ c.offset = none ∧ c.rotation = none) ∧
      ∀ x y z rest, ws = x :: y :: z :: rest → c.trId = c!"0" ∧ c.offset = some [.txt x, .txt y, .txt z] ∧ (rest.length < 9 → c.rotation = none) ∧
        (d = false → 9 ≤ rest.length → c.rotation = some ((rest.take 9).map .txt)) ∧
        (d = true → 9 ≤ rest.length → ∃ xs, (rest.take 9).mapM io.float = .ok xs ∧ c.rotation = some (xs.map fun x => .num (cosDeg x))) := by
  cases hm : e.moves with
  | none => exact .inl ⟨rfl, h.noTransform (moves_none hm)⟩
  | some x =>
    obtain ⟨d, ws⟩ := x
    obtain ⟨v, t, hp, rfl⟩ := moves_some hm
    exact .inr ⟨d, split t, rfl, fun w hw => h.card d v t w hp hw, fun x y z rest hw => h.shift d v t x y z rest hp hw⟩

variable [LinearOrder K]

/-! ## Importances -/

theorem file_importance {io : NumIO K} {cosDeg sqrt : K → K} {f : InputFile K} {d : Deck K} (h : DeckAgrees io cosDeg sqrt f d) (hn : f.importances.length ≤ 1) {i : Nat} {e : CellEntry K} {c : Cell K}
    (ha : CellAgrees io cosDeg e c) {x : K} (hx : ImportanceIs io d i c x) : FileImportance io f i e x := by
  have own : c.importance = x → (∃ v, .importance v ∈ e.params ∧ io.float v = .ok x) ∨ (∀ v, .importance v ∉ e.params) ∧ x = 1 := by
    rintro rfl
    by_cases hv : ∃ v, .importance v ∈ e.params
    · obtain ⟨v, hv⟩ := hv
      exact .inl ⟨v, hv, ha.params.importance v hv⟩
    · rw [not_exists] at hv
      exact .inr ⟨hv, ha.params.noImportance hv⟩
  rcases hx with ⟨h0, hx⟩ | ⟨t, ht, hx⟩
  · refine .inr ⟨fun vs hvs => ?_, own hx⟩
    obtain ⟨t, ht, -⟩ := h.importances vs hvs
    rw [h0] at ht
    cases ht
  · cases hf : f.importances with
    | nil =>
      rw [h.noImportances hf] at ht
      cases ht
    | cons vs l =>
      rw [hf] at hn
      obtain rfl : l = [] := List.eq_nil_of_length_eq_zero (by rw [List.length_cons] at hn; omega)
      obtain ⟨t', ht', hval⟩ := h.importances vs (by rw [hf]; simp)
      rw [ht'] at ht
      obtain rfl : t' = t := by simpa using ht
      rcases hx with ⟨w, hw, hx⟩ | ⟨hw, hx⟩
      · refine .inl ⟨vs, by rw [hf]; simp, ?_⟩
        obtain ⟨y, hy, hwy⟩ := forall₂_getElem? hval hw
        rw [hx] at hwy
        cases hwy
        exact hy
      · refine .inr ⟨fun vs' hvs' => ?_, own hx⟩
        rw [hf, List.mem_singleton] at hvs'
        subst hvs'
        rw [List.getElem?_eq_none_iff] at hw ⊢
        rw [← hval.length_eq]
        exact hw

/-! ## Materials -/

variable [IsStrictOrderedRing K]

theorem composition_of {n : Str} {entries : List (Str × Str)} {fracs : List K} {m : Material K} (h : MaterialOf n entries fracs m) : CompositionOf entries fracs m.composition :=
  ⟨h.2.1, h.2.2.1, h.2.2.2⟩

theorem atom_fractions {entries : List (Str × Str)} {fracs : List K} {comp : List (Str × K)} (hl : entries.length = fracs.length) (h : AtomCard entries fracs) (hc : CompositionOf entries fracs comp) : AtomFractions comp := by
  have key : ∀ e ∈ comp, ∃ x ∈ entries, nuclideOf x.1 = e.1 := fun e he => (hc.nuclides e.1).1 (List.mem_map.2 ⟨e, he, rfl⟩)
  have pos : ∀ e ∈ comp, 0 ≤ e.2 := by
    intro e he
    rw [hc.fractions e.1 e.2 he]
    unfold given
    apply List.sum_nonneg
    intro x hx
    obtain ⟨y, hy, rfl⟩ := List.mem_map.1 hx
    exact h.positive.1 _ (List.of_mem_zip (List.mem_filter.1 hy).1).2
  refine ⟨⟨hc.once, fun e he => ?_⟩, fun z hz d hd hm => ?_, pos, ?_, fun z hz => ?_⟩
  · obtain ⟨x, hx, e1⟩ := key e he
    obtain ⟨n, hn⟩ := h.nuclides x hx
    exact ⟨n, by rw [← e1, hn]⟩
  · obtain ⟨x, hx, e1⟩ := (hc.nuclides _).1 hm
    exact (h.apart z ((hc.nuclides _).1 hz)).2 d hd x hx e1
  · obtain ⟨x, hx, hpos⟩ := h.positive.2
    obtain ⟨i, hi, rfl⟩ := List.getElem_of_mem hx
    have hz : (entries[i]'(by omega), fracs[i]) ∈ entries.zip fracs := by
      rw [List.mem_iff_getElem]
      exact ⟨i, by simp; omega, by simp⟩
    obtain ⟨e, he, e1⟩ := List.mem_map.1 ((hc.nuclides (nuclideOf (entries[i]'(by omega)).1)).2 ⟨_, List.getElem_mem _, rfl⟩)
    have hge : fracs[i] ≤ e.2 := by
      rw [hc.fractions e.1 e.2 he]
      unfold given
      apply List.single_le_sum
      · intro y hy
        obtain ⟨y, hy', rfl⟩ := List.mem_map.1 hy
        exact h.positive.1 _ (List.of_mem_zip (List.mem_filter.1 hy').1).2
      · exact List.mem_map.2 ⟨_, List.mem_filter.2 ⟨hz, by simp [e1]⟩, rfl⟩
    unfold total
    calc (0 : K) < fracs[i] := hpos
      _ ≤ e.2 := hge
      _ ≤ _ := by
        apply List.single_le_sum
        · intro y hy
          obtain ⟨y, hy', rfl⟩ := List.mem_map.1 hy
          exact pos y hy'
        · exact List.mem_map.2 ⟨e, he, rfl⟩
  · exact (h.apart z ((hc.nuclides _).1 hz)).1

theorem file_lengths {io : NumIO K} {text : Str} {f : InputFile K} (h : FileSays io text f) : ∀ m ∈ f.materials, m.2.1.length = m.2.2.length := by
  intro m hm
  obtain ⟨title, cells, surfs, data, -, -, -, hd⟩ := h.layout
  obtain ⟨e, he, hx⟩ := List.mem_filterMap.1 hm
  cases e <;> simp at hx
  subst hx
  obtain ⟨g, -, hg⟩ := forall₂_exists_right hd he
  exact hg.card.2.2.length_eq

/-! ## The deck -/

theorem last_ge {ss : List (Surface K)} {m : Int} : m ≤ ss.foldl (fun m s => if m < s.id then s.id else m) m ∧ ∀ s ∈ ss, s.id ≤ ss.foldl (fun m s => if m < s.id then s.id else m) m := by
  induction ss generalizing m with
  | nil => simp
  | cons s ss ih =>
    rw [List.foldl_cons]
    obtain ⟨h1, h2⟩ := ih (m := if m < s.id then s.id else m)
    refine ⟨le_trans (by split <;> omega) h1, fun t ht => ?_⟩
    rcases List.mem_cons.1 ht with rfl | ht
    · exact le_trans (by split <;> omega) h1
    · exact h2 t ht

theorem last_mem {ss : List (Surface K)} {m : Int} : ss.foldl (fun m s => if m < s.id then s.id else m) m = m ∨ ∃ s ∈ ss, ss.foldl (fun m s => if m < s.id then s.id else m) m = s.id := by
  induction ss generalizing m with
  | nil => simp
  | cons s ss ih =>
    rw [List.foldl_cons]
    rcases ih (m := if m < s.id then s.id else m) with h | ⟨t, ht, h⟩
    · rw [h]
      by_cases hm : m < s.id
      · rw [if_pos hm]
        exact .inr ⟨s, by simp, rfl⟩
      · rw [if_neg hm]
        exact .inl rfl
    · exact .inr ⟨t, by simp [ht], h⟩

theorem body_known {ty : SType} {mn : Str} (h : bodyType mn = some ty) : ty = .macroRPP ∨ ty = .macroBOX ∨ ty = .macroRCC := by
  unfold bodyType at h
  split at h
  · cases h; exact .inl rfl
  · split at h
    · cases h; exact .inr (.inl rfl)
    · split at h
      · cases h; exact .inr (.inr rfl)
      · cases h

theorem stored_macro {e : SurfaceEntry K} {s : Surface K} (h : StoredAs e s) : s.isMacrobody = true ↔ (bodyType e.mn).isSome = true := by
  cases hb : bodyType e.mn with
  | none => simp [(h.plain hb).1]
  | some ty => simp [(h.body ty hb).1]

/-- A word that is known in the file is known in the deck. -/
theorem known_word {sqrt : K → K} {f : InputFile K} {ss : List (Surface K)} (ha : List.Forall₂ (SurfaceAgrees sqrt) f.surfaces ss) (hs : List.Forall₂ StoredAs f.surfaces ss) {w : Str} (h : KnownEntry f w) :
    KnownWord ss w := by
  have hb := forall₂_both ha hs
  rcases h with h | ⟨e, he, h⟩ | ⟨e, he, ty, neg, k, h0, h1, h2, h3, h4⟩
  · exact .inl h
  · obtain ⟨s, hs, k1, k2⟩ := forall₂_exists_left hb he
    exact .inr (.inl ⟨s, hs, by rw [k1.number]; exact h⟩)
  · obtain ⟨s, hs, k1, k2⟩ := forall₂_exists_left hb he
    obtain ⟨j1, j2⟩ := k2.body ty h0
    refine .inr (.inr ⟨s, hs, j1, neg, k, by rw [k1.number]; exact h1, ?_, fun ht => ?_, fun m hm hmm hsuf => ?_⟩)
    · rcases j2 with ⟨e1, -⟩ | ⟨e1, e2, -⟩
      · rw [e1]; exact h2
      · rw [e1] at h2
        rw [e2]
        exact h2
    · rcases j2 with ⟨e1, -⟩ | ⟨-, e2, -⟩
      · exact h3 (e1 ▸ ht)
      · rw [e2] at ht
        cases ht
    · obtain ⟨e', he', k1', k2'⟩ := forall₂_exists_right hb hm
      rw [k1.number, k1'.number] at *
      exact h4 e' he' ((stored_macro k2').1 hmm) hsuf

variable {io : NumIO K} {cosDeg sqrt : K → K} {rank : Int → Nat} {f : InputFile K} {d : Deck K}

theorem proper_file (ha : DeckAgrees io cosDeg sqrt f d) (hs : List.Forall₂ StoredAs f.surfaces d.surfaces) (hlast : d.last = d.surfaces.foldl (fun m s => if m < s.id then s.id else m) 0)
    (hleg : ∀ c ∈ f.cells, Legal (lexGeometry c.geometry) ∧ ∀ m x, c.content = some (m, x) → 0 < m) (h : ConvertibleFile io cosDeg sqrt rank f) : ProperDeck sqrt rank d := by
  have hb := forall₂_both ha.surfaces hs
  have hids : d.surfaces.map Surface.id = f.surfaces.map (·.number) := by
    have := ha.surfaces
    clear hlast h hs hb hleg
    generalize f.surfaces = fs at *
    generalize d.surfaces = ss at *
    induction this with
    | nil => rfl
    | cons k _ ih => simp [k.number, ih]
  have hcids : d.cells.map Cell.id = f.cells.map (·.number) := by
    have := ha.cells
    generalize f.cells = fs at *
    generalize d.cells = ss at *
    clear hlast h hs hb hleg ha
    induction this with
    | nil => rfl
    | cons k _ ih => simp [k.number, ih]
  refine ⟨by rw [hids]; exact h.numbers.1, fun s hsm => ?_, by rw [hlast]; exact last_ge.1, fun s hsm hm => ?_, fun s hsm hm => ?_, fun s hsm n hn => ?_, fun c hc => ?_, by rw [hcids]; exact h.cells.1, fun c hc => ?_, fun c hc w hw hh => ?_⟩
  · obtain ⟨e, he, k⟩ := forall₂_exists_right ha.surfaces hsm
    exact ⟨by rw [k.number]; exact (h.numbers.2 e he).1, by rw [hlast]; exact last_ge.2 s hsm⟩
  · obtain ⟨e, he, k1, k2⟩ := forall₂_exists_right hb hsm
    obtain ⟨ty, hty⟩ := Option.isSome_iff_exists.1 ((stored_macro k2).1 hm)
    rcases h.surfaces e he with ⟨m, e1, -⟩ | ⟨e1, -⟩ | ⟨ty', e1, p1, p2⟩
    · rw [e1, bodyType_word] at hty
      cases hty
    · simp only [List.mem_cons, List.not_mem_nil, or_false] at e1
      rcases e1 with e1 | e1 | e1 <;> rw [e1] at hty <;> cases hty
    · rcases (k2.body ty' e1).2 with ⟨j1, j2⟩ | ⟨j0, j1, j2⟩
      · rw [j1, j2]
        exact ⟨p1, p2⟩
      · rw [j1]
        match hcs : s.coeffs, j2 with
        | [_, _, _, _, _, _], _ => exact ⟨trivial, trivial⟩
  · obtain ⟨e, he, k1, k2⟩ := forall₂_exists_right hb hsm
    have hty : bodyType e.mn = none := by
      cases hty : bodyType e.mn with
      | none => rfl
      | some ty => rw [(stored_macro k2).2 (by rw [hty]; rfl)] at hm; cases hm
    refine ⟨(k2.plain hty).2, ?_⟩
    rcases h.surfaces e he with ⟨m, e1, e2⟩ | ⟨e1, a, e2, e3⟩ | ⟨ty', e1, p1, p2⟩
    · exact .inl (k2.quadric m e1 e2).1
    · obtain ⟨j1, j2⟩ := k2.torus e1
      refine .inr ⟨j1, ?_⟩
      have hwf := (k2.plain hty).2
      unfold WellFormed at hwf
      have hlen : s.coeffs.length = 6 := by
        revert hwf j1
        cases s.type <;> simp [SType.isTorus, arity] <;> omega
      match hcs : s.coeffs, hlen with
      | [x, y, z, a', b, c], _ =>
        rw [← j2, hcs] at e2
        cases e2
        exact ⟨x, y, z, _, b, c, rfl, e3⟩
    · rw [hty] at e1
      cases e1
  · obtain ⟨e, he, k1, k2⟩ := forall₂_exists_right hb hsm
    rw [k1.transform] at hn
    obtain ⟨n', hn', rfl⟩ := Option.map_eq_some_iff.1 hn
    obtain ⟨h1, h2⟩ := h.moved e he n' hn'
    have hk : natStr n' ∈ d.transforms.map Prod.fst := by
      rw [ha.transforms]
      obtain ⟨t, ht, e1⟩ := List.mem_map.1 h1
      exact ⟨t, ht, by rw [e1]⟩
    obtain ⟨t, ht⟩ : ∃ t, d.transforms.lookup (natStr n') = some t := by
      cases hl : d.transforms.lookup (natStr n') with
      | some t => exact ⟨t, rfl⟩
      | none =>
        rw [List.lookup_eq_none_iff] at hl
        obtain ⟨p, hp, e1⟩ := List.mem_map.1 hk
        have := hl p hp
        rw [e1] at this
        simp at this
    refine ⟨t, ht, fun hm => ?_⟩
    have hty : bodyType e.mn = none := by
      cases hty : bodyType e.mn with
      | none => rfl
      | some ty => rw [(stored_macro k2).2 (by rw [hty]; rfl)] at hm; cases hm
    obtain ⟨m, e1, hx⟩ := h2 hty
    have e2 : (mcnpValue m e.values ⟨0, 0, 0⟩).isSome = true := by
      rcases h.surfaces e he with ⟨m', e1', e2⟩ | ⟨e1', -⟩ | ⟨ty', e1', -⟩
      · obtain rfl := word_inj (e1.symm.trans e1')
        exact e2
      · exact absurd (e1 ▸ e1') (word_no_torus m)
      · rw [hty] at e1'
        cases e1'
    obtain ⟨q1, q2, q3⟩ := k2.quadric m e1 e2
    refine ⟨q1, q2, ?_⟩
    have hpl : ∀ p, pullback t p = f.place cosDeg e.tr p := by
      intro p
      rw [← ha.place, hn']
      show _ = placeBy d.transforms (some (natStr n')) p
      unfold placeBy
      simp only [ht]
    simp only [q3, hpl]
    exact hx
  · obtain ⟨e, he, k⟩ := forall₂_exists_right ha.cells hc
    refine ⟨⟨?_, by rw [k.region.1]; exact (hleg e he).1, by rw [k.region.1, k.region.2]⟩, fun w hw => ?_⟩
    · have hcon := k.content
      cases hx : e.content with
      | none =>
        rw [hx] at hcon
        exact ⟨0, hcon.1, le_refl _, fun _ => hcon.2⟩
      | some mx =>
        rw [hx] at hcon
        have := (hleg e he).2 mx.1 mx.2 hx
        exact ⟨mx.1, hcon.1, this.le, fun h0 => by omega⟩
    · rw [k.region.1] at hw
      exact known_word ha.surfaces hs (h.words e he w hw)
  · obtain ⟨e, he, k⟩ := forall₂_exists_right ha.cells hc
    rw [k.region.2]
    exact (hleg e he).1
  · obtain ⟨e, he, k⟩ := forall₂_exists_right ha.cells hc
    rcases itemSyms_word hw with rfl | rfl | hw
    · exact absurd hh (by decide)
    · exact absurd hh (by decide)
    · rw [k.region.2] at hw
      obtain ⟨n, e', he', r1, r2, r3⟩ := h.complements e he w hw hh
      obtain ⟨c', hc', k'⟩ := forall₂_exists_left ha.cells he'
      exact ⟨n, c', hc', r1, by rw [k'.number, r2], by rw [k'.number, k.number]; exact r3⟩

theorem file_legal {text : Str} (h : FileSays io text f) : ∀ c ∈ f.cells, Legal (lexGeometry c.geometry) ∧ ∀ m x, c.content = some (m, x) → 0 < m := by
  intro c hc
  obtain ⟨title, cells, surfs, data, -, hd, -⟩ := h.layout
  obtain ⟨g, -, hg⟩ := forall₂_exists_right hd hc
  refine ⟨hg.legal, fun m x hx => ?_⟩
  obtain ⟨header, number, material, density, l, -, -, -, -, -, hm, -⟩ := hg.parts
  rw [hx] at hm
  exact hm.2.1

theorem mem_text {ws : List Str} {w : Str} {z : Int} (hw : w ∈ ws) (hz : parseInt w = some z) : Sym.atom w ∈ tokenSyms ws := by
  refine List.mem_map.2 ⟨w, hw, ?_⟩
  have : ∀ {t : Str}, parseInt t = none → w ≠ t := fun h e => by
    rw [e, h] at hz
    cases hz
  unfold tokenSym wordSym
  rw [if_neg (this (by decide)), if_neg (this (by decide)), if_neg (this (by decide)), if_neg (this (by decide))]

/-- A deck that is read from a file that can be converted can be converted. -/
theorem convertible_file {text : Str} (hsays : FileSays io text f) (hr : readDeck io cosDeg (readText text) = .ok d) (ha : DeckAgrees io cosDeg sqrt f d) (hs : List.Forall₂ StoredAs f.surfaces d.surfaces)
    (hlast : d.last = d.surfaces.foldl (fun m s => if m < s.id then s.id else m) 0) (h : ConvertibleFile io cosDeg sqrt rank f) : Convertible io sqrt rank d := by
  have hb := forall₂_both ha.surfaces hs
  have hmat : ∀ m ∈ d.materials, ∃ m' ∈ f.materials, m.1 = natStr m'.1 ∧ CompositionOf m'.2.1 m'.2.2 m.2.composition := by
    intro m hm
    obtain ⟨m', hm', e⟩ := (ha.materials m.1).1 (List.mem_map.2 ⟨m, hm, rfl⟩)
    obtain ⟨x, hx, hof⟩ := ha.material m' hm'
    rw [← e, (lookup_iff_mem (readDeck_listed hr).1).2 (show (m.1, m.2) ∈ d.materials from hm)] at hx
    cases hx
    exact ⟨m', hm', e, composition_of hof⟩
  refine ⟨proper_file ha hs hlast (file_legal hsays) h, fun s hsm => ?_, ?_, fun c hc => ?_, fun m hm => ?_, ?_, fun m hm => ?_, fun c hc hne => ?_, ?_, fun i c hc hi => ?_⟩
  · obtain ⟨e, he, k1, k2⟩ := forall₂_exists_right hb hsm
    rcases h.surfaces e he with ⟨m, e1, e2⟩ | ⟨e1, a, e2, e3⟩ | ⟨ty', e1, p1, p2⟩
    · exact (k2.quadric m e1 e2).2.1
    · obtain ⟨j1, j2⟩ := k2.torus e1
      unfold TwoSheet
      revert j1
      cases s.type <;> simp [SType.isTorus]
    · obtain ⟨j1, -⟩ := k2.body ty' e1
      unfold TwoSheet
      unfold Surface.isMacrobody at j1
      revert j1
      cases s.type <;> simp
  · have hlen : d.surfaces.length = f.surfaces.length := ha.surfaces.length_eq.symm
    rw [hlast, hlen]
    rcases last_mem (ss := d.surfaces) (m := 0) with e | ⟨s, hsm, e⟩
    · rw [e]
      cases hf : f.surfaces with
      | nil => norm_num
      | cons x l =>
        obtain ⟨k1, k2⟩ := h.numbers.2 x (by rw [hf]; simp)
        rw [hf] at k2
        omega
    · rw [e]
      obtain ⟨x, hx, k⟩ := forall₂_exists_right ha.surfaces hsm
      rw [k.number]
      exact (h.numbers.2 x hx).2
  · obtain ⟨e, he, k⟩ := forall₂_exists_right ha.cells hc
    have hcon := k.content
    cases hx : e.content with
    | none =>
      rw [hx] at hcon
      exact ⟨0, hcon.1, fun h => absurd rfl h⟩
    | some mx =>
      rw [hx] at hcon
      refine ⟨mx.1, hcon.1, fun _ => ?_⟩
      obtain ⟨n, hn, e1⟩ := h.materials e he mx.1 mx.2 hx
      obtain ⟨m, hm, rfl⟩ := List.mem_map.1 hn
      rw [← e1, ha.materials]
      exact ⟨m, hm, by simp [intStr]⟩
  · obtain ⟨m', hm', e, -⟩ := hmat m hm
    obtain ⟨k1, k2, -⟩ := h.cards m' hm'
    exact ⟨m'.1, k1, k2, e⟩
  · have h1 : d.cells.length = f.cells.length := ha.cells.length_eq.symm
    have h2 : d.materials.length ≤ f.materials.length := by
      have := (readDeck_listed hr).1.subperm (l₂ := f.materials.map fun m => natStr m.1) (fun n hn => by
        obtain ⟨m, hm, e⟩ := (ha.materials n).1 hn
        exact List.mem_map.2 ⟨m, hm, e.symm⟩)
      simpa using this.length_le
    have := h.cells.2
    omega
  · obtain ⟨m', hm', e, hcomp⟩ := hmat m hm
    exact atom_fractions (file_lengths hsays m' hm') (h.cards m' hm').2.2 hcomp
  · obtain ⟨e, he, k⟩ := forall₂_exists_right ha.cells hc
    rcases carries_moves k.params with ⟨-, h0, -⟩ | ⟨dg, ws, hm, h1, h3⟩
    · exact absurd h0 hne
    · rcases h.fills e he dg ws hm with ⟨n, hn, rfl⟩ | ⟨hl, -⟩
      · obtain ⟨t, ht, rfl⟩ := List.mem_map.1 hn
        rw [(h1 _ rfl).1]
        have hk : natStr t.1 ∈ d.transforms.map Prod.fst := (ha.transforms _).2 ⟨t, ht, rfl⟩
        cases hl : d.transforms.lookup (natStr t.1) with
        | some t => exact ⟨t, rfl⟩
        | none =>
          rw [List.lookup_eq_none_iff] at hl
          obtain ⟨p, hp, e1⟩ := List.mem_map.1 hk
          have := hl p hp
          rw [e1] at this
          simp at this
      · match ws, hl with
        | x :: y :: z :: rest, _ => exact absurd (h3 x y z rest rfl).1 hne
        | [], hl => simp at hl
        | [_], hl => simp at hl
        | [_, _], hl => simp at hl
  · cases hf : f.importances with
    | nil => exact .inl (ha.noImportances hf)
    | cons vs l =>
      obtain ⟨t, ht, hval⟩ := ha.importances vs (by rw [hf]; simp)
      refine .inr ⟨t, by rw [ht]; rfl, ?_, fun w hw => ?_⟩
      · rw [hval.length_eq, ← ha.cells.length_eq]
        exact h.importances vs (by rw [hf]; simp)
      · obtain ⟨x, -, hx⟩ := forall₂_exists_left hval hw
        exact ⟨x, hx⟩
  · obtain ⟨e, he, k⟩ := forall₂_getElem? ha.cells.flip hc
    have hi' := file_importance ha hsays.importances k hi
    intro w hw z hz
    have := mem_text hw hz
    rw [k.region.1] at this
    obtain ⟨x, hx, e1, e2⟩ := h.outside i e he hi' w z this hz
    obtain ⟨s, hsm, k1, k2⟩ := forall₂_exists_left hb hx
    exact ⟨s, hsm, (k2.plain e1).1, by rw [k1.number, e2]⟩

end

end Csg
