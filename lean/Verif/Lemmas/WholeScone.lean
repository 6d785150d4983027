import Verif.Lemmas.Whole
import Verif.Spec.SconeFile

/-!
# From conditions on the input to those on the processed deck: SCONE
-/

set_option linter.unusedSectionVars false

namespace Csg

open Spec

section
variable {K : Type} [Field K] [LinearOrder K] [IsStrictOrderedRing K]

private theorem setUniverseTransform_fill {io : NumIO K} {cosDeg : K → K} {c c' : Cell K} {s : Str} {deg : Bool} (h : setUniverseTransform io cosDeg c s deg = .ok c') : c'.fill = c.fill := by
  unfold setUniverseTransform at h
  split at h
  · cases h; rfl
  · simp only at h
    split at h
    · split at h
      · obtain ⟨xs, -, h⟩ := bind_ok h
        cases h; rfl
      · cases h; rfl
    · cases h; rfl
  · cases h; rfl

/-- Only fills have transforms. -/
private def PlainFill (c : Cell K) : Prop := c.fill = none → c.offset = none ∧ c.rotation = none ∧ c.trId = c!"0"

private theorem detectKeywords_plain {io : NumIO K} {cosDeg : K → K} {s : Str} {r : Cell K × Str} (h : detectKeywords io cosDeg .blank s = .ok r) : PlainFill r.1 := by
  have hb : PlainFill (Cell.blank : Cell K) := fun _ => ⟨rfl, rfl, rfl⟩
  unfold detectKeywords at h
  split at h
  · cases h; exact hb
  · extract_lets at h
    split at h
    · cases h; exact hb
    · split at h
      · cases h
      · obtain ⟨c1, h1, h⟩ := bind_ok h
        cases h
        unfold readKeywords at h1
        obtain ⟨u, -, h1⟩ := bind_ok h1
        obtain ⟨c2, h2, h1⟩ := bind_ok h1
        obtain ⟨i, -, h1⟩ := bind_ok h1
        cases h1
        show c2.fill = none → _
        split at h2
        · cases h2
          exact fun _ => ⟨rfl, rfl, rfl⟩
        · obtain ⟨f, -, h2⟩ := bind_ok h2
          have := setUniverseTransform_fill h2
          intro hn
          rw [this] at hn
          cases hn

private theorem readCell_plain {io : NumIO K} {cosDeg : K → K} {text : Str} {c : Cell K} (h : readCell io cosDeg text = .ok c) : PlainFill c := by
  unfold readCell interpret at h
  obtain ⟨⟨c1, s⟩, hk, h⟩ := bind_ok h
  have hk := detectKeywords_plain hk
  obtain ⟨t0, -, h⟩ := bind_ok h
  obtain ⟨id, -, h⟩ := bind_ok h
  obtain ⟨t1, -, h⟩ := bind_ok h
  obtain ⟨m, -, h⟩ := bind_ok h
  obtain ⟨c2, hc2, h⟩ := bind_ok h
  obtain ⟨⟨is, ns⟩, h1, h⟩ := bind_ok h
  cases h
  show PlainFill c2
  simp only at hc2
  split at hc2
  · obtain ⟨t2, -, hc2⟩ := bind_ok hc2
    obtain ⟨x, -, hc2⟩ := bind_ok hc2
    cases hc2
    exact hk
  · cases hc2
    exact hk

/-- In a deck that is read from a file only fills have transforms. -/
theorem readDeck_plain {io : NumIO K} {cosDeg : K → K} {lines : List Str} {d : Deck K} (h : readDeck io cosDeg lines = .ok d) :
    ∀ c ∈ d.cells, c.fill = none → c.offset = none ∧ c.rotation = none ∧ c.trId = c!"0" := by
  unfold readDeck at h
  obtain ⟨⟨title, l1⟩, -, h⟩ := bind_ok h
  obtain ⟨l2, -, h⟩ := bind_ok h
  obtain ⟨⟨cells, l3⟩, hc, h⟩ := bind_ok h
  obtain ⟨⟨surfs, l4⟩, hs, h⟩ := bind_ok h
  obtain ⟨imps, -, h⟩ := bind_ok h
  obtain ⟨trs, -, h⟩ := bind_ok h
  obtain ⟨mats, -, h⟩ := bind_ok h
  cases h
  intro c hcm
  obtain ⟨_, _, groups, -, -, -, -, hm⟩ := (C38_block removeInlineComment (readCell io cosDeg) l2 cells l3).1 hc
  obtain ⟨text, -, ht⟩ := forall₂_right (mapM_ok_forall₂ hm) c hcm
  exact readCell_plain ht

variable {fuel : Nat} {io : NumIO K} {cosDeg sqrt : K → K} {quick : Bool} {rank : Int → Nat} {lines : List Str} {d d' : Deck K}

/-- The words of the descriptions in the processed deck. -/
theorem processed_text (hio : Exact io) (hd : ProperDeck sqrt rank d) (h : finishDeck fuel io cosDeg sqrt quick d = some (.ok d')) :
    List.Forall₂ (fun c c' : Cell K => ∀ w ∈ c'.text, w ∈ [c!"(", c!")", c!":", c!"#"] ∨ (w ∈ c.text ∧ ∃ n, w = refWord n) ∨ ∃ z : Int, 0 < z ∧ z ≤ d'.last ∧ (w = intStr z ∨ w = '-' :: intStr z)) d.cells d'.cells := by
  obtain ⟨cells1, cells2, cells3, cells4, cells5, surfs1, surfs2, surfs3, surfs4, r⟩ := finishDeck_run h
  obtain ⟨-, f2, -, f4, -⟩ := flatten_facts hio hd r.flat
  obtain ⟨cells', surfs', last', e, hk, -⟩ := C17_flatten_regions_partial io hio cosDeg sqrt d.cells d.surfaces d.last hd.ids hd.range hd.last hd.bodies hd.cells
  rw [r.flat] at e
  cases e
  obtain ⟨fuel0, cells2', k1, k2, -⟩ := C21_expansion rank cells1 f4
  have e2 : cells2' = cells2 := by
    have a := k1 (max fuel fuel0) (le_max_right _ _)
    have b := explodeFrom_mono (le_max_left fuel fuel0) r.nots
    rw [explodeNots, b] at a
    cases a
    rfl
  subst e2
  obtain ⟨h56, -⟩ := r.final
  have h25 : List.Forall₂ (fun c c' : Cell K => c'.text = c.text) cells1 d'.cells := by
    refine forall₂_trans (S := fun c c' : Cell K => c'.text = c.text) (fun a b c x y => ?_) k2 (forall₂_trans (S := fun c c' : Cell K => c' = { c with interpreted := c'.interpreted }) (fun a b c x y => ?_) r.cellFrame h56)
    · rw [y, x]
    · unfold CellFrame at x
      rw [y, x]
  refine forall₂_trans ?_ hk h25
  intro a b c x y
  rw [y]
  intro w hw
  have hsym : tokenSym w ∈ tokenSyms b.text := List.mem_map_of_mem hw
  by_cases hp : w ∈ [c!"(", c!")", c!":", c!"#"]
  · exact .inl hp
  · right
    have ht : tokenSym w = .atom w := by
      simp only [List.mem_cons, List.not_mem_nil, or_false, not_or] at hp
      unfold tokenSym wordSym
      simp [hp.1, hp.2.1, hp.2.2.1, hp.2.2.2]
    rw [ht] at hsym
    rcases x.2.2.2 w hsym with ⟨n, e, hm⟩ | ⟨s, hs, e⟩
    · obtain ⟨w', hw', e'⟩ := List.mem_map.1 hm
      refine .inl ⟨?_, n, e⟩
      unfold tokenSym wordSym at e'
      split_ifs at e'
      cases e'
      exact hw'
    · exact .inr ⟨s.id, (f2 s hs).1, (f2 s hs).2.1, e⟩

private theorem digits_scone {w : Str} (h0 : w ≠ []) (h : ∀ c ∈ w, isDigit c = true) : SconeOrdinary w := by
  refine ⟨h0, fun c hc => ?_⟩
  have := h c hc
  simp only [isDigit, Bool.or_eq_true, beq_iff_eq, or_assoc] at this
  rcases this with rfl | rfl | rfl | rfl | rfl | rfl | rfl | rfl | rfl | rfl <;> decide

/-- A deck for SCONE, from the conditions on the input. -/
theorem scone_ready {fixed sci : K → Str} {degAtan tanSq : K → K} {read : Str → Option K} (hio : Exact io) (hsci : ∀ x, SconeOrdinary (sci x))
    (hlit : ∀ w x, Literal w x → read w = some x) (hr : readDeck io cosDeg lines = .ok d) (hd : Convertible io sqrt rank d) (hs : SconeSource io sqrt degAtan tanSq read fixed d)
    (h : finishDeck fuel io cosDeg sqrt quick d = some (.ok d')) (hread : PrintedSurfaces read io d') : SconeDeck sqrt degAtan tanSq read io fixed sci nucsOf d'.cells d'.surfaces d'.materials := by
  obtain ⟨hid, hpos, hcells⟩ := processed_cells hio hd.proper (.inr hd.sheets) h
  have hsurf := C93_surfaces_partial fuel io hio cosDeg sqrt quick rank lines d d' hr hd.proper h
  obtain ⟨hl, hlist⟩ := whole_list hio hr hd h
  have hspecial := special_surfaces hio hd.proper h
  have hlast := processed_last h
  have hnuc := whole_nuclides (P := fun _ _ => True) (fun _ _ _ _ => trivial) hio hr hd h (fun m hm e he => by
    obtain ⟨n, hn⟩ := (hd.atoms m hm).canonical.2 e he
    exact ⟨n / 1000, n % 1000, by rw [Nat.div_add_mod, hn], Nat.mod_lt _ (by norm_num), trivial⟩)
  refine ⟨?_, ?_, ?_, ?_, ?_, hsci, hlit⟩
  · intro s hsm
    obtain ⟨k1, k2, -⟩ := hsurf s hsm
    refine ⟨k1, ?_, fun x hx => hread s hsm x hx, fun hk => ?_⟩
    · rcases k2 with k2 | k2
      · exact k2
      · obtain ⟨s0, hs0, et, -⟩ := hspecial s hsm (.inr (torus_type k2.1))
        exact absurd (et ▸ torus_type k2.1) (hs.surfaces s0 hs0).1
    · obtain ⟨s0, hs0, et, ec⟩ := hspecial s hsm (.inl hk)
      obtain ⟨j1, j2⟩ := (hs.surfaces s0 hs0).2 (et ▸ hk)
      rw [← ec]
      exact ⟨j1, fun t ht => j2 t ht⟩
  · intro c' hc'
    obtain ⟨c, hcm, ⟨⟨e1, e2, -⟩, -⟩, htext⟩ := forall₂_right (forall₂_both hcells (processed_text hio hd.proper h)) c' hc'
    obtain ⟨w1, w2, -⟩ := whole_words hio hr hd h c' hc'
    have hlen : (intStr c'.id).length ≤ 49 := by
      rw [e1]
      exact intStr_length (k := 47) (hs.ids c hcm)
    have hmat : Token c'.material.text ∧ SconeOrdinary c'.material.text := by
      rcases whole_material hio hr hd h c' hc' with e | ⟨k, -, e, m', hm'⟩
      · rw [e, show (MatNum.int 0).text = c!"0" by decide]
        exact ⟨⟨by decide, by decide, by decide⟩, digits_scone (by decide) (by decide)⟩
      · obtain ⟨⟨k', -, hk', ek⟩, -⟩ := hlist _ hm'
        have ek : natStr k = natStr k' := ek
        rw [e, ek]
        have := natStr_length (k := 8) hk'
        exact ⟨⟨natStr_ne_nil k', fun ch hch => isSpace_of_isDigit (natStr_digits k' ch hch), by omega⟩, digits_scone (natStr_ne_nil k') (natStr_digits k')⟩
    refine ⟨⟨w1, w2, ⟨?_, fun ch hch => ?_, by omega⟩, hmat.1, fun _ => good_of hio (by rw [e2]; exact hs.densities c hcm)⟩, by omega, hmat.2, fun w hw => ?_⟩
    · intro h0
      have := parseInt_intStr c'.id
      rw [h0] at this
      exact absurd this (by simp [parseInt, parseNat])
    · rcases intStr_chars _ ch hch with h | rfl
      · exact isSpace_of_isDigit h
      · decide
    · rcases htext w hw with hp | ⟨hw, n, rfl⟩ | ⟨z, hz, hz', e⟩
      · simp only [List.mem_cons, List.not_mem_nil, or_false] at hp
        rcases hp with rfl | rfl | rfl | rfl <;> exact ⟨by decide, by simp⟩
      · exact ⟨hs.words c hcm _ hw, by simp [refWord]⟩
      · have hb : |z| < 10 ^ (37 + 1) := by
          rw [abs_of_pos hz]
          calc z ≤ d'.last := hz'
            _ ≤ _ := hlast
            _ < _ := hs.size
        have hk := intStr_length hb
        have hd : ∀ t, intStr z ≠ '-' :: t := by
          intro t e
          rw [intStr_natAbs hz] at e
          have := natStr_digits z.natAbs '-' (by rw [e]; simp)
          exact absurd this (by decide)
        rcases e with rfl | rfl
        · exact ⟨by omega, fun t => hd _⟩
        · refine ⟨by simp only [List.length_cons]; omega, fun t e => ?_⟩
          exact hd _ (List.cons.inj e).2
  · intro c' hc'
    obtain ⟨c, hcm, ⟨-, -, e3, e4⟩, -⟩ := forall₂_right hcells c' hc'
    rw [e3, e4]
    exact hs.universes c hcm
  · intro c' hc' hn
    obtain ⟨c, hcm, ⟨⟨-, -, e3, -⟩, -⟩, hf1, -⟩ := forall₂_right (forall₂_both hcells (processed_fills hio hd.proper h)) c' hc'
    rw [e3] at hn
    obtain ⟨k1, k2, k3⟩ := readDeck_plain hr c hcm hn
    rw [(hf1 k3).1, (hf1 k3).2]
    exact ⟨k1, k2⟩
  · intro m hm
    obtain ⟨⟨k, -, -, ek⟩, hname, hne, -, e0, he0, ⟨s, hspos, -, hent⟩, -, -, hlast⟩ := hlist m hm
    have hnoel : ∀ x ∈ m.2.composition, ∀ z, x.1 ≠ natStr (1000 * z) := by
      rcases hlast with ⟨-, hv⟩ | ⟨-, hh⟩
      · exfalso
        rcases hs.used with h0 | ⟨c, hcm, hc0⟩
        · rw [h0] at he0
          cases he0
        · obtain ⟨-, hmats⟩ := processed_materials hio hr hd.proper hd.defined hd.atoms h
          obtain ⟨c', hc', k⟩ := forall₂_left_mem hmats hcm
          obtain ⟨z, hz, -⟩ := (hd.proper.cells c hcm).1.material
          have hz0 : z ≠ 0 := fun h0 => hc0 (by rw [hz, h0])
          have k := (k.2 z hz0 hz).1
          rw [hv c' hc'] at k
          exact k rfl
      · exact hh
    have hposf : ∀ x ∈ m.2.composition, 0 < x.2 := by
      intro x hx
      obtain ⟨e1, he1, rfl | ⟨z, hz, n, hnn, rfl⟩⟩ := hent x hx
      · exact div_pos (hs.fractions e0 he0 e1 he1) hspos
      · refine div_pos (mul_pos (hs.fractions e0 he0 e1 he1) (div_pos ?_ (by norm_num))) hspos
        exact_mod_cast (table_shape n (natural_mem hnn).1).1
    refine ⟨(hnuc m hm).1, fun p hp => ?_, ?_, ?_, ?_⟩
    · obtain ⟨j1, -, -, j4⟩ := (hnuc m hm).2 p hp
      refine ⟨j1, Nat.pos_of_ne_zero fun h0 => ?_, hposf _ j4⟩
      exact hnoel _ j4 p.1 (by rw [h0, Nat.add_zero])
    · intro h0
      apply hne
      rw [(hnuc m hm).1, h0]
      rfl
    · rw [hl.2 m hm, ek]
      exact natStr_digits k
    · intro hc
      rcases materialName_chars hio hname _ hc with h | h
      · exact absurd h (by decide)
      · exact absurd h (by decide)

end

end Csg
