import Verif.Lemmas.Converted
import Verif.Lemmas.Processed
import Verif.Props.SerpentFile
import Verif.Props.OpenmcFile
import Verif.Props.PhitsFile
import Verif.Props.FlukaFile
import Verif.Props.SconeFile
import Verif.Props.McnpFileBack

/-!
# From the text of an MCNP file to the written files
-/

namespace Csg

open Spec

section
variable {K : Type} [Field K] [LinearOrder K] [IsStrictOrderedRing K]

/-! ## C92: the points of the cells -/

private theorem map_some_inj {α : Type} {a b : List α} (h : a.map some = b.map some) : a = b := List.map_injective_iff.2 (Option.some_injective _) h

private theorem serpentAt_iff {sqrt : K → K} {read : Str → Option K} {surfs : List (Surface K)} {scs rest : List (List Str)} (h : List.Forall₂ (SerpentSurfaceSays sqrt read) surfs scs)
    (hr : ∀ c ∈ rest, c.head? ≠ some c!"surf") (hpos : ∀ s ∈ surfs, 0 < s.id) (p : Point K) (n : Nat) (d : Side) :
    serpentAt sqrt read (scs ++ rest) p n d ↔ ∃ s ∈ surfs, s.id = n ∧ side sqrt s.type s.coeffs p = some d := by
  constructor
  · rintro ⟨kw, ws, ns, hm, hns, hside⟩
    have hm : c!"surf" :: natStr n :: kw :: ws ∈ scs := by
      rcases List.mem_append.1 hm with hm | hm
      · exact hm
      · exact absurd rfl (hr _ hm)
    obtain ⟨s, hs, kw', ws', ns', e, hns', k⟩ := forall₂_right h _ hm
    simp only [List.cons.injEq] at e
    obtain ⟨-, e1, rfl, rfl⟩ := e
    rw [hns] at hns'
    have := map_some_inj hns'
    subst this
    obtain ⟨d', k1, k2⟩ := k p
    rw [hside] at k1
    cases k1
    refine ⟨s, hs, ?_, k2⟩
    rw [intStr_natAbs (hpos s hs)] at e1
    have := natStr_injective e1
    have := hpos s hs
    omega
  · rintro ⟨s, hs, e, k⟩
    obtain ⟨card, hc, kw, ws, ns, rfl, hns, k'⟩ := forall₂_left_mem h hs
    obtain ⟨d', k1, k2⟩ := k' p
    rw [k] at k2
    cases k2
    refine ⟨kw, ws, ns, List.mem_append_left _ ?_, hns, k1⟩
    rw [intStr_natAbs (hpos s hs), show s.id.natAbs = n by omega] at hc
    exact hc

/-- C92 for Serpent. -/
theorem C92_serpent_partial (e : Env K) (hio : Exact e.io) (cosDeg : K → K) (quick : Bool) (read : Str → Option K) (approx : K → K) (offs rots : Cell K → List Str) (rank : Int → Nat) (text : Str) (d d' : Deck K)
    (hr : readDeck e.io cosDeg (readText text) = .ok d) (hd : ProperDeck e.sqrt rank d) (hq : quick = true ∨ ∀ s ∈ d.surfaces, TwoSheet s)
    (h : finishDeck e.fuel e.io cosDeg e.sqrt quick d = some (.ok d')) (hw : SerpentDeck read e.io e.fixed e.sci approx offs rots d'.cells d'.surfaces d'.materials) :
    ∃ fuel₀, ∀ fuel ≥ fuel₀, ∃ out cards, Converts { e with fuel := fuel } cosDeg quick text .serpent (.text out) ∧ serpentCards out = ([], cards) ∧
      List.Forall₂ (fun c r => ∃ g, r = some (intStr c.id, g) ∧ ∀ p, InSerpent e.sqrt read cards g p ↔ InDeckCell e.sqrt d c.id p) d.cells (serpentRegions cards) := by
  obtain ⟨out, ⟨fuel₀, hout⟩, scs, ccs, mcs, hcards, hs, hc, hm⟩ := C86_file_partial e read approx offs rots d'.cells d'.surfaces d'.materials hw
  obtain ⟨hid, hpos, hcells⟩ := processed_cells hio hd hq h
  refine ⟨max fuel₀ e.fuel, fun fuel hf => ⟨out, scs ++ ccs.flatten ++ mcs, ?_, hcards, ?_⟩⟩
  · refine converts_of (d := d) (d' := d') (e := { e with fuel := fuel }) hr (finishDeck_mono (le_trans (le_max_right _ _) hf) h) (s := ⟨d'.cells, d'.surfaces, d'.materials, []⟩) ?_
    rw [writeCode, returns_bind]
    exact ⟨out, hout fuel (le_trans (le_max_left _ _) hf), by rw [returns_pure]⟩
  · have hheads : (∀ c ∈ scs, c.head? = some c!"surf") ∧ (∀ c ∈ mcs, c.head? = some c!"mat") := by
      constructor
      · intro c hc
        obtain ⟨s, -, kw, ws, ns, rfl, -⟩ := forall₂_right hs c hc
        rfl
      · intro c hc
        obtain ⟨s, -, d, fs, rfl, -⟩ := forall₂_right hm c hc
        rfl
    have hrest : ∀ c ∈ ccs.flatten ++ mcs, c.head? ≠ some c!"surf" := by
      intro c hcm
      rcases List.mem_append.1 hcm with hcm | hcm
      · obtain ⟨cs, hcs, hcm⟩ := List.mem_flatten.1 hcm
        obtain ⟨cell, -, g, trans, rfl, -, ht⟩ := forall₂_right hc cs hcs
        rcases List.mem_cons.1 hcm with rfl | hcm
        · simp
        · rw [ht] at hcm
          split at hcm
          · cases hcm
          · rw [List.mem_singleton] at hcm
            subst hcm
            simp
      · rw [hheads.2 c hcm]
        decide
    have hregions : serpentRegions (scs ++ ccs.flatten ++ mcs) = (ccs.flatten.filter fun c => decide (c.head? = some c!"cell")).map serpentRegion := by
      have f1 : scs.filter (fun c => decide (c.head? = some c!"cell")) = [] := List.filter_eq_nil_iff.2 fun c hc => by simp [hheads.1 c hc]
      have f2 : mcs.filter (fun c => decide (c.head? = some c!"cell")) = [] := List.filter_eq_nil_iff.2 fun c hc => by simp [hheads.2 c hc]
      unfold serpentRegions
      rw [List.filter_append, List.filter_append, f1, f2]
      simp
    have hflat : List.Forall₂ (fun c r => ∃ g, r = some (intStr c.id, g) ∧ (Legal (itemSyms c.interpreted) → ∀ σ : Str → Prop, Holds σ (g.flatMap lexSerpent) ↔ Holds σ (itemSyms c.interpreted)))
        d'.cells ((ccs.flatten.filter fun c => decide (c.head? = some c!"cell")).map serpentRegion) := by
      have hcon := hw.contents
      clear hcells hregions hrest hcards
      generalize d'.cells = cells at hc hcon
      induction hc with
      | nil => exact .nil
      | cons k _ ih =>
        rename_i c cs cells ccs _
        obtain ⟨g, trans, rfl, hl, ht⟩ := k
        have hnone : trans.filter (fun c => decide (c.head? = some c!"cell")) = [] := by
          rw [List.filter_eq_nil_iff]
          intro x hx
          rw [ht] at hx
          split at hx
          · cases hx
          · rw [List.mem_singleton] at hx
            subst hx
            simp
        rw [List.flatten_cons, List.filter_append, List.filter_cons_of_pos (by simp), hnone]
        simp only [List.cons_append, List.nil_append, List.map_cons]
        refine .cons ⟨g, ?_, fun hh => (hl hh).2⟩ (ih fun c hc => hcon c (List.mem_cons_of_mem _ hc))
        have hn := hcon c (List.mem_cons_self ..)
        unfold serpentContent
        cases c.fill with
        | some f => simp [serpentRegion]
        | none =>
          by_cases h0 : c.material = .int 0
          · simp [serpentRegion, h0]
          · simp only [List.mem_cons, List.not_mem_nil, or_false, not_or] at hn
            simp [serpentRegion, h0, hn.1]
    rw [hregions]
    refine forall₂_trans ?_ hcells hflat
    rintro c c' r ⟨⟨e1, -⟩, hl, -, -, hp⟩ ⟨g, rfl, hg⟩
    refine ⟨g, by rw [e1], fun p => ?_⟩
    rw [← hp p, InSerpent, hg hl, InCell]
    refine holds_congr fun w _ => wordSense_congr (fun z => signed_iff (fun s hs => (hpos s hs).2) (fun n d => ?_) z) w
    rw [List.append_assoc]
    exact serpentAt_iff hs hrest (fun s hs => (hpos s hs).1) p n d

private theorem openmcAt_iff {sqrt : K → K} {io : NumIO K} {surfs : List (Surface K)} {xs : List OpenmcSurface} (h : List.Forall₂ (OpenmcSurfaceSays sqrt io) surfs xs)
    (hpos : ∀ s ∈ surfs, 0 < s.id) (p : Point K) (n : Nat) (d : Side) : openmcAt sqrt io xs p n d ↔ ∃ s ∈ surfs, s.id = n ∧ side sqrt s.type s.coeffs p = some d := by
  constructor
  · rintro ⟨x, hx, e, ns, hns, hside⟩
    obtain ⟨s, hs, e1, -, ns', hns', k⟩ := forall₂_right h _ hx
    rw [hns] at hns'
    have := map_some_inj hns'
    subst this
    obtain ⟨d', k1, k2⟩ := k p
    rw [hside] at k1
    cases k1
    refine ⟨s, hs, ?_, k2⟩
    rw [e, intStr_natAbs (hpos s hs)] at e1
    have := natStr_injective e1
    have := hpos s hs
    omega
  · rintro ⟨s, hs, e, k⟩
    obtain ⟨x, hx, e1, -, ns, hns, k'⟩ := forall₂_left_mem h hs
    obtain ⟨d', k1, k2⟩ := k' p
    rw [k] at k2
    cases k2
    exact ⟨x, hx, by rw [e1, intStr_natAbs (hpos s hs), show s.id.natAbs = n by omega], ns, hns, k1⟩

private theorem deckUniverse_congr {cs cs' : List (Cell K)} (h : List.Forall₂ (fun c c' => c'.fill = c.fill ∧ c'.uni = c.uni) cs cs') {u : Int} (hu : DeckUniverse cs u) : DeckUniverse cs' u := by
  induction hu with
  | root => exact .root
  | fill hc h1 _ h3 h4 ih =>
    obtain ⟨c', hc', e1, e2⟩ := forall₂_left_mem h hc
    exact .fill hc' (by rw [e2]; exact h1) ih (by rw [e1]; exact h3) h4

private theorem forall₂_swap {α β : Type} {R : α → β → Prop} {l : List α} {l' : List β} (h : List.Forall₂ R l l') : List.Forall₂ (fun b a => R a b) l' l := by
  induction h with
  | nil => exact .nil
  | cons h _ ih => exact .cons h ih

/-- C92 for OpenMC. -/
theorem C92_openmc_partial (e : Env K) (hio : Exact e.io) (cosDeg : K → K) (quick : Bool) (nucs : Material K → List (Nuc K)) (rank : Int → Nat) (text : Str) (d d' : Deck K)
    (hr : readDeck e.io cosDeg (readText text) = .ok d) (hd : ProperDeck e.sqrt rank d) (hq : quick = true ∨ ∀ s ∈ d.surfaces, TwoSheet s)
    (h : finishDeck e.fuel e.io cosDeg e.sqrt quick d = some (.ok d')) (hw : OpenmcDeck e.io nucs d'.cells d'.surfaces d'.materials) :
    ∃ fuel₀, ∀ fuel ≥ fuel₀, ∃ g m xs es, Converts { e with fuel := fuel } cosDeg quick text .openmc (.xml g m) ∧ openmcGeometry g = some (xs, es) ∧
      (∀ c ∈ d.cells, InGeometry d.cells c → ∃ x ∈ es, x.id = intStr c.id) ∧
      ∀ x ∈ es, ∃ c ∈ d.cells, InGeometry d.cells c ∧ x.id = intStr c.id ∧ ∀ p, InOpenmc e.sqrt e.io xs x p ↔ InDeckCell e.sqrt d c.id p := by
  obtain ⟨hid, hpos, hcells⟩ := processed_cells hio hd hq h
  have hsame : List.Forall₂ (fun c c' : Cell K => c'.fill = c.fill ∧ c'.uni = c.uni) d.cells d'.cells := forall₂_imp (fun _ _ k => k.1.2.2) hcells
  have hgeo : ∀ c c' : Cell K, c'.uni = c.uni → (InGeometry d'.cells c' ↔ InGeometry d.cells c) := by
    intro c c' eu
    unfold InGeometry
    rw [eu]
    constructor
    · rintro ⟨u, h1, h2⟩
      exact ⟨u, h1, deckUniverse_congr (forall₂_imp (fun _ _ k => ⟨k.1.symm, k.2.symm⟩) (forall₂_swap hsame)) h2⟩
    · rintro ⟨u, h1, h2⟩
      exact ⟨u, h1, deckUniverse_congr hsame h2⟩
  refine ⟨max d'.cells.length e.fuel, fun fuel hf => ?_⟩
  obtain ⟨g, m, xs, es, ys, kept, hret, hg, -, hs, -, hsub, hkept, hes⟩ := C91_files_partial { e with fuel := fuel } nucs d'.cells d'.surfaces d'.materials hw (le_trans (le_max_left _ _) hf)
  refine ⟨g, m, xs, es, ?_, hg, ?_, ?_⟩
  · refine converts_of (d := d) (d' := d') (e := { e with fuel := fuel }) hr (finishDeck_mono (le_trans (le_max_right _ _) hf) h) (s := ⟨d'.cells, d'.surfaces, d'.materials, []⟩) ?_
    rw [writeCode, returns_bind]
    exact ⟨_, hret, by rw [returns_pure]⟩
  · intro c hc hin
    obtain ⟨c', hc', k⟩ := forall₂_left_mem hcells hc
    obtain ⟨x, hx, k'⟩ := forall₂_left_mem hes ((hkept c' hc').2 ((hgeo c c' k.1.2.2.2).2 hin))
    exact ⟨x, hx, by rw [k'.1, k.1.1]⟩
  · intro x hx
    obtain ⟨c', hc', k'⟩ := forall₂_right hes x hx
    have hc'' := hsub.subset hc'
    obtain ⟨c, hc, k⟩ := forall₂_right hcells c' hc''
    refine ⟨c, hc, (hgeo c c' k.1.2.2.2).1 ((hkept c' hc'').1 hc'), by rw [k'.1, k.1.1], fun p => ?_⟩
    rw [← k.2.2.2.2 p, InOpenmc, k'.2.2.2.1, InCell]
    exact holds_congr fun w _ => wordSense_congr (fun z => signed_iff (fun s hs => (hpos s hs).2) (fun n d => openmcAt_iff hs (fun s hs => (hpos s hs).1) p n d) z) w

private theorem reads_unique {io : NumIO K} {ws : List Str} {a b : List K} (h : Reads io ws a) (h' : Reads io ws b) : a = b := by
  unfold Reads at h h'
  induction h generalizing b with
  | nil => cases h'; rfl
  | cons h _ ih =>
    cases h' with
    | cons k t =>
      rw [h] at k
      cases k
      rw [ih t]

private theorem boundaryMark_mem (b : BC) : boundaryMark b ∈ [[], c!"*", c!"+"] := by cases b <;> decide

private theorem mark_natStr {a b : Str} (ha : a ∈ [[], c!"*", c!"+"]) (hb : b ∈ [[], c!"*", c!"+"]) {m n : Nat} (h : a ++ natStr m = b ++ natStr n) : m = n := by
  have hd : ∀ (k : Nat) (c : Char) (t : Str), natStr k = c :: t → isDigit c = true := fun k c t e => natStr_digits k c (by rw [e]; exact List.mem_cons_self ..)
  have ne : ∀ (k j : Nat) (c : Char), isDigit c = false → natStr k ≠ c :: natStr j := fun k j c hc e => by rw [hd k c _ e] at hc; cases hc
  simp only [List.mem_cons, List.not_mem_nil, or_false] at ha hb
  rcases ha with rfl | rfl | rfl <;> rcases hb with rfl | rfl | rfl <;> simp at h
  all_goals first
    | exact natStr_injective h
    | exact absurd h (ne _ _ _ (by decide))
    | exact absurd h.symm (ne _ _ _ (by decide))

private theorem phitsAt_iff {sqrt : K → K} {io : NumIO K} {surfs : List (Surface K)} {cards : List (List Str)} (h : List.Forall₂ (PhitsSurfaceSays sqrt io) surfs cards)
    (hpos : ∀ s ∈ surfs, 0 < s.id) (p : Point K) (n : Nat) (d : Side) : phitsAt sqrt io cards p n d ↔ ∃ s ∈ surfs, s.id = n ∧ side sqrt s.type s.coeffs p = some d := by
  constructor
  · rintro ⟨mark, hmark, mn, ns, vals, hm, hns, hside⟩
    obtain ⟨s, hs, mn', ns', vals', e, hns', k⟩ := forall₂_right h _ hm
    simp only [List.cons.injEq] at e
    obtain ⟨e1, rfl, rfl⟩ := e
    have := reads_unique hns hns'
    subst this
    obtain ⟨d', k1, k2⟩ := k p
    rw [hside] at k1
    cases k1
    refine ⟨s, hs, ?_, k2⟩
    rw [intStr_natAbs (hpos s hs)] at e1
    have := mark_natStr hmark (boundaryMark_mem _) e1
    have := hpos s hs
    omega
  · rintro ⟨s, hs, e, k⟩
    obtain ⟨card, hc, mn, ns, vals, rfl, hns, k'⟩ := forall₂_left_mem h hs
    obtain ⟨d', k1, k2⟩ := k' p
    rw [k] at k2
    cases k2
    refine ⟨_, boundaryMark_mem s.bc, mn, ns, vals, ?_, hns, k1⟩
    rw [intStr_natAbs (hpos s hs), show s.id.natAbs = n by omega] at hc
    exact hc

private theorem takeWhile_words {g p : List Str} (hg : ∀ w ∈ g, ∀ ch ∈ w, ch.isAlpha = false) (hp : ∀ w, p.head? = some w → ∃ ch t, w = ch :: t ∧ ch.isAlpha = true) :
    (g ++ p).takeWhile (fun w => !((w.head?.map Char.isAlpha).getD false)) = g := by
  induction g with
  | nil =>
    cases p with
    | nil => rfl
    | cons w p =>
      obtain ⟨ch, t, rfl, h⟩ := hp w rfl
      simp [h]
  | cons w g ih =>
    rw [List.cons_append, List.takeWhile_cons_of_pos, ih fun w hw => hg w (List.mem_cons_of_mem _ hw)]
    cases w with
    | nil => rfl
    | cons ch t => simp [hg _ (List.mem_cons_self ..) ch (List.mem_cons_self ..)]

/-- C92 for PHITS. -/
theorem C92_phits_partial (e : Env K) (hio : Exact e.io) (cosDeg : K → K) (quick : Bool) (rank : Int → Nat) (text : Str) (d d' : Deck K)
    (hr : readDeck e.io cosDeg (readText text) = .ok d) (hd : ProperDeck e.sqrt rank d) (hq : quick = true ∨ ∀ s ∈ d.surfaces, TwoSheet s)
    (h : finishDeck e.fuel e.io cosDeg e.sqrt quick d = some (.ok d')) (hw : PhitsDeck e.io d'.cells d'.surfaces d'.materials) :
    ∃ fuel₀, ∀ fuel ≥ fuel₀, ∃ out secs sl cl scards ccards, Converts { e with fuel := fuel } cosDeg quick text .phits (.text out) ∧ phitsSections (readlines out) = ([], secs) ∧
      secs.lookup c!"surface" = some sl ∧ secs.lookup c!"cell" = some cl ∧ phitsCards sl = ([], scards) ∧ phitsCards cl = ([], ccards) ∧
      List.Forall₂ (fun c card => ∃ g, phitsRegion card = some (intStr c.id, g) ∧ ∀ p, InPhits e.sqrt e.io scards g p ↔ InDeckCell e.sqrt d c.id p) d.cells ccards := by
  obtain ⟨hid, hpos, hcells⟩ := processed_cells hio hd hq h
  obtain ⟨out, ⟨fuel₀, hout⟩, tl, pl, sl, cl, il, ml, hsec, -, ⟨scards, hsl, hs⟩, ⟨ccards, hcl, hc⟩, -⟩ := C89_file_partial e e.sqrt d'.cells d'.surfaces d'.materials hw
  refine ⟨max fuel₀ e.fuel, fun fuel hf => ⟨out, _, sl, cl, scards, ccards, ?_, hsec, by rfl, by rfl, hsl, hcl, ?_⟩⟩
  · refine converts_of (d := d) (d' := d') (e := { e with fuel := fuel }) hr (finishDeck_mono (le_trans (le_max_right _ _) hf) h) (s := ⟨d'.cells, d'.surfaces, d'.materials, []⟩) ?_
    rw [writeCode, returns_bind]
    exact ⟨_, hout fuel (le_trans (le_max_left _ _) hf), by rw [returns_pure]⟩
  · refine forall₂_trans ?_ hcells (forall₂_mem hc)
    rintro c c' card ⟨⟨e1, -⟩, hl, -, -, hp⟩ ⟨hc', -, dd, g, ps, offs, rots, rfl, -, hg, hps, -, hh, -⟩
    refine ⟨g, ?_, fun p => ?_⟩
    · by_cases h0 : c'.material = .int 0
      · have : c'.material.text = c!"0" := by rw [h0]; rfl
        simp only [phitsRegion, h0, if_true, List.cons_append, List.nil_append]
        rw [← h0, if_pos this, takeWhile_words hg hps, e1]
      · have : c'.material.text ≠ c!"0" := fun e => h0 (hw.void c' hc' e)
        simp only [phitsRegion, h0, if_false, List.cons_append, List.nil_append]
        rw [if_neg this, List.drop_one, List.tail_cons, takeWhile_words hg hps, e1]
    · rw [← hp p, InPhits, hh, InCell]
      exact holds_congr fun w _ => wordSense_congr (fun z => signed_iff (fun s hs => (hpos s hs).2) (fun n d => phitsAt_iff hs (fun s hs => (hpos s hs).1) p n d) z) w

private theorem numberWord_reads {io : NumIO K} (hio : Exact io) (h1 : io.parse c!"0." = some 0) (h2 : io.parse c!"0.0" = some 0) {ws : List Str} {ns : List K}
    (h : List.Forall₂ (NumberWord io) ws ns) : Reads io ws ns := by
  refine forall₂_imp ?_ h
  rintro w x (rfl | ⟨rfl | rfl, rfl⟩)
  · exact hio.reads x
  · exact h1
  · exact h2

private theorem bodySense_iff {sqrt : K → K} {io : NumIO K} (hio : Exact io) (h1 : io.parse c!"0." = some 0) (h2 : io.parse c!"0.0" = some 0) {surfs : List (Surface K)}
    {bodies : List (Str × Str × List Str)} (h : List.Forall₂ (FlukaBodySays sqrt io) surfs bodies) (hpos : ∀ s ∈ surfs, 0 < s.id ∧ s.isMacrobody = false) {p : Point K}
    (hbox : ∀ s ∈ surfs, IsCone s.type → InsideBox s.bbox p) (name : Str) :
    flukaAt io bodies p name .neg ↔ bodySense (surfaceSense sqrt (fun _ q => q) surfs p) name := by
  constructor
  · rintro ⟨kw, ws, ns, hm, hns, hside⟩
    obtain ⟨s, hs, e, ns', hns', k⟩ := forall₂_right h _ hm
    have := reads_unique hns (numberWord_reads hio h1 h2 hns')
    subst this
    obtain ⟨d', k1, k2⟩ := k p (hbox s hs)
    rw [hside] at k1
    cases k1
    have hp := (hpos s hs).1
    refine ⟨s.id.natAbs, by rw [← intStr_natAbs hp]; exact e, s, hs, by omega, ?_⟩
    unfold OnSide
    rw [(hpos s hs).2, if_neg (by decide), k2, if_neg (by simp)]
  · rintro ⟨n, rfl, s, hs, e, k⟩
    obtain ⟨⟨kw, name, ws⟩, hb, e1, ns, hns, k'⟩ := forall₂_left_mem h hs
    have hp := (hpos s hs).1
    unfold OnSide at k
    rw [(hpos s hs).2, if_neg (by decide), if_neg (by simp)] at k
    obtain ⟨d', k1, k2⟩ := k' p (hbox s hs)
    rw [k] at k2
    cases k2
    refine ⟨kw, ws, ns, ?_, numberWord_reads hio h1 h2 hns, k1⟩
    have e2 : name = 'S' :: natStr n := by
      rw [show name = 'S' :: intStr s.id from e1, intStr_natAbs hp, show s.id.natAbs = n by omega]
    rw [e2] at hb
    exact hb

/-- C92 for FLUKA. -/
theorem C92_fluka_partial (e : Env K) (hio : Exact e.io) (hz : e.io.parse c!"0." = some 0) (hz' : e.io.parse c!"0.0" = some 0) (cosDeg : K → K) (quick : Bool) (rank : Int → Nat) (text : Str)
    (d d' : Deck K) (comps : List (List (Nat × K)))
    (hr : readDeck e.io cosDeg (readText text) = .ok d) (hd : ProperDeck e.sqrt rank d) (hq : quick = true ∨ ∀ s ∈ d.surfaces, TwoSheet s)
    (h : finishDeck e.fuel e.io cosDeg e.sqrt quick d = some (.ok d')) (hw : FlukaDeck e d'.cells d'.surfaces d'.materials comps) :
    ∃ fuel₀, ∀ fuel ≥ fuel₀, ∃ out input, Converts { e with fuel := fuel } cosDeg quick text .fluka (.text out) ∧ flukaRead out = some input ∧
      List.Forall₂ (fun c r => r.1 = c!"C" ++ intStr c.id ∧
        ∀ p, (∀ s ∈ d'.surfaces, side e.sqrt s.type s.coeffs p ≠ some .on ∧ (IsCone s.type → InsideBox s.bbox p)) → (InFluka e.io input.bodies r.2 p ↔ InDeckCell e.sqrt d c.id p))
        d.cells input.regions := by
  obtain ⟨hid, hpos, hcells⟩ := processed_cells hio hd hq h
  refine ⟨e.fuel, fun fuel hf => ?_⟩
  obtain ⟨out, ms', hret, input, hin, hb, hreg, -⟩ := C90_file_partial { e with fuel := fuel } d'.cells d'.surfaces d'.materials comps
    ⟨hw.numbers, hw.importances, hw.fractions, hw.order, hw.surfaces, hw.cells, hw.nuclides, hw.materials, fun m hm => le_trans (hw.fuel m hm) hf⟩
  refine ⟨out, input, ?_, hin, ?_⟩
  · refine converts_of (d := d) (d' := d') (e := { e with fuel := fuel }) hr (finishDeck_mono hf h) (s := ⟨d'.cells, d'.surfaces, ms', []⟩) ?_
    rw [writeCode, returns_bind]
    exact ⟨_, hret, by rw [returns_pure]⟩
  · refine forall₂_trans ?_ hcells hreg
    rintro c c' r ⟨⟨e1, -⟩, hl, -, hnum, hp⟩ ⟨er, syms, hlex, -, hh⟩
    refine ⟨by rw [er, e1], fun p hpt => ?_⟩
    rw [← hp p, InCell, ← hh (surfaceSense e.sqrt (fun _ q => q) d'.surfaces p) ?_]
    · constructor
      · rintro ⟨syms', hlex', hold⟩
        rw [hlex] at hlex'
        cases hlex'
        exact (holds_congr fun w _ => bodySense_iff hio hz hz' hb hpos (fun s hs => (hpt s hs).2) w).1 hold
      · intro hold
        exact ⟨syms, hlex, (holds_congr fun w _ => bodySense_iff hio hz hz' hb hpos (fun s hs => (hpt s hs).2) w).2 hold⟩
    · intro z hz z0
      obtain ⟨s, hs, es⟩ := hnum z hz
      have uniq : ∀ s' ∈ d'.surfaces, s'.id = z.natAbs → s' = s := fun s' hs' e' => List.inj_on_of_nodup_map hid hs' hs (by rw [e', es])
      obtain ⟨b, -, -, ns, -, k⟩ := forall₂_left_mem hb hs
      obtain ⟨dd, -, k2⟩ := k p (hpt s hs).2
      have k3 := (hpt s hs).1
      rw [k2] at k3
      have one : ∀ z' : Int, z'.natAbs = z.natAbs → (surfaceSense e.sqrt (fun _ q => q) d'.surfaces p z' ↔ dd = if 0 < z' then .pos else .neg) := by
        intro z' hz'
        constructor
        · rintro ⟨s', hs', e', ko⟩
          rw [uniq s' hs' (by rw [e', hz']), OnSide, (hpos s hs).2, if_neg (by decide), k2] at ko
          simpa using ko
        · intro ed
          refine ⟨s, hs, by rw [es, hz'], ?_⟩
          rw [OnSide, (hpos s hs).2, if_neg (by decide), k2, ed]
          simp
      rw [one z rfl, one (-z) (by omega)]
      rcases lt_or_gt_of_ne z0 with hlt | hgt
      · rw [if_pos (by omega), if_neg (by omega)]
        cases dd <;> simp at k3 ⊢
      · rw [if_neg (by omega), if_pos hgt]
        cases dd <;> simp at k3 ⊢

private theorem sconeAt_iff {sqrt tanSq : K → K} {read : Str → Option K} {surfs : List (Surface K)} {items : List SconeItem} (h : List.Forall₂ (SconeSurfaceSays sqrt tanSq read) surfs items)
    (hpos : ∀ s ∈ surfs, 0 < s.id) {p : Point K} (hnear : ∀ s ∈ surfs, ∀ u, coneOffset s.type s.coeffs p = some u → |u| < 10 ^ 10) (n : Nat) (d : Side) :
    sconeAt tanSq read items p n d ↔ ∃ s ∈ surfs, s.id = n ∧ side sqrt s.type s.coeffs p = some d := by
  constructor
  · rintro ⟨name, es, ds, hm, hds, hid, hside⟩
    obtain ⟨s, hs, es', ds', e, hds', hid', k⟩ := forall₂_right h _ hm
    injection e with e1 e2
    have : es = es' := List.map_injective_iff.2 (fun a b hab => by injection hab) e2
    subst this
    rw [hds] at hds'
    cases hds'
    rw [hid] at hid'
    obtain ⟨d', k1, k2⟩ := k p (hnear s hs)
    rw [hside] at k1
    cases k1
    refine ⟨s, hs, ?_, k2⟩
    simp only [Option.some.injEq, List.cons.injEq, and_true] at hid'
    rw [intStr_natAbs (hpos s hs)] at hid'
    have := natStr_injective hid'
    have := hpos s hs
    omega
  · rintro ⟨s, hs, e, k⟩
    obtain ⟨item, hi, es, ds, rfl, hds, hid, k'⟩ := forall₂_left_mem h hs
    obtain ⟨d', k1, k2⟩ := k' p (hnear s hs)
    rw [k] at k2
    cases k2
    refine ⟨_, es, ds, hi, hds, ?_, k1⟩
    rw [hid, intStr_natAbs (hpos s hs), show s.id.natAbs = n by omega]

/-- C92 for SCONE. -/
theorem C92_scone_partial (e : Env K) (hio : Exact e.io) (ho : ∀ l, (e.orderInt l).Perm l) (cosDeg tanSq : K → K) (quick : Bool) (read : Str → Option K) (nucs : Material K → List (Nuc K))
    (rank : Int → Nat) (text : Str) (d d' : Deck K)
    (hr : readDeck e.io cosDeg (readText text) = .ok d) (hd : ProperDeck e.sqrt rank d) (hq : quick = true ∨ ∀ s ∈ d.surfaces, TwoSheet s)
    (h : finishDeck e.fuel e.io cosDeg e.sqrt quick d = some (.ok d')) (hw : SconeDeck e.sqrt e.degAtan tanSq read e.io e.fixed e.sci nucs d'.cells d'.surfaces d'.materials) :
    ∃ fuel₀, ∀ fuel ≥ fuel₀, ∃ out gs rest ses ces, Converts { e with fuel := fuel } cosDeg quick text .scone (.text out) ∧ sconeRead out = some (.dict c!"geometry" gs :: rest) ∧
      .dict c!"surfaces" ses ∈ gs ∧ .dict c!"cells" ces ∈ gs ∧ (∀ xs, .dict c!"cells" xs ∈ gs → xs = ces) ∧
      List.Forall₂ (fun c x => ∃ g, sconeRegion x = some (intStr c.id, g) ∧
        ∀ p, (∀ s ∈ d'.surfaces, ∀ u, coneOffset s.type s.coeffs p = some u → |u| < 10 ^ 10) → (InScone tanSq read ses g p ↔ InDeckCell e.sqrt d c.id p)) d.cells ces := by
  obtain ⟨hid, hpos, hcells⟩ := processed_cells hio hd hq h
  obtain ⟨out, us, ⟨fuel₀, hout⟩, -, ses, ces, ues, mes, hread, hs, hc, -⟩ := C87_file_partial e tanSq read nucs d'.cells d'.surfaces d'.materials hw ho
  refine ⟨max fuel₀ e.fuel, fun fuel hf => ⟨out, _, _, ses, ces, ?_, hread, by simp, by simp, by simp, ?_⟩⟩
  · refine converts_of (d := d) (d' := d') (e := { e with fuel := fuel }) hr (finishDeck_mono (le_trans (le_max_right _ _) hf) h) (s := ⟨d'.cells, d'.surfaces, d'.materials, us⟩) ?_
    rw [writeCode, returns_bind]
    exact ⟨_, hout fuel (le_trans (le_max_left _ _) hf), by rw [returns_pure]⟩
  · refine forall₂_trans ?_ hcells hc
    rintro c c' x ⟨⟨e1, -⟩, hl, -, -, hp⟩ ⟨g, rfl, -, hh⟩
    refine ⟨g, ?_, fun p hnear => ?_⟩
    · have hid : sconeValue c!"id" ([.value [c!"type", c!"unionCell"], .value [c!"id", intStr c'.id]] ++ sconeFilling c' ++ [.value ([c!"surfaces", c!"["] ++ g ++ [c!"]"])]) = some [intStr c'.id] := rfl
      have hsu : sconeValue c!"surfaces" ([.value [c!"type", c!"unionCell"], .value [c!"id", intStr c'.id]] ++ sconeFilling c' ++ [.value ([c!"surfaces", c!"["] ++ g ++ [c!"]"])]) =
          some (c!"[" :: (g ++ [c!"]"])) := by
        unfold sconeFilling
        cases c'.fill <;> rfl
      rw [sconeRegion, hid, hsu]
      simp only
      rw [if_pos ⟨trivial, by simp⟩, List.dropLast_concat, e1]
    · rw [← hp p, InScone, hh, InCell]
      exact holds_congr fun w _ => wordSense_congr (fun z => signed_iff (fun s hs => (hpos s hs).2) (fun n d => sconeAt_iff hs (fun s hs => (hpos s hs).1) hnear n d) z) w

/-- Without macrobodies, TR cards and complements of cells, a point lies in a cell if the description holds. -/
theorem inDeckCell_plain {sqrt : K → K} {d : Deck K} (hids : (d.cells.map Cell.id).Nodup) (hs : ∀ s ∈ d.surfaces, s.isMacrobody = false ∧ s.transform = none)
    (hw : ∀ c ∈ d.cells, ∀ w, Sym.atom w ∈ itemSyms c.interpreted → ∃ z, parseInt w = some z) {c : Cell K} (hc : c ∈ d.cells) (p : Point K) :
    InDeckCell sqrt d c.id p ↔ InCell sqrt d.surfaces c.interpreted p := by
  have hσ : ∀ w, pointSense sqrt (placeBy d.transforms) d.surfaces p w ↔ wordSense (surfaceSense sqrt (fun _ q => q) d.surfaces p) w := by
    intro w
    unfold pointSense
    rw [or_iff_left (facetSense_plain (fun s h => (hs s h).1) p w)]
    refine wordSense_congr (fun z => ?_) w
    unfold surfaceSense
    refine exists_congr fun s => and_congr_right fun h => ?_
    rw [(hs s h).2]
    rfl
  have hcell : ∀ T, ∀ c ∈ d.cells, (Holds (cellSense (pointSense sqrt (placeBy d.transforms) d.surfaces p) T) (itemSyms c.interpreted) ↔ InCell sqrt d.surfaces c.interpreted p) := by
    intro T c hc
    refine holds_congr fun w hw' => ?_
    obtain ⟨z, hz⟩ := hw c hc w hw'
    rw [cellSense, if_neg (parseInt_no_hash hz), hσ]
  constructor
  · rintro ⟨T, hT, hn⟩
    exact (hcell T c hc).1 ((hT c hc).1 hn)
  · intro hin
    refine ⟨fun n => ∃ c ∈ d.cells, c.id = n ∧ InCell sqrt d.surfaces c.interpreted p, ?_, c, hc, rfl, hin⟩
    intro c' hc'
    rw [hcell _ c' hc']
    constructor
    · rintro ⟨c'', hc'', e, k⟩
      have := List.inj_on_of_nodup_map hids hc'' hc' e
      subst this
      exact k
    · intro k
      exact ⟨c', hc', rfl, k⟩

/-- C92 for MCNP: the written file, read again, has the same points in the cells. -/
theorem C92_mcnp_partial (e : Env K) (hio : Exact e.io) (cosDeg : K → K) (quick : Bool) (rank : Int → Nat) (text : Str) (d d' : Deck K)
    (hr : readDeck e.io cosDeg (readText text) = .ok d) (hd : ProperDeck e.sqrt rank d) (hq : quick = true ∨ ∀ s ∈ d.surfaces, TwoSheet s)
    (h : finishDeck e.fuel e.io cosDeg e.sqrt quick d = some (.ok d'))
    (hc : ∀ c ∈ d'.cells, ∃ offs rots, Writable e.io GeometryWord c ∧ WritableParams e.io c offs rots ∧ ReadableCell e.io c)
    (hs : ∀ s ∈ d'.surfaces, Expressible s ∧ s.bc ≠ .periodic ∧ 0 ≤ s.id ∧ (intStr s.id).length ≤ 60 ∧ ∀ x ∈ s.coeffs, e.io.Good x)
    (hmn : ∀ mn ∈ printedMnemonics, e.io.parse mn = none) (hm : ∀ m ∈ d'.materials, Printable e.io m.2) (hn : (d'.materials.map fun m => m.2.number).Nodup) :
    ∃ fuel₀, ∀ fuel ≥ fuel₀, ∃ out d2, Converts { e with fuel := fuel } cosDeg quick text .mcnp (.text out) ∧ readDeck e.io cosDeg (readText out) = .ok d2 ∧
      List.Forall₂ (fun c c2 => c2.id = c.id ∧ ∀ p, InDeckCell e.sqrt d2 c2.id p ↔ InDeckCell e.sqrt d c.id p) d.cells d2.cells := by
  obtain ⟨hid, hpos, hcells⟩ := processed_cells hio hd hq h
  obtain ⟨out, ⟨fuel₀, hout⟩, d2, hread, hc2, hs2, -, -, htr⟩ := C83_file_partial e cosDeg d'.cells d'.surfaces d'.materials hc hs hmn hm hn
  refine ⟨max fuel₀ e.fuel, fun fuel hf => ⟨out, d2, ?_, hread, ?_⟩⟩
  · refine converts_of (d := d) (d' := d') (e := { e with fuel := fuel }) hr (finishDeck_mono (le_trans (le_max_right _ _) hf) h) (s := ⟨d'.cells, d'.surfaces, d'.materials, []⟩) ?_
    rw [writeCode, returns_bind]
    exact ⟨_, hout fuel (le_trans (le_max_left _ _) hf), by rw [returns_pure]⟩
  · have hboth : List.Forall₂ (fun c c2 => c2.id = c.id ∧ (∀ w, Sym.atom w ∈ itemSyms c2.interpreted → ∃ z, parseInt w = some z) ∧
        ∀ p, InCell e.sqrt d'.surfaces c2.interpreted p ↔ InDeckCell e.sqrt d c.id p) d.cells d2.cells := by
      refine forall₂_trans ?_ hcells hc2
      rintro c c' c2 ⟨⟨e1, -⟩, hl, hon, -, hp⟩ hsame
      refine ⟨by rw [hsame.id, e1], ?_, fun p => ?_⟩
      · intro w hw
        rw [hsame.region] at hw
        obtain ⟨k1, k2⟩ := atom_of_itemSyms hw
        rcases onlyNumbers_iff.1 hon w k1 with k | k | k
        · exact absurd (Or.inl k) k2
        · exact absurd (Or.inr k) k2
        · exact k
      · rw [← hp p, InCell, InCell, hsame.region]
    have hids : (d2.cells.map Cell.id).Nodup := by
      rw [show d2.cells.map Cell.id = d.cells.map Cell.id from forall₂_map_eq (fun _ _ k => k.1) hboth]
      exact hd.complements.ids
    have hplain : ∀ s ∈ d2.surfaces, s.isMacrobody = false ∧ s.transform = none := by
      intro s hs
      obtain ⟨s', hs', -, e2, -, e4⟩ := forall₂_right hs2 s hs
      refine ⟨?_, e4⟩
      rw [← (hpos s' hs').2, Surface.isMacrobody, Surface.isMacrobody, e2]
    refine forall₂_imp ?_ (forall₂_mem hboth)
    rintro c c2 ⟨-, hm2, k⟩
    refine ⟨k.1, fun p => ?_⟩
    rw [inDeckCell_plain hids hplain (fun c' hc' => by obtain ⟨_, _, k⟩ := forall₂_right hboth c' hc'; exact k.2.1) hm2 p, ← k.2.2 p]
    refine holds_congr fun w _ => wordSense_congr (fun z => ?_) w
    constructor
    · rintro ⟨s, hs, e', k'⟩
      obtain ⟨s', hs', e1, e2, e3, e4⟩ := forall₂_right hs2 s hs
      refine ⟨s', hs', by rw [← e1, e'], ?_⟩
      unfold OnSide Surface.isMacrobody at k' ⊢
      rw [e2, e3] at k'
      exact k'
    · rintro ⟨s, hs, e', k'⟩
      obtain ⟨s', hs', e1, e2, e3, e4⟩ := forall₂_left_mem hs2 hs
      refine ⟨s', hs', by rw [e1, e'], ?_⟩
      unfold OnSide Surface.isMacrobody at k' ⊢
      rw [e2, e3]
      exact k'

end

end Csg
