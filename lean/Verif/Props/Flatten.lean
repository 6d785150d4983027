import Verif.Lemmas.FlattenDeck
import Verif.Props.Macrobody
import Mathlib.Data.List.Nodup

/-!
# C16, C17: replacing macrobodies in a deck
-/

set_option linter.unusedSectionVars false

namespace Csg

open Spec

section
variable {K : Type} [Field K] [LinearOrder K] [IsStrictOrderedRing K]

theorem uniqueIds_of_nodup {surfs : List (Surface K)} (h : (surfs.map Surface.id).Nodup) : UniqueIds surfs :=
  fun _ hs _ ht e => List.inj_on_of_nodup_map h hs ht e

/-- C16. After flattening no macrobody is left, the numbers are distinct, the ordinary surfaces are the same in the same order, and all
others have numbers larger than any number before. -/
theorem C16_flatten_surfaces (io : NumIO K) (hio : Exact io) (cosDeg sqrt : K → K) (cells : List (Cell K)) (surfs : List (Surface K)) (last : Int)
    (hids : (surfs.map Surface.id).Nodup) (hlast : ∀ s ∈ surfs, s.id ≤ last)
    (hbody : ∀ s ∈ surfs, s.isMacrobody = true → BodyShape s.type s.coeffs)
    {cells' : List (Cell K)} {surfs' : List (Surface K)} {last' : Int} (h : flatten io cosDeg sqrt cells surfs last = .ok (cells', surfs', last')) :
    (∀ s ∈ surfs', s.isMacrobody = false) ∧ (surfs'.map Surface.id).Nodup ∧ (∀ s ∈ surfs', s.id ≤ last') ∧
    ∃ new, surfs' = surfs.filter (fun s => !s.isMacrobody) ++ new ∧ ∀ s ∈ new, last < s.id := by
  unfold flatten at h
  obtain ⟨⟨c1, more, l1⟩, h1, h⟩ := bind_ok h
  cases h
  obtain ⟨g1, g2, g3⟩ := flattenGo_news io hio cosDeg surfs last cells hbody h1
  simp only at g1 g2 g3
  have hf : more.filter (fun s => !s.isMacrobody) = more := List.filter_eq_self.2 fun n hn => by simp [(g2 n hn).1]
  refine ⟨fun s hs => by simpa using (List.mem_filter.1 hs).2, ?_, ?_, more, by rw [List.filter_append, hf], fun s hs => (g2 s hs).2.1⟩
  · refine List.Nodup.sublist (List.Sublist.map _ List.filter_sublist) ?_
    rw [List.map_append, List.nodup_append]
    refine ⟨hids, g3, ?_⟩
    intro a ha b hb
    obtain ⟨m, hm, rfl⟩ := List.mem_map.1 ha
    obtain ⟨n, hn, rfl⟩ := List.mem_map.1 hb
    have h1 := hlast m hm
    have h2 := (g2 n hn).2.1
    omega
  · intro s hs
    rcases List.mem_append.1 (List.mem_filter.1 hs).1 with hs | hs
    · exact le_trans (hlast s hs) g1
    · exact (g2 s hs).2.2

/-- C17, in part. Flattening succeeds and each cell keeps its point set and everything but its description, in which only complements that were there before and numbers of
surfaces of the new list are left, and in which each `#` stands before a parenthesis if that was so before. Missing are the words that
`KnownWord` leaves out (see `C15_refuted` and `C17_refuted`), and numbers in unusual notation like `05`. -/
theorem C17_flatten_regions_partial (io : NumIO K) (hio : Exact io) (cosDeg sqrt : K → K) (cells : List (Cell K)) (surfs : List (Surface K)) (last : Int)
    (hids : (surfs.map Surface.id).Nodup) (hlast : ∀ s ∈ surfs, 0 < s.id ∧ s.id ≤ last) (h0 : 0 ≤ last)
    (hbody : ∀ s ∈ surfs, s.isMacrobody = true → ProperBody s.type s.coeffs ∧ Roots sqrt s.type s.coeffs)
    (hcells : ∀ c ∈ cells, ReadCell c ∧ ∀ w, Sym.atom w ∈ tokenSyms c.text → KnownWord surfs w) :
    ∃ cells' surfs' last', flatten io cosDeg sqrt cells surfs last = .ok (cells', surfs', last') ∧
      List.Forall₂ (fun c c' => ReadCell c' ∧ SamePoints sqrt surfs surfs' c c' ∧
        c' = { c with text := c'.text, interpreted := c'.interpreted, surfaces := c'.surfaces } ∧
        ∀ w, Sym.atom w ∈ tokenSyms c'.text → (∃ n, w = refWord n ∧ Sym.atom w ∈ tokenSyms c.text) ∨
          ∃ s ∈ surfs', w = intStr s.id ∨ w = '-' :: intStr s.id) cells cells' ∧
      List.Forall₂ (fun c c' => HashOpen c.text → HashOpen c'.text) cells cells' := by
  have hloop : ∀ c ∈ cells, LoopCell surfs surfs c := fun c hc =>
    ⟨(hcells c hc).1.material, (hcells c hc).1.legal, (hcells c hc).1.parsed, fun w hw hs =>
      LoopWord.of_known ((hcells c hc).2 w (by rw [← hs]; exact List.mem_map_of_mem hw))⟩
  have hgo := fun place => flattenGo_ok place io hio cosDeg surfs surfs last cells (uniqueIds_of_nodup hids) hlast h0 (fun _ h => h)
    (List.Nodup.of_map _ hids) hbody hloop
  obtain ⟨cells', more, last', h1, -, -, -, -, -⟩ := hgo fun _ p => p
  refine ⟨cells', (surfs ++ more).filter fun s => !s.isMacrobody, last', by unfold flatten; rw [h1]; rfl, ?_, ?_⟩
  swap
  · obtain ⟨_, _, _, g1, -, -, -, -, g6⟩ := hgo fun _ p => p
    rw [h1] at g1
    cases g1
    exact forall₂_imp (fun _ _ k => k.2.nots) g6
  rw [List.forall₂_iff_get]
  have hlen : cells.length = cells'.length := by
    obtain ⟨_, _, _, g1, -, -, -, -, g6⟩ := hgo fun _ p => p
    rw [h1] at g1
    cases g1
    exact g6.length_eq
  refine ⟨hlen, fun i hi hi' => ?_⟩
  have hone : ∀ place, LoopCell (surfs ++ more) [] (cells'.get ⟨i, hi'⟩) ∧ UniqueIds (surfs ++ more) ∧ (∀ t ∈ surfs ++ more, 0 < t.id) ∧
      SameRegion place surfs (surfs ++ more) sqrt (cells.get ⟨i, hi⟩) (cells'.get ⟨i, hi'⟩) := by
    intro place
    obtain ⟨_, _, _, g1, -, g3, g4, -, g6⟩ := hgo place
    rw [h1] at g1
    cases g1
    obtain ⟨a, b⟩ := (List.forall₂_iff_get.1 g6).2 i hi hi'
    exact ⟨a, g3, fun t ht => (g4 t ht).1, b⟩
  obtain ⟨a, -, -, b⟩ := hone fun _ p => p
  refine ⟨⟨a.material, a.legal, a.parsed⟩, ?_, b.fields, ?_⟩
  swap
  · intro w hw
    obtain ⟨t, ht, e⟩ := List.mem_map.1 hw
    obtain rfl := tokenSym_eq_atom e
    rcases a.words t ht e with ⟨n, rfl⟩ | ⟨s, h1, h2, h3⟩ | ⟨_, h1, -⟩
    · exact Or.inl ⟨n, rfl, e ▸ List.mem_map_of_mem (b.refs _ ht e (hash_mem_refWord n))⟩
    · refine Or.inr ⟨s, List.mem_filter.2 ⟨h1, ?_⟩, h3⟩
      cases hm : s.isMacrobody with
      | false => rfl
      | true => cases h2 hm
    · cases h1
  intro place p T
  obtain ⟨a, u, hp, b⟩ := hone place
  rw [(hcells _ (List.get_mem _ _)).1.parsed, a.parsed, b.holds p T]
  refine holds_congr fun w hw => sense_filter place u hp p T ?_
  obtain ⟨t, ht, e⟩ := List.mem_map.1 hw
  obtain rfl := tokenSym_eq_atom e
  exact a.words t ht e

/-- C17, in part, for whole decks: a point that lies in given cells before lies in the same cells after. -/
theorem C17_cell_truth_partial (io : NumIO K) (hio : Exact io) (cosDeg sqrt : K → K) (cells : List (Cell K)) (surfs : List (Surface K)) (last : Int)
    (hids : (surfs.map Surface.id).Nodup) (hlast : ∀ s ∈ surfs, 0 < s.id ∧ s.id ≤ last) (h0 : 0 ≤ last)
    (hbody : ∀ s ∈ surfs, s.isMacrobody = true → ProperBody s.type s.coeffs ∧ Roots sqrt s.type s.coeffs)
    (hcells : ∀ c ∈ cells, ReadCell c ∧ ∀ w, Sym.atom w ∈ tokenSyms c.text → KnownWord surfs w) :
    ∃ cells' surfs' last', flatten io cosDeg sqrt cells surfs last = .ok (cells', surfs', last') ∧
      ∀ place p T, IsCellTruth (pointSense sqrt place surfs p) T cells ↔ IsCellTruth (pointSense sqrt place surfs' p) T cells' := by
  obtain ⟨cells', surfs', last', h1, h2, -⟩ := C17_flatten_regions_partial io hio cosDeg sqrt cells surfs last hids hlast h0 hbody hcells
  refine ⟨cells', surfs', last', h1, fun place p T => ?_⟩
  unfold IsCellTruth
  clear h1 hcells
  induction h2 with
  | nil => simp
  | cons h _ ih =>
    obtain ⟨-, h, e, -⟩ := h
    have e' := congrArg Cell.id e
    simp only at e'
    simp only [List.mem_cons, forall_eq_or_imp, e', h place p T, ih]

end

/-- A deck that meets the hypotheses of C16 and C17: a box with a transformation, a sphere and a can, with numbers, a facet and a complement
in the cells. -/
def sampleSurfaces : List (Surface ℚ) :=
  [{ plainCard 5 .macroRPP [0, 4, 0, 4, 0, 4] with transform := some c!"1" }, plainCard 6 .sphereGeneral [2, 2, 2, 1],
   plainCard 7 .macroRCC [0, 0, 0, 0, 0, 5, 1]]

def sampleCells : List (Cell ℚ) :=
  [{ (Cell.blank : Cell ℚ) with id := 1, text := [c!"-5", c!"6", c!"-7"], interpreted := [.op .and, .str c!"-5", .op .and, .str c!"6", .op .and, .str c!"-7"] },
   { (Cell.blank : Cell ℚ) with id := 2, text := [c!"5", c!":", c!"-5.1", c!":", c!"#1"], interpreted := [.op .and, .str c!"5", .op .union, .op .and, .str c!"-5.1", .op .union, .op .and, .str c!"#1"] }]

example : (sampleSurfaces.map Surface.id).Nodup ∧ (∀ s ∈ sampleSurfaces, 0 < s.id ∧ s.id ≤ 7) ∧
    (∀ s ∈ sampleSurfaces, s.isMacrobody = true → ProperBody s.type s.coeffs ∧ Roots sampleRoot s.type s.coeffs) ∧
    (∀ c ∈ sampleCells, ReadCell c ∧ ∀ w, Sym.atom w ∈ tokenSyms c.text → KnownWord sampleSurfaces w) := by
  refine ⟨by decide, by decide, ?_, ?_⟩
  · intro s hs hm
    simp only [sampleSurfaces, List.mem_cons, List.not_mem_nil, or_false] at hs
    rcases hs with rfl | rfl | rfl
    · exact ⟨trivial, trivial⟩
    · cases hm
    · refine ⟨by simp [ProperBody, plainCard], ?_⟩
      show RootAt sampleRoot _
      unfold RootAt; decide +kernel
  · intro c hc
    simp only [sampleCells, List.mem_cons, List.not_mem_nil, or_false] at hc
    have h5 : { plainCard 5 .macroRPP [0, 4, 0, 4, 0, 4] with transform := some c!"1" } ∈ sampleSurfaces := List.mem_cons_self ..
    have h6 : plainCard 6 .sphereGeneral [2, 2, 2, 1] ∈ sampleSurfaces := List.mem_cons_of_mem _ (List.mem_cons_self ..)
    have h7 : plainCard 7 .macroRCC [0, 0, 0, 0, 0, 5, 1] ∈ sampleSurfaces := List.mem_cons_of_mem _ (List.mem_cons_of_mem _ (List.mem_cons_self ..))
    rcases hc with rfl | rfl
    · refine ⟨⟨⟨0, rfl, le_refl _, fun _ => rfl⟩, ⟨_, .one (.inter (.inter (.single (.atom _)) (.atom _)) (.atom _))⟩, by decide⟩, ?_⟩
      intro w hw
      have hw : w = c!"-5" ∨ w = c!"6" ∨ w = c!"-7" := by
        simpa [tokenSyms, tokenSym, wordSym, Cell.blank] using hw
      rcases hw with rfl | rfl | rfl
      · exact Or.inr (Or.inl ⟨_, h5, Or.inr (by decide)⟩)
      · exact Or.inr (Or.inl ⟨_, h6, Or.inl (by decide)⟩)
      · exact Or.inr (Or.inl ⟨_, h7, Or.inr (by decide)⟩)
    · refine ⟨⟨⟨0, rfl, le_refl _, fun _ => rfl⟩,
        ⟨_, .union (.union (.one (.single (.atom _))) (.single (.atom _))) (.single (.atom _))⟩, by decide⟩, ?_⟩
      intro w hw
      have hw : w = c!"5" ∨ w = c!"-5.1" ∨ w = c!"#1" := by
        simpa [tokenSyms, tokenSym, wordSym, Cell.blank] using hw
      rcases hw with rfl | rfl | rfl
      · exact Or.inr (Or.inl ⟨_, h5, Or.inl (by decide)⟩)
      · refine Or.inr (Or.inr ⟨_, h5, rfl, true, 1, by decide, by decide, by decide, ?_⟩)
        decide
      · exact Or.inl ⟨1, by decide⟩

example : (flatten fractionIO id sampleRoot sampleCells sampleSurfaces 7).map (fun r => (r.1.map Cell.text, r.2.1.map Surface.id, r.2.2)) =
    .ok ([[c!"(", c!"-8", c!"-9", c!"-10", c!"-11", c!"-12", c!"-13", c!")", c!"6", c!"(", c!"-14", c!"-15", c!"-16", c!")"],
      [c!"(", c!"8", c!":", c!"9", c!":", c!"10", c!":", c!"11", c!":", c!"12", c!":", c!"13", c!")", c!":", c!"-8", c!":", c!"#1"]],
      [6, 8, 9, 10, 11, 12, 13, 14, 15, 16], 16) := by
  decide +kernel

private def suffixBodies : List (Surface ℚ) := [plainCard 5 .macroRPP [0, 1, 0, 1, 0, 1], plainCard 15 .macroRPP [-2, -1, 0, 1, 0, 1]]

private def suffixFaces : List (Surface ℚ) :=
  newSurfaces sampleRoot 15 (plainCard 5 .macroRPP [0, 1, 0, 1, 0, 1]) ++ newSurfaces sampleRoot 21 (plainCard 15 .macroRPP [-2, -1, 0, 1, 0, 1])

/-- C17 is false if the number of a body ends with that of another one: with bodies 5 and 15 the description `-5 15.1` is the box 5, but the facet `15.1`
becomes a facet of body 5, and the cell is empty afterwards. -/
theorem C17_refuted : ∃ (c c' : Cell ℚ) (surfs surfs' : List (Surface ℚ)) (last' : Int),
    (surfs.map Surface.id).Nodup ∧ (∀ s ∈ surfs, 0 < s.id ∧ s.id ≤ 15) ∧
    (∀ s ∈ surfs, s.isMacrobody = true → ProperBody s.type s.coeffs ∧ Roots sampleRoot s.type s.coeffs) ∧ ReadCell c ∧
    flatten fractionIO id sampleRoot [c] surfs 15 = .ok ([c'], surfs', last') ∧ ¬ SamePoints sampleRoot surfs surfs' c c' := by
  have hp : ∀ s ∈ suffixBodies, s.isMacrobody = true → ProperBody s.type s.coeffs ∧ Roots sampleRoot s.type s.coeffs := by
    intro s hs _
    simp only [suffixBodies, List.mem_cons, List.not_mem_nil, or_false] at hs
    rcases hs with rfl | rfl <;> exact ⟨trivial, trivial⟩
  refine ⟨{ (Cell.blank : Cell ℚ) with id := 1, text := [c!"-5", c!"15.1"], interpreted := [.op .and, .str c!"-5", .op .and, .str c!"15.1"] },
    { (Cell.blank : Cell ℚ) with id := 1, text := [c!"(", c!"-16", c!"-17", c!"-18", c!"-19", c!"-20", c!"-21", c!")", c!"16"], interpreted := [.str c!"(", .str c!"-16", .op .and, .str c!"-17", .op .and, .str c!"-18", .op .and, .str c!"-19", .op .and, .str c!"-20", .op .and, .str c!"-21", .str c!")", .op .and, .str c!"16"], surfaces := [17, 18, 19, 20, 21, 16, 17, 18, 19, 20, 21, 16] },
    suffixBodies, suffixFaces, 27,
    by decide, by decide, hp, ⟨⟨0, rfl, le_refl _, fun _ => rfl⟩, ⟨_, .one (.inter (.single (.atom _)) (.atom _))⟩, by decide⟩, by decide +kernel, ?_⟩
  intro h
  have h := h (fun _ q => q) ⟨1 / 2, 1 / 2, 1 / 2⟩ (fun _ => True)
  have hub : UniqueIds suffixBodies := uniqueIds_of_nodup (by decide)
  have huf : UniqueIds suffixFaces := uniqueIds_of_nodup (by decide)
  have hbefore : Holds (cellSense (pointSense sampleRoot (fun _ q => q) suffixBodies ⟨1 / 2, 1 / 2, 1 / 2⟩) fun _ => True)
      (itemSyms [.op .and, .str c!"-5", .op .and, .str c!"15.1"]) := by
    refine ⟨_, .one (.inter (.single (.atom _)) (.atom _)), ?_, ?_⟩
    · refine (cellSense_plain _ _ (by decide)).2 ?_
      have := pointSense_neg sampleRoot (fun _ q => q) hub (List.mem_cons_self ..) (by decide) ⟨1 / 2, 1 / 2, 1 / 2⟩
      refine this.2 ?_
      show Inside .macroRPP [0, 1, 0, 1, 0, 1] _
      simp only [Inside]
      norm_num
    · refine (cellSense_plain _ _ (by decide)).2 (Or.inr ⟨_, List.mem_cons_of_mem _ (List.mem_cons_self ..), false, 1, 3 / 2, by decide, le_refl _, ?_, by norm_num⟩)
      decide +kernel
  have hafter := (holds_iff (.one (.inter (.single (.paren (.one (.inter (.inter (.inter (.inter (.inter (.single (.atom c!"-16")) (.atom c!"-17"))
    (.atom c!"-18")) (.atom c!"-19")) (.atom c!"-20")) (.atom c!"-21"))))) (.atom c!"16")))).1 (h.1 hbefore)
  have h16 := (cellSense_plain _ _ (by decide)).1 hafter.2
  obtain ⟨v, h1, h2, -⟩ := sense_face sampleRoot (fun _ q => q) huf (last := 15) (by decide) (s := plainCard 5 .macroRPP [0, 1, 0, 1, 0, 1]) (t := none)
    (fun n hn => List.mem_append_left _ (by rwa [placed_none] at hn)) ⟨1 / 2, 1 / 2, 1 / 2⟩ (i := 0) rfl
  have h3 : 0 < v := h2.1 h16
  have h4 : v = -1 / 2 := by
    have : some v = some (-1 / 2 : ℚ) := by rw [← h1]; decide +kernel
    simpa using this
  rw [h4] at h3
  norm_num at h3

end Csg
