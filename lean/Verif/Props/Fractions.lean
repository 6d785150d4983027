import Verif.Lemmas.Fractions
import Verif.Props.Missing

/-!
# C118: only the ratios of the fractions of a material matter

`C118_partial`: if the fractions on a material card are multiplied by a positive number, then the run is the same, for all codes, if some cell has a material. `C118_refuted`: in a model without materials in its cells the fractions are written as given.
-/

set_option linter.unusedSectionVars false

namespace Csg

open Spec

section
variable {K : Type} [Field K] [LinearOrder K] [IsStrictOrderedRing K]

private def FilledAs (a : CellEntry K) (b : Cell K) : Prop := b.material = match a.content with | none => .int 0 | some (m, _) => .int m

/-- **C118** (partial). Two texts that differ only in a material card, on which the fractions of the second are those of the first times a positive number, give the same run. Missing: files in which no cell has a material (`hc`), see `C118_refuted`; and cards with
the letters `imp` or a continuation line that looks like a material. -/
theorem C118_partial (e : Env K) (hio : Exact e.io) (cosDeg : K → K) (quick : Bool) (output : Option (List Str)) (text text' title n : Str) (factor : K) (cells surfs a g g' b : List Str) (f : InputFile K) (hf : FileSays e.io text f)
    (hg : ReadableGeometry e.sqrt f) (c : CellEntry K) (hc : c ∈ f.cells) (m : Int) (x : K) (hm : c.content = some (m, x)) (h : Blocks text title cells surfs (a ++ (g ++ b))) (h' : Blocks text' title cells surfs (a ++ (g' ++ b)))
    (hcards : ProportionalCards e.io n factor g g') (hpos : 0 < factor) (hb : BeginCard b) :
    convert e cosDeg quick output text' = convert e cosDeg quick output text := by
  obtain ⟨d, hr, ha, hs, hlast⟩ := read_file e.io cosDeg e.sqrt text f hf
  have key : ∃ mats', readDeck e.io cosDeg (readText text') = .ok { d with materials := mats' } ∧ ScaledMaterials d.materials mats' := by
    obtain ⟨b1, b2, k1, k2, k3⟩ := readText_blocks h e.io cosDeg
    obtain ⟨b1', b2', k1', k2', k3'⟩ := readText_blocks h' e.io cosDeg
    obtain ⟨rc, hrc⟩ := block_rest (readCell e.io cosDeg) removeInline_code fun l hl => h.cards l (List.mem_append_left _ hl)
    obtain ⟨rs, hrs⟩ := block_rest (classify e.io) stripDollar_code fun l hl => h.cards l (List.mem_append_right _ hl)
    rw [k3, hrc _ _ k1] at hr
    rw [k3', hrc _ _ k1']
    cases rc with
    | error x => cases hr
    | ok cs =>
      simp only [Except.map, bind, Except.bind] at hr ⊢
      rw [hrs _ _ k2] at hr
      rw [hrs _ _ k2']
      cases rs with
      | error x => cases hr
      | ok ss =>
        simp only [Except.map] at hr ⊢
        rw [importances_proportional e.io hcards, transforms_proportional e.io cosDeg hcards]
        revert hr
        cases getImportances (a ++ (g ++ b)) with
        | error x => intro hr; cases hr
        | ok imps =>
          cases getTransformCards e.io cosDeg [] (a ++ (g ++ b)) with
          | error x => intro hr; cases hr
          | ok trs =>
            rcases materials_proportional e.io hpos hcards hb a (mats := []) (mats' := []) .nil with ⟨x, e1, e2⟩ | ⟨mats, mats', e1, e2, hsc⟩
            · rw [e1]
              intro hr
              cases hr
            · rw [e1, e2]
              intro hr
              cases hr
              exact ⟨mats', rfl, hsc⟩
  obtain ⟨mats', hr', hsc⟩ := key
  have fin : finishDeck e.fuel e.io cosDeg e.sqrt quick { d with materials := mats' } = finishDeck e.fuel e.io cosDeg e.sqrt quick d := by
    unfold finishDeck
    simp only
    cases hflat : flatten e.io cosDeg e.sqrt d.cells d.surfaces d.last with
    | error x => rfl
    | ok r =>
      obtain ⟨cells1, surfs1, last1⟩ := r
      simp only
      cases hnots : explodeNots e.fuel cells1 with
      | none => rfl
      | some r =>
        cases r with
        | error x => rfl
        | ok cells2 =>
          simp only
          cases applySurfaceTransformations d.transforms surfs1 with
          | error x => rfl
          | ok surfs2 =>
            cases hfill : applyUniverseTransformations d.transforms cells2 with
            | error x => rfl
            | ok cells3 =>
              have hleg := file_legal hf
              have h1 := flatten_file hio hleg ha hs hlast hg hflat
              have h0 : List.Forall₂ FilledAs f.cells d.cells := by
                refine forall₂_imp (fun a b k => ?_) ha.cells
                have := k.content
                unfold FilledAs
                cases hx : a.content with
                | none => rw [hx] at this; exact this.1
                | some mx => rw [hx] at this; exact this.1
              have h2 : List.Forall₂ FilledAs f.cells cells1 := forall₂_trans (fun a b c k1 k2 => by unfold FilledAs; rw [k2.1]; exact k1) h0 h1
              have h3 : List.Forall₂ FilledAs f.cells cells2 := forall₂_trans (fun a b c k1 k2 => by unfold FilledAs; rw [k2]; exact k1) h2 (nots_fields hnots)
              have h4 : List.Forall₂ FilledAs f.cells cells3 := forall₂_trans (fun a b c k1 k2 => by unfold FilledAs; rw [k2.1]; exact k1) h3 (universe_fields hfill)
              have hint : ∀ c ∈ cells3, ∃ z, c.material = .int z := by
                intro b hb
                obtain ⟨a, -, k1⟩ := forall₂_exists_right h4 hb
                rw [k1]
                cases a.content with
                | none => exact ⟨_, rfl⟩
                | some mx => exact ⟨_, rfl⟩
              obtain ⟨b3, hb3, k3⟩ := forall₂_exists_left h4 hc
              unfold FilledAs at k3
              rw [hm] at k3
              simp only [bind, Except.bind]
              rw [reorganise_scaled hsc hint hb3 k3 ((hleg c hc).2 m x hm).ne']
  unfold convert processDeck
  rw [hr, hr']
  simp only
  rw [fin]

end

private def env : Env ℚ :=
  { fuel := 100, io := mixedIO, fixed := formatF, sci := formatF, sci4 := fun x => (mixedIO.render x).take 10, sci3 := formatF, sqrt := id, degAtan := id, orderStr := id, orderInt := id }

/-- With void cells only, the fractions are written as they are on the card. -/
theorem C118_refuted :
    (convert env id true (some [c!"mcnp"]) c!"title\n1 0 -1 imp:n=1\n2 0 1 imp:n=0\n\n1 so 3\n\nm1 1001 2.0\n     8016 1.0\n").run =
      .ok (some [(.mcnp, .text c!"C cell definitions\n1 0 -1 IMP:N=1.0\n2 0 1 IMP:N=0.0\n\nC surface definitions\n1 s 0.0 0.0 0.0 3.0\n\nC material definitions\nC Material M1\nM1     1001 2.0\n     8016 1.0\n")]) ∧
    (convert env id true (some [c!"mcnp"]) c!"title\n1 0 -1 imp:n=1\n2 0 1 imp:n=0\n\n1 so 3\n\nm1 1001 4.0\n     8016 2.0\n").run =
      .ok (some [(.mcnp, .text c!"C cell definitions\n1 0 -1 IMP:N=1.0\n2 0 1 IMP:N=0.0\n\nC surface definitions\n1 s 0.0 0.0 0.0 3.0\n\nC material definitions\nC Material M1\nM1     1001 4.0\n     8016 2.0\n")]) :=
  ⟨by decide +kernel, by decide +kernel⟩

/-! ## Two files that meet the hypotheses -/

private def card (second : Bool) : List Str := if second then [c!"m1 1001.70c 7.5 8016 2.5\n"] else [c!"m1 1001.70c 3.0\n", c!"     8016 1.0\n"]

private def text (second : Bool) : Str := c!"title\n1 1 -7 -1 imp:n=1\n2 0 1 imp:n=0\n\n1 so 3\n\nm2 8016 1.0\n" ++ (card second).flatten ++ c!"m3 8017 1.0\n"

private def said : InputFile ℚ :=
  { cells := [⟨1, some (1, -7), c!"-1 ", [.importance c!"1"]⟩, ⟨2, none, c!"1 ", [.importance c!"0"]⟩]
    surfaces := [⟨1, none, c!"so", [3]⟩]
    data := [.material 2 [(c!"8016", c!"1.0")] [1], .material 1 [(c!"1001.70c", c!"3.0"), (c!"8016", c!"1.0")] [3, 1], .material 3 [(c!"8017", c!"1.0")] [1]] }

private def saidCells : List (List Str) := [[c!"1 1 -7 -1 imp:n=1\n"], [c!"2 0 1 imp:n=0\n"]]
private def saidSurfaces : List (List Str) := [[c!"1 so 3\n"]]
private def saidData : List (List Str) := [[c!"m2 8016 1.0\n"], [c!"m1 1001.70c 3.0\n", c!"     8016 1.0\n"], [c!"m3 8017 1.0\n"]]

private theorem said_layout : Layout (text false) c!"title\n" saidCells saidSurfaces saidData where
  lines := ⟨saidCells.flatten ++ c!"\n" :: saidSurfaces.flatten ++ c!"\n" :: saidData.flatten, c!"\n", c!"\n", by decide +kernel,
    fun l hl => line_of (by revert l; decide +kernel), fun l hl => comment_iff (by revert l; decide +kernel) (by revert l; decide +kernel), by decide +kernel, by unfold BlankLine; decide, by unfold BlankLine; decide⟩
  noMessage := fun a b e => by
    have := (hasInfix_iff _ _).2 ⟨a, b, e⟩
    revert this
    decide +kernel
  cards := by
    intro g hg
    simp only [saidCells, saidSurfaces, List.cons_append, List.nil_append, List.mem_cons, List.not_mem_nil, or_false] at hg
    rcases hg with rfl | rfl | rfl <;> exact ⟨_, _, rfl, not_five (by decide), fun l hl => five (by revert l; decide), by decide +kernel⟩
  dataCards := by
    intro g hg
    simp only [saidData, List.mem_cons, List.not_mem_nil, or_false] at hg
    rcases hg with rfl | rfl | rfl <;>
      exact ⟨_, _, rfl, not_five (by decide), fun l hl => five (by revert l; decide), fun l hl => (line_of (l := l) (by revert l; decide)).imp fun _ h => ⟨h.1, .inr h.2⟩⟩

private theorem lex1 : lexGeometry c!"-1 " = [.atom c!"-1"] := by decide +kernel
private theorem lex2 : lexGeometry c!"1 " = [.atom c!"1"] := by decide +kernel

private theorem reads1 : MaterialCardReads env.io (card false) c!"1" [(c!"1001.70c", c!"3.0"), (c!"8016", c!"1.0")] [3, 1] :=
  ⟨⟨_, _, rfl, by decide, by decide, 0, c!" 1001.70c 3.0\n", by decide, by decide⟩, by decide +kernel, .cons (by decide +kernel) (.cons (by decide +kernel) .nil)⟩

private theorem reads2 : MaterialCardReads env.io (card true) c!"1" [(c!"1001.70c", c!"7.5"), (c!"8016", c!"2.5")] ([3, 1].map (5 / 2 * ·)) :=
  ⟨⟨_, _, rfl, by decide, by decide, 0, c!" 1001.70c 7.5 8016 2.5\n", by decide, by decide⟩, by decide +kernel, .cons (by decide +kernel) (.cons (by decide +kernel) .nil)⟩

private theorem is_said : FileSays env.io (text false) said where
  layout := by
    refine ⟨_, _, _, _, said_layout, .cons ?_ (.cons ?_ .nil), .cons ?_ .nil, .cons ?_ (.cons ?_ (.cons ?_ .nil))⟩
    · refine ⟨⟨c!"1 1 -7", c!"1", c!"1", some c!"-7", [(.importance c!"1", c!"imp:n=1", c!"\n")], by decide, .inr ⟨?_, by decide, by decide, by decide⟩, rfl, by decide +kernel, by decide +kernel,
        ⟨by decide +kernel, by decide, c!"-7", rfl, by decide +kernel⟩, by decide, by decide⟩, ?_, ?_, ?_⟩
      · intro e he
        obtain rfl := List.mem_singleton.1 he
        exact ⟨.importance c!"1" c!"=" (by unfold EqualsSign; decide) (.whole [] c!"1" (by decide) (by decide) (by decide)), by decide⟩
      · simp only
        rw [lex1]
        exact ⟨_, .one (.single (.atom _))⟩
      · intro v hv
        have : v = c!"1" := by simpa using hv
        subst this
        exact ⟨1, by decide +kernel⟩
      · intro v t hv
        simp at hv
    · refine ⟨⟨c!"2 0", c!"2", c!"0", none, [(.importance c!"0", c!"imp:n=0", c!"\n")], by decide, .inr ⟨?_, by decide, by decide, by decide⟩, rfl, by decide +kernel, by decide +kernel,
        ⟨by decide +kernel, rfl⟩, by decide, by decide⟩, ?_, ?_, ?_⟩
      · intro e he
        obtain rfl := List.mem_singleton.1 he
        exact ⟨.importance c!"0" c!"=" (by unfold EqualsSign; decide) (.whole [] c!"0" (by decide) (by decide) (by decide)), by decide⟩
      · simp only
        rw [lex2]
        exact ⟨_, .one (.single (.atom _))⟩
      · intro v hv
        have : v = c!"0" := by simpa using hv
        subst this
        exact ⟨0, by decide +kernel⟩
      · intro v t hv
        simp at hv
    · exact .inl ⟨[c!"3"], ⟨c!"1", by decide +kernel, by decide, ⟨c!"1 so 3\n", [], .inl (by decide +kernel), by decide, by decide +kernel⟩, by decide +kernel⟩, by unfold Reads; decide +kernel, .inl ⟨.so, by decide, by decide +kernel⟩⟩
    · refine ⟨⟨⟨_, _, rfl, by decide, by decide, 0, c!" 8016 1.0\n", by decide, by decide⟩, by decide +kernel, .cons (by decide +kernel) .nil⟩, ?_, ?_⟩
      · intro l hl
        cases hl
      · intro _ l hl
        exact not_imp (by revert l; decide +kernel)
    · refine ⟨reads1, ?_, ?_⟩
      · intro l hl
        obtain rfl := List.mem_singleton.1 hl
        exact not_looks (by intro d t h; revert h; simp [List.dropWhile])
      · intro _ l hl
        exact not_imp (by revert l; decide +kernel)
    · refine ⟨⟨⟨_, _, rfl, by decide, by decide, 0, c!" 8017 1.0\n", by decide, by decide⟩, by decide +kernel, .cons (by decide +kernel) .nil⟩, ?_, ?_⟩
      · intro l hl
        cases hl
      · intro _ l hl
        exact not_imp (by revert l; decide +kernel)
  materials := by decide
  transforms := by decide
  importances := by decide
  last := ⟨_, _, show _ = [_, _] ++ [_] from rfl, by intro n d v; simp, by intro v; simp⟩

private theorem blocks (second : Bool) : Blocks (text second) c!"title\n" saidCells.flatten saidSurfaces.flatten ([c!"m2 8016 1.0\n"] ++ (card second ++ [c!"m3 8017 1.0\n"])) where
  lines := ⟨saidCells.flatten ++ c!"\n" :: saidSurfaces.flatten ++ c!"\n" :: ([c!"m2 8016 1.0\n"] ++ (card second ++ [c!"m3 8017 1.0\n"])), c!"\n", c!"\n", by revert second; decide +kernel,
    fun l hl => line_of (by revert second l; decide +kernel), by revert second; decide +kernel, by unfold BlankLine; decide, by unfold BlankLine; decide⟩
  noMessage := fun a b e => by
    have := (hasInfix_iff c!"message" _).2 ⟨a, b, e⟩
    revert this
    decide +kernel
  cards := by decide +kernel

/-- The hypotheses of `C118_partial`, with the factor 5/2, and the file that both runs write (`mixedIO` writes 3/4 as `3e4`). -/
example : Exact env.io ∧ FileSays env.io (text false) said ∧ ReadableGeometry env.sqrt said ∧ (∃ c ∈ said.cells, c.content = some (1, -7)) ∧ ProportionalCards env.io c!"1" (5 / 2) (card false) (card true) ∧
    (∀ second, Blocks (text second) c!"title\n" saidCells.flatten saidSurfaces.flatten ([c!"m2 8016 1.0\n"] ++ (card second ++ [c!"m3 8017 1.0\n"]))) ∧ BeginCard [c!"m3 8017 1.0\n"] ∧
    ∃ out, (convert env id true (some [c!"mcnp"]) (text false)).run = .ok (some [(.mcnp, .text out)]) ∧ (convert env id true (some [c!"mcnp"]) (text true)).run = .ok (some [(.mcnp, .text out)]) := by
  refine ⟨mixed_exact, is_said, ⟨⟨by decide, by decide⟩, fun s hs ty hty => ?_, fun c hc w hw => ?_⟩, ⟨_, List.mem_cons_self, rfl⟩, ⟨fun g hg => ?_, fun l hl => not_imp (by revert l; decide +kernel), fun l hl => ?_, _, _, _, reads1, reads2, by decide⟩, blocks, ?_,
    c!"C cell definitions\n1 1 -7.0 -1 IMP:N=1.0\n2 0 1 IMP:N=0.0\n\nC surface definitions\n1 s 0.0 0.0 0.0 3.0\n\nC material definitions\nC Material M1\nM1     1001 3e4\n     8016 1e4\nC Material M2\nM2     8016 1.0\nC Material M3\nM3     8017 1.0\n", by decide +kernel, by decide +kernel⟩
  · obtain rfl := List.mem_singleton.1 hs
    cases hty
  · simp only [said, List.mem_cons, List.not_mem_nil, or_false] at hc
    rcases hc with rfl | rfl
    · simp only at hw
      rw [lex1] at hw
      simp only [List.mem_cons, Sym.atom.injEq, List.not_mem_nil, or_false] at hw
      subst hw
      exact .inr (.inl ⟨_, List.mem_singleton.2 rfl, .inr (by decide +kernel)⟩)
    · simp only at hw
      rw [lex2] at hw
      simp only [List.mem_cons, Sym.atom.injEq, List.not_mem_nil, or_false] at hw
      subst hw
      exact .inr (.inl ⟨_, List.mem_singleton.2 rfl, .inl (by decide +kernel)⟩)
  · simp only [List.mem_cons, List.not_mem_nil, or_false] at hg
    rcases hg with rfl | rfl <;>
      exact ⟨_, _, rfl, not_five (by decide), fun l hl => five (by revert l; decide), fun l hl => (line_of (l := l) (by revert l; decide)).imp fun _ h => ⟨h.1, .inr h.2⟩⟩
  · obtain rfl : l = c!"     8016 1.0\n" := by simpa [card] using hl
    exact not_looks (by intro d t h; revert h; simp [List.dropWhile])
  · intro l hl
    cases hl
    exact not_five (by decide)

end Csg
