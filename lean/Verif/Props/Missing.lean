import Verif.Lemmas.Missing
import Verif.Model.Outputs
import Verif.Lemmas.Outputs
import Verif.Lemmas.FormatE
import Verif.Lemmas.MixedIO

/-!
# C115: references to cards that are missing

`C115_material_partial`, `C115_fill_partial` and `C115_complement_partial`: nothing is written if a material, the TR card of a fill or a cell in a complement is missing. The refutations below show the references that are not checked.
-/

set_option linter.unusedSectionVars false

namespace Csg

open Spec

section
variable {K : Type} [Field K] [LinearOrder K] [IsStrictOrderedRing K]

private theorem no_output {e : Env K} {cosDeg : K → K} {quick : Bool} {output : Option (List Str)} {text : Str} {d : Deck K} (hr : readDeck e.io cosDeg (readText text) = .ok d)
    (h : ∀ d', finishDeck e.fuel e.io cosDeg e.sqrt quick d ≠ some (.ok d')) : ∀ outs, ¬ Returns (convert e cosDeg quick output text) outs := by
  intro outs ho
  unfold convert at ho
  obtain ⟨d', h1, -⟩ := (returns_bind _ _ _).1 ho
  refine h d' ?_
  unfold Returns processDeck at h1
  rw [hr] at h1
  revert h1
  simp only [OptionT.run_mk]
  cases hf : finishDeck e.fuel e.io cosDeg e.sqrt quick d with
  | none => intro h1; cases h1
  | some r =>
    cases r with
    | error x => intro h1; cases h1
    | ok d'' => intro h1; cases h1; rfl

/-- Material and density as on the card. -/
private def Filled (a : CellEntry K) (b : Cell K) : Prop :=
  b.material = (match a.content with | none => .int 0 | some (m, _) => .int m) ∧ ∀ m x, a.content = some (m, x) → b.density = x

variable (e : Env K) (hio : Exact e.io) (cosDeg : K → K) (quick : Bool) (output : Option (List Str)) (text : Str) (f : InputFile K) (h : FileSays e.io text f) (hg : ReadableGeometry e.sqrt f)
include hio h hg

/-- C115 for materials, in part: if a cell names a material without a card, then nothing is written for any code, whatever the options, if each material with a smaller number is used with one density only. Missing: other files, see `C115_refuted_material`. -/
theorem C115_material_partial (c : CellEntry K) (hc : c ∈ f.cells) (m : Int) (x : K) (hm : c.content = some (m, x)) (hmiss : ∀ n ∈ f.materials.map Prod.fst, (n : Int) ≠ m)
    (hone : ∀ c1 ∈ f.cells, ∀ c2 ∈ f.cells, ∀ n x1 x2, c1.content = some (n, x1) → c2.content = some (n, x2) → n < m → x1 = x2) :
    ∀ outs, ¬ Returns (convert e cosDeg quick output text) outs := by
  obtain ⟨d, hr, ha, hs, hlast⟩ := read_file e.io cosDeg e.sqrt text f h
  have hleg := file_legal h
  refine no_output hr fun d' hd => ?_
  obtain ⟨cells1, cells2, cells3, cells4, cells5, surfs1, surfs2, surfs3, surfs4, r⟩ := finishDeck_run hd
  have h1 := flatten_file hio hleg ha hs hlast hg r.flat
  have h0 : List.Forall₂ Filled f.cells d.cells := by
    refine forall₂_imp (fun a b k => ?_) ha.cells
    have := k.content
    unfold Filled
    cases hx : a.content with
    | none => rw [hx] at this; exact ⟨this.1, fun _ _ e1 => by cases e1⟩
    | some mx =>
      rw [hx] at this
      exact ⟨this.1, fun _ _ e1 => by cases e1; exact this.2⟩
  have h2 : List.Forall₂ Filled f.cells cells1 := forall₂_trans (fun a b c k1 k2 => by unfold Filled; rw [k2.1]; exact k1) h0 h1
  have h3 : List.Forall₂ Filled f.cells cells2 := forall₂_trans (fun a b c k1 k2 => by unfold Filled; rw [k2]; exact k1) h2 (nots_fields r.nots)
  have hfields : List.Forall₂ Filled f.cells cells3 := forall₂_trans (fun a b c k1 k2 => by unfold Filled; rw [k2.1, k2.2]; exact k1) h3 (universe_fields r.fill)
  have hpos : ∀ b ∈ cells3, ∀ z, b.material = .int z → z ≠ 0 → ∃ a ∈ f.cells, a.content = some (z, b.density) := by
    intro b hb z hz h0
    obtain ⟨a, ham, k1, k2⟩ := forall₂_exists_right hfields hb
    cases hx : a.content with
    | none => rw [hx, hz] at k1; cases k1; exact absurd rfl h0
    | some mx =>
      obtain ⟨m', x'⟩ := mx
      rw [hx, hz] at k1
      cases k1
      exact ⟨a, ham, by rw [hx, k2 _ _ hx]⟩
  obtain ⟨b, hb, k1, k2⟩ := forall₂_exists_left hfields hc
  rw [hm] at k1
  refine reorganise_missing (fun b hb => ?_) hb k1 ((hleg c hc).2 m x hm).ne' ?_ (fun b1 hb1 b2 hb2 z hz1 hz2 h0 hlt => ?_) _ r.mats
  · obtain ⟨a, -, k1, -⟩ := forall₂_exists_right hfields hb
    rw [k1]
    cases a.content with
    | none => exact ⟨_, rfl⟩
    | some mx => exact ⟨_, rfl⟩
  · cases hl : d.materials.lookup (intStr m) with
    | none => rfl
    | some t =>
      exfalso
      obtain ⟨t', ht', e1⟩ := (ha.materials (intStr m)).1 (List.mem_map.2 ⟨_, mem_of_lookup hl, rfl⟩)
      exact hmiss t'.1 (List.mem_map.2 ⟨t', ht', rfl⟩) (@intStr_injective (t'.1 : Int) m e1.symm)
  · obtain ⟨a1, g1, g2⟩ := hpos b1 hb1 z hz1 h0
    obtain ⟨a2, j1, j2⟩ := hpos b2 hb2 z hz2 h0
    exact hone a1 g1 a2 j1 z _ _ g2 j2 hlt

/-- C115 for fills, in part: if a fill names a TR card that is missing, then nothing is written. Missing: universes that fill a cell and have no cell, see `C115_refuted_universe`. -/
theorem C115_fill_partial (c : CellEntry K) (hc : c ∈ f.cells) (degrees : Bool) (n : Nat) (hn : n ≠ 0) (hm : c.moves = some (degrees, [natStr n])) (hmiss : n ∉ f.transforms.map Prod.fst) :
    ∀ outs, ¬ Returns (convert e cosDeg quick output text) outs := by
  obtain ⟨d, hr, ha, hs, hlast⟩ := read_file e.io cosDeg e.sqrt text f h
  refine no_output hr fun d' hd => ?_
  obtain ⟨cells1, cells2, cells3, cells4, cells5, surfs1, surfs2, surfs3, surfs4, r⟩ := finishDeck_run hd
  have h1 := flatten_file hio (file_legal h) ha hs hlast hg r.flat
  obtain ⟨c0, hc0, k0⟩ := forall₂_exists_left ha.cells hc
  obtain ⟨c1, hc1, k1, -⟩ := forall₂_exists_left h1 hc0
  obtain ⟨c2, hc2, k2⟩ := forall₂_exists_left (nots_fields r.nots) hc1
  have htr : c2.trId = natStr n := by
    rw [k2, k1]
    rcases carries_moves k0.params with ⟨e1, -⟩ | ⟨d, ws, e1, e2, -⟩
    · rw [hm] at e1; cases e1
    · rw [hm] at e1
      cases e1
      exact (e2 _ rfl).1
  refine universe_missing hc2 ?_ ?_ _ r.fill
  · rw [htr]
    intro e1
    exact hn (natStr_injective (e1.trans (by decide : c!"0" = natStr 0)))
  · rw [htr]
    cases hl : d.transforms.lookup (natStr n) with
    | none => rfl
    | some t =>
      exfalso
      obtain ⟨t', ht', e1⟩ := (ha.transforms (natStr n)).1 (List.mem_map.2 ⟨_, mem_of_lookup hl, rfl⟩)
      exact hmiss (List.mem_map.2 ⟨t', ht', (natStr_injective e1).symm⟩)

/-- C115 for complements: let each of some cells have a complement `#n` of a cell that is missing or is one of these cells. If there is such a cell, then nothing is written: an exception is raised, or, if no cell is missing, the program does not end. -/
theorem C115_complement (S : Int → Prop) (hS : ∀ c ∈ f.cells, S c.number → ∃ n : Nat, Sym.atom (refWord n) ∈ lexGeometry c.geometry ∧ (S n ∨ ∀ c' ∈ f.cells, c'.number ≠ n))
    (c : CellEntry K) (hc : c ∈ f.cells) (hSc : S c.number) : ∀ outs, ¬ Returns (convert e cosDeg quick output text) outs := by
  obtain ⟨d, hr, ha, hs, hlast⟩ := read_file e.io cosDeg e.sqrt text f h
  refine no_output hr fun d' hd => ?_
  obtain ⟨cells1, cells2, cells3, cells4, cells5, surfs1, surfs2, surfs3, surfs4, r⟩ := finishDeck_run hd
  have h1 := flatten_file hio (file_legal h) ha hs hlast hg r.flat
  have hid : List.Forall₂ (fun (a : CellEntry K) b => b.id = a.number ∧ ∀ n, Sym.atom (refWord n) ∈ lexGeometry a.geometry → .str (refWord n) ∈ b.interpreted) f.cells cells1 := by
    refine forall₂_trans (fun a b c k1 k2 => ⟨by rw [k2.1]; exact k1.number, fun n hn => ?_⟩) ha.cells h1
    rw [← k1.region.1] at hn
    obtain ⟨t, ht, e1⟩ := List.mem_map.1 hn
    obtain rfl := tokenSym_eq_atom e1
    exact k2.2 n ht
  have hst : Stuck S cells1 := by
    intro b hb hSb
    obtain ⟨a, ha', k1, k2⟩ := forall₂_exists_right hid hb
    obtain ⟨n, h2, h3⟩ := hS a ha' (k1 ▸ hSb)
    refine ⟨n, h3.imp id fun h3 b' hb' => ?_, k2 n h2⟩
    obtain ⟨a', ha'', k3, -⟩ := forall₂_exists_right hid hb'
    rw [k3]
    exact h3 a' ha''
  obtain ⟨b, hb, k1, -⟩ := forall₂_exists_left hid hc
  exact stuck_nots hst r.nots b hb (k1 ▸ hSc)

/-- C115 for one complement: if a cell has a complement `#n` of a cell that is missing, and no other cell has its number, then nothing is written. -/
theorem C115_missing_cell (c : CellEntry K) (hc : c ∈ f.cells) (hone : ∀ c' ∈ f.cells, c'.number = c.number → c' = c) (n : Nat) (hn : Sym.atom (refWord n) ∈ lexGeometry c.geometry) (hmiss : ∀ c' ∈ f.cells, c'.number ≠ n) :
    ∀ outs, ¬ Returns (convert e cosDeg quick output text) outs :=
  C115_complement e hio cosDeg quick output text f h hg (· = c.number) (fun c' hc' e1 => ⟨n, by rw [hone c' hc' e1]; exact hn, .inr hmiss⟩) c hc rfl

end

private def env : Env ℚ :=
  { fuel := 100, io := mixedIO, fixed := formatF, sci := formatF, sci4 := fun x => (mixedIO.render x).take 10, sci3 := formatF, sqrt := id, degAtan := id, orderStr := id, orderInt := id }

/-! ## A file in which a material, a TR card and a cell are missing -/

private def text : Str := c!"title\n1 2 -7 #4 -1 fill=3 (5) imp:n=1\n2 0 1 imp:n=0\n\n1 so 9\n\nm1 1001 1.0\n"

private def said : InputFile ℚ :=
  { cells := [⟨1, some (2, -7), c!"#4 -1 ", [.fill false c!"3" (some c!"5"), .importance c!"1"]⟩, ⟨2, none, c!"1 ", [.importance c!"0"]⟩]
    surfaces := [⟨1, none, c!"so", [9]⟩]
    data := [.material 1 [(c!"1001", c!"1.0")] [1]] }

private def saidCells : List (List Str) := [[c!"1 2 -7 #4 -1 fill=3 (5) imp:n=1\n"], [c!"2 0 1 imp:n=0\n"]]
private def saidSurfaces : List (List Str) := [[c!"1 so 9\n"]]
private def saidData : List (List Str) := [[c!"m1 1001 1.0\n"]]

private theorem said_layout : Layout text c!"title\n" saidCells saidSurfaces saidData where
  lines := ⟨[c!"1 2 -7 #4 -1 fill=3 (5) imp:n=1\n", c!"2 0 1 imp:n=0\n", c!"\n", c!"1 so 9\n", c!"\n", c!"m1 1001 1.0\n"], c!"\n", c!"\n", by decide +kernel,
    fun l hl => line_of (by revert l; decide +kernel), fun l hl => comment_iff (by revert l; decide +kernel) (by revert l; decide +kernel), by decide +kernel, by unfold BlankLine; decide, by unfold BlankLine; decide⟩
  noMessage := fun a b e => by
    have := (hasInfix_iff _ _).2 ⟨a, b, e⟩
    revert this
    decide +kernel
  cards := by
    intro g hg
    simp only [saidCells, saidSurfaces, List.cons_append, List.nil_append, List.mem_cons, List.not_mem_nil, or_false] at hg
    rcases hg with rfl | rfl | rfl <;> exact ⟨_, _, rfl, not_five (by decide), fun l hl => five (by revert l; decide), by decide +kernel⟩
  dataCards := by
    intro g hg
    simp only [saidData, List.mem_cons, List.not_mem_nil, or_false] at hg
    subst hg
    exact ⟨_, _, rfl, not_five (by decide), fun l hl => five (by revert l; decide), fun l hl => (line_of (l := l) (by revert l; decide)).imp fun _ h => ⟨h.1, .inr h.2⟩⟩

private theorem lex1 : lexGeometry c!"#4 -1 " = [.atom c!"#4"] ++ [.atom c!"-1"] := by decide +kernel
private theorem lex2 : lexGeometry c!"1 " = [.atom c!"1"] := by decide +kernel

private theorem is_said : FileSays env.io text said where
  layout := by
    refine ⟨_, _, _, _, said_layout, .cons ?_ (.cons ?_ .nil), .cons ?_ .nil, .cons ?_ .nil⟩
    · refine ⟨⟨c!"1 2 -7", c!"1", c!"2", some c!"-7", [(.fill false c!"3" (some c!"5"), c!"fill=3 (5)", c!" "), (.importance c!"1", c!"imp:n=1", c!"\n")], by decide, .inr ⟨?_, by decide, by decide, by decide⟩, rfl, by decide +kernel, by decide +kernel,
        ⟨by decide +kernel, by decide, c!"-7", rfl, by decide +kernel⟩, by decide, by decide⟩, ?_, ?_, ?_⟩
      · intro e he
        simp only [List.mem_cons, List.not_mem_nil, or_false] at he
        rcases he with rfl | rfl
        · exact ⟨.filled false c!"3" c!"=" c!" " c!"5" (by unfold EqualsSign; decide) (.whole [] c!"3" (by decide) (by decide) (by decide)) (by decide) (by unfold NumberChar; decide), by decide⟩
        · exact ⟨.importance c!"1" c!"=" (by unfold EqualsSign; decide) (.whole [] c!"1" (by decide) (by decide) (by decide)), by decide⟩
      · simp only
        rw [lex1]
        exact ⟨_, .one (.inter (.single (.atom _)) (.atom _))⟩
      · intro v hv
        have : v = c!"1" := by simpa using hv
        subst this
        exact ⟨1, by decide +kernel⟩
      · intro v t hv
        simp at hv
    · refine ⟨⟨c!"2 0", c!"2", c!"0", none, [(.importance c!"0", c!"imp:n=0", c!"\n")], by decide, .inr ⟨?_, by decide, by decide, by decide⟩, rfl, by decide +kernel, by decide +kernel,
        ⟨by decide +kernel, rfl⟩, by decide, by decide⟩, ?_, ?_, ?_⟩
      · intro e he
        obtain rfl := List.mem_singleton.1 he
        exact ⟨.importance c!"0" c!"=" (by unfold EqualsSign; decide) (.whole [] c!"0" (by decide) (by decide) (by decide)), by decide⟩
      · simp only
        rw [lex2]
        exact ⟨_, .one (.single (.atom _))⟩
      · intro v hv
        have : v = c!"0" := by simpa using hv
        subst this
        exact ⟨0, by decide +kernel⟩
      · intro v t hv
        simp at hv
    · exact .inl ⟨[c!"9"], ⟨c!"1", by decide +kernel, by decide, ⟨c!"1 so 9\n", [], .inl (by decide +kernel), by decide, by decide +kernel⟩, by decide +kernel⟩, by unfold Reads; decide +kernel, .inl ⟨.so, by decide, by decide +kernel⟩⟩
    · refine ⟨⟨⟨_, _, rfl, by decide, by decide, 0, c!" 1001 1.0\n", by decide, by decide⟩, by decide +kernel, .cons (by decide +kernel) .nil⟩, ?_, ?_⟩
      · intro l hl
        cases hl
      · intro _ l hl
        exact not_imp (by revert l; decide +kernel)
  materials := by decide
  transforms := by decide
  importances := by decide
  last := ⟨[], _, rfl, by intro n d v; simp, by intro v; simp⟩

/-- The hypotheses of `C115_material_partial`, `C115_fill_partial`, `C115_complement` and `C115_missing_cell`, for the first cell. -/
example : Exact env.io ∧ FileSays env.io text said ∧ ReadableGeometry env.sqrt said ∧
    ∃ c ∈ said.cells, (c.content = some (2, -7) ∧ ∀ n ∈ said.materials.map Prod.fst, (n : Int) ≠ 2) ∧ (∀ c1 ∈ said.cells, ∀ n x1, c1.content = some (n, x1) → ¬ n < 2) ∧
      (c.moves = some (false, [natStr 5]) ∧ 5 ∉ said.transforms.map Prod.fst) ∧
      (∀ c' ∈ said.cells, c'.number = c.number → c' = c) ∧ Sym.atom (refWord 4) ∈ lexGeometry c.geometry ∧ ∀ c' ∈ said.cells, c'.number ≠ (4 : Nat) := by
  have h4 : refWord 4 = c!"#4" := by decide +kernel
  refine ⟨mixed_exact, is_said, ⟨⟨by decide, by decide⟩, fun s hs ty hty => ?_, fun c hc w hw => ?_⟩, ⟨1, some (2, -7), c!"#4 -1 ", [.fill false c!"3" (some c!"5"), .importance c!"1"]⟩, by simp [said], ⟨rfl, by decide⟩, ?_, ⟨by decide +kernel, by decide⟩, ?_, ?_, by decide⟩
  · obtain rfl := List.mem_singleton.1 hs
    cases hty
  · simp only [said, List.mem_cons, List.not_mem_nil, or_false] at hc
    rcases hc with rfl | rfl
    · simp only at hw
      rw [lex1] at hw
      simp only [List.cons_append, List.nil_append, List.mem_cons, Sym.atom.injEq, List.not_mem_nil, or_false] at hw
      rcases hw with rfl | rfl
      · exact .inl ⟨4, h4.symm⟩
      · exact .inr (.inl ⟨_, List.mem_singleton.2 rfl, .inr (by decide +kernel)⟩)
    · simp only at hw
      rw [lex2] at hw
      simp only [List.mem_cons, Sym.atom.injEq, List.not_mem_nil, or_false] at hw
      subst hw
      exact .inr (.inl ⟨_, List.mem_singleton.2 rfl, .inl (by decide +kernel)⟩)
  · intro c hc n x hx
    simp only [said, List.mem_cons, List.not_mem_nil, or_false] at hc
    rcases hc with rfl | rfl <;> cases hx
    decide
  · intro c hc e
    simp only [said, List.mem_cons, List.not_mem_nil, or_false] at hc
    rcases hc with rfl | rfl
    · rfl
    · cases e
  · simp only
    rw [lex1, h4]
    simp

/-! ## References that are not checked -/

/-- Material 1 is used with the densities -7 and -8, and there is no material 2. The copy of material 1 for the second density gets number 2. So cell 3 is written with the composition of material 1; and the copy gets the density of cell 3, which
in Serpent is then that of cell 2 too. -/
theorem C115_refuted_material :
    (convert env id true (some [c!"mcnp"]) c!"title\n1 1 -7 -1 imp:n=1\n2 1 -8 1 -2 imp:n=1\n3 2 -9 2 -3 imp:n=1\n4 0 3 imp:n=0\n\n1 so 1\n2 so 2\n3 so 3\n\nm1 1001 1.0\n").run = .ok (some [(.mcnp, .text c!"C cell definitions\n1 1 -7.0 -1 IMP:N=1.0\n2 2 -8.0 1 -2 IMP:N=1.0\n3 2 -9.0 2 -3 IMP:N=1.0\n4 0 3 IMP:N=0.0\n\nC surface definitions\n1 s 0.0 0.0 0.0 1.0\n2 s 0.0 0.0 0.0 2.0\n3 s 0.0 0.0 0.0 3.0\n\nC material definitions\nC Material M1\nM1     1001 1.0\nC Material Copy of Material 1 with density -8.0\nM2     1001 1.0\n")]) ∧
    (convert env id true (some [c!"serpent"]) c!"title\n1 1 -7 -1 imp:n=1\n2 1 -8 1 -2 imp:n=1\n3 2 -9 2 -3 imp:n=1\n4 0 3 imp:n=0\n\n1 so 1\n2 so 2\n3 so 3\n\nm1 1001 1.0\n").run = .ok (some [(.serpent, .text c!"% --- surface definitions --- %\nsurf 1 sph 0.0 0.0 0.0 1.0\nsurf 2 sph 0.0 0.0 0.0 2.0\nsurf 3 sph 0.0 0.0 0.0 3.0\n% --- cell definitions --- %\ncell 1 0 1 ( -1 ) \ncell 2 0 2 ( 1 -2 ) \ncell 3 0 2 ( 2 -3 ) \ncell 4 0 void ( 3 ) \n% --- material definitions --- %\n% M1\nmat 1 -7.0\n1001 1.000000 \n% Copy of Material 1 with density -8.0\nmat 2 -9.0\n1001 1.000000 \n")]) :=
  ⟨by decide +kernel, by decide +kernel⟩

/-- Cell 1 names surface 5, which is missing: the cell is written with it, and no error is raised. -/
theorem C115_refuted_surface :
    (convert env id true (some [c!"mcnp"]) c!"title\n1 1 -7 -1 5 imp:n=1\n2 0 1 imp:n=0\n\n1 so 1\n\nm1 1001 1.0\n").run = .ok (some [(.mcnp, .text c!"C cell definitions\n1 1 -7.0 -1 5 IMP:N=1.0\n2 0 1 IMP:N=0.0\n\nC surface definitions\n1 s 0.0 0.0 0.0 1.0\n\nC material definitions\nC Material M1\nM1     1001 1.0\n")]) := by decide +kernel

/-- Surface 1 names TR card 4, which is missing: only a message is printed, and the sphere is written where it was, as a general quadric. -/
theorem C115_refuted_transform :
    (convert env id true (some [c!"mcnp"]) c!"title\n1 1 -7 -1 imp:n=1\n2 0 1 imp:n=0\n\n1 4 so 1\n\nm1 1001 1.0\n").run = .ok (some [(.mcnp, .text c!"C cell definitions\n1 1 -7.0 -1 IMP:N=1.0\n2 0 1 IMP:N=0.0\n\nC surface definitions\n1 gq 1.0 1.0 1.0 0.0 0.0 0.0 0.0 0.0 0.0 -1.0\n\nC material definitions\nC Material M1\nM1     1001 1.0\n")]) := by decide +kernel

/-- Cell 1 is filled with universe 5, in which there is no cell: the fill is written. -/
theorem C115_refuted_universe :
    (convert env id true (some [c!"mcnp"]) c!"title\n1 0 -1 fill=5 imp:n=1\n2 0 1 imp:n=0\n\n1 so 1\n\nm1 1001 1.0\n").run = .ok (some [(.mcnp, .text c!"C cell definitions\n1 0 -1 fill=5  IMP:N=1.0\n2 0 1 IMP:N=0.0\n\nC surface definitions\n1 s 0.0 0.0 0.0 1.0\n\nC material definitions\nC Material M1\nM1     1001 1.0\n")]) := by decide +kernel

end Csg
