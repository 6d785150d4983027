import Verif.Lemmas.McnpFile
import Verif.Props.McnpCellBack
import Verif.Props.McnpMaterialText
import Verif.Props.SurfaceCards

/-!
# A written MCNP file is read back: C83
-/

set_option linter.unusedSectionVars false

namespace Csg

open Spec

theorem exists_forall₂ {α β : Type} {R : α → β → Prop} {xs : List α} (h : ∀ x ∈ xs, ∃ y, R x y) : ∃ ys, List.Forall₂ R xs ys := by
  induction xs with
  | nil => exact ⟨[], .nil⟩
  | cons x xs ih =>
    obtain ⟨y, hy⟩ := h x (by simp)
    obtain ⟨ys, hys⟩ := ih fun x hx => h x (List.mem_cons_of_mem _ hx)
    exact ⟨y :: ys, .cons hy hys⟩

/-- What the writer and the reader do with one card of a block. -/
def WritesCard {α β : Type} (write : Nat → α → Py (Option Str)) (parse : Str → Py β) (R : α → β → Prop) (x : α) (g : List Str) : Prop :=
  (∃ fuel₀, ∀ fuel ≥ fuel₀, write fuel x = .ok (some g.flatten)) ∧ FileCard (g.map lower) ∧ (∀ l ∈ g, ∃ t, '\n' ∉ t ∧ l = t ++ ['\n']) ∧
    ∃ y, parse (lower g.flatten) = .ok y ∧ R x y

/-- What the writer and the reader do with all cards of a block. -/
theorem written_cards {α β : Type} {write : Nat → α → Py (Option Str)} {parse : Str → Py β} {R : α → β → Prop} {xs : List α} {gs : List (List Str)}
    (h : List.Forall₂ (WritesCard write parse R) xs gs) :
    (∃ fuel₀, ∀ fuel ≥ fuel₀, Returns (cards (write fuel) xs) gs.flatten.flatten) ∧ (∀ g ∈ gs, FileCard (g.map lower)) ∧
      (∀ l ∈ gs.flatten, ∃ t, '\n' ∉ t ∧ l = t ++ ['\n']) ∧
      ∃ ys, ((gs.map (List.map lower)).map List.flatten).mapM parse = .ok ys ∧ List.Forall₂ R xs ys := by
  induction h with
  | nil => exact ⟨⟨0, fun fuel _ => (returns_cards _ _ _).2 ⟨[], .nil, rfl⟩⟩, by simp, by simp, [], rfl, .nil⟩
  | @cons x g xs gs hx hxs ih =>
    obtain ⟨⟨f1, h1⟩, h2, h3, y, h4, h5⟩ := hx
    obtain ⟨⟨f2, k1⟩, k2, k3, ys, k4, k5⟩ := ih
    refine ⟨⟨max f1 f2, fun fuel hfu => ?_⟩, ?_, ?_, y :: ys, ?_, .cons h5 k5⟩
    · obtain ⟨ts, ht, e⟩ := (returns_cards _ _ _).1 (k1 fuel (by omega))
      exact (returns_cards _ _ _).2 ⟨g.flatten :: ts, .cons (h1 fuel (by omega)) ht, by rw [List.flatten_cons, List.flatten_append, e, List.flatten_cons]⟩
    · intro g' hg'
      rcases List.mem_cons.1 hg' with rfl | hg'
      · exact h2
      · exact k2 g' hg'
    · intro l hl
      rw [List.flatten_cons] at hl
      rcases List.mem_append.1 hl with hl | hl
      · exact h3 l hl
      · exact k3 l hl
    · rw [List.map_cons, List.map_cons, List.mapM_cons, flatten_map_lower, h4]
      simp only [bind, Except.bind, pure, Except.pure]
      rw [k4]

section
variable {K : Type} [Field K] [LinearOrder K]

theorem material_plain {io : NumIO K} {m : Material K} (hm : Printable io m) : ∀ l ∈ materialGroup io false m, 'i' ∉ l ∧ isTransformLine l = false := by
  have hdig : ∀ {s : Str}, (∀ c ∈ s, isDigit c = true) → 'i' ∉ s := fun h hi => absurd (h 'i' hi) (by decide)
  have hn : ∀ e ∈ m.composition, 'i' ∉ nuclideLine io (extension false m) e ∧ isTransformLine (nuclideLine io (extension false m) e) = false := by
    intro e he
    refine ⟨fun hi => ?_, rfl⟩
    simp only [nuclideLine, extension, List.mem_append] at hi
    rcases hi with ((((h | h) | h) | h) | h) | h
    · revert h; decide
    · exact hdig (hm.nuclides e he).2 h
    · cases h
    · revert h; decide
    · rcases (hm.fractions e he).1.chars _ h with h | h | h | h | h <;> revert h <;> decide
    · revert h; decide
  intro l hl
  unfold materialGroup at hl
  cases hcomp : m.composition with
  | nil => rw [hcomp] at hl; cases hl
  | cons e es =>
    rw [hcomp] at hl
    rcases List.mem_cons.1 hl with rfl | hl
    · refine ⟨fun hi => ?_, rfl⟩
      rcases List.mem_append.1 hi with h | h
      · rcases List.mem_append.1 h with h | h
        · revert h; decide
        · exact hdig hm.number.2 h
      · exact (hn e (by rw [hcomp]; simp)).1 h
    · obtain ⟨e', he', rfl⟩ := List.mem_map.1 hl
      exact hn e' (by rw [hcomp]; exact List.mem_cons_of_mem _ he')

theorem no_importances {ls : List Str} (h : ∀ l ∈ ls, 'i' ∉ l) (d : List (Particle × Str)) : importancesGo d none ls = .ok d := by
  induction ls with
  | nil => rfl
  | cons l ls ih =>
    have : hasInfix c!"imp" l = false := by
      by_contra hh
      rw [Bool.not_eq_false, hasInfix_iff] at hh
      obtain ⟨a, b, rfl⟩ := hh
      exact h (a ++ c!"imp" ++ b) List.mem_cons_self (by simp)
    unfold importancesGo
    simp only [this]
    exact ih fun l hl => h l (List.mem_cons_of_mem _ hl)

theorem no_transforms (io : NumIO K) (cosDeg : K → K) {ls : List Str} (h : ∀ l ∈ ls, isTransformLine l = false) (trs : List (Str × Transform K)) :
    getTransformCards io cosDeg trs ls = .ok trs := by
  induction ls with
  | nil => rfl
  | cons l ls ih =>
    rw [getTransformCards, if_neg (by simp [h l (by simp)])]
    exact ih fun l hl => h l (List.mem_cons_of_mem _ hl)

/-- **C83.** Reading the MCNP file that was written for cells, surfaces and materials gives the same cells and surfaces in the same order, and the same materials in the order of their names; there are no importance cards
and no transforms. Partial: the boundary conditions and the sheets of cones are lost (see C63), and the restrictions of C52, C63 and C82. -/
theorem C83_file_partial (e : Env K) (cosDeg : K → K) (cells : List (Cell K)) (surfs : List (Surface K)) (mats : List (Str × Material K))
    (hc : ∀ c ∈ cells, ∃ offs rots, Writable e.io GeometryWord c ∧ WritableParams e.io c offs rots ∧ ReadableCell e.io c)
    (hs : ∀ s ∈ surfs, Expressible s ∧ s.bc ≠ .periodic ∧ 0 ≤ s.id ∧ (intStr s.id).length ≤ 60 ∧ ∀ x ∈ s.coeffs, e.io.Good x)
    (hmn : ∀ mn ∈ printedMnemonics, e.io.parse mn = none)
    (hm : ∀ m ∈ mats, Printable e.io m.2) (hn : (mats.map fun m => m.2.number).Nodup) :
    ∃ out, (∃ fuel₀, ∀ fuel ≥ fuel₀, Returns (mcnpFile { e with fuel := fuel } cells surfs mats) out) ∧
      ∃ d, readDeck e.io cosDeg (readText out) = .ok d ∧ List.Forall₂ (SameCell e.io) cells d.cells ∧ List.Forall₂ SameSurface surfs d.surfaces ∧
        (∃ sorted, sorted.Perm mats ∧ sorted.Pairwise (fun a b => a.1 ≤ b.1) ∧
          List.Forall₂ (fun m p => p.1 = m.2.number ∧ SameComposition (fun _ => []) m.2 p.2) sorted d.materials) ∧
        d.importances = [] ∧ d.transforms = [] := by
  -- cells
  obtain ⟨cg, hcg⟩ : ∃ gs, List.Forall₂ (WritesCard (fun fuel c => writeMcnpCell fuel e.io c true) (readCell e.io cosDeg) (SameCell e.io)) cells gs := by
    apply exists_forall₂
    intro c hcm
    obtain ⟨offs, rots, h1, h2, h3⟩ := hc c hcm
    obtain ⟨l, ls, hw, ⟨ch, t, hl, hch⟩, hlines, hd, hr⟩ := mcnpCell_back e.io cosDeg c offs rots h1 h2 h3
    have hq : isSpace ch = false ∧ ch.toLower ≠ 'c' := by
      rcases hch with h | rfl
      · unfold isDigit at h
        simp only [Bool.or_eq_true, beq_iff_eq] at h
        rcases h with ((((((((rfl | rfl) | rfl) | rfl) | rfl) | rfl) | rfl) | rfl) | rfl) | rfl <;> exact ⟨by decide, by decide⟩
      · exact ⟨by decide, by decide⟩
    obtain ⟨k1, k2⟩ := physical_card hl hq.1 hq.2 hlines hd
    exact ⟨physical (l :: ls), hw, k1, k2, hr⟩
  obtain ⟨⟨f1, hcw⟩, hcf, hcl, cs, hcs, hcR⟩ := written_cards hcg
  -- surfaces
  obtain ⟨sg, hsg⟩ : ∃ gs, List.Forall₂ (WritesCard (fun fuel s => writeMcnpSurface fuel e.io s) (classify e.io) SameSurface) surfs gs := by
    apply exists_forall₂
    intro s hsm
    obtain ⟨h1, h2, h3, h4, h5⟩ := hs s hsm
    obtain ⟨l, ls, hw, ⟨ch, t, hl, hch⟩, hlines, hd, hr⟩ := mcnpSurface_back e.io s h1 h2 h3 h4 h5 hmn
    have hq : isSpace ch = false ∧ ch.toLower ≠ 'c' := by
      rcases hch with h | h
      · unfold isDigit at h
        simp only [Bool.or_eq_true, beq_iff_eq] at h
        rcases h with ((((((((rfl | rfl) | rfl) | rfl) | rfl) | rfl) | rfl) | rfl) | rfl) | rfl <;> exact ⟨by decide, by decide⟩
      · simp at h
        rcases h with rfl | rfl | rfl <;> exact ⟨by decide, by decide⟩
    obtain ⟨k1, k2⟩ := physical_card hl hq.1 hq.2 hlines hd
    exact ⟨physical (l :: ls), hw, k1, k2, hr⟩
  obtain ⟨⟨f2, hsw⟩, hsf, hsl, ss, hss, hsR⟩ := written_cards hsg
  -- materials
  let sorted := mats.insertionSort fun a b => a.1 ≤ b.1
  have hperm : sorted.Perm mats := List.perm_insertionSort _ _
  let ms := sorted.map Prod.snd
  have hms : ∀ m ∈ ms, Printable e.io m ∧ (false = true → PrintableXs m) := by
    intro m hm'
    obtain ⟨p, hp, rfl⟩ := List.mem_map.1 hm'
    exact ⟨hm p (hperm.mem_iff.1 hp), fun h => by cases h⟩
  have hmn' : (ms.map Material.number).Nodup := by
    rw [List.map_map]
    exact ((hperm.map _).nodup_iff).2 hn
  obtain ⟨hm1, hm2, hm3⟩ := materialTexts true hms
  have hmr := getMaterialCards_written ms [] hms hmn' (by simp)
  let ML := (ms.map (materialLines e.io false true)).flatten
  let MG := (ms.map (materialGroup e.io false)).flatten
  have hMG : ∀ l ∈ MG, 'i' ∉ l ∧ isTransformLine l = false := by
    intro l hl
    obtain ⟨g, hg, hl⟩ := List.mem_flatten.1 hl
    obtain ⟨m, hm', rfl⟩ := List.mem_map.1 hg
    exact material_plain (hms m hm').1 l hl
  let L : List Str := c!"C cell definitions\n" :: (cg.flatten ++ c!"\n" :: c!"C surface definitions\n" :: (sg.flatten ++ c!"\n" :: c!"C material definitions\n" :: ML))
  have hL : ∀ l ∈ L, ∃ t, '\n' ∉ t ∧ l = t ++ ['\n'] := by
    intro l hl
    simp only [L, List.mem_cons, List.mem_append] at hl
    rcases hl with rfl | hl | rfl | rfl | hl | rfl | rfl | hl
    · exact ⟨c!"C cell definitions", by decide, rfl⟩
    · exact hcl l hl
    · exact ⟨[], by decide, rfl⟩
    · exact ⟨c!"C surface definitions", by decide, rfl⟩
    · exact hsl l hl
    · exact ⟨[], by decide, rfl⟩
    · exact ⟨c!"C material definitions", by decide, rfl⟩
    · exact hm2 l hl
  refine ⟨L.flatten, ⟨max f1 f2, fun fuel hfu => ?_⟩, ?_⟩
  · unfold mcnpFile
    refine (returns_bind _ _ _).2 ⟨_, hcw fuel (by omega), (returns_bind _ _ _).2 ⟨_, hsw fuel (by omega), (returns_bind _ _ _).2 ⟨ML.flatten, ?_, ?_⟩⟩⟩
    · refine (returns_cards' _ _ _).2 ⟨ms.map fun m => (materialLines e.io false true m).flatten, ?_, ?_⟩
      · have key : ∀ l : List (Str × Material K), (∀ m ∈ l, Printable e.io m.2) →
            List.Forall₂ (fun x y => writeMcnpMaterial e.io false true x.2 = .ok y) l ((l.map Prod.snd).map fun m => (materialLines e.io false true m).flatten) := by
          intro l
          induction l with
          | nil => intro _; exact .nil
          | cons p l ih => intro h; exact .cons (written_lines true (h p (by simp)) (by simp)) (ih fun m hm' => h m (List.mem_cons_of_mem _ hm'))
        exact key sorted fun m hm' => hm m (hperm.mem_iff.1 hm')
      · simp only [ML]
        rw [List.flatten_flatten, List.map_map]
        rfl
    · rw [returns_pure]
      simp [L, ML]
  · have hread : readText L.flatten = L.map lower := by
      have := readText_lines L [] hL
      rwa [List.append_nil, show readText [] = [] from rfl, List.append_nil] at this
    have hblank : lower c!"\n" = c!"\n" := by decide
    have hgsf : ∀ gs : List (List Str), gs.flatten.map lower = (gs.map (List.map lower)).flatten := fun gs => by rw [List.map_flatten]
    have hcf' : ∀ g ∈ cg.map (List.map lower), FileCard g := by
      intro g hg
      obtain ⟨g', hg', rfl⟩ := List.mem_map.1 hg
      exact hcf g' hg'
    have hsf' : ∀ g ∈ sg.map (List.map lower), FileCard g := by
      intro g hg
      obtain ⟨g', hg', rfl⟩ := List.mem_map.1 hg
      exact hsf g' hg'
    let rest : List Str := cg.flatten ++ c!"\n" :: c!"C surface definitions\n" :: (sg.flatten ++ c!"\n" :: c!"C material definitions\n" :: ML)
    have htitle : setTitle (L.map lower) = .ok (c!"c cell definitions\n", rest.map lower) := by
      have e1 : L.map lower = c!"c cell definitions\n" :: rest.map lower := by
        rw [show L = c!"C cell definitions\n" :: rest from rfl, List.map_cons, show lower c!"C cell definitions\n" = c!"c cell definitions\n" by decide]
      rw [e1]
      rfl
    have hdrop : dropComments (rest.map lower) = .ok ((cg.map (List.map lower)).flatten ++ c!"\n" :: ((sg.map (List.map lower)).flatten ++ c!"\n" :: MG)) := by
      have d1 : dropComments (c!"C material definitions\n" :: ML |>.map lower) = .ok MG := by
        have := dropComments_append (a := [lower c!"C material definitions\n"]) (a' := []) (by decide) hm3
        exact this
      have d2 := dropComments_append (a := (sg.map (List.map lower)).flatten ++ [c!"\n"]) (dropComments_append (dropComments_cards hsf') (b := [c!"\n"]) (b' := [c!"\n"]) (by decide)) d1
      have d3 := dropComments_append (a := [lower c!"C surface definitions\n"]) (a' := []) (by decide) d2
      have d4 := dropComments_append (a := (cg.map (List.map lower)).flatten ++ [c!"\n"]) (dropComments_append (dropComments_cards hcf') (b := [c!"\n"]) (b' := [c!"\n"]) (by decide)) d3
      simp only [rest, List.map_append, List.map_cons, hgsf, hblank]
      simpa using d4
    have hb1 := block_cards (clean := removeInlineComment) (parse := readCell e.io cosDeg) (fun l h => removeInlineComment_plain h) hcf' hcs ((sg.map (List.map lower)).flatten ++ c!"\n" :: MG)
    have hb2 := block_cards (clean := stripDollar) (parse := classify e.io) (fun l h => by unfold stripDollar; rw [findChar_not_mem _ _ h]; rfl) hsf' hss MG
    have hi : getImportances MG = .ok [] := by
      unfold getImportances
      rw [no_importances fun l hl => (hMG l hl).1]
      rfl
    have ht := no_transforms e.io cosDeg (fun l hl => (hMG l hl).2) []
    have hdeck : readDeck e.io cosDeg (readText L.flatten) = .ok (Deck.mk c!"c cell definitions\n" cs ss
        (ss.foldl (fun m s => if m < s.id then s.id else m) 0) [] [] ([] ++ ms.map fun m => (m.number, readBack false m)) [0, 0, 0, 0, 0, 0]) := by
      unfold readDeck
      rw [hread, htitle]
      simp only [bind, Except.bind]
      rw [hdrop]
      simp only
      rw [hb1]
      simp only
      rw [hb2]
      simp only
      rw [hi, ht]
      simp only [MG]
      rw [hmr]
    refine ⟨_, hdeck, hcR, hsR, ⟨sorted, hperm, List.pairwise_insertionSort _ _, ?_⟩, rfl, rfl⟩
    have key : ∀ l : List (Str × Material K), List.Forall₂ (fun m p => p.1 = m.2.number ∧ SameComposition (fun _ => []) m.2 p.2) l
        ((l.map Prod.snd).map fun m => (m.number, readBack false m)) := by
      intro l
      induction l with
      | nil => exact .nil
      | cons p l ih => exact .cons ⟨rfl, rfl, rfl, rfl⟩ ih
    exact key sorted

/-- **C83, refuted for boundary conditions.** Whatever the file says, every surface that is read is transmitting; so a reflecting one never comes back. -/
theorem C83_refuted_boundary (io : NumIO K) (cosDeg : K → K) (lines : List Str) (d : Deck K) (h : readDeck io cosDeg lines = .ok d) : ∀ s ∈ d.surfaces, s.bc = .transmission := by
  unfold readDeck at h
  cases h1 : setTitle lines with
  | error e => rw [h1] at h; cases h
  | ok t =>
    rw [h1] at h
    simp only [bind, Except.bind] at h
    cases h2 : dropComments t.2 with
    | error e => rw [h2] at h; cases h
    | ok l2 =>
      rw [h2] at h
      simp only at h
      cases h3 : block removeInlineComment (readCell io cosDeg) l2 with
      | error e => rw [h3] at h; cases h
      | ok b =>
        rw [h3] at h
        simp only at h
        cases h4 : block stripDollar (classify io) b.2 with
        | error e => rw [h4] at h; cases h
        | ok b2 =>
          rw [h4] at h
          simp only at h
          have hd : d.surfaces = b2.1 := by
            split at h
            · cases h
            · split at h
              · cases h
              · split at h
                · cases h
                · cases h; rfl
          obtain ⟨-, -, groups, -, -, -, -, hm⟩ := (C38_block _ _ _ b2.1 b2.2).1 h4
          intro s hs
          rw [hd] at hs
          have key : ∀ (ts : List Str) (ys : List (Surface K)), ts.mapM (classify io) = .ok ys → ∀ s ∈ ys, s.bc = .transmission := by
            intro ts
            induction ts with
            | nil => intro ys hy; cases hy; simp
            | cons x xs ih =>
              intro ys hy
              rw [List.mapM_cons] at hy
              simp only [bind, Except.bind, pure, Except.pure] at hy
              cases hx : classify io x with
              | error e => rw [hx] at hy; cases hy
              | ok y =>
                rw [hx] at hy
                simp only at hy
                cases hxs : xs.mapM (classify io) with
                | error e => rw [hxs] at hy; cases hy
                | ok zs =>
                  rw [hxs] at hy
                  cases hy
                  intro s hs
                  rcases List.mem_cons.1 hs with rfl | hs
                  · exact C26_never_reflecting io x _ hx
                  · exact ih zs hxs s hs
          exact key _ _ hm s hs

end

/-! ## Example -/

private def ball : Surface ℚ := { Surface.blank with id := 1, type := .sphereGeneral, coeffs := [0, 0, 0, 5] }

private def hydrogen : Material ℚ := { name := c!"gas", number := c!"2", composition := [(c!"1001", 1)], xsid := [], density := -7 }

private def fileEnv : Env ℚ :=
  { fuel := 100, io := sampleIO, fixed := sampleIO.render, sci := sampleIO.render, sci4 := sampleIO.render, sci3 := sampleIO.render, sqrt := id, degAtan := id, orderStr := id, orderInt := id }

/-- A deck that meets the hypotheses of `C83_file_partial`, and its file. -/
example : (∀ c ∈ [writtenCell], ∃ offs rots, Writable sampleIO GeometryWord c ∧ WritableParams sampleIO c offs rots ∧ ReadableCell sampleIO c) ∧
    (Expressible ball ∧ ball.bc ≠ .periodic ∧ 0 ≤ ball.id ∧ (intStr ball.id).length ≤ 60 ∧ ∀ x ∈ ball.coeffs, sampleIO.Good x) ∧
    (∀ mn ∈ printedMnemonics, sampleIO.parse mn = none) ∧ Printable sampleIO hydrogen ∧
    (mcnpFile fileEnv [writtenCell] [ball] [(c!"2", hydrogen)]).run = .ok (some (c!"C cell definitions\n3 2 -7.0 ( -1 : 2 ) # ( 4 ) u=5 fill=6 (1 2 3 ) IMP:N=1.0\n\n" ++
      c!"C surface definitions\n1 s 0.0 0.0 0.0 5.0\n\nC material definitions\nC Material gas\nM2     1001 1.0\n")) := by
  refine ⟨?_, ⟨rfl, by decide, by decide, by decide, ?_⟩, by decide +kernel, ⟨⟨by decide, by decide⟩, by decide, by decide, by decide, by decide, ?_⟩, by decide +kernel⟩
  · intro c hc
    rw [List.mem_singleton] at hc
    subst hc
    exact ⟨_, _, writtenCell_geometry, writtenCell_params, writtenCell_readable⟩
  · intro x hx
    simp [ball] at hx
    rcases hx with rfl | rfl <;> exact sample_good _ (by decide +kernel)
  · intro e he
    simp [hydrogen] at he
    subst he
    exact ⟨⟨[], c!"1", c!".0", [], by decide +kernel, Or.inl rfl, by decide, by decide, Or.inr ⟨c!"0", rfl, by decide⟩, Or.inl rfl⟩, by decide +kernel⟩

end Csg
