import Verif.Lemmas.PhitsFile
import Verif.Props.McnpCellText
import Verif.Props.McnpFileBack
import Verif.Props.PhitsImportances

/-!
# The PHITS file: C89
-/

set_option linter.unusedSectionVars false

namespace Csg

open Spec

section
variable {K : Type} [Field K] [LinearOrder K]

/-- For every type: the words of the card, and the sense of the points. -/
private theorem shape (sqrt : K → K) (io : NumIO K) (s : Surface K) (he : Expressible s) (b : Str) (hb : mcnpBoundary s.bc = .ok b) :
    ∃ mn vals, mcnpSurfaceLine io s = .ok (joinLine ((b ++ intStr s.id) :: mn :: vals.map io.render)) ∧
      (∀ x ∈ vals, x ∈ s.coeffs) ∧ mn ∈ printedMnemonics ∧ ∀ p, ∃ d, cardSide sqrt mn vals p = some d ∧ side sqrt s.type s.coeffs p = some d := by
  unfold Expressible at he
  unfold mcnpSurfaceLine
  rw [hb]
  split at he
  all_goals rename_i hty
  all_goals try contradiction
  · obtain ⟨a, ha⟩ := he
    refine ⟨c!"px", [a], ?_, by simp [ha], by decide, fun p => ⟨_, rfl, ?_⟩⟩
    · simp [hty, ha, mcnpLayout, coeffText, pyGet, bind, Except.bind, joinLine]
    · rw [hty, ha]; rfl
  · obtain ⟨a, ha⟩ := he
    refine ⟨c!"py", [a], ?_, by simp [ha], by decide, fun p => ⟨_, rfl, ?_⟩⟩
    · simp [hty, ha, mcnpLayout, coeffText, pyGet, bind, Except.bind, joinLine]
    · rw [hty, ha]; rfl
  · obtain ⟨a, ha⟩ := he
    refine ⟨c!"pz", [a], ?_, by simp [ha], by decide, fun p => ⟨_, rfl, ?_⟩⟩
    · simp [hty, ha, mcnpLayout, coeffText, pyGet, bind, Except.bind, joinLine]
    · rw [hty, ha]; rfl
  · obtain ⟨a, b', c, d, ha⟩ := he
    refine ⟨c!"k/x", [a, b', c, d], ?_, by simp [ha], by decide, fun p => ⟨_, rfl, ?_⟩⟩
    · simp [hty, ha, mcnpLayout, coeffText, pyGet, bind, Except.bind, joinLine]
    · rw [hty, ha]; simp [side, torusValue, value, sheet]
  · obtain ⟨a, b', c, d, ha⟩ := he
    refine ⟨c!"k/y", [a, b', c, d], ?_, by simp [ha], by decide, fun p => ⟨_, rfl, ?_⟩⟩
    · simp [hty, ha, mcnpLayout, coeffText, pyGet, bind, Except.bind, joinLine]
    · rw [hty, ha]; simp [side, torusValue, value, sheet]
  · obtain ⟨a, b', c, d, ha⟩ := he
    refine ⟨c!"k/z", [a, b', c, d], ?_, by simp [ha], by decide, fun p => ⟨_, rfl, ?_⟩⟩
    · simp [hty, ha, mcnpLayout, coeffText, pyGet, bind, Except.bind, joinLine]
    · rw [hty, ha]; simp [side, torusValue, value, sheet]
  · obtain ⟨x0, x1, x2, x3, ha⟩ := length_four he
    refine ⟨c!"p", [x0, x1, x2, x3], ?_, by simp [ha], by decide, fun p => ⟨_, rfl, ?_⟩⟩
    · simp [hty, ha, mcnpLayout, coeffText, pyGet, bind, Except.bind, joinLine]
    · rw [hty, ha]; rfl
  · obtain ⟨x0, x1, x2, x3, ha⟩ := length_four he
    refine ⟨c!"s", [x0, x1, x2, x3], ?_, by simp [ha], by decide, fun p => ⟨_, rfl, ?_⟩⟩
    · simp [hty, ha, mcnpLayout, coeffText, pyGet, bind, Except.bind, joinLine]
    · rw [hty, ha]; rfl
  · obtain ⟨x0, x1, x2, ha⟩ := length_three he
    refine ⟨c!"c/x", [x0, x1, x2], ?_, by simp [ha], by decide, fun p => ⟨_, rfl, ?_⟩⟩
    · simp [hty, ha, mcnpLayout, coeffText, pyGet, bind, Except.bind, joinLine]
    · rw [hty, ha]; rfl
  · obtain ⟨x0, x1, x2, ha⟩ := length_three he
    refine ⟨c!"c/y", [x0, x1, x2], ?_, by simp [ha], by decide, fun p => ⟨_, rfl, ?_⟩⟩
    · simp [hty, ha, mcnpLayout, coeffText, pyGet, bind, Except.bind, joinLine]
    · rw [hty, ha]; rfl
  · obtain ⟨x0, x1, x2, ha⟩ := length_three he
    refine ⟨c!"c/z", [x0, x1, x2], ?_, by simp [ha], by decide, fun p => ⟨_, rfl, ?_⟩⟩
    · simp [hty, ha, mcnpLayout, coeffText, pyGet, bind, Except.bind, joinLine]
    · rw [hty, ha]; rfl
  · obtain ⟨x0, x1, x2, x3, x4, x5, ha⟩ := length_six he
    refine ⟨c!"tx", [x0, x1, x2, x3, x4, x5], ?_, by simp [ha], by decide, fun p => ⟨_, rfl, ?_⟩⟩
    · simp [hty, ha, mcnpLayout, coeffText, pyGet, bind, Except.bind, joinLine]
    · rw [hty, ha]; rfl
  · obtain ⟨x0, x1, x2, x3, x4, x5, ha⟩ := length_six he
    refine ⟨c!"ty", [x0, x1, x2, x3, x4, x5], ?_, by simp [ha], by decide, fun p => ⟨_, rfl, ?_⟩⟩
    · simp [hty, ha, mcnpLayout, coeffText, pyGet, bind, Except.bind, joinLine]
    · rw [hty, ha]; rfl
  · obtain ⟨x0, x1, x2, x3, x4, x5, ha⟩ := length_six he
    refine ⟨c!"tz", [x0, x1, x2, x3, x4, x5], ?_, by simp [ha], by decide, fun p => ⟨_, rfl, ?_⟩⟩
    · simp [hty, ha, mcnpLayout, coeffText, pyGet, bind, Except.bind, joinLine]
    · rw [hty, ha]; rfl
  · obtain ⟨x0, x1, x2, x3, x4, x5, x6, x7, x8, x9, ha⟩ := length_ten he
    refine ⟨c!"gq", [x0, x1, x2, x3, x4, x5, x6, x7, x8, x9], ?_, by simp [ha], by decide, fun p => ⟨_, rfl, ?_⟩⟩
    · simp [hty, ha, mcnpLayout, coeffText, pyGet, bind, Except.bind, joinLine]
    · rw [hty, ha]; rfl

private theorem quiet_good' {io : NumIO K} {x : K} (h : io.Good x) : PhitsQuiet (io.render x) := by
  intro c hc hm
  simp only [List.mem_cons, List.not_mem_nil, or_false] at hm
  rcases h.chars c hc with h | h | h | h | h <;> rcases hm with rfl | rfl | rfl | rfl <;> revert h <;> decide

private theorem quiet_int' (z : Int) : PhitsQuiet (intStr z) := by
  intro c hc hm
  simp only [List.mem_cons, List.not_mem_nil, or_false] at hm
  rcases intStr_chars z c hc with h | h <;> rcases hm with rfl | rfl | rfl | rfl <;> revert h <;> decide

private theorem quiet_append {a b : Str} (ha : PhitsQuiet a) (hb : PhitsQuiet b) : PhitsQuiet (a ++ b) := by
  intro c hc
  rcases List.mem_append.1 hc with h | h
  · exact ha c h
  · exact hb c h

private theorem digit_start {ch : Char} (h : isDigit ch = true ∨ ch ∈ ['-', '*', '+']) : isSpace ch = false ∧ ch ≠ 'c' ∧ ch ≠ 'C' := by
  rcases h with h | h
  · unfold isDigit at h
    simp only [Bool.or_eq_true, beq_iff_eq] at h
    rcases h with ((((((((rfl | rfl) | rfl) | rfl) | rfl) | rfl) | rfl) | rfl) | rfl) | rfl <;> exact ⟨by decide, by decide, by decide⟩
  · simp only [List.mem_cons, List.not_mem_nil, or_false] at h
    rcases h with rfl | rfl | rfl <;> exact ⟨by decide, by decide, by decide⟩

/-- The lines of a surface. -/
private theorem surface_lines (sqrt : K → K) (io : NumIO K) (s : Surface K) (he : Expressible s) (hb : s.bc ≠ .periodic)
    (hlen : (intStr s.id).length ≤ 60) (hgood : ∀ x ∈ s.coeffs, io.Good x) :
    ∃ g ws, (∃ fuel₀, ∀ fuel ≥ fuel₀, writeMcnpSurface fuel io s = .ok (some g.flatten)) ∧ IsPhitsCard g ws ∧ PhitsSurfaceSays sqrt io s ws := by
  have hbc : mcnpBoundary s.bc = .ok (boundaryMark s.bc) := by
    cases h : s.bc <;> simp [mcnpBoundary, boundaryMark, h] at hb ⊢
  obtain ⟨mn, vals, hline, hvals, hm, hside⟩ := shape sqrt io s he _ hbc
  have hgv : ∀ x ∈ vals, io.Good x := fun x hx => hgood x (hvals x hx)
  have hmark : boundaryMark s.bc = [] ∨ boundaryMark s.bc = c!"*" ∨ boundaryMark s.bc = c!"+" := by
    cases s.bc <;> simp [boundaryMark]
  have hwords : ∀ w ∈ (boundaryMark s.bc ++ intStr s.id) :: mn :: vals.map io.render, w ≠ [] ∧ NoSpace w ∧ w.length + 1 ≤ 69 ∧ PhitsQuiet w := by
    intro w hw
    rcases List.mem_cons.1 hw with rfl | hw
    · have h1 : NoSpace (boundaryMark s.bc) ∧ (boundaryMark s.bc).length ≤ 1 ∧ PhitsQuiet (boundaryMark s.bc) := by
        rcases hmark with h | h | h <;> rw [h] <;> exact ⟨by unfold NoSpace; decide, by decide, by unfold PhitsQuiet; decide⟩
      refine ⟨by simp [intStr_ne_nil], ?_, by simp; omega, quiet_append h1.2.2 (quiet_int' _)⟩
      intro c hc
      rcases List.mem_append.1 hc with h | h
      · exact h1.1 c h
      · exact intStr_noSpace _ c h
    · rcases List.mem_cons.1 hw with rfl | hw
      · have : ∀ mn ∈ printedMnemonics, mn ≠ [] ∧ (∀ c ∈ mn, isSpace c = false) ∧ mn.length + 1 ≤ 69 ∧ ∀ c ∈ mn, c ∉ ['[', '$', '!', '%'] := by decide
        exact this w hm
      · obtain ⟨x, hx, rfl⟩ := List.mem_map.1 hw
        have g := hgv x hx
        exact ⟨g.ne_nil, g.noSpace, by have := g.len; omega, quiet_good' g⟩
  have hreads : Reads io (vals.map io.render) vals := by
    unfold Reads
    clear hline hvals hside hwords
    induction vals with
    | nil => exact .nil
    | cons v vs ih => exact .cons (hgv v (by simp)).parse_render (ih fun x hx => hgv x (List.mem_cons_of_mem _ hx))
  generalize hws : (boundaryMark s.bc ++ intStr s.id) :: mn :: vals.map io.render = ws at hline hwords
  have hne : ws ≠ [] := by rw [← hws]; simp
  obtain ⟨t, ht, htc, htg, r, htr⟩ := gap_joinLine (fun w hw => ⟨(hwords w hw).1, (hwords w hw).2.1⟩) hne
  obtain ⟨ch, t0, hhead, hch⟩ : ∃ ch t0, ws.head hne = ch :: t0 ∧ (isDigit ch = true ∨ ch ∈ ['-', '*', '+']) := by
    obtain ⟨z, q, hz⟩ := List.exists_cons_of_ne_nil (intStr_ne_nil s.id)
    have : ws.head hne = boundaryMark s.bc ++ intStr s.id := by subst hws; rfl
    rw [this]
    rcases hmark with h | h | h <;> rw [h]
    · refine ⟨z, q, by rw [List.nil_append, hz], ?_⟩
      rcases intStr_chars s.id z (by rw [hz]; simp) with h | h
      · exact Or.inl h
      · right; simp [h]
    · exact ⟨'*', intStr s.id, rfl, by simp⟩
    · exact ⟨'+', intStr s.id, rfl, by simp⟩
  obtain ⟨hnsp, hnc⟩ := digit_start hch
  rw [hhead] at htr
  obtain ⟨l, ls, ⟨f0, hf⟩, ⟨b, hlb⟩, hlines, hsplit⟩ := lineFormatter_lines t
    (by rw [← ht]; exact maxRun_joinLine ws (by norm_num) fun w hw => (hwords w hw).2.2.1)
    (by
      intro c hc hs
      rcases htc c hc with rfl | ⟨w, hw, hcw⟩
      · rfl
      · rw [(hwords w hw).2.1 c hcw] at hs; cases hs) (htg 0 (by omega)) ⟨ch, by rw [htr]; simp, hnsp⟩
  have hsp : split (physical (l :: ls)).flatten = ws := by
    rw [hsplit]
    have := split_joinLine ws fun w hw => ⟨(hwords w hw).1, (hwords w hw).2.1⟩
    rw [ht] at this
    rw [← this]
    rw [split_append_space t [] '\n' (by decide), split_nil, List.append_nil]
  obtain ⟨c, q, hlq⟩ : ∃ c q, l = c :: q := by
    obtain ⟨x, hx, -⟩ := (hlines l (by simp)).2
    cases l with
    | nil => cases hx
    | cons c q => exact ⟨c, q, rfl⟩
  have hcc : c = ch := by
    have := htr.symm.trans hlb
    rw [hlq] at this
    exact (List.cons.inj this).1.symm
  refine ⟨physical (l :: ls), ws, ⟨f0, fun fuel hfu => ?_⟩, ?_, mn, _, vals, hws.symm, hreads, hside⟩
  · have := hf fuel hfu
    rw [← ht] at this
    simp [writeMcnpSurface, hline, bind, Except.bind, this]
  · have := physical_phits hlq (hcc ▸ hnsp) (hcc ▸ hnc) hlines (by rw [hsp]; exact fun w hw => (hwords w hw).2.2.2)
    rwa [hsp] at this

/-- The lines of a cell. -/
private theorem cell_lines (io : NumIO K) (c : Cell K) (offs rots : List Str) (hw : Writable io GeometryWord c) (hp : WritableParams io c offs rots)
    (hmat : PhitsQuiet c.material.text) (huni : ∀ u, c.uni = some u → PhitsQuiet u) (hfill : ∀ f, c.fill = some f → PhitsQuiet f) (hoffs : ∀ w ∈ offs, PhitsQuiet w) :
    ∃ g ws, (∃ fuel₀, ∀ fuel ≥ fuel₀, writeMcnpCell fuel io c false = .ok (some g.flatten)) ∧ IsPhitsCard g ws ∧ PhitsCellSays io c ws := by
  obtain ⟨l, ls, g, fw, ⟨f0, hf⟩, ⟨ch, t, hl, hch⟩, hlines, hsp, hfw, hg, -⟩ := mcnpCell_lines io c false offs rots hw hp
  obtain ⟨out, g', p', ⟨f1, hf'⟩, -, hsp', h4, h5, h6, h7⟩ := written_card io c false offs rots hw hp
  have hout : out = (physical (l :: ls)).flatten := by
    have e1 := hf (max f0 f1) (by omega)
    have e2 := hf' (max f0 f1) (by omega)
    rw [e2] at e1
    exact Option.some.inj (Except.ok.inj e1)
  subst hout
  have hq : ∀ w ∈ split (physical (l :: ls)).flatten, PhitsQuiet w := by
    rw [hsp]
    intro w hm
    have hfix : ∀ s : Str, (∀ c ∈ s, c ∉ ['[', '$', '!', '%']) → PhitsQuiet s := fun s h => h
    rcases List.mem_append.1 hm with hm | hm
    · rcases List.mem_append.1 hm with hm | hm
      · rcases List.mem_cons.1 hm with rfl | hm
        · exact quiet_int' _
        · rcases List.mem_cons.1 hm with rfl | hm
          · exact hmat
          · split at hm
            · cases hm
            · rename_i hn
              rw [List.mem_singleton] at hm
              subst hm
              exact quiet_good' (hw.density hn)
      · intro x hx hxm
        simp only [List.mem_cons, List.not_mem_nil, or_false] at hxm
        rcases hg w hm x hx with h | h <;> rcases hxm with rfl | rfl | rfl | rfl <;> revert h <;> decide
    · rcases List.mem_append.1 hm with hm | hm
      · rcases List.mem_append.1 hm with hm | hm
        · unfold uniWords at hm
          cases hu : c.uni with
          | none => rw [hu] at hm; cases hm
          | some u =>
            rw [hu, List.mem_singleton] at hm
            subst hm
            exact quiet_append (hfix _ (by decide)) (huni u hu)
        · cases hfw with
          | none h => cases hm
          | plain f h _ _ =>
            rw [List.mem_singleton] at hm
            subst hm
            exact quiet_append (hfix _ (by decide)) (hfill f h)
          | moved f pre h hno hpre =>
            rcases List.mem_cons.1 hm with rfl | hm
            · exact quiet_append (hfix _ (by decide)) (hfill f h)
            · intro x hx
              have := mem_of_mem_split hm hx
              rcases List.mem_cons.1 this with rfl | this
              · decide
              · rcases List.mem_append.1 this with this | this
                · rcases hpre with rfl | rfl
                  · cases this
                  · rw [List.mem_singleton] at this; subst this; decide
                · rcases List.mem_append.1 this with this | this
                  · rcases mem_blanked this with rfl | ⟨v, hv, hc⟩
                    · decide
                    · unfold offsetWords at hv
                      split at hv
                      · exact (by decide : ∀ w ∈ [c!"0", c!"0", c!"0"], ∀ c ∈ w, c ∉ ['[', '$', '!', '%']) v hv x hc
                      · exact hoffs v hv x hc
                  · rcases List.mem_append.1 this with this | this
                    · rcases mem_blanked this with rfl | ⟨v, hv, hc⟩
                      · decide
                      · unfold rotationWords at hv
                        split at hv
                        · cases hv
                        · rename_i ho
                          obtain ⟨l, hl⟩ := Option.ne_none_iff_exists'.1 ho
                          obtain ⟨e, he, y, hy, rfl, -⟩ := forall₂_mem_right (hp.rotation l hl).2 hv
                          exact quiet_good' hy x hc
                    · rw [List.mem_singleton] at this; subst this; decide
      · cases hm
  obtain ⟨hs, hnc⟩ := digit_start (ch := ch) (hch.imp id fun h => by simp [h])
  refine ⟨physical (l :: ls), _, ⟨f0, hf⟩, physical_phits hl hs hnc hlines hq, io.render c.density, g', p', offs, rots, hsp', ?_, h4, h5, by rw [h6], fun σ => by rw [h6], hp, h7⟩
  exact fun hn => (hw.density hn).parse_render

/-- The lines of a material. -/
private theorem material_lines (io : NumIO K) (m : Material K) (hm : Printable io m) (hx : PrintableXs m) :
    ∃ g ws, writeMcnpMaterial io true false m = .ok g.flatten ∧ IsPhitsCard g ws ∧ PhitsMaterialSays io m ws := by
  have hpl : ∀ {c : Char}, PlainChar c ∨ c = ' ' ∨ c = '\n' → c ∉ ['[', '$', '!', '%'] := by
    intro c h hc
    simp only [List.mem_cons, List.not_mem_nil, or_false] at hc
    rcases h with (h | h | h | h | h) | h | h <;> rcases hc with rfl | rfl | rfl | rfl <;> revert h <;> decide
  have hnl : ∀ e ∈ m.composition, PhitsQuiet (nuclideLine io (extension true m) e) := by
    intro e he c hc
    obtain ⟨-, h2, -⟩ := nuclide_word hm (fun _ => hx) (preserve := true) he
    have h3 := floatText_plain (hm.fractions e he).1
    unfold nuclideLine at hc
    simp only [List.append_assoc, List.mem_append] at hc
    have b : ∀ c ∈ c!"     ", c = ' ' := by decide
    apply hpl
    rcases hc with hc | hc | hc | hc | hc | hc
    · exact .inr (.inl (b c hc))
    · exact .inl (h2 c (by simp [hc]))
    · exact .inl (h2 c (by rw [List.mem_append]; exact .inr hc))
    · exact .inr (.inl (by simpa using hc))
    · exact .inl (h3 c hc)
    · exact .inr (.inr (by simpa using hc))
  cases hcomp : m.composition with
  | nil => exact absurd hcomp hm.nonempty
  | cons e es =>
    have hlines : materialLines io true false m = (c!"M" ++ m.number ++ nuclideLine io (extension true m) e) :: es.map (nuclideLine io (extension true m)) := by
      simp [materialLines, hcomp]
    have hnum : PhitsQuiet m.number := fun c hc => hpl (.inl (.inl (hm.number.2 c hc)))
    have hcard : IsPhitsCard (materialLines io true false m) (split (materialLines io true false m).flatten) := by
      have hcomplete := materialLines_complete (preserve := true) false hm fun _ => hx
      rw [hlines] at hcomplete ⊢
      refine isPhitsCard_of hcomplete ?_ ?_ (ch := 'M') (t := m.number ++ nuclideLine io (extension true m) e) (by simp) (by decide) ⟨by decide, by decide⟩
      · intro l hl
        rcases List.mem_cons.1 hl with rfl | hl
        · exact quiet_append (quiet_append (fun c hc => (by decide : ∀ c ∈ c!"M", c ∉ ['[', '$', '!', '%']) c hc) hnum) (hnl e (by rw [hcomp]; simp))
        · obtain ⟨e', he', rfl⟩ := List.mem_map.1 hl
          exact hnl e' (by rw [hcomp]; exact List.mem_cons_of_mem _ he')
      · intro l hl
        obtain ⟨e', he', rfl⟩ := List.mem_map.1 hl
        rfl
    have hsplit : split (materialLines io true false m).flatten =
        (c!"M" ++ m.number) :: m.composition.flatMap fun e => [e.1 ++ extension true m e.1, io.render e.2] := by
      have hcomplete := materialLines_complete (preserve := true) false hm fun _ => hx
      rw [split_lines _ fun l hl => (hcomplete l hl).imp fun _ h => h.2, hlines, hcomp, List.flatMap_cons, List.flatMap_cons]
      have h1 : split (c!"M" ++ m.number ++ nuclideLine io (extension true m) e) = (c!"M" ++ m.number) :: [e.1 ++ extension true m e.1, io.render e.2] := by
        have hsp := (nuclideLine_split hm (fun _ => hx) (preserve := true) (e := e) (by rw [hcomp]; simp)).2.1
        have e1 : nuclideLine io (extension true m) e = ' ' :: (c!"    " ++ e.1 ++ extension true m e.1 ++ c!" " ++ io.render e.2 ++ c!"\n") := rfl
        have hns : NoSpace (c!"M" ++ m.number) := by
          intro c hc
          rcases List.mem_append.1 hc with h | h
          · exact (by decide : ∀ c ∈ c!"M", isSpace c = false) c h
          · exact (PlainChar.facts (.inl (hm.number.2 c h))).1
        rw [e1, split_word_space _ _ ' ' (by decide) hns (by simp), ← hsp, e1, split_space_cons ' ' _ (by decide)]
      rw [h1]
      simp only [List.cons_append, List.nil_append, List.flatMap_map]
      have : es.flatMap (fun a => split (nuclideLine io (extension true m) a)) = es.flatMap fun e => [e.1 ++ extension true m e.1, io.render e.2] :=
        List.flatMap_congr fun e' he' => (nuclideLine_split hm (fun _ => hx) (preserve := true) (e := e') (by rw [hcomp]; exact List.mem_cons_of_mem _ he')).2.1
      rw [this]
    refine ⟨materialLines io true false m, _, written_lines false hm fun _ => hx, hcard, m.composition.map fun e => (e.1 ++ extension true m e.1, io.render e.2), ?_, ?_⟩
    · rw [hsplit, List.flatMap_map]
    · rw [List.forall₂_map_right_iff, List.forall₂_same]
      intro e he
      obtain ⟨x, hx', -⟩ := hx e he
      exact ⟨x, hx', by simp [extension, hx'], (hm.fractions e he).2⟩

/-- All cards of a section. -/
private theorem section_cards {α : Type} {write : Nat → α → Py (Option Str)} {R : α → List Str → Prop} {xs : List α}
    (h : ∀ x ∈ xs, ∃ g ws, (∃ fuel₀, ∀ fuel ≥ fuel₀, write fuel x = .ok (some g.flatten)) ∧ IsPhitsCard g ws ∧ R x ws) :
    ∃ (ls : List Str) (cs : List (List Str)), (∃ fuel₀, ∀ fuel ≥ fuel₀, Returns (cards (write fuel) xs) ls.flatten) ∧ (∀ l ∈ ls, ∃ t, '\n' ∉ t ∧ l = t ++ ['\n']) ∧ (∀ l ∈ ls, phitsTitle l = none) ∧
      phitsCards (ls ++ [c!"\n"]) = ([], cs) ∧ List.Forall₂ R xs cs := by
  have : ∃ (gs : List (List Str)) (cs : List (List Str)), (∃ fuel₀, ∀ fuel ≥ fuel₀, Returns (cards (write fuel) xs) gs.flatten.flatten) ∧ List.Forall₂ IsPhitsCard gs cs ∧ List.Forall₂ R xs cs := by
    induction xs with
    | nil => exact ⟨[], [], ⟨0, fun fuel _ => (returns_cards _ _ _).2 ⟨[], .nil, rfl⟩⟩, .nil, .nil⟩
    | cons x xs ih =>
      obtain ⟨g, ws, ⟨f1, h1⟩, h2, h3⟩ := h x (by simp)
      obtain ⟨gs, cs, ⟨f2, k1⟩, k2, k3⟩ := ih fun x hx => h x (List.mem_cons_of_mem _ hx)
      refine ⟨g :: gs, ws :: cs, ⟨max f1 f2, fun fuel hfu => ?_⟩, .cons h2 k2, .cons h3 k3⟩
      obtain ⟨ts, ht, e⟩ := (returns_cards _ _ _).1 (k1 fuel (by omega))
      exact (returns_cards _ _ _).2 ⟨g.flatten :: ts, .cons (h1 fuel (by omega)) ht, by rw [List.flatten_cons, List.flatten_append, e, List.flatten_cons]⟩
  obtain ⟨gs, cs, hw, hg, hR⟩ := this
  refine ⟨gs.flatten, cs, hw, ?_, ?_, phitsCards_cards hg, hR⟩
  · intro l hl
    obtain ⟨g, hgm, hl⟩ := List.mem_flatten.1 hl
    obtain ⟨ws, h⟩ := forall₂_left hg hgm
    exact h.complete l hl
  · intro l hl
    obtain ⟨g, hgm, hl⟩ := List.mem_flatten.1 hl
    obtain ⟨ws, h⟩ := forall₂_left hg hgm
    exact h.title l hl

/-- The lines in front of the surfaces. -/
private def phitsHead : List Str :=
  [c!"This PHITS file was produced automatically by csg2csg \n", c!"\n"]
private def phitsParameters : List Str :=
  [c!"icntl = 11\n", c!"maxbch = 10\n", c!"maxcas = 1000000\n", c!"\n"]

private theorem sections_of (sl cl il ml : List Str) (hs : ∀ l ∈ sl, phitsTitle l = none) (hc : ∀ l ∈ cl, phitsTitle l = none) (hi : ∀ l ∈ il, phitsTitle l = none)
    (hm : ∀ l ∈ ml, phitsTitle l = none) :
    phitsSections ([c!"[ T I T L E ]\n"] ++ phitsHead ++ [c!"[ P A R A M E T E R S ]\n"] ++ phitsParameters ++ [c!"[ S U R F A C E ]\n"] ++ sl ++ [c!"[ C E L L ]\n"] ++ cl ++
      [c!"[ I M P O R T A N C E ]\n"] ++ il ++ [c!"[ M A T E R I A L ]\n"] ++ ml) =
      ([], [(c!"title", phitsHead), (c!"parameters", phitsParameters), (c!"surface", sl), (c!"cell", cl), (c!"importance", il), (c!"material", ml)]) := by
  have h1 : phitsTitle c!"[ T I T L E ]\n" = some c!"title" := by decide
  have h2 : phitsTitle c!"[ P A R A M E T E R S ]\n" = some c!"parameters" := by decide
  have h3 : phitsTitle c!"[ S U R F A C E ]\n" = some c!"surface" := by decide
  have h4 : phitsTitle c!"[ C E L L ]\n" = some c!"cell" := by decide
  have h5 : phitsTitle c!"[ I M P O R T A N C E ]\n" = some c!"importance" := by decide
  have h6 : phitsTitle c!"[ M A T E R I A L ]\n" = some c!"material" := by decide
  have h7 : ∀ l ∈ phitsHead, phitsTitle l = none := by decide
  have h8 : ∀ l ∈ phitsParameters, phitsTitle l = none := by decide
  have h9 : phitsSections ml = (ml, []) := by
    have := phitsSections_lines ml [] hm
    simpa [phitsSections] using this
  simp only [List.append_assoc, List.cons_append, List.nil_append]
  rw [phitsSections_title h1, phitsSections_lines _ _ h7, phitsSections_title h2, phitsSections_lines _ _ h8, phitsSections_title h3, phitsSections_lines _ _ hs, phitsSections_title h4,
    phitsSections_lines _ _ hc, phitsSections_title h5, phitsSections_lines _ _ hi, phitsSections_title h6, h9]
  simp

/-- The lines of the table of importances. -/
private theorem importance_lines (io : NumIO K) (cs : List (Cell K)) (h : ∀ c ∈ cs, PrintsFloat io c.importance) :
    ∃ rl : List Str, phitsImportances io cs = c!"[ I M P O R T A N C E ]\n" ++ rl.flatten ∧ (∀ l ∈ rl, ∃ t, '\n' ∉ t ∧ l = t ++ ['\n']) ∧ (∀ l ∈ rl, phitsTitle l = none) ∧
      ∃ rows, phitsRows (rl ++ [c!"\n"]) = [c!"reg", c!"imp"] :: rows ∧ List.Forall₂ (PhitsImportanceSays io) cs rows := by
  let line : Cell K → Str := fun c => c!"    " ++ intStr c.id ++ c!"        " ++ io.render c.importance ++ c!"\n"
  have hq : ∀ c ∈ cs, PhitsQuiet (line c) := by
    intro c hc
    have hn : PhitsQuiet (io.render c.importance) := by
      intro x hx hm
      have := floatText_plain (h c hc).1 x hx
      simp only [List.mem_cons, List.not_mem_nil, or_false] at hm
      rcases this with h | h | h | h | h <;> rcases hm with rfl | rfl | rfl | rfl <;> revert h <;> decide
    have hfix : ∀ s : Str, (∀ c ∈ s, c ∉ ['[', '$', '!', '%']) → PhitsQuiet s := fun s h => h
    exact quiet_append (quiet_append (quiet_append (quiet_append (hfix _ (by decide)) (quiet_int' _)) (hfix _ (by decide))) hn) (hfix _ (by decide))
  have hsplit : ∀ c ∈ cs, split (line c) = [intStr c.id, io.render c.importance] := by
    intro c hc
    have hp := floatText_plain (h c hc).1
    have e : line c = c!"    " ++ (intStr c.id ++ ' ' :: (c!"       " ++ (io.render c.importance ++ '\n' :: []))) := by simp [line]
    rw [e, split_spaces_append _ _ (by decide), split_word_space _ _ _ (by decide) (intStr_noSpace _) (intStr_ne_nil _), split_spaces_append _ _ (by decide),
      split_word_space _ _ _ (by decide) (fun c hc => (hp c hc).facts.1) (h c hc).1.ne_nil]
    rfl
  refine ⟨c!"   reg       imp   \n" :: cs.map line, ?_, ?_, ?_, cs.map fun c => [intStr c.id, io.render c.importance], ?_, ?_⟩
  · unfold phitsImportances
    rw [List.flatten_cons, ← List.flatMap_def]
    rfl
  · intro l hl
    rcases List.mem_cons.1 hl with rfl | hl
    · exact ⟨c!"   reg       imp   ", by decide, rfl⟩
    · obtain ⟨c, hc, rfl⟩ := List.mem_map.1 hl
      refine ⟨c!"    " ++ intStr c.id ++ c!"        " ++ io.render c.importance, ?_, rfl⟩
      simp only [List.mem_append, not_or]
      refine ⟨⟨⟨by decide, fun hh => absurd (intStr_noSpace _ _ hh) (by decide)⟩, by decide⟩, fun hh => (floatText_plain (h c hc).1 _ hh).facts.2.1 (by decide)⟩
  · intro l hl
    rcases List.mem_cons.1 hl with rfl | hl
    · decide
    · obtain ⟨c, hc, rfl⟩ := List.mem_map.1 hl
      exact PhitsQuiet.title (hq c hc)
  · unfold phitsRows
    rw [List.map_append, List.map_cons, List.map_map, List.filter_append, List.filter_cons]
    have h1 : phitsWords c!"   reg       imp   \n" = [c!"reg", c!"imp"] := by decide
    have h2 : cs.map (phitsWords ∘ line) = cs.map fun c => [intStr c.id, io.render c.importance] :=
      List.map_congr_left fun c hc => by rw [Function.comp_apply, phitsWords_quiet (hq c hc), hsplit c hc]
    have h3 : ∀ cs : List (Cell K), (cs.map fun c => [intStr c.id, io.render c.importance]).filter (fun x => decide (x ≠ [])) = cs.map fun c => [intStr c.id, io.render c.importance] := by
      intro cs
      rw [List.filter_eq_self]
      intro l hl
      obtain ⟨c, -, rfl⟩ := List.mem_map.1 hl
      simp
    rw [h1, h2, h3, if_pos (by decide)]
    have h4 : List.filter (fun x => decide (x ≠ [])) (List.map phitsWords [c!"\n"]) = [] := by decide
    rw [h4, List.append_nil]
  · rw [List.forall₂_map_right_iff, List.forall₂_same]
    exact fun c hc => ⟨_, rfl, (h c hc).2⟩

/-- C89, partial: PHITS reads the written file as the sections title, parameters, surface, cell, importance and material, which describe exactly the surfaces, cells, importances and materials of the deck, in this
order. Missing: cones with one sheet (see `C89_refuted_cone`), materials without nuclides (see `C89_refuted_material`), periodic boundaries (see C26), and the restrictions of `PhitsDeck` on the lengths of words. -/
theorem C89_file_partial (e : Env K) (sqrt : K → K) (cs : List (Cell K)) (ss : List (Surface K)) (ms : List (Str × Material K)) (h : PhitsDeck e.io cs ss ms) :
    ∃ out, (∃ fuel₀, ∀ fuel ≥ fuel₀, Returns (phitsFile { e with fuel := fuel } cs ss ms) out) ∧
      ∃ tl pl sl cl il ml, phitsSections (readlines out) =
          ([], [(c!"title", tl), (c!"parameters", pl), (c!"surface", sl), (c!"cell", cl), (c!"importance", il), (c!"material", ml)]) ∧
        phitsRows pl = [[c!"icntl", c!"=", c!"11"], [c!"maxbch", c!"=", c!"10"], [c!"maxcas", c!"=", c!"1000000"]] ∧
        (∃ cards, phitsCards sl = ([], cards) ∧ List.Forall₂ (PhitsSurfaceSays sqrt e.io) ss cards) ∧
        (∃ cards, phitsCards cl = ([], cards) ∧ List.Forall₂ (PhitsCellSays e.io) cs cards) ∧
        (∃ rows, phitsRows il = [c!"reg", c!"imp"] :: rows ∧ List.Forall₂ (PhitsImportanceSays e.io) cs rows) ∧
        ∃ cards, phitsCards ml = ([], cards) ∧ List.Forall₂ (fun m => PhitsMaterialSays e.io m.2) ms cards := by
  obtain ⟨sl, scards, ⟨f1, hsw⟩, hsc, hst, hsr, hsR⟩ := section_cards (write := fun fuel s => writeMcnpSurface fuel e.io s) (R := PhitsSurfaceSays sqrt e.io) (xs := ss)
    fun s hs => surface_lines sqrt e.io s (h.surfaces s hs).1 (h.surfaces s hs).2.1 (h.surfaces s hs).2.2.1 (h.surfaces s hs).2.2.2
  obtain ⟨cl, ccards, ⟨f2, hcw⟩, hcc, hct, hcr, hcR⟩ := section_cards (write := fun fuel c => writeMcnpCell fuel e.io c false) (R := PhitsCellSays e.io) (xs := cs) fun c hc => by
    obtain ⟨offs, rots, k1, k2, k3, k4, k5, k6⟩ := h.cells c hc
    exact cell_lines e.io c offs rots k1 k2 k3 k4 k5 k6
  obtain ⟨ml, mcards, ⟨f3, hmw⟩, hmc, hmt, hmr, hmR⟩ := section_cards (write := fun _ (m : Str × Material K) => (writeMcnpMaterial e.io true false m.2).map some)
    (R := fun m => PhitsMaterialSays e.io m.2) (xs := ms) fun m hm => by
    obtain ⟨g, ws, k1, k2, k3⟩ := material_lines e.io m.2 (h.materials m hm).1 (h.materials m hm).2
    exact ⟨g, ws, ⟨0, fun _ _ => by rw [k1]; rfl⟩, k2, k3⟩
  obtain ⟨rl, hrw, hrc, hrt, rows, hrr, hrR⟩ := importance_lines e.io cs h.importances
  let all : List Str := [c!"[ T I T L E ]\n"] ++ phitsHead ++ [c!"[ P A R A M E T E R S ]\n"] ++ phitsParameters ++ [c!"[ S U R F A C E ]\n"] ++ (sl ++ [c!"\n"]) ++ [c!"[ C E L L ]\n"] ++
    (cl ++ [c!"\n"]) ++ [c!"[ I M P O R T A N C E ]\n"] ++ (rl ++ [c!"\n"]) ++ [c!"[ M A T E R I A L ]\n"] ++ (ml ++ [c!"\n"])
  have hnl : ∀ {ls : List Str}, (∀ l ∈ ls, phitsTitle l = none) → ∀ l ∈ ls ++ [c!"\n"], phitsTitle l = none := by
    intro ls h l hl
    rcases List.mem_append.1 hl with hl | hl
    · exact h l hl
    · rw [List.mem_singleton] at hl; subst hl; decide
  have hall : ∀ l ∈ all, ∃ t, '\n' ∉ t ∧ l = t ++ ['\n'] := by
    have hlit : ∀ l : Str, '\n' ∉ l.dropLast → l = l.dropLast ++ ['\n'] → ∃ t, '\n' ∉ t ∧ l = t ++ ['\n'] := fun l h1 h2 => ⟨_, h1, h2⟩
    have hfix : ∀ l ∈ [c!"\n", c!"[ T I T L E ]\n", c!"[ P A R A M E T E R S ]\n", c!"[ S U R F A C E ]\n", c!"[ C E L L ]\n", c!"[ I M P O R T A N C E ]\n", c!"[ M A T E R I A L ]\n"] ++ phitsHead ++ phitsParameters,
        '\n' ∉ l.dropLast ∧ l = l.dropLast ++ ['\n'] := by decide
    intro l hl
    simp only [all, List.mem_append, List.mem_singleton] at hl
    rcases hl with ((((((((((hl | hl) | hl) | hl) | hl) | (hl | hl)) | hl) | (hl | hl)) | hl) | (hl | hl)) | hl) | (hl | hl)
    · exact hlit l (hfix l (by simp [hl])).1 (hfix l (by simp [hl])).2
    · exact hlit l (hfix l (by simp [hl])).1 (hfix l (by simp [hl])).2
    · exact hlit l (hfix l (by simp [hl])).1 (hfix l (by simp [hl])).2
    · exact hlit l (hfix l (by simp [hl])).1 (hfix l (by simp [hl])).2
    · exact hlit l (hfix l (by simp [hl])).1 (hfix l (by simp [hl])).2
    · exact hsc l hl
    · exact hlit l (hfix l (by simp [hl])).1 (hfix l (by simp [hl])).2
    · exact hlit l (hfix l (by simp [hl])).1 (hfix l (by simp [hl])).2
    · exact hcc l hl
    · exact hlit l (hfix l (by simp [hl])).1 (hfix l (by simp [hl])).2
    · exact hlit l (hfix l (by simp [hl])).1 (hfix l (by simp [hl])).2
    · exact hrc l hl
    · exact hlit l (hfix l (by simp [hl])).1 (hfix l (by simp [hl])).2
    · exact hlit l (hfix l (by simp [hl])).1 (hfix l (by simp [hl])).2
    · exact hmc l hl
    · exact hlit l (hfix l (by simp [hl])).1 (hfix l (by simp [hl])).2
  refine ⟨all.flatten, ⟨max f1 (max f2 f3), fun fuel hfu => ?_⟩, phitsHead, phitsParameters, sl ++ [c!"\n"], cl ++ [c!"\n"], rl ++ [c!"\n"], ml ++ [c!"\n"], ?_, by decide,
    ⟨scards, hsr, hsR⟩, ⟨ccards, hcr, hcR⟩, ⟨rows, hrr, hrR⟩, mcards, hmr, hmR⟩
  · unfold phitsFile
    refine (returns_bind _ _ _).2 ⟨sl.flatten, hsw fuel (by omega), (returns_bind _ _ _).2 ⟨cl.flatten, hcw fuel (by omega), (returns_bind _ _ _).2 ⟨ml.flatten, hmw fuel (by omega),
      (returns_pure _ _).2 ?_⟩⟩⟩
    have hstart : c!"[ T I T L E ]\n" ++ phitsHead.flatten ++ c!"[ P A R A M E T E R S ]\n" ++ phitsParameters.flatten =
        c!"[ T I T L E ]\nThis PHITS file was produced automatically by csg2csg \n\n[ P A R A M E T E R S ]\nicntl = 11\nmaxbch = 10\nmaxcas = 1000000\n" ++ c!"\n" := by decide
    simp only [all, List.flatten_append, List.flatten_singleton]
    rw [hstart, hrw]
    simp only [List.append_assoc]
  · have : readlines all.flatten = all := by
      have := readlines_lines all [] hall
      simpa [readlines] using this
    rw [this]
    exact sections_of _ _ _ _ (hnl hst) (hnl hct) (hnl hrt) (hnl hmt)

end

/-! ## Example and refutations -/

private def sampleBall : Surface ℚ := { Surface.blank with id := 1, type := .sphereGeneral, coeffs := [0, 0, 0, 5], bc := .reflecting }

private def sampleGas : Material ℚ := { name := c!"gas", number := c!"2", composition := [(c!"1001", 1), (c!"8016", 2)], xsid := [(c!"1001", c!"70c"), (c!"8016", [])], density := -7 }

private def sampleEnv : Env ℚ :=
  { fuel := 100, io := sampleIO, fixed := sampleIO.render, sci := sampleIO.render, sci4 := sampleIO.render, sci3 := sampleIO.render, sqrt := id, degAtan := id, orderStr := id, orderInt := id }

/-- A deck that meets the hypotheses of `C89_file_partial`, and its file. -/
example : PhitsDeck sampleIO [writtenCell] [sampleBall] [(c!"2", sampleGas)] ∧
    (phitsFile sampleEnv [writtenCell] [sampleBall] [(c!"2", sampleGas)]).run = .ok (some (c!"[ T I T L E ]\nThis PHITS file was produced automatically by csg2csg \n\n" ++
      c!"[ P A R A M E T E R S ]\nicntl = 11\nmaxbch = 10\nmaxcas = 1000000\n\n[ S U R F A C E ]\n*1 s 0.0 0.0 0.0 5.0\n\n[ C E L L ]\n3 2 -7.0 ( -1 : 2 ) # ( 4 ) u=5 fill=6 (1 2 3 )\n\n" ++
      c!"[ I M P O R T A N C E ]\n   reg       imp   \n    3        1.0\n\n[ M A T E R I A L ]\nM2     1001.70c 1.0\n     8016. 2.0\n\n")) := by
  have hfl1 : FloatText (sampleIO.render (1 : ℚ)) :=
    ⟨[], c!"1", c!".0", [], by decide +kernel, Or.inl rfl, by decide, by decide, Or.inr ⟨c!"0", rfl, by decide⟩, Or.inl rfl⟩
  have hfl2 : FloatText (sampleIO.render (2 : ℚ)) :=
    ⟨[], c!"2", c!".0", [], by decide +kernel, Or.inl rfl, by decide, by decide, Or.inr ⟨c!"0", rfl, by decide⟩, Or.inl rfl⟩
  refine ⟨⟨?_, ?_, by decide, ?_, ?_⟩, by decide +kernel⟩
  · intro s hs
    rw [List.mem_singleton] at hs
    subst hs
    refine ⟨rfl, by decide, by decide, ?_⟩
    intro x hx
    simp [sampleBall] at hx
    rcases hx with rfl | rfl <;> exact sample_good _ (by decide +kernel)
  · intro c hc
    rw [List.mem_singleton] at hc
    subst hc
    refine ⟨_, _, writtenCell_geometry, writtenCell_params, by unfold PhitsQuiet; decide, ?_, ?_, by unfold PhitsQuiet; decide⟩
    · intro u hu; cases hu; unfold PhitsQuiet; decide
    · intro u hu; cases hu; unfold PhitsQuiet; decide
  · intro c hc
    rw [List.mem_singleton] at hc
    subst hc
    exact ⟨hfl1, by decide +kernel⟩
  · intro m hm
    rw [List.mem_singleton] at hm
    subst hm
    refine ⟨⟨⟨by decide, by decide⟩, by decide, by decide, by decide, by decide, ?_⟩, ?_⟩
    · intro e he
      simp [sampleGas] at he
      rcases he with rfl | rfl
      · exact ⟨hfl1, by decide +kernel⟩
      · exact ⟨hfl2, by decide +kernel⟩
    · intro e he
      simp [sampleGas] at he
      rcases he with rfl | rfl
      · exact ⟨c!"70c", rfl, by decide⟩
      · exact ⟨[], rfl, by decide⟩

private def halfCone : Surface ℚ := { Surface.blank with id := 7, type := .coneX, coeffs := [0, 0, 0, 1, 1] }

/-- C89 is false for cones with one sheet: PHITS reads both sheets. -/
theorem C89_refuted_cone : ¬ ∀ (sqrt : ℚ → ℚ) (e : Env ℚ) (s : Surface ℚ), WellFormed s → IsQuadric s.type → (∀ x ∈ s.coeffs, e.io.Good x) →
    ∀ out, Returns (phitsFile e [] [s] []) out → ∃ ls cards, (c!"surface", ls) ∈ (phitsSections (readlines out)).2 ∧ phitsCards ls = ([], cards) ∧
      List.Forall₂ (PhitsSurfaceSays sqrt e.io) [s] cards := by
  intro h
  have hgood : ∀ x ∈ halfCone.coeffs, sampleIO.Good x := by
    intro x hx
    simp [halfCone] at hx
    rcases hx with rfl | rfl <;> exact sample_good _ (by decide +kernel)
  obtain ⟨ls, cards, h1, h2, h3⟩ := h id sampleEnv halfCone rfl trivial hgood
    (c!"[ T I T L E ]\nThis PHITS file was produced automatically by csg2csg \n\n[ P A R A M E T E R S ]\nicntl = 11\nmaxbch = 10\nmaxcas = 1000000\n\n[ S U R F A C E ]\n7 k/x 0.0 0.0 0.0 1.0\n\n[ C E L L ]\n\n" ++
      c!"[ I M P O R T A N C E ]\n   reg       imp   \n\n[ M A T E R I A L ]\n\n") (by unfold Returns; decide +kernel)
  have hls : ls = [c!"7 k/x 0.0 0.0 0.0 1.0\n", c!"\n"] := by
    have : ∀ p ∈ (phitsSections (readlines (c!"[ T I T L E ]\nThis PHITS file was produced automatically by csg2csg \n\n[ P A R A M E T E R S ]\nicntl = 11\nmaxbch = 10\nmaxcas = 1000000\n\n[ S U R F A C E ]\n7 k/x 0.0 0.0 0.0 1.0\n\n[ C E L L ]\n\n" ++
      c!"[ I M P O R T A N C E ]\n   reg       imp   \n\n[ M A T E R I A L ]\n\n"))).2, p.1 = c!"surface" → p.2 = [c!"7 k/x 0.0 0.0 0.0 1.0\n", c!"\n"] := by decide +kernel
    exact this _ h1 rfl
  subst hls
  have hc : cards = [[c!"7", c!"k/x", c!"0.0", c!"0.0", c!"0.0", c!"1.0"]] := by
    have : phitsCards [c!"7 k/x 0.0 0.0 0.0 1.0\n", c!"\n"] = ([], [[c!"7", c!"k/x", c!"0.0", c!"0.0", c!"0.0", c!"1.0"]]) := by decide
    rw [this] at h2
    exact (Prod.mk.inj h2).2.symm
  subst hc
  cases h3 with
  | cons h3 _ =>
    obtain ⟨mn, ns, vals, e1, e2, e3⟩ := h3
    obtain ⟨rfl, rfl⟩ : mn = c!"k/x" ∧ ns = [c!"0.0", c!"0.0", c!"0.0", c!"1.0"] := by
      have := (List.cons.inj e1).2
      exact ⟨(List.cons.inj this).1.symm, (List.cons.inj this).2.symm⟩
    have hv : vals = [0, 0, 0, 1] := by
      have hz : sampleIO.parse c!"0.0" = some (0 : ℚ) := by decide +kernel
      have ho : sampleIO.parse c!"1.0" = some (1 : ℚ) := by decide +kernel
      unfold Reads at e2
      cases e2 with
      | cons a e2 => cases e2 with
        | cons b e2 => cases e2 with
          | cons c e2 => cases e2 with
            | cons d e2 =>
              cases e2
              rw [show sampleEnv.io.parse c!"0.0" = some (0 : ℚ) from hz] at a b c
              rw [show sampleEnv.io.parse c!"1.0" = some (1 : ℚ) from ho] at d
              cases a; cases b; cases c; cases d
              rfl
    subst hv
    obtain ⟨d, k1, k2⟩ := e3 ⟨-1, 0, 0⟩
    have q1 : cardSide (id : ℚ → ℚ) c!"k/x" [0, 0, 0, 1] ⟨-1, 0, 0⟩ = some .neg := by decide +kernel
    have q2 : side (id : ℚ → ℚ) halfCone.type halfCone.coeffs ⟨-1, 0, 0⟩ = some .pos := by decide +kernel
    rw [q1] at k1
    rw [q2] at k2
    cases k1
    cases k2

/-- C89 is false for materials without nuclides: the name of the card runs into the next one, so that neither is defined. -/
theorem C89_refuted_material : ¬ ∀ (e : Env ℚ) (ms : List (Str × Material ℚ)), (∀ m ∈ ms, m.2.number ≠ [] ∧ (∀ c ∈ m.2.number, isDigit c = true) ∧ PrintableXs m.2) →
    ∀ out, Returns (phitsFile e [] [] ms) out → ∃ ls cards, (c!"material", ls) ∈ (phitsSections (readlines out)).2 ∧ phitsCards ls = ([], cards) ∧ cards.length = ms.length := by
  intro h
  obtain ⟨ls, cards, h1, h2, h3⟩ := h sampleEnv [(c!"1", { sampleGas with number := c!"1", composition := [] }), (c!"2", sampleGas)]
    (by
      intro m hm
      simp at hm
      rcases hm with rfl | rfl
      · exact ⟨by decide, by decide, fun e he => absurd he (by simp)⟩
      · refine ⟨by decide, by decide, fun e he => ?_⟩
        simp [sampleGas] at he
        rcases he with rfl | rfl
        · exact ⟨c!"70c", rfl, by decide⟩
        · exact ⟨[], rfl, by decide⟩)
    (c!"[ T I T L E ]\nThis PHITS file was produced automatically by csg2csg \n\n[ P A R A M E T E R S ]\nicntl = 11\nmaxbch = 10\nmaxcas = 1000000\n\n[ S U R F A C E ]\n\n[ C E L L ]\n\n" ++
      c!"[ I M P O R T A N C E ]\n   reg       imp   \n\n[ M A T E R I A L ]\nM1M2     1001.70c 1.0\n     8016. 2.0\n\n") (by unfold Returns; decide +kernel)
  have : ∀ p ∈ (phitsSections (readlines (c!"[ T I T L E ]\nThis PHITS file was produced automatically by csg2csg \n\n[ P A R A M E T E R S ]\nicntl = 11\nmaxbch = 10\nmaxcas = 1000000\n\n[ S U R F A C E ]\n\n[ C E L L ]\n\n" ++
      c!"[ I M P O R T A N C E ]\n   reg       imp   \n\n[ M A T E R I A L ]\nM1M2     1001.70c 1.0\n     8016. 2.0\n\n"))).2, p.1 = c!"material" → (phitsCards p.2).2.length = 1 := by decide +kernel
  have := this _ h1 rfl
  rw [h2] at this
  rw [h3] at this
  cases this

end Csg
