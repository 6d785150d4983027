import Verif.Lemmas.McnpCell
import Verif.Lemmas.Spaced
import Verif.Spec.Sample

/-!
# Written MCNP and PHITS cells: C28, C65
-/

namespace Csg

open Spec

section
variable {K : Type} [Field K] [DecidableEq K]

/-- **C28, C65.** The card written for a cell (with importances: MCNP, without: PHITS) is wrapped correctly. Its words are the number, the material, the density if the
material is not 0, the geometry `g` and the parameters `p`, which start with the first word that begins with a letter. -/
theorem written_card (io : NumIO K) (c : Cell K) (importances : Bool) (offs rots : List Str) (hw : Writable io GeometryWord c)
    (hp : WritableParams io c offs rots) :
    ∃ out g p, (∃ fuel₀, ∀ fuel ≥ fuel₀, writeMcnpCell fuel io c importances = .ok (some out)) ∧ WellWrapped out ∧
      split out = (intStr c.id :: c.material.text :: (if c.material = .int 0 then [] else [io.render c.density])) ++ g ++ p ∧
      (∀ w ∈ g, ∀ ch ∈ w, ch.isAlpha = false) ∧ (∀ w, p.head? = some w → ∃ ch t, w = ch :: t ∧ ch.isAlpha = true) ∧
      g.flatMap lexGeometry = itemSyms c.interpreted ∧ p.flatMap lexParens = paramSyms io c offs rots importances := by
  obtain ⟨T, g, p, hT, hrun, hone, hs, hg, hpar, hlp⟩ := mcnpCellText_spec io c importances offs rots hw hp
  obtain ⟨out, ⟨f0, hf⟩, hsplit, hwrap⟩ := C33_wrapping T (maxRun_of_runOk (runOk_le_bound hrun (by omega))) hone
  refine ⟨out, split g, split p, ⟨f0, fun fuel hfu => by simp [writeMcnpCell, hT, hf fuel hfu, bind, Except.bind]⟩, hwrap, by rw [hsplit, hs], ?_, ?_, ?_, ?_⟩
  · intro w hw' ch hch
    have hc := mem_of_mem_split hw' hch
    rw [hg] at hc
    obtain ⟨it, hit, hc⟩ := List.mem_flatMap.1 hc
    rcases mcnpItem_chars hc with rfl | rfl | rfl | ⟨s, rfl, hs'⟩
    · decide
    · decide
    · decide
    · by_cases hpn : IsParen s
      · rcases hpn with rfl | rfl <;> simp at hs' <;> subst hs' <;> decide
      · rcases (hw.words s hit hpn).1.2.2 ch hs' with h | rfl | rfl | rfl
        · unfold isDigit at h
          simp only [Bool.or_eq_true, beq_iff_eq] at h
          rcases h with ((((((((rfl | rfl) | rfl) | rfl) | rfl) | rfl) | rfl) | rfl) | rfl) | rfl <;> decide
        · decide
        · decide
        · decide
  · intro w hw'
    rcases hpar with rfl | ⟨ch, t, rfl, hch⟩
    · simp [split_nil] at hw'
    · rw [split_space_cons ' ' _ (by decide)] at hw'
      have hns : isSpace ch = false := by
        by_contra h
        simp only [Bool.not_eq_false] at h
        unfold isSpace at h
        simp only [Bool.or_eq_true, beq_iff_eq] at h
        rcases h with ((((rfl | rfl) | rfl) | rfl) | rfl) | rfl <;> revert hch <;> decide
      have key : ∀ (t acc : Str), acc ≠ [] → ∃ t' ws, splitGo acc t = (acc ++ t') :: ws := by
        intro t
        induction t with
        | nil => intro acc ha; exact ⟨[], [], by simp [splitGo, flush, ha]⟩
        | cons x t ih =>
          intro acc ha
          unfold splitGo
          split
          · exact ⟨[], splitGo [] t, by simp [flush, ha]⟩
          · obtain ⟨t', ws, e⟩ := ih (acc ++ [x]) (by simp)
            exact ⟨x :: t', ws, by rw [e]; simp⟩
      obtain ⟨t', ws, e⟩ := key t [ch] (by simp)
      have : split (ch :: t) = (ch :: t') :: ws := by
        unfold split splitGo
        rw [if_neg (by simp [hns])]
        exact e
      rw [this] at hw'
      simp at hw'
      exact ⟨ch, t', hw'.symm, hch⟩
  · rw [← lexGeometry_split, hg, mcnp_items_lex hw.spaced hw.words]
  · rw [show lexParens = lexCharsGo parenChar [] from rfl, ← lexChars_split]
    exact hlp

/-- **C28.** MCNP reads the geometry of the written card as the description of the cell: the same symbols, hence an expression if the
description is one, true at the same points. `importances` is true for MCNP and false for PHITS. -/
theorem C28_cell_text (io : NumIO K) (c : Cell K) (importances : Bool) (offs rots : List Str) (hw : Writable io GeometryWord c)
    (hp : WritableParams io c offs rots) :
    ∃ out g p, (∃ fuel₀, ∀ fuel ≥ fuel₀, writeMcnpCell fuel io c importances = .ok (some out)) ∧ WellWrapped out ∧
      split out = (intStr c.id :: c.material.text :: (if c.material = .int 0 then [] else [io.render c.density])) ++ g ++ p ∧
      (∀ w ∈ g, ∀ ch ∈ w, ch.isAlpha = false) ∧ (∀ w, p.head? = some w → ∃ ch t, w = ch :: t ∧ ch.isAlpha = true) ∧
      g.flatMap lexGeometry = itemSyms c.interpreted ∧ (Legal (g.flatMap lexGeometry) ↔ Legal (itemSyms c.interpreted)) ∧
      ∀ σ : Str → Prop, Holds σ (g.flatMap lexGeometry) ↔ Holds σ (itemSyms c.interpreted) := by
  obtain ⟨out, g, p, h1, h2, h3, h4, h5, h6, h7⟩ := written_card io c importances offs rots hw hp
  exact ⟨out, g, p, h1, h2, h3, h4, h5, h6, by rw [h6], fun σ => by rw [h6]⟩

omit [Field K] [DecidableEq K] in
/-- **C28.** The spacing that `C28_cell_text` asks for is established by interpreting a card whose geometry is an expression, and kept by the expansion of
complements and by the renaming of surfaces. -/
theorem C28_spaced (tokens : List Str) (is : List Item) (ns : List Int) (h : generalise tokens = .ok (is, ns)) (hl : Legal (tokenSyms tokens)) :
    Spaced is ∧
    (∀ (cells : List (Cell K)) (is'), splitNots cells is = .ok is' → (∀ c ∈ cells, Spaced c.interpreted) → Spaced is') ∧
    ∀ ref new reverse is', replaceSurface ref new reverse is = .ok is' → Spaced is' :=
  have hs := generalise_spaced h hl
  ⟨hs, fun _ _ h' hc => splitNots_spaced h' hs hc, fun _ _ _ _ h' => replaceSurface_spaced h' hs⟩

/-- **C65.** The written card carries universe, fill with its transform, and importance of the cell, in this order. -/
theorem C65_parameters (io : NumIO K) (c : Cell K) (importances : Bool) (offs rots : List Str) (hw : Writable io GeometryWord c)
    (hp : WritableParams io c offs rots) :
    ∃ out g p, (∃ fuel₀, ∀ fuel ≥ fuel₀, writeMcnpCell fuel io c importances = .ok (some out)) ∧
      split out = (intStr c.id :: c.material.text :: (if c.material = .int 0 then [] else [io.render c.density])) ++ g ++ p ∧
      (∀ w ∈ g, ∀ ch ∈ w, ch.isAlpha = false) ∧ (∀ w, p.head? = some w → ∃ ch t, w = ch :: t ∧ ch.isAlpha = true) ∧
      p.flatMap lexParens = paramSyms io c offs rots importances := by
  obtain ⟨out, g, p, h1, h2, h3, h4, h5, h6, h7⟩ := written_card io c importances offs rots hw hp
  exact ⟨out, g, p, h1, h3, h4, h5, h7⟩

end

/-! ## Examples -/

/-- `3 2 -7 (-1 : 2) #(4) ` in universe 5, filled with universe 6 shifted by 1 2 3. -/
def writtenCell : Cell ℚ := { (Cell.blank : Cell ℚ) with id := 3, density := -7, material := .int 2, interpreted := [.str c!"(", .str c!"-1", .op .union, .op .and, .str c!"2", .str c!")", .op .not, .str c!"(", .str c!"4", .str c!")"], uni := some c!"5", fill := some c!"6", offset := some [.txt c!"1", .txt c!"2", .txt c!"3"] }

theorem sample_good (x : ℚ) (h : sampleIO.parse (sampleIO.render x) = some x ∧ sampleIO.render x ≠ [] ∧
      (sampleIO.render x).length ≤ 24 ∧ ∀ c ∈ sampleIO.render x,
        isDigit c = true ∨ c = '+' ∨ c = '-' ∨ c = '.' ∨ c = 'e') : sampleIO.Good x := ⟨h.1, h.2.1, h.2.2.1, h.2.2.2⟩

instance (s : Str) : Decidable (IsParen s) := inferInstanceAs (Decidable (_ ∨ _))

theorem wordsAre_of {P : Str → Prop} {is : List Item} (h : ∀ i ∈ is, match i with | .op _ => True | .str s => IsParen s ∨ (P s ∧ s.length ≤ 60)) :
    WordsAre P is := by
  intro s hs hp
  have := h _ hs
  simp only at this
  rcases this with h | h
  · exact absurd h hp
  · exact h

theorem writtenCell_spaced : Spaced writtenCell.interpreted := by
  have h : generalise [c!"(", c!"-1", c!":", c!"2", c!")", c!"#", c!"(", c!"4", c!")"] = .ok (writtenCell.interpreted, [2]) := by decide +kernel
  refine generalise_spaced h ⟨.inter (.union (.atom c!"-1") (.atom c!"2")) (.compl (.atom c!"4")), ?_⟩
  refine .one (.inter (w := [.lp, .atom c!"-1", .un, .atom c!"2", .rp]) (w' := [.no, .lp, .atom c!"4", .rp]) (.single ?_) ?_)
  · exact .paren (w := [.atom c!"-1", .un, .atom c!"2"]) (.union (w := [.atom c!"-1"]) (.one (.single (.atom _))) (.single (.atom _)))
  · exact .compl (.paren (w := [.atom c!"4"]) (.one (.single (.atom _))))

theorem writtenCell_words : WordsAre SurfaceWord writtenCell.interpreted := by
  apply wordsAre_of
  intro i hi
  simp [writtenCell] at hi
  rcases hi with rfl | rfl | rfl | rfl | rfl | rfl | rfl | rfl | rfl | rfl <;>
    first
    | trivial
    | exact Or.inl (by decide)
    | exact Or.inr ⟨⟨by decide, by decide⟩, by decide⟩

theorem writtenCell_writable : Writable sampleIO SurfaceWord writtenCell :=
  ⟨writtenCell_spaced, writtenCell_words, ⟨by decide, by decide, by decide⟩, ⟨by decide, by decide, by decide⟩,
    fun _ => sample_good _ (by decide +kernel)⟩

theorem writtenCell_geometry : Writable sampleIO GeometryWord writtenCell :=
  ⟨writtenCell_writable.1, wordsAre_imp writtenCell_words fun _ h => surfaceWord_geometryWord h, writtenCell_writable.3, writtenCell_writable.4, writtenCell_writable.5⟩

theorem writtenCell_params : WritableParams sampleIO writtenCell [c!"1", c!"2", c!"3"] [] := by
  refine ⟨?_, ?_, ?_, ?_, sample_good _ (by decide +kernel)⟩
  · intro u hu; cases hu; exact ⟨⟨by decide, by decide, by decide⟩, by decide, by decide⟩
  · intro u hu; cases hu; exact ⟨⟨by decide, by decide, by decide⟩, by decide, by decide⟩
  · intro l hl
    cases hl
    refine ⟨rfl, .cons ?_ (.cons ?_ (.cons ?_ .nil))⟩ <;> exact ⟨⟨⟨by decide, by decide, by decide⟩, by decide, by decide⟩, Or.inl rfl⟩
  · intro l hl; cases hl

/-- The hypotheses of `C28_cell_text` and `C65_parameters` are met, and what is written. -/
example : Writable sampleIO GeometryWord writtenCell ∧ WritableParams sampleIO writtenCell [c!"1", c!"2", c!"3"] [] ∧
    writeMcnpCell 5 sampleIO writtenCell true = .ok (some c!"3 2 -7.0 ( -1 : 2 ) # ( 4 ) u=5 fill=6 (1 2 3 ) IMP:N=1.0\n") :=
  ⟨writtenCell_geometry, writtenCell_params, by decide +kernel⟩

end Csg
