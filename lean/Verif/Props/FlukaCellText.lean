import Verif.Lemmas.FlukaCell
import Verif.Props.McnpCellText
import Verif.Spec.Dedupe

/-!
# Written FLUKA regions: C32
-/

namespace Csg

open Spec

/-- A FLUKA body of the given name is true inside, that is on the negative side of the surface with its number. -/
def Spec.bodySense (σ : Int → Prop) (name : Str) : Prop := ∃ n : Nat, name = 'S' :: natStr n ∧ σ (-n)

section
variable {K : Type} [Field K]

omit [Field K] in
/-- **C32, the part that holds.** If every complement sign stands directly before an opening parenthesis, then the region written for the cell, after its name and the number 5, is read by FLUKA
as an expression that is true where the description is true. `σ` gives the points of the signed surfaces; the two sides of each surface in the description are complementary.
Missing: complements of single surfaces, see `C32_refuted`. -/
theorem C32_region_partial (c : Cell K) (hn : NotsOpen c.interpreted)
    (hw : ∀ s, .str s ∈ c.interpreted → ¬ IsParen s → ∃ z, z ≠ 0 ∧ pyInt s = .ok z) :
    ∃ G syms, writeFlukaCell c = .ok (c!" C" ++ intStr c.id ++ c!" 5 " ++ G) ∧ lexFluka G = some syms ∧
      (Legal (itemSyms c.interpreted) → Legal syms ∧
        ∀ σ : Int → Prop, (∀ z ∈ numbers c.interpreted, z ≠ 0 → (σ (-z) ↔ ¬ σ z)) → (Holds (bodySense σ) syms ↔ Holds (wordSense σ) (itemSyms c.interpreted))) := by
  obtain ⟨ws, h1, h2⟩ := fluka_items_lex c.interpreted hn hw
  have h3 := h2 c!" ) \n" [.rp] (by
    intro acc
    show lexSigned acc (' ' :: ')' :: ' ' :: ['\n']) = _
    rw [lexSigned_space, lexSigned_rp, lexSigned_space]
    unfold lexSigned
    unfold lexSigned
    simp [isSpace, pending]) []
  let B : Str := '(' :: ' ' :: (ws.flatten ++ c!" ) \n")
  refine ⟨flukaSigns (squeezePairs ' ' B), .lp :: (substSyms flukaLiteral (itemSyms c.interpreted) ++ [.rp]), ?_, ?_, ?_⟩
  · unfold writeFlukaCell
    rw [h1]
    show (.ok _ : Py Str) = _
    congr 1
    have hid : ' ' ∉ 'C' :: intStr c.id := by
      have := intStr_not_mem c.id (c := ' ') (by decide) (by decide)
      simp [this]
    have e : c!" C" ++ intStr c.id ++ c!" 5 " ++ c!"( " ++ ws.flatten ++ c!" ) " ++ c!"\n" =
        [] ++ ' ' :: 'C' :: (intStr c.id ++ ' ' :: '5' :: ([] ++ ' ' :: B)) := by simp [B]
    have e5 : squeezePairs ' ' ('5' :: ' ' :: B) = '5' :: ' ' :: squeezePairs ' ' B :=
      squeezePairs_word (w := c!"5") (by decide) (d := '(') (by decide) _
    have eB : squeezePairs ' ' B = '(' :: squeezePairs ' ' (' ' :: (ws.flatten ++ c!" ) \n")) := squeezePairs_cons_ne (by decide) _
    have f5 : flukaSigns ('5' :: ' ' :: squeezePairs ' ' B) = '5' :: ' ' :: flukaSigns (squeezePairs ' ' B) := by
      rw [eB]
      exact flukaSigns_word (w := c!"5") (by decide) (d := '(') (by decide) _
    rw [e, squeezePairs_word (w := []) (by decide) (d := 'C') (by decide)]
    have s1 := squeezePairs_word hid (d := '5') (by decide) (' ' :: B)
    have s2 := flukaSigns_word hid (d := '5') (by decide) (' ' :: squeezePairs ' ' B)
    simp only [List.cons_append, List.nil_append] at s1 s2 ⊢
    rw [s1, e5, flukaSigns_other ' ' _ (by rintro ⟨r, h, -⟩; revert h; decide), s2, f5]
    simp
  · unfold lexFluka
    rw [lexSigned_signs]
    refine lexSigned_squeeze _ _ _ ?_
    show lexSigned [] ('(' :: ' ' :: (ws.flatten ++ c!" ) \n")) = _
    rw [lexSigned_lp, lexSigned_space, h3]
    simp [pending]
  · intro hl
    have sub : ∀ σ : Int → Prop, (∀ z ∈ numbers c.interpreted, z ≠ 0 → (σ (-z) ↔ ¬ σ z)) →
        Legal (substSyms flukaLiteral (itemSyms c.interpreted)) ∧
          (Holds (bodySense σ) (substSyms flukaLiteral (itemSyms c.interpreted)) ↔ Holds (wordSense σ) (itemSyms c.interpreted)) := by
      intro σ hσ
      refine holds_subst (wordSense σ) (bodySense σ) flukaLiteral hl ?_
      intro a ha
      have ha := mem_symAtoms.1 ha
      obtain ⟨hit, hp⟩ := atom_of_itemSyms ha
      obtain ⟨z, hz, hza⟩ := hw a hit hp
      have hparse := pyInt_ok.1 hza
      have hword : wordSense σ a ↔ σ z := by
        unfold wordSense
        simp [hparse]
      have hbody : bodySense σ ('S' :: natStr z.natAbs) ↔ σ (-(z.natAbs : Int)) := by
        constructor
        · rintro ⟨n, hn, h⟩
          rw [natStr_injective (List.cons.inj hn).2]
          exact h
        · exact fun h => ⟨_, rfl, h⟩
      by_cases hneg : z < 0
      · refine ⟨.atom ('S' :: natStr z.natAbs), by simp only [flukaLiteral, hparse, if_pos hneg]; exact .atom _, ?_⟩
        show bodySense σ _ ↔ _
        rw [hbody, hword, show -(z.natAbs : Int) = z by omega]
      · refine ⟨.compl (.atom ('S' :: natStr z.natAbs)), by simp only [flukaLiteral, hparse, if_neg hneg]; exact .compl (.atom _), ?_⟩
        show ¬ bodySense σ _ ↔ _
        rw [hbody, hword, show -(z.natAbs : Int) = -z by omega, hσ z (List.mem_filterMap.2 ⟨a, List.mem_filterMap.2 ⟨_, hit, rfl⟩, hparse⟩) hz, not_not]
    have h0 := (sub (fun z => z < 0) (by intro z _ hz; constructor <;> intro h <;> omega)).1
    exact ⟨(holds_paren h0 (fun _ => True)).1, fun σ hσ => (holds_paren h0 _).2.trans (sub σ hσ).2⟩

omit [Field K] in
/-- **C32.** The condition of `C32_region_partial` is established by interpreting a card in which every `#` that stands alone is followed by an opening parenthesis, and kept by the
expansion of complements and by the renaming of surfaces. -/
theorem C32_nots_open (tokens : List Str) (is : List Item) (ns : List Int) (h : generalise tokens = .ok (is, ns))
    (ht : ∀ a b, tokens = a ++ c!"#" :: b → b.head? = some c!"(") :
    NotsOpen is ∧
    (∀ (cells : List (Cell K)) (is'), splitNots cells is = .ok is' → (∀ c ∈ cells, NotsOpen c.interpreted) → NotsOpen is') ∧
    ∀ ref new reverse is', replaceSurface ref new reverse is = .ok is' → NotsOpen is' := by
  have hs : NotsOpen is := by
    unfold generalise at h
    split at h
    · cases h
    · exact (generaliseGo_notsOpen _ _ _ _ h ht).1
  exact ⟨hs, fun _ _ h' hc => splitNots_notsOpen h' hs hc, fun _ _ _ _ h' => notsOpen_sameKind (replaceSurface_sameKind h') hs⟩

end

/-- **C32 fails** for complements of single surfaces: for `-1 # 5` the text is ` C1 5 ( +S1 -  -S5 ) `, in which a sign stands before a blank. -/
theorem C32_refuted : ¬ ∀ (tokens : List Str) (is : List Item) (ns : List Int) (c : Cell ℚ), generalise tokens = .ok (is, ns) → Legal (tokenSyms tokens) →
    c.interpreted = is → (∀ s, .str s ∈ is → ¬ IsParen s → ∃ z, z ≠ 0 ∧ pyInt s = .ok z) →
    ∃ G syms, writeFlukaCell c = .ok (c!" C" ++ intStr c.id ++ c!" 5 " ++ G) ∧ lexFluka G = some syms := by
  intro h
  obtain ⟨G, syms, h1, h2⟩ := h [c!"-1", c!"#", c!"5"] [.op .and, .str c!"-1", .op .not, .op .and, .str c!"5"] [1, 5] { (Cell.blank : Cell ℚ) with id := 1, interpreted := [.op .and, .str c!"-1", .op .not, .op .and, .str c!"5"] }
    (by decide +kernel) ⟨.inter (.atom c!"-1") (.compl (.atom c!"5")), .one (.inter (w := [.atom c!"-1"]) (.single (.atom _)) (.compl (.atom _)))⟩ rfl
    (by
      intro s hs hp
      simp at hs
      rcases hs with rfl | rfl
      · exact ⟨-1, by decide, by decide +kernel⟩
      · exact ⟨5, by decide, by decide +kernel⟩)
  have e : writeFlukaCell { (Cell.blank : Cell ℚ) with id := 1, interpreted := [.op .and, .str c!"-1", .op .not, .op .and, .str c!"5"] } =
      .ok (c!" C" ++ intStr 1 ++ c!" 5 " ++ c!"(  +S1 -  -S5 ) \n") := by decide +kernel
  rw [e] at h1
  have hG := List.append_cancel_left (Except.ok.inj h1)
  rw [← hG] at h2
  have hnone : lexFluka c!"(  +S1 -  -S5 ) \n" = none := by decide +kernel
  rw [hnone] at h2
  cases h2

/-! ## Examples -/

/-- The hypotheses of `C32_region_partial` are met by the cell `3 2 -7 (-1 : 2) #(4)`, and what is written. -/
theorem writtenCell_fluka : NotsOpen writtenCell.interpreted ∧ (∀ s, .str s ∈ writtenCell.interpreted → ¬ IsParen s → ∃ z, z ≠ 0 ∧ pyInt s = .ok z) ∧
    Legal (itemSyms writtenCell.interpreted) ∧
    writeFlukaCell writtenCell = .ok c!" C3 5 ( +( +S1 |  -S2 )  -( -S4 ) ) \n" := by
  have h : generalise [c!"(", c!"-1", c!":", c!"2", c!")", c!"#", c!"(", c!"4", c!")"] = .ok (writtenCell.interpreted, [2]) := by decide +kernel
  refine ⟨(C32_nots_open (K := ℚ) _ _ _ h ?_).1, ?_, ?_, by decide +kernel⟩
  · intro a b e
    rcases a with _ | ⟨_, _ | ⟨_, _ | ⟨_, _ | ⟨_, _ | ⟨_, _ | ⟨_, _ | ⟨_, _ | ⟨_, _ | ⟨_, a⟩⟩⟩⟩⟩⟩⟩⟩⟩ <;> simp at e
    rw [← e.2.2.2.2.2]
    rfl
  · intro s hs hp
    simp [writtenCell] at hs
    rcases hs with rfl | rfl | rfl | rfl | rfl | rfl | rfl
    · exact absurd (by decide) hp
    · exact ⟨-1, by decide, by decide +kernel⟩
    · exact ⟨2, by decide, by decide +kernel⟩
    · exact absurd (by decide) hp
    · exact absurd (by decide) hp
    · exact ⟨4, by decide, by decide +kernel⟩
    · exact absurd (by decide) hp
  · refine ⟨.inter (.union (.atom c!"-1") (.atom c!"2")) (.compl (.atom c!"4")), ?_⟩
    refine .one (.inter (w := [.lp, .atom c!"-1", .un, .atom c!"2", .rp]) (w' := [.no, .lp, .atom c!"4", .rp]) (.single ?_) ?_)
    · exact .paren (w := [.atom c!"-1", .un, .atom c!"2"]) (.union (w := [.atom c!"-1"]) (.one (.single (.atom _))) (.single (.atom _)))
    · exact .compl (.paren (w := [.atom c!"4"]) (.one (.single (.atom _))))

end Csg
