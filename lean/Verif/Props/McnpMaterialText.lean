import Verif.Lemmas.MaterialText
import Verif.Spec.Sample

/-!
# C52: written materials read back
-/

namespace Csg

open Spec

section
variable {K : Type} [Field K]

/-- C52: reading the material cards that the MCNP writer (or the PHITS writer, for `preserve`) has written gives materials with the same numbers and compositions, one for each card and in
their order. The libraries are those of the material if they are preserved, otherwise empty. Partial: a material without any nuclide takes the next card with it, see `C52_refuted_empty`; a nuclide that is
not a number loses capitals or is cut at a dot. -/
theorem C52_roundtrip_partial (io : NumIO K) (preserve comment : Bool) (ms : List (Material K)) (hm : ∀ m ∈ ms, Printable io m) (hx : preserve = true → ∀ m ∈ ms, PrintableXs m)
    (hn : (ms.map Material.number).Nodup) :
    ∃ texts lines mats, ms.mapM (writeMcnpMaterial io preserve comment) = .ok texts ∧ dropComments (readText texts.flatten) = .ok lines ∧ getMaterialCards io [] lines = .ok mats ∧
      mats.map Prod.fst = ms.map Material.number ∧
      List.Forall₂ (fun m p => SameComposition (fun nuc => if preserve then (m.xsid.lookup nuc).getD [] else []) m p.2) ms mats := by
  have h : ∀ m ∈ ms, Printable io m ∧ (preserve = true → PrintableXs m) := fun m h => ⟨hm m h, fun p => hx p m h⟩
  obtain ⟨h1, h2, h3⟩ := materialTexts comment h
  refine ⟨_, _, _, h1, ?_, getMaterialCards_written ms [] h hn (by simp), ?_, ?_⟩
  · have := readText_lines (ms.map (materialLines io preserve comment)).flatten [] h2
    rw [List.append_nil] at this
    have e : (ms.map fun m => (materialLines io preserve comment m).flatten).flatten = (ms.map (materialLines io preserve comment)).flatten.flatten := by
      rw [List.flatten_flatten, List.map_map]
      rfl
    rw [e, this]
    have hnil : readText [] = [] := rfl
    rw [hnil, List.append_nil, h3]
  · simp
  · rw [List.nil_append]
    clear h1 h2 h3 hn hx hm h
    induction ms with
    | nil => exact .nil
    | cons m ms ih => exact .cons ⟨rfl, rfl, rfl⟩ ih

end

/-- Water and iron, not normalised. -/
private def water : Material ℚ := { name := c!"Water H2O", number := c!"3", composition := [(c!"1001", 2), (c!"8016", 1)], xsid := [(c!"1001", c!"70c"), (c!"8016", [])], density := -1 }
private def iron : Material ℚ := { name := c!"M26", number := c!"26", composition := [(c!"26056", -9), (c!"26054", -1)], xsid := [(c!"26056", c!"70c"), (c!"26054", c!"70c")], density := -8 }

private theorem float0 (sign digits : Str) (hs : sign = [] ∨ sign = c!"-") (hd : digits ≠ []) (h : digits.all isDigit = true) : FloatText (sign ++ digits ++ c!".0") :=
  ⟨sign, digits, c!".0", [], by simp, hs, hd, List.all_eq_true.1 h, .inr ⟨c!"0", rfl, by decide⟩, .inl rfl⟩

/-- The hypotheses of `C52_roundtrip_partial` hold, also with libraries. -/
example : (∀ m ∈ [water, iron], Printable sampleIO m) ∧ (∀ m ∈ [water, iron], PrintableXs m) ∧ ([water, iron].map Material.number).Nodup := by
  refine ⟨?_, ?_, by decide⟩
  · intro m hm
    simp only [List.mem_cons, List.not_mem_nil, or_false] at hm
    rcases hm with rfl | rfl
    · refine ⟨by decide, by decide, by decide, by decide, by decide, ?_⟩
      intro e he
      simp only [water, List.mem_cons, List.not_mem_nil, or_false] at he
      rcases he with rfl | rfl
      · exact ⟨float0 [] c!"2" (.inl rfl) (by decide) (by decide), by decide +kernel⟩
      · exact ⟨float0 [] c!"1" (.inl rfl) (by decide) (by decide), by decide +kernel⟩
    · refine ⟨by decide, by decide, by decide, by decide, by decide, ?_⟩
      intro e he
      simp only [iron, List.mem_cons, List.not_mem_nil, or_false] at he
      rcases he with rfl | rfl
      · exact ⟨float0 c!"-" c!"9" (.inr rfl) (by decide) (by decide), by decide +kernel⟩
      · exact ⟨float0 c!"-" c!"1" (.inr rfl) (by decide) (by decide), by decide +kernel⟩
  · intro m hm e he
    simp only [List.mem_cons, List.not_mem_nil, or_false] at hm
    rcases hm with rfl | rfl
    · simp only [water, List.mem_cons, List.not_mem_nil, or_false] at he
      rcases he with rfl | rfl
      · exact ⟨c!"70c", by decide, by decide⟩
      · exact ⟨[], by decide, by decide⟩
    · simp only [iron, List.mem_cons, List.not_mem_nil, or_false] at he
      rcases he with rfl | rfl
      · exact ⟨c!"70c", by decide, by decide⟩
      · exact ⟨c!"70c", by decide, by decide⟩

/-- The text and what is read. -/
example : [water, iron].mapM (writeMcnpMaterial sampleIO true true) = .ok [c!"C Material Water H2O\nM3     1001.70c 2.0\n     8016. 1.0\n",
      c!"C Material M26\nM26     26056.70c -9.0\n     26054.70c -1.0\n"] ∧
    (dropComments (readText c!"C Material Water H2O\nM3     1001.70c 2.0\n     8016. 1.0\nC Material M26\nM26     26056.70c -9.0\n     26054.70c -1.0\n") >>= getMaterialCards sampleIO []) =
      .ok [(c!"3", { water with name := c!"M3", density := 0 }), (c!"26", { iron with name := c!"M26", density := 0 })] := by decide +kernel

/-- A material without nuclides is written without the end of its line, and the next card is lost with it. -/
theorem C52_refuted_empty : ∃ texts lines mats, [{ water with composition := [] }, iron].mapM (writeMcnpMaterial sampleIO false false) = .ok texts ∧
    dropComments (readText texts.flatten) = .ok lines ∧ getMaterialCards sampleIO [] lines = .ok mats ∧ mats.lookup c!"26" = none ∧ ∃ n m, (n, m) ∈ mats ∧ m.composition = iron.composition := by
  refine ⟨[c!"M3", c!"M26     26056 -9.0\n     26054 -1.0\n"], [c!"m3m26     26056 -9.0\n", c!"     26054 -1.0\n"], [(c!"326", { iron with name := c!"M326", number := c!"326", xsid := [(c!"26056", []), (c!"26054", [])], density := 0 })],
    by decide +kernel, by decide +kernel, by decide +kernel, by decide +kernel, _, _, List.mem_singleton.2 rfl, rfl⟩

end Csg
