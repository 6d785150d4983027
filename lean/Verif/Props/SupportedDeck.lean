import Verif.Props.Supported
import Verif.Props.Converted
import Verif.Lemmas.Exact

/-!
# C97: what becomes of a deck with a surface that the program is not made for
-/

namespace Csg

open Spec

/-- A hexagonal prism in a sphere. -/
private def prismText : Str := c!"title\n1 0 -1 -2 imp:n=1\n2 0 1 -2 imp:n=1\n3 0 2 imp:n=0\n\n1 rhp 0 0 -2 0 0 4 3 0 0\n2 so 8\n\nm1 1001 1.0\n"

private def prismEnv : Env ℚ :=
  { fuel := 100, io := fractionIO, fixed := formatF, sci := formatF, sci4 := formatF, sci3 := formatE, sqrt := id, degAtan := (45 * ·), orderStr := id, orderInt := id }

private def written (c : Code) : Option Str :=
  match (convert prismEnv id false (some [codeName c]) prismText).run with
  | .ok (some [(c', .text s)]) => if c' = c then some s else none
  | _ => none

private theorem written_returns {c : Code} {s : Str} (h : written c = some s) : Returns (convert prismEnv id false (some [codeName c]) prismText) [(c, .text s)] := by
  unfold written at h
  split at h
  · rename_i c' s' hr
    split at h
    · rename_i hc
      cases h
      subst hc
      exact hr
    · cases h
  · cases h

/-- Cards as in the theorems of `Verif.Props.Supported`. -/
example : Spec.IsCard fractionIO c!"1 rhp 0 0 -2 0 0 4 3 0 0" 1 none c!"rhp" [c!"0", c!"0", c!"-2", c!"0", c!"0", c!"4", c!"3", c!"0", c!"0"] ∧ c!"rhp" ∈ otherMacrobodies ∧
    (∀ k ∈ supportedMnemonics, ¬ c!"rhp" <:+: k) ∧ Spec.IsCard fractionIO c!"4 7 px 3" 4 (some c!"7") c!"px" [c!"3"] ∧ c!"px" ∈ supportedMnemonics ∧
    Spec.IsCard fractionIO c!"5 x 3 2" 5 none c!"x" [c!"3", c!"2"] ∧ Reads fractionIO [c!"3", c!"2"] [3, 2] ∧ c!"x" ∈ pointMnemonics := by
  refine ⟨⟨c!"1", by decide, by decide, ⟨_, [], .inl rfl, by decide, by decide⟩, by decide +kernel⟩, by decide, by decide,
    ⟨c!"4", by decide, by decide, ⟨_, [], .inl rfl, by decide, by decide⟩, by decide +kernel⟩, by decide,
    ⟨c!"5", by decide, by decide, ⟨_, [], .inl rfl, by decide, by decide⟩, by decide +kernel⟩, ?_, by decide⟩
  exact .cons (by decide +kernel) (.cons (by decide +kernel) .nil)

/-- The run ends without an exception, and the Serpent file has a cell that names surface 1, but no surface 1. -/
theorem C97_refuted_serpent : ∃ (e : Env ℚ) (text out : Str) (cards : List (List Str)), Returns (convert e id false (some [codeName .serpent]) text) [(.serpent, .text out)] ∧
    (serpentCards out).2 = cards ∧ (∃ card ∈ cards, card.head? = some c!"cell" ∧ c!"-1" ∈ card) ∧ ∀ card ∈ cards, ¬ c!"surf" :: [c!"1"] <+: card := by
  obtain ⟨out, h⟩ := Option.isSome_iff_exists.1 (by decide +kernel : (written .serpent).isSome = true)
  refine ⟨prismEnv, prismText, out, _, written_returns h, rfl, ?_⟩
  have key : ∀ s ∈ written .serpent, (∃ card ∈ (serpentCards s).2, card.head? = some c!"cell" ∧ c!"-1" ∈ card) ∧ ∀ card ∈ (serpentCards s).2, ¬ c!"surf" :: [c!"1"] <+: card := by decide +kernel
  exact key out h

/-- The MCNP file cannot be used either: read again, it has no surface at all, as the sphere stands on the line of the prism. -/
theorem C97_refuted_mcnp : ∃ (e : Env ℚ) (text out : Str) (d : Deck ℚ), Returns (convert e id false (some [codeName .mcnp]) text) [(.mcnp, .text out)] ∧
    readDeck e.io id (readText out) = .ok d ∧ d.cells.length = 3 ∧ ∀ s ∈ d.surfaces, Lost s := by
  obtain ⟨out, h⟩ := Option.isSome_iff_exists.1 (by decide +kernel : (written .mcnp).isSome = true)
  have key : ∀ s ∈ written .mcnp, ∃ d ∈ (readDeck prismEnv.io id (readText s)).toOption, d.cells.length = 3 ∧ ∀ s ∈ d.surfaces, s.id = 0 ∧ s.type = .unset ∧ s.coeffs = [] ∧ s.transform = none := by decide +kernel
  obtain ⟨d, hd, k⟩ := key out h
  refine ⟨prismEnv, prismText, out, d, written_returns h, ?_, k⟩
  cases hr : readDeck prismEnv.io id (readText out) with
  | error e => rw [hr] at hd; cases hd
  | ok d' => rw [hr] at hd; cases hd; rfl

end Csg
