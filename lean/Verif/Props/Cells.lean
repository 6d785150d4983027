import Verif.Lemmas.Region
import Verif.Lemmas.CellText
import Verif.Spec.Sample

/-!
# Cell cards: C18, C19, C20
-/

namespace Csg

open Spec

section
variable {K : Type} [Field K]

/-! ## C18: the interpreted cell denotes the region on the card -/

/-- The entries have the same symbols as the tokens, so they form an expression if the tokens do, with the same truth value. -/
theorem C18_same_region (tokens : List Str) (is : List Item) (ns : List Int) (h : generalise tokens = .ok (is, ns)) :
    (Legal (itemSyms is) ↔ Legal (tokenSyms tokens)) ∧ ∀ σ : Str → Prop, Holds σ (itemSyms is) ↔ Holds σ (tokenSyms tokens) := by
  have : itemSyms is = tokenSyms tokens := by
    unfold generalise at h
    split at h
    · cases h
    · exact generaliseGo_syms _ _ _ _ h
  rw [this]
  exact ⟨Iff.rfl, fun _ => Iff.rfl⟩

/-- Interpretation fails exactly for no tokens or a last token `:`, `#` or `(`. -/
theorem C18_fails_iff (tokens : List Str) :
    (∃ e, generalise tokens = .error e) ↔
      tokens = [] ∨ tokens.getLast? = some c!":" ∨ tokens.getLast? = some c!"#" ∨ tokens.getLast? = some c!"(" := by
  have key : (∃ x, generalise tokens = .ok x) ↔ ¬ OpenEnd tokens := by
    unfold generalise
    cases ht : tokens.getLast? with
    | none =>
      have : tokens = [] := List.getLast?_eq_none_iff.1 ht
      simp [this, OpenEnd]
    | some t => exact generaliseGo_fails tokens _
  rw [show (tokens = [] ∨ tokens.getLast? = some c!":" ∨ tokens.getLast? = some c!"#" ∨ tokens.getLast? = some c!"(") =
    OpenEnd tokens from rfl, ← not_iff_not, ← key]
  cases generalise tokens with
  | ok x => simp
  | error e => simp

/-- The same for a card as text: the description of the cell that is read denotes the geometry of the card. -/
theorem C18_card (io : NumIO K) (cosDeg : K → K) (text number material : Str) (density : Option Str) (geometry : Str) (c : Cell K)
    (ht : IsCellText text number material density geometry) (h : readCell io cosDeg text = .ok c) :
    (Legal (itemSyms c.interpreted) ↔ Legal (lexGeometry geometry)) ∧
      ∀ σ : Str → Prop, Holds σ (itemSyms c.interpreted) ↔ Holds σ (lexGeometry geometry) := by
  obtain ⟨header, params, rfl, h1, ⟨m, hm1, hm2, hm3⟩, h2, h3, h4, h5, h6⟩ := ht.parts
  obtain ⟨ns, m', e1, e2, -⟩ := interpret_parts io cosDeg .blank c header geometry params number material density
    (by rw [expandText_id h2, h1])
    (by
      cases density with
      | none => exact Or.inl ⟨rfl, fun m' h' => by rw [hm1] at h'; cases h'; have := hm3.2 rfl; omega⟩
      | some d =>
        refine Or.inr ⟨d, rfl, fun m' h' => ?_⟩
        rw [hm1] at h'; cases h'
        have : m ≠ 0 := fun e => by simpa using hm3.1 e
        omega)
    h3 h4 h5 h6 h
  have := C18_same_region _ _ _ e2
  rw [e1, show tokenSyms (split (expandText geometry)) = lexGeometry geometry from split_expand_syms geometry [] (by simp)] at this
  exact this

/-! ## C19: the surface set -/

/-- Every surface that is not written directly after an opening parenthesis is recorded, and nothing else than numbers of tokens is.
Missing: surfaces directly after an opening parenthesis (`C19_refuted`). -/
theorem C19_recorded_partial (tokens : List Str) (is : List Item) (ns : List Int) (h : generalise tokens = .ok (is, ns)) :
    (∀ a w b z, tokens = a ++ w :: b → a.getLast? ≠ some c!"(" → parseInt w = some z → (z.natAbs : Int) ∈ ns) ∧
      ∀ n ∈ ns, ∃ w ∈ tokens, ∃ z : Int, parseInt w = some z ∧ n = z.natAbs := by
  have hf : ¬ OpenEnd tokens := by
    intro ho
    obtain ⟨e, he⟩ := (C18_fails_iff tokens).2 ho
    rw [h] at he; cases he
  unfold generalise at h
  split at h
  · cases h
  · rename_i t ht
    obtain ⟨s1, s2⟩ := generaliseGo_surfaces _ _ _ _ h
    refine ⟨fun a w b z e hl hz => s2 a w b e (fun _ hp => hf ?_) hl z hz, s1⟩
    cases hp
    exact Or.inr (Or.inr (Or.inr ht))

/-- The surface after an opening parenthesis is not recorded: the cell `1 0 (1:2)` has the surface set `{2}`. -/
theorem C19_refuted : ∃ c : Cell ℚ, readCell sampleIO id c!"1 0 (1:2)" = .ok c ∧ Sym.atom c!"1" ∈ itemSyms c.interpreted ∧
    (1 : Int) ∉ c.surfaces := by
  refine ⟨{ (Cell.blank : Cell ℚ) with id := 1, text := [c!"(", c!"1", c!":", c!"2", c!")"], interpreted := [.str c!"(", .str c!"1", .op .union, .op .and, .str c!"2", .str c!")"], surfaces := [2] }, ?_, ?_, ?_⟩
  · decide +kernel
  · decide
  · decide

/-! ## C20: renaming a surface -/

/-- What renaming does to each entry. The surface that goes is `new`, the one that replaces it `ref`, in the words of the code. -/
theorem C20_entries (ref new : Int) (reverse : Bool) (is is' : List Item) (h : replaceSurface ref new reverse is = .ok is') :
    List.Forall₂ (fun i i' => (∀ o, i = .op o → i' = i) ∧
      ∀ s, i = .str s → ((s = c!"(" ∨ s = c!")") ∧ i' = i) ∨ ∃ z, parseInt s = some z ∧
        (z = new ∧ 0 ≤ z ∧ i' = .str (intStr (if reverse then -ref else ref)) ∨
         z = -new ∧ z < 0 ∧ i' = .str (intStr (if reverse then ref else -ref)) ∨
         z ≠ new ∧ z ≠ -new ∧ i' = i ∨ new < 0 ∧ i' = i)) is is' := by
  unfold replaceSurface at h
  induction is generalizing is' with
  | nil => cases h; exact .nil
  | cons i is ih =>
    rw [List.mapM_cons] at h
    obtain ⟨i', hi, h⟩ := bind_ok h
    obtain ⟨is'', his, h⟩ := bind_ok h
    cases h
    refine .cons ?_ (ih _ his)
    cases i with
    | op o => cases hi; simp
    | str s =>
      unfold replaceItem at hi
      refine ⟨by simp, ?_⟩
      rintro s' ⟨⟩
      dsimp only at hi
      by_cases hp : s = c!"(" ∨ s = c!")"
      · rw [if_pos hp] at hi
        cases hi
        exact Or.inl ⟨hp, rfl⟩
      · rw [if_neg hp] at hi
        obtain ⟨z, hz, hi⟩ := bind_ok hi
        refine Or.inr ⟨z, pyInt_ok.1 hz, ?_⟩
        by_cases h1 : (z.natAbs : Int) = new ∧ z = new
        · rw [if_pos h1] at hi
          cases hi
          refine Or.inl ⟨h1.2, by omega, ?_⟩
          cases reverse <;> simp
        · rw [if_neg h1] at hi
          by_cases h2 : (z.natAbs : Int) = new ∧ z ≠ new
          · rw [if_pos h2] at hi
            cases hi
            refine Or.inr (Or.inl ⟨by omega, by omega, ?_⟩)
            cases reverse <;> simp
          · rw [if_neg h2] at hi
            cases hi
            by_cases hn : new < 0
            · exact Or.inr (Or.inr (Or.inr ⟨hn, rfl⟩))
            · exact Or.inr (Or.inr (Or.inl ⟨by omega, by omega, rfl⟩))

/-- Renaming succeeds exactly if every entry is an operation, a parenthesis or a signed surface number. -/
theorem C20_succeeds_iff (ref new : Int) (reverse : Bool) (is : List Item) :
    (∃ is', replaceSurface ref new reverse is = .ok is') ↔
      ∀ s, Item.str s ∈ is → s = c!"(" ∨ s = c!")" ∨ ∃ z, parseInt s = some z := by
  unfold replaceSurface
  induction is with
  | nil => simp [pure, Except.pure]
  | cons i is ih =>
    have hi : (∃ i', replaceItem ref new reverse i = .ok i') ↔ ∀ s, i = .str s → s = c!"(" ∨ s = c!")" ∨ ∃ z, parseInt s = some z := by
      cases i with
      | op o => simp [replaceItem]
      | str s =>
        simp only [replaceItem, Item.str.injEq, forall_eq']
        by_cases h1 : s = c!"(" ∨ s = c!")"
        · rw [if_pos h1]
          exact ⟨fun _ => by tauto, fun _ => ⟨_, rfl⟩⟩
        · rw [if_neg h1]
          cases hz : parseInt s with
          | none =>
            simp only [pyInt, hz]
            constructor
            · rintro ⟨x, hx⟩; cases hx
            · rintro (hx | hx | ⟨z, hx⟩)
              · exact absurd (Or.inl hx) h1
              · exact absurd (Or.inr hx) h1
              · cases hx
          | some z =>
            refine ⟨fun _ => Or.inr (Or.inr ⟨z, rfl⟩), fun _ => ?_⟩
            simp only [pyInt, hz]
            dsimp only [bind, Except.bind]
            split
            · exact ⟨_, rfl⟩
            · split
              · exact ⟨_, rfl⟩
              · exact ⟨_, rfl⟩
    rw [List.mapM_cons]
    constructor
    · rintro ⟨is', h⟩ s hs
      obtain ⟨i', h1, h⟩ := bind_ok h
      obtain ⟨is'', h2, h⟩ := bind_ok h
      rcases List.mem_cons.1 hs with e | hs
      · exact hi.1 ⟨_, h1⟩ s e.symm
      · exact ih.1 ⟨_, h2⟩ s hs
    · intro h
      obtain ⟨i', h1⟩ := hi.2 fun s e => h s (by simp [e])
      obtain ⟨is'', h2⟩ := ih.2 fun s hs => h s (List.mem_cons_of_mem _ hs)
      exact ⟨i' :: is'', by rw [h1]; show (_ >>= _) = _; rw [h2]; rfl⟩

/-- The cell holds after the renaming exactly if it held with the senses of `new` read from `ref`. -/
theorem C20_region (ref new : Int) (reverse : Bool) (hnew : 0 < new) (is is' : List Item) (h : replaceSurface ref new reverse is = .ok is')
    (σ : Int → Prop) :
    let flip : Int → Int := fun z => if reverse then -z else z
    (Legal (itemSyms is') ↔ Legal (itemSyms is)) ∧
      (Holds (wordSense σ) (itemSyms is') ↔
        Holds (wordSense fun z => if z = new then σ (flip ref) else if z = -new then σ (flip (-ref)) else σ z) (itemSyms is)) := by
  intro flip
  have hent := C20_entries ref new reverse is is' h
  clear h
  have key : List.Forall₂ (SymRel (wordSense σ) (wordSense fun z => if z = new then σ (flip ref) else if z = -new then σ (flip (-ref)) else σ z))
      (itemSyms is') (itemSyms is) := by
    induction hent with
    | nil => exact .nil
    | @cons i i' is is' h1 _ ih =>
      cases i with
      | op o =>
        rw [h1.1 o rfl]
        cases o
        · exact .cons .no ih
        · exact .cons .un ih
        · exact ih
      | str s =>
        rcases h1.2 s rfl with ⟨hs, rfl⟩ | ⟨z, hz, h2⟩
        · rcases hs with rfl | rfl
          · exact .cons .lp ih
          · exact .cons .rp ih
        · have hs1 : s ≠ c!"(" := by rintro rfl; simp [parseInt, parseNat, isDigit] at hz
          have hs2 : s ≠ c!")" := by rintro rfl; simp [parseInt, parseNat, isDigit] at hz
          have atoms : ∀ (t : Str) (y : Int), parseInt t = some y →
              (σ y ↔ if z = new then σ (flip ref) else if z = -new then σ (flip (-ref)) else σ z) →
              List.Forall₂ (SymRel (wordSense σ) (wordSense fun z => if z = new then σ (flip ref) else if z = -new then σ (flip (-ref)) else σ z))
              (itemSyms (.str t :: is')) (itemSyms (.str s :: is)) := by
            intro t y hy hσ
            have ht1 : t ≠ c!"(" := by rintro rfl; simp [parseInt, parseNat, isDigit] at hy
            have ht2 : t ≠ c!")" := by rintro rfl; simp [parseInt, parseNat, isDigit] at hy
            simp only [itemSyms, if_neg ht1, if_neg ht2, if_neg hs1, if_neg hs2]
            refine .cons (.atom ?_) ih
            simp only [wordSense, hy, hz, Option.some.injEq, exists_eq_left']
            exact hσ
          rcases h2 with ⟨e, -, rfl⟩ | ⟨e, -, rfl⟩ | ⟨e1, e2, rfl⟩ | ⟨e, rfl⟩
          · refine atoms _ _ (parseInt_intStr _) ?_
            rw [if_pos e]
          · refine atoms _ _ (parseInt_intStr _) ?_
            rw [if_neg (show ¬ z = new by omega), if_pos e]
            cases reverse <;> simp [flip]
          · refine atoms _ _ hz ?_
            rw [if_neg e1, if_neg e2]
          · omega
  exact holds_rel _ _ key

end

/-! ## Cases that meet the hypotheses -/

example : generalise [c!"(", c!"-1", c!":", c!"2", c!")", c!"#", c!"(", c!"3", c!"4", c!")"] =
    .ok ([.str c!"(", .str c!"-1", .op .union, .op .and, .str c!"2", .str c!")", .op .not, .str c!"(", .str c!"3", .op .and, .str c!"4", .str c!")"], [2, 4]) := by
  decide +kernel

example : Legal (tokenSyms [c!"(", c!"-1", c!":", c!"2", c!")", c!"#", c!"(", c!"3", c!"4", c!")"]) :=
  ⟨_, .one (.inter (.single (.paren (.union (.one (.single (.atom c!"-1"))) (.single (.atom c!"2")))))
    (.compl (.paren (.one (.inter (.single (.atom c!"3")) (.atom c!"4"))))))⟩

/-- A card as text with density, glued parentheses and parameters. -/
example : IsCellText c!"7 2 -7.8 (-1:+2)#(3 4) imp:n=1 u=3" c!"7" c!"2" (some c!"-7.8") c!"(-1:+2)#(3 4) " := by
  refine ⟨⟨c!"7 2 -7.8", c!"imp:n=1 u=3", rfl, by decide, ⟨2, by decide, by decide, by decide⟩, by decide, by decide,
    Or.inr ⟨c!"imp", by decide, c!":n=1 u=3", rfl⟩, by decide, ?_⟩⟩
  intro a b e
  have := (hasInfix_iff c!"fill" c!"imp:n=1 u=3").2 ⟨a, b, e⟩
  exact absurd this (by decide)

example : ((readCell sampleIO id c!"7 2 -7.8 (-1:+2)#(3 4) imp:n=1 u=3").map fun c => itemSyms c.interpreted) =
    .ok (lexGeometry c!"(-1:+2)#(3 4) ") := by decide +kernel

example : lexGeometry c!"(-1:+2)#(3 4) " = [.lp, .atom c!"-1", .un, .atom c!"2", .rp, .no, .lp, .atom c!"3", .atom c!"4", .rp] := by decide

example : replaceSurface 10 1 true [.op .and, .str c!"-1", .op .union, .op .and, .str c!"11"] =
    .ok [.op .and, .str c!"10", .op .union, .op .and, .str c!"11"] := by decide +kernel

end Csg
