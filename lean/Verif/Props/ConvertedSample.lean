import Verif.Props.Converted
import Verif.Props.Processed
import Verif.Props.Success
import Verif.Props.ConvertedMaterials
import Verif.Props.Whole
import Verif.Props.FromText
import Verif.Props.Outside
import Verif.Props.Reordered
import Verif.Props.Renumbered
import Verif.Props.UnusedMotion
import Verif.Lemmas.FormatE
import Verif.Lemmas.MixedIO

/-!
# C92 to C96, C100, C102, C110, C114 and C124: an input file that meets the hypotheses

A cylinder of gas in a sphere: a macrobody, the complement of a cell, and the outside.
-/

namespace Csg

open Spec

private def text : Str := c!"title\n1 1 -7 -1 imp:n=1\n2 0 #1 -2 imp:n=1\n3 0 2 imp:n=0\n\n1 rcc 0 0 -2 0 0 4 3\n2 so 9\n\nm1 1001 1.0\n"

private def root (x : ℚ) : ℚ := if x = 16 then 4 else if x = 9 then 3 else x

private def env : Env ℚ :=
  { fuel := 100, io := mixedIO, fixed := formatF, sci := formatF, sci4 := fun x => (mixedIO.render x).take 10, sci3 := formatE, sqrt := root, degAtan := (45 * ·), orderStr := id, orderInt := id }

private def gas : Material ℚ := { name := c!"M1", number := c!"1", composition := [(c!"1001", 1)], xsid := [(c!"1001", [])], density := 0 }

private def inner : Cell ℚ := { (Cell.blank : Cell ℚ) with id := 1, density := -7, material := .int 1, text := [c!"-1"], interpreted := [.op .and, .str c!"-1"], surfaces := [1] }
private def shell : Cell ℚ := { (Cell.blank : Cell ℚ) with id := 2, text := [c!"#1", c!"-2"], interpreted := [.op .and, .str c!"#1", .op .and, .str c!"-2"], surfaces := [2] }
private def outer : Cell ℚ := { (Cell.blank : Cell ℚ) with id := 3, importance := 0, text := [c!"2"], interpreted := [.op .and, .str c!"2"], surfaces := [2] }

private def can : Surface ℚ := { Surface.blank with id := 1, type := .macroRCC, coeffs := [0, 0, -2, 0, 0, 4, 3] }
private def ball : Surface ℚ := { Surface.blank with id := 2, type := .sphereGeneral, coeffs := [0, 0, 0, 9] }

/-- The deck as read. -/
private def deck : Deck ℚ :=
  { title := c!"title\n", cells := [inner, shell, outer], surfaces := [can, ball], last := 2, importances := [], transforms := [], materials := [(c!"1", gas)], bounding := [0, 0, 0, 0, 0, 0] }

private def inner' : Cell ℚ :=
  { inner with text := [c!"(", c!"-3", c!"-4", c!"-5", c!")"], interpreted := [.str c!"(", .str c!"-3", .op .and, .str c!"-4", .op .and, .str c!"-5", .str c!")"], surfaces := [1, 4, 5] }
private def shell' : Cell ℚ :=
  { shell with
    interpreted := [.op .and, .op .not, .str c!"(", .str c!"(", .str c!"-3", .op .and, .str c!"-4", .op .and, .str c!"-5", .str c!")", .str c!")", .op .and, .str c!"-2"], surfaces := [2, 2] }
private def outer' : Cell ℚ := { outer with surfaces := [2, 2] }

private def wall : Surface ℚ := { Surface.blank with id := 3, type := .generalQuadratic, coeffs := [1, 1, 0, 0, 0, 0, 0, 0, 0, -9] }
private def base : Surface ℚ := { Surface.blank with id := 4, type := .planeGeneral, coeffs := [0, 0, -1, 2] }
private def lid : Surface ℚ := { Surface.blank with id := 5, type := .planeGeneral, coeffs := [0, 0, 1, 2] }

/-- The deck as processed: the cylinder is made of three surfaces, and the complement of cell 1 is written out. -/
private def deck' : Deck ℚ :=
  { title := c!"title\n", cells := [inner', shell', outer'], surfaces := [{ ball with bc := .vacuum }, wall, base, lid], last := 5, importances := [], transforms := []
    materials := [(c!"1", { gas with density := -7 })], bounding := [-9, 9, -9, 9, -9, 9] }


private theorem is_read : readDeck env.io id (readText text) = .ok deck := by decide +kernel

private theorem is_processed : finishDeck env.fuel env.io id env.sqrt false deck = some (.ok deck') := by decide +kernel

private theorem atoms_known {surfs : List (Surface ℚ)} {ws : List Str} (h : ∀ t ∈ ws, tokenSym t = .atom t → KnownWord surfs t) :
    ∀ w, Sym.atom w ∈ tokenSyms ws → KnownWord surfs w := by
  intro w hw
  obtain ⟨t, ht, e⟩ := List.mem_map.1 hw
  obtain rfl := tokenSym_eq_atom e
  exact h t ht e

private theorem proper : ProperDeck env.sqrt Int.toNat deck ∧ ∀ s ∈ deck.surfaces, TwoSheet s := by
  have l1 : Legal (tokenSyms [c!"-1"]) := ⟨_, .one (.single (.atom _))⟩
  have l2 : Legal (tokenSyms [c!"#1", c!"-2"]) := ⟨_, .one (.inter (.single (.atom _)) (.atom _))⟩
  have l3 : Legal (tokenSyms [c!"2"]) := ⟨_, .one (.single (.atom _))⟩
  have h1 : can ∈ deck.surfaces := List.mem_cons_self ..
  have h2 : ball ∈ deck.surfaces := List.mem_cons_of_mem _ (List.mem_cons_self ..)
  refine ⟨⟨by decide, by decide, by decide, ?_, ?_, ?_, ?_, by decide, ?_, ?_⟩, ?_⟩
  · intro s hs hm
    simp only [deck, List.mem_cons, List.not_mem_nil, or_false] at hs
    rcases hs with rfl | rfl
    · refine ⟨by unfold ProperBody; norm_num [can], ?_⟩
      show RootAt root _
      unfold RootAt; decide +kernel
    · cases hm
  · intro s hs hm
    simp only [deck, List.mem_cons, List.not_mem_nil, or_false] at hs
    rcases hs with rfl | rfl
    · cases hm
    · exact ⟨rfl, .inl trivial⟩
  · intro s hs n hn
    simp only [deck, List.mem_cons, List.not_mem_nil, or_false] at hs
    rcases hs with rfl | rfl <;> cases hn
  · intro c hc
    simp only [deck, List.mem_cons, List.not_mem_nil, or_false] at hc
    rcases hc with rfl | rfl | rfl
    · refine ⟨⟨⟨1, rfl, by decide, by decide⟩, l1, by decide⟩, atoms_known ?_⟩
      intro t ht _
      simp only [inner, List.mem_cons, List.not_mem_nil, or_false] at ht
      subst ht
      exact .inr (.inl ⟨_, h1, .inr (by decide)⟩)
    · refine ⟨⟨⟨0, rfl, le_refl _, fun _ => rfl⟩, l2, by decide⟩, atoms_known ?_⟩
      intro t ht _
      simp only [shell, List.mem_cons, List.not_mem_nil, or_false] at ht
      rcases ht with rfl | rfl
      · exact .inl ⟨1, by decide⟩
      · exact .inr (.inl ⟨_, h2, .inr (by decide)⟩)
    · refine ⟨⟨⟨0, rfl, le_refl _, fun _ => rfl⟩, l3, by decide⟩, atoms_known ?_⟩
      intro t ht _
      simp only [outer, List.mem_cons, List.not_mem_nil, or_false] at ht
      subst ht
      exact .inr (.inl ⟨_, h2, .inl (by decide)⟩)
  · intro c hc
    simp only [deck, List.mem_cons, List.not_mem_nil, or_false] at hc
    rcases hc with rfl | rfl | rfl
    exacts [l1, l2, l3]
  · intro c hc w hw hh
    simp only [deck, List.mem_cons, List.not_mem_nil, or_false] at hc
    rcases hc with rfl | rfl | rfl
    · rw [show words inner.interpreted = [c!"-1"] by decide, List.mem_singleton] at hw
      subst hw
      exact absurd hh (by decide)
    · rw [show words shell.interpreted = [c!"#1", c!"-2"] by decide] at hw
      simp only [List.mem_cons, List.not_mem_nil, or_false] at hw
      rcases hw with rfl | rfl
      · exact ⟨1, inner, List.mem_cons_self .., by decide, rfl, by decide⟩
      · exact absurd hh (by decide)
    · rw [show words outer.interpreted = [c!"2"] by decide, List.mem_singleton] at hw
      subst hw
      exact absurd hh (by decide)
  · intro s hs
    simp only [deck, List.mem_cons, List.not_mem_nil, or_false] at hs
    rcases hs with rfl | rfl <;> trivial

/-- The further hypothesis of `C93_complements_partial`. -/
private theorem hashes : ∀ c ∈ deck.cells, HashOpen c.text := by
  intro c hc a b e
  have no : ∀ c ∈ deck.cells, c!"#" ∉ c.text := by decide
  exact absurd (by rw [e]; simp) (no c hc)

/-- The materials, for C95. -/
private theorem made : Defined deck.materials deck.cells ∧ (∀ m ∈ deck.materials, AtomFractions m.2.composition) ∧ ∀ m ∈ deck'.materials, ∃ k : Nat, m.1 = natStr k := by
  refine ⟨?_, ?_, ?_⟩
  · intro c hc
    simp only [deck, List.mem_cons, List.not_mem_nil, or_false] at hc
    rcases hc with rfl | rfl | rfl
    · exact ⟨1, rfl, fun _ => by decide +kernel⟩
    · exact ⟨0, rfl, fun h => absurd rfl h⟩
    · exact ⟨0, rfl, fun h => absurd rfl h⟩
  · intro m hm
    simp only [deck, List.mem_singleton] at hm
    subst hm
    have hz : ∀ z, natStr (1000 * z) ∉ gas.composition.map Prod.fst := by
      intro z h
      simp only [gas, List.map_cons, List.map_nil, List.mem_singleton] at h
      have := natStr_injective (h.trans (by decide +kernel : c!"1001" = natStr 1001))
      omega
    refine ⟨⟨by decide, ?_⟩, fun z h => absurd h (hz z), by decide, by decide +kernel, fun z h => absurd h (hz z)⟩
    intro e he
    simp only [gas, List.mem_singleton] at he
    subst he
    exact ⟨1001, by decide +kernel⟩
  · intro m hm
    have hm : m.1 ∈ deck'.materials.map Prod.fst := List.mem_map_of_mem hm
    rw [show deck'.materials.map Prod.fst = [c!"1"] by decide +kernel, List.mem_singleton] at hm
    exact ⟨1, hm.trans (by decide +kernel)⟩


/-- The further hypotheses of `C94_succeeds_partial`. -/
private theorem finishable : Finishable env.io deck := by
  refine ⟨by decide, ?_, ?_, ?_, .inl rfl, ?_, ?_⟩
  · intro c hc
    simp only [deck, List.mem_cons, List.not_mem_nil, or_false] at hc
    rcases hc with rfl | rfl | rfl
    exacts [⟨1, rfl, by decide⟩, ⟨0, rfl, by decide⟩, ⟨0, rfl, by decide⟩]
  · intro e he
    simp only [deck, List.mem_cons, List.not_mem_nil, or_false] at he
    subst he
    exact ⟨gas, gas, gas, by decide +kernel, by decide +kernel, rfl⟩
  · intro c hc h
    simp only [deck, List.mem_cons, List.not_mem_nil, or_false] at hc
    rcases hc with rfl | rfl | rfl <;> exact absurd rfl h
  · intro c hc n hn
    simp only [deck, List.mem_cons, List.not_mem_nil, or_false] at hc
    rcases hc with rfl | rfl | rfl
    all_goals simp only [inner, shell, outer, List.mem_cons, List.not_mem_nil, or_false] at hn; subst hn
    exacts [⟨c!"-1", by decide, -1, by decide, rfl⟩, ⟨c!"-2", by decide, -2, by decide, rfl⟩, ⟨c!"2", by decide, 2, by decide, rfl⟩]
  · intro i c hc hz w hw z hzw
    have himp : c.importance = 0 := by
      rcases hz with ⟨-, h⟩ | ⟨t, ht, -⟩
      · exact h
      · cases ht
    have hmem := List.mem_of_getElem? hc
    simp only [deck, List.mem_cons, List.not_mem_nil, or_false] at hmem
    rcases hmem with rfl | rfl | rfl
    · exact absurd himp (by decide)
    · exact absurd himp (by decide)
    · simp only [outer, List.mem_cons, List.not_mem_nil, or_false] at hw
      subst hw
      rw [show parseInt c!"2" = some 2 by decide] at hzw
      cases hzw
      exact ⟨ball, by simp [deck], by decide, rfl⟩

/-! A cylinder and the outside of it: `C94_refuted_graveyard`. -/

private def bad : Cell ℚ := { (Cell.blank : Cell ℚ) with id := 2, importance := 0, text := [c!"1"], interpreted := [.op .and, .str c!"1"], surfaces := [1] }

private def grave : Deck ℚ := { deck with cells := [inner, bad], surfaces := [can], last := 1 }

example : readDeck env.io id (readText c!"title\n1 1 -7 -1 imp:n=1\n2 0 1 imp:n=0\n\n1 rcc 0 0 -2 0 0 4 3\n\nm1 1001 1.0\n") = .ok grave := by decide +kernel

example : ProperDeck env.sqrt Int.toNat grave ∧ grave.cells[1]? = some bad ∧ (∀ x, ImportanceIs env.io grave 1 bad x → x = 0) ∧ can ∈ grave.surfaces ∧ can.isMacrobody = true ∧
    can.id ∈ bad.surfaces := by
  have l1 : Legal (tokenSyms [c!"-1"]) := ⟨_, .one (.single (.atom _))⟩
  have l2 : Legal (tokenSyms [c!"1"]) := ⟨_, .one (.single (.atom _))⟩
  have h1 : can ∈ grave.surfaces := List.mem_cons_self ..
  refine ⟨⟨by decide, by decide, by decide, ?_, ?_, ?_, ?_, by decide, ?_, ?_⟩, rfl, ?_, h1, rfl, by decide⟩
  · intro s hs hm
    obtain rfl := List.mem_singleton.1 hs
    refine ⟨by unfold ProperBody; norm_num [can], ?_⟩
    show RootAt root _
    unfold RootAt; decide +kernel
  · intro s hs hm
    obtain rfl := List.mem_singleton.1 hs
    cases hm
  · intro s hs n hn
    obtain rfl := List.mem_singleton.1 hs
    cases hn
  · intro c hc
    simp only [grave, List.mem_cons, List.not_mem_nil, or_false] at hc
    rcases hc with rfl | rfl
    · refine ⟨⟨⟨1, rfl, by decide, by decide⟩, l1, by decide⟩, atoms_known ?_⟩
      intro t ht _
      simp only [inner, List.mem_cons, List.not_mem_nil, or_false] at ht
      subst ht
      exact .inr (.inl ⟨_, h1, .inr (by decide)⟩)
    · refine ⟨⟨⟨0, rfl, le_refl _, fun _ => rfl⟩, l2, by decide⟩, atoms_known ?_⟩
      intro t ht _
      simp only [bad, List.mem_cons, List.not_mem_nil, or_false] at ht
      subst ht
      exact .inr (.inl ⟨_, h1, .inl (by decide)⟩)
  · intro c hc
    simp only [grave, List.mem_cons, List.not_mem_nil, or_false] at hc
    rcases hc with rfl | rfl
    exacts [l1, l2]
  · intro c hc w hw hh
    simp only [grave, List.mem_cons, List.not_mem_nil, or_false] at hc
    rcases hc with rfl | rfl
    · rw [show words inner.interpreted = [c!"-1"] by decide, List.mem_singleton] at hw
      subst hw
      exact absurd hh (by decide)
    · rw [show words bad.interpreted = [c!"1"] by decide, List.mem_singleton] at hw
      subst hw
      exact absurd hh (by decide)
  · rintro x (⟨-, h⟩ | ⟨t, ht, -⟩)
    · exact h.symm
    · cases ht

example : finishDeck env.fuel env.io id env.sqrt false grave = some (.error .attributeError) := by decide +kernel

private theorem follows_iff (i j : Item) : Follows i j ↔ (match j with | .str s => IsParen s ∨ i = .op .and ∨ i = .str c!"(" | .op _ => True) ∧ ¬ (i = .op .union ∧ j = .op .union) := by
  unfold Follows
  cases j with
  | op o => simp
  | str s => simp only [Item.str.injEq, forall_eq']; tauto

private instance (i j : Item) : Decidable (Follows i j) := by
  refine @decidable_of_iff _ _ (follows_iff i j).symm ?_
  cases j <;> infer_instance

private theorem spaced : ∀ c ∈ deck'.cells, Spaced c.interpreted := by
  unfold Spaced
  decide +kernel

private theorem words_are : ∀ c ∈ deck'.cells, WordsAre SurfaceWord c.interpreted := by
  intro c hc
  refine wordsAre_of fun i hi => ?_
  have key : ∀ c ∈ deck'.cells, ∀ i ∈ c.interpreted, match i with | .str s => IsParen s ∨ (s ≠ [] ∧ ∀ c ∈ s, isDigit c = true ∨ c = '-') ∧ s.length ≤ 60 | .op _ => True := by
    intro c hc i hi
    simp only [deck', List.mem_cons, List.not_mem_nil, or_false] at hc
    rcases hc with rfl | rfl | rfl
    · simp only [inner', List.mem_cons, List.not_mem_nil, or_false] at hi
      rcases hi with rfl | rfl | rfl | rfl | rfl | rfl | rfl <;> decide
    · simp only [shell', List.mem_cons, List.not_mem_nil, or_false] at hi
      rcases hi with rfl | rfl | rfl | rfl | rfl | rfl | rfl | rfl | rfl | rfl | rfl | rfl | rfl <;> decide
    · simp only [outer', outer, List.mem_cons, List.not_mem_nil, or_false] at hi
      rcases hi with rfl | rfl <;> decide
  have := key c hc i hi
  cases i <;> exact this

private theorem legal : ∀ c ∈ deck'.cells, Legal (itemSyms c.interpreted) := by
  have hx : Derives .expr [.atom c!"-3", .atom c!"-4", .atom c!"-5"] (.inter (.inter (.atom c!"-3") (.atom c!"-4")) (.atom c!"-5")) := .one (.inter (.inter (.single (.atom _)) (.atom _)) (.atom _))
  intro c hc
  simp only [deck', List.mem_cons, List.not_mem_nil, or_false] at hc
  rcases hc with rfl | rfl | rfl
  · exact ⟨_, .one (.single (.paren hx))⟩
  · exact ⟨_, .one (.inter (.single (.compl (.paren (.one (.single (.paren hx)))))) (.atom _))⟩
  · exact ⟨_, .one (.single (.atom _))⟩

private theorem numbers : ∀ z ∈ [(-9 : Int), -7, -2, -1, 0, 1, 2, 7, 9],
    mixedIO.Good (z : ℚ) ∧ Prints decimal mixedIO.render (z : ℚ) ∧ Prints mixedIO.parse mixedIO.render (z : ℚ) ∧ Prints decimal formatF (z : ℚ) := by
  intro z hz
  obtain ⟨a, b, c⟩ := mixed_good z (by revert z; decide)
  exact ⟨a, b, c, fixed_prints z⟩

private theorem coeffs : ∀ s ∈ deck'.surfaces, ∀ x ∈ s.coeffs, mixedIO.Good x ∧ Prints decimal mixedIO.render x ∧ Prints mixedIO.parse mixedIO.render x ∧ Prints decimal formatF x := by
  have key : ∀ s ∈ deck'.surfaces, ∀ x ∈ s.coeffs, ∃ z ∈ [(-9 : Int), -7, -2, -1, 0, 1, 2, 7, 9], x = (z : ℚ) := by decide +kernel
  intro s hs x hx
  obtain ⟨z, hz, rfl⟩ := key s hs x hx
  exact numbers z hz

private theorem shape : ∀ s ∈ deck'.surfaces, WellFormed s ∧ IsQuadric s.type ∧ TwoSheet s ∧ Expressible s ∧ FlukaReady s ∧ ¬ IsCone s.type ∧ ¬ IsTorus s.type := by
  intro s hs
  simp only [deck', List.mem_cons, List.not_mem_nil, or_false] at hs
  rcases hs with rfl | rfl | rfl | rfl
  all_goals exact ⟨rfl, trivial, trivial, rfl, by first | trivial | (show ¬ (_ ∧ _ ∧ _); norm_num), by unfold IsCone; decide, by unfold IsTorus; decide⟩

private theorem writable {P : Str → Prop} (hP : ∀ w, SurfaceWord w → P w) : ∀ c ∈ deck'.cells, Writable mixedIO P c := by
  intro c hc
  refine ⟨spaced c hc, wordsAre_imp (words_are c hc) hP, ?_, ?_, ?_⟩
  all_goals
    simp only [deck', List.mem_cons, List.not_mem_nil, or_false] at hc
    rcases hc with rfl | rfl | rfl
  iterate 6 · exact ⟨by decide, by decide, by decide⟩
  · exact fun _ => by exact_mod_cast (numbers (-7) (by decide)).1
  · exact fun h => absurd rfl h
  · exact fun h => absurd rfl h

private theorem params : ∀ c ∈ deck'.cells, WritableParams mixedIO c [] [] := by
  intro c hc
  simp only [deck', List.mem_cons, List.not_mem_nil, or_false] at hc
  have h1 : mixedIO.Good (1 : ℚ) := by exact_mod_cast (numbers 1 (by decide)).1
  have h0 : mixedIO.Good (0 : ℚ) := by exact_mod_cast (numbers 0 (by decide)).1
  rcases hc with rfl | rfl | rfl
  all_goals refine ⟨fun u hu => (by cases hu), fun u hu => (by cases hu), fun l hl => (by cases hl), fun l hl => (by cases hl), ?_⟩
  exacts [h1, h1, h0]

/-- The hypotheses of `C92_serpent_partial`. -/
example : SerpentDeck decimal env.io env.fixed env.sci id (fun _ => []) (fun _ => []) deck'.cells deck'.surfaces deck'.materials := by
  refine ⟨fun s hs => ⟨(shape s hs).1, .inl (shape s hs).2.1, fun x hx => (coeffs s hs x hx).2.1, fun _ x hx => (coeffs s hs x hx).2.2.2⟩,
    fun c hc => ⟨writable (fun _ h => h) c hc, params c hc⟩, ?_, by decide, ?_⟩
  · intro c hc
    simp only [deck', List.mem_cons, List.not_mem_nil, or_false] at hc
    unfold SerpentOrdinary
    rcases hc with rfl | rfl | rfl
    all_goals exact ⟨by decide, fun u hu => (by cases hu), fun u hu => (by cases hu), by decide⟩
  · intro m hm
    rw [deck', List.mem_singleton] at hm
    subst hm
    refine ⟨by decide, by decide, ⟨mixed_exact.text _, mixed_exact.reads _⟩, by decide, by decide, ?_⟩
    intro e he
    simp only [gas, List.mem_cons, List.not_mem_nil, or_false] at he
    subst he
    exact ⟨⟨[], c!"1", c!".000000", [], by decide +kernel, .inl rfl, by decide, by decide, .inr ⟨c!"000000", rfl, by decide⟩, .inl rfl⟩, by decide +kernel⟩

/-- The hypotheses of `C92_openmc_partial`. -/
example : OpenmcDeck env.io (fun _ => [(1, 1, 1)]) deck'.cells deck'.surfaces deck'.materials := by
  refine ⟨⟨by decide, by decide, by decide⟩, fun s hs => ⟨(shape s hs).1, .inl (shape s hs).2.1, (shape s hs).2.2.1, ?_, fun x hx => (coeffs s hs x hx).2.2.1⟩,
    fun c hc => ⟨spaced c hc, words_are c hc, ?_⟩, ⟨mixed_exact.zero, ?_⟩, ⟨?_, ⟨inner', List.mem_cons_self .., by decide⟩, fun _ => 0, ?_⟩, ?_⟩
  · revert s; decide
  · simp only [deck', List.mem_cons, List.not_mem_nil, or_false] at hc
    rcases hc with rfl | rfl | rfl
    exacts [⟨1, by decide⟩, ⟨0, by decide⟩, ⟨0, by decide⟩]
  · intro c hc
    simp only [deck', List.mem_cons, List.not_mem_nil, or_false] at hc
    rcases hc with rfl | rfl | rfl
    all_goals exact ⟨fun l hl => (by cases hl), fun l hl => (by cases hl)⟩
  · intro c hc
    simp only [deck', List.mem_cons, List.not_mem_nil, or_false] at hc
    rcases hc with rfl | rfl | rfl
    all_goals exact ⟨⟨0, by decide⟩, fun u hu => (by cases hu)⟩
  · intro c hc u s f _ hf
    simp only [deck', List.mem_cons, List.not_mem_nil, or_false] at hc
    rcases hc with rfl | rfl | rfl <;> cases hf
  · intro m hm
    rw [deck', List.mem_singleton] at hm
    subst hm
    refine ⟨by decide +kernel, fun p hp => ?_, ?_, ⟨1, by decide⟩, by unfold AttrText; decide⟩
    · rw [List.mem_singleton] at hp
      subst hp
      refine ⟨by decide, by decide, by decide, fun _ => by decide, ?_⟩
      show Prints mixedIO.parse mixedIO.render |(1 : ℚ)|
      rw [abs_one]
      exact_mod_cast (numbers 1 (by decide)).2.2.1
    · show Prints mixedIO.parse mixedIO.render |(-7 : ℚ)|
      rw [show |(-7 : ℚ)| = 7 by norm_num]
      exact_mod_cast (numbers 7 (by decide)).2.2.1

private theorem printable : ∀ m ∈ deck'.materials, Printable mixedIO m.2 := by
  intro m hm
  rw [deck', List.mem_singleton] at hm
  subst hm
  exact ⟨⟨by decide, by decide⟩, by decide, by decide, by decide, by decide, fun e _ => ⟨mixed_exact.text _, mixed_exact.reads _⟩⟩

/-- The hypotheses of `C92_phits_partial`. -/
example : PhitsDeck env.io deck'.cells deck'.surfaces deck'.materials := by
  refine ⟨fun s hs => ⟨(shape s hs).2.2.2.1, ?_, ?_, fun x hx => (coeffs s hs x hx).1⟩, fun c hc => ⟨[], [], writable (fun _ h => surfaceWord_geometryWord h) c hc, params c hc, ?_⟩, by decide,
    fun c _ => ⟨mixed_exact.text _, mixed_exact.reads _⟩, fun m hm => ⟨printable m hm, ?_⟩⟩
  · revert s; decide
  · revert s; decide
  · simp only [deck', List.mem_cons, List.not_mem_nil, or_false] at hc
    unfold PhitsQuiet
    rcases hc with rfl | rfl | rfl
    all_goals exact ⟨by decide, fun u hu => (by cases hu), fun u hu => (by cases hu), by decide⟩
  · rw [deck', List.mem_singleton] at hm
    subst hm
    intro e he
    simp only [gas, List.mem_cons, List.not_mem_nil, or_false] at he
    subst he
    exact ⟨[], rfl, by decide⟩

/-- The hypotheses of `C92_fluka_partial`. -/
example : FlukaDeck env deck'.cells deck'.surfaces deck'.materials [[(1001, 1)]] ∧ env.io.parse c!"0." = some 0 ∧ env.io.parse c!"0.0" = some 0 := by
  have hw : ∀ x, env.io.render x ≠ [] ∧ ∀ c ∈ env.io.render x, isSpace c = false := fun x => ⟨(render_word mixed_exact x).1, (render_word mixed_exact x).2.1⟩
  refine ⟨⟨hw, ?_, ?_, fun l => .refl l, fun s hs => ⟨(shape s hs).1, (shape s hs).2.2.2.2.1, fun h => absurd h (shape s hs).2.2.2.2.2.1⟩, ?_,
    .cons ⟨by decide +kernel, by decide +kernel, by decide +kernel⟩ .nil, ?_, by decide⟩, by decide +kernel, by decide +kernel⟩
  · intro x _ _
    refine ⟨by simp [env], fun hc => ?_, fun hc => ?_⟩
    · have := (hw x).2 _ (List.mem_of_mem_take hc); cases this
    · have := (hw x).2 _ (List.mem_of_mem_take hc); cases this
  · intro l hl name
    rw [List.mem_singleton] at hl
    subst hl
    have h : ∀ q ∈ [(0 : ℚ), 1], (formatE q).length = 10 ∧ '\n' ∉ formatE q := by decide +kernel
    refine h _ ?_
    unfold fractionOf
    by_cases h1 : properName 1001 = some name <;> simp [List.filter, h1]
  · intro c hc
    refine ⟨?_, ?_, legal c hc, ?_⟩
    · have key : ∀ c ∈ deck'.cells, c.interpreted.IsChain fun i j => i = .op .not → j = .str c!"(" := by decide +kernel
      have last : ∀ c ∈ deck'.cells, c.interpreted.getLast? ≠ some (.op .not) := by decide +kernel
      intro a b e
      cases b with
      | nil => exact absurd (by rw [e]; simp) (last c hc)
      | cons j b =>
        have := key c hc
        rw [e] at this
        have h := (List.isChain_append.1 this).2.1
        rw [List.isChain_cons_cons] at h
        rw [h.1 rfl]
        rfl
    · have key : ∀ c ∈ deck'.cells, ∀ i ∈ c.interpreted, match i with | .str s => IsParen s ∨ ∃ z ∈ [(2 : Int), -2, -3, -4, -5], pyInt s = .ok z | .op _ => True := by
        intro c hc i hi
        simp only [deck', List.mem_cons, List.not_mem_nil, or_false] at hc
        rcases hc with rfl | rfl | rfl
        · simp only [inner', List.mem_cons, List.not_mem_nil, or_false] at hi
          rcases hi with rfl | rfl | rfl | rfl | rfl | rfl | rfl <;> decide +kernel
        · simp only [shell', List.mem_cons, List.not_mem_nil, or_false] at hi
          rcases hi with rfl | rfl | rfl | rfl | rfl | rfl | rfl | rfl | rfl | rfl | rfl | rfl | rfl <;> decide +kernel
        · simp only [outer', outer, List.mem_cons, List.not_mem_nil, or_false] at hi
          rcases hi with rfl | rfl <;> decide +kernel
      intro w hw hp
      rcases key c hc _ hw with h | ⟨z, hz, h⟩
      · exact absurd h hp
      · exact ⟨z, by rintro rfl; exact absurd hz (by decide), h⟩
    · simp only [deck', List.mem_cons, List.not_mem_nil, or_false] at hc
      rcases hc with rfl | rfl | rfl
      all_goals exact ⟨by decide, by decide +kernel, by decide, by decide, by decide⟩
  · intro m hm
    rw [deck', List.mem_singleton] at hm
    subst hm
    exact ⟨by decide, by decide, by decide, by decide +kernel⟩

/-- The hypotheses of `C92_scone_partial`. -/
example : SconeDeck env.sqrt env.degAtan (fun d => (d / 45) ^ 2) decimal env.io env.fixed env.sci (fun _ => [(1, 1, 1)]) deck'.cells deck'.surfaces deck'.materials := by
  refine ⟨fun s hs => ⟨(shape s hs).1, (shape s hs).2.1, fun x hx => (coeffs s hs x hx).2.1, fun h => absurd h (shape s hs).2.2.2.2.2.1⟩, fun c hc => ⟨writable (fun _ h => h) c hc, ?_⟩, ?_, ?_, ?_, ?_,
    fun w x h => decimal_literal h⟩
  · unfold SconeOrdinary
    have key : ∀ w ∈ [c!"(", c!"-3", c!"-4", c!"-5", c!")", c!"#1", c!"-2", c!"2"], w.length ≤ 40 ∧ ∀ t, w ≠ '-' :: '-' :: t := by
      intro w hw
      simp only [List.mem_cons, List.not_mem_nil, or_false] at hw
      rcases hw with rfl | rfl | rfl | rfl | rfl | rfl | rfl | rfl <;> exact ⟨by decide, by simp⟩
    simp only [deck', List.mem_cons, List.not_mem_nil, or_false] at hc
    rcases hc with rfl | rfl | rfl
    all_goals exact ⟨by decide, by decide, fun w hw => key w (by revert w; decide)⟩
  · intro c hc
    simp only [deck', List.mem_cons, List.not_mem_nil, or_false] at hc
    rcases hc with rfl | rfl | rfl
    all_goals exact ⟨⟨0, by decide, by norm_num⟩, fun u hu => (by cases hu)⟩
  · intro c hc
    simp only [deck', List.mem_cons, List.not_mem_nil, or_false] at hc
    rcases hc with rfl | rfl | rfl <;> exact fun _ => ⟨rfl, rfl⟩
  · intro m hm
    rw [deck', List.mem_singleton] at hm
    subst hm
    exact ⟨by decide +kernel, by simp, by simp, by decide, by decide⟩
  · intro x
    refine ⟨formatF_ne_nil x, fun c hc => ?_⟩
    rcases formatF_chars x c hc with h | rfl | rfl | rfl | rfl
    · simp only [isDigit, Bool.or_eq_true, beq_iff_eq] at h
      rcases h with ((((((((rfl | rfl) | rfl) | rfl) | rfl) | rfl) | rfl) | rfl) | rfl) | rfl <;> decide
    all_goals decide

/-- The hypotheses of `C92_mcnp_partial`. -/
example : (∀ c ∈ deck'.cells, ∃ offs rots, Writable env.io GeometryWord c ∧ WritableParams env.io c offs rots ∧ ReadableCell env.io c) ∧
    (∀ s ∈ deck'.surfaces, Expressible s ∧ s.bc ≠ .periodic ∧ 0 ≤ s.id ∧ (intStr s.id).length ≤ 60 ∧ ∀ x ∈ s.coeffs, env.io.Good x) ∧
    (∀ mn ∈ printedMnemonics, env.io.parse mn = none) ∧ (∀ m ∈ deck'.materials, Printable env.io m.2) ∧ (deck'.materials.map fun m => m.2.number).Nodup := by
  refine ⟨fun c hc => ⟨[], [], writable (fun _ h => surfaceWord_geometryWord h) c hc, params c hc, legal c hc, ?_, fun _ => ⟨⟨mixed_exact.text _, mixed_exact.reads _⟩, mixed_exact.plus _⟩, ?_, ?_, ?_, ?_⟩,
    fun s hs => ⟨(shape s hs).2.2.2.1, ?_, ?_, ?_, fun x hx => (coeffs s hs x hx).1⟩, by decide +kernel, printable, by decide⟩
  · simp only [deck', List.mem_cons, List.not_mem_nil, or_false] at hc
    rcases hc with rfl | rfl | rfl
    exacts [.inr ⟨1, by decide, by decide⟩, .inl rfl, .inl rfl]
  · simp only [deck', List.mem_cons, List.not_mem_nil, or_false] at hc
    rcases hc with rfl | rfl | rfl <;> exact fun u hu => (by cases hu)
  · simp only [deck', List.mem_cons, List.not_mem_nil, or_false] at hc
    rcases hc with rfl | rfl | rfl <;> exact fun u hu => (by cases hu)
  · simp only [deck', List.mem_cons, List.not_mem_nil, or_false] at hc
    rcases hc with rfl | rfl | rfl <;> exact fun u _ hu => (by cases hu)
  · have one : PlainNumber (mixedIO.render 1) := .point [] c!"1" c!"0" (by decide) (by decide) (by decide) (by decide) (by decide)
    have zero : PlainNumber (mixedIO.render 0) := .point [] c!"0" c!"0" (by decide) (by decide) (by decide) (by decide) (by decide)
    simp only [deck', List.mem_cons, List.not_mem_nil, or_false] at hc
    rcases hc with rfl | rfl | rfl
    exacts [one, one, zero]
  all_goals revert s; decide

/-! The hypotheses of C96. -/

private theorem convertible : Convertible env.io env.sqrt Int.toNat deck := by
  refine ⟨proper.1, proper.2, by decide, made.1, ?_, by decide, made.2.1, ?_, .inl rfl, finishable.outside⟩
  · intro m hm
    simp only [deck, List.mem_singleton] at hm
    subst hm
    exact ⟨1, by decide, by decide, by decide +kernel⟩
  · intro c hc h
    simp only [deck, List.mem_cons, List.not_mem_nil, or_false] at hc
    rcases hc with rfl | rfl | rfl <;> exact absurd rfl h

/-- There is one processed deck. -/
private theorem processed_is {fuel : Nat} {d : Deck ℚ} (h : finishDeck fuel env.io id env.sqrt false deck = some (.ok d)) : d = deck' := by
  have h1 := finishDeck_mono (le_max_left fuel env.fuel) h
  have h2 := finishDeck_mono (le_max_right fuel env.fuel) is_processed
  rw [h1] at h2
  cases h2
  rfl

private theorem no_params : ∀ c ∈ deck.cells, c.uni = none ∧ c.fill = none ∧ c.offset = none ∧ c.rotation = none := by
  intro c hc
  simp only [deck, List.mem_cons, List.not_mem_nil, or_false] at hc
  rcases hc with rfl | rfl | rfl <;> exact ⟨rfl, rfl, rfl, rfl⟩

private theorem importance_of {i : Nat} {c : Cell ℚ} {x : ℚ} (hc : deck.cells[i]? = some c) (h : ImportanceIs env.io deck i c x) : x = 1 ∨ x = 0 := by
  have e : c.importance = x := by
    rcases h with ⟨-, h⟩ | ⟨t, ht, -⟩
    · exact h
    · cases ht
  have hm := List.mem_of_getElem? hc
  simp only [deck, List.mem_cons, List.not_mem_nil, or_false] at hm
  rcases hm with rfl | rfl | rfl
  exacts [.inl e.symm, .inl e.symm, .inr e.symm]

/-- `C96_openmc_partial`. -/
example : OpenmcInput env.io deck := by
  refine ⟨by decide +kernel, ?_, ?_, ?_, ⟨inner, by simp [deck], by decide⟩, fun _ => 0, ?_⟩
  · intro m hm e he
    simp only [deck, List.mem_singleton] at hm
    subst hm
    simp only [gas, List.mem_singleton] at he
    subst he
    exact ⟨1, 1, by decide +kernel, by decide, by decide, by decide, by decide⟩
  · intro c hc _
    obtain ⟨-, -, h1, h2⟩ := no_params c hc
    rw [h1, h2]
    exact ⟨fun l h => (by cases h), fun l h => (by cases h)⟩
  · intro c hc
    obtain ⟨h1, h2, -⟩ := no_params c hc
    rw [h1, h2]
    exact ⟨⟨0, by decide⟩, fun l h => (by cases h)⟩
  · intro c hc u s f _ h
    rw [(no_params c hc).2.1] at h
    cases h

/-- `C96_serpent_partial`, `C96_phits_partial` and `C96_mcnp_partial`. -/
private theorem for_cards : CardInput env.io deck ∧ ShortCells env.io deck ∧ (∀ m ∈ deck.materials, PrintableXs m.2) ∧
    (∀ (i : Nat) c x, deck.cells[i]? = some c → ImportanceIs env.io deck i c x → PlainNumber (env.io.render x)) ∧
    (∀ fuel d, finishDeck fuel env.io id env.sqrt false deck = some (.ok d) → ShortSurfaces env.io d ∧ PrintedSurfaces decimal env.io d) ∧
    (∀ s ∈ deck.surfaces, IsCone s.type ∨ IsTorus s.type → ∀ x ∈ s.coeffs, Prints decimal env.fixed x) ∧
    (∀ x, FloatText (env.sci x) ∧ ∃ y, env.io.parse (env.sci x) = some y) ∧ ∀ mn ∈ printedMnemonics, env.io.parse mn = none := by
  refine ⟨⟨by decide, ?_, ?_⟩, ⟨by decide +kernel, ?_, ?_, ?_⟩, ?_, ?_, ?_, ?_, ?_, by decide +kernel⟩
  · intro c hc
    obtain ⟨h1, h2, -⟩ := no_params c hc
    rw [h1, h2]
    exact ⟨fun l h => (by cases h), fun l h => (by cases h)⟩
  · intro c hc _
    obtain ⟨-, -, h1, h2⟩ := no_params c hc
    rw [h1, h2]
    exact ⟨fun l h => (by cases h), fun l h => (by cases h)⟩
  · intro i c x hc h
    rcases importance_of hc h with rfl | rfl <;> decide +kernel
  · intro c hc l hl
    obtain ⟨-, -, h1, h2⟩ := no_params c hc
    rw [h1, h2] at hl
    rcases hl with h | h <;> cases h
  · intro t ht
    cases ht
  · intro m hm e he
    simp only [deck, List.mem_singleton] at hm
    subst hm
    simp only [gas, List.mem_singleton] at he
    subst he
    exact ⟨[], by decide +kernel, by simp⟩
  · intro i c x hc h
    have one : PlainNumber (mixedIO.render 1) := .point [] c!"1" c!"0" (by decide) (by decide) (by decide) (by decide) (by decide)
    have zero : PlainNumber (mixedIO.render 0) := .point [] c!"0" c!"0" (by decide) (by decide) (by decide) (by decide) (by decide)
    rcases importance_of hc h with rfl | rfl
    exacts [one, zero]
  · intro fuel d h
    rw [processed_is h]
    exact ⟨fun s hs x hx => (coeffs s hs x hx).1.len, fun s hs x hx => (coeffs s hs x hx).2.1⟩
  · intro s hs h
    simp only [deck, List.mem_cons, List.not_mem_nil, or_false] at hs
    rcases hs with rfl | rfl <;> exact absurd h (by unfold IsCone IsTorus; decide)
  · exact mixed_formatF

/-- `C96_fluka_partial`. -/
example : FlukaSource env.io env.sqrt deck ∧ env.io.parse c!"0." = some 0 ∧ env.io.parse c!"0.0" = some 0 ∧ (env.io.render 0).length ≤ 10 ∧
    (∀ x, x = 0 ∨ 1 / 10 ^ 99 ≤ x → x ≤ 10 ^ 9 → (env.sci3 x).length = 10 ∧ '\n' ∉ env.sci3 x) ∧
    ∀ x, 1 / 10 ^ 99 ≤ x → x ≤ 100000 → (env.sci4 x).length ≤ 10 ∧ ' ' ∉ env.sci4 x ∧ '\n' ∉ env.sci4 x := by
  refine ⟨⟨?_, hashes, by decide, ?_, ?_, by decide +kernel, by decide +kernel, by decide +kernel⟩, by decide +kernel, by decide +kernel, by decide +kernel, ?_, ?_⟩
  · intro s hs
    simp only [deck, List.mem_cons, List.not_mem_nil, or_false] at hs
    rcases hs with rfl | rfl
    · exact ⟨by unfold IsCone; decide, by unfold IsTorus; decide, fun _ => rfl, fun h => (by cases h)⟩
    · refine ⟨by unfold IsCone; decide, by unfold IsTorus; decide, fun h => (by cases h), fun _ => ⟨⟨0, 0, 0⟩, ⟨10, 0, 0⟩, false, ?_, ?_⟩⟩
      · show side env.sqrt ball.type ball.coeffs (placeBy deck.transforms ball.transform ⟨0, 0, 0⟩) = some .neg
        decide +kernel
      · show ¬ side env.sqrt ball.type ball.coeffs (placeBy deck.transforms ball.transform ⟨10, 0, 0⟩) = some .neg
        decide +kernel
  · intro i c x hc h
    rcases importance_of hc h with rfl | rfl
    · exact .inr (by norm_num)
    · exact .inl rfl
  · intro m hm e he
    simp only [deck, List.mem_singleton] at hm
    subst hm
    simp only [gas, List.mem_singleton] at he
    subst he
    exact ⟨1001, by decide +kernel, by decide +kernel⟩
  · intro x h1 h2
    have hx : x = 0 ∨ (10 : ℚ) ^ (-99 : Int) ≤ |x| ∧ |x| < (10 : ℚ) ^ (99 : Int) := by
      rcases h1 with h1 | h1
      · exact .inl h1
      · have hp : 0 < x := lt_of_lt_of_le (by positivity) h1
        rw [abs_of_pos hp]
        exact .inr ⟨le_trans (by rw [zpow_neg]; norm_num) h1, lt_of_le_of_lt h2 (by norm_num)⟩
    obtain ⟨v, hv, -⟩ := formatE_value hx
    exact ⟨sciValue_length hv, formatE_newline x⟩
  · intro x _ _
    have hw : ∀ x, env.io.render x ≠ [] ∧ ∀ c ∈ env.io.render x, isSpace c = false := fun x => ⟨(render_word mixed_exact x).1, (render_word mixed_exact x).2.1⟩
    refine ⟨by simp [env], fun hc => ?_, fun hc => ?_⟩
    · have := (hw x).2 _ (List.mem_of_mem_take hc); cases this
    · have := (hw x).2 _ (List.mem_of_mem_take hc); cases this

/-- `C96_scone_partial`. -/
example : SconeSource env.io env.sqrt env.degAtan (fun d => (d / 45) ^ 2) decimal env.fixed deck := by
  refine ⟨by decide, ?_, by decide, by decide +kernel, by decide, ?_, by decide +kernel, .inr ⟨inner, by simp [deck], by decide⟩⟩
  · intro s hs
    simp only [deck, List.mem_cons, List.not_mem_nil, or_false] at hs
    rcases hs with rfl | rfl <;> exact ⟨by unfold IsTorus; decide, fun h => absurd h (by unfold IsCone; decide)⟩
  · intro c hc
    obtain ⟨h1, h2, -⟩ := no_params c hc
    rw [h1, h2]
    exact ⟨⟨0, by decide, by norm_num⟩, fun l h => (by cases h)⟩

/-! The hypotheses of C100. -/

/-- What the text says. -/
private def said : InputFile ℚ :=
  { cells := [⟨1, some (1, -7), c!"-1 ", [.importance c!"1"]⟩, ⟨2, none, c!"#1 -2 ", [.importance c!"1"]⟩, ⟨3, none, c!"2 ", [.importance c!"0"]⟩]
    surfaces := [⟨1, none, c!"rcc", [0, 0, -2, 0, 0, 4, 3]⟩, ⟨2, none, c!"so", [9]⟩]
    data := [.material 1 [(c!"1001", c!"1.0")] [1]] }

private def saidCells : List (List Str) := [[c!"1 1 -7 -1 imp:n=1\n"], [c!"2 0 #1 -2 imp:n=1\n"], [c!"3 0 2 imp:n=0\n"]]
private def saidSurfaces : List (List Str) := [[c!"1 rcc 0 0 -2 0 0 4 3\n"], [c!"2 so 9\n"]]
private def saidData : List (List Str) := [[c!"m1 1001 1.0\n"]]

private theorem said_layout : Layout text c!"title\n" saidCells saidSurfaces saidData where
  lines := ⟨[c!"1 1 -7 -1 imp:n=1\n", c!"2 0 #1 -2 imp:n=1\n", c!"3 0 2 imp:n=0\n", c!"\n", c!"1 rcc 0 0 -2 0 0 4 3\n", c!"2 so 9\n", c!"\n", c!"m1 1001 1.0\n"], c!"\n", c!"\n", by decide +kernel,
    fun l hl => line_of (by revert l; decide +kernel), fun l hl => comment_iff (by revert l; decide +kernel) (by revert l; decide +kernel), by decide +kernel, by unfold BlankLine; decide, by unfold BlankLine; decide⟩
  noMessage := fun a b e => by
    have := (hasInfix_iff _ _).2 ⟨a, b, e⟩
    revert this
    decide +kernel
  cards := by
    intro g hg
    simp only [saidCells, saidSurfaces, List.cons_append, List.nil_append, List.mem_cons, List.not_mem_nil, or_false] at hg
    rcases hg with rfl | rfl | rfl | rfl | rfl <;> exact ⟨_, _, rfl, not_five (by decide), fun l hl => five (by revert l; decide), by decide +kernel⟩
  dataCards := by
    intro g hg
    simp only [saidData, List.mem_cons, List.not_mem_nil, or_false] at hg
    subst hg
    exact ⟨_, _, rfl, not_five (by decide), fun l hl => five (by revert l; decide), fun l hl => (line_of (l := l) (by revert l; decide)).imp fun _ h => ⟨h.1, .inr h.2⟩⟩

private theorem lex1 : lexGeometry c!"-1 " = [.atom c!"-1"] := by decide +kernel
private theorem lex2 : lexGeometry c!"#1 -2 " = [.atom c!"#1"] ++ [.atom c!"-2"] := by decide +kernel
private theorem lex3 : lexGeometry c!"2 " = [.atom c!"2"] := by decide +kernel

private theorem said_cards : List.Forall₂ (fun g e => CellSays env.io (cardText g) e) saidCells said.cells ∧
    List.Forall₂ (fun g e => SurfaceSays env.io (cardText g) e) saidSurfaces said.surfaces ∧ List.Forall₂ (DataSays env.io) saidData said.data := by
  refine ⟨.cons ?_ (.cons ?_ (.cons ?_ .nil)), .cons ?_ (.cons ?_ .nil), .cons ?_ .nil⟩
  · refine ⟨⟨c!"1 1 -7", c!"1", c!"1", some c!"-7", [(.importance c!"1", c!"imp:n=1", c!"\n")], by decide, .inr ⟨?_, by decide, by decide, by decide⟩, rfl, by decide +kernel, by decide +kernel,
      ⟨by decide +kernel, by decide, c!"-7", rfl, by decide +kernel⟩, by decide, by decide⟩, ?_, ?_, ?_⟩
    · intro e he
      obtain rfl := List.mem_singleton.1 he
      exact ⟨.importance c!"1" c!"=" (by unfold EqualsSign; decide) (.whole [] c!"1" (by decide) (by decide) (by decide)), by decide⟩
    · simp only
      rw [lex1]
      exact ⟨_, .one (.single (.atom _))⟩
    · intro v hv
      simp only [List.mem_cons, List.not_mem_nil, or_false, Param.importance.injEq] at hv
      subst hv
      exact ⟨1, by decide +kernel⟩
    · intro v t hv
      simp at hv
  · refine ⟨⟨c!"2 0", c!"2", c!"0", none, [(.importance c!"1", c!"imp:n=1", c!"\n")], by decide, .inr ⟨?_, by decide, by decide, by decide⟩, rfl, by decide +kernel, by decide +kernel,
      ⟨by decide +kernel, rfl⟩, by decide, by decide⟩, ?_, ?_, ?_⟩
    · intro e he
      obtain rfl := List.mem_singleton.1 he
      exact ⟨.importance c!"1" c!"=" (by unfold EqualsSign; decide) (.whole [] c!"1" (by decide) (by decide) (by decide)), by decide⟩
    · simp only
      rw [lex2]
      exact ⟨_, .one (.inter (.single (.atom _)) (.atom _))⟩
    · intro v hv
      simp only [List.mem_cons, List.not_mem_nil, or_false, Param.importance.injEq] at hv
      subst hv
      exact ⟨1, by decide +kernel⟩
    · intro v t hv
      simp at hv
  · refine ⟨⟨c!"3 0", c!"3", c!"0", none, [(.importance c!"0", c!"imp:n=0", c!"\n")], by decide, .inr ⟨?_, by decide, by decide, by decide⟩, rfl, by decide +kernel, by decide +kernel,
      ⟨by decide +kernel, rfl⟩, by decide, by decide⟩, ?_, ?_, ?_⟩
    · intro e he
      obtain rfl := List.mem_singleton.1 he
      exact ⟨.importance c!"0" c!"=" (by unfold EqualsSign; decide) (.whole [] c!"0" (by decide) (by decide) (by decide)), by decide⟩
    · simp only
      rw [lex3]
      exact ⟨_, .one (.single (.atom _))⟩
    · intro v hv
      simp only [List.mem_cons, List.not_mem_nil, or_false, Param.importance.injEq] at hv
      subst hv
      exact ⟨0, by decide +kernel⟩
    · intro v t hv
      simp at hv
  · exact .inl ⟨[c!"0", c!"0", c!"-2", c!"0", c!"0", c!"4", c!"3"], ⟨c!"1", by decide +kernel, by decide, ⟨c!"1 rcc 0 0 -2 0 0 4 3\n", [], .inl (by decide +kernel), by decide, by decide +kernel⟩, by decide +kernel⟩, by unfold Reads; decide +kernel,
      by unfold EntriesSuit; right; right; right; right; left; decide⟩
  · exact .inl ⟨[c!"9"], ⟨c!"2", by decide +kernel, by decide, ⟨c!"2 so 9\n", [], .inl (by decide +kernel), by decide, by decide +kernel⟩, by decide +kernel⟩, by unfold Reads; decide +kernel, .inl ⟨.so, by decide, by decide +kernel⟩⟩
  · refine ⟨⟨⟨_, _, rfl, by decide, by decide, 0, c!" 1001 1.0\n", by decide, by decide⟩, by decide +kernel, .cons (by decide +kernel) .nil⟩, ?_, ?_⟩
    · intro l hl
      cases hl
    · intro _ l hl
      exact not_imp (by revert l; decide +kernel)

private theorem is_said : FileSays env.io text said where
  layout := ⟨_, _, _, _, said_layout, said_cards⟩
  materials := by decide
  transforms := by decide
  importances := by decide
  last := ⟨[], _, rfl, by intro n d v; simp, by intro v; simp⟩

private theorem said_importance {i : Nat} {c : CellEntry ℚ} {x : ℚ} (hc : said.cells[i]? = some c) (h : FileImportance env.io said i c x) : x = 1 ∨ x = 0 ∧ c = ⟨3, none, c!"2 ", [.importance c!"0"]⟩ := by
  rcases h with ⟨vs, hv, -⟩ | ⟨-, h⟩
  · cases hv
  · have hm := List.mem_of_getElem? hc
    simp only [said, List.mem_cons, List.not_mem_nil, or_false] at hm
    have h1 : env.io.float c!"1" = .ok 1 := by decide +kernel
    have h0 : env.io.float c!"0" = .ok 0 := by decide +kernel
    rcases hm with rfl | rfl | rfl <;> rcases h with ⟨v, hv, h⟩ | ⟨h, -⟩
    all_goals first
      | exact absurd (List.mem_singleton.2 rfl) (h _)
      | (simp only [List.mem_cons, List.not_mem_nil, or_false, Param.importance.injEq] at hv
         subst hv
         first
          | (rw [h1] at h; cases h; exact .inl rfl)
          | (rw [h0] at h; cases h; exact .inr ⟨rfl, rfl⟩))

private theorem said_composition {comp : List (Str × ℚ)} (h : CompositionOf [(c!"1001", c!"1.0")] [1] comp) : comp = [(c!"1001", 1)] := by
  have hn : nuclideOf c!"1001" = c!"1001" := by decide +kernel
  have key : ∀ e ∈ comp, e = (c!"1001", 1) := by
    intro e he
    obtain ⟨x, hx, e1⟩ := (h.nuclides e.1).1 (List.mem_map.2 ⟨e, he, rfl⟩)
    obtain rfl := List.mem_singleton.1 hx
    have e2 := h.fractions e.1 e.2 he
    rw [← e1, hn, show given c!"1001" [(c!"1001", c!"1.0")] [(1 : ℚ)] = 1 by decide +kernel] at e2
    exact Prod.ext (by rw [← e1, hn]) e2
  obtain ⟨e, he, -⟩ := List.mem_map.1 ((h.nuclides c!"1001").2 ⟨_, List.mem_singleton.2 rfl, hn⟩)
  match comp, key, he, h.once with
  | [a], key, _, _ => rw [key a (by simp)]
  | a :: b :: l, key, _, h => rw [key a (by simp), key b (by simp)] at h; simp at h

private theorem said_convertible : ConvertibleFile env.io id env.sqrt Int.toNat said := by
  have atoms : ∀ c ∈ said.cells, ∀ w, Sym.atom w ∈ lexGeometry c.geometry → (w = c!"#1" ∧ c.number = 2) ∨ (w = c!"-1" ∧ c.number = 1) ∨ (w = c!"-2" ∧ c.number = 2) ∨ (w = c!"2" ∧ c.number = 3) := by
    intro c hc w hw
    simp only [said, List.mem_cons, List.not_mem_nil, or_false] at hc
    rcases hc with rfl | rfl | rfl
    · rw [lex1] at hw
      simp at hw
      exact .inr (.inl ⟨hw, rfl⟩)
    · rw [lex2] at hw
      simp at hw
      rcases hw with hw | hw
      · exact .inl ⟨hw, rfl⟩
      · exact .inr (.inr (.inl ⟨hw, rfl⟩))
    · rw [lex3] at hw
      simp at hw
      exact .inr (.inr (.inr ⟨hw, rfl⟩))
  have moves : ∀ c ∈ said.cells, c.moves = none := by decide +kernel
  refine ⟨⟨by decide, by decide +kernel⟩, ?_, ?_, ⟨by decide, by decide +kernel⟩, ?_, ?_, ?_, ?_, ?_, ?_, ?_⟩
  · intro s hs
    simp only [said, List.mem_cons, List.not_mem_nil, or_false] at hs
    rcases hs with rfl | rfl
    · refine .inr (.inr ⟨.macroRCC, by decide, by unfold ProperBody; norm_num, ?_⟩)
      show RootAt root _
      unfold RootAt; decide +kernel
    · exact .inl ⟨.so, by decide, by decide +kernel⟩
  · intro s hs n hn
    simp only [said, List.mem_cons, List.not_mem_nil, or_false] at hs
    rcases hs with rfl | rfl <;> cases hn
  · intro c hc w hw
    have h1 : (⟨1, none, c!"rcc", [0, 0, -2, 0, 0, 4, 3]⟩ : SurfaceEntry ℚ) ∈ said.surfaces := by simp [said]
    have h2 : (⟨2, none, c!"so", [9]⟩ : SurfaceEntry ℚ) ∈ said.surfaces := by simp [said]
    rcases atoms c hc w hw with ⟨rfl, -⟩ | ⟨rfl, -⟩ | ⟨rfl, -⟩ | ⟨rfl, -⟩
    · exact .inl ⟨1, by decide⟩
    · exact .inr (.inl ⟨_, h1, .inr (by decide)⟩)
    · exact .inr (.inl ⟨_, h2, .inr (by decide)⟩)
    · exact .inr (.inl ⟨_, h2, .inl (by decide)⟩)
  · intro c hc w hw hh
    rcases atoms c hc w hw with ⟨rfl, e⟩ | ⟨rfl, e⟩ | ⟨rfl, e⟩ | ⟨rfl, e⟩
    · exact ⟨1, ⟨1, some (1, -7), c!"-1 ", [.importance c!"1"]⟩, by simp [said], by decide, rfl, by rw [e]; decide⟩
    all_goals exact absurd hh (by decide)
  · intro c hc m x hx
    simp only [said, List.mem_cons, List.not_mem_nil, or_false] at hc
    rcases hc with rfl | rfl | rfl
    · cases hx
      exact ⟨1, by decide, rfl⟩
    · cases hx
    · cases hx
  · intro m hm
    obtain rfl := List.mem_singleton.1 (show m ∈ [(1, [(c!"1001", c!"1.0")], [(1 : ℚ)])] from hm)
    have hn : nuclideOf c!"1001" = natStr 1001 := by decide +kernel
    refine ⟨by decide, by decide, ?_, ?_, by decide, by decide⟩
    · intro e he
      obtain rfl := List.mem_singleton.1 he
      exact ⟨1001, hn⟩
    · rintro z ⟨e, he, h⟩
      obtain rfl := List.mem_singleton.1 he
      have := natStr_injective (hn.symm.trans h)
      omega
  · intro c hc d ws h
    rw [moves c hc] at h
    cases h
  · intro vs hv
    cases hv
  · intro i c hc h w z hw hz
    rcases said_importance hc h with h | ⟨-, rfl⟩
    · cases h
    · simp only [lex3, List.mem_singleton, Sym.atom.injEq] at hw
      subst hw
      rw [show parseInt c!"2" = some 2 by decide +kernel] at hz
      cases hz
      exact ⟨⟨2, none, c!"so", [9]⟩, by simp [said], by decide, rfl⟩

private theorem said_density {c : CellEntry ℚ} (hc : c ∈ said.cells) {m : Int} {x : ℚ} (h : c.content = some (m, x)) : x = -7 := by
  simp only [said, List.mem_cons, List.not_mem_nil, or_false] at hc
  rcases hc with rfl | rfl | rfl <;> cases h
  rfl

private theorem said_params : ∀ c ∈ said.cells, c.uni = none ∧ c.fill = none ∧ c.moves = none := by decide +kernel

/-- `C100_openmc_partial`. -/
example : FileSays env.io text said ∧ ConvertibleFile env.io id env.sqrt Int.toNat said ∧ OpenmcFile said := by
  refine ⟨is_said, said_convertible, ?_, ?_, ⟨⟨3, none, c!"2 ", [.importance c!"0"]⟩, by simp [said], by decide⟩, fun _ => 0, ?_⟩
  · intro m hm e he
    obtain rfl := List.mem_singleton.1 (show m ∈ [(1, [(c!"1001", c!"1.0")], [(1 : ℚ)])] from hm)
    obtain rfl := List.mem_singleton.1 he
    exact ⟨1, 1, by decide +kernel, by decide, by decide, by decide, by decide⟩
  · intro c hc
    obtain ⟨h1, h2, -⟩ := said_params c hc
    rw [h1, h2]
    exact ⟨⟨0, by decide⟩, fun l h => (by cases h)⟩
  · intro c hc u s f _ h
    rw [(said_params c hc).2.1] at h
    cases h

/-- `C100_serpent_partial`, `C100_phits_partial` and `C100_mcnp_partial`. -/
example : CardFile said ∧ (∀ (i : Nat) c x, said.cells[i]? = some c → FileImportance env.io said i c x → PlainNumber (env.io.render x)) ∧
    ∀ d fuel d', readDeck env.io id (readText text) = .ok d → finishDeck fuel env.io id env.sqrt false d = some (.ok d') →
      ShortCells env.io d ∧ ShortSurfaces env.io d' ∧ PrintedSurfaces decimal env.io d' ∧ (∀ m ∈ d.materials, PrintableXs m.2) ∧
        ∀ s ∈ d.surfaces, IsCone s.type ∨ IsTorus s.type → ∀ x ∈ s.coeffs, Prints decimal env.fixed x := by
  refine ⟨⟨by decide, ?_, ?_⟩, ?_, ?_⟩
  · intro c hc
    obtain ⟨h1, h2, -⟩ := said_params c hc
    rw [h1, h2]
    exact ⟨fun l h => (by cases h), fun l h => (by cases h)⟩
  · intro c hc d ws h
    rw [(said_params c hc).2.2] at h
    cases h
  · intro i c x hc h
    have one : PlainNumber (mixedIO.render 1) := .point [] c!"1" c!"0" (by decide) (by decide) (by decide) (by decide) (by decide)
    have zero : PlainNumber (mixedIO.render 0) := .point [] c!"0" c!"0" (by decide) (by decide) (by decide) (by decide) (by decide)
    rcases said_importance hc h with rfl | ⟨rfl, -⟩
    exacts [one, zero]
  · intro d fuel d' hr h
    rw [is_read] at hr
    cases hr
    obtain ⟨-, h1, h2, -, h3, h4, -⟩ := for_cards
    exact ⟨h1, (h3 fuel d' h).1, (h3 fuel d' h).2, h2, h4⟩

/-- `C100_fluka_partial`. -/
example : FlukaFile env.io id env.sqrt said := by
  refine ⟨?_, ?_, by decide, ?_, ?_, fun c hc m x h => by rw [said_density hc h]; decide +kernel, ?_⟩
  · intro s hs
    simp only [said, List.mem_cons, List.not_mem_nil, or_false] at hs
    rcases hs with rfl | rfl
    · exact ⟨by decide, fun m hm => absurd (show bodyType c!"rcc" = none from (congrArg bodyType hm).trans (bodyType_word m)) (by decide), fun _ => rfl, fun h => absurd h (by decide)⟩
    · refine ⟨by decide, fun m hm => ?_, fun h => absurd h (by decide), fun _ => ⟨⟨0, 0, 0⟩, ⟨10, 0, 0⟩, false, ?_, ?_⟩⟩
      · obtain rfl : m = .so := word_inj (hm.symm.trans (by decide))
        have hv : ∀ p : Point ℚ, mcnpValue .so [9] p = some (p.x ^ 2 + p.y ^ 2 + p.z ^ 2 - 81) := by
          intro p
          simp [mcnpValue]
          norm_num
        rintro ⟨x, y, z, t, h | h | h⟩
        all_goals
          have h0 := h ⟨0, 0, 0⟩
          have h1 := h ⟨1, 0, 0⟩
          have h2 := h ⟨-1, 0, 0⟩
          have h3 := h ⟨0, 1, 0⟩
          have h4 := h ⟨0, -1, 0⟩
          have h5 := h ⟨0, 0, 1⟩
          have h6 := h ⟨0, 0, -1⟩
          rw [hv] at h0 h1 h2 h3 h4 h5 h6
          simp only [Option.some.injEq] at h0 h1 h2 h3 h4 h5 h6
          have ht : t = -1 := by nlinarith
          subst ht
          nlinarith [sq_nonneg x, sq_nonneg y, sq_nonneg z]
      · show cardSide env.sqrt c!"so" [9] (said.place id none ⟨0, 0, 0⟩) = some .neg
        decide +kernel
      · show ¬ cardSide env.sqrt c!"so" [9] (said.place id none ⟨10, 0, 0⟩) = some .neg
        decide +kernel
  · intro c hc a b e
    have no : ∀ c ∈ said.cells, Sym.no ∉ lexGeometry c.geometry := by decide +kernel
    exact absurd (by rw [e]; simp) (no c hc)
  · intro i c x hc h
    rcases said_importance hc h with rfl | ⟨rfl, -⟩
    · exact .inr (by norm_num)
    · exact .inl rfl
  · intro m hm e he
    obtain rfl := List.mem_singleton.1 (show m ∈ [(1, [(c!"1001", c!"1.0")], [(1 : ℚ)])] from hm)
    obtain rfl := List.mem_singleton.1 he
    exact ⟨1001, by decide +kernel, by decide +kernel⟩
  · intro m hm comp h
    obtain rfl := List.mem_singleton.1 (show m ∈ [(1, [(c!"1001", c!"1.0")], [(1 : ℚ)])] from hm)
    rw [said_composition h]
    decide +kernel

/-- `C100_scone_partial`. -/
example : SconeFile env.io said ∧ ∀ d fuel d', readDeck env.io id (readText text) = .ok d → finishDeck fuel env.io id env.sqrt false d = some (.ok d') → PrintedSurfaces decimal env.io d' ∧
    ∀ s ∈ d.surfaces, IsCone s.type → (∀ x ∈ s.coeffs, Prints decimal env.fixed x) ∧
      ∀ t, s.coeffs[3]? = some t → 0 ≤ t ∧ Prints decimal env.io.render (env.degAtan (env.sqrt t)) ∧ (env.degAtan (env.sqrt t) / 45) ^ 2 = t := by
  refine ⟨⟨by decide +kernel, by decide +kernel, ⟨by decide +kernel, fun c hc m x h => by rw [said_density hc h]; decide +kernel⟩, ?_, ?_, ?_, .inr ⟨⟨1, some (1, -7), c!"-1 ", [.importance c!"1"]⟩, by simp [said], by simp⟩⟩, ?_⟩
  · intro c hc w hw
    simp only [said, List.mem_cons, List.not_mem_nil, or_false] at hc
    rcases hc with rfl | rfl | rfl
    · rw [lex1] at hw
      simp at hw
      subst hw
      decide
    · rw [lex2] at hw
      simp at hw
      rcases hw with rfl | rfl <;> decide
    · rw [lex3] at hw
      simp at hw
      subst hw
      decide
  · intro c hc
    obtain ⟨h1, h2, -⟩ := said_params c hc
    rw [h1, h2]
    exact ⟨⟨0, by decide, by norm_num⟩, fun l h => (by cases h)⟩
  · intro m hm comp h
    obtain rfl := List.mem_singleton.1 (show m ∈ [(1, [(c!"1001", c!"1.0")], [(1 : ℚ)])] from hm)
    rw [said_composition h]
    decide +kernel
  · intro d fuel d' hr h
    rw [is_read] at hr
    cases hr
    obtain ⟨-, -, -, -, h3, -⟩ := for_cards
    refine ⟨(h3 fuel d' h).2, fun s hs hc => ?_⟩
    simp only [deck, List.mem_cons, List.not_mem_nil, or_false] at hs
    rcases hs with rfl | rfl <;> exact absurd hc (by unfold IsCone; decide)

/-- `C102_openmc_partial`, and with the examples for C100 the other theorems of C102: surface 2 is named by the cell with importance zero, surface 1 is not. -/
example : NamedApart env.io said 2 ∧ ¬ NamedOutside env.io said 1 ∧ ⟨2, none, c!"so", [9]⟩ ∈ said.surfaces ∧ bodyType c!"so" = none := by
  refine ⟨⟨2, ⟨3, none, c!"2 ", [.importance c!"0"]⟩, [], [], c!"2", 2, rfl, .inr ⟨fun vs hv => (by cases hv), .inl ⟨c!"0", List.mem_singleton.2 rfl, by decide +kernel⟩⟩, lex3, by simp, by decide +kernel, by decide⟩,
    ?_, by simp [said], by decide⟩
  rintro ⟨i, c, w, z, hc, h0, hw, hz, hn⟩
  rcases said_importance hc h0 with h | ⟨-, rfl⟩
  · cases h
  · rw [lex3] at hw
    simp only [List.mem_singleton, Sym.atom.injEq] at hw
    subst hw
    rw [show parseInt c!"2" = some 2 by decide +kernel] at hz
    cases hz
    exact absurd hn (by decide)

/-! The hypotheses of C110: the same cards in another order. -/

private def text2 : Str := c!"title\n3 0 2 imp:n=0\n1 1 -7 -1 imp:n=1\n2 0 #1 -2 imp:n=1\n\n2 so 9\n1 rcc 0 0 -2 0 0 4 3\n\nm1 1001 1.0\n"

private def said2 : InputFile ℚ :=
  { cells := [⟨3, none, c!"2 ", [.importance c!"0"]⟩, ⟨1, some (1, -7), c!"-1 ", [.importance c!"1"]⟩, ⟨2, none, c!"#1 -2 ", [.importance c!"1"]⟩]
    surfaces := [⟨2, none, c!"so", [9]⟩, ⟨1, none, c!"rcc", [0, 0, -2, 0, 0, 4, 3]⟩]
    data := [.material 1 [(c!"1001", c!"1.0")] [1]] }

private def saidCells2 : List (List Str) := [[c!"3 0 2 imp:n=0\n"], [c!"1 1 -7 -1 imp:n=1\n"], [c!"2 0 #1 -2 imp:n=1\n"]]
private def saidSurfaces2 : List (List Str) := [[c!"2 so 9\n"], [c!"1 rcc 0 0 -2 0 0 4 3\n"]]

private theorem said_layout2 : Layout text2 c!"title\n" saidCells2 saidSurfaces2 saidData where
  lines := ⟨[c!"3 0 2 imp:n=0\n", c!"1 1 -7 -1 imp:n=1\n", c!"2 0 #1 -2 imp:n=1\n", c!"\n", c!"2 so 9\n", c!"1 rcc 0 0 -2 0 0 4 3\n", c!"\n", c!"m1 1001 1.0\n"], c!"\n", c!"\n", by decide +kernel,
    fun l hl => line_of (by revert l; decide +kernel), fun l hl => comment_iff (by revert l; decide +kernel) (by revert l; decide +kernel), by decide +kernel, by unfold BlankLine; decide, by unfold BlankLine; decide⟩
  noMessage := said_layout.noMessage
  cards := by
    intro g hg
    simp only [saidCells2, saidSurfaces2, List.cons_append, List.nil_append, List.mem_cons, List.not_mem_nil, or_false] at hg
    rcases hg with rfl | rfl | rfl | rfl | rfl <;> exact ⟨_, _, rfl, not_five (by decide), fun l hl => five (by revert l; decide), by decide +kernel⟩
  dataCards := said_layout.dataCards

private theorem is_said2 : FileSays env.io text2 said2 where
  layout := by
    obtain ⟨_ | ⟨h1, _ | ⟨h2, _ | ⟨h3, -⟩⟩⟩, _ | ⟨h4, _ | ⟨h5, -⟩⟩, h6⟩ := said_cards
    exact ⟨_, _, _, _, said_layout2, .cons h3 (.cons h1 (.cons h2 .nil)), .cons h5 (.cons h4 .nil), h6⟩
  materials := by decide
  transforms := by decide
  importances := by decide
  last := ⟨[], _, rfl, by intro n d v; simp, by intro v; simp⟩

private def deck2 : Deck ℚ := { deck with cells := [outer, inner, shell], surfaces := [ball, can] }

private theorem is_read2 : readDeck env.io id (readText text2) = .ok deck2 := by decide +kernel

private theorem is_processed2 : finishDeck env.fuel env.io id env.sqrt false deck2 = some (.ok { deck' with cells := [outer', inner', shell'] }) := by decide +kernel

private theorem importance_of2 {i : Nat} {c : Cell ℚ} {x : ℚ} (hc : deck2.cells[i]? = some c) (h : ImportanceIs env.io deck2 i c x) : x = 1 ∨ x = 0 := by
  have e : c.importance = x := by
    rcases h with ⟨-, h⟩ | ⟨t, ht, -⟩
    · exact h
    · cases ht
  have hm := List.mem_of_getElem? hc
  simp only [deck2, List.mem_cons, List.not_mem_nil, or_false] at hm
  rcases hm with rfl | rfl | rfl
  exacts [.inr e.symm, .inl e.symm, .inl e.symm]

/-- With the examples for C100: `C110_points`, `C110_convertible`, `C110_openmc_partial`, `C110_serpent_partial`, `C110_phits_partial`, `C110_mcnp_partial`, `C110_fluka_partial` and `C110_scone_partial`. -/
example : FileSays env.io text2 said2 ∧ Reordered said said2 ∧
    ∀ d fuel d', readDeck env.io id (readText text2) = .ok d → finishDeck fuel env.io id env.sqrt false d = some (.ok d') →
      ShortCells env.io d ∧ ShortSurfaces env.io d' ∧ PrintedSurfaces decimal env.io d' ∧ (∀ m ∈ d.materials, PrintableXs m.2) ∧
        ∀ s ∈ d.surfaces, ¬ IsCone s.type ∧ ¬ IsTorus s.type := by
  refine ⟨is_said2, ⟨?_, List.Perm.swap .., .refl _, rfl⟩, ?_⟩
  · exact (List.Perm.swap _ _ _ |>.cons _).trans (List.Perm.swap ..) |>.trans (.refl _)
  · intro d fuel d' hr h
    rw [is_read2] at hr
    cases hr
    have e : d' = { deck' with cells := [outer', inner', shell'] } := by
      have h1 := finishDeck_mono (le_max_left fuel env.fuel) h
      have h2 := finishDeck_mono (le_max_right fuel env.fuel) is_processed2
      rw [h1] at h2
      cases h2
      rfl
    have np : ∀ c ∈ deck2.cells, c.offset = none ∧ c.rotation = none := by
      intro c hc
      simp only [deck2, List.mem_cons, List.not_mem_nil, or_false] at hc
      rcases hc with rfl | rfl | rfl <;> exact ⟨rfl, rfl⟩
    obtain ⟨-, -, h2, -⟩ := for_cards
    refine ⟨⟨by decide +kernel, ?_, ?_, ?_⟩, ?_, ?_, h2, ?_⟩
    · intro i c x hc h
      rcases importance_of2 hc h with rfl | rfl <;> decide +kernel
    · intro c hc l hl
      obtain ⟨h1, h2⟩ := np c hc
      rw [h1, h2] at hl
      rcases hl with h | h <;> cases h
    · intro t ht
      cases ht
    · rw [e]
      exact fun s hs x hx => (coeffs s hs x hx).1.len
    · rw [e]
      exact fun s hs x hx => (coeffs s hs x hx).2.1
    · intro s hs
      simp only [deck2, List.mem_cons, List.not_mem_nil, or_false] at hs
      rcases hs with rfl | rfl <;> (unfold IsCone IsTorus; decide)

/-! The hypotheses of C114: the same cards with other numbers. -/

private def text3 : Str := c!"title\n41 5 -7 -31 imp:n=1\n42 0 #41 -32 imp:n=1\n43 0 32 imp:n=0\n\n31 rcc 0 0 -2 0 0 4 3\n32 so 9\n\nm5 1001 1.0\n"

private def said3 : InputFile ℚ :=
  { cells := [⟨41, some (5, -7), c!"-31 ", [.importance c!"1"]⟩, ⟨42, none, c!"#41 -32 ", [.importance c!"1"]⟩, ⟨43, none, c!"32 ", [.importance c!"0"]⟩]
    surfaces := [⟨31, none, c!"rcc", [0, 0, -2, 0, 0, 4, 3]⟩, ⟨32, none, c!"so", [9]⟩]
    data := [.material 5 [(c!"1001", c!"1.0")] [1]] }

private def saidCells3 : List (List Str) := [[c!"41 5 -7 -31 imp:n=1\n"], [c!"42 0 #41 -32 imp:n=1\n"], [c!"43 0 32 imp:n=0\n"]]
private def saidSurfaces3 : List (List Str) := [[c!"31 rcc 0 0 -2 0 0 4 3\n"], [c!"32 so 9\n"]]
private def saidData3 : List (List Str) := [[c!"m5 1001 1.0\n"]]

private theorem said_layout3 : Layout text3 c!"title\n" saidCells3 saidSurfaces3 saidData3 where
  lines := ⟨[c!"41 5 -7 -31 imp:n=1\n", c!"42 0 #41 -32 imp:n=1\n", c!"43 0 32 imp:n=0\n", c!"\n", c!"31 rcc 0 0 -2 0 0 4 3\n", c!"32 so 9\n", c!"\n", c!"m5 1001 1.0\n"], c!"\n", c!"\n", by decide +kernel,
    fun l hl => line_of (by revert l; decide +kernel), fun l hl => comment_iff (by revert l; decide +kernel) (by revert l; decide +kernel), by decide +kernel, by unfold BlankLine; decide, by unfold BlankLine; decide⟩
  noMessage := fun a b e => by
    have := (hasInfix_iff _ _).2 ⟨a, b, e⟩
    revert this
    decide +kernel
  cards := by
    intro g hg
    simp only [saidCells3, saidSurfaces3, List.cons_append, List.nil_append, List.mem_cons, List.not_mem_nil, or_false] at hg
    rcases hg with rfl | rfl | rfl | rfl | rfl <;> exact ⟨_, _, rfl, not_five (by decide), fun l hl => five (by revert l; decide), by decide +kernel⟩
  dataCards := by
    intro g hg
    simp only [saidData3, List.mem_cons, List.not_mem_nil, or_false] at hg
    subst hg
    exact ⟨_, _, rfl, not_five (by decide), fun l hl => five (by revert l; decide), fun l hl => (line_of (l := l) (by revert l; decide)).imp fun _ h => ⟨h.1, .inr h.2⟩⟩

private theorem lex1_3 : lexGeometry c!"-31 " = [.atom c!"-31"] := by decide +kernel
private theorem lex2_3 : lexGeometry c!"#41 -32 " = [.atom c!"#41"] ++ [.atom c!"-32"] := by decide +kernel
private theorem lex3_3 : lexGeometry c!"32 " = [.atom c!"32"] := by decide +kernel

private theorem said_cards3 : List.Forall₂ (fun g e => CellSays env.io (cardText g) e) saidCells3 said3.cells ∧
    List.Forall₂ (fun g e => SurfaceSays env.io (cardText g) e) saidSurfaces3 said3.surfaces ∧ List.Forall₂ (DataSays env.io) saidData3 said3.data := by
  refine ⟨.cons ?_ (.cons ?_ (.cons ?_ .nil)), .cons ?_ (.cons ?_ .nil), .cons ?_ .nil⟩
  · refine ⟨⟨c!"41 5 -7", c!"41", c!"5", some c!"-7", [(.importance c!"1", c!"imp:n=1", c!"\n")], by decide, .inr ⟨?_, by decide, by decide, by decide⟩, rfl, by decide +kernel, by decide +kernel,
      ⟨by decide +kernel, by decide, c!"-7", rfl, by decide +kernel⟩, by decide, by decide⟩, ?_, ?_, ?_⟩
    · intro e he
      obtain rfl := List.mem_singleton.1 he
      exact ⟨.importance c!"1" c!"=" (by unfold EqualsSign; decide) (.whole [] c!"1" (by decide) (by decide) (by decide)), by decide⟩
    · simp only
      rw [lex1_3]
      exact ⟨_, .one (.single (.atom _))⟩
    · intro v hv
      simp only [List.mem_cons, List.not_mem_nil, or_false, Param.importance.injEq] at hv
      subst hv
      exact ⟨1, by decide +kernel⟩
    · intro v t hv
      simp at hv
  · refine ⟨⟨c!"42 0", c!"42", c!"0", none, [(.importance c!"1", c!"imp:n=1", c!"\n")], by decide, .inr ⟨?_, by decide, by decide, by decide⟩, rfl, by decide +kernel, by decide +kernel,
      ⟨by decide +kernel, rfl⟩, by decide, by decide⟩, ?_, ?_, ?_⟩
    · intro e he
      obtain rfl := List.mem_singleton.1 he
      exact ⟨.importance c!"1" c!"=" (by unfold EqualsSign; decide) (.whole [] c!"1" (by decide) (by decide) (by decide)), by decide⟩
    · simp only
      rw [lex2_3]
      exact ⟨_, .one (.inter (.single (.atom _)) (.atom _))⟩
    · intro v hv
      simp only [List.mem_cons, List.not_mem_nil, or_false, Param.importance.injEq] at hv
      subst hv
      exact ⟨1, by decide +kernel⟩
    · intro v t hv
      simp at hv
  · refine ⟨⟨c!"43 0", c!"43", c!"0", none, [(.importance c!"0", c!"imp:n=0", c!"\n")], by decide, .inr ⟨?_, by decide, by decide, by decide⟩, rfl, by decide +kernel, by decide +kernel,
      ⟨by decide +kernel, rfl⟩, by decide, by decide⟩, ?_, ?_, ?_⟩
    · intro e he
      obtain rfl := List.mem_singleton.1 he
      exact ⟨.importance c!"0" c!"=" (by unfold EqualsSign; decide) (.whole [] c!"0" (by decide) (by decide) (by decide)), by decide⟩
    · simp only
      rw [lex3_3]
      exact ⟨_, .one (.single (.atom _))⟩
    · intro v hv
      simp only [List.mem_cons, List.not_mem_nil, or_false, Param.importance.injEq] at hv
      subst hv
      exact ⟨0, by decide +kernel⟩
    · intro v t hv
      simp at hv
  · exact .inl ⟨[c!"0", c!"0", c!"-2", c!"0", c!"0", c!"4", c!"3"], ⟨c!"31", by decide +kernel, by decide, ⟨c!"31 rcc 0 0 -2 0 0 4 3\n", [], .inl (by decide +kernel), by decide, by decide +kernel⟩, by decide +kernel⟩, by unfold Reads; decide +kernel,
      by unfold EntriesSuit; right; right; right; right; left; decide⟩
  · exact .inl ⟨[c!"9"], ⟨c!"32", by decide +kernel, by decide, ⟨c!"32 so 9\n", [], .inl (by decide +kernel), by decide, by decide +kernel⟩, by decide +kernel⟩, by unfold Reads; decide +kernel, .inl ⟨.so, by decide, by decide +kernel⟩⟩
  · refine ⟨⟨⟨_, _, rfl, by decide, by decide, 0, c!" 1001 1.0\n", by decide, by decide⟩, by decide +kernel, .cons (by decide +kernel) .nil⟩, ?_, ?_⟩
    · intro l hl
      cases hl
    · intro _ l hl
      exact not_imp (by revert l; decide +kernel)

private theorem is_said3 : FileSays env.io text3 said3 where
  layout := ⟨_, _, _, _, said_layout3, said_cards3⟩
  materials := by decide
  transforms := by decide
  importances := by decide
  last := ⟨[], _, rfl, by intro n d v; simp, by intro v; simp⟩

private theorem said_importance3 {i : Nat} {c : CellEntry ℚ} {x : ℚ} (hc : said3.cells[i]? = some c) (h : FileImportance env.io said3 i c x) : x = 1 ∨ x = 0 ∧ c = ⟨43, none, c!"32 ", [.importance c!"0"]⟩ := by
  rcases h with ⟨vs, hv, -⟩ | ⟨-, h⟩
  · cases hv
  · have hm := List.mem_of_getElem? hc
    simp only [said3, List.mem_cons, List.not_mem_nil, or_false] at hm
    have h1 : env.io.float c!"1" = .ok 1 := by decide +kernel
    have h0 : env.io.float c!"0" = .ok 0 := by decide +kernel
    rcases hm with rfl | rfl | rfl <;> rcases h with ⟨v, hv, h⟩ | ⟨h, -⟩
    all_goals first
      | exact absurd (List.mem_singleton.2 rfl) (h _)
      | (simp only [List.mem_cons, List.not_mem_nil, or_false, Param.importance.injEq] at hv
         subst hv
         first
          | (rw [h1] at h; cases h; exact .inl rfl)
          | (rw [h0] at h; cases h; exact .inr ⟨rfl, rfl⟩))

private theorem said_convertible3 : ConvertibleFile env.io id env.sqrt Int.toNat said3 := by
  have atoms : ∀ c ∈ said3.cells, ∀ w, Sym.atom w ∈ lexGeometry c.geometry → (w = c!"#41" ∧ c.number = 42) ∨ (w = c!"-31" ∧ c.number = 41) ∨ (w = c!"-32" ∧ c.number = 42) ∨ (w = c!"32" ∧ c.number = 43) := by
    intro c hc w hw
    simp only [said3, List.mem_cons, List.not_mem_nil, or_false] at hc
    rcases hc with rfl | rfl | rfl
    · rw [lex1_3] at hw
      simp at hw
      exact .inr (.inl ⟨hw, rfl⟩)
    · rw [lex2_3] at hw
      simp at hw
      rcases hw with hw | hw
      · exact .inl ⟨hw, rfl⟩
      · exact .inr (.inr (.inl ⟨hw, rfl⟩))
    · rw [lex3_3] at hw
      simp at hw
      exact .inr (.inr (.inr ⟨hw, rfl⟩))
  have moves : ∀ c ∈ said3.cells, c.moves = none := by decide +kernel
  refine ⟨⟨by decide, by decide +kernel⟩, ?_, ?_, ⟨by decide, by decide +kernel⟩, ?_, ?_, ?_, ?_, ?_, ?_, ?_⟩
  · intro s hs
    simp only [said3, List.mem_cons, List.not_mem_nil, or_false] at hs
    rcases hs with rfl | rfl
    · refine .inr (.inr ⟨.macroRCC, by decide, by unfold ProperBody; norm_num, ?_⟩)
      show RootAt root _
      unfold RootAt; decide +kernel
    · exact .inl ⟨.so, by decide, by decide +kernel⟩
  · intro s hs n hn
    simp only [said3, List.mem_cons, List.not_mem_nil, or_false] at hs
    rcases hs with rfl | rfl <;> cases hn
  · intro c hc w hw
    have h1 : (⟨31, none, c!"rcc", [0, 0, -2, 0, 0, 4, 3]⟩ : SurfaceEntry ℚ) ∈ said3.surfaces := by simp [said3]
    have h2 : (⟨32, none, c!"so", [9]⟩ : SurfaceEntry ℚ) ∈ said3.surfaces := by simp [said3]
    rcases atoms c hc w hw with ⟨rfl, -⟩ | ⟨rfl, -⟩ | ⟨rfl, -⟩ | ⟨rfl, -⟩
    · exact .inl ⟨41, by decide⟩
    · exact .inr (.inl ⟨_, h1, .inr (by decide)⟩)
    · exact .inr (.inl ⟨_, h2, .inr (by decide)⟩)
    · exact .inr (.inl ⟨_, h2, .inl (by decide)⟩)
  · intro c hc w hw hh
    rcases atoms c hc w hw with ⟨rfl, e⟩ | ⟨rfl, e⟩ | ⟨rfl, e⟩ | ⟨rfl, e⟩
    · exact ⟨41, ⟨41, some (5, -7), c!"-31 ", [.importance c!"1"]⟩, by simp [said3], by decide, rfl, by rw [e]; decide⟩
    all_goals exact absurd hh (by decide)
  · intro c hc m x hx
    simp only [said3, List.mem_cons, List.not_mem_nil, or_false] at hc
    rcases hc with rfl | rfl | rfl
    · cases hx
      exact ⟨5, by decide, rfl⟩
    · cases hx
    · cases hx
  · intro m hm
    obtain rfl := List.mem_singleton.1 (show m ∈ [(5, [(c!"1001", c!"1.0")], [(1 : ℚ)])] from hm)
    have hn : nuclideOf c!"1001" = natStr 1001 := by decide +kernel
    refine ⟨by decide, by decide, ?_, ?_, by decide, by decide⟩
    · intro e he
      obtain rfl := List.mem_singleton.1 he
      exact ⟨1001, hn⟩
    · rintro z ⟨e, he, h⟩
      obtain rfl := List.mem_singleton.1 he
      have := natStr_injective (hn.symm.trans h)
      omega
  · intro c hc d ws h
    rw [moves c hc] at h
    cases h
  · intro vs hv
    cases hv
  · intro i c hc h w z hw hz
    rcases said_importance3 hc h with h | ⟨-, rfl⟩
    · cases h
    · simp only [lex3_3, List.mem_singleton, Sym.atom.injEq] at hw
      subst hw
      rw [show parseInt c!"32" = some 32 by decide +kernel] at hz
      cases hz
      exact ⟨⟨32, none, c!"so", [9]⟩, by simp [said3], by decide, rfl⟩

private def newNumbers : Renumbering := { surface := (· + 30), cell := (· + 40), material := (· + 4) }

private theorem is_renumbered : Renumbered newNumbers said said3 where
  proper := ⟨fun a b h => by have : a + 30 = b + 30 := h; omega, fun a b h => by have : a + 40 = b + 40 := h; omega, fun a b h => by have : a + 4 = b + 4 := h; omega, fun n h => by show 0 < n + 30; omega⟩
  cells := by
    refine .cons ⟨by decide, rfl, ?_, rfl⟩ (.cons ⟨by decide, rfl, ?_, rfl⟩ (.cons ⟨by decide, rfl, ?_, rfl⟩ .nil))
    · show List.Forall₂ _ (lexGeometry c!"-1 ") (lexGeometry c!"-31 ")
      rw [lex1, lex1_3]
      exact .cons (.atom (.neg (r := newNumbers) (n := 1) (by decide))) .nil
    · show List.Forall₂ _ (lexGeometry c!"#1 -2 ") (lexGeometry c!"#41 -32 ")
      rw [lex2, lex2_3]
      exact .cons (.atom (.ref (r := newNumbers) (n := 1) (n' := 41) (by decide))) (.cons (.atom (.neg (r := newNumbers) (n := 2) (by decide))) .nil)
    · show List.Forall₂ _ (lexGeometry c!"2 ") (lexGeometry c!"32 ")
      rw [lex3, lex3_3]
      exact .cons (.atom (.pos (r := newNumbers) (n := 2) (by decide))) .nil
  surfaces := .cons rfl (.cons rfl .nil)
  materials := .cons ⟨by decide, rfl⟩ .nil
  transforms := rfl
  importances := rfl

private def inner3 : Cell ℚ := { inner with id := 41, material := .int 5, text := [c!"-31"], interpreted := [.op .and, .str c!"-31"], surfaces := [31] }
private def shell3 : Cell ℚ := { shell with id := 42, text := [c!"#41", c!"-32"], interpreted := [.op .and, .str c!"#41", .op .and, .str c!"-32"], surfaces := [32] }
private def outer3 : Cell ℚ := { outer with id := 43, text := [c!"32"], interpreted := [.op .and, .str c!"32"], surfaces := [32] }
private def gas3 : Material ℚ := { gas with name := c!"M5", number := c!"5" }

private def deck3 : Deck ℚ := { deck with cells := [inner3, shell3, outer3], surfaces := [{ can with id := 31 }, { ball with id := 32 }], last := 32, materials := [(c!"5", gas3)] }

private theorem is_read3 : readDeck env.io id (readText text3) = .ok deck3 := by decide +kernel

private def processedSurfaces3 : List (Surface ℚ) := [{ ball with id := 32, bc := .vacuum }, { wall with id := 33 }, { base with id := 34 }, { lid with id := 35 }]

private theorem is_processed3 : ∃ d, finishDeck env.fuel env.io id env.sqrt false deck3 = some (.ok d) ∧ d.surfaces = processedSurfaces3 := by
  have h : (match finishDeck env.fuel env.io id env.sqrt false deck3 with | some (.ok d) => decide (d.surfaces = processedSurfaces3) | _ => false) = true := by decide +kernel
  split at h
  · rename_i d e
    exact ⟨d, e, of_decide_eq_true h⟩
  · cases h

private theorem importance_of3 {i : Nat} {c : Cell ℚ} {x : ℚ} (hc : deck3.cells[i]? = some c) (h : ImportanceIs env.io deck3 i c x) : x = 1 ∨ x = 0 := by
  have e : c.importance = x := by
    rcases h with ⟨-, h⟩ | ⟨t, ht, -⟩
    · exact h
    · cases ht
  have hm := List.mem_of_getElem? hc
  simp only [deck3, List.mem_cons, List.not_mem_nil, or_false] at hm
  rcases hm with rfl | rfl | rfl
  exacts [.inl e.symm, .inl e.symm, .inr e.symm]

/-- With the examples for C100: `C114_points`, `C114_openmc_partial`, `C114_serpent_partial`, `C114_phits_partial` and `C114_mcnp_partial`, and with the next example `C114_fluka_partial` and `C114_scone_partial`. -/
example : FileSays env.io text3 said3 ∧ Renumbered newNumbers said said3 ∧ ConvertibleFile env.io id env.sqrt Int.toNat said3 ∧ CardFile said3 ∧
    ∀ d fuel d', readDeck env.io id (readText text3) = .ok d → finishDeck fuel env.io id env.sqrt false d = some (.ok d') →
      ShortCells env.io d ∧ ShortSurfaces env.io d' ∧ PrintedSurfaces decimal env.io d' ∧ (∀ m ∈ d.materials, PrintableXs m.2) ∧
        ∀ s ∈ d.surfaces, ¬ IsCone s.type ∧ ¬ IsTorus s.type := by
  have params : ∀ c ∈ said3.cells, c.uni = none ∧ c.fill = none ∧ c.moves = none := by decide +kernel
  refine ⟨is_said3, is_renumbered, said_convertible3, ⟨by decide, ?_, ?_⟩, ?_⟩
  · intro c hc
    obtain ⟨h1, h2, -⟩ := params c hc
    rw [h1, h2]
    exact ⟨fun l h => (by cases h), fun l h => (by cases h)⟩
  · intro c hc d ws h
    rw [(params c hc).2.2] at h
    cases h
  · intro d fuel d' hr h
    rw [is_read3] at hr
    cases hr
    have e : d'.surfaces = processedSurfaces3 := by
      obtain ⟨d, h3, h4⟩ := is_processed3
      have h1 := finishDeck_mono (le_max_left fuel env.fuel) h
      have h2 := finishDeck_mono (le_max_right fuel env.fuel) h3
      rw [h1] at h2
      cases h2
      exact h4
    have good : ∀ s ∈ d'.surfaces, ∀ x ∈ s.coeffs, mixedIO.Good x ∧ Prints decimal mixedIO.render x := by
      have key : ∀ s ∈ processedSurfaces3, ∀ x ∈ s.coeffs, ∃ z ∈ [(-9 : Int), -7, -2, -1, 0, 1, 2, 7, 9], x = (z : ℚ) := by decide +kernel
      intro s hs x hx
      rw [e] at hs
      obtain ⟨z, hz, rfl⟩ := key s hs x hx
      exact ⟨(numbers z hz).1, (numbers z hz).2.1⟩
    have np : ∀ c ∈ deck3.cells, c.offset = none ∧ c.rotation = none := by
      intro c hc
      simp only [deck3, List.mem_cons, List.not_mem_nil, or_false] at hc
      rcases hc with rfl | rfl | rfl <;> exact ⟨rfl, rfl⟩
    refine ⟨⟨by decide +kernel, ?_, ?_, ?_⟩, fun s hs x hx => (good s hs x hx).1.len, fun s hs x hx => (good s hs x hx).2, ?_, ?_⟩
    · intro i c x hc h
      rcases importance_of3 hc h with rfl | rfl <;> decide +kernel
    · intro c hc l hl
      obtain ⟨h1, h2⟩ := np c hc
      rw [h1, h2] at hl
      rcases hl with h | h <;> cases h
    · intro t ht
      cases ht
    · intro m hm e he
      simp only [deck3, List.mem_singleton] at hm
      subst hm
      simp only [gas3, gas, List.mem_singleton] at he
      subst he
      exact ⟨[], by decide +kernel, by simp⟩
    · intro s hs
      simp only [deck3, List.mem_cons, List.not_mem_nil, or_false] at hs
      rcases hs with rfl | rfl <;> (unfold IsCone IsTorus; decide)

/-- `C114_fluka_partial` and `C114_scone_partial`. -/
example : FlukaFile env.io id env.sqrt said3 ∧ SconeFile env.io said3 := by
  have density : ∀ {c : CellEntry ℚ}, c ∈ said3.cells → ∀ {m : Int} {x : ℚ}, c.content = some (m, x) → x = -7 := by
    intro c hc m x h
    simp only [said3, List.mem_cons, List.not_mem_nil, or_false] at hc
    rcases hc with rfl | rfl | rfl <;> cases h
    rfl
  have params : ∀ c ∈ said3.cells, c.uni = none ∧ c.fill = none := by decide +kernel
  constructor
  · refine ⟨?_, ?_, by decide, ?_, ?_, fun c hc m x h => by rw [density hc h]; decide +kernel, ?_⟩
    · intro s hs
      simp only [said3, List.mem_cons, List.not_mem_nil, or_false] at hs
      rcases hs with rfl | rfl
      · exact ⟨by decide, fun m hm => absurd (show bodyType c!"rcc" = none from (congrArg bodyType hm).trans (bodyType_word m)) (by decide), fun _ => rfl, fun h => absurd h (by decide)⟩
      · refine ⟨by decide, fun m hm => ?_, fun h => absurd h (by decide), fun _ => ⟨⟨0, 0, 0⟩, ⟨10, 0, 0⟩, false, ?_, ?_⟩⟩
        · obtain rfl : m = .so := word_inj (hm.symm.trans (by decide))
          have hv : ∀ p : Point ℚ, mcnpValue .so [9] p = some (p.x ^ 2 + p.y ^ 2 + p.z ^ 2 - 81) := by
            intro p
            simp [mcnpValue]
            norm_num
          rintro ⟨x, y, z, t, h | h | h⟩
          all_goals
            have h0 := h ⟨0, 0, 0⟩
            have h1 := h ⟨1, 0, 0⟩
            have h2 := h ⟨-1, 0, 0⟩
            have h3 := h ⟨0, 1, 0⟩
            have h4 := h ⟨0, -1, 0⟩
            have h5 := h ⟨0, 0, 1⟩
            have h6 := h ⟨0, 0, -1⟩
            rw [hv] at h0 h1 h2 h3 h4 h5 h6
            simp only [Option.some.injEq] at h0 h1 h2 h3 h4 h5 h6
            have ht : t = -1 := by nlinarith
            subst ht
            nlinarith [sq_nonneg x, sq_nonneg y, sq_nonneg z]
        · show cardSide env.sqrt c!"so" [9] (said3.place id none ⟨0, 0, 0⟩) = some .neg
          decide +kernel
        · show ¬ cardSide env.sqrt c!"so" [9] (said3.place id none ⟨10, 0, 0⟩) = some .neg
          decide +kernel
    · intro c hc a b e
      have no : ∀ c ∈ said3.cells, Sym.no ∉ lexGeometry c.geometry := by decide +kernel
      exact absurd (by rw [e]; simp) (no c hc)
    · intro i c x hc h
      rcases said_importance3 hc h with rfl | ⟨rfl, -⟩
      · exact .inr (by norm_num)
      · exact .inl rfl
    · intro m hm e he
      obtain rfl := List.mem_singleton.1 (show m ∈ [(5, [(c!"1001", c!"1.0")], [(1 : ℚ)])] from hm)
      obtain rfl := List.mem_singleton.1 he
      exact ⟨1001, by decide +kernel, by decide +kernel⟩
    · intro m hm comp h
      obtain rfl := List.mem_singleton.1 (show m ∈ [(5, [(c!"1001", c!"1.0")], [(1 : ℚ)])] from hm)
      rw [said_composition h]
      decide +kernel
  · refine ⟨by decide +kernel, by decide +kernel, ⟨by decide +kernel, fun c hc m x h => by rw [density hc h]; decide +kernel⟩, ?_, ?_, ?_, .inr ⟨⟨41, some (5, -7), c!"-31 ", [.importance c!"1"]⟩, by simp [said3], by simp⟩⟩
    · intro c hc w hw
      simp only [said3, List.mem_cons, List.not_mem_nil, or_false] at hc
      rcases hc with rfl | rfl | rfl
      · rw [lex1_3] at hw
        simp at hw
        subst hw
        decide
      · rw [lex2_3] at hw
        simp at hw
        rcases hw with rfl | rfl <;> decide
      · rw [lex3_3] at hw
        simp at hw
        subst hw
        decide
    · intro c hc
      obtain ⟨h1, h2⟩ := params c hc
      rw [h1, h2]
      exact ⟨⟨0, by decide, by norm_num⟩, fun l h => (by cases h)⟩
    · intro m hm comp h
      obtain rfl := List.mem_singleton.1 (show m ∈ [(5, [(c!"1001", c!"1.0")], [(1 : ℚ)])] from hm)
      rw [said_composition h]
      decide +kernel

/-! ## C124 -/

private def with5 : Str := c!"title\n1 1 -7 -1 imp:n=1\n2 0 #1 -2 imp:n=1\n3 0 2 imp:n=0\n\n1 rcc 0 0 -2 0 0 4 3\n2 so 9\n\ntr5 0 0 1 0 1 0\n     -1 0 0 0 0 1\nm1 1001 1.0\n"

private def cellLines5 : List Str := [c!"1 1 -7 -1 imp:n=1\n", c!"2 0 #1 -2 imp:n=1\n", c!"3 0 2 imp:n=0\n"]
private def surfLines5 : List Str := [c!"1 rcc 0 0 -2 0 0 4 3\n", c!"2 so 9\n"]
private def card5 : List Str := [c!"tr5 0 0 1 0 1 0\n", c!"     -1 0 0 0 0 1\n"]

private theorem line5 {l : Str} (h : l.getLast? = some '\n' ∧ '\n' ∉ l.dropLast) : ∃ t, '\n' ∉ t ∧ l = t ++ c!"\n" :=
  ⟨l.dropLast, h.2, (List.dropLast_append_getLast? _ h.1).symm⟩

private theorem blocks5 {text : Str} {data : List Str} (h1 : text.map Char.toLower = (c!"title\n" :: (cellLines5 ++ c!"\n" :: (surfLines5 ++ c!"\n" :: data))).flatten)
    (h2 : ∀ l ∈ data, (l.getLast? = some '\n' ∧ '\n' ∉ l.dropLast) ∧ l.head? ≠ some 'c') : Blocks text c!"title\n" cellLines5 surfLines5 data where
  lines := by
    refine ⟨_, c!"\n", c!"\n", h1, ?_, ?_, by unfold BlankLine; decide, by unfold BlankLine; decide⟩
    · intro l hl
      replace hl : l ∈ c!"title\n" :: (cellLines5 ++ c!"\n" :: (surfLines5 ++ [c!"\n"])) ∨ l ∈ data := by
        simp only [List.mem_cons, List.mem_append, List.not_mem_nil, or_false] at hl ⊢
        tauto
      rcases hl with hl | hl
      · clear h1 h2
        exact line5 (by revert l; decide +kernel)
      · exact line5 (h2 l hl).1
    · rw [List.filter_eq_self]
      intro l hl
      replace hl : l ∈ cellLines5 ++ c!"\n" :: (surfLines5 ++ [c!"\n"]) ∨ l ∈ data := by
        simp only [List.mem_cons, List.mem_append, List.not_mem_nil, or_false] at hl ⊢
        tauto
      rcases hl with hl | hl
      · clear h1 h2
        revert l
        decide +kernel
      · simpa using (h2 l hl).2
  noMessage := fun a b e => by
    have := (hasInfix_iff c!"message" _).2 ⟨a, b, e⟩
    revert this
    decide +kernel
  cards := by decide +kernel

/-- `C124_partial`: a quarter turn that nothing refers to is put before the material. -/
example (output : Option (List Str)) (files : List (Code × OutFile)) (hf : Returns (convert env id false output text) files) : Returns (convert env id false output with5) files := by
  refine C124_partial env mixed_exact id false output Int.toNat text with5 c!"title\n" c!"5" cellLines5 surfLines5 [] card5 [c!"m1 1001 1.0\n"] false [0, 0, 1, 0, 1, 0, -1, 0, 0, 0, 0, 1] deck
    (blocks5 (by decide +kernel) (by decide +kernel)) (blocks5 (by decide +kernel) (by decide +kernel)) ?_ ?_ ?_ ?_ ?_ (by simp) is_read proper.1 (by decide +kernel) (by decide +kernel) files hf
  · intro g hg
    obtain rfl := List.mem_singleton.1 hg
    refine ⟨_, _, rfl, fun h => ?_, fun l hl => ?_, fun l hl => (line5 (l := l) (by revert l; decide)).imp fun _ h => ⟨h.1, .inr h.2⟩⟩
    · have := fiveBlanks_iff.2 h
      revert this
      decide
    · exact fiveBlanks_iff.1 (by revert l; decide)
  · refine ⟨⟨by decide, by unfold IsTransformCard.NoBlank; decide, by decide, c!" 0 0 1 0 1 0\n", _, rfl, by decide⟩, by decide, ?_⟩
    rw [show (cardWords card5).drop 1 = [c!"0", c!"0", c!"1", c!"0", c!"1", c!"0", c!"-1", c!"0", c!"0", c!"0", c!"0", c!"1"] by decide +kernel]
    repeat' first | exact List.Forall₂.nil | refine List.Forall₂.cons ?_ ?_
    all_goals decide +kernel
  · intro l hl x y e
    have := (hasInfix_iff c!"imp" _).2 ⟨x, y, e⟩
    clear e x y hf
    revert l
    decide
  · rintro l hl ⟨k, d, t, e, -⟩
    have hm : (l.dropWhile (· = ' ')).head? = some 'm' := by
      rw [e]
      clear e
      induction k with
      | zero => rfl
      | succ k ih => simp [List.replicate_succ]
    clear e
    revert l
    decide
  · intro l hl h
    cases hl
    have := fiveBlanks_iff.2 h
    revert this
    decide

end Csg
