import Verif.Props.Moved
import Verif.Props.Rewritten
import Verif.Props.InputFile
import Verif.Lemmas.OtherCells
import Verif.Props.SurfaceText
import Verif.Lemmas.FormatE
import Verif.Lemmas.MixedIO

/-!
# C116 and C117: input files that meet the hypotheses

A ball of gas in a larger ball. There are four texts: with (`m`) or without a TR number on both surfaces, and with the geometries of the first two cells written in one of two ways (`w`).
-/

namespace Csg

open Spec

private def env : Env ℚ :=
  { fuel := 100, io := mixedIO, fixed := formatF, sci := formatF, sci4 := fun x => (mixedIO.render x).take 10, sci3 := formatE, sqrt := id, degAtan := (45 * ·), orderStr := id, orderInt := id }

private def text (m w : Bool) : Str :=
  c!"title\n" ++ (if w then c!"1 1 -7 (-1) imp:n=1\n2 0 -2 #1 imp:n=1\n" else c!"1 1 -7 -1 imp:n=1\n2 0 #1 -2 imp:n=1\n") ++ c!"3 0 2 imp:n=0\n\n" ++
    (if m then c!"1 5 so 3\n2 5 so 9\n\ntr5 1 0 0\n" else c!"1 so 3\n2 so 9\n\n") ++ c!"m1 1001 1.0\n"

private def geometry1 (w : Bool) : Str := if w then c!"(-1) " else c!"-1 "
private def geometry2 (w : Bool) : Str := if w then c!"-2 #1 " else c!"#1 -2 "
private def number (m : Bool) : Option Nat := if m then some 5 else none

/-- What the text says. -/
private def said (m w : Bool) : InputFile ℚ :=
  { cells := [⟨1, some (1, -7), geometry1 w, [.importance c!"1"]⟩, ⟨2, none, geometry2 w, [.importance c!"1"]⟩, ⟨3, none, c!"2 ", [.importance c!"0"]⟩]
    surfaces := [⟨1, number m, c!"so", [3]⟩, ⟨2, number m, c!"so", [9]⟩]
    data := (if m then [.transform 5 false [1, 0, 0]] else []) ++ [.material 1 [(c!"1001", c!"1.0")] [1]] }

private def saidCells (w : Bool) : List (List Str) :=
  if w then [[c!"1 1 -7 (-1) imp:n=1\n"], [c!"2 0 -2 #1 imp:n=1\n"], [c!"3 0 2 imp:n=0\n"]] else [[c!"1 1 -7 -1 imp:n=1\n"], [c!"2 0 #1 -2 imp:n=1\n"], [c!"3 0 2 imp:n=0\n"]]
private def saidSurfaces (m : Bool) : List (List Str) := if m then [[c!"1 5 so 3\n"], [c!"2 5 so 9\n"]] else [[c!"1 so 3\n"], [c!"2 so 9\n"]]
private def saidData (m : Bool) : List (List Str) := if m then [[c!"tr5 1 0 0\n"], [c!"m1 1001 1.0\n"]] else [[c!"m1 1001 1.0\n"]]

private theorem said_layout (m w : Bool) : Layout (text m w) c!"title\n" (saidCells w) (saidSurfaces m) (saidData m) where
  lines := ⟨(saidCells w).flatten ++ c!"\n" :: (saidSurfaces m).flatten ++ c!"\n" :: (saidData m).flatten, c!"\n", c!"\n", by revert m w; decide +kernel,
    fun l hl => line_of (by revert m w l; decide +kernel), fun l hl => comment_iff (by revert m w l; decide +kernel) (by revert m w l; decide +kernel), by revert m w; decide +kernel, by unfold BlankLine; decide, by unfold BlankLine; decide⟩
  noMessage := fun a b e => by
    have := (hasInfix_iff _ _).2 ⟨a, b, e⟩
    revert this
    revert m w
    decide +kernel
  cards := by
    intro g hg
    cases m <;> cases w <;> simp only [saidCells, saidSurfaces, List.cons_append, List.nil_append, List.mem_cons, List.not_mem_nil, or_false, if_true, if_false, Bool.false_eq_true] at hg <;>
      rcases hg with rfl | rfl | rfl | rfl | rfl <;> exact ⟨_, _, rfl, not_five (by decide), fun l hl => five (by revert l; decide), by decide +kernel⟩
  dataCards := by
    intro g hg
    cases m
    · simp only [saidData, List.mem_cons, List.not_mem_nil, or_false, if_false, Bool.false_eq_true] at hg
      subst hg
      exact ⟨_, _, rfl, not_five (by decide), fun l hl => five (by revert l; decide), fun l hl => (line_of (l := l) (by revert l; decide)).imp fun _ h => ⟨h.1, .inr h.2⟩⟩
    · simp only [saidData, List.mem_cons, List.not_mem_nil, or_false, if_true] at hg
      rcases hg with rfl | rfl <;>
        exact ⟨_, _, rfl, not_five (by decide), fun l hl => five (by revert l; decide), fun l hl => (line_of (l := l) (by revert l; decide)).imp fun _ h => ⟨h.1, .inr h.2⟩⟩

private theorem lex1 : lexGeometry c!"-1 " = [.atom c!"-1"] := by decide +kernel
private theorem lex1' : lexGeometry c!"(-1) " = .lp :: ([.atom c!"-1"] ++ [.rp]) := by decide +kernel
private theorem lex2 : lexGeometry c!"#1 -2 " = [.atom c!"#1"] ++ [.atom c!"-2"] := by decide +kernel
private theorem lex2' : lexGeometry c!"-2 #1 " = [.atom c!"-2"] ++ [.atom c!"#1"] := by decide +kernel
private theorem lex3 : lexGeometry c!"2 " = [.atom c!"2"] := by decide +kernel

private theorem single (a : Str) : Derives .expr [Sym.atom a] (.atom a) := .one (.single (.atom _))
private theorem double (a b : Str) : Derives .expr ([Sym.atom a] ++ [Sym.atom b]) (.inter (.atom a) (.atom b)) := .one (.inter (.single (.atom _)) (.atom _))
private theorem enclosed (a : Str) : Derives .expr (Sym.lp :: ([Sym.atom a] ++ [Sym.rp])) (.atom a) := .one (.single (.paren (single a)))

private theorem importance_text (v : Str) (n : ℚ) (h : env.io.float v = .ok n) : ∀ x, Param.importance x ∈ [Param.importance v] → ∃ y, env.io.float x = .ok y := by
  intro x hx
  simp only [List.mem_cons, List.not_mem_nil, or_false, Param.importance.injEq] at hx
  subst hx
  exact ⟨n, h⟩

private theorem said_cells (w : Bool) : List.Forall₂ (fun g e => CellSays env.io (cardText g) e) (saidCells w) (said false w).cells := by
  have first : ∀ g t, lexGeometry g = t → Legal t → cardText [c!"1 1 -7 " ++ g ++ c!"imp:n=1\n"] = c!"1 1 -7" ++ ' ' :: (g ++ paramListText [(.importance c!"1", c!"imp:n=1", c!"\n")]) →
      (∀ c ∈ c!"1 1 -7" ++ g, c ∉ ['u', 'f', 'i', 'v', 't', '*', '$']) → CellSays env.io (cardText [c!"1 1 -7 " ++ g ++ c!"imp:n=1\n"]) ⟨1, some (1, -7), g, [.importance c!"1"]⟩ := by
    intro g t ht hl hg hc
    refine ⟨⟨c!"1 1 -7", c!"1", c!"1", some c!"-7", [(.importance c!"1", c!"imp:n=1", c!"\n")], hg, .inr ⟨?_, by decide, by decide, by decide⟩, rfl, by decide +kernel, (show parseInt c!"1" = some 1 by decide +kernel),
      ⟨by decide +kernel, by decide, c!"-7", rfl, by decide +kernel⟩, by decide, hc⟩, by rw [ht]; exact hl, importance_text _ 1 (by decide +kernel), ?_⟩
    · intro e he
      obtain rfl := List.mem_singleton.1 he
      exact ⟨.importance c!"1" c!"=" (by unfold EqualsSign; decide) (.whole [] c!"1" (by decide) (by decide) (by decide)), by decide⟩
    · intro v t hv
      simp at hv
  have second : ∀ g t, lexGeometry g = t → Legal t → cardText [c!"2 0 " ++ g ++ c!"imp:n=1\n"] = c!"2 0" ++ ' ' :: (g ++ paramListText [(.importance c!"1", c!"imp:n=1", c!"\n")]) →
      (∀ c ∈ c!"2 0" ++ g, c ∉ ['u', 'f', 'i', 'v', 't', '*', '$']) → CellSays env.io (cardText [c!"2 0 " ++ g ++ c!"imp:n=1\n"]) ⟨2, none, g, [.importance c!"1"]⟩ := by
    intro g t ht hl hg hc
    refine ⟨⟨c!"2 0", c!"2", c!"0", none, [(.importance c!"1", c!"imp:n=1", c!"\n")], hg, .inr ⟨?_, by decide, by decide, by decide⟩, rfl, by decide +kernel, (show parseInt c!"2" = some 2 by decide +kernel),
      ⟨by decide +kernel, rfl⟩, by decide, hc⟩, by rw [ht]; exact hl, importance_text _ 1 (by decide +kernel), ?_⟩
    · intro e he
      obtain rfl := List.mem_singleton.1 he
      exact ⟨.importance c!"1" c!"=" (by unfold EqualsSign; decide) (.whole [] c!"1" (by decide) (by decide) (by decide)), by decide⟩
    · intro v t hv
      simp at hv
  have third : CellSays env.io (cardText [c!"3 0 2 imp:n=0\n"]) ⟨3, none, c!"2 ", [.importance c!"0"]⟩ := by
    refine ⟨⟨c!"3 0", c!"3", c!"0", none, [(.importance c!"0", c!"imp:n=0", c!"\n")], by decide, .inr ⟨?_, by decide, by decide, by decide⟩, rfl, by decide +kernel, by decide +kernel,
      ⟨by decide +kernel, rfl⟩, by decide, by decide⟩, by simp only; rw [lex3]; exact ⟨_, single _⟩, importance_text _ 0 (by decide +kernel), ?_⟩
    · intro e he
      obtain rfl := List.mem_singleton.1 he
      exact ⟨.importance c!"0" c!"=" (by unfold EqualsSign; decide) (.whole [] c!"0" (by decide) (by decide) (by decide)), by decide⟩
    · intro v t hv
      simp at hv
  cases w
  · exact .cons (first c!"-1 " _ lex1 ⟨_, single _⟩ (by decide) (by decide)) (.cons (second c!"#1 -2 " _ lex2 ⟨_, double _ _⟩ (by decide) (by decide)) (.cons third .nil))
  · exact .cons (first c!"(-1) " _ lex1' ⟨_, enclosed _⟩ (by decide) (by decide)) (.cons (second c!"-2 #1 " _ lex2' ⟨_, double _ _⟩ (by decide) (by decide)) (.cons third .nil))

private theorem said_surfaces (m : Bool) : List.Forall₂ (fun g e => SurfaceSays env.io (cardText g) e) (saidSurfaces m) (said m false).surfaces := by
  cases m
  · refine .cons (.inl ⟨[c!"3"], ⟨c!"1", by decide +kernel, by decide, ⟨c!"1 so 3\n", [], .inl (by decide +kernel), by decide, by decide +kernel⟩, by decide +kernel⟩, by unfold Reads; decide +kernel, .inl ⟨.so, by decide, by decide +kernel⟩⟩)
      (.cons (.inl ⟨[c!"9"], ⟨c!"2", by decide +kernel, by decide, ⟨c!"2 so 9\n", [], .inl (by decide +kernel), by decide, by decide +kernel⟩, by decide +kernel⟩, by unfold Reads; decide +kernel, .inl ⟨.so, by decide, by decide +kernel⟩⟩) .nil)
  · refine .cons (.inl ⟨[c!"3"], ⟨c!"1", by decide +kernel, by decide, ⟨c!"1 5 so 3\n", [], .inl (by decide +kernel), by decide, by decide +kernel⟩, by decide +kernel⟩, by unfold Reads; decide +kernel, .inl ⟨.so, by decide, by decide +kernel⟩⟩)
      (.cons (.inl ⟨[c!"9"], ⟨c!"2", by decide +kernel, by decide, ⟨c!"2 5 so 9\n", [], .inl (by decide +kernel), by decide, by decide +kernel⟩, by decide +kernel⟩, by unfold Reads; decide +kernel, .inl ⟨.so, by decide, by decide +kernel⟩⟩) .nil)

private theorem said_data (m : Bool) : List.Forall₂ (DataSays env.io) (saidData m) (said m false).data := by
  have mat : DataSays env.io [c!"m1 1001 1.0\n"] (.material 1 [(c!"1001", c!"1.0")] [1]) := by
    refine ⟨⟨⟨_, _, rfl, by decide, by decide, 0, c!" 1001 1.0\n", by decide, by decide⟩, by decide +kernel, .cons (by decide +kernel) .nil⟩, ?_, ?_⟩
    · intro l hl
      cases hl
    · intro _ l hl
      exact not_imp (by revert l; decide +kernel)
  have tr : DataSays env.io [c!"tr5 1 0 0\n"] (.transform 5 false [1, 0, 0]) := by
    refine ⟨⟨⟨⟨by decide, by unfold IsTransformCard.NoBlank; decide, by decide, c!" 1 0 0\n", _, rfl, by decide⟩, by decide, ?_⟩, by decide⟩, ?_, ?_⟩
    · have : (cardWords [c!"tr5 1 0 0\n"]).drop 1 = [c!"1", c!"0", c!"0"] := by decide +kernel
      rw [this]
      exact .cons (by decide +kernel) (.cons (by decide +kernel) (.cons (by decide +kernel) .nil))
    · intro l hl
      obtain rfl := List.mem_singleton.1 hl
      exact not_looks (by intro d t h; revert h; simp [List.dropWhile])
    · intro _ l hl
      exact not_imp (by revert l; decide +kernel)
  cases m
  · exact .cons mat .nil
  · exact .cons tr (.cons mat .nil)

private theorem is_said (m w : Bool) : FileSays env.io (text m w) (said m w) where
  layout := ⟨_, _, _, _, said_layout m w, said_cells w, said_surfaces m, said_data m⟩
  materials := by revert m w; decide
  transforms := by revert m w; decide
  importances := by revert m w; decide
  last := ⟨if m then [.transform 5 false [1, 0, 0]] else [], _, rfl, by intro n d v; simp, by intro v; simp⟩

private theorem said_materials (m w : Bool) : (said m w).materials = [(1, [(c!"1001", c!"1.0")], [(1 : ℚ)])] := by cases m <;> cases w <;> rfl
private theorem said_importances (m w : Bool) : (said m w).importances = [] := by revert m w; decide +kernel
private theorem said_transforms (m w : Bool) : (said m w).transforms = if m then [(5, false, [1, 0, 0])] else [] := by revert m w; decide +kernel

private theorem said_importance {m w : Bool} {i : Nat} {c : CellEntry ℚ} {x : ℚ} (hc : (said m w).cells[i]? = some c) (h : FileImportance env.io (said m w) i c x) : x = 1 ∨ x = 0 ∧ c = ⟨3, none, c!"2 ", [.importance c!"0"]⟩ := by
  rcases h with ⟨vs, hv, -⟩ | ⟨-, h⟩
  · rw [said_importances] at hv
    cases hv
  · have hm := List.mem_of_getElem? hc
    simp only [said, List.mem_cons, List.not_mem_nil, or_false] at hm
    have h1 : env.io.float c!"1" = .ok 1 := by decide +kernel
    have h0 : env.io.float c!"0" = .ok 0 := by decide +kernel
    rcases hm with rfl | rfl | rfl <;> rcases h with ⟨v, hv, h⟩ | ⟨h, -⟩
    all_goals first
      | exact absurd (List.mem_singleton.2 rfl) (h _)
      | (simp only [List.mem_cons, List.not_mem_nil, or_false, Param.importance.injEq] at hv
         subst hv
         first
          | (rw [h1] at h; cases h; exact .inl rfl)
          | (rw [h0] at h; cases h; exact .inr ⟨rfl, rfl⟩))

private theorem said_composition {comp : List (Str × ℚ)} (h : CompositionOf [(c!"1001", c!"1.0")] [1] comp) : comp = [(c!"1001", 1)] := by
  have hn : nuclideOf c!"1001" = c!"1001" := by decide +kernel
  have key : ∀ e ∈ comp, e = (c!"1001", 1) := by
    intro e he
    obtain ⟨x, hx, e1⟩ := (h.nuclides e.1).1 (List.mem_map.2 ⟨e, he, rfl⟩)
    obtain rfl := List.mem_singleton.1 hx
    have e2 := h.fractions e.1 e.2 he
    rw [← e1, hn, show given c!"1001" [(c!"1001", c!"1.0")] [(1 : ℚ)] = 1 by decide +kernel] at e2
    exact Prod.ext (by rw [← e1, hn]) e2
  obtain ⟨e, he, -⟩ := List.mem_map.1 ((h.nuclides c!"1001").2 ⟨_, List.mem_singleton.2 rfl, hn⟩)
  match comp, key, he, h.once with
  | [a], key, _, _ => rw [key a (by simp)]
  | a :: b :: l, key, _, h => rw [key a (by simp), key b (by simp)] at h; simp at h

private theorem atoms {m w : Bool} {c : CellEntry ℚ} (hc : c ∈ (said m w).cells) {a : Str} (ha : Sym.atom a ∈ lexGeometry c.geometry) :
    (a = c!"#1" ∧ c.number = 2) ∨ (a = c!"-1" ∧ c.number = 1) ∨ (a = c!"-2" ∧ c.number = 2) ∨ (a = c!"2" ∧ c.number = 3) := by
  simp only [said, List.mem_cons, List.not_mem_nil, or_false] at hc
  cases w <;> simp only [geometry1, geometry2, if_true, if_false, Bool.false_eq_true] at hc <;> rcases hc with rfl | rfl | rfl <;> simp only [lex1, lex1', lex2, lex2', lex3] at ha <;> simp at ha
  · exact .inr (.inl ⟨ha, rfl⟩)
  · rcases ha with ha | ha
    · exact .inl ⟨ha, rfl⟩
    · exact .inr (.inr (.inl ⟨ha, rfl⟩))
  · exact .inr (.inr (.inr ⟨ha, rfl⟩))
  · exact .inr (.inl ⟨ha, rfl⟩)
  · rcases ha with ha | ha
    · exact .inr (.inr (.inl ⟨ha, rfl⟩))
    · exact .inl ⟨ha, rfl⟩
  · exact .inr (.inr (.inr ⟨ha, rfl⟩))

private theorem sphere (r : ℚ) (p : Point ℚ) : mcnpValue .so [r] p = some (p.x ^ 2 + p.y ^ 2 + p.z ^ 2 - r ^ 2) := rfl

private theorem sphere_mixed (r : ℚ) (a : ℚ) : ¬ XZOnly fun p : Point ℚ => mcnpValue .so [r] ⟨p.x - a, p.y, p.z⟩ := by
  rintro ⟨f, g, h, j, k, -, e⟩
  have h0 := e ⟨0, 0, 0⟩
  have h1 := e ⟨0, 1, 0⟩
  have h2 := e ⟨0, -1, 0⟩
  simp only [sphere, Option.some.injEq] at h0 h1 h2
  linarith

private theorem said_params (m w : Bool) : ∀ c ∈ (said m w).cells, c.uni = none ∧ c.fill = none ∧ c.moves = none := by revert m w; decide +kernel

private theorem said_convertible (w : Bool) : ConvertibleFile env.io id env.sqrt Int.toNat (said false w) := by
  refine ⟨⟨by revert w; decide, by revert w; decide +kernel⟩, ?_, ?_, ⟨by revert w; decide, by revert w; decide +kernel⟩, ?_, ?_, ?_, ?_, ?_, ?_, ?_⟩
  · intro s hs
    simp only [said, List.mem_cons, List.not_mem_nil, or_false] at hs
    rcases hs with rfl | rfl <;> exact .inl ⟨.so, by decide, by decide +kernel⟩
  · intro s hs n hn
    simp only [said, List.mem_cons, List.not_mem_nil, or_false] at hs
    rcases hs with rfl | rfl <;> cases hn
  · intro c hc a ha
    have h1 : (⟨1, none, c!"so", [3]⟩ : SurfaceEntry ℚ) ∈ (said false w).surfaces := by simp [said, number]
    have h2 : (⟨2, none, c!"so", [9]⟩ : SurfaceEntry ℚ) ∈ (said false w).surfaces := by simp [said, number]
    rcases atoms hc ha with ⟨rfl, -⟩ | ⟨rfl, -⟩ | ⟨rfl, -⟩ | ⟨rfl, -⟩
    · exact .inl ⟨1, by decide⟩
    · exact .inr (.inl ⟨_, h1, .inr (by decide)⟩)
    · exact .inr (.inl ⟨_, h2, .inr (by decide)⟩)
    · exact .inr (.inl ⟨_, h2, .inl (by decide)⟩)
  · intro c hc a ha hh
    rcases atoms hc ha with ⟨rfl, e⟩ | ⟨rfl, e⟩ | ⟨rfl, e⟩ | ⟨rfl, e⟩
    · exact ⟨1, ⟨1, some (1, -7), geometry1 w, [.importance c!"1"]⟩, by simp [said], by decide, rfl, by rw [e]; simp⟩
    all_goals exact absurd hh (by decide)
  · intro c hc m x hx
    rw [said_materials]
    simp only [said, List.mem_cons, List.not_mem_nil, or_false] at hc
    rcases hc with rfl | rfl | rfl
    · cases hx
      exact ⟨1, by decide, rfl⟩
    · cases hx
    · cases hx
  · intro m hm
    rw [said_materials] at hm
    obtain rfl := List.mem_singleton.1 hm
    have hn : nuclideOf c!"1001" = natStr 1001 := by decide +kernel
    refine ⟨by decide, by decide, ?_, ?_, by decide, by decide⟩
    · intro e he
      obtain rfl := List.mem_singleton.1 he
      exact ⟨1001, hn⟩
    · rintro z ⟨e, he, h⟩
      obtain rfl := List.mem_singleton.1 he
      have := natStr_injective (hn.symm.trans h)
      omega
  · intro c hc d ws h
    rw [(said_params _ _ c hc).2.2] at h
    cases h
  · intro vs hv
    rw [said_importances] at hv
    cases hv
  · intro i c hc h a z ha hz
    rcases said_importance hc h with h | ⟨-, rfl⟩
    · cases h
    · simp only [lex3, List.mem_singleton, Sym.atom.injEq] at ha
      subst ha
      rw [show parseInt c!"2" = some 2 by decide +kernel] at hz
      cases hz
      exact ⟨⟨2, none, c!"so", [9]⟩, by simp [said, number], by decide, rfl⟩

private theorem said_density {m w : Bool} {c : CellEntry ℚ} (hc : c ∈ (said m w).cells) {k : Int} {x : ℚ} (h : c.content = some (k, x)) : x = -7 := by
  simp only [said, List.mem_cons, List.not_mem_nil, or_false] at hc
  rcases hc with rfl | rfl | rfl <;> cases h
  rfl

private theorem said_fluka (m w : Bool) : FlukaFile env.io id env.sqrt (said m w) := by
  refine ⟨?_, ?_, by revert m w; decide, ?_, ?_, fun c hc m x h => by rw [said_density hc h]; decide +kernel, ?_⟩
  · have cone : ∀ (r : ℚ) (m : Mn), c!"so" = m.word → r ≠ 0 → ¬ IsConeEquation (mcnpValue m [r]) := by
      intro r m hm hr
      obtain rfl : m = .so := word_inj (hm.symm.trans (by decide))
      have hr : 0 < r ^ 2 := by positivity
      rintro ⟨x, y, z, t, h | h | h⟩
      all_goals
        have h0 := h ⟨0, 0, 0⟩
        have h1 := h ⟨1, 0, 0⟩
        have h2 := h ⟨-1, 0, 0⟩
        have h3 := h ⟨0, 1, 0⟩
        have h4 := h ⟨0, -1, 0⟩
        have h5 := h ⟨0, 0, 1⟩
        have h6 := h ⟨0, 0, -1⟩
        simp only [sphere, Option.some.injEq] at h0 h1 h2 h3 h4 h5 h6
        have ht : t = -1 := by nlinarith
        subst ht
        nlinarith [sq_nonneg x, sq_nonneg y, sq_nonneg z]
    intro s hs
    simp only [said, List.mem_cons, List.not_mem_nil, or_false] at hs
    rcases hs with rfl | rfl
    · refine ⟨by simp only; decide, fun m hm => cone 3 m hm (by norm_num), fun h => absurd h (by simp only; decide), fun _ => ⟨⟨0, 0, 0⟩, ⟨10, 0, 0⟩, false, ?_, ?_⟩⟩
      · show cardSide env.sqrt c!"so" [3] ((said m w).place id (number m) ⟨0, 0, 0⟩) = some .neg
        revert m w
        decide +kernel
      · show ¬ cardSide env.sqrt c!"so" [3] ((said m w).place id (number m) ⟨10, 0, 0⟩) = some .neg
        revert m w
        decide +kernel
    · refine ⟨by simp only; decide, fun m hm => cone 9 m hm (by norm_num), fun h => absurd h (by simp only; decide), fun _ => ⟨⟨0, 0, 0⟩, ⟨20, 0, 0⟩, false, ?_, ?_⟩⟩
      · show cardSide env.sqrt c!"so" [9] ((said m w).place id (number m) ⟨0, 0, 0⟩) = some .neg
        revert m w
        decide +kernel
      · show ¬ cardSide env.sqrt c!"so" [9] ((said m w).place id (number m) ⟨20, 0, 0⟩) = some .neg
        revert m w
        decide +kernel
  · intro c hc a b e
    have no : ∀ m w, ∀ c ∈ (said m w).cells, Sym.no ∉ lexGeometry c.geometry := by decide +kernel
    exact absurd (by rw [e]; simp) (no _ _ c hc)
  · intro i c x hc h
    rcases said_importance hc h with rfl | ⟨rfl, -⟩
    · exact .inr (by norm_num)
    · exact .inl rfl
  · intro k hk e he
    rw [said_materials] at hk
    obtain rfl := List.mem_singleton.1 hk
    obtain rfl := List.mem_singleton.1 he
    exact ⟨1001, by decide +kernel, by decide +kernel⟩
  · intro k hk comp h
    rw [said_materials] at hk
    obtain rfl := List.mem_singleton.1 hk
    rw [said_composition h]
    decide +kernel

private theorem said_scone (w : Bool) : SconeFile env.io (said false w) := by
  refine ⟨by revert w; decide +kernel, by revert w; decide +kernel, ⟨by decide +kernel, fun c hc m x h => by rw [said_density hc h]; decide +kernel⟩, ?_, ?_, ?_, .inr ⟨⟨1, some (1, -7), geometry1 w, [.importance c!"1"]⟩, by simp [said], by simp⟩⟩
  · intro c hc a ha
    rcases atoms hc ha with ⟨rfl, -⟩ | ⟨rfl, -⟩ | ⟨rfl, -⟩ | ⟨rfl, -⟩ <;> decide
  · intro c hc
    obtain ⟨h1, h2, -⟩ := said_params _ _ c hc
    rw [h1, h2]
    exact ⟨⟨0, by decide, by norm_num⟩, fun l h => (by cases h)⟩
  · intro k hk comp h
    rw [said_materials] at hk
    obtain rfl := List.mem_singleton.1 hk
    rw [said_composition h]
    decide +kernel

/-! ## The decks -/

private def gas : Material ℚ := { name := c!"M1", number := c!"1", composition := [(c!"1001", 1)], xsid := [(c!"1001", [])], density := 0 }

private def inner (w : Bool) : Cell ℚ :=
  { (Cell.blank : Cell ℚ) with
    id := 1, density := -7, material := .int 1, text := if w then [c!"(", c!"-1", c!")"] else [c!"-1"]
    interpreted := if w then [.str c!"(", .str c!"-1", .str c!")"] else [.op .and, .str c!"-1"], surfaces := if w then [] else [1] }
private def shell (w : Bool) : Cell ℚ :=
  { (Cell.blank : Cell ℚ) with
    id := 2, text := if w then [c!"-2", c!"#1"] else [c!"#1", c!"-2"]
    interpreted := if w then [.op .and, .str c!"-2", .op .and, .str c!"#1"] else [.op .and, .str c!"#1", .op .and, .str c!"-2"], surfaces := [2] }
private def outer : Cell ℚ := { (Cell.blank : Cell ℚ) with id := 3, importance := 0, text := [c!"2"], interpreted := [.op .and, .str c!"2"], surfaces := [2] }

private def ball (m : Bool) (n : Int) (r : ℚ) : Surface ℚ := { Surface.blank with id := n, type := .sphereGeneral, coeffs := [0, 0, 0, r], transform := (number m).map natStr }

/-- The deck as read. -/
private def deck (m w : Bool) : Deck ℚ :=
  { title := c!"title\n", cells := [inner w, shell w, outer], surfaces := [ball m 1 3, ball m 2 9], last := 2, importances := []
    transforms := if m then [(c!"5", ⟨⟨1, 0, 0⟩, ⟨1, 0, 0⟩, ⟨0, 1, 0⟩, ⟨0, 0, 1⟩⟩)] else [], materials := [(c!"1", gas)], bounding := [0, 0, 0, 0, 0, 0] }

private theorem is_read (m w : Bool) : readDeck env.io id (readText (text m w)) = .ok (deck m w) := by revert m w; decide +kernel

private theorem is_processed (m w : Bool) : ∃ d, finishDeck env.fuel env.io id env.sqrt false (deck m w) = some (.ok d) ∧ ∀ s ∈ d.surfaces, ∀ x ∈ s.coeffs, x ∈ [(-80 : Int), -8, -2, 0, 1, 3, 9].map (Int.cast : Int → ℚ) := by
  have h : ∀ m w, (match finishDeck env.fuel env.io id env.sqrt false (deck m w) with
      | some (.ok d) => decide (∀ s ∈ d.surfaces, ∀ x ∈ s.coeffs, x ∈ [(-80 : Int), -8, -2, 0, 1, 3, 9].map (Int.cast : Int → ℚ)) | _ => false) = true := by decide +kernel
  have h := h m w
  split at h
  · rename_i d e
    exact ⟨d, e, of_decide_eq_true h⟩
  · cases h

private theorem importance_of {m w : Bool} {i : Nat} {c : Cell ℚ} {x : ℚ} (hc : (deck m w).cells[i]? = some c) (h : ImportanceIs env.io (deck m w) i c x) : x = 1 ∨ x = 0 := by
  have e : c.importance = x := by
    rcases h with ⟨-, h⟩ | ⟨t, ht, -⟩
    · exact h
    · cases ht
  have hm := List.mem_of_getElem? hc
  simp only [deck, List.mem_cons, List.not_mem_nil, or_false] at hm
  rcases hm with rfl | rfl | rfl
  exacts [.inl e.symm, .inl e.symm, .inr e.symm]

private theorem texts (m w : Bool) : SerpentTexts env id false decimal (text m w) ∧ PhitsTexts env id false (text m w) ∧ McnpTexts env id false (text m w) ∧
    SconeTexts env id (fun d => (d / 45) ^ 2) false decimal (text m w) := by
  have key : ∀ d fuel d', readDeck env.io id (readText (text m w)) = .ok d → finishDeck fuel env.io id env.sqrt false d = some (.ok d') →
      ShortCells env.io d ∧ ShortSurfaces env.io d' ∧ PrintedSurfaces decimal env.io d' ∧ (∀ m ∈ d.materials, PrintableXs m.2) ∧ ∀ s ∈ d.surfaces, ¬ IsCone s.type ∧ ¬ IsTorus s.type := by
    intro d fuel d' hr h
    rw [is_read] at hr
    cases hr
    have good : ∀ s ∈ d'.surfaces, ∀ x ∈ s.coeffs, mixedIO.Good x ∧ Prints decimal mixedIO.render x := by
      intro s hs x hx
      obtain ⟨d, h3, h4⟩ := is_processed m w
      have h1 := finishDeck_mono (le_max_left fuel env.fuel) h
      have h2 := finishDeck_mono (le_max_right fuel env.fuel) h3
      rw [h1] at h2
      cases h2
      obtain ⟨z, hz, rfl⟩ := List.mem_map.1 (h4 s hs x hx)
      obtain ⟨a, b, -⟩ := mixed_good z (by clear hx; revert z; decide)
      exact ⟨a, b⟩
    have np : ∀ c ∈ (deck m w).cells, c.offset = none ∧ c.rotation = none := by
      intro c hc
      simp only [deck, List.mem_cons, List.not_mem_nil, or_false] at hc
      rcases hc with rfl | rfl | rfl <;> exact ⟨rfl, rfl⟩
    refine ⟨⟨by clear h np good; revert m w; decide +kernel, ?_, ?_, ?_⟩, fun s hs x hx => (good s hs x hx).1.len, fun s hs x hx => (good s hs x hx).2, ?_, ?_⟩
    · intro i c x hc h
      rcases importance_of hc h with rfl | rfl <;> decide +kernel
    · intro c hc l hl
      obtain ⟨h1, h2⟩ := np c hc
      rw [h1, h2] at hl
      rcases hl with h | h <;> cases h
    · clear h np good
      revert m w
      decide +kernel
    · intro k hk e he
      simp only [deck, List.mem_singleton] at hk
      subst hk
      simp only [gas, List.mem_singleton] at he
      subst he
      exact ⟨[], by decide +kernel, by simp⟩
    · intro s hs
      simp only [deck, List.mem_cons, List.not_mem_nil, or_false] at hs
      rcases hs with rfl | rfl <;> (simp only [ball, IsCone, IsTorus]; decide)
  refine ⟨fun d fuel d' hr h => ?_, fun d fuel d' hr h => ?_, fun d fuel d' hr h => ?_, fun d fuel d' hr h => ?_⟩ <;> obtain ⟨h1, h2, h3, h4, h5⟩ := key d fuel d' hr h
  · exact ⟨h1, h3, fun s hs hx => absurd hx (not_or.2 (h5 s hs))⟩
  · exact ⟨h1, h2, h4⟩
  · exact ⟨h1, h2⟩
  · exact ⟨h3, fun s hs hx => absurd hx (h5 s hs).1⟩

/-! ## The hypotheses -/

/-- What the theorems ask of the first file, and of the two ways to print numbers. -/
example : FileSays env.io (text false false) (said false false) ∧ ConvertibleFile env.io id env.sqrt Int.toNat (said false false) ∧ OpenmcFile (said false false) ∧ CardFile (said false false) ∧
    (∀ (i : Nat) c x, (said false false).cells[i]? = some c → FileImportance env.io (said false false) i c x → PlainNumber (env.io.render x)) ∧ FlukaFile env.io id env.sqrt (said false false) ∧
    SconeFile env.io (said false false) ∧ SerpentTexts env id false decimal (text false false) ∧ PhitsTexts env id false (text false false) ∧ McnpTexts env id false (text false false) ∧
    SconeTexts env id (fun d => (d / 45) ^ 2) false decimal (text false false) ∧ FlukaNumbers env := by
  refine ⟨is_said _ _, said_convertible _, ⟨?_, ?_, ⟨⟨3, none, c!"2 ", [.importance c!"0"]⟩, by simp [said], by decide⟩, fun _ => 0, ?_⟩, ⟨by decide, ?_, ?_⟩, ?_, said_fluka _ _, said_scone _, (texts _ _).1, (texts _ _).2.1, (texts _ _).2.2.1,
    (texts _ _).2.2.2, ⟨by decide +kernel, by decide +kernel, by decide +kernel⟩, ?_, ?_, fun l => .refl l⟩
  · intro m hm e he
    rw [said_materials] at hm
    obtain rfl := List.mem_singleton.1 hm
    obtain rfl := List.mem_singleton.1 he
    exact ⟨1, 1, by decide +kernel, by decide, by decide, by decide, by decide⟩
  · intro c hc
    obtain ⟨h1, h2, -⟩ := said_params _ _ c hc
    rw [h1, h2]
    exact ⟨⟨0, by decide⟩, fun l h => (by cases h)⟩
  · intro c hc u s f _ h
    rw [(said_params _ _ c hc).2.1] at h
    cases h
  · intro c hc
    obtain ⟨h1, h2, -⟩ := said_params _ _ c hc
    rw [h1, h2]
    exact ⟨fun l h => (by cases h), fun l h => (by cases h)⟩
  · intro c hc d ws h
    rw [(said_params _ _ c hc).2.2] at h
    cases h
  · intro i c x hc h
    have one : PlainNumber (mixedIO.render 1) := .point [] c!"1" c!"0" (by decide) (by decide) (by decide) (by decide) (by decide)
    have zero : PlainNumber (mixedIO.render 0) := .point [] c!"0" c!"0" (by decide) (by decide) (by decide) (by decide) (by decide)
    rcases said_importance hc h with rfl | ⟨rfl, -⟩
    exacts [one, zero]
  · intro x h1 h2
    have hx : x = 0 ∨ (10 : ℚ) ^ (-99 : Int) ≤ |x| ∧ |x| < (10 : ℚ) ^ (99 : Int) := by
      rcases h1 with h1 | h1
      · exact .inl h1
      · have hp : 0 < x := lt_of_lt_of_le (by positivity) h1
        rw [abs_of_pos hp]
        exact .inr ⟨le_trans (by rw [zpow_neg]; norm_num) h1, lt_of_le_of_lt h2 (by norm_num)⟩
    obtain ⟨v, hv, -⟩ := formatE_value hx
    exact ⟨sciValue_length hv, formatE_newline x⟩
  · intro x _ _
    have hw : ∀ x, env.io.render x ≠ [] ∧ ∀ c ∈ env.io.render x, isSpace c = false := fun x => ⟨(render_word mixed_exact x).1, (render_word mixed_exact x).2.1⟩
    refine ⟨by simp [env], fun hc => ?_, fun hc => ?_⟩
    · have := (hw x).2 _ (List.mem_of_mem_take hc); cases this
    · have := (hw x).2 _ (List.mem_of_mem_take hc); cases this

/-- C116: both balls are moved by 1. -/
example : FileSays env.io (text true false) (said true false) ∧ MovedFile 5 false [1, 0, 0] (said false false) (said true false) ∧
    (∀ s ∈ (said false false).surfaces, bodyType s.mn = none → ∃ m : Mn, s.mn = m.word ∧ ¬ XZOnly fun p => mcnpValue m s.values (trPoint id false [1, 0, 0] p)) ∧ FlukaFile env.io id env.sqrt (said true false) ∧
    SerpentTexts env id false decimal (text true false) ∧ PhitsTexts env id false (text true false) ∧ McnpTexts env id false (text true false) ∧
    SconeTexts env id (fun d => (d / 45) ^ 2) false decimal (text true false) := by
  refine ⟨is_said _ _, ⟨rfl, by decide, rfl, by decide +kernel, by decide +kernel, by decide +kernel, by decide +kernel⟩, ?_, said_fluka _ _, texts _ _⟩
  intro s hs _
  simp only [said, List.mem_cons, List.not_mem_nil, or_false] at hs
  have e : ∀ p : Point ℚ, trPoint id false [1, 0, 0] p = ⟨p.x - 1, p.y, p.z⟩ := fun p => by simp [trPoint]
  simp only [e]
  rcases hs with rfl | rfl
  · exact ⟨.so, by decide, sphere_mixed 3 1⟩
  · exact ⟨.so, by decide, sphere_mixed 9 1⟩

/-- C117: `-1` becomes `(-1)`, and `#1 -2` becomes `-2 #1`. -/
example : FileSays env.io (text false true) (said false true) ∧ RewrittenFile (said false false) (said false true) ∧ ConvertibleFile env.io id env.sqrt Int.toNat (said false true) ∧ FlukaFile env.io id env.sqrt (said false true) ∧
    SconeFile env.io (said false true) ∧ SerpentTexts env id false decimal (text false true) ∧ PhitsTexts env id false (text false true) ∧ McnpTexts env id false (text false true) ∧
    SconeTexts env id (fun d => (d / 45) ^ 2) false decimal (text false true) := by
  refine ⟨is_said _ _, ⟨.cons ⟨rfl, rfl, rfl, fun σ => ?_⟩ (.cons ⟨rfl, rfl, rfl, fun σ => ?_⟩ (.cons ⟨rfl, rfl, rfl, fun _ => Iff.rfl⟩ .nil)), rfl, rfl, rfl, rfl⟩, said_convertible _, said_fluka _ _, said_scone _, texts _ _⟩
  · show Holds σ (lexGeometry c!"-1 ") ↔ Holds σ (lexGeometry c!"(-1) ")
    rw [lex1, lex1', holds_iff (single _), holds_iff (enclosed _)]
  · show Holds σ (lexGeometry c!"#1 -2 ") ↔ Holds σ (lexGeometry c!"-2 #1 ")
    rw [lex2, lex2', holds_iff (double _ _), holds_iff (double _ _)]
    exact and_comm

end Csg
