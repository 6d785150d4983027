import Verif.Model.Macrobody
import Verif.Spec.Macrobody
import Verif.Lemmas.Exact
import Verif.Lemmas.Words
import Verif.Lemmas.SurfaceCard
import Verif.Lemmas.Cell
import Verif.Lemmas.CellText
import Verif.Lemmas.Region
import Mathlib.Tactic.Ring
import Mathlib.Tactic.Linarith
import Mathlib.Tactic.FieldSimp

/-!
# Macrobodies: the new surfaces and the descriptions
-/

set_option linter.unusedSectionVars false

namespace Csg

open Spec

section
variable {K : Type} [Field K] [LinearOrder K]

/-- The new surface from a card with number `n`. -/
def plainCard (n : Int) (ty : SType) (cs : List K) : Surface K := { (Surface.blank : Surface K) with type := ty, id := n, coeffs := cs }

/-- A text is classified once its words are known. -/
theorem classify_words (io : NumIO K) (hio : Exact io) (n : Int) (mn : Str) (hmn : mn ∈ surfaceWords) (ws : List Str) (vals : List K)
    (hr : Reads io ws vals) (hw : ∀ w ∈ ws, w ≠ [] ∧ NoSpace w ∧ '$' ∉ w) (text : Str) (ht : split text = intStr n :: mn :: ws) :
    classify io text = classifyFields ⟨n, none, mn, .ofValues vals⟩ := by
  have hm : ∀ mn ∈ surfaceWords, '$' ∉ mn := by decide
  rw [← ofWords_eq io _ _ hr]
  refine classify_isCard io text n none mn ws ⟨intStr n, parseInt_intStr n, intStr_not_mem n (by decide) (by decide),
    ⟨text, [], Or.inl rfl, ?_, ht⟩, hio.words mn hmn⟩
  intro hd
  obtain ⟨w, hw', hd⟩ := split_mem text '$' (by decide) hd
  rw [ht] at hw'
  rcases List.mem_cons.1 hw' with rfl | hw'
  · exact intStr_not_mem n (by decide) (by decide) hd
  rcases List.mem_cons.1 hw' with rfl | hw'
  · exact hm _ hmn hd
  · exact (hw w hw').2.2 hd

theorem render_word {io : NumIO K} (hio : Exact io) (x : K) : io.render x ≠ [] ∧ NoSpace (io.render x) ∧ '$' ∉ io.render x :=
  ⟨(hio.text x).ne_nil, (hio.text x).noSpace, (hio.text x).not_mem (by decide) (by decide)⟩

theorem split_card (n : Int) (t : Str) : split (intStr n ++ ' ' :: t) = intStr n :: split t :=
  split_word_space _ _ _ rfl (intStr_noSpace n) (intStr_ne_nil n)

/-- The plane cards. -/
theorem classify_planeText (io : NumIO K) (hio : Exact io) (n : Int) (a b c d : K) :
    classify io (intStr n ++ planeText io a b c d) = .ok (plainCard n .planeGeneral [a, b, c, d]) := by
  have hw : ∀ x, io.render x ≠ [] ∧ NoSpace (io.render x) ∧ '$' ∉ io.render x := render_word hio
  rw [classify_words io hio n c!"p" (by decide) [io.render a, io.render b, io.render c, io.render d] [a, b, c, d]]
  · run_classify; run_card; simp [plainCard, Surface.blank]
  · exact .cons (hio.reads a) (.cons (hio.reads b) (.cons (hio.reads c) (.cons (hio.reads d) .nil)))
  · intro w h
    simp only [List.mem_cons, List.not_mem_nil, or_false] at h
    rcases h with rfl | rfl | rfl | rfl <;> exact hw _
  · have e : intStr n ++ planeText io a b c d =
        intStr n ++ ' ' :: (c!"p" ++ ' ' :: (io.render a ++ ' ' :: (io.render b ++ ' ' :: (io.render c ++ ' ' :: io.render d)))) := by
      simp [planeText]
    rw [e, split_card, split_word_space c!"p" _ _ rfl (by unfold NoSpace; decide) (by decide),
      split_word_space _ _ _ rfl (hw a).2.1 (hw a).1, split_word_space _ _ _ rfl (hw b).2.1 (hw b).1,
      split_word_space _ _ _ rfl (hw c).2.1 (hw c).1, split_word _ (hw d).2.1 (hw d).1]

theorem split_renders {io : NumIO K} (hio : Exact io) (cs : List K) :
    split (cs.flatMap fun x => io.render x ++ c!" ") = cs.map io.render := by
  induction cs with
  | nil => rfl
  | cons x cs ih =>
    have hw := render_word hio x
    rw [List.flatMap_cons, List.append_assoc, List.singleton_append, split_word_space _ _ _ rfl hw.2.1 hw.1, ih, List.map_cons]

theorem reads_renders {io : NumIO K} (hio : Exact io) (cs : List K) : Reads io (cs.map io.render) cs := by
  unfold Reads
  induction cs with
  | nil => exact .nil
  | cons x cs ih => exact .cons (hio.reads x) ih

/-- The quadric card. -/
theorem classify_quadricText (io : NumIO K) (hio : Exact io) (n : Int) (a b c d e f g h j k : K) :
    classify io (intStr n ++ quadricText io [a, b, c, d, e, f, g, h, j, k]) =
      .ok (plainCard n .generalQuadratic [a, b, c, d, e, f, g, h, j, k]) := by
  rw [classify_words io hio n c!"gq" (by decide) _ _ (reads_renders hio [a, b, c, d, e, f, g, h, j, k])]
  · run_classify; run_card; simp [plainCard, Surface.blank]
  · intro w h
    obtain ⟨x, -, rfl⟩ := List.mem_map.1 h
    exact render_word hio x
  · have e : intStr n ++ quadricText io [a, b, c, d, e, f, g, h, j, k] =
        intStr n ++ ' ' :: (c!"gq" ++ ' ' :: ([a, b, c, d, e, f, g, h, j, k].flatMap fun x => io.render x ++ c!" ")) := by
      simp [quadricText]
    rw [e, split_card, split_word_space c!"gq" _ _ rfl (by unfold NoSpace; decide) (by decide), split_renders hio]

/-- The axis planes of an RPP. -/
theorem classify_axisText (io : NumIO K) (hio : Exact io) (n : Int) (mn : Str) (ty : SType) (cs : List K) (d : K)
    (h : (mn, ty, cs) ∈ [(c!"px", SType.planeX, [1, 0, 0, d]), (c!"py", .planeY, [0, 1, 0, d]), (c!"pz", .planeZ, [0, 0, 1, d])]) :
    classify io (intStr n ++ (' ' :: mn ++ c!" " ++ io.render d)) = .ok (plainCard n ty cs) := by
  have hw := render_word hio d
  have key : ∀ mn ∈ surfaceWords, classify io (intStr n ++ (' ' :: mn ++ c!" " ++ io.render d)) =
      classifyFields ⟨n, none, mn, .ofValues [d]⟩ := by
    intro mn hmn
    have hm : ∀ mn ∈ surfaceWords, mn ≠ [] ∧ NoSpace mn := by unfold NoSpace; decide
    refine classify_words io hio n mn hmn [io.render d] [d] (.cons (hio.reads d) .nil) ?_ _ ?_
    · simpa using hw
    · have e : intStr n ++ (' ' :: mn ++ c!" " ++ io.render d) = intStr n ++ ' ' :: (mn ++ ' ' :: io.render d) := by simp
      rw [e, split_card, split_word_space _ _ _ rfl (hm mn hmn).2 (hm mn hmn).1, split_word _ hw.2.1 hw.1]
  simp only [List.mem_cons, Prod.mk.injEq, List.not_mem_nil, or_false] at h
  rcases h with ⟨rfl, rfl, rfl⟩ | ⟨rfl, rfl, rfl⟩ | ⟨rfl, rfl, rfl⟩
  all_goals rw [key _ (by decide)]; run_classify; run_card; simp [plainCard, Surface.blank]

/-- The lower planes of an RPP. -/
theorem classify_lowerText (io : NumIO K) (hio : Exact io) (n : Int) (a b c : Str) (x y z d : K)
    (h : (a, b, c, x, y, z) ∈ [(c!"-1.0", c!"0", c!"0", (-1 : K), (0 : K), (0 : K)), (c!"0", c!"-1.0", c!"0", 0, -1, 0),
      (c!"0", c!"0", c!"-1.0", 0, 0, -1)]) :
    classify io (intStr n ++ (c!" p " ++ a ++ c!" " ++ b ++ c!" " ++ c ++ c!" " ++ io.render d)) =
      .ok (plainCard n .planeGeneral [x, y, z, d]) := by
  have hw := render_word hio d
  have key : ∀ (a b c : Str) (x y z : K), io.parse a = some x → io.parse b = some y → io.parse c = some z →
      (∀ w ∈ [a, b, c], w ≠ [] ∧ NoSpace w ∧ '$' ∉ w) →
      classify io (intStr n ++ (c!" p " ++ a ++ c!" " ++ b ++ c!" " ++ c ++ c!" " ++ io.render d)) =
      .ok (plainCard n .planeGeneral [x, y, z, d]) := by
    intro a b c x y z ha hb hc hall
    have h1 := hall a (by simp)
    have h2 := hall b (by simp)
    have h3 := hall c (by simp)
    rw [classify_words io hio n c!"p" (by decide) [a, b, c, io.render d] [x, y, z, d]]
    · run_classify; run_card; simp [plainCard, Surface.blank]
    · exact .cons ha (.cons hb (.cons hc (.cons (hio.reads d) .nil)))
    · intro w h
      simp only [List.mem_cons, List.not_mem_nil, or_false] at h
      rcases h with rfl | rfl | rfl | rfl
      · exact h1
      · exact h2
      · exact h3
      · exact hw
    · have e : intStr n ++ (c!" p " ++ a ++ c!" " ++ b ++ c!" " ++ c ++ c!" " ++ io.render d) =
          intStr n ++ ' ' :: (c!"p" ++ ' ' :: (a ++ ' ' :: (b ++ ' ' :: (c ++ ' ' :: io.render d)))) := by simp
      rw [e, split_card, split_word_space c!"p" _ _ rfl (by unfold NoSpace; decide) (by decide),
        split_word_space _ _ _ rfl h1.2.1 h1.1, split_word_space _ _ _ rfl h2.2.1 h2.1,
        split_word_space _ _ _ rfl h3.2.1 h3.1, split_word _ hw.2.1 hw.1]
  simp only [List.mem_cons, Prod.mk.injEq, List.not_mem_nil, or_false] at h
  rcases h with ⟨rfl, rfl, rfl, rfl, rfl, rfl⟩ | ⟨rfl, rfl, rfl, rfl, rfl, rfl⟩ | ⟨rfl, rfl, rfl, rfl, rfl, rfl⟩
  · exact key _ _ _ _ _ _ hio.minusOne hio.zero hio.zero (by unfold NoSpace; decide)
  · exact key _ _ _ _ _ _ hio.zero hio.minusOne hio.zero (by unfold NoSpace; decide)
  · exact key _ _ _ _ _ _ hio.zero hio.zero hio.minusOne (by unfold NoSpace; decide)

/-- New cards, given what each text is classified as. -/
theorem newCards_ok (io : NumIO K) : ∀ (ts : List Str) (fs : List (SType × List K)) (last : Int),
    List.Forall₂ (fun t f => ∀ n, classify io (intStr n ++ t) = .ok (plainCard n f.1 f.2)) ts fs →
    newCards io last ts = .ok (fs.mapIdx fun i f => plainCard (last + 1 + i) f.1 f.2) := by
  intro ts fs last h
  induction h generalizing last with
  | nil => rfl
  | cons h _ ih =>
    simp only [newCards, h, ih, bind, Except.bind, List.mapIdx_cons]
    congr 2
    · simp
    · congr 1
      funext i f
      congr 1
      push_cast
      ring

end

end Csg
