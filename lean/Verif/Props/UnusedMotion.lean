import Verif.Props.Motions
import Verif.Props.Processing
import Verif.Lemmas.Outputs

/-!
# C124: a TR card that nothing refers to changes nothing

`C124_partial`: for a card before other cards. `C124_refuted`: not if it is the last card.
-/

set_option linter.unusedSectionVars false

namespace Csg

open Spec

section
variable {K : Type} [Field K] [LinearOrder K] [IsStrictOrderedRing K]

/-- The lists have the same transforms but for number `n`. -/
private def Beside (n : Str) (trs trs' : List (Str × Transform K)) : Prop := ∀ k, k ≠ n → trs'.lookup k = trs.lookup k

private theorem beside_set {n : Str} {trs trs' : List (Str × Transform K)} (h : Beside n trs trs') (k : Str) (t : Transform K) : Beside n (dictSet trs k t) (dictSet trs' k t) := by
  intro j hj
  rw [lookup_dictSet, lookup_dictSet, h j hj]

/-- The cards after it are read as before. -/
private theorem beside_rest (io : NumIO K) (cosDeg : K → K) {n : Str} (ls : List Str) : ∀ {trs trs' : List (Str × Transform K)}, Beside n trs trs' → ∀ {r}, getTransformCards io cosDeg trs ls = .ok r →
    ∃ r', getTransformCards io cosDeg trs' ls = .ok r' ∧ Beside n r r' := by
  induction ls with
  | nil =>
    intro trs trs' h r hr
    cases hr
    exact ⟨trs', rfl, h⟩
  | cons l ls ih =>
    intro trs trs' h r hr
    rw [getTransformCards] at hr ⊢
    split at hr
    · rename_i hl
      rw [if_pos hl]
      split at hr
      · cases hr
      · rename_i ha
        rw [if_neg ha]
        obtain ⟨⟨k, t⟩, hp, hr⟩ := bind_ok hr
        rw [hp]
        exact ih (beside_set h k t) hr
    · rename_i hl
      rw [if_neg hl]
      exact ih h hr

private theorem beside_card (io : NumIO K) (cosDeg : K → K) {n : Str} {g b : List Str} {degrees : Bool} {values : List K} (hc : DataCards [g]) (hg : TransformCardReads io g degrees n values) (hb : BeginCard b) (hb0 : b ≠ []) (a : List Str) :
    ∀ {trs : List (Str × Transform K)} {r}, getTransformCards io cosDeg trs (a ++ b) = .ok r → ∃ r', getTransformCards io cosDeg trs (a ++ (g ++ b)) = .ok r' ∧ Beside n r r' := by
  obtain ⟨first, more, rfl, k1, k2, -⟩ := hc g (by simp)
  have begin1 : BeginCard ((first :: more) ++ b) := fun l hl => by cases hl; exact k1
  induction a with
  | nil =>
    intro trs r hr
    obtain ⟨hi, hl, hv⟩ := hg
    obtain ⟨f, mo, ws, e, hf, -⟩ := tr_first hi
    cases e
    obtain ⟨p, -, hp⟩ := parse_cosines io cosDeg hi.1 hl (tr_card_words hi k2) hv
    have take : (more ++ b).takeWhile continues = more := by
      rw [takeWhile_begin hb]
      exact List.takeWhile_eq_self_iff.2 fun l hl => fiveBlanks_iff.2 (k2 l hl)
    rw [List.nil_append, List.cons_append, getTransformCards, if_pos hf, all_begin hb hb0, if_neg (by simp), take, hp]
    simp only [bind, Except.bind]
    rw [transforms_skip io cosDeg fun l hl => five_not_transform (k2 l hl)]
    exact beside_rest io cosDeg b (fun k hk => by rw [lookup_dictSet, if_neg hk]) hr
  | cons l a ih =>
    intro trs r hr
    rw [List.cons_append (as := a), getTransformCards] at hr ⊢
    split at hr
    · rename_i hl
      rw [all_begin hb hb0, if_neg (by simp), takeWhile_begin hb] at hr
      rw [if_pos hl, all_begin begin1 (by simp), if_neg (by simp), takeWhile_begin begin1]
      obtain ⟨⟨k, t⟩, hp, hr⟩ := bind_ok hr
      rw [hp]
      exact ih hr
    · rename_i hl
      rw [if_neg hl]
      exact ih hr

private theorem importances_beside {g b : List Str} (hc : DataCards [g]) (hi : ∀ l ∈ g, ∀ x y, l ≠ x ++ c!"imp" ++ y) (hb : BeginCard b) (hb0 : b ≠ []) (a : List Str) : getImportances (a ++ (g ++ b)) = getImportances (a ++ b) := by
  have key : importancesGo [] none (a ++ (g ++ b)) = importancesGo [] none (a ++ b) := by
    refine go_congr (fun d cur => ?_) a [] none
    have skip := fun d => go_skip hi d b
    cases cur with
    | none => exact skip d
    | some pt =>
      obtain ⟨p, t⟩ := pt
      obtain ⟨first, more, rfl, k1, -⟩ := hc g (by simp)
      cases b with
      | nil => exact absurd rfl hb0
      | cons y b => rw [List.cons_append, go_ends k1, go_ends (hb y rfl), ← List.cons_append, skip]
  unfold getImportances
  rw [key]

/-- Transforms that nothing refers to are not used. -/
private theorem finish_beside {fuel : Nat} {io : NumIO K} (hio : Exact io) {cosDeg sqrt : K → K} {quick : Bool} {rank : Int → Nat} {d p : Deck K} (hd : ProperDeck sqrt rank d) {n : Str} {trs' : List (Str × Transform K)}
    (hb : Beside n d.transforms trs') (hs : ∀ s ∈ d.surfaces, s.transform ≠ some n) (hc : ∀ c ∈ d.cells, c.trId ≠ n) (h : finishDeck fuel io cosDeg sqrt quick d = some (.ok p)) :
    finishDeck fuel io cosDeg sqrt quick { d with transforms := trs' } = some (.ok { p with transforms := trs' }) := by
  obtain ⟨cells1, cells2, cells3, cells4, cells5, surfs1, surfs2, surfs3, surfs4, r⟩ := finishDeck_run h
  have hs1 : ∀ s ∈ surfs1, s.transform ≠ some n := by
    have hf := r.flat
    unfold flatten at hf
    obtain ⟨⟨c1, more, l1⟩, h1, hf⟩ := bind_ok hf
    have hfaces := flattenGo_faces io hio cosDeg d.surfaces d.last d.cells (fun s hs hm => (hd.bodies s hs hm).1.shape) h1
    cases hf
    intro s hs1
    rcases List.mem_append.1 (List.mem_filter.1 hs1).1 with hm | hm
    · exact hs s hm
    · obtain ⟨s0, h0, -, f, -, e⟩ := hfaces s hm
      rw [e]
      exact hs s0 h0
  have move : applySurfaceTransformations trs' surfs1 = applySurfaceTransformations d.transforms surfs1 := by
    unfold applySurfaceTransformations
    clear r
    induction surfs1 with
    | nil => rfl
    | cons s ss ih =>
      rw [List.mapM_cons, List.mapM_cons, ih fun x hx => hs1 x (List.mem_cons_of_mem _ hx)]
      have : Surface.applyTransformCard trs' s = Surface.applyTransformCard d.transforms s := by
        unfold Surface.applyTransformCard
        cases ht : s.transform with
        | none => rfl
        | some k =>
          simp only
          rw [hb k fun e => hs1 s (List.mem_cons_self ..) (by rw [ht, e])]
      rw [this]
  have hc2 : ∀ c ∈ cells2, c.trId ≠ n := by
    intro c hc1
    obtain ⟨c0, h0, e⟩ := forall₂_right (r.expanded hio hd) c hc1
    rw [e]
    exact hc c0 h0
  have fill : applyUniverseTransformations trs' cells2 = applyUniverseTransformations d.transforms cells2 := by
    unfold applyUniverseTransformations
    clear r
    induction cells2 with
    | nil => rfl
    | cons c cs ih =>
      rw [List.mapM_cons, List.mapM_cons, ih fun x hx => hc2 x (List.mem_cons_of_mem _ hx), hb c.trId (hc2 c (List.mem_cons_self ..))]
  have both : finishDeck fuel io cosDeg sqrt quick { d with transforms := trs' } = (finishDeck fuel io cosDeg sqrt quick d).map fun x => x.map fun p => { p with transforms := trs' } := by
    unfold finishDeck
    simp only [r.flat, r.nots, Option.map_some, Option.some.injEq, move, fill]
    have push : ∀ {α β γ : Type} (f : β → γ) (a : Py α) (k : α → Py β), (a >>= k).map f = a >>= fun x => (k x).map f := by
      intro α β γ f a k
      cases a <;> rfl
    simp only [push]
    rfl
  rw [both, h]
  rfl

/-- **C124** (partial). A TR card that is put between the cards of the data block and that no surface and no fill refers to changes nothing in the files. Missing: a TR card that is the last card, see `C124_refuted`. -/
theorem C124_partial (e : Env K) (hio : Exact e.io) (cosDeg : K → K) (quick : Bool) (output : Option (List Str)) (rank : Int → Nat) (text text' title n : Str) (cells surfs a g b : List Str) (degrees : Bool) (values : List K) (d : Deck K)
    (h : Blocks text title cells surfs (a ++ b)) (h' : Blocks text' title cells surfs (a ++ (g ++ b))) (hcard : DataCards [g]) (hg : TransformCardReads e.io g degrees n values)
    (himp : ∀ l ∈ g, ∀ x y, l ≠ x ++ c!"imp" ++ y) (hmat : ∀ l ∈ g, ¬ LooksLikeMaterial l) (hb : BeginCard b) (hb0 : b ≠ []) (hr : readDeck e.io cosDeg (readText text) = .ok d) (hd : ProperDeck e.sqrt rank d)
    (hs : ∀ s ∈ d.surfaces, s.transform ≠ some n) (hc : ∀ c ∈ d.cells, c.trId ≠ n) (files : List (Code × OutFile)) (hf : Returns (convert e cosDeg quick output text) files) : Returns (convert e cosDeg quick output text') files := by
  have begin1 : BeginCard g := by
    obtain ⟨first, more, rfl, k1, -⟩ := hcard g (by simp)
    exact fun l hl => by cases hl; exact k1
  have key : ∃ trs', readDeck e.io cosDeg (readText text') = .ok { d with transforms := trs' } ∧ Beside n d.transforms trs' := by
    obtain ⟨b1, b2, k1, k2, k3⟩ := readText_blocks h e.io cosDeg
    obtain ⟨b1', b2', k1', k2', k3'⟩ := readText_blocks h' e.io cosDeg
    obtain ⟨rc, hrc⟩ := block_rest (readCell e.io cosDeg) removeInline_code fun l hl => h.cards l (List.mem_append_left _ hl)
    obtain ⟨rs, hrs⟩ := block_rest (classify e.io) stripDollar_code fun l hl => h.cards l (List.mem_append_right _ hl)
    rw [k3, hrc _ _ k1] at hr
    rw [k3', hrc _ _ k1']
    cases rc with
    | error x => cases hr
    | ok cs =>
      simp only [Except.map, bind, Except.bind] at hr ⊢
      rw [hrs _ _ k2] at hr
      rw [hrs _ _ k2']
      cases rs with
      | error x => cases hr
      | ok ss =>
        simp only [Except.map] at hr ⊢
        rw [importances_beside hcard himp hb hb0, materials_extra e.io hmat begin1 hb]
        cases hi : getImportances (a ++ b) with
        | error x => rw [hi] at hr; cases hr
        | ok imps =>
          rw [hi] at hr
          simp only at hr ⊢
          cases ht : getTransformCards e.io cosDeg [] (a ++ b) with
          | error x => rw [ht] at hr; cases hr
          | ok trs =>
            obtain ⟨trs', ht', hbe⟩ := beside_card e.io cosDeg hcard hg hb hb0 a ht
            rw [ht] at hr
            rw [ht']
            simp only at hr ⊢
            cases hm : getMaterialCards e.io [] (a ++ b) with
            | error x => rw [hm] at hr; cases hr
            | ok mats =>
              rw [hm] at hr
              cases hr
              exact ⟨trs', rfl, hbe⟩
  obtain ⟨trs', hr', hbe⟩ := key
  unfold convert at hf ⊢
  obtain ⟨p, h1, h2⟩ := (returns_bind _ _ _).1 hf
  refine (returns_bind _ _ _).2 ⟨{ p with transforms := trs' }, ?_, h2⟩
  rw [returns_mk] at h1 ⊢
  unfold processDeck at h1 ⊢
  rw [hr] at h1
  rw [hr']
  simp only at h1 ⊢
  have hp : finishDeck e.fuel e.io cosDeg e.sqrt quick d = some (.ok p) := by
    cases hf1 : finishDeck e.fuel e.io cosDeg e.sqrt quick d with
    | none => rw [hf1] at h1; cases h1
    | some r =>
      rw [hf1] at h1
      cases r with
      | error x => cases h1
      | ok q => cases h1; rfl
  rw [finish_beside hio hd hbe hs hc hp]
  rfl

end

private def env : Env ℚ :=
  { fuel := 100, io := mixedIO, fixed := formatF, sci := formatF, sci4 := fun x => (mixedIO.render x).take 10, sci3 := formatF, sqrt := id, degAtan := id, orderStr := id, orderInt := id }

private def top : Str := c!"title\n1 1 -7 -1 imp:n=1\n2 0 1 imp:n=0\n\n1 so 3\n\nm1 1001 1.0\n"

/-- With a TR card that nothing refers to as the last card, a file that could be read ends the run with an exception. -/
theorem C124_refuted :
    (convert env id true (some [c!"mcnp"]) top).run =
      .ok (some [(.mcnp, .text c!"C cell definitions\n1 1 -7.0 -1 IMP:N=1.0\n2 0 1 IMP:N=0.0\n\nC surface definitions\n1 s 0.0 0.0 0.0 3.0\n\nC material definitions\nC Material M1\nM1     1001 1.0\n")]) ∧
    (convert env id true (some [c!"mcnp"]) (top ++ c!"tr5 0 0 1\n")).run = .error .indexError :=
  ⟨by decide +kernel, by decide +kernel⟩

end Csg
