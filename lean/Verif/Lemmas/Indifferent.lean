import Verif.Lemmas.Converted
import Verif.Lemmas.Processing
import Verif.Lemmas.SurfaceCard
import Verif.Model.Outputs

/-!
# Two runs on decks that differ in importances
-/

set_option linter.unusedSectionVars false

namespace Csg

open Spec

/-- Both fail in the same way, or both succeed with related results. -/
inductive Both {α β : Type} (R : α → β → Prop) : Py α → Py β → Prop
  | err (e : PyErr) : Both R (.error e) (.error e)
  | ok {a : α} {b : β} : R a b → Both R (.ok a) (.ok b)

theorem Both.bind {α β γ δ : Type} {R : α → β → Prop} {S : γ → δ → Prop} {x : Py α} {y : Py β} {f : α → Py γ} {g : β → Py δ} (h : Both R x y) (hf : ∀ a b, R a b → Both S (f a) (g b)) :
    Both S (x >>= f) (y >>= g) := by
  cases h with
  | err e => exact .err e
  | ok h => exact hf _ _ h

theorem Both.refl {α : Type} {R : α → α → Prop} (h : ∀ a, R a a) (x : Py α) : Both R x x := by
  cases x with
  | error e => exact .err e
  | ok a => exact .ok (h a)

theorem Both.same {α : Type} (x : Py α) : Both (fun a b => a = b) x x := .refl (fun _ => rfl) x

theorem Both.eq {α : Type} {x y : Py α} (h : Both (fun a b => a = b) x y) : x = y := by
  cases h with
  | err e => rfl
  | ok h => rw [h]

theorem Both.out {α β : Type} {R : α → β → Prop} {x : Py α} {y : Py β} (h : Both R x y) {a : α} {b : β} (hx : x = .ok a) (hy : y = .ok b) : R a b := by
  subst hx hy
  cases h
  assumption

theorem Both.mapM {α β γ δ : Type} {R : α → β → Prop} {S : γ → δ → Prop} {f : α → Py γ} {g : β → Py δ} (hf : ∀ a b, R a b → Both S (f a) (g b)) {l : List α} {l' : List β} (h : List.Forall₂ R l l') :
    Both (List.Forall₂ S) (l.mapM f) (l'.mapM g) := by
  induction h with
  | nil => exact .ok .nil
  | cons h1 h2 ih =>
    rw [List.mapM_cons, List.mapM_cons]
    exact (hf _ _ h1).bind fun a b k => ih.bind fun as bs ks => .ok (.cons k ks)

theorem mapM_same {α β γ : Type} {m : Type → Type} [Monad m] [LawfulMonad m] {R : α → β → Prop} {f : α → m γ} {g : β → m γ} (hf : ∀ a b, R a b → f a = g b) {l : List α} {l' : List β} (h : List.Forall₂ R l l') :
    l.mapM f = l'.mapM g := by
  induction h with
  | nil => rfl
  | cons h1 h2 ih => rw [List.mapM_cons, List.mapM_cons, hf _ _ h1, ih]

theorem map_same {α β γ : Type} {R : α → β → Prop} {f : α → γ} {g : β → γ} (hf : ∀ a b, R a b → f a = g b) {l : List α} {l' : List β} (h : List.Forall₂ R l l') : l.map f = l'.map g := by
  induction h with
  | nil => rfl
  | cons h1 h2 ih => rw [List.map_cons, List.map_cons, hf _ _ h1, ih]

section
variable {K : Type} [Field K] [LinearOrder K] [IsStrictOrderedRing K]

/-- Only the importance differs. -/
def ImpFrame (c c' : Cell K) : Prop := c' = { c with importance := c'.importance }

theorem ImpFrame.intro (c : Cell K) (x : K) : ImpFrame c { c with importance := x } := rfl

theorem ImpFrame.elim {c c' : Cell K} (h : ImpFrame c c') : ∃ x, c' = { c with importance := x } := ⟨_, h⟩

theorem ImpFrame.symm {a b : Cell K} (h : ImpFrame a b) : ImpFrame b a := by
  obtain ⟨x, rfl⟩ := h.elim
  rfl

theorem ImpFrame.trans {a b c : Cell K} (h1 : ImpFrame a b) (h2 : ImpFrame b c) : ImpFrame a c := by
  obtain ⟨x, rfl⟩ := h1.elim
  obtain ⟨y, rfl⟩ := h2.elim
  rfl

theorem BcFrame.elim {s s' : Surface K} (h : BcFrame s s') : ∃ b, s' = { s with bc := b } := ⟨_, h⟩

theorem BcFrame.symm {a b : Surface K} (h : BcFrame a b) : BcFrame b a := by
  obtain ⟨x, rfl⟩ := h.elim
  rfl

/-! ## Steps -/

theorem setUniverseTransform_both (io : NumIO K) (cosDeg : K → K) (t : Str) (degrees : Bool) {c c' : Cell K} (h : ImpFrame c c') :
    Both ImpFrame (setUniverseTransform io cosDeg c t degrees) (setUniverseTransform io cosDeg c' t degrees) := by
  obtain ⟨x, rfl⟩ := h.elim
  unfold setUniverseTransform
  split
  · exact .ok rfl
  · dsimp only
    split
    · split
      · exact (Both.same _).bind fun a b e => by subst e; exact .ok rfl
      · exact .ok rfl
    · exact .ok rfl
  · exact .ok rfl

theorem readKeywords_both (io : NumIO K) (cosDeg : K → K) (s : Str) (posu posf posi : Int) (degrees : Bool) (m : Int) {c c' : Cell K} (h : ImpFrame c c') :
    Both ImpFrame (readKeywords io cosDeg c s posu posf posi degrees m) (readKeywords io cosDeg c' s posu posf posi degrees m) := by
  obtain ⟨x, rfl⟩ := h.elim
  unfold readKeywords
  refine (Both.same _).bind fun u u' e => ?_
  subst e
  refine Both.bind (R := ImpFrame) ?_ fun c c' h => (Both.same _).bind fun a b e => ?_
  · split
    · exact .ok rfl
    · refine (Both.same _).bind fun f f' e => ?_
      subst e
      exact setUniverseTransform_both io cosDeg _ degrees rfl
  · subst e
    obtain ⟨x, rfl⟩ := h.elim
    exact .ok rfl

theorem detectKeywords_both (io : NumIO K) (cosDeg : K → K) (s : Str) {c c' : Cell K} (h : ImpFrame c c') :
    Both (fun a b => ImpFrame a.1 b.1 ∧ a.2 = b.2) (detectKeywords io cosDeg c s) (detectKeywords io cosDeg c' s) := by
  have key : ∀ (t : Str) (posu posf posi posv post : Int) (degrees : Bool), Both (fun a b => ImpFrame a.1 b.1 ∧ a.2 = b.2)
      (if posu = -1 ∧ posf = -1 ∧ posi = -1 ∧ posv = -1 ∧ post = -1 then .ok (c, t)
        else match ([posu, posf, posi, posv, post].filter fun i => 0 < i).min? with
          | none => .error .valueError
          | some m => do
            let c ← readKeywords io cosDeg c t posu posf posi degrees m
            .ok (c, sliceTo t m))
      (if posu = -1 ∧ posf = -1 ∧ posi = -1 ∧ posv = -1 ∧ post = -1 then .ok (c', t)
        else match ([posu, posf, posi, posv, post].filter fun i => 0 < i).min? with
          | none => .error .valueError
          | some m => do
            let c ← readKeywords io cosDeg c' t posu posf posi degrees m
            .ok (c, sliceTo t m)) := by
    intro t posu posf posi posv post degrees
    split
    · exact .ok ⟨h, rfl⟩
    · split
      · exact .err _
      · exact (readKeywords_both io cosDeg _ _ _ _ _ _ h).bind fun a b k => .ok ⟨k, rfl⟩
  unfold detectKeywords
  split
  · exact .ok ⟨h, rfl⟩
  · exact key _ _ _ _ _ _ _

theorem interpret_both (io : NumIO K) (cosDeg : K → K) (s : Str) {c c' : Cell K} (h : ImpFrame c c') : Both ImpFrame (interpret io cosDeg c s) (interpret io cosDeg c' s) := by
  unfold interpret
  refine (detectKeywords_both io cosDeg s h).bind fun a b k => ?_
  obtain ⟨a1, a2⟩ := a
  obtain ⟨b1, b2⟩ := b
  obtain ⟨k1, k2⟩ := k
  dsimp only at k1 k2 ⊢
  subst k2
  obtain ⟨x, rfl⟩ := k1.elim
  refine (Both.same _).bind fun t0 _ e => ?_
  subst e
  refine (Both.same _).bind fun id _ e => ?_
  subst e
  refine (Both.same _).bind fun t1 _ e => ?_
  subst e
  refine (Both.same _).bind fun m _ e => ?_
  subst e
  refine Both.bind (R := ImpFrame) ?_ fun c c' h => ?_
  · split
    · refine (Both.same _).bind fun t2 _ e => ?_
      subst e
      refine (Both.same _).bind fun d _ e => ?_
      subst e
      exact .ok rfl
    · exact .ok rfl
  · obtain ⟨x, rfl⟩ := h.elim
    refine (Both.same _).bind fun g _ e => ?_
    subst e
    exact .ok rfl

theorem flattenCell_both (io : NumIO K) (cosDeg : K → K) (id : Int) (inside outside : Str) (news : List (Surface K)) {c c' : Cell K} (h : ImpFrame c c') :
    Both ImpFrame (flattenCell io cosDeg id inside outside news c) (flattenCell io cosDeg id inside outside news c') := by
  obtain ⟨x, rfl⟩ := h.elim
  unfold flattenCell
  dsimp only
  split
  · exact .err _
  · exact .err _
  · exact interpret_both io cosDeg _ rfl

theorem flattenGo_both (io : NumIO K) (cosDeg sqrt : K → K) : ∀ (ss : List (Surface K)) (last : Int) {cells cells' : List (Cell K)}, List.Forall₂ ImpFrame cells cells' →
    Both (fun a b => List.Forall₂ ImpFrame a.1 b.1 ∧ a.2 = b.2) (flattenGo io cosDeg sqrt ss cells last) (flattenGo io cosDeg sqrt ss cells' last) := by
  intro ss
  induction ss with
  | nil => intro last cells cells' h; exact .ok ⟨h, rfl⟩
  | cons s ss ih =>
    intro last cells cells' h
    unfold flattenGo
    split
    · refine (Both.same _).bind fun e _ k => ?_
      subst k
      refine (Both.mapM (R := ImpFrame) (S := ImpFrame) (fun a b k => flattenCell_both io cosDeg _ _ _ _ k) h).bind fun l l' k => ?_
      refine (ih e.last k).bind fun a b k => ?_
      obtain ⟨a1, a2, a3⟩ := a
      obtain ⟨b1, b2, b3⟩ := b
      obtain ⟨k1, k2⟩ := k
      cases k2
      exact .ok ⟨k1, rfl⟩
    · exact ih last h

theorem flatten_both (io : NumIO K) (cosDeg sqrt : K → K) (ss : List (Surface K)) (last : Int) {cells cells' : List (Cell K)} (h : List.Forall₂ ImpFrame cells cells') :
    Both (fun a b => List.Forall₂ ImpFrame a.1 b.1 ∧ a.2 = b.2) (flatten io cosDeg sqrt cells ss last) (flatten io cosDeg sqrt cells' ss last) := by
  unfold flatten
  refine (flattenGo_both io cosDeg sqrt ss last h).bind fun a b k => ?_
  obtain ⟨a1, a2, a3⟩ := a
  obtain ⟨b1, b2, b3⟩ := b
  obtain ⟨k1, k2⟩ := k
  cases k2
  exact .ok ⟨k1, rfl⟩

theorem findCell_both (id : Str) {cells cells' : List (Cell K)} (h : List.Forall₂ ImpFrame cells cells') :
    (findCell cells id = none ∧ findCell cells' id = none) ∨ ∃ c c', findCell cells id = some c ∧ findCell cells' id = some c' ∧ ImpFrame c c' := by
  unfold findCell
  induction h with
  | nil => exact .inl ⟨rfl, rfl⟩
  | @cons c c' l l' h1 h2 ih =>
    obtain ⟨x, rfl⟩ := h1.elim
    rw [List.find?_cons, List.find?_cons]
    dsimp only
    cases decide (intStr c.id = id) with
    | true => exact .inr ⟨_, _, rfl, rfl, h1⟩
    | false => exact ih

theorem splitNots_both (is : List Item) {cells cells' : List (Cell K)} (h : List.Forall₂ ImpFrame cells cells') : splitNots cells is = splitNots cells' is := by
  unfold splitNots
  split
  · rfl
  · split
    · rfl
    · rename_i id _
      rcases findCell_both id h with ⟨h1, h2⟩ | ⟨c, c', h1, h2, h3⟩
      · rw [h1, h2]
      · obtain ⟨x, rfl⟩ := h3.elim
        rw [h1, h2]

/-- The same for loops that need not end. -/
def BothO {α β : Type} (R : α → β → Prop) (x : Option (Py α)) (y : Option (Py β)) : Prop := (x = none ∧ y = none) ∨ ∃ a b, x = some a ∧ y = some b ∧ Both R a b

theorem forall₂_set {α β : Type} {R : α → β → Prop} {l : List α} {l' : List β} (h : List.Forall₂ R l l') {a : α} {b : β} (hab : R a b) : ∀ i, List.Forall₂ R (l.set i a) (l'.set i b) := by
  induction h with
  | nil => intro i; exact .nil
  | cons h1 h2 ih =>
    intro i
    cases i with
    | zero => exact .cons hab h2
    | succ i => exact .cons h1 (ih i)

theorem explodeCell_both (i : Nat) : ∀ (fuel : Nat) {cells cells' : List (Cell K)}, List.Forall₂ ImpFrame cells cells' → BothO (List.Forall₂ ImpFrame) (explodeCell fuel cells i) (explodeCell fuel cells' i) := by
  intro fuel
  induction fuel with
  | zero => intro cells cells' h; exact .inl ⟨rfl, rfl⟩
  | succ fuel ih =>
    intro cells cells' h
    unfold explodeCell
    cases hc : cells[i]? with
    | none =>
      have : cells'[i]? = none := by
        rw [List.getElem?_eq_none_iff] at hc ⊢
        rwa [← h.length_eq]
      rw [this]
      exact .inr ⟨_, _, rfl, rfl, .err _⟩
    | some c =>
      obtain ⟨c', hc', k⟩ := forall₂_getElem? h hc
      rw [hc']
      obtain ⟨x, rfl⟩ := k.elim
      dsimp only
      split
      · rw [splitNots_both _ h]
        split
        · exact .inr ⟨_, _, rfl, rfl, .err _⟩
        · refine ih ?_
          exact forall₂_set h (ImpFrame.intro _ _) i
      · exact .inr ⟨_, _, rfl, rfl, .ok h⟩

theorem explodeFrom_both (fuel : Nat) : ∀ (n i : Nat) {cells cells' : List (Cell K)}, List.Forall₂ ImpFrame cells cells' → BothO (List.Forall₂ ImpFrame) (explodeFrom fuel n cells i) (explodeFrom fuel n cells' i) := by
  intro n
  induction n with
  | zero => intro i cells cells' h; exact .inr ⟨_, _, rfl, rfl, .ok h⟩
  | succ n ih =>
    intro i cells cells' h
    unfold explodeFrom
    rcases explodeCell_both i fuel h with ⟨h1, h2⟩ | ⟨a, b, h1, h2, h3⟩
    · rw [h1, h2]
      exact .inl ⟨rfl, rfl⟩
    · rw [h1, h2]
      cases h3 with
      | err e => exact .inr ⟨_, _, rfl, rfl, .err _⟩
      | ok h3 => exact ih _ h3

theorem universe_both (trs : List (Str × Transform K)) {cells cells' : List (Cell K)} (h : List.Forall₂ ImpFrame cells cells') :
    Both (List.Forall₂ ImpFrame) (applyUniverseTransformations trs cells) (applyUniverseTransformations trs cells') := by
  unfold applyUniverseTransformations
  refine Both.mapM (fun c c' k => ?_) h
  obtain ⟨x, rfl⟩ := k.elim
  dsimp only
  split
  · split
    · exact .ok rfl
    · exact .err _
  · exact .ok rfl

theorem materialDensity_both {cells cells' : List (Cell K)} (h : List.Forall₂ ImpFrame cells cells') : ∀ d : List (Int × List K), materialDensity d cells = materialDensity d cells' := by
  induction h with
  | nil => intro d; rfl
  | cons h1 h2 ih =>
    intro d
    obtain ⟨x, rfl⟩ := h1.elim
    unfold materialDensity
    dsimp only
    split
    · rfl
    · split
      · exact ih _
      · exact ih _

theorem copyMaterials_both (io : NumIO K) (mat : Int) : ∀ (ds : List K) (mats : List (Str × Material K)) {cells cells' : List (Cell K)}, List.Forall₂ ImpFrame cells cells' →
    Both (fun a b => a.1 = b.1 ∧ List.Forall₂ ImpFrame a.2 b.2) (copyMaterials io mat ds mats cells) (copyMaterials io mat ds mats cells') := by
  intro ds
  induction ds with
  | nil => intro mats cells cells' h; exact .ok ⟨rfl, h⟩
  | cons x ds ih =>
    intro mats cells cells' h
    unfold copyMaterials
    split
    · exact .err _
    · refine ih _ ?_
      rw [List.forall₂_map_left_iff, List.forall₂_map_right_iff]
      refine h.imp fun c c' k => ?_
      obtain ⟨y, rfl⟩ := k.elim
      dsimp only
      split <;> rfl

theorem assignDensities_both (io : NumIO K) : ∀ (l : List (Int × List K)) (mats : List (Str × Material K)) {cells cells' : List (Cell K)}, List.Forall₂ ImpFrame cells cells' →
    Both (fun a b => a.1 = b.1 ∧ List.Forall₂ ImpFrame a.2 b.2) (assignDensities io l mats cells) (assignDensities io l mats cells') := by
  intro l
  induction l with
  | nil => intro mats cells cells' h; exact .ok ⟨rfl, h⟩
  | cons x l ih =>
    intro mats cells cells' h
    obtain ⟨mat, ds⟩ := x
    unfold assignDensities
    split
    · exact .err _
    · refine (Both.same _).bind fun d0 _ e => ?_
      subst e
      refine (copyMaterials_both io mat _ _ h).bind fun a b k => ?_
      obtain ⟨a1, a2⟩ := a
      obtain ⟨b1, b2⟩ := b
      obtain ⟨k1, k2⟩ := k
      dsimp only at k1 k2 ⊢
      subst k1
      exact ih _ k2

theorem reorganise_both (io : NumIO K) (mats : List (Str × Material K)) {cells cells' : List (Cell K)} (h : List.Forall₂ ImpFrame cells cells') :
    Both (fun a b => a.1 = b.1 ∧ List.Forall₂ ImpFrame a.2 b.2) (reorganiseMaterials io mats cells) (reorganiseMaterials io mats cells') := by
  unfold reorganiseMaterials
  rw [materialDensity_both h]
  refine (Both.same _).bind fun md _ e => ?_
  subst e
  dsimp only
  split
  · exact .ok ⟨rfl, h⟩
  · refine (assignDensities_both io _ _ h).bind fun a b k => ?_
    obtain ⟨a1, a2⟩ := a
    obtain ⟨b1, b2⟩ := b
    obtain ⟨k1, k2⟩ := k
    dsimp only at k1 k2 ⊢
    subst k1
    refine (Both.same _).bind fun m _ e => ?_
    subst e
    exact .ok ⟨rfl, k2⟩

/-! ## Surfaces -/

theorem boundGo_same {l l' : List (Surface K)} (h : List.Forall₂ BcFrame l l') : ∀ acc : List K, boundGo acc l = boundGo acc l' := by
  induction h with
  | nil => intro _; rfl
  | cons h1 h2 ih =>
    intro acc
    obtain ⟨b, rfl⟩ := h1.elim
    unfold boundGo
    have : ∀ s : Surface K, boundSurface acc { s with bc := b } = boundSurface acc s := fun s => rfl
    rw [this]
    cases boundSurface acc _ with
    | error e => rfl
    | ok a => exact ih a

theorem updateSurface_both (box : List K) {s s' : Surface K} (h : BcFrame s s') : Both BcFrame (updateSurface box s) (updateSurface box s') := by
  obtain ⟨b, rfl⟩ := h.elim
  unfold updateSurface
  dsimp only
  split
  all_goals first
    | exact .ok rfl
    | (refine (Both.same _).bind fun lo _ e => ?_
       subst e
       refine (Both.same _).bind fun hi _ e => ?_
       subst e
       exact .ok rfl)

/-- Without the boundary. -/
private def bare (s : Surface K) : Surface K := { s with bc := .transmission }

private theorem bare_of {l l' : List (Surface K)} (h : List.Forall₂ BcFrame l l') : l.map bare = l'.map bare :=
  map_same (fun a b k => by obtain ⟨x, rfl⟩ := k.elim; rfl) h

private theorem diff_bare (a b : Surface K) : ((bare a).diff (bare b) true).1 = (a.diff b true).1 := by
  unfold Surface.diff bare
  dsimp only
  split
  · rfl
  · split
    · rfl
    · simp only [if_true]
      have : ∀ s : Surface K, ({ s with bc := .transmission } : Surface K).reverse.coeffs = s.reverse.coeffs := fun s => by
        unfold Surface.reverse
        rfl
      rw [this]
      split <;> rfl

private theorem duplicates_bare (gs : List (Surface K)) : duplicates (gs.map bare) = duplicates gs := by
  have h1 : typesOf (gs.map bare) = typesOf gs := by
    unfold typesOf
    rw [List.map_map]
    rfl
  have h2 : ∀ t, placesOf (gs.map bare) t = placesOf gs t := by
    intro t
    unfold placesOf
    rw [List.zipIdx_map, List.filter_map, List.map_map]
    rfl
  have h3 : ∀ j i, comparePlaces (gs.map bare) j i = comparePlaces gs j i := by
    intro j i
    unfold comparePlaces
    rw [List.getElem?_map, List.getElem?_map]
    cases gs[j]? <;> cases gs[i]? <;> try rfl
    simp only [Option.map_some, diff_bare]
  unfold duplicates duplicateEntries
  rw [h1]
  simp only [h2]
  congr 2
  funext t
  congr 1
  funext j
  congr 1
  funext i
  exact h3 j i

theorem generalise_both {s s' : Surface K} (h : BcFrame s s') : Both BcFrame s.generalise s'.generalise := by
  obtain ⟨b, rfl⟩ := h.elim
  unfold Surface.generalise
  split
  · exact .ok rfl
  · refine (Both.same _).bind fun cs _ e => ?_
    subst e
    exact .ok rfl

theorem renamings_same {l l' : List (Surface K)} (h : List.Forall₂ BcFrame l l') : ∀ d, renamings l d = renamings l' d := by
  intro d
  have hget : ∀ i, Both BcFrame (pyGet l i) (pyGet l' i) := by
    intro i
    unfold pyGet
    cases hi : l[i]? with
    | none =>
      have : l'[i]? = none := by
        rw [List.getElem?_eq_none_iff] at hi ⊢
        rwa [← h.length_eq]
      rw [this]
      exact .err _
    | some a =>
      obtain ⟨b, hb, k⟩ := forall₂_getElem? h hi
      rw [hb]
      exact .ok k
  induction d with
  | nil => rfl
  | cons e d ih =>
    obtain ⟨i, j, r⟩ := e
    unfold renamings
    refine Both.eq ?_
    refine (hget i).bind fun a b k => (hget j).bind fun a' b' k' => ?_
    rw [ih]
    obtain ⟨x, rfl⟩ := k.elim
    obtain ⟨x, rfl⟩ := k'.elim
    refine (Both.same _).bind fun r _ e => ?_
    subst e
    exact .ok rfl

theorem forall₂_filterIdx {α β : Type} {R : α → β → Prop} {l : List α} {l' : List β} (h : List.Forall₂ R l l') (p : Nat → Bool) :
    ∀ k, List.Forall₂ R (((l.zipIdx k).filter fun x => p x.2).map Prod.fst) (((l'.zipIdx k).filter fun x => p x.2).map Prod.fst) := by
  induction h with
  | nil => intro k; exact .nil
  | cons h1 h2 ih =>
    intro k
    rw [List.zipIdx_cons, List.zipIdx_cons, List.filter_cons, List.filter_cons]
    dsimp only
    split
    · exact .cons h1 (ih _)
    · exact ih _

theorem dedupe_both {cells cells' : List (Cell K)} {surfs surfs' : List (Surface K)} (hc : List.Forall₂ ImpFrame cells cells') (hs : List.Forall₂ BcFrame surfs surfs') :
    Both (fun a b => List.Forall₂ ImpFrame a.1 b.1 ∧ List.Forall₂ BcFrame a.2 b.2) (dedupe cells surfs) (dedupe cells' surfs') := by
  unfold dedupe
  refine (Both.mapM (fun a b => generalise_both) hs).bind fun gs gs' hg => ?_
  have e : duplicates gs' = duplicates gs := by rw [← duplicates_bare gs', ← bare_of hg, duplicates_bare]
  dsimp only
  rw [e, renamings_same hs]
  refine (Both.same _).bind fun rs _ e => ?_
  subst e
  refine (Both.mapM (S := ImpFrame) (fun c c' k => ?_) hc).bind fun l l' k => .ok ⟨k, ?_⟩
  · obtain ⟨x, rfl⟩ := k.elim
    refine (Both.same _).bind fun is _ e => ?_
    subst e
    exact .ok rfl
  · exact forall₂_filterIdx hs (fun i => decide (i ∉ List.map Prod.fst (duplicates gs))) 0

/-! ## Boundaries -/

/-- Boundaries that MCNP files do not show. -/
def Silent (s : Surface K) : Prop := s.bc = .transmission ∨ s.bc = .vacuum

theorem classify_bc {io : NumIO K} {t : Str} {s : Surface K} (h : classify io t = .ok s) : s.bc = .transmission := by
  unfold classify at h
  obtain ⟨f, -, h⟩ := bind_ok h
  exact classifyFields_bc f s h

theorem newCards_silent (io : NumIO K) : ∀ (ts : List Str) (last : Int) {l : List (Surface K)}, newCards io last ts = .ok l → ∀ s ∈ l, Silent s := by
  intro ts
  induction ts with
  | nil => intro last l h; cases h; simp
  | cons t ts ih =>
    intro last l h
    unfold newCards at h
    obtain ⟨s, h1, h⟩ := bind_ok h
    obtain ⟨r, h2, h⟩ := bind_ok h
    cases h
    intro x hx
    rcases List.mem_cons.1 hx with rfl | hx
    · exact .inl (classify_bc h1)
    · exact ih _ h2 x hx

theorem explodeMacrobody_silent (io : NumIO K) (sqrt : K → K) {last : Int} {s : Surface K} {e : Exploded K} (h : explodeMacrobody io sqrt last s = .ok e) : ∀ s ∈ e.surfs, Silent s := by
  unfold explodeMacrobody at h
  split at h
  · iterate 6 obtain ⟨_, -, h⟩ := bind_ok h
    obtain ⟨l, h1, h⟩ := bind_ok h
    cases h
    exact newCards_silent io _ _ h1
  · iterate 7 obtain ⟨_, -, h⟩ := bind_ok h
    dsimp only at h
    split at h
    · cases h
    · obtain ⟨l, h1, h⟩ := bind_ok h
      cases h
      exact newCards_silent io _ _ h1
  · iterate 12 obtain ⟨_, -, h⟩ := bind_ok h
    dsimp only at h
    split at h
    · cases h
    · obtain ⟨l, h1, h⟩ := bind_ok h
      cases h
      exact newCards_silent io _ _ h1
  · cases h
    simp

theorem flattenGo_silent (io : NumIO K) (cosDeg sqrt : K → K) : ∀ (ss : List (Surface K)) (last : Int) {cells cells' : List (Cell K)} {more : List (Surface K)} {last' : Int},
    flattenGo io cosDeg sqrt ss cells last = .ok (cells', more, last') → ∀ s ∈ more, Silent s := by
  intro ss
  induction ss with
  | nil => intro last cells cells' more last' h; cases h; simp
  | cons s ss ih =>
    intro last cells cells' more last' h
    unfold flattenGo at h
    split at h
    · obtain ⟨e, h1, h⟩ := bind_ok h
      obtain ⟨cs, -, h⟩ := bind_ok h
      obtain ⟨⟨c2, m2, l2⟩, h3, h⟩ := bind_ok h
      cases h
      intro x hx
      rcases List.mem_append.1 hx with hx | hx
      · split at hx
        · exact explodeMacrobody_silent io sqrt h1 x hx
        · obtain ⟨y, hy, rfl⟩ := List.mem_map.1 hx
          exact explodeMacrobody_silent io sqrt h1 y hy
      · exact ih _ h3 x hx
    · exact ih _ h

theorem flatten_silent {io : NumIO K} {cosDeg sqrt : K → K} {ss : List (Surface K)} (hs : ∀ s ∈ ss, Silent s) {last : Int} {cells cells' : List (Cell K)} {more : List (Surface K)} {last' : Int}
    (h : flatten io cosDeg sqrt cells ss last = .ok (cells', more, last')) : ∀ s ∈ more, Silent s := by
  unfold flatten at h
  obtain ⟨⟨c, m, l⟩, h1, h⟩ := bind_ok h
  cases h
  intro s hx
  rcases List.mem_append.1 (List.mem_filter.1 hx).1 with hx | hx
  · exact hs s hx
  · exact flattenGo_silent io cosDeg sqrt _ _ h1 s hx

theorem generalise_bc {s g : Surface K} (h : s.generalise = .ok g) : g.bc = s.bc := by
  unfold Surface.generalise at h
  split at h
  · cases h; rfl
  · obtain ⟨cs, -, h⟩ := bind_ok h
    cases h
    rfl

theorem simplify_bc {s g : Surface K} (h : s.simplify = .ok g) : g.bc = s.bc := by
  unfold Surface.simplify at h
  split at h
  · cases h; rfl
  · split at h
    · iterate 4 obtain ⟨_, -, h⟩ := bind_ok h
      cases h
      rfl
    · split at h
      · obtain ⟨_, -, h⟩ := bind_ok h
        cases h
        rfl
      · cases h; rfl

theorem move_silent {trs : List (Str × Transform K)} {ss ss' : List (Surface K)} (hs : ∀ s ∈ ss, Silent s) (h : applySurfaceTransformations trs ss = .ok ss') : ∀ s ∈ ss', Silent s := by
  unfold applySurfaceTransformations at h
  intro s' hs'
  obtain ⟨s, hs1, h1⟩ := forall₂_right (mapM_ok_iff.1 h) s' hs'
  have : s'.bc = s.bc := by
    unfold Surface.applyTransformCard at h1
    split at h1
    · cases h1; rfl
    · split at h1
      · cases h1; rfl
      · obtain ⟨g, hg, h1⟩ := bind_ok h1
        split at h1
        · obtain ⟨m, hm, h1⟩ := bind_ok h1
          rw [simplify_bc h1]
          unfold Surface.applyTransform at hm
          split at hm
          · cases hm; exact generalise_bc hg
          · obtain ⟨cs, -, hm⟩ := bind_ok hm
            cases hm
            exact (generalise_bc hg :)
        · cases h1; exact generalise_bc hg
  unfold Silent
  rw [this]
  exact hs s hs1

theorem vacuum_silent (cells : List (Cell K)) : ∀ {ss ss' : List (Surface K)}, (∀ s ∈ ss, Silent s) → vacuumGo cells ss = .ok ss' → ∀ s ∈ ss', Silent s := by
  have one : ∀ (n : Int) (ss : List (Surface K)) {ss' : List (Surface K)}, (∀ s ∈ ss, Silent s) → setVacuum n ss = .ok ss' → ∀ s ∈ ss', Silent s := by
    intro n ss
    induction ss with
    | nil => intro ss' _ h; cases h
    | cons s l ih =>
      intro ss' hs h
      unfold setVacuum at h
      split at h
      · cases h
        intro x hx
        rcases List.mem_cons.1 hx with rfl | hx
        · exact .inr rfl
        · exact hs x (List.mem_cons_of_mem _ hx)
      · obtain ⟨l1, h1, h⟩ := bind_ok h
        cases h
        intro x hx
        rcases List.mem_cons.1 hx with rfl | hx
        · exact hs _ (by simp)
        · exact ih (fun s k => hs s (List.mem_cons_of_mem _ k)) h1 x hx
  have many : ∀ (ns : List Int) {ss ss' : List (Surface K)}, (∀ s ∈ ss, Silent s) → setVacuums ns ss = .ok ss' → ∀ s ∈ ss', Silent s := by
    intro ns
    induction ns with
    | nil => intro ss ss' hs h; cases h; exact hs
    | cons n ns ih =>
      intro ss ss' hs h
      unfold setVacuums at h
      obtain ⟨l1, h1, h⟩ := bind_ok h
      exact ih (one n _ hs h1) h
  induction cells with
  | nil => intro ss ss' hs h; cases h; exact hs
  | cons c cs ih =>
    intro ss ss' hs h
    unfold vacuumGo at h
    obtain ⟨l1, h1, h⟩ := bind_ok h
    split at h1
    · exact ih (many _ hs h1) h
    · cases h1; exact ih hs h

/-! ## Whole decks -/

/-- The processed decks differ in importances and in boundaries. -/
theorem finish_both {fuel : Nat} {io : NumIO K} {cosDeg sqrt : K → K} {quick : Bool} {d1 d2 d1' d2' : Deck K} (hc : List.Forall₂ ImpFrame d1.cells d2.cells) (hs : d2.surfaces = d1.surfaces)
    (hl : d2.last = d1.last) (ht : d2.transforms = d1.transforms) (hm : d2.materials = d1.materials) (hb : ∀ s ∈ d1.surfaces, Silent s)
    (h1 : finishDeck fuel io cosDeg sqrt quick d1 = some (.ok d1')) (h2 : finishDeck fuel io cosDeg sqrt quick d2 = some (.ok d2')) :
    List.Forall₂ ImpFrame d1'.cells d2'.cells ∧ List.Forall₂ BcFrame d1'.surfaces d2'.surfaces ∧ d2'.materials = d1'.materials ∧ (∀ s ∈ d1'.surfaces, Silent s) ∧ ∀ s ∈ d2'.surfaces, Silent s := by
  obtain ⟨a1, a2, a3, a4, a5, s1, s2, s3, s4, r⟩ := finishDeck_run h1
  obtain ⟨b1, b2, b3, b4, b5, t1, t2, t3, t4, q⟩ := finishDeck_run h2
  have e1 := (flatten_both io cosDeg sqrt d1.surfaces d1.last hc).out r.flat (by rw [← hs, ← hl]; exact q.flat)
  obtain ⟨c1, e1⟩ := e1
  obtain ⟨e1, -⟩ := Prod.mk.inj e1
  dsimp only at e1 c1
  subst e1
  have c2 : List.Forall₂ ImpFrame a2 b2 := by
    have hn : a1.length = b1.length := c1.length_eq
    have k1 := r.nots
    have k2 := q.nots
    unfold explodeNots at k1 k2
    rw [← hn] at k2
    rcases explodeFrom_both fuel a1.length 0 c1 with ⟨k, -⟩ | ⟨x, y, x1, x2, x3⟩
    · rw [k] at k1; cases k1
    · rw [x1] at k1
      rw [x2] at k2
      exact x3.out (Option.some.inj k1) (Option.some.inj k2)
  have e2 : t2 = s2 := by
    have k1 := r.move
    have k2 := q.move
    rw [ht, k1] at k2
    exact (Except.ok.inj k2).symm
  subst e2
  have c3 := (universe_both d1.transforms c2).out r.fill (by rw [← ht]; exact q.fill)
  obtain ⟨e4, c4⟩ := (reorganise_both io d1.materials c3).out r.mats (by rw [← hm]; exact q.mats)
  have c5 : List.Forall₂ ImpFrame a5 b5 := by
    refine forall₂_trans (R := ImpFrame) (S := ImpFrame) (fun _ _ _ => ImpFrame.trans) ?_ (applyImportances_frame io q.imps)
    refine forall₂_trans (R := ImpFrame) (S := ImpFrame) (fun _ _ _ => ImpFrame.trans) ?_ c4
    exact (applyImportances_frame io r.imps).flip.imp fun _ _ => ImpFrame.symm
  have f3 : List.Forall₂ BcFrame s3 t3 :=
    forall₂_trans (R := BcFrame) (S := BcFrame) (fun _ _ _ => BcFrame.trans) ((vacuumGo_frame _ r.vac).flip.imp fun _ _ => BcFrame.symm) (vacuumGo_frame _ q.vac)
  have e5 : d1'.bounding = d2'.bounding := by
    have k1 := r.box
    have k2 := q.box
    unfold boundingCoordinates at k1 k2
    rw [boundGo_same f3, k2] at k1
    exact (Except.ok.inj k1).symm
  have f4 : List.Forall₂ BcFrame s4 t4 := (Both.mapM (R := BcFrame) (S := BcFrame) (f := updateSurface d1'.bounding) (g := updateSurface d1'.bounding) (fun _ _ k => updateSurface_both _ k) f3).out r.cones (by rw [e5]; exact q.cones)
  have g1 := flatten_silent hb r.flat
  have g2 := move_silent g1 r.move
  have up : ∀ {box : List K} {l l' : List (Surface K)}, (∀ s ∈ l, Silent s) → l.mapM (updateSurface box) = .ok l' → ∀ s ∈ l', Silent s := by
    intro box l l' hl h s' hs'
    obtain ⟨s, hs1, h1⟩ := forall₂_right (mapM_ok_iff.1 h) s' hs'
    rw [updateSurface_frame h1]
    exact hl s hs1
  have g4 := up (vacuum_silent _ g2 r.vac) r.cones
  have g4' := up (vacuum_silent _ g2 q.vac) q.cones
  have k1 := r.dups
  have k2 := q.dups
  cases quick with
  | true =>
    obtain ⟨p1, p2⟩ := Prod.mk.inj (Except.ok.inj k1)
    obtain ⟨p3, p4⟩ := Prod.mk.inj (Except.ok.inj k2)
    rw [← p1, ← p2, ← p3, ← p4]
    exact ⟨c5, f4, e4.symm, g4, g4'⟩
  | false =>
    obtain ⟨p1, p2⟩ := (dedupe_both c5 f4).out k1 k2
    have sub : ∀ {cs cs' : List (Cell K)} {l l' : List (Surface K)}, (∀ s ∈ l, Silent s) → dedupe cs l = .ok (cs', l') → ∀ s ∈ l', Silent s := by
      intro cs cs' l l' hl h s hs
      unfold dedupe at h
      obtain ⟨gs, -, h⟩ := bind_ok h
      obtain ⟨rs, -, h⟩ := bind_ok h
      obtain ⟨cs2, -, h⟩ := bind_ok h
      cases h
      obtain ⟨⟨x, i⟩, hx, rfl⟩ := List.mem_map.1 hs
      exact hl x (List.fst_mem_of_mem_zipIdx (List.mem_filter.1 hx).1)
    exact ⟨p1, p2, e4.symm, sub g4 k1, sub g4' k2⟩

end

end Csg
