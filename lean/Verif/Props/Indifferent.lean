import Verif.Lemmas.Indifferent
import Verif.Props.Blocks
import Verif.Lemmas.InputFile
import Verif.Spec.Indifferent

/-!
# C104: importances change nothing but importances and boundaries
-/

set_option linter.unusedSectionVars false

namespace Csg

open Spec

section
variable {H : Str → Str → Prop}

private theorem _root_.Csg.Spec.Differ.refl : ∀ s : Str, Differ H s s
  | [] => .nil
  | c :: s => .same c (Differ.refl s)

private theorem _root_.Csg.Spec.Differ.append {a b : Str} (h : Differ H a b) {s t : Str} (h' : Differ H s t) : Differ H (a ++ s) (b ++ t) := by
  induction h with
  | nil => exact h'
  | same c _ ih => exact .same c ih
  | place h _ ih =>
    rw [List.append_assoc, List.append_assoc]
    exact .place h ih

private theorem _root_.Csg.Spec.Differ.left (a : Str) {s t : Str} (h' : Differ H s t) : Differ H (a ++ s) (a ++ t) := (Differ.refl a).append h'

private theorem _root_.Csg.Spec.Differ.right {s t : Str} (h' : Differ H s t) (a : Str) : Differ H (s ++ a) (t ++ a) := h'.append (Differ.refl a)

private theorem _root_.Csg.Spec.Differ.one {x y : Str} (h : H x y) : Differ H x y := by
  have := Differ.place h (Differ.nil)
  simpa using this

private theorem _root_.Csg.Spec.Differ.flatten {l l' : List Str} (h : List.Forall₂ (Differ H) l l') : Differ H l.flatten l'.flatten := by
  induction h with
  | nil => exact .nil
  | cons h1 _ ih => exact h1.append ih

private theorem _root_.Csg.Spec.Differ.flatMap {α β : Type} {R : α → β → Prop} {f : α → Str} {g : β → Str} (hf : ∀ a b, R a b → Differ H (f a) (g b)) {l : List α} {l' : List β} (h : List.Forall₂ R l l') : Differ H (l.flatMap f) (l'.flatMap g) := by
  induction h with
  | nil => exact .nil
  | cons h1 _ ih => exact (hf _ _ h1).append ih

private theorem _root_.Csg.Spec.Differ.eq (hH : ∀ x y, ¬ H x y) {s t : Str} (h : Differ H s t) : s = t := by
  induction h with
  | nil => rfl
  | same c _ ih => rw [ih]
  | place h _ _ => exact absurd h (hH _ _)

end

section
variable {K : Type} [Field K] [LinearOrder K] [IsStrictOrderedRing K]

/-! ## Writers -/

private theorem returns_both {α β γ δ : Type} {R : γ → δ → Prop} {f : α → Py γ} {g : β → Py δ} {S : α → β → Prop} (hf : ∀ a b, S a b → Both R (f a) (g b)) {l : List α} {l' : List β} (h : List.Forall₂ S l l') {r : List γ} {r' : List δ}
    (h1 : l.mapM f = .ok r) (h2 : l'.mapM g = .ok r') : List.Forall₂ R r r' := (Both.mapM hf h).out h1 h2

private theorem cards_same {α : Type} {R : α → α → Prop} {f : α → Py (Option Str)} {l l' : List α} (h : List.Forall₂ R l l') (hf : ∀ a b, R a b → f a = f b) : cards f l = cards f l' := by
  unfold cards
  rw [mapM_same (fun a b k => by rw [hf a b k]) h]

private theorem cards'_same {α : Type} {R : α → α → Prop} {f : α → Py Str} {l l' : List α} (h : List.Forall₂ R l l') (hf : ∀ a b, R a b → f a = f b) : cards' f l = cards' f l' :=
  cards_same h (fun a b k => by rw [hf a b k])

private theorem all_same {α β : Type} {R : α → α → Prop} {m : Type → Type} [Monad m] [LawfulMonad m] {f : α → m β} {l l' : List α} (h : List.Forall₂ R l l') (hf : ∀ a b, R a b → f a = f b) : l.mapM f = l'.mapM f := by
  induction h with
  | nil => rfl
  | cons h _ ih => rw [List.mapM_cons, List.mapM_cons, ih, hf _ _ h]

private theorem cards_differ {α β : Type} {R : α → β → Prop} {H : Str → Str → Prop} {f : α → Py (Option Str)} {g : β → Py (Option Str)} (hf : ∀ a b x y, R a b → f a = .ok (some x) → g b = .ok (some y) → Differ H x y) {l : List α} {l' : List β}
    (h : List.Forall₂ R l l') {t t' : Str} (h1 : Returns (cards f l) t) (h2 : Returns (cards g l') t') : Differ H t t' := by
  obtain ⟨ts, k1, rfl⟩ := (returns_cards f l t).1 h1
  obtain ⟨ts', k2, rfl⟩ := (returns_cards g l' t').1 h2
  refine Differ.flatten ?_
  clear h1 h2
  induction h generalizing ts ts' with
  | nil =>
    cases k1
    cases k2
    exact .nil
  | cons h _ ih =>
    cases k1 with
    | cons k1 k1s =>
      cases k2 with
      | cons k2 k2s => exact .cons (hf _ _ _ _ h k1 k2) (ih _ k1s _ k2s)

variable {e : Env K} {cells cells' : List (Cell K)} {surfs surfs' : List (Surface K)}

/-- Surfaces that differ in boundaries which MCNP files do not show. -/
private def SurfaceAlike (s s' : Surface K) : Prop := BcFrame s s' ∧ Silent s ∧ Silent s'

private theorem mcnp_surface {fuel : Nat} {io : NumIO K} {s s' : Surface K} (h : SurfaceAlike s s') : writeMcnpSurface fuel io s = writeMcnpSurface fuel io s' := by
  obtain ⟨h1, h2, h3⟩ := h
  obtain ⟨b, rfl⟩ := h1.elim
  unfold writeMcnpSurface mcnpSurfaceLine
  have : mcnpBoundary s.bc = mcnpBoundary b := by
    rcases h2 with h2 | h2 <;> rcases h3 with h3 | h3
    all_goals (dsimp only at h3; rw [h2, h3])
    all_goals rfl
  dsimp only
  rw [this]

private theorem mcnp_differ (mats : List (Str × Material K)) (hc : List.Forall₂ ImpFrame cells cells') (hs : List.Forall₂ SurfaceAlike surfs surfs') {t t' : Str} (h1 : Returns (mcnpFile e cells surfs mats) t)
    (h2 : Returns (mcnpFile e cells' surfs' mats) t') : Differ (ImportancePlace e .mcnp) t t' := by
  unfold mcnpFile at h1 h2
  obtain ⟨cs, a1, h1⟩ := (returns_bind _ _ _).1 h1
  obtain ⟨ss, a2, h1⟩ := (returns_bind _ _ _).1 h1
  obtain ⟨ms, a3, h1⟩ := (returns_bind _ _ _).1 h1
  obtain ⟨cs', b1, h2⟩ := (returns_bind _ _ _).1 h2
  obtain ⟨ss', b2, h2⟩ := (returns_bind _ _ _).1 h2
  obtain ⟨ms', b3, h2⟩ := (returns_bind _ _ _).1 h2
  obtain rfl := (returns_pure _ _).1 h1
  obtain rfl := (returns_pure _ _).1 h2
  rw [← cards_same hs (fun _ _ k => mcnp_surface k)] at b2
  obtain rfl := returns_unique a2 b2
  obtain rfl := returns_unique a3 b3
  refine Differ.right (Differ.right (Differ.right (Differ.right (Differ.right (Differ.right (Differ.left _ ?_) _) _) _) _) _) _
  refine cards_differ (fun c c' x y k hx hy => ?_) hc a1 b1
  obtain ⟨i, rfl⟩ := k.elim
  unfold writeMcnpCell mcnpCellText at hx hy
  obtain ⟨s, hs, hx⟩ := bind_ok hx
  obtain ⟨s', hs', hy⟩ := bind_ok hy
  obtain ⟨f, hf, hs⟩ := bind_ok hs
  obtain ⟨f', hf', hs'⟩ := bind_ok hs'
  have : mcnpFillText e.io { c with importance := i } = mcnpFillText e.io c := rfl
  rw [this, hf] at hf'
  cases hf'
  cases hs
  cases hs'
  have split : ∀ a b u v w : Str, a ++ b ++ u ++ (if true = true then c!" IMP:N=" ++ v else []) ++ w = (a ++ b ++ u) ++ c!" IMP:N=" ++ v ++ w := by
    intro a b u v w
    rw [if_pos rfl]
    simp only [List.append_assoc]
  rw [split] at hx hy
  exact Differ.one ⟨_, c.importance, i, Except.ok.inj hx, Except.ok.inj hy⟩

private theorem phits_differ (mats : List (Str × Material K)) (hc : List.Forall₂ ImpFrame cells cells') (hs : List.Forall₂ SurfaceAlike surfs surfs') {t t' : Str} (h1 : Returns (phitsFile e cells surfs mats) t)
    (h2 : Returns (phitsFile e cells' surfs' mats) t') : Differ (ImportancePlace e .phits) t t' := by
  unfold phitsFile at h1 h2
  obtain ⟨ss, a1, h1⟩ := (returns_bind _ _ _).1 h1
  obtain ⟨cs, a2, h1⟩ := (returns_bind _ _ _).1 h1
  obtain ⟨ms, a3, h1⟩ := (returns_bind _ _ _).1 h1
  obtain ⟨ss', b1, h2⟩ := (returns_bind _ _ _).1 h2
  obtain ⟨cs', b2, h2⟩ := (returns_bind _ _ _).1 h2
  obtain ⟨ms', b3, h2⟩ := (returns_bind _ _ _).1 h2
  obtain rfl := (returns_pure _ _).1 h1
  obtain rfl := (returns_pure _ _).1 h2
  rw [← cards_same hs (fun _ _ k => mcnp_surface k)] at b1
  rw [← cards_same hc (fun c c' k => by obtain ⟨i, rfl⟩ := ImpFrame.elim k; rfl)] at b2
  obtain rfl := returns_unique a1 b1
  obtain rfl := returns_unique a2 b2
  obtain rfl := returns_unique a3 b3
  refine Differ.right (Differ.right (Differ.right (Differ.right (Differ.left _ ?_) _) _) _) _
  unfold phitsImportances
  refine Differ.left _ (Differ.flatMap (fun c c' k => ?_) hc)
  obtain ⟨i, rfl⟩ := ImpFrame.elim k
  exact Differ.one ⟨c.id, c.importance, i, rfl, rfl⟩

private theorem serpent_same (mats : List (Str × Material K)) (hc : List.Forall₂ ImpFrame cells cells') (hs : List.Forall₂ SurfaceAlike surfs surfs') : serpentFile e cells surfs mats = serpentFile e cells' surfs' mats := by
  unfold serpentFile
  rw [cards'_same hs (fun s s' k => by obtain ⟨i, rfl⟩ := BcFrame.elim k.1; rfl), cards_same hc (fun c c' k => by obtain ⟨i, rfl⟩ := ImpFrame.elim k; rfl)]

private theorem build_same (uni : Int) (hc : List.Forall₂ ImpFrame cells cells') : ∀ u : UniverseCard K, cells.foldlM (buildStep uni) u = cells'.foldlM (buildStep uni) u := by
  induction hc with
  | nil => intro u; rfl
  | cons h1 _ ih =>
    intro u
    obtain ⟨i, rfl⟩ := ImpFrame.elim h1
    rw [List.foldlM_cons, List.foldlM_cons]
    have : ∀ c : Cell K, buildStep uni u { c with importance := i } = buildStep uni u c := fun c => rfl
    rw [this]
    cases buildStep uni u _ with
    | error e => rfl
    | ok a => exact ih a

private theorem scone_same (mats : List (Str × Material K)) (unis : List (UniverseCard K)) (hc : List.Forall₂ ImpFrame cells cells') (hs : List.Forall₂ SurfaceAlike surfs surfs') :
    sconeFile e cells surfs mats unis = sconeFile e cells' surfs' mats unis := by
  have hu : ∀ order : List Int, createUniverses order unis cells = createUniverses order unis cells' := by
    intro order
    unfold createUniverses
    have : buildUniverse cells = buildUniverse cells' := by
      funext uni
      unfold buildUniverse
      exact build_same uni hc _
    rw [this]
  have hi : universeIds cells = universeIds cells' := by
    unfold universeIds
    rw [all_same hc (fun c c' k => by obtain ⟨i, rfl⟩ := ImpFrame.elim k; rfl)]
  unfold sconeFile
  rw [cards'_same hs (fun s s' k => by obtain ⟨i, rfl⟩ := BcFrame.elim k.1; rfl), cards_same hc (fun c c' k => by obtain ⟨i, rfl⟩ := ImpFrame.elim k; rfl), hi]
  simp only [hu]

/-! ### OpenMC -/

private theorem openmc_surface {io : NumIO K} {s s' : Surface K} (h : SurfaceAlike s s') {x x' : OpenmcSurface} (h1 : openmcSurface io s = .ok x) (h2 : openmcSurface io s' = .ok x') :
    x' = { x with boundary := x'.boundary } ∧ x.boundary ∈ [c!"vacuum", c!"transmission"] ∧ x'.boundary ∈ [c!"vacuum", c!"transmission"] := by
  obtain ⟨k1, k2, k3⟩ := h
  obtain ⟨b, rfl⟩ := k1.elim
  unfold openmcSurface at h1 h2
  obtain ⟨p, a1, h1⟩ := bind_ok h1
  obtain ⟨q, a2, h1⟩ := bind_ok h1
  obtain ⟨p', b1, h2⟩ := bind_ok h2
  obtain ⟨q', b2, h2⟩ := bind_ok h2
  have : openmcInfo io { s with bc := b } = openmcInfo io s := rfl
  rw [this, a1] at b1
  cases b1
  cases h1
  cases h2
  have word : ∀ {c : BC} {q : Str}, c = .transmission ∨ c = .vacuum → openmcBoundary c = .ok q → q ∈ [c!"vacuum", c!"transmission"] := by
    rintro c q (rfl | rfl) h
    all_goals cases h
    all_goals decide
  exact ⟨rfl, word k2 a2, word k3 b2⟩

/-- Elements that differ in boundaries. -/
private def NodeAlike (x y : Xml) : Prop := x = y ∨ ∃ (tag : Str) (attrs : List (Str × Str)) (tail : Str), ∃ a ∈ [c!"vacuum", c!"transmission"], ∃ b ∈ [c!"vacuum", c!"transmission"],
  x = .node tag (attrs ++ [(c!"boundary", a)]) [] [] tail ∧ y = .node tag (attrs ++ [(c!"boundary", b)]) [] [] tail

private theorem node_tail (i : Str) {x y : Xml} (h : NodeAlike x y) : NodeAlike (x.setTail i) (y.setTail i) := by
  rcases h with rfl | ⟨tag, attrs, tail, a, ha, b, hb, rfl, rfl⟩
  · exact .inl rfl
  · exact .inr ⟨tag, attrs, _, a, ha, b, hb, rfl, rfl⟩

private theorem node_last (i : Str) {l l' : List Xml} (h : List.Forall₂ NodeAlike l l') : List.Forall₂ NodeAlike (setLastTail i l) (setLastTail i l') := by
  induction h with
  | nil => exact .nil
  | @cons x y l l' h1 h2 ih =>
    cases h2 with
    | nil => exact .cons (node_tail i h1) .nil
    | cons h3 h4 => exact .cons h1 ih

private theorem node_indent (level : Nat) {x y : Xml} (h : NodeAlike x y) : NodeAlike (x.indent level) (y.indent level) := by
  rcases h with rfl | ⟨tag, attrs, tail, a, ha, b, hb, rfl, rfl⟩
  · exact .inl rfl
  · exact .inr ⟨tag, attrs, _, a, ha, b, hb, rfl, rfl⟩

private theorem node_all (level : Nat) {l l' : List Xml} (h : List.Forall₂ NodeAlike l l') : List.Forall₂ NodeAlike (Xml.indentAll level l) (Xml.indentAll level l') := by
  induction h with
  | nil => exact .nil
  | cons h1 _ ih =>
    unfold Xml.indentAll
    exact .cons (node_indent level h1) ih

private theorem node_write {x y : Xml} (h : NodeAlike x y) : Differ (ImportancePlace e .openmc) x.write y.write := by
  rcases h with rfl | ⟨tag, attrs, tail, a, ha, b, hb, rfl, rfl⟩
  · exact Differ.refl _
  · unfold Xml.write
    refine Differ.right (Differ.right ?_ _) _
    refine Differ.left _ ?_
    rw [List.flatMap_append, List.flatMap_append]
    refine Differ.left _ (Differ.one ⟨a, ha, b, hb, ?_, ?_⟩)
    · simp only [List.mem_cons, List.not_mem_nil, or_false] at ha
      rcases ha with rfl | rfl <;> decide
    · simp only [List.mem_cons, List.not_mem_nil, or_false] at hb
      rcases hb with rfl | rfl <;> decide

private theorem node_writeAll {l l' : List Xml} (h : List.Forall₂ NodeAlike l l') : Differ (ImportancePlace e .openmc) (Xml.writeAll l) (Xml.writeAll l') := by
  induction h with
  | nil => exact Differ.refl _
  | cons h1 _ ih =>
    unfold Xml.writeAll
    exact (node_write h1).append ih

private theorem node_inner {tag : Str} {attrs : List (Str × Str)} {text tail : Str} {l l' : List Xml} (h : List.Forall₂ NodeAlike l l') :
    Differ (ImportancePlace e .openmc) (Xml.node tag attrs text l tail).write (Xml.node tag attrs text l' tail).write := by
  have he : l.isEmpty = l'.isEmpty := by cases h <;> rfl
  unfold Xml.write
  rw [he]
  refine Differ.right (Differ.left _ ?_) _
  by_cases hp : text = [] ∧ l'.isEmpty = true
  · rw [if_pos hp, if_pos hp]
    exact Differ.refl _
  · rw [if_neg hp, if_neg hp]
    exact Differ.right (Differ.right (Differ.right (Differ.left _ (node_writeAll h)) _) _) _

private theorem geometry_differ {xs xs' : List OpenmcSurface} {cs : List OpenMCCellElem}
    (h : List.Forall₂ (fun x x' : OpenmcSurface => x' = { x with boundary := x'.boundary } ∧ x.boundary ∈ [c!"vacuum", c!"transmission"] ∧ x'.boundary ∈ [c!"vacuum", c!"transmission"]) xs xs') :
    Differ (ImportancePlace e .openmc) (geometryXml xs cs) (geometryXml xs' cs) := by
  unfold geometryXml
  have hl : List.Forall₂ NodeAlike (xs.map xmlSurface ++ cs.map xmlCell) (xs'.map xmlSurface ++ cs.map xmlCell) := by
    refine List.rel_append ?_ (List.forall₂_same.2 fun _ _ => .inl rfl)
    rw [List.forall₂_map_left_iff, List.forall₂_map_right_iff]
    refine h.imp fun x x' k => ?_
    obtain ⟨k1, k2, k3⟩ := k
    refine .inr ⟨c!"surface", [(c!"id", x.id), (c!"type", x.type), (c!"coeffs", x.coeffs)], [], x.boundary, k2, x'.boundary, k3, rfl, ?_⟩
    rw [k1]
    rfl
  generalize xs.map xmlSurface ++ cs.map xmlCell = l at hl ⊢
  generalize xs'.map xmlSurface ++ cs.map xmlCell = l' at hl ⊢
  have he : ∀ {l l' : List Xml}, List.Forall₂ NodeAlike l l' → l.isEmpty = l'.isEmpty := by
    intro l l' h
    cases h <;> rfl
  unfold Xml.fresh Xml.indent
  rw [he hl]
  split
  · rename_i h0
    rw [List.isEmpty_iff] at h0
    subst h0
    cases hl
    exact Differ.refl _
  · exact node_inner (node_last (indentOf 0) (node_all (0 + 1) hl))

private theorem openmc_differ (mats : List (Str × Material K)) (hc : List.Forall₂ ImpFrame cells cells') (hs : List.Forall₂ SurfaceAlike surfs surfs') {t t' : OutFile} (h1 : Returns (openmcFiles e cells surfs mats) t)
    (h2 : Returns (openmcFiles e cells' surfs' mats) t') : SameButImportances e .openmc t t' := by
  unfold openmcFiles at h1 h2
  obtain ⟨ss, a1, h1⟩ := (returns_bind _ _ _).1 h1
  obtain ⟨cs, a2, h1⟩ := (returns_bind _ _ _).1 h1
  obtain ⟨us, a3, h1⟩ := (returns_bind _ _ _).1 h1
  obtain ⟨ms, a4, h1⟩ := (returns_bind _ _ _).1 h1
  obtain ⟨ss', b1, h2⟩ := (returns_bind _ _ _).1 h2
  obtain ⟨cs', b2, h2⟩ := (returns_bind _ _ _).1 h2
  obtain ⟨us', b3, h2⟩ := (returns_bind _ _ _).1 h2
  obtain ⟨ms', b4, h2⟩ := (returns_bind _ _ _).1 h2
  obtain rfl := (returns_pure _ _).1 h1
  obtain rfl := (returns_pure _ _).1 h2
  rw [← all_same hc (fun c c' k => by obtain ⟨i, rfl⟩ := ImpFrame.elim k; rfl)] at b2
  obtain rfl := returns_unique a2 b2
  obtain rfl := returns_unique a3 b3
  obtain rfl := returns_unique a4 b4
  refine ⟨geometry_differ ?_, rfl⟩
  have k1 := mapM_ok_iff.1 ((returns_lift _ _).1 a1)
  have k2 := mapM_ok_iff.1 ((returns_lift _ _).1 b1)
  clear a1 b1 h1 h2 a2 b2 a3 a4 b3 b4
  clear * - hs k1 k2
  induction hs generalizing ss ss' with
  | nil => cases k1; cases k2; exact .nil
  | cons h _ ih =>
    cases k1 with
    | cons k1 k1s =>
      cases k2 with
      | cons k2 k2s => exact .cons (openmc_surface h k1 k2) (ih _ _ k1s k2s)

/-! ### FLUKA -/

/-- A text and a surface, as `flukaSurface` returns. -/
private def TextAlike (a b : Str × Surface K) : Prop := a.1 = b.1 ∧ SurfaceAlike a.2 b.2

private theorem fluka_cone {io : NumIO K} {sqrt : K → K} (s : Surface K) (b : BC) (h0 : SurfaceAlike s { s with bc := b }) : Both TextAlike (flukaCone io sqrt s) (flukaCone io sqrt { s with bc := b }) := by
  unfold flukaCone
  refine (Both.same _).bind fun sel _ q => ?_
  subst q
  refine (Both.same _).bind fun x _ q => ?_
  subst q
  refine (Both.same _).bind fun y _ q => ?_
  subst q
  refine (Both.same _).bind fun z _ q => ?_
  subst q
  refine (Both.same _).bind fun t _ q => ?_
  subst q
  split
  · refine (Both.same _).bind fun lo _ q => ?_
    subst q
    refine (Both.same _).bind fun hi _ q => ?_
    subst q
    refine (Both.same _).bind fun p _ q => ?_
    subst q
    obtain ⟨u, v⟩ := p
    dsimp only
    split
    · exact .err _
    · exact .ok ⟨rfl, h0⟩
  · refine Both.bind (R := fun a b => a = b) ?_ fun t _ q => ?_
    · exact .same _
    · subst q
      exact .ok ⟨rfl, rfl, h0.2.1, h0.2.2⟩

private theorem text_map (x : Py Str) {s s' : Surface K} (h : SurfaceAlike s s') : Both TextAlike (x.map (·, s)) (x.map (·, s')) := by
  cases x with
  | error x => exact .err _
  | ok t => exact .ok ⟨rfl, h⟩

private theorem text_bind {α : Type} (x : Py α) (f : α → Str) {s s' : Surface K} (h : SurfaceAlike s s') : Both TextAlike (x >>= fun v => .ok (f v, s)) (x >>= fun v => .ok (f v, s')) := by
  cases x with
  | error x => exact .err _
  | ok t => exact .ok ⟨rfl, h⟩

private theorem text_ok (x : Str) {s s' : Surface K} (h : SurfaceAlike s s') : Both TextAlike (.ok (x, s)) (.ok (x, s')) := .ok ⟨rfl, h⟩

private theorem fluka_surface {io : NumIO K} {sqrt : K → K} {s s' : Surface K} (h : SurfaceAlike s s') : Both TextAlike (flukaSurface io sqrt s) (flukaSurface io sqrt s') := by
  have hb := h.1.elim
  obtain ⟨b, rfl⟩ := hb
  obtain ⟨ty, id, tr, co, bc, bb⟩ := s
  cases ty
  case planeGeneral => exact text_map _ h
  case planeX => exact text_bind _ _ h
  case planeY => exact text_bind _ _ h
  case planeZ => exact text_bind _ _ h
  case cylinderX => exact text_bind _ _ h
  case cylinderY => exact text_bind _ _ h
  case cylinderZ => exact text_bind _ _ h
  case sphereGeneral => exact text_bind _ _ h
  case generalQuadratic => exact text_map _ h
  case coneX => exact fluka_cone _ _ h
  case coneY => exact fluka_cone _ _ h
  case coneZ => exact fluka_cone _ _ h
  all_goals exact text_ok _ h

private theorem fluka_differ (mats : List (Str × Material K)) (hc : List.Forall₂ ImpFrame cells cells') (hs : List.Forall₂ SurfaceAlike surfs surfs') {r r' : Str × List (Surface K) × List (Str × Material K)}
    (h1 : Returns (flukaFile e cells surfs mats) r) (h2 : Returns (flukaFile e cells' surfs' mats) r') : Differ (ImportancePlace e .fluka) r.1 r'.1 ∧ List.Forall₂ SurfaceAlike r.2.1 r'.2.1 ∧ r'.2.2 = r.2.2 := by
  unfold flukaFile at h1 h2
  obtain ⟨ss, a1, h1⟩ := (returns_bind _ _ _).1 h1
  obtain ⟨cs, a2, h1⟩ := (returns_bind _ _ _).1 h1
  obtain ⟨⟨mt, ms⟩, a3, h1⟩ := (returns_bind _ _ _).1 h1
  obtain ⟨ss', b1, h2⟩ := (returns_bind _ _ _).1 h2
  obtain ⟨cs', b2, h2⟩ := (returns_bind _ _ _).1 h2
  obtain ⟨⟨mt', ms'⟩, b3, h2⟩ := (returns_bind _ _ _).1 h2
  obtain rfl := (returns_pure _ _).1 h1
  obtain rfl := (returns_pure _ _).1 h2
  rw [← cards'_same hc (fun c c' k => by obtain ⟨i, rfl⟩ := ImpFrame.elim k; rfl)] at b2
  obtain rfl := returns_unique a2 b2
  obtain ⟨rfl, rfl⟩ := Prod.mk.inj (returns_unique a3 b3)
  have k := returns_both (fun _ _ k => fluka_surface k) hs ((returns_lift _ _).1 a1) ((returns_lift _ _).1 b1)
  have k1 : ss.map Prod.fst = ss'.map Prod.fst := map_same (fun _ _ k => k.1) k
  refine ⟨?_, ?_, rfl⟩
  · dsimp only
    rw [k1]
    refine Differ.right (Differ.right (Differ.right (Differ.append (Differ.right (Differ.left _ ?_) _) ?_) _) _) _
    · unfold flukaImportances
      refine Differ.flatMap (fun c c' k => ?_) hc
      obtain ⟨i, rfl⟩ := ImpFrame.elim k
      refine Differ.one (.inl ⟨c.id, flukaBias (flukaScale cells) c, flukaBias (flukaScale cells') { c with importance := i }, ?_, ?_⟩)
      all_goals simp only [show ljust 10 c!"BIASING" = c!"BIASING   " by decide, show rjust 10 c!"3.0" = c!"       3.0" by decide, show rjust 10 c!"1.0" = c!"       1.0" by decide,
        show rjust 10 [] = c!"          " by decide, show rjust 10 c!"PRINT" = c!"     PRINT" by decide]
    · unfold writeAssignmats
      refine Differ.left _ (Differ.flatMap (fun c c' k => ?_) hc)
      obtain ⟨i, rfl⟩ := ImpFrame.elim k
      unfold assignLine flukaMat
      dsimp only
      split
      · exact Differ.refl _
      · have w : ∀ p : Prop, ∀ [Decidable p], (if p then c!"BLCKHOLE" else c!"VACUUM") ∈ [c!"BLCKHOLE", c!"VACUUM"] := by
          intro p _
          split <;> decide
        exact Differ.one (.inr ⟨c.id, _, w _, _, w _, rfl, rfl⟩)
  · dsimp only
    rw [List.forall₂_map_left_iff, List.forall₂_map_right_iff]
    exact k.imp fun _ _ k => k.2

/-! ## Runs -/

private theorem block_made {α : Type} {clean : Str → Str} {parse : Str → Py α} {ls rest : List Str} {cs : List α} (h : block clean parse ls = .ok (cs, rest)) : ∀ c ∈ cs, ∃ t, parse t = .ok c := by
  obtain ⟨_, _, _, -, -, -, -, h⟩ := (C38_block clean parse ls cs rest).1 h
  intro c hc
  obtain ⟨t, -, ht⟩ := forall₂_right (mapM_ok_iff.1 h) c hc
  exact ⟨t, ht⟩

private theorem forall₂_members {α β : Type} {R : α → β → Prop} {P : α → Prop} {Q : β → Prop} {l : List α} {l' : List β} (h : List.Forall₂ R l l') (hp : ∀ a ∈ l, P a) (hq : ∀ b ∈ l', Q b) :
    List.Forall₂ (fun a b => R a b ∧ P a ∧ Q b) l l' := by
  induction h with
  | nil => exact .nil
  | cons h _ ih => exact .cons ⟨h, hp _ (by simp), hq _ (by simp)⟩ (ih (fun a ha => hp a (by simp [ha])) fun b hb => hq b (by simp [hb]))

private theorem code_differ (c : Code) {s s' : Shared K} (hc : List.Forall₂ ImpFrame s.cells s'.cells) (hs : List.Forall₂ SurfaceAlike s.surfaces s'.surfaces) (hm : s'.materials = s.materials) (hu : s'.universes = s.universes)
    {r r' : OutFile × Shared K} (h1 : Returns (writeCode e c s) r) (h2 : Returns (writeCode e c s') r') : SameButImportances e c r.1 r'.1 ∧
      List.Forall₂ ImpFrame r.2.cells r'.2.cells ∧ List.Forall₂ SurfaceAlike r.2.surfaces r'.2.surfaces ∧ r'.2.materials = r.2.materials ∧ r'.2.universes = r.2.universes := by
  unfold writeCode at h1 h2
  cases c
  all_goals dsimp only at h1 h2
  all_goals obtain ⟨t, a1, h1⟩ := (returns_bind _ _ _).1 h1
  all_goals obtain ⟨t', b1, h2⟩ := (returns_bind _ _ _).1 h2
  all_goals obtain rfl := (returns_pure _ _).1 h1
  all_goals obtain rfl := (returns_pure _ _).1 h2
  all_goals rw [hm] at b1
  · exact ⟨mcnp_differ _ hc hs a1 b1, hc, hs, hm, hu⟩
  · rw [← serpent_same _ hc hs] at b1
    obtain rfl := returns_unique a1 b1
    exact ⟨Differ.refl _, hc, hs, hm, hu⟩
  · exact ⟨openmc_differ _ hc hs a1 b1, hc, hs, hm, hu⟩
  · exact ⟨phits_differ _ hc hs a1 b1, hc, hs, hm, hu⟩
  · obtain ⟨k1, k2, k3⟩ := fluka_differ _ hc hs a1 b1
    exact ⟨k1, hc, k2, k3, hu⟩
  · rw [hu, ← scone_same _ _ hc hs] at b1
    obtain rfl := returns_unique a1 b1
    exact ⟨Differ.refl _, hc, hs, hm, rfl⟩

private theorem codes_differ (cs : List Code) : ∀ {s s' : Shared K}, List.Forall₂ ImpFrame s.cells s'.cells → List.Forall₂ SurfaceAlike s.surfaces s'.surfaces → s'.materials = s.materials → s'.universes = s.universes →
    ∀ {fs fs' : List (Code × OutFile)}, Returns (writeCodes e cs s) fs → Returns (writeCodes e cs s') fs' → List.Forall₂ (fun a b => a.1 = b.1 ∧ SameButImportances e a.1 a.2 b.2) fs fs' := by
  induction cs with
  | nil =>
    intro s s' _ _ _ _ fs fs' h1 h2
    unfold writeCodes at h1 h2
    obtain rfl := (returns_pure _ _).1 h1
    obtain rfl := (returns_pure _ _).1 h2
    exact .nil
  | cons c cs ih =>
    intro s s' hc hs hm hu fs fs' h1 h2
    obtain ⟨t, r, ts, a1, a2, rfl⟩ := writeCodes_cons.1 h1
    obtain ⟨t', r', ts', b1, b2, rfl⟩ := writeCodes_cons.1 h2
    obtain ⟨k1, k2, k3, k4, k5⟩ := code_differ c hc hs hm hu a1 b1
    exact .cons ⟨rfl, k1⟩ (ih k2 k3 k4 k5 a2 b2)

/-- **C104**. Two texts that are read as decks which differ only in importances: if both runs finish, with the same options, they write files for the same codes in the same order, and each two files differ only in the places that show importances and
boundaries; for Serpent and SCONE they are equal. -/
theorem C104_run (e : Env K) (cosDeg : K → K) (quick : Bool) (output : Option (List Str)) (text text' : Str) (d d' : Deck K) (hr : readDeck e.io cosDeg (readText text) = .ok d)
    (hr' : readDeck e.io cosDeg (readText text') = .ok d') (ho : OtherImportances d d') (files files' : List (Code × OutFile)) (h : Returns (convert e cosDeg quick output text) files)
    (h' : Returns (convert e cosDeg quick output text') files') : List.Forall₂ (fun a b => a.1 = b.1 ∧ SameButImportances e a.1 a.2 b.2 ∧ (a.1 = .serpent ∨ a.1 = .scone → b.2 = a.2)) files files' := by
  have fin : ∀ {t : Str} {d : Deck K} {fs : List (Code × OutFile)}, readDeck e.io cosDeg (readText t) = .ok d → Returns (convert e cosDeg quick output t) fs →
      ∃ p, finishDeck e.fuel e.io cosDeg e.sqrt quick d = some (.ok p) ∧ Returns (mainWrite e output p) fs := by
    intro t d fs hr h
    unfold convert at h
    obtain ⟨p, h1, h2⟩ := (returns_bind _ _ _).1 h
    refine ⟨p, ?_, h2⟩
    rw [returns_mk] at h1
    unfold processDeck at h1
    rw [hr] at h1
    dsimp only at h1
    split at h1
    · cases h1
    · rename_i r hr
      rw [hr]
      cases r with
      | error x => cases h1
      | ok q => cases h1; rfl
  obtain ⟨p, f1, f2⟩ := fin hr h
  obtain ⟨p', f1', f2'⟩ := fin hr' h'
  have er := ho.rest
  have silent : ∀ s ∈ d.surfaces, Silent s := by
    unfold readDeck at hr
    obtain ⟨⟨title, l1⟩, -, hr⟩ := bind_ok hr
    obtain ⟨l2, -, hr⟩ := bind_ok hr
    obtain ⟨⟨cs, l3⟩, -, hr⟩ := bind_ok hr
    obtain ⟨⟨ss, l4⟩, h5, hr⟩ := bind_ok hr
    obtain ⟨_, -, hr⟩ := bind_ok hr
    obtain ⟨_, -, hr⟩ := bind_ok hr
    obtain ⟨_, -, hr⟩ := bind_ok hr
    cases hr
    intro s hs
    obtain ⟨t, ht⟩ := block_made h5 s hs
    exact .inl (classify_bc ht)
  obtain ⟨k1, k2, k3, k4, k5⟩ := finish_both ho.cells (by rw [er]) (by rw [er]) (by rw [er]) (by rw [er]) silent f1 f1'
  unfold mainWrite at f2 f2'
  have k2' : List.Forall₂ SurfaceAlike p.surfaces p'.surfaces := (forall₂_members k2 k4 k5).imp fun _ _ k => k
  refine (codes_differ (selectCodes output) (s := ⟨_, _, _, _⟩) (s' := ⟨_, _, _, _⟩) k1 k2' k3 rfl f2 f2').imp fun a b k => ⟨k.1, k.2, fun hcode => ?_⟩
  obtain ⟨c, x⟩ := a
  obtain ⟨c', y⟩ := b
  dsimp only at k hcode ⊢
  cases x <;> cases y
  · rw [Differ.eq (fun x y => ?_) k.2]
    rcases hcode with rfl | rfl <;> exact id
  · exact k.2.elim
  · exact k.2.elim
  · obtain ⟨k1, k2⟩ := k.2
    rw [k2, Differ.eq (fun x y => ?_) k1]
    rcases hcode with rfl | rfl <;> exact id

/-! ## Texts -/

private theorem blockGo_conts {α : Type} {clean : Str → Str} {parse : Str → Py α} (ls : List Str) : ∀ (conts : List Str) (card : Str), (∀ l ∈ conts, continues (clean l) = true ∧ ¬ isspace (clean l) = true) →
    blockGo clean parse card (conts ++ ls) = blockGo clean parse (card ++ conts.flatMap clean) ls
  | [], card, _ => by simp
  | l :: conts, card, h => by
    rw [List.cons_append, blockGo, if_pos (h l (by simp)), blockGo_conts ls conts _ fun l hl => h l (by simp [hl]), List.flatMap_cons, List.append_assoc]

private theorem card_lines {g : List Str} (h : CardOf g) : ∃ first more, g = first :: more ∧ continues (codeOf first) = false ∧ isspace (codeOf first) = false ∧
    ∀ l ∈ more, continues (codeOf l) = true ∧ ¬ isspace (codeOf l) = true := by
  obtain ⟨first, more, rfl, hf, hm, hc⟩ := h
  have nb : ∀ l ∈ first :: more, ¬ isspace (codeOf l) = true := by
    intro l hl hbl
    obtain ⟨ch, hch, hs⟩ := hc l hl
    rw [(isspace_iff.1 hbl).2 ch hch] at hs
    cases hs
  refine ⟨first, more, rfl, ?_, by simpa using nb first (by simp), fun l hl => ⟨?_, nb l (by simp [hl])⟩⟩
  · by_contra hh
    rw [Bool.not_eq_false] at hh
    obtain ⟨t, e⟩ := continues_iff.1 hh
    apply hf
    refine ⟨t ++ first.dropWhile (· ≠ '$'), ?_⟩
    rw [← List.append_assoc, ← e]
    exact (List.takeWhile_append_dropWhile).symm
  · obtain ⟨t, rfl⟩ := hm l hl
    exact continues_iff.2 ⟨codeOf t, by simp [codeOf]⟩

/-- A block is read card by card, with the failure of the first card that cannot be read. -/
private theorem block_eq {α : Type} {parse : Str → Py α} {blank : Str} (hb : BlankLine blank) (rest : List Str) (gs : List (List Str)) (h : ∀ g ∈ gs, CardOf g) :
    block removeInlineComment parse (gs.flatten ++ blank :: rest) = (gs.map cardText).mapM parse >>= fun ys => .ok (ys, rest) := by
  have hblank : isspace (removeInlineComment blank) = true := by
    rw [removeInline_code, codeOf_plain fun hd => absurd (hb.2 _ hd) (by decide)]
    exact isspace_iff.2 hb
  have key : ∀ (gs : List (List Str)), (∀ g ∈ gs, CardOf g) → ∀ card, blockGo removeInlineComment parse card (gs.flatten ++ blank :: rest) = (card :: gs.map cardText).mapM parse >>= fun ys => .ok (ys, rest) := by
    intro gs
    induction gs with
    | nil =>
      intro _ card
      rw [List.flatten_nil, List.nil_append, blockGo, if_neg (by simp [hblank])]
      simp only [List.map_nil, List.mapM_cons, List.mapM_nil, hblank, if_true]
      cases parse card <;> rfl
    | cons g gs ih =>
      intro hg card
      obtain ⟨first, more, rfl, h1, h2, h3⟩ := card_lines (hg g (by simp))
      rw [List.flatten_cons, List.cons_append, List.cons_append, blockGo, removeInline_code, if_neg (by simp [h1]), List.append_assoc,
        blockGo_conts _ more _ (by simpa only [removeInline_code] using h3), ih (fun g hg' => hg g (by simp [hg']))]
      have : codeOf first ++ more.flatMap removeInlineComment = cardText (first :: more) := by
        unfold cardText
        rw [List.flatMap_cons, show removeInlineComment = codeOf from funext removeInline_code]
      rw [this]
      simp only [h2, Bool.false_eq_true, if_false, List.map_cons]
      rw [List.mapM_cons (a := card)]
      cases parse card with
      | error x => rfl
      | ok c =>
        show ((cardText (first :: more) :: gs.map cardText).mapM parse >>= fun ys => Except.ok (ys, rest)) >>= (fun r => Except.ok (c :: r.1, r.2)) = _
        cases (cardText (first :: more) :: gs.map cardText).mapM parse <;> rfl
  cases gs with
  | nil =>
    rw [List.flatten_nil, List.nil_append, block, if_pos hblank]
    rfl
  | cons g gs =>
    obtain ⟨first, more, rfl, h1, h2, h3⟩ := card_lines (h g (by simp))
    rw [List.flatten_cons, List.cons_append, List.cons_append, block, removeInline_code, if_neg (by simp [h2]), List.append_assoc, blockGo_conts _ more _ (by simpa only [removeInline_code] using h3),
      key gs (fun g hg' => h g (by simp [hg']))]
    have : codeOf first ++ more.flatMap removeInlineComment = cardText (first :: more) := by
      unfold cardText
      rw [List.flatMap_cons, show removeInlineComment = codeOf from funext removeInline_code]
    rw [this]
    rfl

private theorem option_eq {α : Type} {a b : Option α} (h : ∀ v, a = some v ↔ b = some v) : a = b := by
  cases a with
  | none =>
    cases b with
    | none => rfl
    | some v => exact absurd ((h v).2 rfl) (by simp)
  | some v => exact ((h v).1 rfl).symm

/-- Cells with the same parameters except importances differ in the importance. -/
private theorem carries_alike {io : NumIO K} {cosDeg : K → K} {ps ps' : List Param} {c c' : Cell K} (h : Carries io cosDeg ps c) (h' : Carries io cosDeg ps' c') (hp : ∀ p : Param, p.kind ≠ 2 → (p ∈ ps ↔ p ∈ ps'))
    (hf : ∀ d v t, .fill d v (some t) ∈ ps → (split t).length = 1 ∨ 3 ≤ (split t).length) : c'.uni = c.uni ∧ c'.fill = c.fill ∧ c'.offset = c.offset ∧ c'.rotation = c.rotation ∧ c'.trId = c.trId := by
  refine ⟨option_eq fun v => ?_, option_eq fun v => ?_, ?_⟩
  · rw [h.uni, h'.uni]
    exact (hp _ (by simp [Param.kind])).symm
  · rw [h.fill, h'.fill]
    exact ⟨fun ⟨d, t, k⟩ => ⟨d, t, (hp _ (by simp [Param.kind])).2 k⟩, fun ⟨d, t, k⟩ => ⟨d, t, (hp _ (by simp [Param.kind])).1 k⟩⟩
  · by_cases hex : ∃ d v t, .fill d v (some t) ∈ ps
    · obtain ⟨d, v, t, k⟩ := hex
      have k' := (hp _ (by simp [Param.kind])).1 k
      rcases hf d v t k with h1 | h3
      · obtain ⟨w, hw⟩ := List.length_eq_one_iff.1 h1
        obtain ⟨a1, a2, a3⟩ := h.card _ _ _ _ k hw
        obtain ⟨b1, b2, b3⟩ := h'.card _ _ _ _ k' hw
        exact ⟨by rw [a2, b2], by rw [a3, b3], by rw [a1, b1]⟩
      · obtain ⟨x, y, z, rest, hw⟩ : ∃ x y z rest, split t = x :: y :: z :: rest := by
          match hs : split t, h3 with
          | x :: y :: z :: rest, _ => exact ⟨x, y, z, rest, rfl⟩
        obtain ⟨a1, a2, a3, a4, a5⟩ := h.shift _ _ _ _ _ _ _ k hw
        obtain ⟨b1, b2, b3, b4, b5⟩ := h'.shift _ _ _ _ _ _ _ k' hw
        refine ⟨by rw [a2, b2], ?_, by rw [a1, b1]⟩
        by_cases h9 : rest.length < 9
        · rw [a3 h9, b3 h9]
        · rw [not_lt] at h9
          cases d with
          | false => rw [a4 rfl h9, b4 rfl h9]
          | true =>
            obtain ⟨xs, e1, e2⟩ := a5 rfl h9
            obtain ⟨ys, f1, f2⟩ := b5 rfl h9
            rw [e1] at f1
            cases f1
            rw [e2, f2]
    · obtain ⟨a1, a2, a3⟩ := h.noTransform fun d v t k => hex ⟨d, v, t, k⟩
      obtain ⟨b1, b2, b3⟩ := h'.noTransform fun d v t k => hex ⟨d, v, t, (hp _ (by simp [Param.kind])).2 k⟩
      exact ⟨by rw [a2, b2], by rw [a3, b3], by rw [a1, b1]⟩

private theorem card_alike {io : NumIO K} {cosDeg : K → K} {t t' : Str} (h : CardAlike io t t') {c c' : Cell K} (h1 : readCell io cosDeg t = .ok c) (h2 : readCell io cosDeg t' = .ok c') : ImpFrame c c' := by
  rcases h with rfl | ⟨pre, l, l', rfl, rfl, hne, hpre, hl, hl', hp, hi, hf⟩
  · rw [h1] at h2
    cases h2
    rfl
  · obtain ⟨u, f, x, off, rot, tid, k1, k2⟩ := readCell_params io cosDeg hne hpre hl (fun v hv => hi v (by simp only [List.mem_append]; exact .inl hv)) fun v t hv => (hf _ _ _ hv).2 rfl
    obtain ⟨u', f', x', off', rot', tid', k1', k2'⟩ := readCell_params io cosDeg hne hpre hl' (fun v hv => hi v (by simp only [List.mem_append]; exact .inr hv)) fun v t hv => (hf _ _ _ ((hp _ (by simp [Param.kind])).2 hv)).2 rfl
    obtain ⟨e1, e2, e3, e4, e5⟩ := carries_alike k1 k1' hp fun d v t hv => (hf d v t hv).1
    dsimp only at e1 e2 e3 e4 e5
    subst e1 e2 e3 e4 e5
    rw [k2] at h1
    rw [k2'] at h2
    cases hc : readCell io cosDeg pre with
    | error a =>
      rw [hc] at h1
      cases h1
    | ok c0 =>
      rw [hc] at h1 h2
      cases h1
      cases h2
      rfl

private theorem edited_decks {io : NumIO K} {cosDeg : K → K} {text text' : Str} (h : ImportancesEdited io text text') {d d' : Deck K} (h1 : readDeck io cosDeg (readText text) = .ok d)
    (h2 : readDeck io cosDeg (readText text') = .ok d') : OtherImportances d d' := by
  obtain ⟨title, body, body', cells, cells', blank, rest, ht, ht', hlines, hmsg, hb, hbody, hbody', hcards, halike⟩ := h
  have hok : ∀ {α β : Type} (a : α) (k : α → Py β), ((.ok a : Py α) >>= k) = k a := fun _ _ => rfl
  have htitle : ∀ body, setTitle (title :: body) = .ok (title, body) := by
    intro body
    unfold setTitle
    simp only [pyGet, List.getElem?_cons_zero, hok]
    rw [if_neg]
    · rfl
    · intro hi
      obtain ⟨a, b, e⟩ := (hasInfix_iff _ _).1 hi
      exact hmsg a b e
  have hread : ∀ {text : Str} {body : List Str} {cells : List (List Str)} {d : Deck K}, text.map Char.toLower = (title :: body).flatten → (∀ l ∈ title :: body, ∃ t, '\n' ∉ t ∧ l = t ++ c!"\n") →
      body.filter (fun l => l.head? ≠ some 'c') = cells.flatten ++ blank :: rest → (∀ g ∈ cells, CardOf g) → readDeck io cosDeg (readText text) = .ok d →
      ∃ cs, (cells.map cardText).mapM (readCell io cosDeg) = .ok cs ∧ (do
        let (surfs, lines) ← block stripDollar (classify io) rest
        let imps ← getImportances lines
        let trs ← getTransformCards io cosDeg [] lines
        let mats ← getMaterialCards io [] lines
        .ok { title := title, cells := cs, surfaces := surfs, last := surfs.foldl (fun m s => if m < s.id then s.id else m) 0, importances := imps, transforms := trs, materials := mats, bounding := [0, 0, 0, 0, 0, 0] } : Py (Deck K)) = .ok d := by
    intro text body cells d ht hlines hbody hcards h1
    rw [readText_layout ht hlines] at h1
    unfold readDeck at h1
    rw [htitle, hok] at h1
    dsimp only at h1
    rw [dropComments_filter (ls := body) fun l hl => by
      obtain ⟨t, -, rfl⟩ := hlines l (by simp [hl])
      simp, hbody, hok, block_eq hb rest cells hcards] at h1
    obtain ⟨⟨cs, r⟩, k1, k2⟩ := bind_ok h1
    obtain ⟨cs', k3, k4⟩ := bind_ok k1
    cases k4
    exact ⟨cs, k3, k2⟩
  obtain ⟨cs, a1, a2⟩ := hread ht (fun l hl => hlines l (by simp only [List.mem_cons, List.mem_append] at hl ⊢; tauto)) hbody (fun g hg => hcards g (by simp [hg])) h1
  obtain ⟨cs', b1, b2⟩ := hread ht' (fun l hl => hlines l (by simp only [List.mem_cons, List.mem_append] at hl ⊢; tauto)) hbody' (fun g hg => hcards g (by simp [hg])) h2
  obtain ⟨⟨ss, ls⟩, s1, a2⟩ := bind_ok a2
  obtain ⟨is, s2, a2⟩ := bind_ok a2
  obtain ⟨ts, s3, a2⟩ := bind_ok a2
  obtain ⟨ms, s4, a2⟩ := bind_ok a2
  rw [s1, hok] at b2
  dsimp only at b2 s2 s3 s4
  rw [s2, hok, s3, hok, s4, hok] at b2
  cases a2
  cases b2
  refine ⟨?_, rfl⟩
  dsimp only
  rw [mapM_ok_iff, List.forall₂_map_left_iff] at a1 b1
  clear * - halike a1 b1
  induction halike generalizing cs cs' with
  | nil => cases a1; cases b1; exact .nil
  | cons h _ ih =>
    cases a1 with
    | cons a1 a1s =>
      cases b1 with
      | cons b1 b1s => exact .cons (card_alike h a1 b1) (ih _ a1s _ b1s)

/-- **C104**, from the text of the input: two texts that differ in importances on cell cards. If both runs finish, with the same options, they write files for the same codes in the same order, and each two files differ only in the places that
show importances and boundaries; for Serpent and SCONE they are equal. -/
theorem C104_text (e : Env K) (cosDeg : K → K) (quick : Bool) (output : Option (List Str)) (text text' : Str) (hed : ImportancesEdited e.io text text') (files files' : List (Code × OutFile))
    (h : Returns (convert e cosDeg quick output text) files) (h' : Returns (convert e cosDeg quick output text') files') :
    List.Forall₂ (fun a b => a.1 = b.1 ∧ SameButImportances e a.1 a.2 b.2 ∧ (a.1 = .serpent ∨ a.1 = .scone → b.2 = a.2)) files files' := by
  have rd : ∀ {t : Str} {fs : List (Code × OutFile)}, Returns (convert e cosDeg quick output t) fs → ∃ d, readDeck e.io cosDeg (readText t) = .ok d := by
    intro t fs h
    unfold convert at h
    obtain ⟨p, h1, h2⟩ := (returns_bind _ _ _).1 h
    rw [returns_mk] at h1
    unfold processDeck at h1
    cases hr : readDeck e.io cosDeg (readText t) with
    | error x =>
      rw [hr] at h1
      cases h1
    | ok d => exact ⟨d, rfl⟩
  obtain ⟨d, hr⟩ := rd h
  obtain ⟨d', hr'⟩ := rd h'
  exact C104_run e cosDeg quick output text text' d d' hr hr' (edited_decks hed hr hr') files files' h h'

end

end Csg
