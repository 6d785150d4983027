import Verif.Spec.Processing
import Verif.Props.Flatten
import Verif.Props.Surfaces
import Verif.Props.Complement
import Verif.Props.Dedupe
import Verif.Lemmas.Material

/-!
# Steps of processing a deck
-/

set_option linter.unusedSectionVars false

namespace Csg

open Spec

section
variable {K : Type} [Field K] [LinearOrder K] [IsStrictOrderedRing K]

/-! ## The faces of a macrobody after a TR card -/

/-- A function whose second differences are never negative has not `x z` as its only term of degree two. -/
theorem not_xzOnly_of_nonneg {F : Point K → Option K} {φ : Point K → K} (hF : ∀ p, F p = some (φ p))
    (h : ∀ x z, 0 ≤ φ ⟨x, 0, z⟩ + φ ⟨-x, 0, -z⟩ - 2 * φ ⟨0, 0, 0⟩) : ¬ XZOnly F := by
  rintro ⟨f, a, b, c, d, hf, hx⟩
  have e : ∀ p, φ p = f * p.z * p.x + a * p.x + b * p.y + c * p.z + d := fun p => Option.some.inj ((hF p).symm.trans (hx p))
  have h1 := h 1 1
  have h2 := h 1 (-1)
  simp only [e] at h1 h2
  apply hf
  nlinarith

theorem rcc_unit {sqrt : K → K} {a b c : K} (h0 : a ^ 2 + b ^ 2 + c ^ 2 ≠ 0) (hr : RootAt sqrt (a ^ 2 + b ^ 2 + c ^ 2)) :
    (a / sqrt (a ^ 2 + b ^ 2 + c ^ 2)) ^ 2 + (b / sqrt (a ^ 2 + b ^ 2 + c ^ 2)) ^ 2 + (c / sqrt (a ^ 2 + b ^ 2 + c ^ 2)) ^ 2 = 1 := by
  have h := hr.2
  have hn : sqrt (a ^ 2 + b ^ 2 + c ^ 2) ≠ 0 := by
    intro e
    rw [e] at h
    exact h0 (by rw [← h]; simp)
  generalize sqrt (a ^ 2 + b ^ 2 + c ^ 2) = n at h hn
  field_simp
  exact h.symm

theorem plane_not_xzOnly {ty : SType} {cs : List K} (hty : ty = .planeGeneral ∨ ty = .planeX ∨ ty = .planeY ∨ ty = .planeZ) (hl : cs.length = 4)
    (t : Transform K) : ¬ XZOnly (fun p => value ty cs (pullback t p)) := by
  match cs, hl with
  | [a, b, c, d], _ =>
    rcases hty with rfl | rfl | rfl | rfl <;>
    · refine not_xzOnly_of_nonneg (φ := fun p => _) (fun p => rfl) fun x z => le_of_eq ?_
      simp only [pullback]
      ring

theorem rcc_not_xzOnly {u v w : K} (h : u ^ 2 + v ^ 2 + w ^ 2 = 1) (x y z r : K) (t : Transform K) :
    ¬ XZOnly (fun p => value .generalQuadratic (rccQuadric u v w x y z r) (pullback t p)) := by
  refine not_xzOnly_of_nonneg (φ := fun p => _) (fun p => rfl) fun a b => ?_
  simp only [pullback]
  generalize hm : t.v1.x * a + t.v1.z * b = m1
  generalize hm2 : t.v2.x * a + t.v2.z * b = m2
  generalize hm3 : t.v3.x * a + t.v3.z * b = m3
  have key : 0 ≤ 2 * ((m1 * v - m2 * u) ^ 2 + (m2 * w - m3 * v) ^ 2 + (m1 * w - m3 * u) ^ 2) := by positivity
  refine le_of_le_of_eq key ?_
  subst hm hm2 hm3
  have e1 : v ^ 2 + w ^ 2 = 1 - u ^ 2 := by linear_combination h
  have e2 : u ^ 2 + w ^ 2 = 1 - v ^ 2 := by linear_combination h
  have e3 : u ^ 2 + v ^ 2 = 1 - w ^ 2 := by linear_combination h
  linear_combination 2 * (t.v1.x * a + t.v1.z * b) ^ 2 * e1 + 2 * (t.v2.x * a + t.v2.z * b) ^ 2 * e2 + 2 * (t.v3.x * a + t.v3.z * b) ^ 2 * e3

theorem face_shape {sqrt : K → K} {ty : SType} {cs : List K} (hp : ProperBody ty cs) (hr : Roots sqrt ty cs) {f : SType × List K} (hf : f ∈ faces sqrt ty cs)
    (n : Int) (o : Option Str) :
    WellFormed { plainCard n f.1 f.2 with transform := o } ∧ IsQuadric f.1 ∧ TwoSheet { plainCard n f.1 f.2 with transform := o } ∧
      ∀ t, ¬ XZOnly (fun p => value f.1 f.2 (pullback t p)) := by
  have hplane : ∀ ty' cs', f = (ty', cs') → (ty' = .planeGeneral ∨ ty' = .planeX ∨ ty' = .planeY ∨ ty' = .planeZ) → cs'.length = 4 →
      WellFormed { plainCard n f.1 f.2 with transform := o } ∧ IsQuadric f.1 ∧ TwoSheet { plainCard n f.1 f.2 with transform := o } ∧
      ∀ t, ¬ XZOnly (fun p => value f.1 f.2 (pullback t p)) := by
    rintro ty' cs' rfl hty hl
    refine ⟨?_, ?_, ?_, fun t => plane_not_xzOnly hty hl t⟩
    · rcases hty with rfl | rfl | rfl | rfl <;> simp [WellFormed, plainCard, arity, hl]
    · rcases hty with rfl | rfl | rfl | rfl <;> trivial
    · rcases hty with rfl | rfl | rfl | rfl <;> trivial
  unfold faces at hf
  split at hf
  · simp only [List.mem_cons, List.not_mem_nil, or_false] at hf
    rcases hf with h | h | h | h | h | h <;> exact hplane _ _ h (by simp) rfl
  · rename_i x y z a b c r
    simp only [List.mem_cons, List.not_mem_nil, or_false] at hf
    rcases hf with rfl | h | h
    · exact ⟨rfl, trivial, trivial, fun t => rcc_not_xzOnly (rcc_unit hp hr) x y z r t⟩
    · exact hplane _ _ h (by simp) rfl
    · exact hplane _ _ h (by simp) rfl
  · simp only [edgeFaces, List.cons_append, List.nil_append, List.mem_cons, List.not_mem_nil, or_false] at hf
    rcases hf with h | h | h | h | h | h <;> exact hplane _ _ h (by simp) rfl
  · cases hf

theorem flattenGo_faces {sqrt : K → K} (io : NumIO K) (hio : Exact io) (cosDeg : K → K) (ss : List (Surface K)) : ∀ (last : Int) (cells : List (Cell K)) {r},
    (∀ t ∈ ss, t.isMacrobody = true → BodyShape t.type t.coeffs) → flattenGo io cosDeg sqrt ss cells last = .ok r →
    ∀ n ∈ r.2.1, ∃ s ∈ ss, s.isMacrobody = true ∧ ∃ f ∈ faces sqrt s.type s.coeffs, n = { plainCard n.id f.1 f.2 with transform := s.transform } := by
  induction ss with
  | nil => intro last cells r _ h; cases h; simp
  | cons s ss ih =>
    intro last cells r hp h
    rw [flattenGo] at h
    by_cases hm : s.isMacrobody = true
    · rw [if_pos hm] at h
      obtain ⟨e, h1, h⟩ := bind_ok h
      obtain rfl := explode_shape io hio sqrt last s (hp s (by simp) hm) e h1
      obtain ⟨cells1, h2, h⟩ := bind_ok h
      obtain ⟨⟨cells2, more, last'⟩, h3, h⟩ := bind_ok h
      have g := ih _ _ (fun t ht => hp t (by simp [ht])) h3
      cases h
      intro n hn
      rcases List.mem_append.1 hn with hn | hn
      · have hn' : n ∈ placed s.transform (newSurfaces sqrt last s) := by
          cases ht : s.transform with
          | none => rw [ht] at hn; rw [← ht]; rw [show s.transform = none from ht, placed_none]; exact hn
          | some t => rw [ht] at hn; exact hn
        obtain ⟨m, hm', rfl⟩ := List.mem_map.1 hn'
        obtain ⟨i, f, hf, rfl⟩ := mem_newSurfaces sqrt hm'
        exact ⟨s, by simp, hm, f, List.mem_of_getElem? hf, rfl⟩
      · obtain ⟨t, ht, x⟩ := g n hn
        exact ⟨t, by simp [ht], x⟩
    · rw [if_neg hm] at h
      intro n hn
      obtain ⟨t, ht, x⟩ := ih last cells (fun t ht => hp t (by simp [ht])) h n hn
      exact ⟨t, by simp [ht], x⟩

/-! ## Words of expanded descriptions -/

theorem splitNots_words {P : Str → Prop} {cells : List (Cell K)} {is is' : List Item} (hl : P c!"(") (hr : P c!")")
    (hc : ∀ c ∈ cells, ∀ w ∈ words c.interpreted, P w) (hi : ∀ w ∈ words is, P w) (h : splitNots cells is = .ok is') : ∀ w ∈ words is', P w := by
  unfold splitNots at h
  split at h
  · cases h; exact hi
  · rename_i a s b hf
    split at h
    · cases h; exact hi
    · split at h
      · cases h
      · rename_i d hd
        cases h
        obtain ⟨rfl, -, -⟩ := findHash_some hf
        have hdm : d ∈ cells := List.mem_of_find?_eq_some hd
        intro w hw
        rw [mem_words] at hw
        simp only [List.cons_append, List.append_assoc, List.nil_append, List.mem_append, List.mem_cons, reduceCtorEq, false_or, Item.str.injEq] at hw
        rcases hw with hw | rfl | hw | rfl | hw
        · exact hi w (by rw [mem_words]; simp [hw])
        · exact hl
        · exact hc d hdm w (mem_words.2 hw)
        · exact hr
        · exact hi w (by rw [mem_words]; simp [hw])

theorem explodeCell_words {P : Str → Prop} (hl : P c!"(") (hr : P c!")") (fuel : Nat) : ∀ {cells cells' : List (Cell K)} {i : Nat},
    (∀ c ∈ cells, ∀ w ∈ words c.interpreted, P w) → explodeCell fuel cells i = some (.ok cells') → ∀ c ∈ cells', ∀ w ∈ words c.interpreted, P w := by
  induction fuel with
  | zero => intro _ _ _ _ h; cases h
  | succ fuel ih =>
    intro cells cells' i hc h
    unfold explodeCell at h
    split at h
    · cases h
    · rename_i c hi
      split at h
      · split at h
        · cases h
        · rename_i is his
          refine ih ?_ h
          intro d hd
          rcases List.mem_or_eq_of_mem_set hd with hd | rfl
          · exact hc d hd
          · exact splitNots_words hl hr hc (hc c (List.mem_of_getElem? hi)) his
      · cases h; exact hc

theorem explodeFrom_words {P : Str → Prop} (hl : P c!"(") (hr : P c!")") (fuel n : Nat) : ∀ {cells cells' : List (Cell K)} {i : Nat},
    (∀ c ∈ cells, ∀ w ∈ words c.interpreted, P w) → explodeFrom fuel n cells i = some (.ok cells') → ∀ c ∈ cells', ∀ w ∈ words c.interpreted, P w := by
  induction n with
  | zero => intro _ _ _ hc h; cases h; exact hc
  | succ n ih =>
    intro cells cells' i hc h
    unfold explodeFrom at h
    split at h
    · cases h
    · cases h
    · rename_i cells1 h1
      exact ih (explodeCell_words hl hr fuel hc h1) h

/-! ## Frames of the other steps -/

theorem mapM_ok_forall₂ {α β : Type} {f : α → Py β} {l : List α} {l' : List β} (h : l.mapM f = .ok l') : List.Forall₂ (fun a b => f a = .ok b) l l' := by
  induction l generalizing l' with
  | nil => cases h; exact .nil
  | cons a l ih =>
    rw [List.mapM_cons] at h
    obtain ⟨b, h1, h⟩ := bind_ok h
    obtain ⟨bs, h2, h⟩ := bind_ok h
    cases h
    exact .cons h1 (ih h2)

theorem forall₂_refl {α : Type} {R : α → α → Prop} (h : ∀ a, R a a) (l : List α) : List.Forall₂ R l l := List.forall₂_same.2 fun a _ => h a

theorem forall₂_trans {α β γ : Type} {R : α → β → Prop} {S : β → γ → Prop} {T : α → γ → Prop} (h : ∀ a b c, R a b → S b c → T a c) {l : List α} {m : List β}
    {n : List γ} (h1 : List.Forall₂ R l m) (h2 : List.Forall₂ S m n) : List.Forall₂ T l n := by
  induction h1 generalizing n with
  | nil => cases h2; exact .nil
  | cons r _ ih => cases h2 with | cons s h2 => exact .cons (h _ _ _ r s) (ih h2)

theorem forall₂_map_eq {α β γ : Type} {R : α → β → Prop} {f : α → γ} {g : β → γ} (h : ∀ a b, R a b → g b = f a) {l : List α} {l' : List β} (k : List.Forall₂ R l l') :
    l'.map g = l.map f := by
  induction k with
  | nil => rfl
  | cons a _ ih => rw [List.map_cons, List.map_cons, ih, h _ _ a]

theorem forall₂_both {α β : Type} {R S : α → β → Prop} {l : List α} {l' : List β} (h : List.Forall₂ R l l') (k : List.Forall₂ S l l') :
    List.Forall₂ (fun a b => R a b ∧ S a b) l l' := by
  induction h with
  | nil => exact .nil
  | cons a _ ih => cases k with | cons b k => exact .cons ⟨a, b⟩ (ih k)

theorem forall₂_getElem? {α β : Type} {R : α → β → Prop} {l : List α} {l' : List β} (h : List.Forall₂ R l l') {i : Nat} {a : α} (ha : l[i]? = some a) :
    ∃ b, l'[i]? = some b ∧ R a b := by
  induction h generalizing i with
  | nil => simp at ha
  | cons x _ ih =>
    cases i with
    | zero => simp only [List.getElem?_cons_zero, Option.some.injEq] at ha; subst ha; exact ⟨_, rfl, x⟩
    | succ i => exact ih (by simpa using ha)

theorem lookup_of_mem {κ ν : Type} [DecidableEq κ] [BEq κ] [LawfulBEq κ] {d : List (κ × ν)} {k : κ} (h : k ∈ d.map Prod.fst) : ∃ v, d.lookup k = some v := by
  cases e : d.lookup k with
  | none => exact absurd h (lookup_none_iff.1 e)
  | some v => exact ⟨v, rfl⟩

theorem applyTransformCard_frame {trs : List (Str × Transform K)} {s s' : Surface K} (h : s.applyTransformCard trs = .ok s') :
    s'.bc = s.bc ∧ s'.bbox = s.bbox := by
  have hg : ∀ {a b : Surface K}, a.generalise = .ok b → b.bc = a.bc ∧ b.bbox = a.bbox := by
    intro a b h
    unfold Surface.generalise at h
    split at h
    · cases h; exact ⟨rfl, rfl⟩
    · obtain ⟨cs, -, h⟩ := bind_ok h
      cases h; exact ⟨rfl, rfl⟩
  have ha : ∀ {a b : Surface K} {t : Transform K}, a.applyTransform t = .ok b → b.bc = a.bc ∧ b.bbox = a.bbox := by
    intro a b t h
    unfold Surface.applyTransform at h
    split at h
    all_goals first
      | (cases h; exact ⟨rfl, rfl⟩)
      | (obtain ⟨cs, -, h⟩ := bind_ok h; cases h; exact ⟨rfl, rfl⟩)
  have hs : ∀ {a b : Surface K}, a.simplify = .ok b → b.bc = a.bc ∧ b.bbox = a.bbox := by
    intro a b h
    unfold Surface.simplify at h
    split at h
    · cases h; exact ⟨rfl, rfl⟩
    · split at h
      · obtain ⟨_, -, h⟩ := bind_ok h
        obtain ⟨_, -, h⟩ := bind_ok h
        obtain ⟨_, -, h⟩ := bind_ok h
        obtain ⟨_, -, h⟩ := bind_ok h
        cases h; exact ⟨rfl, rfl⟩
      · split at h
        · obtain ⟨_, -, h⟩ := bind_ok h
          cases h; exact ⟨rfl, rfl⟩
        · cases h; exact ⟨rfl, rfl⟩
  unfold Surface.applyTransformCard at h
  split at h
  · cases h; exact ⟨rfl, rfl⟩
  · split at h
    · cases h; exact ⟨rfl, rfl⟩
    · obtain ⟨g, h1, h⟩ := bind_ok h
      have e1 := hg h1
      split at h
      · obtain ⟨m, h2, h⟩ := bind_ok h
        have e2 := ha h2
        have e3 := hs h
        exact ⟨e3.1.trans (e2.1.trans e1.1), e3.2.trans (e2.2.trans e1.2)⟩
      · cases h; exact e1

/-- Only the material differs. -/
def MatFrame (c c' : Cell K) : Prop := c' = { c with material := c'.material }

theorem MatFrame.refl (c : Cell K) : MatFrame c c := rfl

theorem MatFrame.trans {a b c : Cell K} (h1 : MatFrame a b) (h2 : MatFrame b c) : MatFrame a c := by
  unfold MatFrame at *
  rw [h2, h1]

theorem copyMaterials_frame (io : NumIO K) (mat : Int) (ds : List K) : ∀ {mats mats' : List (Str × Material K)} {cells cells' : List (Cell K)},
    copyMaterials io mat ds mats cells = .ok (mats', cells') → List.Forall₂ MatFrame cells cells' := by
  induction ds with
  | nil => intro _ _ _ _ h; cases h; exact forall₂_refl MatFrame.refl _
  | cons x ds ih =>
    intro mats mats' cells cells' h
    unfold copyMaterials at h
    split at h
    · cases h
    · refine forall₂_trans (R := MatFrame) (S := MatFrame) (fun _ _ _ => MatFrame.trans) ?_ (ih h)
      rw [List.forall₂_map_right_iff]
      refine forall₂_refl (fun c => ?_) _
      split <;> rfl

theorem assignDensities_frame (io : NumIO K) (l : List (Int × List K)) : ∀ {mats mats' : List (Str × Material K)} {cells cells' : List (Cell K)},
    assignDensities io l mats cells = .ok (mats', cells') → List.Forall₂ MatFrame cells cells' := by
  induction l with
  | nil => intro _ _ _ _ h; cases h; exact forall₂_refl MatFrame.refl _
  | cons x l ih =>
    intro mats mats' cells cells' h
    obtain ⟨mat, ds⟩ := x
    unfold assignDensities at h
    split at h
    · cases h
    · obtain ⟨d0, -, h⟩ := bind_ok h
      obtain ⟨⟨m1, c1⟩, h1, h⟩ := bind_ok h
      exact forall₂_trans (R := MatFrame) (S := MatFrame) (fun _ _ _ => MatFrame.trans) (copyMaterials_frame io mat _ h1) (ih h)

theorem reorganiseMaterials_frame (io : NumIO K) {mats mats' : List (Str × Material K)} {cells cells' : List (Cell K)}
    (h : reorganiseMaterials io mats cells = .ok (mats', cells')) : List.Forall₂ MatFrame cells cells' := by
  unfold reorganiseMaterials at h
  obtain ⟨md, -, h⟩ := bind_ok h
  simp only at h
  split at h
  · cases h; exact forall₂_refl MatFrame.refl _
  · obtain ⟨⟨m1, c1⟩, h1, h⟩ := bind_ok h
    obtain ⟨m2, -, h⟩ := bind_ok h
    cases h
    exact assignDensities_frame io _ h1

theorem assignImportances_frame (io : NumIO K) : ∀ (cells : List (Cell K)) (ws : List Str) {cells' : List (Cell K)}, assignImportances io cells ws = .ok cells' →
    List.Forall₂ (fun c c' => c' = { c with importance := c'.importance }) cells cells' := by
  intro cells ws
  induction ws generalizing cells with
  | nil => intro cells' h; unfold assignImportances at h; cases h; exact List.forall₂_same.2 fun _ _ => rfl
  | cons w ws ih =>
    intro cells' h
    cases cells with
    | nil => cases h
    | cons c cs =>
      unfold assignImportances at h
      obtain ⟨x, -, h⟩ := bind_ok h
      obtain ⟨cs', h1, h⟩ := bind_ok h
      cases h
      exact .cons rfl (ih _ h1)

theorem applyImportances_frame (io : NumIO K) {imps : List (Particle × Str)} {cells cells' : List (Cell K)} (h : applyImportances io imps cells = .ok cells') :
    List.Forall₂ (fun c c' => c' = { c with importance := c'.importance }) cells cells' := by
  unfold applyImportances at h
  split at h
  · cases h; exact List.forall₂_same.2 fun _ _ => rfl
  · split at h
    · cases h
    · split at h
      · cases h; exact List.forall₂_same.2 fun _ _ => rfl
      · exact assignImportances_frame io _ _ h

/-- Only the boundary condition differs. -/
def BcFrame (s s' : Surface K) : Prop := s' = { s with bc := s'.bc }

theorem BcFrame.refl (s : Surface K) : BcFrame s s := rfl

theorem BcFrame.trans {a b c : Surface K} (h1 : BcFrame a b) (h2 : BcFrame b c) : BcFrame a c := by
  unfold BcFrame at *
  rw [h2, h1]

theorem setVacuum_frame (n : Int) : ∀ (l : List (Surface K)) {l' : List (Surface K)}, setVacuum n l = .ok l' → List.Forall₂ BcFrame l l' := by
  intro l
  induction l with
  | nil => intro _ h; cases h
  | cons s l ih =>
    intro l' h
    unfold setVacuum at h
    split at h
    · cases h; exact .cons rfl (forall₂_refl BcFrame.refl _)
    · obtain ⟨l1, h1, h⟩ := bind_ok h
      cases h
      exact .cons rfl (ih h1)

theorem setVacuums_frame (ns : List Int) : ∀ {l l' : List (Surface K)}, setVacuums ns l = .ok l' → List.Forall₂ BcFrame l l' := by
  induction ns with
  | nil => intro _ _ h; cases h; exact forall₂_refl BcFrame.refl _
  | cons n ns ih =>
    intro l l' h
    unfold setVacuums at h
    obtain ⟨l1, h1, h⟩ := bind_ok h
    exact forall₂_trans (R := BcFrame) (S := BcFrame) (fun _ _ _ => BcFrame.trans) (setVacuum_frame n l h1) (ih h)

theorem vacuumGo_frame (cells : List (Cell K)) : ∀ {l l' : List (Surface K)}, vacuumGo cells l = .ok l' → List.Forall₂ BcFrame l l' := by
  induction cells with
  | nil => intro _ _ h; cases h; exact forall₂_refl BcFrame.refl _
  | cons c cs ih =>
    intro l l' h
    unfold vacuumGo at h
    obtain ⟨l1, h1, h⟩ := bind_ok h
    refine forall₂_trans (R := BcFrame) (S := BcFrame) (fun _ _ _ => BcFrame.trans) ?_ (ih h)
    split at h1
    · exact setVacuums_frame _ h1
    · cases h1; exact forall₂_refl BcFrame.refl _

theorem updateSurface_frame {box : List K} {s s' : Surface K} (h : updateSurface box s = .ok s') : s' = { s with bbox := s'.bbox } := by
  unfold updateSurface at h
  simp only at h
  split at h
  all_goals first
    | (obtain ⟨lo, -, h⟩ := bind_ok h; obtain ⟨hi, -, h⟩ := bind_ok h; cases h; rfl)
    | (cases h; rfl)

/-! ## The steps of a successful run -/

/-- What a successful run went through. -/
structure Run (fuel : Nat) (io : NumIO K) (cosDeg sqrt : K → K) (quick : Bool) (d d' : Deck K) (cells1 cells2 cells3 cells4 cells5 : List (Cell K))
    (surfs1 surfs2 surfs3 surfs4 : List (Surface K)) : Prop where
  flat : flatten io cosDeg sqrt d.cells d.surfaces d.last = .ok (cells1, surfs1, d'.last)
  nots : explodeNots fuel cells1 = some (.ok cells2)
  move : applySurfaceTransformations d.transforms surfs1 = .ok surfs2
  fill : applyUniverseTransformations d.transforms cells2 = .ok cells3
  mats : reorganiseMaterials io d.materials cells3 = .ok (d'.materials, cells4)
  imps : applyImportances io d.importances cells4 = .ok cells5
  vac : vacuumGo cells5 surfs2 = .ok surfs3
  box : boundingCoordinates surfs3 = .ok d'.bounding
  cones : surfs3.mapM (updateSurface d'.bounding) = .ok surfs4
  dups : (if quick then .ok (cells5, surfs4) else dedupe cells5 surfs4 : Py (List (Cell K) × List (Surface K))) = .ok (d'.cells, d'.surfaces)
  rest : d'.title = d.title ∧ d'.importances = d.importances ∧ d'.transforms = d.transforms

theorem finishDeck_run {fuel : Nat} {io : NumIO K} {cosDeg sqrt : K → K} {quick : Bool} {d d' : Deck K}
    (h : finishDeck fuel io cosDeg sqrt quick d = some (.ok d')) :
    ∃ cells1 cells2 cells3 cells4 cells5 surfs1 surfs2 surfs3 surfs4, Run fuel io cosDeg sqrt quick d d' cells1 cells2 cells3 cells4 cells5 surfs1 surfs2 surfs3 surfs4 := by
  unfold finishDeck at h
  split at h
  · cases h
  · rename_i cells1 surfs1 last h1
    split at h
    · cases h
    · cases h
    · rename_i cells2 h2
      replace h := Option.some.inj h
      obtain ⟨surfs2, h3, h⟩ := bind_ok h
      obtain ⟨cells3, h4, h⟩ := bind_ok h
      obtain ⟨⟨mats, cells4⟩, h5, h⟩ := bind_ok h
      obtain ⟨⟨cells5, surfs3⟩, h6, h⟩ := bind_ok h
      obtain ⟨box, h7, h⟩ := bind_ok h
      obtain ⟨surfs4, h8, h⟩ := bind_ok h
      obtain ⟨⟨cells6, surfs5⟩, h9, h⟩ := bind_ok h
      unfold applyBoundaryConditions at h6
      obtain ⟨c5, h61, h6⟩ := bind_ok h6
      obtain ⟨s3, h62, h6⟩ := bind_ok h6
      cases h6
      cases h
      exact ⟨cells1, cells2, cells3, cells4, cells5, surfs1, surfs2, surfs3, surfs4, h1, h2, h3, h4, h5, h61, h62, h7, h8, h9, rfl, rfl, rfl⟩

/-! ## Sides -/

theorem surfaceSense_congr {sqrt : K → K} {place place' : Option Str → Point K → Point K} {surfs surfs' : List (Surface K)} {p : Point K}
    (h : List.Forall₂ (fun s s' => s'.id = s.id ∧ ∀ b, OnSide sqrt s (place s.transform p) b ↔ OnSide sqrt s' (place' s'.transform p) b) surfs surfs') (z : Int) :
    surfaceSense sqrt place surfs p z ↔ surfaceSense sqrt place' surfs' p z := by
  unfold surfaceSense
  induction h with
  | nil => simp
  | cons h _ ih => simp only [List.mem_cons, exists_eq_or_imp, ih, h.1, h.2]

/-- Placing a surface: same number, the same points on each side, and a shape that duplicate removal handles. -/
def Placed (sqrt : K → K) (trs : List (Str × Transform K)) (s s' : Surface K) : Prop :=
  s'.id = s.id ∧ s'.isMacrobody = false ∧ (∀ p b, OnSide sqrt s (placeBy trs s.transform p) b ↔ OnSide sqrt s' p b) ∧
    WellFormed s' ∧ (IsQuadric s'.type ∨ ProperTorus s') ∧ (TwoSheet s → TwoSheet s')

theorem isMacrobody_of_quadric {s : Surface K} (h : IsQuadric s.type) : s.isMacrobody = false := by
  unfold Surface.isMacrobody
  cases hs : s.type <;> simp_all [IsQuadric]

theorem placed_of (sqrt : K → K) (trs : List (Str × Transform K)) {s : Surface K} (hm : s.isMacrobody = false) (hw : WellFormed s)
    (hs : IsQuadric s.type ∨ ProperTorus s)
    (ht : ∀ n, s.transform = some n → ∃ t, trs.lookup n = some t ∧ IsQuadric s.type ∧ TwoSheet s ∧ ¬ XZOnly (fun p => value s.type s.coeffs (pullback t p))) :
    ∃ s', s.applyTransformCard trs = .ok s' ∧ Placed sqrt trs s s' := by
  cases hn : s.transform with
  | none =>
    refine ⟨s, by unfold Surface.applyTransformCard; rw [hn], rfl, hm, fun p b => ?_, hw, hs, id⟩
    rw [hn]
    rfl
  | some n =>
    obtain ⟨t, h1, h2, h3, h4⟩ := ht n hn
    obtain ⟨s', g1, g2, g3, g4, g5, g6, g7⟩ := C02_transform_partial sqrt trs s n t hw h2 h3 hn h1 h4
    refine ⟨s', g1, g2, isMacrobody_of_quadric g5, fun p b => ?_, g4, Or.inl g5, fun _ => g6⟩
    unfold OnSide
    rw [hm, isMacrobody_of_quadric g5, g7 p, hn]
    simp [placeBy, h1]

/-! ## The deck after flattening -/

theorem itemSyms_word {w : Str} {is : List Item} (h : w ∈ words is) : w = c!"(" ∨ w = c!")" ∨ Sym.atom w ∈ itemSyms is := by
  rw [mem_words] at h
  induction is with
  | nil => cases h
  | cons i is ih =>
    rcases List.mem_cons.1 h with rfl | h
    · by_cases h1 : w = c!"("
      · exact Or.inl h1
      by_cases h2 : w = c!")"
      · exact Or.inr (Or.inl h2)
      · refine Or.inr (Or.inr ?_)
        unfold itemSyms
        rw [if_neg h1, if_neg h2]
        simp
    · rcases ih h with h | h | h
      · exact Or.inl h
      · exact Or.inr (Or.inl h)
      · refine Or.inr (Or.inr ?_)
        cases i with
        | op o => cases o <;> simp_all [itemSyms]
        | str t => simp_all [itemSyms]

/-- The words of a description: parentheses, numbers of surfaces in the list with or without sign, and words with `#`. -/
def GoodWord (surfs : List (Surface K)) (w : Str) : Prop :=
  w = c!"(" ∨ w = c!")" ∨ '#' ∈ w ∨ ∃ s ∈ surfs, w = intStr s.id ∨ w = '-' :: intStr s.id

/-- Flattening a proper deck. -/
theorem flatten_facts {io : NumIO K} (hio : Exact io) {cosDeg sqrt : K → K} {rank : Int → Nat} {d : Deck K} (hd : ProperDeck sqrt rank d)
    {cells1 : List (Cell K)} {surfs1 : List (Surface K)} {last1 : Int} (h : flatten io cosDeg sqrt d.cells d.surfaces d.last = .ok (cells1, surfs1, last1)) :
    (surfs1.map Surface.id).Nodup ∧ (∀ s ∈ surfs1, 0 < s.id ∧ s.id ≤ last1 ∧ s.isMacrobody = false ∧ ∃ s', s.applyTransformCard d.transforms = .ok s' ∧
        Placed sqrt d.transforms s s') ∧ ((∀ s ∈ d.surfaces, TwoSheet s) → ∀ s ∈ surfs1, TwoSheet s) ∧
      Acyclic rank cells1 ∧ (∀ c ∈ cells1, ∀ w ∈ words c.interpreted, GoodWord surfs1 w) ∧
      List.Forall₂ (fun c c' => c' = { c with text := c'.text, interpreted := c'.interpreted, surfaces := c'.surfaces }) d.cells cells1 ∧
      ∀ place p T, IsCellTruth (pointSense sqrt place d.surfaces p) T d.cells ↔ IsCellTruth (pointSense sqrt place surfs1 p) T cells1 := by
  have hbs : ∀ s ∈ d.surfaces, s.isMacrobody = true → BodyShape s.type s.coeffs := fun s hs hm => (hd.bodies s hs hm).1.shape
  obtain ⟨g1, g2, g3, new, g4, g5⟩ := C16_flatten_surfaces io hio cosDeg sqrt d.cells d.surfaces d.last hd.ids (fun s hs => (hd.range s hs).2) hbs h
  have hnew : ∀ n ∈ new, ∃ s ∈ d.surfaces, s.isMacrobody = true ∧ ∃ f ∈ faces sqrt s.type s.coeffs, n = { plainCard n.id f.1 f.2 with transform := s.transform } := by
    unfold flatten at h
    obtain ⟨⟨c1, more, l1⟩, h1, h⟩ := bind_ok h
    have hf := flattenGo_faces io hio cosDeg d.surfaces d.last d.cells hbs h1
    cases h
    intro n hn
    have hn1 : n ∈ (d.surfaces ++ more).filter fun s => !s.isMacrobody := by rw [g4]; simp [hn]
    rcases List.mem_append.1 (List.mem_filter.1 hn1).1 with hm | hm
    · exact absurd (hd.range n hm).2 (not_le.2 (g5 n hn))
    · exact hf n hm
  have hone : ∀ s ∈ surfs1, 0 < s.id ∧ (∃ s', s.applyTransformCard d.transforms = .ok s' ∧ Placed sqrt d.transforms s s') ∧
      ((∀ s ∈ d.surfaces, TwoSheet s) → TwoSheet s) := by
    intro s hs
    have hmac := g1 s hs
    rw [g4] at hs
    rcases List.mem_append.1 hs with hs | hs
    · have hm := (List.mem_filter.1 hs).1
      refine ⟨(hd.range s hm).1, ?_, fun h => h s hm⟩
      refine placed_of sqrt d.transforms hmac (hd.shape s hm hmac).1 (hd.shape s hm hmac).2 fun n hn => ?_
      obtain ⟨t, h1, h2⟩ := hd.moved s hm n hn
      exact ⟨t, h1, h2 hmac⟩
    · obtain ⟨b, hb, hbm, f, hf, e⟩ := hnew s hs
      obtain ⟨p1, p2⟩ := hd.bodies b hb hbm
      obtain ⟨q1, q2, q3, q4⟩ := face_shape p1 p2 hf s.id b.transform
      rw [← e] at q1 q3
      have ety : s.type = f.1 := by rw [e]; rfl
      have ecs : s.coeffs = f.2 := by rw [e]; rfl
      have etr : s.transform = b.transform := by rw [e]
      refine ⟨lt_of_le_of_lt hd.last (g5 s hs), placed_of sqrt d.transforms hmac q1 (Or.inl (ety ▸ q2)) fun n hn => ?_, fun _ => q3⟩
      obtain ⟨t, h1, -⟩ := hd.moved b hb n (etr ▸ hn)
      refine ⟨t, h1, ety ▸ q2, q3, ?_⟩
      rw [ety, ecs]
      exact q4 t
  obtain ⟨cells', surfs', last', e, k, -⟩ := C17_flatten_regions_partial io hio cosDeg sqrt d.cells d.surfaces d.last hd.ids hd.range hd.last hd.bodies hd.cells
  rw [h] at e
  cases e
  obtain ⟨cells', surfs', last', e, k'⟩ := C17_cell_truth_partial io hio cosDeg sqrt d.cells d.surfaces d.last hd.ids hd.range hd.last hd.bodies hd.cells
  rw [h] at e
  cases e
  have hids : cells1.map Cell.id = d.cells.map Cell.id := forall₂_map_eq (fun _ _ a => by rw [a.2.2.1]) k
  refine ⟨g2, fun s hs => ⟨(hone s hs).1, g3 s hs, g1 s hs, (hone s hs).2.1⟩, fun h s hs => (hone s hs).2.2 h, ?_, ?_, forall₂_imp (fun _ _ x => x.2.2.1) k, k'⟩
  · refine ⟨hids ▸ hd.complements.ids, ?_, ?_⟩
    · intro c hc
      obtain ⟨c0, -, a⟩ := forall₂_right k c hc
      rw [a.1.parsed]
      exact a.1.legal
    · intro c hc w hw hh
      obtain ⟨c0, hc0, a⟩ := forall₂_right k c hc
      have ei : c.id = c0.id := by rw [a.2.2.1]
      rcases itemSyms_word hw with rfl | rfl | hat
      · exact absurd hh (by decide)
      · exact absurd hh (by decide)
      · rw [a.1.parsed] at hat
        rcases a.2.2.2 w hat with ⟨n, rfl, hold⟩ | ⟨s, -, rfl | rfl⟩
        · rw [← (hd.cells c0 hc0).1.parsed] at hold
          obtain ⟨m, b, hb, e1, e2, e3⟩ := hd.complements.refs c0 hc0 _ (atom_mem_itemSyms hold) (hash_mem_refWord n)
          have hb' : b.id ∈ cells1.map Cell.id := by rw [hids]; exact List.mem_map_of_mem hb
          obtain ⟨b1, hb1, eb⟩ := List.mem_map.1 hb'
          exact ⟨m, b1, hb1, e1, eb.trans e2, by rw [eb, ei]; exact e3⟩
        · exact absurd hh (hash_not_mem_intStr _)
        · exact absurd hh (hash_not_mem_minus _)
  · intro c hc w hw
    obtain ⟨c0, hc0, a⟩ := forall₂_right k c hc
    rcases itemSyms_word hw with h | h | hat
    · exact Or.inl h
    · exact Or.inr (Or.inl h)
    · rw [a.1.parsed] at hat
      rcases a.2.2.2 w hat with ⟨n, rfl, -⟩ | h
      · exact Or.inr (Or.inr (Or.inl (hash_mem_refWord n)))
      · exact Or.inr (Or.inr (Or.inr h))

/-- Words for surfaces are read as their numbers. -/
theorem goodWord_number {surfs : List (Surface K)} (hpos : ∀ s ∈ surfs, 0 < s.id) {w : Str} (h : GoodWord surfs w) (hh : '#' ∉ w) :
    w = c!"(" ∨ w = c!")" ∨ ∃ z : Int, parseInt w = some z ∧ ∃ s ∈ surfs, s.id = z.natAbs := by
  rcases h with h | h | h | ⟨s, hs, rfl | rfl⟩
  · exact Or.inl h
  · exact Or.inr (Or.inl h)
  · exact absurd h hh
  · refine Or.inr (Or.inr ⟨s.id, parseInt_intStr _, s, hs, ?_⟩)
    have := hpos s hs
    omega
  · refine Or.inr (Or.inr ⟨-s.id, parseInt_minus (hpos s hs), s, hs, ?_⟩)
    have := hpos s hs
    omega

theorem facetSense_plain {place : Option Str → Point K → Point K} {surfs : List (Surface K)} (h : ∀ s ∈ surfs, s.isMacrobody = false) (p : Point K) (w : Str) :
    ¬ facetSense place surfs p w := by
  rintro ⟨s, hs, neg, k, v, -, -, hv, -⟩
  have hm := h s hs
  unfold Surface.isMacrobody at hm
  unfold facetValue at hv
  split at hv <;> simp_all

/-- The steps after flattening leave descriptions of cells as they are. -/
def CellFrame (c c' : Cell K) : Prop :=
  c' = { c with offset := c'.offset, rotation := c'.rotation, trId := c'.trId, material := c'.material, importance := c'.importance }

/-- Only the transformation of the filling differs. -/
def FillFrame (c c' : Cell K) : Prop := c' = { c with offset := c'.offset, rotation := c'.rotation, trId := c'.trId }

theorem fill_frame {trs : List (Str × Transform K)} {cells cells' : List (Cell K)} (h : applyUniverseTransformations trs cells = .ok cells') :
    List.Forall₂ FillFrame cells cells' := by
  refine forall₂_imp (fun c c' h => ?_) (mapM_ok_forall₂ h)
  split at h
  · split at h
    · cases h; rfl
    · cases h
  · cases h; rfl

/-- Surfaces before and after the changes that are no transformation. -/
def SurfFrame (s s' : Surface K) : Prop := s' = { s with bc := s'.bc, bbox := s'.bbox }

variable {fuel : Nat} {io : NumIO K} {cosDeg sqrt : K → K} {quick : Bool} {d d' : Deck K} {cells1 cells2 cells3 cells4 cells5 : List (Cell K)}
    {surfs1 surfs2 surfs3 surfs4 : List (Surface K)}

theorem Run.cellFrame (r : Run fuel io cosDeg sqrt quick d d' cells1 cells2 cells3 cells4 cells5 surfs1 surfs2 surfs3 surfs4) : List.Forall₂ CellFrame cells2 cells5 := by
  refine forall₂_trans (R := FillFrame) (S := CellFrame) (fun a b c h1 h2 => ?_) (fill_frame r.fill) (forall₂_trans (R := MatFrame) (fun a b c h1 h2 => ?_)
    (reorganiseMaterials_frame io r.mats) (applyImportances_frame io r.imps))
  · unfold FillFrame at h1
    unfold CellFrame at *
    rw [h2, h1]
  · unfold CellFrame
    unfold MatFrame at h1
    rw [h2, h1]

theorem Run.surfFrame (r : Run fuel io cosDeg sqrt quick d d' cells1 cells2 cells3 cells4 cells5 surfs1 surfs2 surfs3 surfs4) : List.Forall₂ SurfFrame surfs2 surfs4 := by
  refine forall₂_trans (R := BcFrame) (fun a b c h1 h2 => ?_) (vacuumGo_frame _ r.vac) (mapM_ok_forall₂ r.cones)
  have h2 := updateSurface_frame h2
  unfold SurfFrame
  unfold BcFrame at h1
  rw [h2, h1]

/-- The surfaces after the changes to boundary conditions and boxes. -/
theorem Placed.frame {trs : List (Str × Transform K)} {a b c : Surface K} (h : Placed sqrt trs a b) (k : SurfFrame b c) : Placed sqrt trs a c := by
  obtain ⟨h1, h2, h3, h4, h5, h6⟩ := h
  unfold SurfFrame at k
  have e1 : c.type = b.type := by rw [k]
  have e2 : c.coeffs = b.coeffs := by rw [k]
  refine ⟨by rw [k]; exact h1, by rw [k]; exact h2, fun p x => ?_, by rw [k]; exact h4, ?_, fun x => ?_⟩
  · rw [h3, k]
    rfl
  · unfold ProperTorus at h5 ⊢
    rw [e1, e2]
    exact h5
  · have := h6 x
    unfold TwoSheet at this ⊢
    rw [e1, e2]
    exact this

/-- The surfaces before duplicate removal. -/
theorem Run.surfs (r : Run fuel io cosDeg sqrt quick d d' cells1 cells2 cells3 cells4 cells5 surfs1 surfs2 surfs3 surfs4) (hio : Exact io) {rank : Int → Nat}
    (hd : ProperDeck sqrt rank d) : List.Forall₂ (Placed sqrt d.transforms) surfs1 surfs2 ∧ List.Forall₂ (Placed sqrt d.transforms) surfs1 surfs4 := by
  have h : List.Forall₂ (Placed sqrt d.transforms) surfs1 surfs2 := by
    refine forall₂_imp (fun s s' x => ?_) (forall₂_mem (mapM_ok_forall₂ r.move))
    obtain ⟨-, h2, -⟩ := flatten_facts hio hd r.flat
    obtain ⟨t, h3, h4⟩ := (h2 s x.1).2.2.2
    rw [x.2.2] at h3
    cases h3
    exact h4
  exact ⟨h, forall₂_trans (fun _ _ _ => Placed.frame) h r.surfFrame⟩

end

end Csg
