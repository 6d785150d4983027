import Verif.Lemmas.Processing
import Verif.Lemmas.SurfaceCard
import Verif.Spec.Mnemonic

/-!
# The surfaces of a processed deck
-/

set_option linter.unusedSectionVars false

namespace Csg

open Spec

section
variable {K : Type} [Field K] [LinearOrder K]

/-- An axis plane has the normal of the axis. -/
def NormalPlane (s : Surface K) : Prop :=
  (s.type = .planeX → ∃ d, s.coeffs = [1, 0, 0, d]) ∧ (s.type = .planeY → ∃ d, s.coeffs = [0, 1, 0, d]) ∧ (s.type = .planeZ → ∃ d, s.coeffs = [0, 0, 1, d])

theorem normalPlane_of_type {s : Surface K} (h : s.type ≠ .planeX ∧ s.type ≠ .planeY ∧ s.type ≠ .planeZ) : NormalPlane s :=
  ⟨fun e => absurd e h.1, fun e => absurd e h.2.1, fun e => absurd e h.2.2⟩

local macro "normal" : tactic => `(tactic| (refine ⟨?_, ?_, ?_⟩ <;> intro hty <;> first | exact ⟨_, rfl⟩ | cases hty))

/-- Axis planes that are read have the normal of the axis. -/
theorem classifyFields_normal (f : Fields K) (s : Surface K) (h : classifyFields f = .ok s) : NormalPlane s := by
  have bindOk : ∀ {α β : Type} (m : Py α) (g : α → Py β) (b : β), (m >>= g) = .ok b → ∃ a, m = .ok a ∧ g a = .ok b := by
    intro α β m g b hm
    cases m with
    | error e => cases hm
    | ok a => exact ⟨a, rfl, hm⟩
  have xyz : ∀ f' : Fields K, classifyXyzPlanes .blank f' = .ok s → NormalPlane s := by
    intro f' h
    unfold classifyXyzPlanes at h
    repeat' split at h
    all_goals first
      | (obtain ⟨_, _, h⟩ := bindOk _ _ _ h; cases h; normal)
      | (cases h; normal)
  have cyl : ∀ f' : Fields K, classifyCylinderOnAxis .blank f' = .ok s → NormalPlane s := by
    intro f' h
    unfold classifyCylinderOnAxis at h
    repeat' split at h
    all_goals first
      | (obtain ⟨_, _, h⟩ := bindOk _ _ _ h; cases h; normal)
      | (cases h; normal)
  have cone : ∀ f' : Fields K, classifyConeOnAxis .blank f' = .ok s → NormalPlane s := by
    intro f' h
    unfold classifyConeOnAxis at h
    repeat' split at h
    all_goals first
      | (obtain ⟨_, _, h⟩ := bindOk _ _ _ h
         obtain ⟨_, _, h⟩ := bindOk _ _ _ h
         obtain ⟨_, _, h⟩ := bindOk _ _ _ h
         cases h; normal)
      | (cases h; normal)
  have sph : classifyGeneralSphere .blank f = .ok s → NormalPlane s := by
    intro h
    obtain ⟨_, _, h⟩ := bindOk _ _ _ h; cases h; normal
  have rpp : classifyRpp .blank f = .ok s → NormalPlane s := by
    intro h
    obtain ⟨_, _, h⟩ := bindOk _ _ _ h; cases h; normal
  have rcc : classifyRcc .blank f = .ok s → NormalPlane s := by
    intro h
    obtain ⟨_, _, h⟩ := bindOk _ _ _ h; cases h; normal
  have box : classifyBox .blank f = .ok s → NormalPlane s := by
    intro h
    unfold classifyBox at h
    iterate 12 obtain ⟨_, _, h⟩ := bindOk _ _ _ h
    split at h <;> (cases h; normal)
  unfold classifyFields at h
  split at h
  · unfold classifySurfaceTypes at h
    split at h
    · unfold classifyGeneralPlanes at h
      split at h
      · obtain ⟨_, _, h⟩ := bindOk _ _ _ h
        obtain ⟨_, _, h⟩ := bindOk _ _ _ h
        cases h; normal
      · split at h
        · obtain ⟨_, _, h⟩ := bindOk _ _ _ h
          cases h; normal
        · cases h
    · exact xyz f h
    · obtain ⟨_, _, h⟩ := bindOk _ _ _ h; cases h; normal
    · unfold classifyXyzSphere at h
      repeat' split at h
      all_goals first
        | (obtain ⟨_, _, h⟩ := bindOk _ _ _ h
           obtain ⟨_, _, h⟩ := bindOk _ _ _ h
           cases h; normal)
        | (cases h; normal)
    · unfold classifyGq at h
      split at h
      · obtain ⟨_, _, h⟩ := bindOk _ _ _ h
        cases h; normal
      · split at h
        · iterate 10 obtain ⟨_, _, h⟩ := bindOk _ _ _ h
          cases h; normal
        · cases h; normal
    · exact sph h
    · cases h; normal
    · unfold classifyCylinderParallel at h
      repeat' split at h
      all_goals first
        | (obtain ⟨_, _, h⟩ := bindOk _ _ _ h; cases h; normal)
        | (cases h; normal)
    · exact cyl f h
    · unfold classifyConeParallel at h
      obtain ⟨_, _, h⟩ := bindOk _ _ _ h
      dsimp only at h
      split at h
      all_goals
        obtain ⟨_, _, h⟩ := bindOk _ _ _ h
        repeat' split at h
        all_goals (cases h; normal)
    · exact cone f h
    · unfold classifyTorus at h
      obtain ⟨_, _, h⟩ := bindOk _ _ _ h
      repeat' split at h
      all_goals (cases h; normal)
    · exact box h
    · exact rpp h
    · exact sph h
    · exact rcc h
    · have e2 : ∀ a1 r1 a2 r2 d, edp2 .blank f a1 r1 a2 r2 d = .ok s → NormalPlane s := by
        intro a1 r1 a2 r2 d h
        unfold edp2 at h
        split at h
        · exact xyz _ h
        · split at h
          · exact cyl _ h
          · exact cone _ h
      unfold classifyEdp at h
      split at h
      · obtain ⟨_, _, h⟩ := bindOk _ _ _ h
        repeat' split at h
        all_goals (cases h; try normal)
      · split at h
        · iterate 4 obtain ⟨_, _, h⟩ := bindOk _ _ _ h
          repeat' split at h
          all_goals first
            | exact e2 _ _ _ _ _ h
            | cases h
        · cases h; normal
  · unfold classifyMacrobodyTypes at h
    repeat' split at h
    · exact box h
    · exact rpp h
    · exact sph h
    · exact rcc h
    · cases h
  · cases h; normal

theorem face_normal {sqrt : K → K} {ty : SType} {cs : List K} {f : SType × List K} (hf : f ∈ faces sqrt ty cs) (n : Int) (o : Option Str) :
    NormalPlane { plainCard n f.1 f.2 with transform := o } := by
  unfold faces at hf
  split at hf
  · simp only [List.mem_cons, List.not_mem_nil, or_false] at hf
    rcases hf with rfl | rfl | rfl | rfl | rfl | rfl <;> normal
  · simp only [List.mem_cons, List.not_mem_nil, or_false] at hf
    rcases hf with rfl | rfl | rfl <;> normal
  · simp only [edgeFaces, List.cons_append, List.nil_append, List.mem_cons, List.not_mem_nil, or_false] at hf
    rcases hf with rfl | rfl | rfl | rfl | rfl | rfl <;> normal
  · cases hf

theorem simplify_normal {s s' : Surface K} (h : s.simplify = .ok s') (hs : NormalPlane s) : NormalPlane s' := by
  unfold Surface.simplify at h
  split at h
  · cases h; exact hs
  · split at h
    · iterate 4 obtain ⟨_, _, h⟩ := bind_ok h
      cases h
      normal
    · split at h
      · obtain ⟨_, _, h⟩ := bind_ok h
        cases h
        normal
      · cases h; exact hs

theorem generalise_type {s s' : Surface K} (h : s.generalise = .ok s') : s'.type ≠ .planeX ∧ s'.type ≠ .planeY ∧ s'.type ≠ .planeZ := by
  unfold Surface.generalise at h
  split at h
  · rename_i ht
    cases h
    refine ⟨?_, ?_, ?_⟩ <;> intro e <;> rw [e] at ht <;> cases ht
  · obtain ⟨cs, -, h⟩ := bind_ok h
    cases h
    refine ⟨?_, ?_, ?_⟩ <;> intro e <;> cases e

theorem applyTransformCard_normal {trs : List (Str × Transform K)} {s s' : Surface K} (h : s.applyTransformCard trs = .ok s') (hs : NormalPlane s) : NormalPlane s' := by
  unfold Surface.applyTransformCard at h
  split at h
  · cases h; exact hs
  · split at h
    · cases h; exact hs
    · obtain ⟨g, hg, h⟩ := bind_ok h
      have hg := generalise_type hg
      split at h
      · obtain ⟨m, hm, h⟩ := bind_ok h
        refine simplify_normal h (normalPlane_of_type ?_)
        unfold Surface.applyTransform at hm
        split at hm
        · cases hm; exact hg
        · obtain ⟨cs, -, hm⟩ := bind_ok hm
          cases hm
          exact hg
      · cases h
        exact normalPlane_of_type hg

theorem expressible_of {s : Surface K} (hw : WellFormed s) (hs : IsQuadric s.type ∨ ProperTorus s) (hn : NormalPlane s) (ht : TwoSheet s) : Expressible s := by
  obtain ⟨ty, id, tr, cs, bc, bb⟩ := s
  obtain ⟨n1, n2, n3⟩ := hn
  unfold WellFormed at hw
  have hlen : ∀ n, arity ty = some n → cs.length = n := fun n e => by rw [e] at hw; exact (Option.some.inj hw).symm
  have hcone : cs.length = 5 → (∀ x y z t w, cs = [x, y, z, t, w] → w = 0) → ∃ x y z t, cs = [x, y, z, t, 0] := by
    intro h5 h0
    obtain ⟨x, y, z, t, w, rfl⟩ : ∃ x y z t w, cs = [x, y, z, t, w] := by
      match cs, h5 with
      | [x, y, z, t, w], _ => exact ⟨x, y, z, t, w, rfl⟩
    exact ⟨x, y, z, t, by rw [h0 x y z t w rfl]⟩
  unfold Expressible
  cases ty <;> simp only at n1 n2 n3 hw ⊢
  case planeX => exact n1 trivial
  case planeY => exact n2 trivial
  case planeZ => exact n3 trivial
  case coneX => exact hcone (hlen 5 rfl) (by rintro x y z t w rfl; exact ht)
  case coneY => exact hcone (hlen 5 rfl) (by rintro x y z t w rfl; exact ht)
  case coneZ => exact hcone (hlen 5 rfl) (by rintro x y z t w rfl; exact ht)
  case unset => cases hw
  case macroRPP => rcases hs with h | ⟨h, -⟩ <;> cases h
  case macroBOX => rcases hs with h | ⟨h, -⟩ <;> cases h
  case macroRCC => rcases hs with h | ⟨h, -⟩ <;> cases h
  all_goals exact hlen _ rfl

end

section
variable {K : Type} [Field K] [LinearOrder K] [IsStrictOrderedRing K]
variable {fuel : Nat} {io : NumIO K} {cosDeg sqrt : K → K} {quick : Bool} {d d' : Deck K} {cells1 cells2 cells3 cells4 cells5 : List (Cell K)}
    {surfs1 surfs2 surfs3 surfs4 : List (Surface K)}

/-- The new list is made from the last one by leaving surfaces out. -/
theorem Run.left (r : Run fuel io cosDeg sqrt quick d d' cells1 cells2 cells3 cells4 cells5 surfs1 surfs2 surfs3 surfs4) : List.Sublist d'.surfaces surfs4 := by
  have e := r.dups
  cases quick with
  | true =>
    simp only [if_true] at e
    have e2 : surfs4 = d'.surfaces := by injection e with e; exact congrArg Prod.snd e
    rw [e2]
  | false =>
    simp only [Bool.false_eq_true, if_false] at e
    unfold dedupe at e
    obtain ⟨gs, -, e⟩ := bind_ok e
    obtain ⟨rs, -, e⟩ := bind_ok e
    obtain ⟨cs, h1, e⟩ := bind_ok e
    injection e with e
    have e2 : remaining surfs4 ((duplicates gs).map Prod.fst) = d'.surfaces := congrArg Prod.snd e
    rw [← e2]
    exact remaining_sublist surfs4 _

theorem Run.normal (r : Run fuel io cosDeg sqrt quick d d' cells1 cells2 cells3 cells4 cells5 surfs1 surfs2 surfs3 surfs4) (hio : Exact io) {rank : Int → Nat}
    (hd : ProperDeck sqrt rank d) (hn : ∀ s ∈ d.surfaces, NormalPlane s) : ∀ s ∈ d'.surfaces, NormalPlane s := by
  have h1 : ∀ s ∈ surfs1, NormalPlane s := by
    intro s hs
    have hf := r.flat
    unfold flatten at hf
    obtain ⟨⟨c1, more, l1⟩, h1, hf⟩ := bind_ok hf
    have hfaces := flattenGo_faces io hio cosDeg d.surfaces d.last d.cells (fun s hs hm => (hd.bodies s hs hm).1.shape) h1
    cases hf
    rcases List.mem_append.1 (List.mem_filter.1 hs).1 with hm | hm
    · exact hn s hm
    · obtain ⟨b, -, -, f, hf, e⟩ := hfaces s hm
      rw [e]
      exact face_normal hf _ _
  intro s hs
  obtain ⟨s2, hs2, e⟩ := forall₂_right r.surfFrame s (r.left.subset hs)
  obtain ⟨s1, hs1, e1⟩ := forall₂_right (mapM_ok_forall₂ r.move) s2 hs2
  unfold SurfFrame at e
  have := applyTransformCard_normal e1 (h1 s1 hs1)
  unfold NormalPlane at this ⊢
  rw [e]
  exact this

end

end Csg
