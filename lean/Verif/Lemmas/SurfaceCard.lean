import Verif.Model.SurfaceCard
import Verif.Spec.Mnemonic
import Verif.Lemmas.Num
import Verif.Lemmas.Surface
import Verif.Lemmas.Formatter
import Mathlib.Data.List.Forall2
import Mathlib.Tactic.FieldSimp

namespace Csg

open Spec

/-! ## Dispatch on the mnemonics -/

theorem mcnpType_p : mcnpType c!"p" = .infinite := by decide +kernel
theorem branch_p : branch c!"p" = .generalPlane := by decide +kernel
theorem mcnpType_px : mcnpType c!"px" = .infinite := by decide +kernel
theorem branch_px : branch c!"px" = .xyzPlane := by decide +kernel
theorem mcnpType_py : mcnpType c!"py" = .infinite := by decide +kernel
theorem branch_py : branch c!"py" = .xyzPlane := by decide +kernel
theorem mcnpType_pz : mcnpType c!"pz" = .infinite := by decide +kernel
theorem branch_pz : branch c!"pz" = .xyzPlane := by decide +kernel
theorem mcnpType_so : mcnpType c!"so" = .infinite := by decide +kernel
theorem branch_so : branch c!"so" = .originSphere := by decide +kernel
theorem mcnpType_s : mcnpType c!"s" = .infinite := by decide +kernel
theorem branch_s : branch c!"s" = .generalSphere := by decide +kernel
theorem mcnpType_sx : mcnpType c!"sx" = .infinite := by decide +kernel
theorem branch_sx : branch c!"sx" = .xyzSphere := by decide +kernel
theorem mcnpType_sy : mcnpType c!"sy" = .infinite := by decide +kernel
theorem branch_sy : branch c!"sy" = .xyzSphere := by decide +kernel
theorem mcnpType_sz : mcnpType c!"sz" = .infinite := by decide +kernel
theorem branch_sz : branch c!"sz" = .xyzSphere := by decide +kernel
theorem mcnpType_c_x : mcnpType c!"c/x" = .infinite := by decide +kernel
theorem branch_c_x : branch c!"c/x" = .cylinderParallel := by decide +kernel
theorem mcnpType_c_y : mcnpType c!"c/y" = .infinite := by decide +kernel
theorem branch_c_y : branch c!"c/y" = .cylinderParallel := by decide +kernel
theorem mcnpType_c_z : mcnpType c!"c/z" = .infinite := by decide +kernel
theorem branch_c_z : branch c!"c/z" = .cylinderParallel := by decide +kernel
theorem mcnpType_cx : mcnpType c!"cx" = .infinite := by decide +kernel
theorem branch_cx : branch c!"cx" = .cylinderOnAxis := by decide +kernel
theorem mcnpType_cy : mcnpType c!"cy" = .infinite := by decide +kernel
theorem branch_cy : branch c!"cy" = .cylinderOnAxis := by decide +kernel
theorem mcnpType_cz : mcnpType c!"cz" = .infinite := by decide +kernel
theorem branch_cz : branch c!"cz" = .cylinderOnAxis := by decide +kernel
theorem mcnpType_k_x : mcnpType c!"k/x" = .infinite := by decide +kernel
theorem branch_k_x : branch c!"k/x" = .coneParallel := by decide +kernel
theorem mcnpType_k_y : mcnpType c!"k/y" = .infinite := by decide +kernel
theorem branch_k_y : branch c!"k/y" = .coneParallel := by decide +kernel
theorem mcnpType_k_z : mcnpType c!"k/z" = .infinite := by decide +kernel
theorem branch_k_z : branch c!"k/z" = .coneParallel := by decide +kernel
theorem mcnpType_kx : mcnpType c!"kx" = .infinite := by decide +kernel
theorem branch_kx : branch c!"kx" = .coneOnAxis := by decide +kernel
theorem mcnpType_ky : mcnpType c!"ky" = .infinite := by decide +kernel
theorem branch_ky : branch c!"ky" = .coneOnAxis := by decide +kernel
theorem mcnpType_kz : mcnpType c!"kz" = .infinite := by decide +kernel
theorem branch_kz : branch c!"kz" = .coneOnAxis := by decide +kernel
theorem mcnpType_sq : mcnpType c!"sq" = .infinite := by decide +kernel
theorem branch_sq : branch c!"sq" = .gq := by decide +kernel
theorem mcnpType_gq : mcnpType c!"gq" = .infinite := by decide +kernel
theorem branch_gq : branch c!"gq" = .gq := by decide +kernel
theorem mcnpType_tx : mcnpType c!"tx" = .infinite := by decide +kernel
theorem branch_tx : branch c!"tx" = .torus := by decide +kernel
theorem mcnpType_ty : mcnpType c!"ty" = .infinite := by decide +kernel
theorem branch_ty : branch c!"ty" = .torus := by decide +kernel
theorem mcnpType_tz : mcnpType c!"tz" = .infinite := by decide +kernel
theorem branch_tz : branch c!"tz" = .torus := by decide +kernel
theorem mcnpType_x : mcnpType c!"x" = .infinite := by decide +kernel
theorem branch_x : branch c!"x" = .edp := by decide +kernel
theorem mcnpType_y : mcnpType c!"y" = .infinite := by decide +kernel
theorem branch_y : branch c!"y" = .edp := by decide +kernel
theorem mcnpType_z : mcnpType c!"z" = .infinite := by decide +kernel
theorem branch_z : branch c!"z" = .edp := by decide +kernel
theorem mcnpType_rpp : mcnpType c!"rpp" = .macrobody := by decide +kernel
theorem mcnpType_box : mcnpType c!"box" = .macrobody := by decide +kernel
theorem mcnpType_sph : mcnpType c!"sph" = .macrobody := by decide +kernel
theorem mcnpType_rcc : mcnpType c!"rcc" = .macrobody := by decide +kernel

section
variable {K : Type} [Field K]

omit [Field K] in
/-- Words that stand for numbers are as good as the numbers. -/
theorem ofWords_eq (io : NumIO K) (ws : List Str) (cs : List K) (h : Reads io ws cs) :
    Coeffs.ofWords io ws = Coeffs.ofValues cs := by
  unfold Coeffs.ofWords Coeffs.ofValues
  congr 1
  · exact h.length_eq
  · funext i
    induction h generalizing i with
    | nil => rfl
    | @cons w c ws cs hw _ ih =>
      cases i with
      | zero => simp [pyGet, bind, Except.bind, NumIO.float, hw]
      | succ i => simpa [pyGet] using ih i

end

section
variable {K : Type} [Field K] [LinearOrder K]

/-- All simplifications needed to run `classifyFields` on a card with a known mnemonic. -/
macro "run_classify" : tactic => `(tactic|
  simp only [classifyFields, classifySurfaceTypes, classifyMacrobodyTypes, mcnpType_p, branch_p, mcnpType_px, branch_px, mcnpType_py, branch_py, mcnpType_pz, branch_pz, mcnpType_so, branch_so, mcnpType_s, branch_s, mcnpType_sx, branch_sx, mcnpType_sy, branch_sy, mcnpType_sz, branch_sz, mcnpType_c_x, branch_c_x, mcnpType_c_y, branch_c_y, mcnpType_c_z, branch_c_z, mcnpType_cx, branch_cx, mcnpType_cy, branch_cy, mcnpType_cz, branch_cz, mcnpType_k_x, branch_k_x, mcnpType_k_y, branch_k_y, mcnpType_k_z, branch_k_z, mcnpType_kx, branch_kx, mcnpType_ky, branch_ky, mcnpType_kz, branch_kz, mcnpType_sq, branch_sq, mcnpType_gq, branch_gq, mcnpType_tx, branch_tx, mcnpType_ty, branch_ty, mcnpType_tz, branch_tz, mcnpType_x, branch_x, mcnpType_y, branch_y, mcnpType_z, branch_z, mcnpType_rpp, mcnpType_box, mcnpType_sph, mcnpType_rcc])

/-- The steps that remain once the branch is known. -/
macro "run_card" : tactic => `(tactic|
  simp [classifyGeneralPlanes, classifyXyzPlanes, classifyOriginSphere, classifyXyzSphere, classifyGq,
    classifyGeneralSphere, classifyCylinderParallel, classifyCylinderOnAxis, classifyConeParallel, classifyConeOnAxis,
    classifyTorus, classifyRpp, classifyRcc, Coeffs.first, Coeffs.ofValues, pyGet, bind, Except.bind, hasInfix,
    Surface.setFrom, Surface.setType, Surface.blank])

/-- Cards with the mnemonics of the list are stored with the equation of the manual. -/
theorem classifyFields_value (id : Int) (tr : Option Str) (mn : Mn) (cs : List K)
    (h : (mcnpValue mn cs ⟨0, 0, 0⟩).isSome = true) :
    ∃ s : Surface K, classifyFields ⟨id, tr, mn.word, .ofValues cs⟩ = .ok s ∧ s.id = id ∧ s.transform = tr ∧
      WellFormed s ∧ IsQuadric s.type ∧ TwoSheet s ∧ ∀ p, value s.type s.coeffs p = mcnpValue mn cs p := by
  cases mn <;> simp only [mcnpValue] at h <;> split at h
  all_goals first
    | (simp at h; done)
    | (simp only [Mn.word]
       run_classify
       run_card
       refine ⟨rfl, trivial, ?_, fun p => ?_⟩
       · simp [TwoSheet]
       · simp only [value, mcnpValue, Option.some.injEq] <;> ring)

/-- Cones with a sheet selector are stored with the selector. -/
theorem classifyFields_cone (id : Int) (tr : Option Str) (mn : Mn) (cs : List K)
    (h : (mcnpCone mn cs ⟨0, 0, 0⟩).isSome = true) :
    ∃ s : Surface K, classifyFields ⟨id, tr, mn.word, .ofValues cs⟩ = .ok s ∧ s.id = id ∧ s.transform = tr ∧
      WellFormed s ∧ IsQuadric s.type ∧ ∀ p x₀ x v w, mcnpCone mn cs p = some (x₀, x, v, w) →
        value s.type s.coeffs p = some v ∧ sheet s.type s.coeffs p = some (w, w * (x - x₀)) := by
  cases mn <;> simp only [mcnpCone] at h
  all_goals first
    | (simp at h; done)
    | (split at h
       all_goals first
         | (simp at h; done)
         | (simp only [Mn.word]
            run_classify
            run_card
            refine ⟨rfl, trivial, fun p x₀ x v w hc => ?_⟩
            simp only [mcnpCone, Option.some.injEq, Prod.mk.injEq] at hc
            obtain ⟨rfl, rfl, rfl, rfl⟩ := hc
            refine ⟨?_, rfl⟩
            simp only [value, Option.some.injEq] <;> ring))

/-- No card is ever read with a boundary condition. -/
theorem classifyFields_bc (f : Fields K) (s : Surface K) (h : classifyFields f = .ok s) : s.bc = .transmission := by
  have hset : ∀ ty cs, ((Surface.blank : Surface K).setFrom f ty cs).bc = .transmission := fun _ _ => rfl
  have hb : (Surface.blank : Surface K).bc = .transmission := rfl
  have bindOk : ∀ {α β : Type} (m : Py α) (g : α → Py β) (b : β), (m >>= g) = .ok b → ∃ a, m = .ok a ∧ g a = .ok b := by
    intro α β m g b hm
    cases m with
    | error e => cases hm
    | ok a => exact ⟨a, rfl, hm⟩
  have xyz : ∀ f' : Fields K, classifyXyzPlanes .blank f' = .ok s → s.bc = .transmission := by
    intro f' h
    unfold classifyXyzPlanes at h
    repeat' split at h
    all_goals first
      | (obtain ⟨_, _, h⟩ := bindOk _ _ _ h; cases h; rfl)
      | (cases h; rfl)
  have cyl : ∀ f' : Fields K, classifyCylinderOnAxis .blank f' = .ok s → s.bc = .transmission := by
    intro f' h
    unfold classifyCylinderOnAxis at h
    repeat' split at h
    all_goals first
      | (obtain ⟨_, _, h⟩ := bindOk _ _ _ h; cases h; rfl)
      | (cases h; rfl)
  have cone : ∀ f' : Fields K, classifyConeOnAxis .blank f' = .ok s → s.bc = .transmission := by
    intro f' h
    unfold classifyConeOnAxis at h
    repeat' split at h
    all_goals first
      | (obtain ⟨_, _, h⟩ := bindOk _ _ _ h
         obtain ⟨_, _, h⟩ := bindOk _ _ _ h
         obtain ⟨_, _, h⟩ := bindOk _ _ _ h
         cases h; rfl)
      | (cases h; rfl)
  have sph : classifyGeneralSphere .blank f = .ok s → s.bc = .transmission := by
    intro h
    obtain ⟨_, _, h⟩ := bindOk _ _ _ h; cases h; rfl
  have rpp : classifyRpp .blank f = .ok s → s.bc = .transmission := by
    intro h
    obtain ⟨_, _, h⟩ := bindOk _ _ _ h; cases h; rfl
  have rcc : classifyRcc .blank f = .ok s → s.bc = .transmission := by
    intro h
    obtain ⟨_, _, h⟩ := bindOk _ _ _ h; cases h; rfl
  have box : classifyBox .blank f = .ok s → s.bc = .transmission := by
    intro h
    unfold classifyBox at h
    iterate 12 obtain ⟨_, _, h⟩ := bindOk _ _ _ h
    split at h <;> (cases h; rfl)
  unfold classifyFields at h
  split at h
  · unfold classifySurfaceTypes at h
    split at h
    · unfold classifyGeneralPlanes at h
      split at h
      · obtain ⟨_, _, h⟩ := bindOk _ _ _ h
        obtain ⟨_, _, h⟩ := bindOk _ _ _ h
        cases h; rfl
      · split at h
        · obtain ⟨_, _, h⟩ := bindOk _ _ _ h
          cases h; rfl
        · cases h
    · exact xyz f h
    · obtain ⟨_, _, h⟩ := bindOk _ _ _ h; cases h; rfl
    · unfold classifyXyzSphere at h
      repeat' split at h
      all_goals first
        | (obtain ⟨_, _, h⟩ := bindOk _ _ _ h
           obtain ⟨_, _, h⟩ := bindOk _ _ _ h
           cases h; rfl)
        | (cases h; rfl)
    · unfold classifyGq at h
      split at h
      · obtain ⟨_, _, h⟩ := bindOk _ _ _ h
        cases h; rfl
      · split at h
        · iterate 10 obtain ⟨_, _, h⟩ := bindOk _ _ _ h
          cases h; rfl
        · cases h; rfl
    · exact sph h
    · cases h; rfl
    · unfold classifyCylinderParallel at h
      repeat' split at h
      all_goals first
        | (obtain ⟨_, _, h⟩ := bindOk _ _ _ h; cases h; rfl)
        | (cases h; rfl)
    · exact cyl f h
    · unfold classifyConeParallel at h
      obtain ⟨_, _, h⟩ := bindOk _ _ _ h
      dsimp only at h
      split at h
      all_goals
        obtain ⟨_, _, h⟩ := bindOk _ _ _ h
        repeat' split at h
        all_goals (cases h; rfl)
    · exact cone f h
    · unfold classifyTorus at h
      obtain ⟨_, _, h⟩ := bindOk _ _ _ h
      repeat' split at h
      all_goals (cases h; rfl)
    · exact box h
    · exact rpp h
    · exact sph h
    · exact rcc h
    · have e2 : ∀ a1 r1 a2 r2 d, edp2 .blank f a1 r1 a2 r2 d = .ok s → s.bc = .transmission := by
        intro a1 r1 a2 r2 d h
        unfold edp2 at h
        split at h
        · exact xyz _ h
        · split at h
          · exact cyl _ h
          · exact cone _ h
      unfold classifyEdp at h
      split at h
      · obtain ⟨_, _, h⟩ := bindOk _ _ _ h
        repeat' split at h
        all_goals (cases h; try rfl)
      · split at h
        · iterate 4 obtain ⟨_, _, h⟩ := bindOk _ _ _ h
          repeat' split at h
          all_goals first
            | exact e2 _ _ _ _ _ h
            | cases h
        · cases h; rfl
  · unfold classifyMacrobodyTypes at h
    repeat' split at h
    · exact box h
    · exact rpp h
    · exact sph h
    · exact rcc h
    · cases h
  · cases h; rfl

/-- The limits of a surface that is read are zero. -/
theorem classifyFields_bbox (f : Fields K) (s : Surface K) (h : classifyFields f = .ok s) : s.bbox = [0, 0, 0, 0, 0, 0] := by
  have hset : ∀ ty cs, ((Surface.blank : Surface K).setFrom f ty cs).bbox = [0, 0, 0, 0, 0, 0] := fun _ _ => rfl
  have hb : (Surface.blank : Surface K).bbox = [0, 0, 0, 0, 0, 0] := rfl
  have bindOk : ∀ {α β : Type} (m : Py α) (g : α → Py β) (b : β), (m >>= g) = .ok b → ∃ a, m = .ok a ∧ g a = .ok b := by
    intro α β m g b hm
    cases m with
    | error e => cases hm
    | ok a => exact ⟨a, rfl, hm⟩
  have xyz : ∀ f' : Fields K, classifyXyzPlanes .blank f' = .ok s → s.bbox = [0, 0, 0, 0, 0, 0] := by
    intro f' h
    unfold classifyXyzPlanes at h
    repeat' split at h
    all_goals first
      | (obtain ⟨_, _, h⟩ := bindOk _ _ _ h; cases h; rfl)
      | (cases h; rfl)
  have cyl : ∀ f' : Fields K, classifyCylinderOnAxis .blank f' = .ok s → s.bbox = [0, 0, 0, 0, 0, 0] := by
    intro f' h
    unfold classifyCylinderOnAxis at h
    repeat' split at h
    all_goals first
      | (obtain ⟨_, _, h⟩ := bindOk _ _ _ h; cases h; rfl)
      | (cases h; rfl)
  have cone : ∀ f' : Fields K, classifyConeOnAxis .blank f' = .ok s → s.bbox = [0, 0, 0, 0, 0, 0] := by
    intro f' h
    unfold classifyConeOnAxis at h
    repeat' split at h
    all_goals first
      | (obtain ⟨_, _, h⟩ := bindOk _ _ _ h
         obtain ⟨_, _, h⟩ := bindOk _ _ _ h
         obtain ⟨_, _, h⟩ := bindOk _ _ _ h
         cases h; rfl)
      | (cases h; rfl)
  have sph : classifyGeneralSphere .blank f = .ok s → s.bbox = [0, 0, 0, 0, 0, 0] := by
    intro h
    obtain ⟨_, _, h⟩ := bindOk _ _ _ h; cases h; rfl
  have rpp : classifyRpp .blank f = .ok s → s.bbox = [0, 0, 0, 0, 0, 0] := by
    intro h
    obtain ⟨_, _, h⟩ := bindOk _ _ _ h; cases h; rfl
  have rcc : classifyRcc .blank f = .ok s → s.bbox = [0, 0, 0, 0, 0, 0] := by
    intro h
    obtain ⟨_, _, h⟩ := bindOk _ _ _ h; cases h; rfl
  have box : classifyBox .blank f = .ok s → s.bbox = [0, 0, 0, 0, 0, 0] := by
    intro h
    unfold classifyBox at h
    iterate 12 obtain ⟨_, _, h⟩ := bindOk _ _ _ h
    split at h <;> (cases h; rfl)
  unfold classifyFields at h
  split at h
  · unfold classifySurfaceTypes at h
    split at h
    · unfold classifyGeneralPlanes at h
      split at h
      · obtain ⟨_, _, h⟩ := bindOk _ _ _ h
        obtain ⟨_, _, h⟩ := bindOk _ _ _ h
        cases h; rfl
      · split at h
        · obtain ⟨_, _, h⟩ := bindOk _ _ _ h
          cases h; rfl
        · cases h
    · exact xyz f h
    · obtain ⟨_, _, h⟩ := bindOk _ _ _ h; cases h; rfl
    · unfold classifyXyzSphere at h
      repeat' split at h
      all_goals first
        | (obtain ⟨_, _, h⟩ := bindOk _ _ _ h
           obtain ⟨_, _, h⟩ := bindOk _ _ _ h
           cases h; rfl)
        | (cases h; rfl)
    · unfold classifyGq at h
      split at h
      · obtain ⟨_, _, h⟩ := bindOk _ _ _ h
        cases h; rfl
      · split at h
        · iterate 10 obtain ⟨_, _, h⟩ := bindOk _ _ _ h
          cases h; rfl
        · cases h; rfl
    · exact sph h
    · cases h; rfl
    · unfold classifyCylinderParallel at h
      repeat' split at h
      all_goals first
        | (obtain ⟨_, _, h⟩ := bindOk _ _ _ h; cases h; rfl)
        | (cases h; rfl)
    · exact cyl f h
    · unfold classifyConeParallel at h
      obtain ⟨_, _, h⟩ := bindOk _ _ _ h
      dsimp only at h
      split at h
      all_goals
        obtain ⟨_, _, h⟩ := bindOk _ _ _ h
        repeat' split at h
        all_goals (cases h; rfl)
    · exact cone f h
    · unfold classifyTorus at h
      obtain ⟨_, _, h⟩ := bindOk _ _ _ h
      repeat' split at h
      all_goals (cases h; rfl)
    · exact box h
    · exact rpp h
    · exact sph h
    · exact rcc h
    · have e2 : ∀ a1 r1 a2 r2 d, edp2 .blank f a1 r1 a2 r2 d = .ok s → s.bbox = [0, 0, 0, 0, 0, 0] := by
        intro a1 r1 a2 r2 d h
        unfold edp2 at h
        split at h
        · exact xyz _ h
        · split at h
          · exact cyl _ h
          · exact cone _ h
      unfold classifyEdp at h
      split at h
      · obtain ⟨_, _, h⟩ := bindOk _ _ _ h
        repeat' split at h
        all_goals (cases h; try rfl)
      · split at h
        · iterate 4 obtain ⟨_, _, h⟩ := bindOk _ _ _ h
          repeat' split at h
          all_goals first
            | exact e2 _ _ _ _ _ h
            | cases h
        · cases h; rfl
  · unfold classifyMacrobodyTypes at h
    repeat' split at h
    · exact box h
    · exact rpp h
    · exact sph h
    · exact rcc h
    · cases h
  · cases h; rfl

omit [Field K] [LinearOrder K] in
theorem stripDollar_words {text : Str} {ws : List Str} (h : Words text ws) : split (stripDollar text) = ws := by
  obtain ⟨body, comment, ht, hb, hw⟩ := h
  rcases ht with rfl | rfl
  · unfold stripDollar
    rw [findChar_not_mem _ _ hb]; simpa using hw
  · unfold stripDollar
    rw [findChar_append _ _ _ hb]
    have : ((body.length : Int) = -1) = False := by simp
    simp only [this, if_false]
    simpa [sliceTo] using hw

theorem classify_isCard (io : NumIO K) (text : Str) (n : Int) (tr : Option Str) (mn : Str) (ws : List Str)
    (hc : IsCard io text n tr mn ws) :
    classify io text = classifyFields ⟨n, tr, mn, .ofWords io ws⟩ := by
  obtain ⟨w₀, hn, hs, h⟩ := hc
  have hs' : w₀.elem '*' = false := by simpa using hs
  unfold classify
  cases tr with
  | none =>
    obtain ⟨hw, hm⟩ := h
    rw [stripDollar_words hw]
    simp only [readFields, pyGet, List.getElem?_cons_zero, bind, Except.bind, hs', pyInt, hn, hasTransform,
      List.getElem?_cons_succ, hm, Option.isSome_none, List.drop_succ_cons, List.drop_zero, Bool.false_eq_true, if_false]
  | some t =>
    obtain ⟨hw, hm⟩ := h
    rw [stripDollar_words hw]
    simp only [readFields, pyGet, List.getElem?_cons_zero, bind, Except.bind, hs', pyInt, hn, hasTransform,
      List.getElem?_cons_succ, hm, List.drop_succ_cons, List.drop_zero, Bool.false_eq_true, if_false, if_true]

theorem classify_isStarCard (io : NumIO K) (text : Str) (n : Int) (tr : Option Str) (mn : Str) (ws : List Str)
    (hc : IsStarCard io text n tr mn ws) :
    classify io text = classifyFields ⟨n, tr, mn, .ofWords io ws⟩ := by
  obtain ⟨w₀, hn, hs, h⟩ := hc
  have hs' : ('*' :: w₀).elem '*' = true := by simp
  have hf : ('*' :: w₀).filter (· ≠ '*') = w₀ := by
    rw [List.filter_cons_of_neg (by simp)]
    rw [List.filter_eq_self]
    intro a ha
    simp only [ne_eq, decide_not, Bool.not_eq_eq_eq_not, Bool.not_true, decide_eq_false_iff_not]
    rintro rfl; exact hs ha
  unfold classify
  cases tr with
  | none =>
    obtain ⟨hw, hm⟩ := h
    rw [stripDollar_words hw]
    simp only [readFields, pyGet, List.getElem?_cons_zero, bind, Except.bind, hs', hf, pyInt, hn, hasTransform,
      List.getElem?_cons_succ, hm, Option.isSome_none, List.drop_succ_cons, List.drop_zero, Bool.false_eq_true, if_false, if_true]
  | some t =>
    obtain ⟨hw, hm⟩ := h
    rw [stripDollar_words hw]
    simp only [readFields, pyGet, List.getElem?_cons_zero, bind, Except.bind, hs', hf, pyInt, hn, hasTransform,
      List.getElem?_cons_succ, hm, List.drop_succ_cons, List.drop_zero, if_true]

end

section
variable {K : Type} [Field K] [LinearOrder K] [IsStrictOrderedRing K]

/-- The scaling loop multiplies all four numbers by one factor and fixes the sense. -/
theorem scalePlane_spec (c0 c1 c2 c3 : K) :
    ∃ A B C D k, scalePlane c0 c1 c2 c3 = [A, B, C, D] ∧ A = c0 * k ∧ B = c1 * k ∧ C = c2 * k ∧ D = c3 * k ∧
      (¬ (c0 = 0 ∧ c1 = 0 ∧ c2 = 0) → (A ≠ 0 ∨ B ≠ 0 ∨ C ≠ 0) ∧ PlaneSense A B C D) := by
  by_cases h3 : c3 = 0
  · by_cases h2 : c2 = 0
    · by_cases h1 : c1 = 0
      · by_cases h0 : c0 = 0
        · refine ⟨0, 0, 0, 0, 0, ?_, by simp, by simp, by simp, by simp, fun h => absurd ⟨h0, h1, h2⟩ h⟩
          simp [scalePlane, scaleStep, h0, h1, h2, h3]
        · refine ⟨1, 0, 0, 0, 1 / c0, ?_, ?_, ?_, ?_, ?_, fun _ => ⟨Or.inl one_ne_zero, ?_⟩⟩
          · simp [scalePlane, scaleStep, h0, h1, h2, h3]
          · field_simp
          · simp [h1]
          · simp [h2]
          · simp [h3]
          · exact Or.inr ⟨rfl, Or.inr ⟨rfl, Or.inr ⟨rfl, zero_lt_one⟩⟩⟩
      · refine ⟨c0 * (1 / c1), 1, 0, 0, 1 / c1, ?_, rfl, ?_, ?_, ?_, fun _ => ⟨Or.inr (Or.inl one_ne_zero), ?_⟩⟩
        · simp [scalePlane, scaleStep, h1, h2, h3]
        · field_simp
        · simp [h2]
        · simp [h3]
        · exact Or.inr ⟨rfl, Or.inr ⟨rfl, Or.inl zero_lt_one⟩⟩
    · refine ⟨c0 * (1 / c2), c1 * (1 / c2), 1, 0, 1 / c2, ?_, rfl, rfl, ?_, ?_,
        fun _ => ⟨Or.inr (Or.inr one_ne_zero), ?_⟩⟩
      · simp [scalePlane, scaleStep, h2, h3]
      · field_simp
      · simp [h3]
      · exact Or.inr ⟨rfl, Or.inl zero_lt_one⟩
  · refine ⟨c0 * (1 / c3), c1 * (1 / c3), c2 * (1 / c3), 1, 1 / c3, ?_, rfl, rfl, rfl, ?_, fun h => ⟨?_, ?_⟩⟩
    · simp [scalePlane, scaleStep, h3]
    · field_simp
    · by_contra hn
      simp only [not_or, not_not] at hn
      have hi : (1 / c3 : K) ≠ 0 := one_div_ne_zero h3
      apply h
      refine ⟨?_, ?_, ?_⟩
      · exact (mul_eq_zero.1 hn.1).resolve_right hi
      · exact (mul_eq_zero.1 hn.2.1).resolve_right hi
      · exact (mul_eq_zero.1 hn.2.2).resolve_right hi
    · exact Or.inl zero_lt_one

end

end Csg
