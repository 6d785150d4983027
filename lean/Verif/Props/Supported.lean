import Mathlib.Data.List.Infix
import Verif.Lemmas.SurfaceCard
import Verif.Lemmas.CellText
import Verif.Spec.Supported

/-!
# C97: cards of surfaces that the program is not made for
-/

set_option linter.unusedSectionVars false

namespace Csg

open Spec

section
variable {K : Type} [Field K] [LinearOrder K]

private def Set' (f : Fields K) (s : Surface K) : Prop := ∃ ty cs, ty ≠ SType.unset ∧ s = (Surface.blank : Surface K).setFrom f ty cs

private theorem bindOk {α β : Type} {m : Py α} {g : α → Py β} {b : β} (h : (m >>= g) = .ok b) : ∃ a, m = .ok a ∧ g a = .ok b := by
  cases m with
  | error e => cases h
  | ok a => exact ⟨a, rfl, h⟩

private def parts (s : Str) : List Str := s.inits.flatMap List.tails

private theorem mem_parts {t s : Str} (h : hasInfix t s = true) : t ∈ parts s := by
  obtain ⟨a, b, e⟩ := (hasInfix_iff t s).1 h
  rw [parts, List.mem_flatMap]
  refine ⟨a ++ t, ?_, ?_⟩
  · rw [List.mem_inits]
    exact ⟨b, e.symm⟩
  · rw [List.mem_tails]
    exact ⟨a, rfl⟩

private theorem xyzPlanes {f : Fields K} {s : Surface K} (h : classifyXyzPlanes .blank f = .ok s) : Set' f s ∧ f.type ∈ supportedMnemonics ∨ s = .blank ∧ f.type ∉ [c!"px", c!"py", c!"pz"] := by
  unfold classifyXyzPlanes at h
  split at h
  · rename_i ht
    obtain ⟨_, _, h⟩ := bindOk h
    cases h
    exact .inl ⟨⟨_, _, by decide, rfl⟩, by rw [ht]; decide⟩
  split at h
  · rename_i ht
    obtain ⟨_, _, h⟩ := bindOk h
    cases h
    exact .inl ⟨⟨_, _, by decide, rfl⟩, by rw [ht]; decide⟩
  split at h
  · rename_i ht
    obtain ⟨_, _, h⟩ := bindOk h
    cases h
    exact .inl ⟨⟨_, _, by decide, rfl⟩, by rw [ht]; decide⟩
  · rename_i h1 h2 h3
    cases h
    exact .inr ⟨rfl, by simp only [List.mem_cons, List.not_mem_nil, or_false, not_or]; exact ⟨h1, h2, h3⟩⟩

private theorem cylinders {f : Fields K} {s : Surface K} (h : classifyCylinderOnAxis .blank f = .ok s) : Set' f s ∧ f.type ∈ supportedMnemonics ∨ s = .blank ∧ f.type ∉ [c!"cx", c!"cy", c!"cz"] := by
  unfold classifyCylinderOnAxis at h
  split at h
  · rename_i ht
    obtain ⟨_, _, h⟩ := bindOk h
    cases h
    exact .inl ⟨⟨_, _, by decide, rfl⟩, by rw [ht]; decide⟩
  split at h
  · rename_i ht
    obtain ⟨_, _, h⟩ := bindOk h
    cases h
    exact .inl ⟨⟨_, _, by decide, rfl⟩, by rw [ht]; decide⟩
  split at h
  · rename_i ht
    obtain ⟨_, _, h⟩ := bindOk h
    cases h
    exact .inl ⟨⟨_, _, by decide, rfl⟩, by rw [ht]; decide⟩
  · rename_i h1 h2 h3
    cases h
    exact .inr ⟨rfl, by simp only [List.mem_cons, List.not_mem_nil, or_false, not_or]; exact ⟨h1, h2, h3⟩⟩

private theorem cones {f : Fields K} {s : Surface K} (h : classifyConeOnAxis .blank f = .ok s) : Set' f s ∧ f.type ∈ supportedMnemonics ∨ s = .blank ∧ f.type ∉ [c!"kx", c!"ky", c!"kz"] := by
  unfold classifyConeOnAxis at h
  split at h
  · rename_i ht
    obtain ⟨_, _, h⟩ := bindOk h
    obtain ⟨_, _, h⟩ := bindOk h
    extract_lets at h
    split at h <;>
    · obtain ⟨_, _, h⟩ := bindOk h
      cases h
      exact .inl ⟨⟨_, _, by decide, rfl⟩, by rw [ht]; decide⟩
  split at h
  · rename_i ht
    obtain ⟨_, _, h⟩ := bindOk h
    obtain ⟨_, _, h⟩ := bindOk h
    extract_lets at h
    split at h <;>
    · obtain ⟨_, _, h⟩ := bindOk h
      cases h
      exact .inl ⟨⟨_, _, by decide, rfl⟩, by rw [ht]; decide⟩
  split at h
  · rename_i ht
    obtain ⟨_, _, h⟩ := bindOk h
    obtain ⟨_, _, h⟩ := bindOk h
    extract_lets at h
    split at h <;>
    · obtain ⟨_, _, h⟩ := bindOk h
      cases h
      exact .inl ⟨⟨_, _, by decide, rfl⟩, by rw [ht]; decide⟩
  · rename_i h1 h2 h3
    cases h
    exact .inr ⟨rfl, by simp only [List.mem_cons, List.not_mem_nil, or_false, not_or]; exact ⟨h1, h2, h3⟩⟩

private theorem parallels {f : Fields K} {s : Surface K} (h : classifyCylinderParallel .blank f = .ok s) : Set' f s ∧ f.type ∈ supportedMnemonics ∨ s = .blank ∧ f.type ∉ [c!"c/x", c!"c/y", c!"c/z"] := by
  unfold classifyCylinderParallel at h
  split at h
  · rename_i ht
    obtain ⟨_, _, h⟩ := bindOk h
    cases h
    exact .inl ⟨⟨_, _, by decide, rfl⟩, by rw [ht]; decide⟩
  split at h
  · rename_i ht
    obtain ⟨_, _, h⟩ := bindOk h
    cases h
    exact .inl ⟨⟨_, _, by decide, rfl⟩, by rw [ht]; decide⟩
  split at h
  · rename_i ht
    obtain ⟨_, _, h⟩ := bindOk h
    cases h
    exact .inl ⟨⟨_, _, by decide, rfl⟩, by rw [ht]; decide⟩
  · rename_i h1 h2 h3
    cases h
    exact .inr ⟨rfl, by simp only [List.mem_cons, List.not_mem_nil, or_false, not_or]; exact ⟨h1, h2, h3⟩⟩

private theorem coneParallels {f : Fields K} {s : Surface K} (h : classifyConeParallel .blank f = .ok s) : Set' f s ∧ f.type ∈ supportedMnemonics ∨ s = .blank ∧ f.type ∉ [c!"k/x", c!"k/y", c!"k/z"] := by
  have key : ∀ (l : List K) w, (if f.type = c!"k/x" then Except.ok ((Surface.blank : Surface K).setFrom f .coneX (l ++ [w])) else if f.type = c!"k/y" then .ok ((Surface.blank : Surface K).setFrom f .coneY (l ++ [w]))
      else if f.type = c!"k/z" then .ok ((Surface.blank : Surface K).setFrom f .coneZ (l ++ [w])) else .ok Surface.blank : Py (Surface K)) = .ok s →
      Set' f s ∧ f.type ∈ supportedMnemonics ∨ s = .blank ∧ f.type ∉ [c!"k/x", c!"k/y", c!"k/z"] := by
    intro l w h
    split at h
    · rename_i ht
      cases h
      exact .inl ⟨⟨_, _, by decide, rfl⟩, by rw [ht]; decide⟩
    split at h
    · rename_i ht
      cases h
      exact .inl ⟨⟨_, _, by decide, rfl⟩, by rw [ht]; decide⟩
    split at h
    · rename_i ht
      cases h
      exact .inl ⟨⟨_, _, by decide, rfl⟩, by rw [ht]; decide⟩
    · rename_i h1 h2 h3
      cases h
      exact .inr ⟨rfl, by simp only [List.mem_cons, List.not_mem_nil, or_false, not_or]; exact ⟨h1, h2, h3⟩⟩
  unfold classifyConeParallel at h
  obtain ⟨_, _, h⟩ := bindOk h
  extract_lets at h
  split at h <;>
  · obtain ⟨_, _, h⟩ := bindOk h
    exact key _ _ h

private theorem tori {f : Fields K} {s : Surface K} (h : classifyTorus .blank f = .ok s) : Set' f s ∧ f.type ∈ supportedMnemonics ∨ s = .blank ∧ f.type ∉ [c!"tx", c!"ty", c!"tz"] := by
  unfold classifyTorus at h
  obtain ⟨_, _, h⟩ := bindOk h
  split at h
  · rename_i ht
    cases h
    exact .inl ⟨⟨_, _, by decide, rfl⟩, by rw [ht]; decide⟩
  split at h
  · rename_i ht
    cases h
    exact .inl ⟨⟨_, _, by decide, rfl⟩, by rw [ht]; decide⟩
  split at h
  · rename_i ht
    cases h
    exact .inl ⟨⟨_, _, by decide, rfl⟩, by rw [ht]; decide⟩
  · rename_i h1 h2 h3
    cases h
    exact .inr ⟨rfl, by simp only [List.mem_cons, List.not_mem_nil, or_false, not_or]; exact ⟨h1, h2, h3⟩⟩

private theorem spheres {f : Fields K} {s : Surface K} (h : classifyXyzSphere .blank f = .ok s) : Set' f s ∧ f.type ∈ supportedMnemonics ∨ s = .blank ∧ f.type ∉ [c!"sx", c!"sy", c!"sz"] := by
  unfold classifyXyzSphere at h
  split at h
  · rename_i ht
    obtain ⟨_, _, h⟩ := bindOk h
    obtain ⟨_, _, h⟩ := bindOk h
    cases h
    exact .inl ⟨⟨_, _, by decide, rfl⟩, by rw [ht]; decide⟩
  split at h
  · rename_i ht
    obtain ⟨_, _, h⟩ := bindOk h
    obtain ⟨_, _, h⟩ := bindOk h
    cases h
    exact .inl ⟨⟨_, _, by decide, rfl⟩, by rw [ht]; decide⟩
  split at h
  · rename_i ht
    obtain ⟨_, _, h⟩ := bindOk h
    obtain ⟨_, _, h⟩ := bindOk h
    cases h
    exact .inl ⟨⟨_, _, by decide, rfl⟩, by rw [ht]; decide⟩
  · rename_i h1 h2 h3
    cases h
    exact .inr ⟨rfl, by simp only [List.mem_cons, List.not_mem_nil, or_false, not_or]; exact ⟨h1, h2, h3⟩⟩

private theorem quadrics {f : Fields K} {s : Surface K} (h : classifyGq .blank f = .ok s) : Set' f s ∧ f.type ∈ supportedMnemonics ∨ s = .blank ∧ f.type ∉ [c!"gq", c!"sq"] := by
  unfold classifyGq at h
  split at h
  · rename_i ht
    obtain ⟨_, _, h⟩ := bindOk h
    cases h
    exact .inl ⟨⟨_, _, by decide, rfl⟩, by rw [ht]; decide⟩
  split at h
  · rename_i ht
    iterate 10 obtain ⟨_, _, h⟩ := bindOk h
    cases h
    exact .inl ⟨⟨_, _, by decide, rfl⟩, by rw [ht]; decide⟩
  · rename_i h1 h2
    cases h
    exact .inr ⟨rfl, by simp only [List.mem_cons, List.not_mem_nil, or_false, not_or]; exact ⟨h1, h2⟩⟩

private theorem setFrom_same {f g : Fields K} {s : Surface K} (h1 : g.id = f.id) (h2 : g.transform = f.transform) (h : Set' g s) : Set' f s := by
  obtain ⟨ty, cs, hty, e⟩ := h
  exact ⟨ty, cs, hty, by rw [e]; unfold Surface.setFrom; rw [h1, h2]⟩

private theorem edp2_set {f : Fields K} {s : Surface K} {a1 r1 a2 r2 : K} {dir : Char} (hd : dir = 'y' ∨ dir = 'z') (h : edp2 .blank f a1 r1 a2 r2 dir = .ok s) : Set' f s := by
  unfold edp2 at h
  split at h
  · rcases xyzPlanes h with ⟨k, -⟩ | ⟨-, k⟩
    · exact setFrom_same rfl rfl k
    · exact absurd (by rcases hd with rfl | rfl <;> simp) k
  · split at h
    · rcases cylinders h with ⟨k, -⟩ | ⟨-, k⟩
      · exact setFrom_same rfl rfl k
      · exact absurd (by rcases hd with rfl | rfl <;> simp) k
    · simp only at h
      rcases cones h with ⟨k, -⟩ | ⟨-, k⟩
      · exact setFrom_same rfl rfl k
      · exact absurd (by rcases hd with rfl | rfl <;> simp) k

private theorem edps {f : Fields K} {s : Surface K} (h : classifyEdp .blank f = .ok s) : Set' f s ∧ f.type ∈ supportedMnemonics ∨ s = .blank ∧ f.coeffs.len ≠ 4 := by
  unfold classifyEdp at h
  split at h
  · rename_i hl
    obtain ⟨_, _, h⟩ := bindOk h
    refine .inr ⟨?_, by omega⟩
    split at h
    · cases h; rfl
    · split at h
      · cases h; rfl
      · split at h
        · cases h; rfl
        · cases h
  · split at h
    · iterate 4 obtain ⟨_, _, h⟩ := bindOk h
      split at h
      · rename_i ht
        exact .inl ⟨edp2_set (.inl rfl) h, by rw [ht]; decide⟩
      · split at h
        · rename_i ht
          exact .inl ⟨edp2_set (.inl rfl) h, by rw [ht]; decide⟩
        · split at h
          · rename_i ht
            exact .inl ⟨edp2_set (.inr rfl) h, by rw [ht]; decide⟩
          · cases h
    · rename_i hl
      cases h
      exact .inr ⟨rfl, hl⟩

/-- What comes of the fields of a card. -/
private theorem classifyFields_cases {f : Fields K} {s : Surface K} (h : classifyFields f = .ok s) :
    Set' f s ∧ f.type ∈ supportedMnemonics ∨ s = .blank ∧ (f.type ∈ supportedMnemonics → f.type ∈ pointMnemonics ∧ f.coeffs.len ≠ 4) := by
  unfold classifyFields at h
  have hsup : ∀ {L : List Str} {b : Branch}, (∀ t ∈ supportedMnemonics, mcnpType t = .infinite → branch t = b → t ∈ L) → mcnpType f.type = .infinite → branch f.type = b →
      f.type ∉ L → f.type ∈ supportedMnemonics → f.type ∈ pointMnemonics ∧ f.coeffs.len ≠ 4 := fun hh h1 h2 h3 h4 => absurd (hh _ h4 h1 h2) h3
  split at h
  · rename_i ht
    have hmem : f.type ∈ surfaceTypes.flatMap parts := by
      unfold mcnpType at ht
      split at ht
      · rename_i hi
        obtain ⟨k, hk, hi⟩ := List.any_eq_true.1 hi
        exact List.mem_flatMap.2 ⟨k, hk, mem_parts hi⟩
      · split at ht <;> cases ht
    unfold classifySurfaceTypes at h
    split at h <;> rename_i hb
    · refine .inl ⟨?_, (by decide +kernel : ∀ t ∈ surfaceTypes.flatMap parts, branch t = .generalPlane → t ∈ supportedMnemonics) _ hmem hb⟩
      unfold classifyGeneralPlanes at h
      split at h
      · obtain ⟨_, _, h⟩ := bindOk h
        obtain ⟨_, _, h⟩ := bindOk h
        cases h
        exact ⟨_, _, by decide, rfl⟩
      · split at h
        · obtain ⟨_, _, h⟩ := bindOk h
          cases h
          exact ⟨_, _, by decide, rfl⟩
        · cases h
    · exact (xyzPlanes h).imp id fun k => ⟨k.1, hsup (by decide +kernel) ht hb k.2⟩
    · refine .inl ⟨?_, (by decide +kernel : ∀ t ∈ surfaceTypes.flatMap parts, branch t = .originSphere → t ∈ supportedMnemonics) _ hmem hb⟩
      obtain ⟨_, _, h⟩ := bindOk h
      cases h
      exact ⟨_, _, by decide, rfl⟩
    · exact (spheres h).imp id fun k => ⟨k.1, hsup (by decide +kernel) ht hb k.2⟩
    · exact (quadrics h).imp id fun k => ⟨k.1, hsup (by decide +kernel) ht hb k.2⟩
    · refine .inl ⟨?_, (by decide +kernel : ∀ t ∈ surfaceTypes.flatMap parts, branch t = .generalSphere → t ∈ supportedMnemonics) _ hmem hb⟩
      obtain ⟨_, _, h⟩ := bindOk h
      cases h
      exact ⟨_, _, by decide, rfl⟩
    · cases h
      exact .inr ⟨rfl, hsup (L := []) (by decide +kernel) ht hb (by simp)⟩
    · exact (parallels h).imp id fun k => ⟨k.1, hsup (by decide +kernel) ht hb k.2⟩
    · exact (cylinders h).imp id fun k => ⟨k.1, hsup (by decide +kernel) ht hb k.2⟩
    · exact (coneParallels h).imp id fun k => ⟨k.1, hsup (by decide +kernel) ht hb k.2⟩
    · exact (cones h).imp id fun k => ⟨k.1, hsup (by decide +kernel) ht hb k.2⟩
    · exact (tori h).imp id fun k => ⟨k.1, hsup (by decide +kernel) ht hb k.2⟩
    · exact absurd hb ((by decide +kernel : ∀ t ∈ surfaceTypes.flatMap parts, branch t ≠ .box) _ hmem)
    · exact absurd hb ((by decide +kernel : ∀ t ∈ surfaceTypes.flatMap parts, branch t ≠ .rpp) _ hmem)
    · exact absurd hb ((by decide +kernel : ∀ t ∈ surfaceTypes.flatMap parts, branch t ≠ .sph) _ hmem)
    · exact absurd hb ((by decide +kernel : ∀ t ∈ surfaceTypes.flatMap parts, branch t ≠ .rcc) _ hmem)
    · exact (edps h).imp id fun k => ⟨k.1, fun hm => ⟨(by decide +kernel : ∀ t ∈ supportedMnemonics, mcnpType t = .infinite → branch t = .edp → t ∈ pointMnemonics) _ hm ht hb, k.2⟩⟩
  · rename_i ht
    have hmem : f.type ∈ macroTypes.flatMap parts := by
      unfold mcnpType at ht
      split at ht
      · cases ht
      · split at ht
        · rename_i hi
          obtain ⟨k, hk, hi⟩ := List.any_eq_true.1 hi
          exact List.mem_flatMap.2 ⟨k, hk, mem_parts hi⟩
        · cases ht
    unfold classifyMacrobodyTypes at h
    split at h
    · rename_i hi
      refine .inl ⟨?_, (by decide +kernel : ∀ t ∈ macroTypes.flatMap parts, hasInfix c!"box" t = true → t ∈ supportedMnemonics) _ hmem hi⟩
      unfold classifyBox at h
      iterate 12 obtain ⟨_, _, h⟩ := bindOk h
      split at h <;> (cases h; exact ⟨_, _, by decide, rfl⟩)
    · split at h
      · rename_i hi
        refine .inl ⟨?_, (by decide +kernel : ∀ t ∈ macroTypes.flatMap parts, hasInfix c!"rpp" t = true → t ∈ supportedMnemonics) _ hmem hi⟩
        obtain ⟨_, _, h⟩ := bindOk h
        cases h
        exact ⟨_, _, by decide, rfl⟩
      · split at h
        · rename_i hi
          refine .inl ⟨?_, (by decide +kernel : ∀ t ∈ macroTypes.flatMap parts, hasInfix c!"sph" t = true → t ∈ supportedMnemonics) _ hmem hi⟩
          obtain ⟨_, _, h⟩ := bindOk h
          cases h
          exact ⟨_, _, by decide, rfl⟩
        · split at h
          · rename_i hi
            refine .inl ⟨?_, (by decide +kernel : ∀ t ∈ macroTypes.flatMap parts, hasInfix c!"rcc" t = true → t ∈ supportedMnemonics) _ hmem hi⟩
            obtain ⟨_, _, h⟩ := bindOk h
            cases h
            exact ⟨_, _, by decide, rfl⟩
          · cases h
  · rename_i ht
    cases h
    exact .inr ⟨rfl, fun hm => absurd ht ((by decide +kernel : ∀ t ∈ supportedMnemonics, mcnpType t ≠ .unknown) _ hm)⟩

private theorem set_taken {n : Int} {tr : Option Str} {mn : Str} {cs : Coeffs K} {s : Surface K} (h : Set' ⟨n, tr, mn, cs⟩ s) : Taken n tr s := by
  obtain ⟨ty, l, hty, rfl⟩ := h
  exact ⟨rfl, rfl, hty⟩

private theorem blank_lost : Lost (Surface.blank : Surface K) := ⟨rfl, rfl, rfl, rfl⟩

/-- Whatever a card says: if no exception is raised, then the card is one with a supported mnemonic and becomes a surface with the number of the card, or it is lost. -/
theorem C97_taken_or_lost (io : NumIO K) (text : Str) (n : Int) (tr : Option Str) (mn : Str) (ws : List Str) (s : Surface K) (hc : IsCard io text n tr mn ws) (h : classify io text = .ok s) :
    Taken n tr s ∧ mn ∈ supportedMnemonics ∨ Lost s ∧ (mn ∈ supportedMnemonics → mn ∈ pointMnemonics ∧ ws.length ≠ 4) := by
  rw [classify_isCard io text n tr mn ws hc] at h
  rcases classifyFields_cases h with ⟨k, km⟩ | ⟨rfl, km⟩
  · exact .inl ⟨set_taken k, km⟩
  · exact .inr ⟨blank_lost, km⟩

/-- C97, partial: a card with a supported mnemonic becomes a surface with its number, or an exception is raised. Missing: other mnemonics, and point-defined surfaces with other than four numbers. -/
theorem C97_supported_partial (io : NumIO K) (text : Str) (n : Int) (tr : Option Str) (mn : Str) (ws : List Str) (s : Surface K) (hc : IsCard io text n tr mn ws)
    (hm : mn ∈ supportedMnemonics) (hp : mn ∈ pointMnemonics → ws.length = 4) (h : classify io text = .ok s) : Taken n tr s := by
  rcases C97_taken_or_lost io text n tr mn ws s hc h with ⟨k, -⟩ | ⟨-, k⟩
  · exact k
  · exact absurd (hp (k hm).1) (k hm).2

/-- A card with a mnemonic that is no part of a supported one is lost, without an exception. -/
theorem C97_refuted_unknown (io : NumIO K) (text : Str) (n : Int) (tr : Option Str) (mn : Str) (ws : List Str) (hc : IsCard io text n tr mn ws) (hm : ∀ k ∈ supportedMnemonics, ¬ mn <:+: k) :
    ∃ s, classify io text = .ok s ∧ Lost s := by
  rw [classify_isCard io text n tr mn ws hc]
  have key : ∀ l : List Str, (∀ k ∈ l, k ∈ supportedMnemonics) → l.any (fun k => hasInfix mn k) = false := by
    intro l hl
    rw [List.any_eq_false]
    intro k hk hi
    obtain ⟨a, b, e⟩ := (hasInfix_iff mn k).1 hi
    exact hm k (hl k hk) ⟨a, b, e.symm⟩
  have e : mcnpType mn = .unknown := by
    unfold mcnpType
    rw [key _ (by decide), key _ (by decide)]
    rfl
  refine ⟨.blank, ?_, blank_lost⟩
  unfold classifyFields
  simp only
  rw [e]

/-- The other macrobodies of MCNP are lost. -/
theorem C97_refuted_macrobodies (io : NumIO K) (text : Str) (n : Int) (tr : Option Str) (mn : Str) (ws : List Str) (hc : IsCard io text n tr mn ws) (hm : mn ∈ otherMacrobodies) :
    ∃ s, classify io text = .ok s ∧ Lost s := by
  refine C97_refuted_unknown io text n tr mn ws hc fun k hk hi => ?_
  obtain ⟨a, b, e⟩ := hi
  have h1 : hasInfix mn k = true := (hasInfix_iff mn k).2 ⟨a, b, e.symm⟩
  exact absurd h1 ((by decide +kernel : ∀ m ∈ otherMacrobodies, ∀ k ∈ supportedMnemonics, ¬ hasInfix m k = true) mn hm k hk)

/-- A plane that is given by one point on an axis (two numbers), and surfaces given by three points (six numbers), are lost. -/
theorem C97_refuted_points (io : NumIO K) (text : Str) (n : Int) (tr : Option Str) (mn : Str) (ws : List Str) (cs : List K) (hc : IsCard io text n tr mn ws) (hr : Reads io ws cs)
    (hm : mn ∈ pointMnemonics) (hl : ws.length = 2 ∨ ws.length = 6) : ∃ s, classify io text = .ok s ∧ Lost s := by
  rw [classify_isCard io text n tr mn ws hc]
  refine ⟨.blank, ?_, blank_lost⟩
  have e1 := (by decide +kernel : ∀ t ∈ pointMnemonics, mcnpType t = .infinite ∧ branch t = .edp) mn hm
  unfold classifyFields
  simp only
  rw [e1.1]
  simp only
  unfold classifySurfaceTypes
  simp only
  rw [e1.2]
  simp only
  unfold classifyEdp
  rcases hl with hl | hl
  · obtain ⟨a, b, rfl⟩ : ∃ a b, ws = [a, b] := by
      match ws, hl with
      | [a, b], _ => exact ⟨a, b, rfl⟩
    have ha : ∃ x, io.parse a = some x := by
      cases hr with
      | cons h _ => exact ⟨_, h⟩
    have hb : ∃ x, io.parse b = some x := by
      cases hr with
      | cons _ h => cases h with
        | cons h _ => exact ⟨_, h⟩
    obtain ⟨x, ha⟩ := ha
    obtain ⟨y, hb⟩ := hb
    have ef : (Coeffs.ofWords io [a, b]).first 2 = .ok [x, y] := by
      simp [Coeffs.first, Coeffs.ofWords, pyGet, NumIO.float, ha, hb, bind, Except.bind]
    rw [if_pos (by rfl)]
    simp only [ef, bind, Except.bind]
    simp only [pointMnemonics, List.mem_cons, List.not_mem_nil, or_false] at hm
    rcases hm with rfl | rfl | rfl <;> simp
  · have el : (Coeffs.ofWords io ws).len = 6 := hl
    rw [if_neg (by simp [el]), if_neg (by simp [el])]

end

end Csg
