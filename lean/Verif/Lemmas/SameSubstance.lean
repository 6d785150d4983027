import Verif.Spec.Reordered
import Verif.Lemmas.Reorder
import Verif.Lemmas.Whole

/-!
# Two ways to write one substance
-/

set_option linter.unusedSectionVars false

namespace Csg

open Spec

variable {K : Type} [Field K] [LinearOrder K] [IsStrictOrderedRing K]

theorem composition_perm {entries : List (Str × Str)} {fracs : List K} {comp comp' : List (Str × K)} (h : CompositionOf entries fracs comp) (h' : CompositionOf entries fracs comp') :
    comp.Perm comp' := by
  have key : ∀ {a b : List (Str × K)}, CompositionOf entries fracs a → CompositionOf entries fracs b → ∀ e ∈ a, e ∈ b := by
    rintro a b ha hb ⟨nuc, x⟩ he
    obtain ⟨⟨nuc', y⟩, hy, rfl⟩ := List.mem_map.1 ((hb.nuclides nuc).2 ((ha.nuclides nuc).1 (List.mem_map.2 ⟨_, he, rfl⟩)))
    rw [ha.fractions _ x he, ← hb.fractions _ y hy]
    exact hy
  exact (List.perm_ext_iff_of_nodup (h.once.of_map _) (h'.once.of_map _)).2 fun e => ⟨key h h' e, key h' h e⟩

theorem nuclides_unique {e : Str × K} {l l' : List (Str × K)} (h : NuclidesOf e l) (h' : NuclidesOf e l') : l = l' := by
  rcases h with ⟨z, h1, rfl⟩ | ⟨h1, rfl⟩ <;> rcases h' with ⟨z', h2, rfl⟩ | ⟨h2, rfl⟩
  · have := natStr_injective (h1.symm.trans h2)
    rw [show z = z' by omega]
  · exact absurd h1 (h2 z)
  · exact absurd h2 (h1 z')
  · rfl

theorem parts_perm {comp comp' : List (Str × K)} (h : comp.Perm comp') : ∀ {parts parts' : List (List (Str × K))}, List.Forall₂ NuclidesOf comp parts → List.Forall₂ NuclidesOf comp' parts' →
    parts.flatten.Perm parts'.flatten := by
  induction h with
  | nil => rintro _ _ (_ | _) (_ | _); rfl
  | cons x _ ih =>
    rintro _ _ (_ | ⟨h1, h2⟩) (_ | ⟨h3, h4⟩)
    cases nuclides_unique h1 h3
    rw [List.flatten_cons, List.flatten_cons]
    exact (ih h2 h4).append_left _
  | swap x y l =>
    rintro _ _ (_ | ⟨h1, _ | ⟨h2, h3⟩⟩) (_ | ⟨k1, _ | ⟨k2, k3⟩⟩)
    cases nuclides_unique h1 k2
    cases nuclides_unique h2 k1
    have : ∀ {l : List (Str × K)} {a b}, List.Forall₂ NuclidesOf l a → List.Forall₂ NuclidesOf l b → a = b := by
      intro l a b ha
      induction ha generalizing b with
      | nil => rintro (_ | _); rfl
      | cons h _ ih =>
        rintro (_ | ⟨k, k'⟩)
        rw [nuclides_unique h k, ih k']
    rw [this h3 k3]
    simp only [List.flatten_cons, ← List.append_assoc]
    exact List.perm_append_comm.append_right _
  | trans h1 _ ih1 ih2 =>
    intro parts parts'' a b
    have ex : ∀ {l l' : List (Str × K)} {a}, l.Perm l' → List.Forall₂ NuclidesOf l a → ∃ b, List.Forall₂ NuclidesOf l' b := by
      intro l l' a hp ha
      have : ∀ e ∈ l', ∃ p, NuclidesOf e p := fun e he => by
        obtain ⟨p, -, hp⟩ := forall₂_exists_left ha (hp.mem_iff.2 he)
        exact ⟨p, hp⟩
      clear hp ha
      induction l' with
      | nil => exact ⟨[], .nil⟩
      | cons x l' ih =>
        obtain ⟨p, hp⟩ := this x (by simp)
        obtain ⟨b, hb⟩ := ih fun e he => this e (List.mem_cons_of_mem _ he)
        exact ⟨p :: b, .cons hp hb⟩
    obtain ⟨m, hm⟩ := ex h1 a
    exact (ih1 a hm).trans (ih2 hm b)

theorem total_perm {comp comp' : List (Str × K)} (h : comp.Perm comp') : total comp = total comp' := (h.map _).sum_eq

theorem substance_perm {comp comp' a b : List (Str × K)} (h : comp.Perm comp') (ha : SameSubstance comp a) (hb : SameSubstance comp' b) : a.Perm b := by
  obtain ⟨⟨p, h1, h2⟩, -⟩ := ha
  obtain ⟨⟨q, k1, k2⟩, -⟩ := hb
  rw [← total_perm h] at k2
  exact h2.trans (((parts_perm h h1 k1).map _).trans k2.symm)

end Csg
