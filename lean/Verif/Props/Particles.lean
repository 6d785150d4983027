import Verif.Model.Particle

/-!
# C51: particle names
-/

namespace Csg

/-- C51. The generic particle of a symbol of MCNP is written with that symbol, each particle is read from the symbol it is written with,
and different particles have different symbols and different generic names. -/
theorem C51_inverse :
    (∀ s p, mcnpToParticle s = some p → particleToMCNP p = s) ∧ (∀ p, mcnpToParticle (particleToMCNP p) = some p) ∧
    (∀ p q, particleToMCNP p = particleToMCNP q → p = q) ∧ (∀ p q, particleToGeneric p = particleToGeneric q → p = q) := by
  refine ⟨?_, by intro p; cases p <;> decide, by intro p q; cases p <;> cases q <;> decide, by intro p q; cases p <;> cases q <;> decide⟩
  intro s p h
  unfold mcnpToParticle at h
  have key : ∀ (a : Str) (q : Particle) (rest : Option Particle), (if s = a then some q else rest) = some p → (s = a ∧ p = q) ∨ rest = some p := by
    intro a q rest h
    by_cases e : s = a
    · rw [if_pos e] at h
      exact Or.inl ⟨e, (Option.some.inj h).symm⟩
    · rw [if_neg e] at h
      exact Or.inr h
  iterate 13 (rcases key _ _ _ h with ⟨rfl, rfl⟩ | h; · rfl)
  cases h

/-- The symbols that are read are the thirteen of the MCNP manual. -/
theorem C51_symbols (s : Str) : (∃ p, mcnpToParticle s = some p) ↔
    s ∈ [c!"n", c!"p", c!"e", c!"f", c!"h", c!"d", c!"t", c!"a", c!"/", c!"z", c!"*", c!"s", c!"|"] := by
  constructor
  · rintro ⟨p, h⟩
    rw [← C51_inverse.1 s p h]
    cases p <;> decide
  · intro h
    simp only [List.mem_cons, List.not_mem_nil, or_false] at h
    rcases h with rfl | rfl | rfl | rfl | rfl | rfl | rfl | rfl | rfl | rfl | rfl | rfl | rfl <;> exact ⟨_, rfl⟩

example : mcnpToParticle c!"|" = some .muonNeg ∧ particleToMCNP .muonNeg = c!"|" ∧ particleToGeneric .muonNeg = c!"Negative Muon" := by decide

end Csg
