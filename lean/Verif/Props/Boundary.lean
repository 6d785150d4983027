import Verif.Model.Blocks
import Verif.Props.Cells
import Verif.Props.Flatten

/-!
# C27: vacuum boundaries of cells with importance zero
-/

set_option linter.unusedSectionVars false

namespace Csg

open Spec

section
variable {K : Type} [Field K] [LinearOrder K] [IsStrictOrderedRing K]

/-- The same surface with a vacuum boundary, if the condition holds. -/
private def vac (P : Prop) [Decidable P] (s : Surface K) : Surface K := if P then { s with bc := .vacuum } else s

private theorem vac_id (P : Prop) [Decidable P] (s : Surface K) : (vac P s).id = s.id := by unfold vac; split <;> rfl

private theorem setVacuum_eq {n : Int} {surfs : List (Surface K)} (hids : (surfs.map Surface.id).Nodup) :
    setVacuum n surfs = if n ∈ surfs.map Surface.id then .ok (surfs.map fun s => vac (s.id = n) s) else .error .attributeError := by
  induction surfs with
  | nil => rfl
  | cons s l ih =>
    rw [List.map_cons, List.nodup_cons] at hids
    unfold setVacuum
    by_cases h : s.id = n
    · subst h
      rw [if_pos rfl, if_pos (by simp)]
      have : l.map (fun t => vac (t.id = s.id) t) = l := by
        conv_rhs => rw [← List.map_id l]
        refine List.map_congr_left fun t ht => ?_
        unfold vac
        rw [if_neg]
        · rfl
        · intro e
          exact hids.1 (e ▸ List.mem_map_of_mem ht)
      rw [List.map_cons, this]
      simp [vac]
    · rw [if_neg h, ih hids.2]
      by_cases hn : n ∈ l.map Surface.id
      · rw [if_pos hn, if_pos (by rw [List.map_cons]; exact List.mem_cons_of_mem _ hn)]
        simp [vac, h, bind, Except.bind]
      · rw [if_neg hn, if_neg]
        · rfl
        · rw [List.map_cons, List.mem_cons]
          rintro (e | e)
          · exact h e.symm
          · exact hn e

private theorem setVacuums_eq {ns : List Int} {surfs : List (Surface K)} (hids : (surfs.map Surface.id).Nodup) :
    setVacuums ns surfs = if ∀ n ∈ ns, n ∈ surfs.map Surface.id then .ok (surfs.map fun s => vac (s.id ∈ ns) s) else .error .attributeError := by
  induction ns generalizing surfs with
  | nil => simp [setVacuums, vac]
  | cons n ns ih =>
    unfold setVacuums
    rw [setVacuum_eq hids]
    by_cases hn : n ∈ surfs.map Surface.id
    · rw [if_pos hn]
      have hm : (surfs.map fun s => vac (s.id = n) s).map Surface.id = surfs.map Surface.id := by
        rw [List.map_map]
        exact List.map_congr_left fun s _ => vac_id _ s
      show setVacuums ns (surfs.map fun s => vac (s.id = n) s) = _
      rw [ih (by rw [hm]; exact hids), hm]
      by_cases hns : ∀ n ∈ ns, n ∈ surfs.map Surface.id
      · rw [if_pos hns, if_pos (by simpa using ⟨by simpa using hn, by simpa using hns⟩), List.map_map]
        refine congrArg _ (List.map_congr_left fun s _ => ?_)
        simp only [Function.comp, vac_id]
        unfold vac
        by_cases h1 : s.id = n <;> by_cases h2 : s.id ∈ ns <;> simp [h1, h2]
      · rw [if_neg hns, if_neg]
        intro h
        exact hns fun m hm => h m (List.mem_cons_of_mem _ hm)
    · rw [if_neg hn, if_neg]
      · rfl
      · intro h
        exact hn (h n (List.mem_cons_self ..))

private theorem vacuumGo_eq {cells : List (Cell K)} {surfs : List (Surface K)} (hids : (surfs.map Surface.id).Nodup) :
    vacuumGo cells surfs = if ∀ c ∈ cells, c.importance = 0 → ∀ n ∈ c.surfaces, n ∈ surfs.map Surface.id then
      .ok (surfs.map fun s => vac (∃ c ∈ cells, c.importance = 0 ∧ s.id ∈ c.surfaces) s) else .error .attributeError := by
  induction cells generalizing surfs with
  | nil => simp [vacuumGo, vac]
  | cons c cells ih =>
    unfold vacuumGo
    by_cases hz : c.importance = 0
    · rw [if_pos hz, setVacuums_eq hids]
      by_cases hn : ∀ n ∈ c.surfaces, n ∈ surfs.map Surface.id
      · rw [if_pos hn]
        have hm : (surfs.map fun s => vac (s.id ∈ c.surfaces) s).map Surface.id = surfs.map Surface.id := by
          rw [List.map_map]
          exact List.map_congr_left fun s _ => vac_id _ s
        show vacuumGo cells (surfs.map fun s => vac (s.id ∈ c.surfaces) s) = _
        rw [ih (by rw [hm]; exact hids), hm]
        by_cases hc : ∀ c ∈ cells, c.importance = 0 → ∀ n ∈ c.surfaces, n ∈ surfs.map Surface.id
        · rw [if_pos hc, if_pos (by
            intro d hd
            rcases List.mem_cons.1 hd with rfl | hd
            · exact fun _ => hn
            · exact hc d hd), List.map_map]
          refine congrArg _ (List.map_congr_left fun s _ => ?_)
          simp only [Function.comp, vac_id]
          unfold vac
          by_cases h1 : s.id ∈ c.surfaces <;> by_cases h2 : ∃ c ∈ cells, c.importance = 0 ∧ s.id ∈ c.surfaces <;> simp [h1, h2, hz]
        · rw [if_neg hc, if_neg]
          exact fun h => hc fun d hd => h d (List.mem_cons_of_mem _ hd)
      · rw [if_neg hn, if_neg]
        · rfl
        · exact fun h => hn (h c (List.mem_cons_self ..) hz)
    · rw [if_neg hz]
      show vacuumGo cells surfs = _
      rw [ih hids]
      simp [hz]

/-- What the loop over the cells does: it fails iff a cell with importance zero lists a number that no surface has; otherwise the surfaces that such cells list
get a vacuum boundary and nothing else changes. -/
theorem C27_listed (cells : List (Cell K)) (surfs : List (Surface K)) (hids : (surfs.map Surface.id).Nodup) :
    ((∃ e, vacuumGo cells surfs = .error e) ↔ ∃ c ∈ cells, c.importance = 0 ∧ ∃ n ∈ c.surfaces, ∀ s ∈ surfs, s.id ≠ n) ∧
    ∀ surfs', vacuumGo cells surfs = .ok surfs' → List.Forall₂ (fun s s' =>
      ((∃ c ∈ cells, c.importance = 0 ∧ s.id ∈ c.surfaces) → s' = { s with bc := .vacuum }) ∧
      ((¬ ∃ c ∈ cells, c.importance = 0 ∧ s.id ∈ c.surfaces) → s' = s)) surfs surfs' := by
  rw [vacuumGo_eq hids]
  by_cases h : ∀ c ∈ cells, c.importance = 0 → ∀ n ∈ c.surfaces, n ∈ surfs.map Surface.id
  · rw [if_pos h]
    refine ⟨⟨?_, ?_⟩, ?_⟩
    · rintro ⟨e, he⟩
      cases he
    · rintro ⟨c, hc, hz, n, hn, hno⟩
      obtain ⟨s, hs, rfl⟩ := List.mem_map.1 (h c hc hz n hn)
      exact absurd rfl (hno s hs)
    · intro surfs' he
      cases he
      clear h hids
      generalize hP : (fun s : Surface K => ∃ c ∈ cells, c.importance = 0 ∧ s.id ∈ c.surfaces) = P
      have hP : ∀ s : Surface K, (∃ c ∈ cells, c.importance = 0 ∧ s.id ∈ c.surfaces) = P s := fun s => by rw [← hP]
      induction surfs with
      | nil => exact .nil
      | cons s l ih =>
        refine .cons ⟨fun hp => ?_, fun hp => ?_⟩ ih
        · exact if_pos hp
        · exact if_neg hp
  · rw [if_neg h]
    refine ⟨⟨fun _ => ?_, fun _ => ⟨_, rfl⟩⟩, fun s he => by cases he⟩
    push Not at h
    obtain ⟨c, hc, hz, n, hn, hno⟩ := h
    exact ⟨c, hc, hz, n, hn, fun s hs e => hno (e ▸ List.mem_map_of_mem hs)⟩

/-- C27, in part. If the cells are as read, and all numbers in cells with importance zero name surfaces and none follows a parenthesis that opens, then setting the
boundaries does not fail, every surface named in such a cell gets a vacuum boundary and the others stay. Missing are numbers after `(` and
cells that were changed after reading (see `C27_refuted` and `C27_fails`). -/
theorem C27_vacuum_boundaries_partial (cells : List (Cell K)) (surfs : List (Surface K)) (hids : (surfs.map Surface.id).Nodup)
    (hread : ∀ c ∈ cells, c.importance = 0 → generalise c.text = .ok (c.interpreted, c.surfaces))
    (hknown : ∀ c ∈ cells, c.importance = 0 → ∀ w ∈ c.text, ∀ z, parseInt w = some z → ∃ s ∈ surfs, s.id = z.natAbs)
    (hopen : ∀ c ∈ cells, c.importance = 0 → ∀ a w b, c.text = a ++ w :: b → a.getLast? = some c!"(" → parseInt w = none) :
    ∃ surfs', vacuumGo cells surfs = .ok surfs' ∧ List.Forall₂ (fun s s' =>
      ((∃ c ∈ cells, c.importance = 0 ∧ ∃ w ∈ c.text, ∃ z, parseInt w = some z ∧ s.id = (z.natAbs : Int)) → s' = { s with bc := .vacuum }) ∧
      ((¬ ∃ c ∈ cells, c.importance = 0 ∧ ∃ w ∈ c.text, ∃ z, parseInt w = some z ∧ s.id = (z.natAbs : Int)) → s' = s)) surfs surfs' := by
  have hlist : ∀ c ∈ cells, c.importance = 0 → ∀ n, n ∈ c.surfaces ↔ ∃ w ∈ c.text, ∃ z : Int, parseInt w = some z ∧ n = z.natAbs := by
    intro c hc hz n
    obtain ⟨h1, h2⟩ := C19_recorded_partial c.text c.interpreted c.surfaces (hread c hc hz)
    refine ⟨h2 n, ?_⟩
    rintro ⟨w, hw, z, hp, rfl⟩
    obtain ⟨a, b, e⟩ := List.append_of_mem hw
    refine h1 a w b z e (fun ho => ?_) hp
    rw [hopen c hc hz a w b e ho] at hp
    cases hp
  obtain ⟨h1, h2⟩ := C27_listed cells surfs hids
  cases h : vacuumGo cells surfs with
  | error e =>
    exfalso
    obtain ⟨c, hc, hz, n, hn, hno⟩ := h1.1 ⟨e, h⟩
    obtain ⟨w, hw, z, hp, rfl⟩ := (hlist c hc hz n).1 hn
    obtain ⟨s, hs, e⟩ := hknown c hc hz w hw z hp
    exact hno s hs e
  | ok surfs' =>
    refine ⟨surfs', rfl, forall₂_imp ?_ (h2 surfs' h)⟩
    intro s s' hs
    have hiff : (∃ c ∈ cells, c.importance = 0 ∧ s.id ∈ c.surfaces) ↔
        ∃ c ∈ cells, c.importance = 0 ∧ ∃ w ∈ c.text, ∃ z, parseInt w = some z ∧ s.id = z.natAbs := by
      constructor
      · rintro ⟨c, hc, hz, hn⟩
        exact ⟨c, hc, hz, (hlist c hc hz _).1 hn⟩
      · rintro ⟨c, hc, hz, hn⟩
        exact ⟨c, hc, hz, (hlist c hc hz _).2 hn⟩
    exact ⟨fun h => hs.1 (hiff.2 h), fun h => hs.2 fun h' => h (hiff.1 h')⟩

end

example : ∀ surfs : List (Surface ℚ), surfs = [plainCard 1 .planeX [1, 0, 0, 2], plainCard 3 .planeX [1, 0, 0, 5], plainCard 4 .planeX [1, 0, 0, 7]] →
    let c : Cell ℚ := { (Cell.blank : Cell ℚ) with id := 1, importance := 0, text := [c!"1", c!":", c!"-3"], interpreted := [.op .and, .str c!"1", .op .union, .op .and, .str c!"-3"], surfaces := [1, 3] }
    generalise c.text = .ok (c.interpreted, c.surfaces) ∧ (surfs.map Surface.id).Nodup ∧
    (∀ w ∈ c.text, ∀ z, parseInt w = some z → ∃ s ∈ surfs, s.id = z.natAbs) ∧ (vacuumGo [c] surfs).map (List.map Surface.bc) = .ok [.vacuum, .vacuum, .transmission] := by
  rintro surfs rfl c
  refine ⟨by decide +kernel, by decide, ?_, by decide +kernel⟩
  intro w hw z hz
  have hw : w = c!"1" ∨ w = c!":" ∨ w = c!"-3" := by simpa [c] using hw
  rcases hw with rfl | rfl | rfl
  · have e : parseInt c!"1" = some 1 := by decide
    rw [e] at hz; cases hz
    exact ⟨_, List.mem_cons_self .., rfl⟩
  · have e : parseInt c!":" = none := by decide
    rw [e] at hz; cases hz
  · have e : parseInt c!"-3" = some (-3) := by decide
    rw [e] at hz; cases hz
    exact ⟨_, List.mem_cons_of_mem _ (List.mem_cons_self ..), rfl⟩

/-- C27 is false for a number that follows a parenthesis: surface 1 of the outermost cell keeps its boundary. -/
theorem C27_refuted : ∃ (c : Cell ℚ) (s t s' t' : Surface ℚ), readCell sampleIO id c!"9 0 (1:2) imp:n=0" = .ok c ∧ s.id = 1 ∧ t.id = 2 ∧ c.importance = 0 ∧
    Sym.atom c!"1" ∈ itemSyms c.interpreted ∧ applyBoundaryConditions sampleIO [] [c] [s, t] = .ok ([c], [s', t']) ∧ s'.bc = .transmission := by
  refine ⟨{ (Cell.blank : Cell ℚ) with id := 9, importance := 0, text := [c!"(", c!"1", c!":", c!"2", c!")"], interpreted := [.str c!"(", .str c!"1", .op .union, .op .and, .str c!"2", .str c!")"], surfaces := [2] },
    plainCard 1 .planeX [1, 0, 0, 2], plainCard 2 .planeX [1, 0, 0, 5], plainCard 1 .planeX [1, 0, 0, 2], { plainCard 2 .planeX [1, 0, 0, 5] with bc := .vacuum },
    by decide +kernel, rfl, rfl, rfl, by decide, by decide +kernel, rfl⟩

/-- C27 is false for a macrobody: the cell with importance zero outside of body 5 still lists 5 after the body is replaced by planes, and reading fails. -/
theorem C27_fails : ∃ (c : Cell ℚ) (surfs : List (Surface ℚ)), readCell sampleIO id c!"9 0 5 imp:n=0" = .ok c ∧ c.importance = 0 ∧
    surfs = [plainCard 5 .macroRPP [0, 1, 0, 1, 0, 1]] ∧ (∃ x, flatten fractionIO id sampleRoot [c] surfs 5 = .ok x) ∧
    ∀ x, flatten fractionIO id sampleRoot [c] surfs 5 = .ok x → applyBoundaryConditions sampleIO [] x.1 x.2.1 = .error .attributeError := by
  refine ⟨{ (Cell.blank : Cell ℚ) with id := 9, importance := 0, text := [c!"5"], interpreted := [.op .and, .str c!"5"], surfaces := [5] }, _, by decide +kernel, rfl, rfl, ?_⟩
  generalize hc : ({ (Cell.blank : Cell ℚ) with id := 9, importance := 0, text := [c!"5"], interpreted := [.op .and, .str c!"5"], surfaces := [5] } : Cell ℚ) = c
  have h : (flatten fractionIO id sampleRoot [c] [plainCard 5 .macroRPP [0, 1, 0, 1, 0, 1]] 5 >>= fun x => .ok (applyBoundaryConditions sampleIO [] x.1 x.2.1)) =
      .ok (.error .attributeError) := by
    subst hc
    decide +kernel
  obtain ⟨x, h1, h2⟩ := bind_ok h
  refine ⟨⟨x, h1⟩, fun y hy => ?_⟩
  rw [h1] at hy
  cases hy
  exact Except.ok.inj h2

end Csg
