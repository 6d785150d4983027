import Verif.Props.Processing
import Verif.Lemmas.Processed

/-!
# Runs of `process` that succeed
-/

set_option linter.unusedSectionVars false

namespace Csg

open Spec

section
variable {K : Type} [Field K] [LinearOrder K] [IsStrictOrderedRing K]

/-- The surface lists of the cells after flattening: they only grow, and by surfaces of the new list if no cell names a body. -/
theorem flatten_lists {io : NumIO K} (hio : Exact io) {cosDeg sqrt : K → K} {rank : Int → Nat} {d : Deck K} (hd : ProperDeck sqrt rank d)
    {cells1 : List (Cell K)} {surfs1 : List (Surface K)} {last1 : Int} (h : flatten io cosDeg sqrt d.cells d.surfaces d.last = .ok (cells1, surfs1, last1)) :
    (∀ s ∈ d.surfaces, s.isMacrobody = false → s ∈ surfs1) ∧ (∀ s ∈ d.surfaces, s.isMacrobody = true → ∀ t ∈ surfs1, t.id ≠ s.id) ∧
      List.Forall₂ (fun c c' => (∀ n ∈ c.surfaces, n ∈ c'.surfaces) ∧
        (NumbersPlain d.surfaces c.text → ∀ n ∈ c'.surfaces, n ∈ c.surfaces ∨ ∃ s ∈ surfs1, s.id = n)) d.cells cells1 := by
  have hloop : ∀ c ∈ d.cells, LoopCell d.surfaces d.surfaces c := fun c hc =>
    ⟨(hd.cells c hc).1.material, (hd.cells c hc).1.legal, (hd.cells c hc).1.parsed, fun w hw hs =>
      LoopWord.of_known ((hd.cells c hc).2 w (by rw [← hs]; exact List.mem_map_of_mem hw))⟩
  obtain ⟨cells', more, last', h1, -, h3, -, -, h6⟩ := flattenGo_ok (fun _ p => p) io hio cosDeg d.surfaces d.surfaces d.last d.cells (uniqueIds_of_nodup hd.ids) hd.range hd.last
    (fun _ h => h) (List.Nodup.of_map _ hd.ids) hd.bodies hloop
  unfold flatten at h
  rw [h1] at h
  cases h
  refine ⟨fun s hs hm => List.mem_filter.2 ⟨List.mem_append_left _ hs, by simp [hm]⟩, ?_, forall₂_imp (fun c c' a => ⟨a.2.more.2, fun hn n hn' => ?_⟩) h6⟩
  · intro s hs hm t ht e
    obtain ⟨h4, h5⟩ := List.mem_filter.1 ht
    obtain rfl := h3 t h4 s (List.mem_append_left _ hs) e
    rw [hm] at h5
    cases h5
  · rcases (a.2.plain hn).2 n hn' with hn' | ⟨s, hs, hm, e⟩
    · exact Or.inl hn'
    · exact Or.inr ⟨s, List.mem_filter.2 ⟨hs, by simp [hm]⟩, e⟩

/-- The steps make a run. -/
theorem run_finishDeck {fuel : Nat} {io : NumIO K} {cosDeg sqrt : K → K} {quick : Bool} {d d' : Deck K} {cells1 cells2 cells3 cells4 cells5 : List (Cell K)}
    {surfs1 surfs2 surfs3 surfs4 : List (Surface K)} (r : Run fuel io cosDeg sqrt quick d d' cells1 cells2 cells3 cells4 cells5 surfs1 surfs2 surfs3 surfs4) :
    finishDeck fuel io cosDeg sqrt quick d = some (.ok d') := by
  unfold finishDeck
  rw [r.flat]
  simp only
  rw [r.nots]
  simp only [bind, Except.bind]
  rw [r.move]
  simp only
  rw [r.fill]
  simp only
  rw [r.mats]
  simp only [applyBoundaryConditions, bind, Except.bind]
  rw [r.imps]
  simp only
  rw [r.vac]
  simp only
  rw [r.box]
  simp only
  rw [r.cones]
  simp only
  rw [r.dups]
  obtain ⟨e1, e2, e3⟩ := r.rest
  cases d'
  simp only at e1 e2 e3 ⊢
  subst e1 e2 e3
  rfl

theorem assignImportances_ok {io : NumIO K} : ∀ (cells : List (Cell K)) (ws : List Str), ws.length ≤ cells.length → (∀ w ∈ ws, ∃ x, io.float w = .ok x) →
    ∃ cells', assignImportances io cells ws = .ok cells' := by
  intro cells
  induction cells with
  | nil =>
    intro ws hl _
    cases ws with
    | nil => exact ⟨_, rfl⟩
    | cons w ws => simp at hl
  | cons c cells ih =>
    intro ws hl hw
    cases ws with
    | nil => exact ⟨_, rfl⟩
    | cons w ws =>
      obtain ⟨x, hx⟩ := hw w (List.mem_cons_self ..)
      obtain ⟨cells', h⟩ := ih ws (by simpa using hl) fun v hv => hw v (List.mem_cons_of_mem _ hv)
      refine ⟨{ c with importance := x } :: cells', ?_⟩
      unfold assignImportances
      rw [hx]
      simp only [bind, Except.bind]
      rw [h]

theorem applyImportances_ok {io : NumIO K} {imps : List (Particle × Str)} {cells : List (Cell K)}
    (h : imps = [] ∨ ∃ t, imps.lookup .neutron = some t ∧ (split t).length ≤ cells.length ∧ ∀ w ∈ split t, ∃ x, io.float w = .ok x) :
    ∃ cells', applyImportances io imps cells = .ok cells' := by
  unfold applyImportances
  split
  · exact ⟨_, rfl⟩
  · rename_i hne
    rcases h with h | ⟨t, h1, h2, h3⟩
    · exact absurd h hne
    · rw [h1]
      simp only
      split
      · exact ⟨_, rfl⟩
      · exact assignImportances_ok cells _ h2 h3

theorem updateSurface_ok {box : List K} (hb : box.length = 6) (s : Surface K) : ∃ s', updateSurface box s = .ok s' := by
  obtain ⟨a0, a1, a2, a3, a4, a5, rfl⟩ : ∃ a0 a1 a2 a3 a4 a5, box = [a0, a1, a2, a3, a4, a5] := by
    match box, hb with
    | [a0, a1, a2, a3, a4, a5], _ => exact ⟨a0, a1, a2, a3, a4, a5, rfl⟩
  unfold updateSurface
  simp only
  split <;> exact ⟨_, rfl⟩

end

end Csg
