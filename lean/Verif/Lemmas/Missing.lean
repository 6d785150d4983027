import Verif.Spec.Missing
import Verif.Lemmas.ConvertibleFile
import Verif.Props.ConvertedMaterials

/-!
# What becomes of references to cards that are missing
-/

set_option linter.unusedSectionVars false

namespace Csg

open Spec

section
variable {K : Type} [Field K] [LinearOrder K]

/-! ## Complements -/

/-- Each cell of the set has a complement of a cell of the set or of a cell that is missing. -/
def Stuck (S : Int → Prop) (cells : List (Cell K)) : Prop :=
  ∀ c ∈ cells, S c.id → ∃ n : Nat, (S n ∨ ∀ c' ∈ cells, c'.id ≠ n) ∧ .str (refWord n) ∈ c.interpreted

private theorem stuck_step {S : Int → Prop} {cells : List (Cell K)} (h : Stuck S cells) {i : Nat} {c : Cell K} (hi : cells[i]? = some c) {is : List Item} (hs : splitNots cells c.interpreted = .ok is) :
    Stuck S (cells.set i { c with interpreted := is }) := by
  have hcm : c ∈ cells := List.mem_of_getElem? hi
  have hids : ∀ n : Nat, (∀ c' ∈ cells, c'.id ≠ n) → ∀ c' ∈ cells.set i { c with interpreted := is }, c'.id ≠ n := by
    intro n hn c' hc'
    rcases List.mem_or_eq_of_mem_set hc' with hc' | rfl
    · exact hn c' hc'
    · exact hn c hcm
  have hwrap : ∀ n : Nat, (S n ∨ ∀ c' ∈ cells, c'.id ≠ n) → S n ∨ ∀ c' ∈ cells.set i { c with interpreted := is }, c'.id ≠ n := fun n hn => hn.imp id (hids n)
  intro x hx hSx
  rcases List.mem_or_eq_of_mem_set hx with hx | rfl
  · obtain ⟨n, h1, h2⟩ := h x hx hSx
    exact ⟨n, hwrap n h1, h2⟩
  · obtain ⟨n, h1, h2⟩ := h c hcm hSx
    show ∃ n : Nat, _ ∧ .str (refWord n) ∈ is
    unfold splitNots at hs
    split at hs
    · cases hs
      exact ⟨n, hwrap n h1, h2⟩
    · rename_i a s b hf
      split at hs
      · cases hs
        exact ⟨n, hwrap n h1, h2⟩
      · rename_i id hid
        split at hs
        · cases hs
        · rename_i d hd
          cases hs
          obtain ⟨e, h3, h4⟩ := findHash_some hf
          by_cases hsn : s = refWord n
          · subst hsn
            rw [hashDigits_refWord] at hid
            cases hid
            obtain ⟨hdm, hdn⟩ := findCell_some hd
            have hS : S d.id := by
              rcases h1 with h1 | h1
              · rw [hdn]; exact h1
              · exact absurd hdn (h1 d hdm)
            obtain ⟨n', k1, k2⟩ := h d hdm hS
            exact ⟨n', hwrap n' k1, by simp [k2]⟩
          · rw [e] at h2
            rcases List.mem_append.1 h2 with h2 | h2
            · exact ⟨n, hwrap n h1, by simp [h2]⟩
            · rcases List.mem_cons.1 h2 with h2 | h2
              · cases h2
                exact absurd rfl hsn
              · exact ⟨n, hwrap n h1, by simp [h2]⟩

private theorem stuck_cell {S : Int → Prop} (fuel : Nat) : ∀ {cells cells' : List (Cell K)} {i : Nat}, Stuck S cells → explodeCell fuel cells i = some (.ok cells') →
    Stuck S cells' ∧ (∀ c, cells'[i]? = some c → ¬ S c.id) ∧ List.Forall₂ (fun c c' => c' = { c with interpreted := c'.interpreted }) cells cells' := by
  induction fuel with
  | zero => intro _ _ _ _ h; cases h
  | succ fuel ih =>
    intro cells cells' i hS h
    unfold explodeCell at h
    split at h
    · cases h
    · rename_i c hi
      split at h
      · split at h
        · cases h
        · rename_i is his
          obtain ⟨k1, k2, k3⟩ := ih (stuck_step hS hi his) h
          refine ⟨k1, k2, ?_⟩
          have : List.Forall₂ (fun c c' : Cell K => c' = { c with interpreted := c'.interpreted }) cells (cells.set i { c with interpreted := is }) := by
            rw [List.forall₂_iff_get]
            refine ⟨by simp, fun j h1 h2 => ?_⟩
            simp only [List.get_eq_getElem]
            by_cases e : i = j
            · subst e
              have := (List.getElem?_eq_some_iff.1 hi).2
              simp [this]
            · rw [List.getElem_set_ne e]
          exact forall₂_trans (fun a b c h1 h2 => by rw [h2, h1]) this k3
      · rename_i hn
        cases h
        refine ⟨hS, fun x hx hSx => ?_, List.forall₂_same.2 fun _ _ => rfl⟩
        rw [hi] at hx
        cases hx
        obtain ⟨n, -, h2⟩ := hS c (List.mem_of_getElem? hi) hSx
        exact hn (remaining_of_mem (mem_words.2 h2))

private theorem stuck_from {S : Int → Prop} (fuel n : Nat) : ∀ {cells cells' : List (Cell K)} {i : Nat}, Stuck S cells → explodeFrom fuel n cells i = some (.ok cells') →
    (∀ (j : Nat) c, i ≤ j → j < i + n → cells[j]? = some c → ¬ S c.id) ∧ List.Forall₂ (fun c c' => c' = { c with interpreted := c'.interpreted }) cells cells' := by
  induction n with
  | zero => intro _ _ i hS h; cases h; exact ⟨fun j c h1 h2 => by omega, List.forall₂_same.2 fun _ _ => rfl⟩
  | succ n ih =>
    intro cells cells' i hS h
    unfold explodeFrom at h
    split at h
    · cases h
    · cases h
    · rename_i cells1 h1
      obtain ⟨k1, k2, k3⟩ := stuck_cell fuel hS h1
      obtain ⟨k4, k5⟩ := ih k1 h
      refine ⟨fun j c hj1 hj2 hc => ?_, forall₂_trans (fun a b c h1 h2 => by rw [h2, h1]) k3 k5⟩
      have hj := (List.getElem?_eq_some_iff.1 hc).1
      have hx := (List.forall₂_iff_get.1 k3).2 j hj (by rw [← k3.length_eq]; exact hj)
      simp only [List.get_eq_getElem] at hx
      rw [(List.getElem?_eq_some_iff.1 hc).2] at hx
      have hj' : j < cells1.length := by rw [← k3.length_eq]; exact hj
      have hid : (cells1[j]).id = c.id := by rw [hx]
      have hget : cells1[j]? = some cells1[j] := List.getElem?_eq_getElem hj'
      rw [← hid]
      by_cases e : j = i
      · subst e
        exact k2 _ hget
      · exact k4 j _ (by omega) (by omega) hget

theorem stuck_nots {S : Int → Prop} {fuel : Nat} {cells cells' : List (Cell K)} (hS : Stuck S cells) (h : explodeNots fuel cells = some (.ok cells')) : ∀ c ∈ cells, ¬ S c.id := by
  intro c hc
  obtain ⟨j, hj⟩ := List.mem_iff_getElem?.1 hc
  exact (stuck_from fuel _ hS h).1 j c (Nat.zero_le _) (by have := (List.getElem?_eq_some_iff.1 hj).1; omega) hj

theorem nots_fields {fuel : Nat} {cells cells' : List (Cell K)} (h : explodeNots fuel cells = some (.ok cells')) : List.Forall₂ (fun c c' => c' = { c with interpreted := c'.interpreted }) cells cells' :=
  (stuck_from (S := fun _ => False) fuel _ (fun _ _ h => h.elim) h).2

/-! ## Materials -/

theorem assign_missing {io : NumIO K} {m : Int} : ∀ {md : List (Int × List K)} {mats : List (Str × Material K)} {cells : List (Cell K)}, md.Pairwise (fun a b => a.1 ≤ b.1) → m ∈ md.map Prod.fst →
    (∀ e ∈ md, e.1 < m → e.2.length ≤ 1) → mats.lookup (intStr m) = none → ∀ r, assignDensities io md mats cells ≠ .ok r := by
  intro md
  induction md with
  | nil => intro _ _ _ h; cases h
  | cons e md ih =>
    intro mats cells hs hm hone hl r h
    obtain ⟨z, zs⟩ := e
    unfold assignDensities at h
    by_cases hz : z = m
    · subst hz
      simp only [hl] at h
      cases h
    · have hm' : m ∈ md.map Prod.fst := by
        rcases List.mem_cons.1 hm with e | hm
        · exact absurd e.symm hz
        · exact hm
      obtain ⟨e, he, rfl⟩ := List.mem_map.1 hm'
      have hlt : z < e.1 := lt_of_le_of_ne ((List.pairwise_cons.1 hs).1 e he) hz
      cases hk : mats.lookup (intStr z) with
      | none => simp only [hk] at h; cases h
      | some x =>
        simp only [hk] at h
        obtain ⟨d0, -, h⟩ := bind_ok h
        have hd : zs.drop 1 = [] := List.drop_eq_nil_iff.2 (hone (z, zs) (by simp) hlt)
        rw [hd] at h
        obtain ⟨⟨mats1, cells1⟩, hc, h⟩ := bind_ok h
        cases hc
        refine ih (List.pairwise_cons.1 hs).2 hm' (fun e' he' => hone e' (by simp [he'])) ?_ r h
        rw [lookup_dictSet, if_neg (fun e => hz (intStr_injective e).symm)]
        exact hl

theorem reorganise_missing {io : NumIO K} {mats : List (Str × Material K)} {cells : List (Cell K)} (hint : ∀ c ∈ cells, ∃ z, c.material = .int z) {c : Cell K} (hc : c ∈ cells) {m : Int} (hcm : c.material = .int m) (hm0 : m ≠ 0)
    (hm : mats.lookup (intStr m) = none) (hone : ∀ c1 ∈ cells, ∀ c2 ∈ cells, ∀ z, c1.material = .int z → c2.material = .int z → z ≠ 0 → z < m → c1.density = c2.density) :
    ∀ r, reorganiseMaterials io mats cells ≠ .ok r := by
  intro r h
  obtain ⟨md, h1, h2⟩ := materialDensity_spec cells hint [] (fun _ _ => False) ⟨List.nodup_nil, by simp, by simp⟩
  unfold reorganiseMaterials at h
  rw [h1] at h
  obtain ⟨_, e, h⟩ := bind_ok h
  cases e
  obtain ⟨ds, hmd, -⟩ := (h2.mem m c.density).2 (.inr ⟨c, hc, hcm, rfl⟩)
  have hmf : (m, ds) ∈ md.filter fun e => e.1 ≠ 0 := List.mem_filter.2 ⟨hmd, by simpa using hm0⟩
  rw [if_neg (List.ne_nil_of_mem hmf)] at h
  obtain ⟨x, hx, -⟩ := bind_ok h
  refine assign_missing (m := m) ?_ ?_ ?_ hm x hx
  · exact List.pairwise_insertionSort _ _
  · exact List.mem_map.2 ⟨(m, ds), (List.perm_insertionSort _ _).mem_iff.2 hmf, rfl⟩
  · intro e he hlt
    obtain ⟨he, h0⟩ := List.mem_filter.1 ((List.perm_insertionSort _ _).subset he)
    have h0 : e.1 ≠ 0 := by simpa using h0
    obtain ⟨z, zs⟩ := e
    obtain ⟨hnd, -⟩ := h2.good z zs he
    match zs, hnd with
    | [], _ => simp
    | [_], _ => simp
    | a :: b :: l, hnd =>
      exfalso
      have hin : ∀ x ∈ a :: b :: l, ∃ c ∈ cells, c.material = .int z ∧ c.density = x := fun x hx => ((h2.mem z x).1 ⟨_, he, hx⟩).resolve_left id
      obtain ⟨c1, g1, g2, g3⟩ := hin a (by simp)
      obtain ⟨c2, k1, k2, k3⟩ := hin b (by simp)
      have := hone c1 g1 c2 k1 z g2 k2 h0 hlt
      rw [g3, k3] at this
      subst this
      simp at hnd

/-! ## Fills -/

theorem universe_missing {trs : List (Str × Transform K)} {cells : List (Cell K)} {c : Cell K} (hc : c ∈ cells) (h0 : c.trId ≠ c!"0") (hl : trs.lookup c.trId = none) : ∀ r, applyUniverseTransformations trs cells ≠ .ok r := by
  intro r h
  unfold applyUniverseTransformations at h
  obtain ⟨c', -, h1⟩ := forall₂_exists_left (mapM_ok_forall₂ h) hc
  rw [if_pos h0, hl] at h1
  cases h1

theorem universe_fields {trs : List (Str × Transform K)} {cells cells' : List (Cell K)} (h : applyUniverseTransformations trs cells = .ok cells') :
    List.Forall₂ (fun c c' => c'.material = c.material ∧ c'.density = c.density) cells cells' := by
  unfold applyUniverseTransformations at h
  refine forall₂_imp (fun c c' h => ?_) (mapM_ok_forall₂ h)
  split at h
  · split at h
    · cases h; exact ⟨rfl, rfl⟩
    · cases h
  · cases h; exact ⟨rfl, rfl⟩

variable [IsStrictOrderedRing K]

/-! ## The deck of a file with a readable geometry -/

theorem flatten_file {io : NumIO K} {cosDeg sqrt : K → K} {f : InputFile K} {d : Deck K} (hio : Exact io) (hleg : ∀ c ∈ f.cells, Legal (lexGeometry c.geometry) ∧ ∀ m x, c.content = some (m, x) → 0 < m)
    (ha : DeckAgrees io cosDeg sqrt f d) (hs : List.Forall₂ StoredAs f.surfaces d.surfaces) (hlast : d.last = d.surfaces.foldl (fun m s => if m < s.id then s.id else m) 0) (hg : ReadableGeometry sqrt f)
    {cells1 : List (Cell K)} {surfs1 : List (Surface K)} {last1 : Int} (h : flatten io cosDeg sqrt d.cells d.surfaces d.last = .ok (cells1, surfs1, last1)) :
    List.Forall₂ (fun c c' => c' = { c with text := c'.text, interpreted := c'.interpreted, surfaces := c'.surfaces } ∧ ∀ n, refWord n ∈ c.text → .str (refWord n) ∈ c'.interpreted) d.cells cells1 := by
  have hb := forall₂_both ha.surfaces hs
  have hids : d.surfaces.map Surface.id = f.surfaces.map (·.number) := by
    have := ha.surfaces
    clear hlast h hs hb hleg hg
    generalize f.surfaces = fs at *
    generalize d.surfaces = ss at *
    induction this with
    | nil => rfl
    | cons k _ ih => simp [k.number, ih]
  have hnd : (d.surfaces.map Surface.id).Nodup := by rw [hids]; exact hg.numbers.1
  have hloop : ∀ c ∈ d.cells, LoopCell d.surfaces d.surfaces c := by
    intro c hc
    obtain ⟨e, he, k⟩ := forall₂_exists_right ha.cells hc
    refine ⟨?_, by rw [k.region.1]; exact (hleg e he).1, by rw [k.region.1, k.region.2], fun w hw hsym => ?_⟩
    · have hcon := k.content
      cases hx : e.content with
      | none =>
        rw [hx] at hcon
        exact ⟨0, hcon.1, le_refl _, fun _ => hcon.2⟩
      | some mx =>
        rw [hx] at hcon
        have := (hleg e he).2 mx.1 mx.2 hx
        exact ⟨mx.1, hcon.1, this.le, fun h0 => by omega⟩
    · have hat : Sym.atom w ∈ tokenSyms c.text := by rw [← hsym]; exact List.mem_map_of_mem hw
      rw [k.region.1] at hat
      exact LoopWord.of_known (known_word ha.surfaces hs (hg.words e he w hat))
  have hbody : ∀ s ∈ d.surfaces, s.isMacrobody = true → ProperBody s.type s.coeffs ∧ Roots sqrt s.type s.coeffs := by
    intro s hsm hm
    obtain ⟨e, he, k1, k2⟩ := forall₂_exists_right hb hsm
    obtain ⟨ty, hty⟩ := Option.isSome_iff_exists.1 ((stored_macro k2).1 hm)
    obtain ⟨p1, p2⟩ := hg.bodies e he ty hty
    rcases (k2.body ty hty).2 with ⟨j1, j2⟩ | ⟨j0, j1, j2⟩
    · rw [j1, j2]
      exact ⟨p1, p2⟩
    · rw [j1]
      match hcs : s.coeffs, j2 with
      | [_, _, _, _, _, _], _ => exact ⟨trivial, trivial⟩
  obtain ⟨cells', more, last', h1, -, -, -, -, h6⟩ := flattenGo_ok (sqrt := sqrt) (fun _ p => p) io hio cosDeg d.surfaces d.surfaces d.last d.cells (uniqueIds_of_nodup hnd)
    (fun s hsm => by
      obtain ⟨e, he, k⟩ := forall₂_exists_right ha.surfaces hsm
      exact ⟨by rw [k.number]; exact hg.numbers.2 e he, by rw [hlast]; exact last_ge.2 s hsm⟩)
    (by rw [hlast]; exact last_ge.1) (fun _ h => h) (List.Nodup.of_map _ hnd) hbody hloop
  unfold flatten at h
  rw [h1] at h
  cases h
  refine forall₂_imp (fun c c' k => ⟨k.2.fields, fun n hn => ?_⟩) h6
  have hmem : Sym.atom (refWord n) ∈ tokenSyms c'.text := List.mem_map.2 ⟨_, k.2.kept n hn, tokenSym_word (plain_refWord n) (by simp [refWord]) (refWord_ne_hash n)⟩
  rw [← k.1.parsed] at hmem
  exact mem_words.1 (atom_mem_itemSyms hmem)

end

end Csg
