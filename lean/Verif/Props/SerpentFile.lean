import Verif.Lemmas.MaterialText
import Verif.Lemmas.Outputs
import Verif.Lemmas.OutputText
import Verif.Props.OtherCellText
import Verif.Props.SurfaceText

/-!
# The Serpent file: C86
-/

namespace Csg

open Spec

/-- Reading `text` for a code with comments after `mark` gives the words of `cs`, whatever follows. -/
private def Reads (mark : Char) (text : Str) (cs : List (List Str)) : Prop :=
  ∀ b, split (uncomment mark false (text ++ b)) = cs.flatten ++ split (uncomment mark false b)

private theorem reads_append {mark : Char} {s t : Str} {cs ds : List (List Str)} (h : Reads mark s cs) (h' : Reads mark t ds) : Reads mark (s ++ t) (cs ++ ds) := by
  intro b
  rw [List.append_assoc, h, h', List.flatten_append, List.append_assoc]

private theorem reads_flatten {mark : Char} {ts : List Str} {css : List (List (List Str))} (h : List.Forall₂ (Reads mark) ts css) : Reads mark ts.flatten css.flatten := by
  induction h with
  | nil => intro b; rfl
  | cons h _ ih => exact reads_append h ih

private theorem reads_plain {mark : Char} {s : Str} {cs : List (List Str)} (hc : Complete s) (hm : ∀ w ∈ split s, mark ∉ w) (hk : isSpace mark = false) (h : split s = cs.flatten) :
    Reads mark s cs := by
  intro b
  have : mark ∉ s := by
    intro hs
    obtain ⟨w, hw, hmw⟩ := split_mem s mark hk hs
    exact hm w hw hmw
  rw [uncomment_plain this, split_complete hc, h]

private theorem reads_comment {mark : Char} {a : Str} (h : '\n' ∉ a) : Reads mark (mark :: a ++ c!"\n") [] := by
  intro b
  have : mark :: a ++ c!"\n" ++ b = mark :: a ++ '\n' :: b := by simp
  rw [this, uncomment_line h, split_space_cons _ _ (by decide)]
  rfl

private theorem reads_words {mark : Char} {s : Str} {cs : List (List Str)} (h : Reads mark s cs) : split (uncomment mark false s) = cs.flatten := by
  have := h []
  simpa [uncomment, split, splitGo, flush] using this

/-- Words of numbers and regions are not names of cards. -/
private theorem not_name {w : Str} (h : ∀ c ∈ w, NumberChar c ∨ c ∈ ['-', '(', ')', ':', '#']) : SerpentOrdinary w := by
  have key : ∀ n ∈ serpentNames, ∃ c ∈ n, c.isAlpha = true ∧ c ≠ 'e' := by decide
  refine ⟨fun hn => ?_, fun hp => ?_⟩
  · obtain ⟨c, hc, ha, he⟩ := key w hn
    rcases h c hc with (h | rfl | rfl | rfl | rfl) | h
    · simp only [isDigit, Bool.or_eq_true, beq_iff_eq] at h
      rcases h with ((((((((rfl | rfl) | rfl) | rfl) | rfl) | rfl) | rfl) | rfl) | rfl) | rfl <;> cases ha
    · cases ha
    · cases ha
    · cases ha
    · exact he rfl
    · simp only [List.mem_cons, List.not_mem_nil, or_false] at h
      rcases h with rfl | rfl | rfl | rfl | rfl <;> cases ha
  · rcases h '%' hp with (h | h | h | h | h) | h
    · exact absurd h (by decide)
    · exact absurd h (by decide)
    · exact absurd h (by decide)
    · exact absurd h (by decide)
    · exact absurd h (by decide)
    · exact absurd h (by decide)

private theorem int_name (z : Int) : SerpentOrdinary (intStr z) := not_name fun c hc => by
  rcases intStr_chars z c hc with h | rfl
  · exact .inl (.inl h)
  · exact .inr (by simp)

private theorem card_of {n : Str} {ws : List Str} (hn : n ∈ serpentNames) (h : ∀ w ∈ ws, SerpentOrdinary w) : IsCard (fun w => serpentNames.contains w) (n :: ws) :=
  ⟨n, ws, rfl, by simpa using hn, fun w hw => by simpa using (h w hw).1⟩

private theorem reads_card {s n : Str} {ws : List Str} (hc : Complete s) (h : split s = n :: ws) (hn : n ∈ serpentNames) (hw : ∀ w ∈ ws, SerpentOrdinary w) : Reads '%' s [n :: ws] := by
  refine reads_plain hc ?_ (by decide) (by simpa using h)
  rw [h]
  intro w hm
  rcases List.mem_cons.1 hm with rfl | hm
  · exact (by decide : ∀ n ∈ serpentNames, '%' ∉ n) _ hn
  · exact (hw w hm).2

section
variable {K : Type} [Field K] [LinearOrder K]

omit [Field K] [LinearOrder K] in
private theorem surface_complete {io : NumIO K} {fixed : K → Str} {s : Surface K} {text : Str} (h : serpentSurface io fixed s = .ok text) : Complete text := by
  unfold serpentSurface at h
  obtain ⟨o, ho, h⟩ := bind_ok h
  cases o with
  | none => cases h; exact .inr ⟨c!"surface not supported", rfl⟩
  | some t =>
    cases h
    suffices ht : ∃ b, t = b ++ c!"\n" by
      obtain ⟨b, rfl⟩ := ht
      exact .inr ⟨c!"surf " ++ intStr s.id ++ b, by simp⟩
    unfold serpentBody at ho
    simp only at ho
    split at ho
    all_goals first
      | (obtain ⟨x, -, hx⟩ := bind_ok ho; cases hx; exact ⟨_, rfl⟩)
      | (cases ho; exact ⟨_, rfl⟩)
      | cases ho

private theorem surface_reads (sqrt : K → K) {read : Str → Option K} {io : NumIO K} {fixed : K → Str} {s : Surface K} (hw : WellFormed s) (hs : IsQuadric s.type ∨ IsTorus s.type)
    (hr : ∀ x ∈ s.coeffs, Prints read io.render x) (hf : IsCone s.type ∨ IsTorus s.type → ∀ x ∈ s.coeffs, Prints read fixed x) :
    ∃ text card, serpentSurface io fixed s = .ok text ∧ Reads '%' text [card] ∧ IsCard (fun w => serpentNames.contains w) card ∧ SerpentSurfaceSays sqrt read s card := by
  obtain ⟨text, kw, ws, ns, h1, h2, ⟨h3, h4⟩, h5⟩ := C67_surface_partial sqrt read io fixed s hw hs hr hf
  have hkw : SerpentOrdinary kw := by
    obtain ⟨d, hd, -⟩ := h5 ⟨0, 0, 0⟩
    have : kw ∈ (serpentTable sqrt).map Prod.fst := by
      by_contra hn
      rw [serpentSide, lookup_none_iff.2 hn] at hd
      cases hd
    have keys : (serpentTable sqrt).map Prod.fst = (serpentTable (fun x : ℚ => x)).map Prod.fst := rfl
    rw [keys] at this
    have all : ∀ k ∈ (serpentTable (fun x : ℚ => x)).map Prod.fst, k ∉ serpentNames ∧ '%' ∉ k := by decide
    exact all kw this
  have hall : ∀ w ∈ intStr s.id :: kw :: ws, SerpentOrdinary w := by
    intro w hw
    rcases List.mem_cons.1 hw with rfl | hw
    · exact int_name _
    rcases List.mem_cons.1 hw with rfl | hw
    · exact hkw
    · exact not_name fun c hc => .inl (h4 w hw c hc)
  exact ⟨text, _, h1, reads_card (surface_complete h1) h2 (by decide) hall, card_of (by decide) hall, kw, ws, ns, rfl, h3, h5⟩

private theorem cell_reads {io : NumIO K} {c : Cell K} {offs rots : List Str} (hw : Writable io SurfaceWord c) (hp : WritableParams io c offs rots) (hm : SerpentOrdinary c.material.text)
    (hu : ∀ u, c.uni = some u → SerpentOrdinary u) (hf : ∀ f, c.fill = some f → SerpentOrdinary f) (ho : ∀ w ∈ offs, SerpentOrdinary w) :
    ∃ text cards, (∃ fuel₀, ∀ fuel ≥ fuel₀, (writeSerpentCell fuel io c).map (Option.map fun t => t.1 ++ t.2) = .ok (some text)) ∧ Reads '%' text cards ∧
      (∀ d ∈ cards, IsCard (fun w => serpentNames.contains w) d) ∧ SerpentCellSays c offs rots cards := by
  obtain ⟨out, g, ⟨fuel₀, hout⟩, -, h2, h3, -, h5⟩ := C29_cell_text io c hw (fun u hu => (hp.uni u hu).1) (fun f hf => (hp.fill f hf).1)
  obtain ⟨t, ht, ht1, ht2⟩ := C66_trans io c offs rots hw.id hp
  have hc : Complete out := by
    have := hout fuel₀ (le_refl _)
    unfold serpentCellText at this
    rw [squeeze_newline] at this
    refine .inr (lineFormatter_complete this ?_)
    refine ⟨'c', ?_, by decide⟩
    simp [squeeze]
  have hcell : ∀ w ∈ [intStr c.id, c.uni.getD c!"0"] ++ serpentContent c ++ g, SerpentOrdinary w := by
    intro w hw'
    rcases List.mem_append.1 hw' with hw' | hw'
    · rcases List.mem_append.1 hw' with hw' | hw'
      · simp only [List.mem_cons, List.not_mem_nil, or_false] at hw'
        rcases hw' with rfl | rfl
        · exact int_name _
        · cases h : c.uni with
          | none => exact ⟨by decide, by decide⟩
          | some u => exact hu u h
      · unfold serpentContent at hw'
        cases h : c.fill with
        | some f =>
          rw [h] at hw'
          simp only [List.mem_cons, List.not_mem_nil, or_false] at hw'
          rcases hw' with rfl | rfl
          · exact ⟨by decide, by decide⟩
          · exact hf _ h
        | none =>
          rw [h] at hw'
          simp only at hw'
          split at hw' <;> rw [List.mem_singleton] at hw' <;> subst hw'
          · exact ⟨by decide, by decide⟩
          · exact hm
    · exact not_name fun ch hch => by
        rcases h3 w hw' ch hch with h | h
        · exact .inl (.inl h)
        · exact .inr h
  have htrans : ∀ w ∈ [c!"f", intStr c.id] ++ (if c.offset = none then [c!"0", c!"0", c!"0"] else offs) ++
      (if c.rotation = none then [c!"1", c!"0", c!"0", c!"0", c!"1", c!"0", c!"0", c!"0", c!"1"] else rots) ++ [c!"1"], SerpentOrdinary w := by
    intro w hw'
    rcases List.mem_append.1 hw' with hw' | hw'
    · rcases List.mem_append.1 hw' with hw' | hw'
      · rcases List.mem_append.1 hw' with hw' | hw'
        · simp only [List.mem_cons, List.not_mem_nil, or_false] at hw'
          rcases hw' with rfl | rfl
          · exact ⟨by decide, by decide⟩
          · exact int_name _
        · split at hw'
          · simp only [List.mem_cons, List.not_mem_nil, or_false, or_self] at hw'
            subst hw'
            exact ⟨by decide, by decide⟩
          · exact ho w hw'
      · split at hw'
        · exact (by unfold SerpentOrdinary; decide : ∀ w ∈ [c!"1", c!"0", c!"0", c!"0", c!"1", c!"0", c!"0", c!"0", c!"1"], SerpentOrdinary w) w hw'
        · rename_i hr
          obtain ⟨l, hl⟩ := Option.ne_none_iff_exists'.1 hr
          obtain ⟨e, -, x, hx, rfl, -⟩ := forall₂_mem_right (hp.rotation l hl).2 hw'
          exact not_name fun ch hch => .inl (hx.chars ch hch)
    · rw [List.mem_singleton] at hw'
      subst hw'
      exact ⟨by decide, by decide⟩
  have hrc : Reads '%' out [[c!"cell", intStr c.id, c.uni.getD c!"0"] ++ serpentContent c ++ g] := reads_card hc h2 (by decide) hcell
  have hfile : ∀ fuel ≥ fuel₀, (writeSerpentCell fuel io c).map (Option.map fun t => t.1 ++ t.2) = .ok (some (out ++ t)) := by
    intro fuel hfu
    unfold writeSerpentCell
    rw [ht]
    show Except.map _ (Except.ok _) = _
    rw [hout fuel hfu]
    rfl
  by_cases hn : c.fill = none ∨ (c.offset = none ∧ c.rotation = none)
  · have ht0 := ht1 hn
    subst ht0
    refine ⟨out ++ [], _, ⟨fuel₀, hfile⟩, ?_, ?_, g, [], rfl, h5, by rw [if_pos hn]⟩
    · rw [List.append_nil]; exact hrc
    · intro d hd
      rw [List.mem_singleton] at hd
      subst hd
      exact card_of (by decide) hcell
  · have htc : Complete t := by
      unfold serpentTransText at ht
      cases hfl : c.fill with
      | none => exact absurd (.inl hfl) hn
      | some f =>
        rw [hfl] at ht
        simp only at ht
        split at ht
        · cases ht; exact complete_nil
        · obtain ⟨ot, -, ht⟩ := bind_ok ht
          obtain ⟨rt, -, ht⟩ := bind_ok ht
          cases ht
          exact .inr ⟨c!"trans f " ++ intStr c.id ++ c!" " ++ ot ++ rt ++ c!"1 ", by simp⟩
    refine ⟨out ++ t, _, ⟨fuel₀, hfile⟩, reads_append hrc (reads_card htc (ht2 hn) (by decide) htrans), ?_, g, _, rfl, h5, by rw [if_neg hn]; rfl⟩
    intro d hd
    rcases List.mem_append.1 hd with hd | hd
    · rw [List.mem_singleton] at hd
      subst hd
      exact card_of (by decide) hcell
    · rw [List.mem_singleton] at hd
      subst hd
      exact card_of (by decide) htrans

omit [Field K] [LinearOrder K] in
private theorem material_reads {io : NumIO K} {sci : K → Str} {approx : K → K} {m : Material K} (h : PrintableSerpent io sci approx m) :
    ∃ card, Reads '%' (writeSerpentMaterial io sci m) [card] ∧ IsCard (fun w => serpentNames.contains w) card ∧ SerpentMaterialSays io approx m card := by
  have digits : ∀ w : Str, (∀ c ∈ w, isDigit c = true) → SerpentOrdinary w := fun w h => not_name fun c hc => .inl (.inl (h c hc))
  have floats : ∀ w : Str, FloatText w → SerpentOrdinary w := fun w h => not_name fun c hc => .inl (h.chars c hc)
  have dns : ∀ w : Str, (∀ c ∈ w, isDigit c = true) → NoSpace w := fun w h c hc => isSpace_of_isDigit (h c hc)
  have body : ∀ comp : List (Str × K), (∀ e ∈ comp, (e.1 ≠ [] ∧ ∀ c ∈ e.1, isDigit c = true) ∧ FloatText (sci e.2)) →
      Complete (comp.flatMap fun e => e.1 ++ c!" " ++ sci e.2 ++ c!" \n") ∧
      split (comp.flatMap fun e => e.1 ++ c!" " ++ sci e.2 ++ c!" \n") = (comp.zip (comp.map fun e => sci e.2)).flatMap (fun e => [e.1.1, e.2]) := by
    intro comp
    induction comp with
    | nil => intro _; exact ⟨complete_nil, rfl⟩
    | cons e comp ih =>
      intro hall
      obtain ⟨i1, i2⟩ := ih fun e' he => hall e' (by simp [he])
      obtain ⟨⟨a1, a2⟩, a3⟩ := hall e (by simp)
      rw [List.flatMap_cons]
      refine ⟨complete_append (.inr ⟨e.1 ++ c!" " ++ sci e.2 ++ c!" ", by simp⟩) i1, ?_⟩
      have : e.1 ++ c!" " ++ sci e.2 ++ c!" \n" ++ (comp.flatMap fun e => e.1 ++ c!" " ++ sci e.2 ++ c!" \n") =
          e.1 ++ ' ' :: (sci e.2 ++ ' ' :: '\n' :: (comp.flatMap fun e => e.1 ++ c!" " ++ sci e.2 ++ c!" \n")) := by simp
      rw [this, split_head a1 (dns _ a2), split_head a3.ne_nil a3.noSpace, split_space_cons _ _ (by decide), i2]
      simp
  have hall : ∀ e ∈ m.composition, (e.1 ≠ [] ∧ ∀ c ∈ e.1, isDigit c = true) ∧ FloatText (sci e.2) := fun e he => ⟨h.nuclides e he, (h.fractions e he).1⟩
  obtain ⟨b1, b2⟩ := body m.composition hall
  have words : ∀ w ∈ [m.number, io.render m.density] ++ (m.composition.zip (m.composition.map fun e => sci e.2)).flatMap (fun e => [e.1.1, e.2]), SerpentOrdinary w := by
    intro w hw
    rcases List.mem_append.1 hw with hw | hw
    · simp only [List.mem_cons, List.not_mem_nil, or_false] at hw
      rcases hw with rfl | rfl
      · exact digits _ h.number.2
      · exact floats _ h.density.1
    · obtain ⟨⟨e, f⟩, he, hw⟩ := List.mem_flatMap.1 hw
      have h1 := (List.of_mem_zip he).1
      have h2 := (List.of_mem_zip he).2
      obtain ⟨e', he', rfl⟩ := List.mem_map.1 h2
      simp only [List.mem_cons, List.not_mem_nil, or_false] at hw
      rcases hw with rfl | rfl
      · exact digits _ (hall e h1).1.2
      · exact floats _ (hall e' he').2
  refine ⟨[c!"mat", m.number, io.render m.density] ++ (m.composition.zip (m.composition.map fun e => sci e.2)).flatMap (fun e => [e.1.1, e.2]), ?_, card_of (by decide) words,
    io.render m.density, m.composition.map fun e => sci e.2, rfl, h.density.2, ?_⟩
  · have e : writeSerpentMaterial io sci m = ('%' :: (' ' :: m.name) ++ c!"\n") ++ (c!"mat " ++ m.number ++ c!" " ++ io.render m.density ++ c!"\n" ++
        m.composition.flatMap fun e => e.1 ++ c!" " ++ sci e.2 ++ c!" \n") := by
      simp [writeSerpentMaterial]
    rw [e]
    refine reads_append (cs := []) (reads_comment (by simp [h.name])) (reads_card ?_ ?_ (by decide) words)
    · exact complete_append (complete_line _) b1
    · rw [split_complete (complete_line _), b2]
      have : c!"mat " ++ m.number ++ c!" " ++ io.render m.density ++ c!"\n" = c!"mat" ++ ' ' :: (m.number ++ ' ' :: (io.render m.density ++ c!"\n")) := by simp
      rw [this, split_head (by decide) (by unfold NoSpace; decide), split_head h.number.1 (dns _ h.number.2), split_newline h.density.1.ne_nil h.density.1.noSpace]
      rfl
  · rw [List.forall₂_map_right_iff]
    exact List.forall₂_same.2 fun e he => (h.fractions e he).2

/-- C86: Serpent reads the file of a deck as one card for each surface, one for each cell followed by its transform if it has one, and one for each material, in their order and nothing else; the cards
describe the surfaces, the cells and the materials.
Partial: the conditions of `SerpentDeck` on what is printed; the fractions are those that are printed. -/
theorem C86_file_partial (e : Env K) (read : Str → Option K) (approx : K → K) (offs rots : Cell K → List Str) (cells : List (Cell K)) (surfs : List (Surface K)) (mats : List (Str × Material K))
    (h : SerpentDeck read e.io e.fixed e.sci approx offs rots cells surfs mats) :
    ∃ text, (∃ fuel₀, ∀ fuel ≥ fuel₀, Returns (serpentFile { e with fuel := fuel } cells surfs mats) text) ∧
      ∃ scs ccs mcs, serpentCards text = ([], scs ++ ccs.flatten ++ mcs) ∧ List.Forall₂ (SerpentSurfaceSays e.sqrt read) surfs scs ∧
        List.Forall₂ (fun c => SerpentCellSays c (offs c) (rots c)) cells ccs ∧ List.Forall₂ (fun m => SerpentMaterialSays e.io approx m.2) mats mcs := by
  obtain ⟨ss, hss⟩ := forall₂_exists (R := fun s (x : Str × List Str) => serpentSurface e.io e.fixed s = .ok x.1 ∧ Reads '%' x.1 [x.2] ∧ IsCard (fun w => serpentNames.contains w) x.2 ∧
    SerpentSurfaceSays e.sqrt read s x.2) (l := surfs) fun s hs => by
      obtain ⟨t, c, h1⟩ := surface_reads e.sqrt (h.surfaces s hs).1 (h.surfaces s hs).2.1 (h.surfaces s hs).2.2.1 (h.surfaces s hs).2.2.2
      exact ⟨(t, c), h1⟩
  obtain ⟨cs, hcs⟩ := forall₂_exists (R := fun c (x : Str × List (List Str)) => (∃ fuel₀, ∀ fuel ≥ fuel₀, (writeSerpentCell fuel e.io c).map (Option.map fun t => t.1 ++ t.2) = .ok (some x.1)) ∧
    Reads '%' x.1 x.2 ∧ (∀ d ∈ x.2, IsCard (fun w => serpentNames.contains w) d) ∧ SerpentCellSays c (offs c) (rots c) x.2) (l := cells) fun c hc => by
      obtain ⟨t, d, h1⟩ := cell_reads (h.cells c hc).1 (h.cells c hc).2 (h.names c hc).1 (h.names c hc).2.1 (h.names c hc).2.2.1 (h.names c hc).2.2.2
      exact ⟨(t, d), h1⟩
  obtain ⟨ms, hms⟩ := forall₂_exists (R := fun (m : Str × Material K) (x : List Str) => Reads '%' (writeSerpentMaterial e.io e.sci m.2) [x] ∧ IsCard (fun w => serpentNames.contains w) x ∧
    SerpentMaterialSays e.io approx m.2 x) (l := mats) fun m hm => material_reads (h.materials m hm)
  obtain ⟨fuel₀, hfuel⟩ := forall₂_eventually (R := fun fuel c (x : Str × List (List Str)) => (writeSerpentCell fuel e.io c).map (Option.map fun t => t.1 ++ t.2) = .ok (some x.1))
    (hcs.imp fun _ _ h => h.1)
  have hrs : List.Forall₂ (Reads '%') (ss.map Prod.fst) (ss.map fun x => [x.2]) := by
    rw [List.forall₂_map_left_iff, List.forall₂_map_right_iff]
    exact List.forall₂_same.2 fun x hx => (forall₂_right hss x hx).choose_spec.2.2.1
  have hrc : List.Forall₂ (Reads '%') (cs.map Prod.fst) (cs.map Prod.snd) := by
    rw [List.forall₂_map_left_iff, List.forall₂_map_right_iff]
    exact List.forall₂_same.2 fun x hx => (forall₂_right hcs x hx).choose_spec.2.2.1
  have hrm : List.Forall₂ (Reads '%') (mats.map fun m => writeSerpentMaterial e.io e.sci m.2) (ms.map fun x => [x]) := by
    rw [List.forall₂_map_left_iff, List.forall₂_map_right_iff]
    exact hms.imp fun _ _ h => h.1
  obtain ⟨text, htext, hr⟩ : ∃ text, text = c!"% --- surface definitions --- %\n" ++ (ss.map Prod.fst).flatten ++ c!"% --- cell definitions --- %\n" ++ (cs.map Prod.fst).flatten ++ c!"% --- material definitions --- %\n" ++
      mats.flatMap (fun m => writeSerpentMaterial e.io e.sci m.2) ∧ Reads '%' text (ss.map Prod.snd ++ (cs.map Prod.snd).flatten ++ ms) := by
    refine ⟨_, rfl, ?_⟩
    have := reads_append (reads_append (reads_append (reads_append (reads_append (reads_comment (mark := '%') (a := c!" --- surface definitions --- %") (by decide)) (reads_flatten hrs))
      (reads_comment (mark := '%') (a := c!" --- cell definitions --- %") (by decide))) (reads_flatten hrc)) (reads_comment (mark := '%') (a := c!" --- material definitions --- %") (by decide)))
      (reads_flatten hrm)
    have single : ∀ {α : Type} (l : List α), (l.map fun x => [x]).flatten = l := by
      intro α l
      induction l with
      | nil => rfl
      | cons x l ih => simp [ih]
    have single' : (ss.map fun x => [x.2]).flatten = ss.map Prod.snd := by
      have : (ss.map fun x => [x.2]) = (ss.map Prod.snd).map fun x => [x] := by simp
      rw [this, single]
    rw [single', single] at this
    simpa [List.flatMap_def] using this
  refine ⟨text, ⟨fuel₀, fun fuel hf => ?_⟩, ss.map Prod.snd, cs.map Prod.snd, ms, ?_, ?_, ?_, hms.imp fun _ _ h => h.2.2⟩
  · unfold serpentFile
    rw [returns_bind]
    refine ⟨(ss.map Prod.fst).flatten, (returns_cards' _ _ _).2 ⟨_, ?_, rfl⟩, ?_⟩
    · rw [List.forall₂_map_right_iff]
      exact hss.imp fun _ _ h => h.1
    · rw [returns_bind]
      refine ⟨(cs.map Prod.fst).flatten, (returns_cards _ _ _).2 ⟨_, ?_, rfl⟩, ?_⟩
      · rw [List.forall₂_map_right_iff]
        exact hfuel fuel hf
      · rw [returns_pure, htext]
  · unfold serpentCards
    rw [reads_words hr, cutCards_flatten]
    intro d hd
    rcases List.mem_append.1 hd with hd | hd
    · rcases List.mem_append.1 hd with hd | hd
      · obtain ⟨x, hx, rfl⟩ := List.mem_map.1 hd
        exact (forall₂_right hss x hx).choose_spec.2.2.2.1
      · obtain ⟨l, hl, hd⟩ := List.mem_flatten.1 hd
        obtain ⟨x, hx, rfl⟩ := List.mem_map.1 hl
        exact (forall₂_right hcs x hx).choose_spec.2.2.2.1 d hd
    · exact (forall₂_right hms d hd).choose_spec.2.2.1
  · rw [List.forall₂_map_right_iff]
    exact hss.imp fun _ _ h => h.2.2.2
  · rw [List.forall₂_map_right_iff]
    exact hcs.imp fun _ _ h => h.2.2.2

end

/-! ## A deck that meets the hypotheses -/

private def sampleBall : Surface ℚ := { Surface.blank with id := 1, type := .sphereGeneral, coeffs := [0, 0, 0, 5] }

private def sampleGas : Material ℚ := { name := c!"gas", number := c!"2", composition := [(c!"1001", 1)], xsid := [], density := -7 }

private def sampleEnv : Env ℚ :=
  { fuel := 100, io := sampleIO, fixed := sampleIO.render, sci := sampleIO.render, sci4 := sampleIO.render, sci3 := sampleIO.render, sqrt := id, degAtan := id, orderStr := id, orderInt := id }

example : SerpentDeck decimal sampleEnv.io sampleEnv.fixed sampleEnv.sci id (fun _ => [c!"1", c!"2", c!"3"]) (fun _ => []) [writtenCell] [sampleBall] [(c!"2", sampleGas)] ∧
    (serpentFile sampleEnv [writtenCell] [sampleBall] [(c!"2", sampleGas)]).run = .ok (some (c!"% --- surface definitions --- %\nsurf 1 sph 0.0 0.0 0.0 5.0\n% --- cell definitions --- %\n" ++
      c!"cell 3 5 fill 6 ( ( -1: 2 ) # ( 4 ) ) \ntrans f 3 1 2 3 1 0 0 0 1 0 0 0 1 1 \n% --- material definitions --- %\n% gas\nmat 2 -7.0\n1001 1.0 \n")) := by
  refine ⟨⟨?_, ?_, ?_, by decide, ?_⟩, by decide +kernel⟩
  · intro s hs
    rw [List.mem_singleton] at hs
    subst hs
    have hp : ∀ x ∈ sampleBall.coeffs, Prints decimal sampleIO.render x := by
      intro x hx
      simp [sampleBall] at hx
      rcases hx with rfl | rfl
      · exact_mod_cast sample_prints 0 (by decide +kernel)
      · exact_mod_cast sample_prints 5 (by decide +kernel)
    exact ⟨rfl, .inl trivial, hp, fun _ => hp⟩
  · intro c hc
    rw [List.mem_singleton] at hc
    subst hc
    exact ⟨writtenCell_writable, writtenCell_params⟩
  · intro c hc
    rw [List.mem_singleton] at hc
    subst hc
    unfold SerpentOrdinary
    exact ⟨by decide, by intro u hu; cases hu; decide, by intro f hf; cases hf; decide, by decide⟩
  · intro m hm
    rw [List.mem_singleton] at hm
    subst hm
    have hf : ∀ d : Str, d ≠ [] → d.all isDigit = true → ∀ sg : Str, sg = [] ∨ sg = c!"-" → FloatText (sg ++ d ++ c!".0") := fun d h1 h2 sg h3 =>
      ⟨sg, d, c!".0", [], by simp, h3, h1, List.all_eq_true.1 h2, .inr ⟨c!"0", rfl, by decide⟩, .inl rfl⟩
    refine ⟨by decide, by decide, ⟨hf c!"7" (by decide) (by decide) c!"-" (.inr rfl), by decide +kernel⟩, by decide, by decide, ?_⟩
    intro e he
    simp only [sampleGas, List.mem_cons, List.not_mem_nil, or_false] at he
    subst he
    exact ⟨hf c!"1" (by decide) (by decide) [] (.inl rfl), by decide +kernel⟩

end Csg
