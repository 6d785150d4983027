import Verif.Lemmas.Lines
import Verif.Lemmas.MaterialText
import Verif.Lemmas.SerpentMaterials
import Verif.Spec.Sample

/-!
# C76 and C77: materials in Serpent inputs
-/

namespace Csg

open Spec

section
variable {K : Type}

/-- What is read for a card, with the running number. -/
private def Reads (m : SerpentCard K) (p : Str × Material K) : Prop := p.2.name = m.name ∧ p.2.number = p.1 ∧ p.2.density = m.density ∧ p.2.composition = m.nuclides ∧
  p.2.xsid = (m.nuclides.map Prod.fst).zip m.libraries

private theorem groups (io : NumIO K) : ∀ (gs : List (List Str)) (ms : List (SerpentCard K)) (n : Nat), List.Forall₂ (SerpentLines io) gs ms →
    ∃ mats, getSerpentMaterials io n (gs.flatten.filter serpentKeep) = .ok mats ∧ mats.map Prod.fst = (List.range' n ms.length).map natStr ∧ List.Forall₂ Reads ms mats := by
  intro gs
  induction gs with
  | nil => intro ms n h; cases h; exact ⟨[], rfl, rfl, .nil⟩
  | cons g gs ih =>
    intro ms n h
    cases h with
    | cons h1 h2 =>
      rename_i m ms
      obtain ⟨k, t, first, more, d, rest, entries, rfl, hf, hs, hd, hm, hw, hn, he, hl⟩ := h1
      obtain ⟨mats, g1, g2, g3⟩ := ih ms (n + 1) h2
      have hkeep : serpentKeep first = true := by rw [hf]; exact serpentKeep_mat k t
      have hmore : ∀ l ∈ more.filter serpentKeep, ∃ w ws, split l = w :: ws ∧ w ≠ c!"mat" := by
        intro l hl
        obtain ⟨hl, hk⟩ := List.mem_filter.1 hl
        obtain ⟨w, ws, e⟩ := serpentKeep_word (hm l hl).2.1 hk
        refine ⟨w, ws, e, ?_⟩
        rintro rfl
        apply (hm l hl).1
        rw [e]
        rfl
      have hrest : gs.flatten.filter serpentKeep = [] ∨ ∃ l ls ws, gs.flatten.filter serpentKeep = l :: ls ∧ split l = c!"mat" :: ws := by
        cases h2 with
        | nil => exact .inl rfl
        | cons h3 h4 =>
          rename_i gs' _
          obtain ⟨k', t', first', more', d', rest', -, rfl, hf', hs', -⟩ := h3
          refine .inr ⟨first', (more' ++ gs'.flatten).filter serpentKeep, _, ?_, hs'⟩
          rw [List.flatten_cons, List.cons_append, List.filter_cons_of_pos (by rw [hf']; exact serpentKeep_mat k' t')]
      have htext : serpentBlock (more.filter serpentKeep ++ gs.flatten.filter serpentKeep) = .ok ((more.filter serpentKeep).map fun l => l.takeWhile (· ≠ '%')).flatten := serpentBlock_lines _ _ hmore hrest
      have htok : split (replaceChar '\n' c!" " (c!" " ++ ((more.filter serpentKeep).map fun l => l.takeWhile (· ≠ '%')).flatten)) = entryWords entries := by
        rw [split_newlines, split_spaces_append _ _ (by decide), cut_flatten _ fun l hl => (hm l (List.mem_filter.1 hl).1).2, serpentWords_filter, hw]
      have hx := serpentGo_fresh io entries m.nuclides [] [] he hn (by simp) rfl
      have heven : ∀ es : List (Str × Str), (entryWords es).length % 2 = 0 := by
        intro es
        induction es with
        | nil => rfl
        | cons e es ih =>
          have : entryWords (e :: es) = e.1 :: e.2 :: entryWords es := rfl
          rw [this]
          simp only [List.length_cons]
          omega
      let mat : Material K := { name := m.name, number := natStr n, composition := m.nuclides, xsid := (m.nuclides.map Prod.fst).zip m.libraries, density := m.density }
      have hread : getSerpentMaterial io n first (more.filter serpentKeep ++ gs.flatten.filter serpentKeep) = .ok mat := by
        unfold getSerpentMaterial
        have e1 : pyGet (split first) 1 = .ok m.name := by rw [hs]; rfl
        have e2 : pyGet (split first) 2 = .ok d := by rw [hs]; rfl
        have e3 : io.float d = .ok m.density := by unfold NumIO.float; rw [hd]
        simp only [e1, e2, e3, htext, bind, Except.bind]
        unfold readSerpentMaterial
        simp only [htok]
        rw [if_neg (by rw [heven]; simp), hx, List.nil_append, List.nil_append, ← hl]
        rfl
      refine ⟨(natStr n, mat) :: mats, ?_, ?_, .cons ⟨rfl, rfl, rfl, rfl, rfl⟩ g3⟩
      · have hmat : isSerpentMaterial first = true := by rw [hf]; exact isSerpentMaterial_mat k t
        rw [List.flatten_cons, List.cons_append, List.filter_cons_of_pos hkeep, List.filter_append, getSerpentMaterials, if_pos hmat, hread,
          serpentMaterials_skip io (n + 1) (fun l hl => (hm l (List.mem_filter.1 hl).1).1) _, g1]
        rfl
      · rw [List.map_cons, g2, List.length_cons, List.range'_succ, List.map_cons]

/-- C77: reading a Serpent input gives one material for each material card, in their order and numbered from 1, with the name, the density, the nuclides, their libraries and the fractions of the card.
Partial: behind the first material there are only materials (`C77_refuted_following`), a comment must be separated from the text before it (`C77_refuted_glued`), and the nuclides of a card must differ from each other
(`C77_refuted_repeated`). -/
theorem C77_materials_partial (io : NumIO K) (before : List Str) (gs : List (List Str)) (ms : List (SerpentCard K)) (hb : ∀ l ∈ before, (split l).head? ≠ some c!"mat")
    (hg : List.Forall₂ (SerpentLines io) gs ms) :
    ∃ mats, processSerpent io (before ++ gs.flatten) = .ok mats ∧ mats.map Prod.fst = (List.range' 1 ms.length).map natStr ∧
      List.Forall₂ (fun m p => p.2.name = m.name ∧ p.2.number = p.1 ∧ p.2.density = m.density ∧ p.2.composition = m.nuclides ∧
        p.2.xsid = (m.nuclides.map Prod.fst).zip m.libraries) ms mats := by
  obtain ⟨mats, h1, h2, h3⟩ := groups io gs ms 1 hg
  refine ⟨mats, ?_, h2, h3⟩
  have : processSerpent io (before ++ gs.flatten) = getSerpentMaterials io 1 ((before ++ gs.flatten).filter serpentKeep) := rfl
  rw [this, List.filter_append, serpentMaterials_skip io 1 (fun l hl => hb l (List.mem_filter.1 hl).1), h1]


/-! ## Written materials -/

private theorem comment_dropped (s : Str) : serpentKeep ('%' :: s) = false := by
  unfold serpentKeep
  rw [decide_eq_false_iff_not]
  rintro ⟨-, h⟩
  apply h
  obtain ⟨a, b, e, ha, hb⟩ := strip_spec ('%' :: s)
  cases a with
  | cons x a =>
    rw [List.cons_append, List.cons_append] at e
    have := (List.cons.inj e).1
    subst this
    exact absurd (List.all_eq_true.1 ha '%' (by simp)) (by decide)
  | nil =>
    rw [List.nil_append] at e
    generalize strip ('%' :: s) = r at e
    cases r with
    | nil =>
      rw [List.nil_append] at e
      subst e
      exact absurd (List.all_eq_true.1 hb '%' (by simp)) (by decide)
    | cons x r =>
      rw [List.cons_append] at e
      rw [← (List.cons.inj e).1]
      rfl

/-- The line of a nuclide. -/
private def nucLine (sci : K → Str) (e : Str × K) : Str := e.1 ++ c!" " ++ sci e.2 ++ c!" \n"
/-- The first line of a material. -/
private def matLine (io : NumIO K) (m : Material K) : Str := c!"mat " ++ m.number ++ c!" " ++ io.render m.density ++ c!"\n"

private theorem plain_split {w : Str} (h : ∀ c ∈ w, PlainChar c) (hne : w ≠ []) (t : Str) : split (w ++ ' ' :: t) = w :: split t :=
  split_word_space _ _ _ (by decide) (fun c hc => (h c hc).facts.1) hne

private theorem digits_plain {w : Str} (h : ∀ c ∈ w, isDigit c = true) : ∀ c ∈ w, PlainChar c := fun c hc => .inl (h c hc)

private theorem written_group {io : NumIO K} {sci : K → Str} {approx : K → K} {m : Material K} (hm : PrintableSerpent io sci approx m) :
    SerpentLines io (matLine io m :: m.composition.map (nucLine sci)) ⟨m.number, m.density, m.composition.map fun e => (e.1, approx e.2), m.composition.map fun _ => []⟩ := by
  have hd := floatText_plain hm.density.1
  have hnum := digits_plain hm.number.2
  have hplain : ∀ {s : Str} {c : Char}, c ∈ ['$', '=', '\n', '%'] → (∀ c ∈ s, PlainChar c) → c ∉ s := fun hc h hh => (h _ hh).facts.2.1 hc
  have hline : ∀ e ∈ m.composition, split (nucLine sci e) = [e.1, sci e.2] ∧ '%' ∉ nucLine sci e := by
    intro e he
    obtain ⟨h1, h2⟩ := hm.nuclides e he
    have hf := floatText_plain (hm.fractions e he).1
    have e1 : nucLine sci e = e.1 ++ ' ' :: (sci e.2 ++ ' ' :: c!"\n") := by simp [nucLine]
    refine ⟨?_, ?_⟩
    · rw [e1, plain_split (digits_plain h2) h1, plain_split hf (hm.fractions e he).1.ne_nil]
      rfl
    · rw [e1]
      simp only [List.mem_append, List.mem_cons, not_or]
      exact ⟨hplain (by decide) (digits_plain h2), by decide, hplain (by decide) hf, by decide, by decide⟩
  refine ⟨0, m.number ++ c!" " ++ io.render m.density ++ c!"\n", _, _, io.render m.density, [], m.composition.map fun e => (e.1, sci e.2), rfl, by simp [matLine], ?_, hm.density.2, ?_, ?_, ?_, ?_, ?_⟩
  · have e1 : matLine io m = c!"mat" ++ ' ' :: (m.number ++ ' ' :: (io.render m.density ++ '\n' :: [])) := by simp [matLine]
    rw [e1, split_word_space _ _ _ (by decide) (by unfold NoSpace; decide) (by decide), plain_split hnum hm.number.1,
      split_word_space _ _ _ (by decide) (fun c hc => (hd c hc).facts.1) hm.density.1.ne_nil]
    rfl
  · intro l hl
    obtain ⟨e, he, rfl⟩ := List.mem_map.1 hl
    obtain ⟨h1, h2⟩ := hline e he
    refine ⟨?_, ⟨e.1 ++ c!" " ++ sci e.2 ++ c!" ", by simp [nucLine]⟩, ?_⟩
    · rw [h1]
      intro h
      have h : e.1 = c!"mat" := by simpa using h
      have := (hm.nuclides e he).2 'm' (by rw [h]; simp)
      revert this
      decide
    · intro a c b h _
      rw [h] at h2
      exact absurd (by simp : '%' ∈ a ++ c :: '%' :: b) h2
  · unfold serpentWords entryWords
    rw [List.flatMap_map, List.flatMap_map]
    have : ∀ es : List (Str × K), (∀ e ∈ es, e ∈ m.composition) → es.flatMap (fun e => split ((nucLine sci e).takeWhile (· ≠ '%'))) = es.flatMap fun e => [e.1, sci e.2] := by
      intro es
      induction es with
      | nil => intro _; rfl
      | cons e es ih =>
        intro h
        obtain ⟨h1, h2⟩ := hline e (h e (by simp))
        have hs : (nucLine sci e).takeWhile (· ≠ '%') = nucLine sci e := by
          have := List.takeWhile_append_of_pos (p := fun c : Char => decide (c ≠ '%')) (l₁ := nucLine sci e) (l₂ := []) fun c hc => by
            simp only [ne_eq, decide_not, Bool.not_eq_eq_eq_not, Bool.not_true, decide_eq_false_iff_not]; rintro rfl; exact h2 hc
          simpa using this
        rw [List.flatMap_cons, List.flatMap_cons, hs, h1, ih fun e' he' => h e' (by simp [he'])]
    exact this m.composition fun _ h => h
  · simp only [List.map_map]
    exact hm.nodup
  · have : ∀ es : List (Str × K), (∀ e ∈ es, e ∈ m.composition) → List.Forall₂ (fun (e : Str × Str) (p : Str × K) => nuclideOf e.1 = p.1 ∧ fortranNumber io e.2 = .ok p.2)
        (es.map fun e => (e.1, sci e.2)) (es.map fun e => (e.1, approx e.2)) := by
      intro es
      induction es with
      | nil => intro _; exact .nil
      | cons e es ih =>
        intro h
        have he := h e (by simp)
        refine .cons ⟨?_, fortranNumber_floatText io (hm.fractions e he).1 (hm.fractions e he).2⟩ (ih fun e' he' => h e' (by simp [he']))
        obtain ⟨h1, h2⟩ := hm.nuclides e he
        obtain ⟨ws, hws⟩ := splitOnChar_head e.1
        rw [splitOnChar_not_mem _ _ fun hh => absurd (h2 _ hh) (by decide)] at hws
        exact (List.cons.inj hws).1.symm
    exact this m.composition fun _ h => h
  · rw [List.map_map]
    refine List.map_congr_left fun e he => ?_
    have h2 := (hm.nuclides e he).2
    have h3 := splitOnChar_second e.1
    rw [splitOnChar_not_mem _ _ fun hh => absurd (h2 _ hh) (by decide)] at h3
    exact h3

/-- The lines of a written material. -/
private def serpentLinesOf (io : NumIO K) (sci : K → Str) (m : Material K) : List Str := (c!"% " ++ m.name ++ c!"\n") :: matLine io m :: m.composition.map (nucLine sci)

private theorem written_complete {io : NumIO K} {sci : K → Str} {approx : K → K} {m : Material K} (hm : PrintableSerpent io sci approx m) :
    (∀ l ∈ serpentLinesOf io sci m, ∃ t, '\n' ∉ t ∧ l = t ++ ['\n']) ∧ ∀ l ∈ matLine io m :: m.composition.map (nucLine sci), lower l = l := by
  have hd := floatText_plain hm.density.1
  have hnum := digits_plain hm.number.2
  have hplain : ∀ {s : Str}, (∀ c ∈ s, PlainChar c) → '\n' ∉ s := fun h hh => (h _ hh).facts.2.1 (by decide)
  constructor
  · intro l hl
    rcases List.mem_cons.1 hl with rfl | hl
    · refine ⟨c!"% " ++ m.name, ?_, rfl⟩
      simp only [List.mem_append, not_or]
      exact ⟨by decide, hm.name⟩
    · rcases List.mem_cons.1 hl with rfl | hl
      · refine ⟨c!"mat " ++ m.number ++ c!" " ++ io.render m.density, ?_, rfl⟩
        simp only [List.mem_append, not_or]
        exact ⟨⟨⟨by decide, hplain hnum⟩, by decide⟩, hplain hd⟩
      · obtain ⟨e, he, rfl⟩ := List.mem_map.1 hl
        refine ⟨e.1 ++ c!" " ++ sci e.2 ++ c!" ", ?_, by simp [nucLine]⟩
        simp only [List.mem_append, not_or]
        exact ⟨⟨⟨hplain (digits_plain (hm.nuclides e he).2), by decide⟩, hplain (floatText_plain (hm.fractions e he).1)⟩, by decide⟩
  · intro l hl
    rcases List.mem_cons.1 hl with rfl | hl
    · apply lower_plain
      intro c hc
      unfold matLine at hc
      simp only [List.append_assoc, List.mem_append] at hc
      rcases hc with hc | hc | hc | hc | hc
      · simp only [List.mem_cons, List.not_mem_nil, or_false] at hc
        rcases hc with rfl | rfl | rfl | rfl
        · exact .inl (.inr (.inr (.inr (.inr (by decide)))))
        · exact .inl (.inr (.inr (.inr (.inr (by decide)))))
        · exact .inl (.inr (.inr (.inr (.inr (by decide)))))
        · exact .inr (.inl rfl)
      · exact .inl (hnum c hc)
      · exact .inr (.inl (by simpa using hc))
      · exact .inl (hd c hc)
      · exact .inr (.inr (by simpa using hc))
    · obtain ⟨e, he, rfl⟩ := List.mem_map.1 hl
      apply lower_plain
      intro c hc
      unfold nucLine at hc
      simp only [List.append_assoc, List.mem_append] at hc
      rcases hc with hc | hc | hc | hc
      · exact .inl (digits_plain (hm.nuclides e he).2 c hc)
      · exact .inr (.inl (by simpa using hc))
      · exact .inl (floatText_plain (hm.fractions e he).1 c hc)
      · simp only [List.mem_cons, List.not_mem_nil, or_false] at hc
        rcases hc with rfl | rfl
        · exact .inr (.inl rfl)
        · exact .inr (.inr rfl)

/-- C76: reading the materials that the Serpent writer has written, after any other lines, gives one material for each, in their order, with the same density and nuclides, and the fractions as they are printed.
Partial: the materials are numbered anew, from 1; the old number is the name (`C76_refuted_number`). -/
theorem C76_roundtrip_partial (io : NumIO K) (sci : K → Str) (approx : K → K) (ms : List (Material K)) (hm : ∀ m ∈ ms, PrintableSerpent io sci approx m) (before : List Str)
    (hb : ∀ l ∈ before, (∃ t, '\n' ∉ t ∧ l = t ++ ['\n']) ∧ (split (lower l)).head? ≠ some c!"mat") :
    ∃ mats, processSerpent io (readText (before.flatten ++ ms.flatMap (writeSerpentMaterial io sci))) = .ok mats ∧ mats.map Prod.fst = (List.range' 1 ms.length).map natStr ∧
      List.Forall₂ (fun m p => p.2.name = m.number ∧ p.2.number = p.1 ∧ p.2.density = m.density ∧ p.2.composition = m.composition.map fun e => (e.1, approx e.2)) ms mats := by
  have hw : ms.flatMap (writeSerpentMaterial io sci) = (ms.flatMap (serpentLinesOf io sci)).flatten := by
    clear hm
    induction ms with
    | nil => rfl
    | cons m ms ih =>
      rw [List.flatMap_cons, List.flatMap_cons, List.flatten_append, ih]
      congr 1
      unfold writeSerpentMaterial serpentLinesOf matLine
      rw [List.flatten_cons, List.flatten_cons, List.flatMap_def]
      have : (fun e : Str × K => e.1 ++ c!" " ++ sci e.2 ++ c!" \n") = nucLine sci := rfl
      rw [this]
      simp
  have hlines : readText (before.flatten ++ ms.flatMap (writeSerpentMaterial io sci)) = before.map lower ++ (ms.flatMap (serpentLinesOf io sci)).map lower := by
    rw [hw, readText_lines _ _ fun l hl => (hb l hl).1]
    have := readText_lines (ms.flatMap (serpentLinesOf io sci)) [] fun l hl => by
      obtain ⟨m, hm', hl⟩ := List.mem_flatMap.1 hl
      exact (written_complete (hm m hm')).1 l hl
    rw [List.append_nil] at this
    rw [this]
    have hnil : readText [] = [] := rfl
    rw [hnil, List.append_nil]
  have hkeep : ((ms.flatMap (serpentLinesOf io sci)).map lower).filter serpentKeep = (ms.map fun m => matLine io m :: m.composition.map (nucLine sci)).flatten.filter serpentKeep := by
    clear hw hlines
    induction ms with
    | nil => rfl
    | cons m ms ih =>
      rw [List.flatMap_cons, List.map_append, List.filter_append, ih fun m' h' => hm m' (by simp [h']), List.map_cons, List.flatten_cons, List.filter_append]
      congr 1
      unfold serpentLinesOf
      rw [List.map_cons]
      have h1 : serpentKeep (lower (c!"% " ++ m.name ++ c!"\n")) = false := comment_dropped _
      rw [List.filter_cons_of_neg (by rw [h1]; simp)]
      have h2 : (matLine io m :: m.composition.map (nucLine sci)).map lower = matLine io m :: m.composition.map (nucLine sci) := by
        conv_rhs => rw [← List.map_id (matLine io m :: m.composition.map (nucLine sci))]
        exact List.map_congr_left fun l hl => (written_complete (hm m (by simp))).2 l hl
      rw [h2]
  have hg : List.Forall₂ (SerpentLines io) (ms.map fun m => matLine io m :: m.composition.map (nucLine sci)) (ms.map fun m => ⟨m.number, m.density, m.composition.map fun e => (e.1, approx e.2), m.composition.map fun _ => []⟩) := by
    clear hw hlines hkeep
    induction ms with
    | nil => exact .nil
    | cons m ms ih => exact .cons (written_group (hm m (by simp))) (ih fun m' h' => hm m' (by simp [h']))
  obtain ⟨mats, h1, h2, h3⟩ := C77_materials_partial io (before.map lower) _ _ (by
    intro l hl
    obtain ⟨l', hl', rfl⟩ := List.mem_map.1 hl
    exact (hb l' hl').2) hg
  refine ⟨mats, ?_, ?_, ?_⟩
  · rw [← h1, hlines]
    have e : ∀ ls, processSerpent io ls = getSerpentMaterials io 1 (ls.filter serpentKeep) := fun _ => rfl
    rw [e, e, List.filter_append, List.filter_append, hkeep]
  · rw [h2, List.length_map]
  · exact (List.forall₂_map_left_iff.1 h3).imp fun _ _ h => ⟨h.1, h.2.1, h.2.2.1, h.2.2.2.1⟩

end

/-- Water and a void, as written; fractions in a format with exponent. -/
private def serpentWater : Material ℚ := { name := c!"Water", number := c!"3", composition := [(c!"1001", 2), (c!"8016", 1)], xsid := [(c!"1001", c!"70c"), (c!"8016", [])], density := -1 }
private def sciSample (q : ℚ) : Str := intStr q.num ++ c!".0e+00"

example : PrintableSerpent sampleIO sciSample id serpentWater := by
  have f : ∀ d : Str, d ≠ [] → d.all isDigit = true → FloatText (d ++ c!".0e+00") := fun d h1 h2 =>
    ⟨[], d, c!".0", c!"e+00", by simp, .inl rfl, h1, List.all_eq_true.1 h2, .inr ⟨c!"0", rfl, by decide⟩, .inr ⟨c!"+", c!"00", rfl, .inr (.inl rfl), by decide⟩⟩
  refine ⟨by decide, by decide, ⟨⟨c!"-", c!"1", c!".0", [], by decide +kernel, .inr rfl, by decide, by decide, .inr ⟨c!"0", rfl, by decide⟩, .inl rfl⟩, by decide +kernel⟩, by decide, by decide, ?_⟩
  intro e he
  simp only [serpentWater, List.mem_cons, List.not_mem_nil, or_false] at he
  rcases he with rfl | rfl
  · exact ⟨f c!"2" (by decide) (by decide), by decide +kernel⟩
  · exact ⟨f c!"1" (by decide) (by decide), by decide +kernel⟩

/-- The text, and what is read after a line for a cell; the number 3 is lost: it is the name now. -/
theorem C76_refuted_number : ∃ text mat, writeSerpentMaterial sampleIO sciSample serpentWater = text ∧ processSerpent sampleIO (readText (c!"cell 1 0 3 -1\n" ++ text)) = .ok [(c!"1", mat)] ∧
    serpentWater.number = c!"3" ∧ mat.number = c!"1" ∧ mat.name = c!"3" ∧ mat.composition = serpentWater.composition :=
  ⟨c!"% Water\nmat 3 -1.0\n1001 2.0e+00 \n8016 1.0e+00 \n", { serpentWater with name := c!"3", number := c!"1", xsid := [(c!"1001", []), (c!"8016", [])] }, by decide +kernel, by decide +kernel, rfl, rfl, rfl, rfl⟩

/-- Two cards with options, comments and a blank line, which meet the hypotheses of `C77_materials_partial`. -/
private def fuelLines : List Str := [c!"mat fuel -10.4 tmp 900 % hot\n", c!"92235.09c 1 % isotopes\n", c!"\n", c!"  92238.09c 24\n", c!"% end\n"]
private def waterLines : List Str := [c!" mat water -0.7\n", c!"1001 2 8016 1\n"]

private theorem noPercent {l : Str} (h : '%' ∉ l) : Separated l := fun a c b e _ => absurd (by rw [e]; simp) h

private theorem sep (l : Str) (h : ∀ i, i < l.length → l[i + 1]? = some '%' → (l[i]?.map isSpace) = some true) : Separated l := by
  intro a c b e _
  have := h a.length (by rw [e]; simp) (by rw [e]; simp)
  rw [e] at this
  simpa using this

example : List.Forall₂ (SerpentLines sampleIO) [fuelLines, waterLines] [⟨c!"fuel", -104 / 10, [(c!"92235", 1), (c!"92238", 24)], [c!"09c", c!"09c"]⟩, ⟨c!"water", -7 / 10, [(c!"1001", 2), (c!"8016", 1)], [[], []]⟩] := by
  refine .cons ⟨0, c!"fuel -10.4 tmp 900 % hot\n", _, _, c!"-10.4", [c!"tmp", c!"900", c!"%", c!"hot"], [(c!"92235.09c", c!"1"), (c!"92238.09c", c!"24")], rfl, rfl, by decide +kernel, by decide +kernel, ?_, by decide +kernel, by decide, ?_, by decide +kernel⟩
    (.cons ⟨1, c!"water -0.7\n", _, _, c!"-0.7", [], [(c!"1001", c!"2"), (c!"8016", c!"1")], rfl, rfl, by decide +kernel, by decide +kernel, ?_, by decide +kernel, by decide, ?_, by decide +kernel⟩ .nil)
  · intro l hl
    simp only [List.mem_cons, List.not_mem_nil, or_false] at hl
    rcases hl with rfl | rfl | rfl | rfl
    · exact ⟨by decide +kernel, ⟨c!"92235.09c 1 % isotopes", rfl⟩, sep _ (by decide)⟩
    · exact ⟨by decide +kernel, ⟨[], rfl⟩, sep _ (by decide)⟩
    · exact ⟨by decide +kernel, ⟨c!"  92238.09c 24", rfl⟩, sep _ (by decide)⟩
    · exact ⟨by decide +kernel, ⟨c!"% end", rfl⟩, sep _ (by decide)⟩
  · exact .cons ⟨by decide +kernel, by decide +kernel⟩ (.cons ⟨by decide +kernel, by decide +kernel⟩ .nil)
  · intro l hl
    simp only [List.mem_cons, List.not_mem_nil, or_false] at hl
    rcases hl with rfl
    exact ⟨by decide +kernel, ⟨c!"1001 2 8016 1", rfl⟩, sep _ (by decide)⟩
  · exact .cons ⟨by decide +kernel, by decide +kernel⟩ (.cons ⟨by decide +kernel, by decide +kernel⟩ .nil)

private def compositions (r : Py (List (Str × Material ℚ))) : Py (List (Str × List (Str × ℚ))) := r.map (·.map fun p => (p.2.name, p.2.composition))

/-- Cards behind a material are taken for nuclides of it. -/
theorem C77_refuted_following : compositions (processSerpent sampleIO [c!"mat fuel -10\n", c!"92235.09c 1.0\n", c!"surf 1 cz 0.4\n"]) = .ok [(c!"fuel", [(c!"92235", 1), (c!"surf", 1), (c!"cz", 4 / 10)])] := by
  decide +kernel

/-- Without a blank before the comment the next line is glued to the number. -/
theorem C77_refuted_glued : compositions (processSerpent sampleIO [c!"mat fuel -10\n", c!"92235 1%fissile\n", c!"92238 24\n"]) = .error .exception := by decide +kernel

/-- Of two entries for the same nuclide the first is lost. -/
theorem C77_refuted_repeated : compositions (processSerpent sampleIO [c!"mat fuel -10\n", c!"92235.03c 1\n", c!"92235.09c 3\n"]) = .ok [(c!"fuel", [(c!"92235", 3)])] := by
  decide +kernel

end Csg
