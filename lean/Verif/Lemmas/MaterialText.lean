import Verif.Lemmas.DataCards
import Verif.Lemmas.Exact
import Verif.Lemmas.Lines
import Verif.Lemmas.Material
import Verif.Lemmas.Scone
import Verif.Spec.MaterialText

/-!
# Lemmas about written materials
-/

namespace Csg

open Spec

/-- The characters of nuclides, libraries and numbers. -/
def PlainChar (c : Char) : Prop := isDigit c = true ∨ c = '+' ∨ c = '-' ∨ c = '.' ∨ c.isLower = true

theorem toLower_of_not_upper {c : Char} (h : c.isUpper = false) : c.toLower = c := by
  unfold Char.toLower
  unfold Char.isUpper at h
  split
  · rename_i h'
    exfalso
    rw [decide_eq_false_iff_not] at h
    exact h ⟨h'.1, h'.2⟩
  · rfl

theorem PlainChar.facts {c : Char} (h : PlainChar c) : isSpace c = false ∧ c ∉ ['$', '=', '\n', '%'] ∧ c.toLower = c := by
  rcases h with h | rfl | rfl | rfl | h
  · simp only [isDigit, Bool.or_eq_true, beq_iff_eq] at h
    rcases h with ((((((((rfl | rfl) | rfl) | rfl) | rfl) | rfl) | rfl) | rfl) | rfl) | rfl <;> decide
  · decide
  · decide
  · decide
  · have hv : 97 ≤ c.toNat ∧ c.toNat ≤ 122 := by
      unfold Char.isLower at h
      simp only [Bool.and_eq_true, decide_eq_true_eq] at h
      exact ⟨UInt32.le_iff_toNat_le.1 h.1, UInt32.le_iff_toNat_le.1 h.2⟩
    refine ⟨?_, ?_, ?_⟩
    · by_contra hs
      rw [Bool.not_eq_false] at hs
      simp only [isSpace, Bool.or_eq_true, beq_iff_eq] at hs
      rcases hs with ((((rfl | rfl) | rfl) | rfl) | rfl) | rfl <;> revert hv <;> decide
    · intro hm
      simp only [List.mem_cons, List.not_mem_nil, or_false] at hm
      rcases hm with rfl | rfl | rfl | rfl <;> revert hv <;> decide
    · apply toLower_of_not_upper
      unfold Char.isUpper
      rw [decide_eq_false_iff_not]
      rintro ⟨-, hh⟩
      have := UInt32.le_iff_toNat_le.1 hh
      have h90 : ('Z'.val).toNat = 90 := by decide
      have : c.toNat ≤ 90 := by rw [← h90]; exact this
      omega

theorem lower_plain {s : Str} (h : ∀ c ∈ s, PlainChar c ∨ c = ' ' ∨ c = '\n') : lower s = s := by
  unfold lower
  conv_rhs => rw [← List.map_id s]
  apply List.map_congr_left
  intro c hc
  rcases h c hc with h | rfl | rfl
  · exact h.facts.2.2
  · decide
  · decide

theorem floatText_plain {s : Str} (h : FloatText s) : ∀ c ∈ s, PlainChar c := by
  intro c hc
  rcases h.chars c hc with h | h | h | h | rfl
  · exact .inl h
  · exact .inr (.inl h)
  · exact .inr (.inr (.inl h))
  · exact .inr (.inr (.inr (.inl h)))
  · exact .inr (.inr (.inr (.inr (by decide))))

section
variable {K : Type}

/-- The line of a nuclide. -/
def nuclideLine (io : NumIO K) (ext : Str → Str) (e : Str × K) : Str := c!"     " ++ e.1 ++ ext e.1 ++ c!" " ++ io.render e.2 ++ c!"\n"

/-- The extension of a nuclide. -/
def extension (preserve : Bool) (m : Material K) (nuc : Str) : Str := if preserve then c!"." ++ (m.xsid.lookup nuc).getD [] else []

theorem writeMcnpMaterial_eq (io : NumIO K) (preserve comment : Bool) (m : Material K) (hx : preserve = true → PrintableXs m) :
    writeMcnpMaterial io preserve comment m = .ok ((if comment then c!"C Material " ++ m.name ++ c!"\n" else []) ++ c!"M" ++ m.number ++
      (m.composition.map (nuclideLine io (extension preserve m))).flatten) := by
  have h : m.composition.mapM (mcnpNuclide io m.xsid preserve) = .ok (m.composition.map (nuclideLine io (extension preserve m))) := by
    apply mapM_ok_of_forall
    intro e he
    unfold mcnpNuclide nuclideLine extension
    cases preserve with
    | false => rfl
    | true =>
      obtain ⟨x, hx, -⟩ := hx rfl e he
      simp only [hx]
      rfl
  unfold writeMcnpMaterial
  rw [h]
  rfl

/-- Words of nuclide and extension. -/
theorem nuclide_word {io : NumIO K} {preserve : Bool} {m : Material K} (hm : Printable io m) (hx : preserve = true → PrintableXs m) {e : Str × K} (he : e ∈ m.composition) :
    (e.1 ++ extension preserve m e.1 ≠ []) ∧ (∀ c ∈ e.1 ++ extension preserve m e.1, PlainChar c) ∧
      splitOnChar '.' (e.1 ++ extension preserve m e.1) = e.1 :: (if preserve then [(m.xsid.lookup e.1).getD []] else []) := by
  obtain ⟨h1, h2⟩ := hm.nuclides e he
  have hd : ∀ s : Str, (∀ c ∈ s, isDigit c = true ∨ c.isLower = true) → '.' ∉ s := fun s hs hh => by
    have := hs _ hh
    revert this
    decide
  refine ⟨by simp [h1], ?_, ?_⟩
  · intro c hc
    rcases List.mem_append.1 hc with hc | hc
    · exact .inl (h2 c hc)
    · unfold extension at hc
      cases preserve with
      | false => simp at hc
      | true =>
        obtain ⟨x, hx, hxc⟩ := hx rfl e he
        simp only [hx, if_true, Option.getD_some] at hc
        rcases List.mem_cons.1 hc with rfl | hc
        · exact .inr (.inr (.inr (.inl rfl)))
        · rcases hxc c hc with h | h
          · exact .inl h
          · exact .inr (.inr (.inr (.inr h)))
  · have hn : '.' ∉ e.1 := hd _ fun c hc => .inl (h2 c hc)
    unfold extension
    cases preserve with
    | false => simp [splitOnChar_not_mem _ _ hn]
    | true =>
      obtain ⟨x, hx, hxc⟩ := hx rfl e he
      simp only [hx, if_true, Option.getD_some]
      have := splitOnChar_append '.' e.1 x hn
      simp only [List.cons_append, List.nil_append]
      rw [this, splitOnChar_not_mem _ _ (hd x hxc)]

variable [Field K]

/-- Reading entries with different nuclides appends them. -/
theorem compositionGo_fresh (io : NumIO K) (f : Str × K → Str) (xs : Str × K → List Str) : ∀ (es : List (Str × K)) (comp : List (Str × K)) (x : List (Str × Str)),
    (es.map Prod.fst).Nodup → (∀ k ∈ es.map Prod.fst, k ∉ comp.map Prod.fst) → (∀ k ∈ es.map Prod.fst, k ∉ x.map Prod.fst) →
    (∀ e ∈ es, splitOnChar '.' (f e) = e.1 :: xs e ∧ fortranNumber io (io.render e.2) = .ok e.2) →
    compositionGo io comp x (entryWords (es.map fun e => (f e, io.render e.2))) = .ok (comp ++ es, x ++ es.map fun e => (e.1, ((xs e)[0]?).getD [])) := by
  intro es
  induction es with
  | nil => intro comp x _ _ _ _; simp [entryWords, compositionGo]
  | cons e es ih =>
    intro comp x hn hc hx h
    obtain ⟨h1, h2⟩ := h e (by simp)
    rw [List.map_cons, List.nodup_cons] at hn
    have he := hc e.1 (by simp)
    have hxe := hx e.1 (by simp)
    have h0 : pyGet (splitOnChar '.' (f e)) 0 = .ok e.1 := by rw [h1]; rfl
    have hl : comp.lookup e.1 = none := lookup_none_iff.2 he
    have step : compositionGo io comp x (entryWords ((e :: es).map fun e => (f e, io.render e.2))) =
        compositionGo io (comp ++ [e]) (x ++ [(e.1, ((xs e)[0]?).getD [])]) (entryWords (es.map fun e => (f e, io.render e.2))) := by
      change compositionGo io comp x (f e :: io.render e.2 :: _) = _
      rw [compositionGo, h0, h2]
      simp only [bind, Except.bind, hl]
      rw [dictSet_fresh he, dictSet_fresh hxe, h1]
      rfl
    rw [step, ih]
    · simp
    · exact hn.2
    · intro k hk hk'
      rw [List.map_append, List.mem_append] at hk'
      rcases hk' with hk' | hk'
      · exact hc k (by simp only [List.map_cons, List.mem_cons]; exact .inr hk) hk'
      · simp only [List.map_cons, List.map_nil, List.mem_singleton] at hk'
        subst hk'
        exact hn.1 hk
    · intro k hk hk'
      rw [List.map_append, List.mem_append] at hk'
      rcases hk' with hk' | hk'
      · exact hx k (by simp only [List.map_cons, List.mem_cons]; exact .inr hk) hk'
      · simp only [List.map_cons, List.map_nil, List.mem_singleton] at hk'
        subst hk'
        exact hn.1 hk
    · exact fun e' he' => h e' (by simp [he'])

/-- The material that is read from the card of `m`. -/
def readBack (preserve : Bool) (m : Material K) : Material K :=
  { name := c!"M" ++ m.number, number := m.number, composition := m.composition, xsid := m.composition.map fun e => (e.1, if preserve then (m.xsid.lookup e.1).getD [] else []), density := 0 }

/-- The lines of the card of `m`, in lower case. -/
def materialGroup (io : NumIO K) (preserve : Bool) (m : Material K) : List Str :=
  match m.composition with
  | [] => []
  | e :: es => (c!"m" ++ m.number ++ nuclideLine io (extension preserve m) e) :: es.map (nuclideLine io (extension preserve m))

omit [Field K] in
theorem nuclideLine_split {io : NumIO K} {preserve : Bool} {m : Material K} (hm : Printable io m) (hx : preserve = true → PrintableXs m) {e : Str × K} (he : e ∈ m.composition) :
    (∀ c ∈ nuclideLine io (extension preserve m) e, c ≠ '$') ∧ split (nuclideLine io (extension preserve m) e) = [e.1 ++ extension preserve m e.1, io.render e.2] ∧
      lower (nuclideLine io (extension preserve m) e) = nuclideLine io (extension preserve m) e ∧
      ∃ t, '\n' ∉ t ∧ nuclideLine io (extension preserve m) e = c!"     " ++ t ++ c!"\n" ∧ ∃ d t', t = d :: t' ∧ isDigit d = true := by
  obtain ⟨h1, h2, -⟩ := nuclide_word hm hx he
  have hf := (hm.fractions e he).1
  have h3 := floatText_plain hf
  have hall : ∀ c ∈ nuclideLine io (extension preserve m) e, PlainChar c ∨ c = ' ' ∨ c = '\n' := by
    intro c hc
    unfold nuclideLine at hc
    simp only [List.append_assoc, List.mem_append] at hc
    have b : ∀ c ∈ c!"     ", c = ' ' := by decide
    rcases hc with hc | hc | hc | hc | hc | hc
    · exact .inr (.inl (b c hc))
    · exact .inl (h2 c (by simp [hc]))
    · exact .inl (h2 c (by rw [List.mem_append]; exact .inr hc))
    · exact .inr (.inl (by simpa using hc))
    · exact .inl (h3 c hc)
    · exact .inr (.inr (by simpa using hc))
  refine ⟨?_, ?_, lower_plain hall, e.1 ++ extension preserve m e.1 ++ c!" " ++ io.render e.2, ?_, ?_, ?_⟩
  · intro c hc
    rintro rfl
    rcases hall _ hc with h | h | h
    · exact h.facts.2.1 (by simp)
    · cases h
    · cases h
  · unfold nuclideLine
    have e1 : c!"     " ++ e.1 ++ extension preserve m e.1 ++ c!" " ++ io.render e.2 ++ c!"\n" =
        c!"     " ++ ((e.1 ++ extension preserve m e.1) ++ ' ' :: (io.render e.2 ++ c!"\n")) := by simp
    rw [e1, split_spaces_append _ _ (by decide), split_word_space _ _ _ (by decide) (fun c hc => (h2 c hc).facts.1) h1]
    have : split (io.render e.2 ++ c!"\n") = [io.render e.2] := by
      rw [split_word_space (io.render e.2) [] '\n' (by decide) (fun c hc => (h3 c hc).facts.1) hf.ne_nil]
      rfl
    rw [this]
  · intro hn
    simp only [List.append_assoc, List.mem_append] at hn
    rcases hn with hn | hn | hn | hn
    · exact (h2 _ (by rw [List.mem_append]; exact .inl hn)).facts.2.1 (by simp)
    · exact (h2 _ (by rw [List.mem_append]; exact .inr hn)).facts.2.1 (by simp)
    · revert hn; decide
    · exact (h3 _ hn).facts.2.1 (by simp)
  · simp [nuclideLine]
  · obtain ⟨g1, g2⟩ := hm.nuclides e he
    cases hq : e.1 with
    | nil => exact absurd hq g1
    | cons d t => exact ⟨d, _, rfl, g2 d (by rw [hq]; simp)⟩

/-- The lines of the card of `m`, as written. -/
def materialLines (io : NumIO K) (preserve comment : Bool) (m : Material K) : List Str :=
  (if comment then [c!"C Material " ++ m.name ++ c!"\n"] else []) ++
    match m.composition with
    | [] => []
    | e :: es => (c!"M" ++ m.number ++ nuclideLine io (extension preserve m) e) :: es.map (nuclideLine io (extension preserve m))

omit [Field K] in
theorem written_lines {io : NumIO K} {preserve : Bool} (comment : Bool) {m : Material K} (hm : Printable io m) (hx : preserve = true → PrintableXs m) :
    writeMcnpMaterial io preserve comment m = .ok (materialLines io preserve comment m).flatten := by
  rw [writeMcnpMaterial_eq io preserve comment m hx]
  unfold materialLines
  cases hc : m.composition with
  | nil => exact absurd hc hm.nonempty
  | cons e es => cases comment <;> simp

omit [Field K] in
theorem materialLines_complete {io : NumIO K} {preserve : Bool} (comment : Bool) {m : Material K} (hm : Printable io m) (hx : preserve = true → PrintableXs m) :
    ∀ l ∈ materialLines io preserve comment m, ∃ t, '\n' ∉ t ∧ l = t ++ ['\n'] := by
  intro l hl
  have hdig : ∀ s : Str, (∀ c ∈ s, isDigit c = true) → '\n' ∉ s := fun s hs hh => absurd (hs _ hh) (by decide)
  unfold materialLines at hl
  rcases List.mem_append.1 hl with hl | hl
  · cases comment with
    | false => simp at hl
    | true =>
      simp only [if_true, List.mem_singleton] at hl
      subst hl
      refine ⟨c!"C Material " ++ m.name, ?_, rfl⟩
      rw [List.mem_append]
      rintro (h | h)
      · revert h; decide
      · exact hm.name h
  · cases hc : m.composition with
    | nil => exact absurd hc hm.nonempty
    | cons e es =>
      rw [hc] at hl
      rcases List.mem_cons.1 hl with rfl | hl
      · obtain ⟨-, -, -, t, h1, h2, -⟩ := nuclideLine_split hm hx (e := e) (by rw [hc]; simp)
        refine ⟨c!"M" ++ m.number ++ c!"     " ++ t, ?_, by rw [h2]; simp⟩
        simp only [List.mem_append]
        rintro (((h | h) | h) | h)
        · revert h; decide
        · exact hdig _ hm.number.2 h
        · revert h; decide
        · exact h1 h
      · obtain ⟨e', he', rfl⟩ := List.mem_map.1 hl
        obtain ⟨-, -, -, t, h1, h2, -⟩ := nuclideLine_split hm hx (e := e') (by rw [hc]; simp [he'])
        refine ⟨c!"     " ++ t, ?_, h2⟩
        rw [List.mem_append]
        rintro (h | h)
        · revert h; decide
        · exact h1 h

theorem lower_digits {s : Str} (h : ∀ c ∈ s, isDigit c = true) : lower s = s := lower_plain fun c hc => .inl (.inl (h c hc))

omit [Field K] in
/-- Without the comments these are the lines of the group. -/
theorem materialLines_group {io : NumIO K} {preserve : Bool} (comment : Bool) {m : Material K} (hm : Printable io m) (hx : preserve = true → PrintableXs m) :
    dropComments ((materialLines io preserve comment m).map lower) = .ok (materialGroup io preserve m) := by
  have hkeep : ∀ ls : List Str, (∀ l ∈ ls, ∃ c t, l = c :: t ∧ c ≠ 'c') → dropComments ls = .ok ls := by
    intro ls
    induction ls with
    | nil => intro _; rfl
    | cons l ls ih =>
      intro h
      obtain ⟨c, t, rfl, hc⟩ := h l (by simp)
      rw [dropComments, ih fun l hl => h l (by simp [hl])]
      simp only [bind, Except.bind, if_neg hc]
  have hgroup : (materialLines io preserve comment m).map lower = (if comment then [lower (c!"C Material " ++ m.name ++ c!"\n")] else []) ++ materialGroup io preserve m := by
    unfold materialLines materialGroup
    cases hc : m.composition with
    | nil => exact absurd hc hm.nonempty
    | cons e es =>
      have h1 : lower (c!"M" ++ m.number ++ nuclideLine io (extension preserve m) e) = c!"m" ++ m.number ++ nuclideLine io (extension preserve m) e := by
        rw [lower_append, lower_append, lower_digits hm.number.2, (nuclideLine_split hm hx (e := e) (by rw [hc]; simp)).2.2.1]
        rfl
      have h2 : (es.map (nuclideLine io (extension preserve m))).map lower = es.map (nuclideLine io (extension preserve m)) := by
        rw [List.map_map]
        apply List.map_congr_left
        intro e' he'
        exact (nuclideLine_split hm hx (e := e') (by rw [hc]; simp [he'])).2.2.1
      rw [List.map_append]
      simp only [List.map_cons]
      rw [h1, h2]
      cases comment <;> rfl
  rw [hgroup]
  refine dropComments_append (a' := []) ?_ ?_
  · cases comment <;> rfl
  · apply hkeep
    intro l hl
    unfold materialGroup at hl
    cases hc : m.composition with
    | nil => exact absurd hc hm.nonempty
    | cons e es =>
      rw [hc] at hl
      rcases List.mem_cons.1 hl with rfl | hl
      · exact ⟨'m', _, rfl, by decide⟩
      · obtain ⟨e', he', rfl⟩ := List.mem_map.1 hl
        exact ⟨' ', _, rfl, by decide⟩

omit [Field K] in
theorem materialGroup_spec {io : NumIO K} {preserve : Bool} {m : Material K} (hm : Printable io m) (hx : preserve = true → PrintableXs m) :
    ∃ first more, materialGroup io preserve m = first :: more ∧ MaterialHead first m.number ∧ ¬ FiveBlanks first ∧ (∀ l ∈ more, FiveBlanks l ∧ ¬ LooksLikeMaterial l) ∧
      (∀ l ∈ first :: more, Line l) ∧ (cardWords (first :: more)).drop 1 = entryWords (m.composition.map fun e => (e.1 ++ extension preserve m e.1, io.render e.2)) := by
  have hdig : ∀ s : Str, (∀ c ∈ s, isDigit c = true) → '\n' ∉ s ∧ '$' ∉ s := fun s hs => ⟨fun hh => absurd (hs _ hh) (by decide), fun hh => absurd (hs _ hh) (by decide)⟩
  have hcut : ∀ s : Str, (∀ c ∈ s, c ≠ '$') → s.takeWhile (· ≠ '$') = s := fun s h => by
    have := List.takeWhile_append_of_pos (p := fun c : Char => decide (c ≠ '$')) (l₁ := s) (l₂ := []) fun c hc => by simpa using h c hc
    simpa using this
  unfold materialGroup
  cases hc : m.composition with
  | nil => exact absurd hc hm.nonempty
  | cons e es =>
    have he := nuclideLine_split hm hx (e := e) (by rw [hc]; simp)
    obtain ⟨h1, h2, -, t, h3, h4, -⟩ := he
    have hes := fun e' (he' : e' ∈ es) => nuclideLine_split hm hx (e := e') (by rw [hc]; simp [he'] : e' ∈ m.composition)
    refine ⟨_, _, rfl, ⟨hm.number.1, hm.number.2, 0, nuclideLine io (extension preserve m) e, by simp, ?_⟩, ?_, ?_, ?_, ?_⟩
    · intro c hc
      rw [h4] at hc
      cases hc
      decide
    · rintro ⟨t, ht⟩
      cases ht
    · intro l hl
      obtain ⟨e', he', rfl⟩ := List.mem_map.1 hl
      obtain ⟨-, -, -, t', h3', h4', d, t'', h5, h6⟩ := hes e' he'
      refine ⟨⟨t' ++ c!"\n", by rw [h4']; simp⟩, ?_⟩
      rw [← isMaterialLine_iff, h4', h5]
      have hd : d ≠ ' ' ∧ d ≠ 'm' := by constructor <;> (rintro rfl; revert h6; decide)
      unfold isMaterialLine
      have : (c!"     " ++ d :: t'' ++ c!"\n").dropWhile (· = ' ') = d :: (t'' ++ c!"\n") := by
        simp [hd.1]
      rw [this]
      split
      · rename_i heq; exact absurd (List.cons.inj heq).1 hd.2
      · simp
    · intro l hl
      rcases List.mem_cons.1 hl with rfl | hl
      · refine ⟨c!"m" ++ m.number ++ c!"     " ++ t, ?_, .inr (by rw [h4]; simp)⟩
        simp only [List.mem_append]
        rintro (((h | h) | h) | h)
        · revert h; decide
        · exact (hdig _ hm.number.2).1 h
        · revert h; decide
        · exact h3 h
      · obtain ⟨e', he', rfl⟩ := List.mem_map.1 hl
        obtain ⟨-, -, -, t', h3', h4', -⟩ := hes e' he'
        refine ⟨c!"     " ++ t', ?_, .inr h4'⟩
        rw [List.mem_append]
        rintro (h | h)
        · revert h; decide
        · exact h3' h
    · have hw : ∀ es : List (Str × K), (∀ e ∈ es, e ∈ m.composition) → cardWords (es.map (nuclideLine io (extension preserve m))) =
          entryWords (es.map fun e => (e.1 ++ extension preserve m e.1, io.render e.2)) := by
        intro es
        induction es with
        | nil => intro _; rfl
        | cons e es ih =>
          intro h
          obtain ⟨h1, h2, -⟩ := nuclideLine_split hm hx (h e (by simp))
          have := ih fun e' he' => h e' (by simp [he'])
          unfold cardWords at this ⊢
          rw [List.map_cons, List.flatMap_cons, this, hcut _ h1, h2]
          rfl
      have hw1 := hw (e :: es) (by rw [hc]; simp)
      rw [← hw1]
      unfold cardWords
      rw [List.map_cons, List.flatMap_cons, List.flatMap_cons, hcut _ h1, hcut]
      · have : c!"m" ++ m.number ++ nuclideLine io (extension preserve m) e = (c!"m" ++ m.number) ++ ' ' :: ((nuclideLine io (extension preserve m) e).drop 1) := by
          rw [h4]; simp
        rw [this, split_word_space _ _ _ (by decide) (fun c hc => ?_) (by simp)]
        · have h5 : split ((nuclideLine io (extension preserve m) e).drop 1) = split (nuclideLine io (extension preserve m) e) := by
            rw [h4]
            exact (split_space_cons _ _ (by decide)).symm
          rw [h5]
          rfl
        · rcases List.mem_append.1 hc with hc | hc
          · simp only [List.mem_singleton] at hc; subst hc; decide
          · exact isDigit_noSpace (hm.number.2 c hc)
      · intro c hc
        rw [List.append_assoc] at hc
        rcases List.mem_append.1 hc with hc | hc
        · simp only [List.mem_singleton] at hc; subst hc; decide
        · rcases List.mem_append.1 hc with hc | hc
          · rintro rfl
            exact (hdig _ hm.number.2).2 hc
          · exact h1 c hc

/-- The card reads back. -/
theorem getMaterialCard_written {io : NumIO K} {preserve : Bool} {m : Material K} (hm : Printable io m) (hx : preserve = true → PrintableXs m) {first : Str} {more : List Str}
    (hg : materialGroup io preserve m = first :: more) {rest : List (List Str)} (hr : DataCards rest) :
    getMaterialCard io first (more ++ rest.flatten) = .ok (m.number, readBack preserve m) := by
  obtain ⟨first', more', e, hh, -, hmore, hl, hw⟩ := materialGroup_spec hm hx
  rw [hg] at e
  cases e
  have hok : ∀ {α β : Type} (a : α) (k : α → Py β), ((.ok a : Py α) >>= k) = k a := fun _ _ => rfl
  obtain ⟨ws, hws⟩ := head_words hh
  have h0 : pyGet (split first) 0 = .ok ('m' :: m.number) := by rw [hws]; rfl
  unfold getMaterialCard
  rw [takeWhile_more (fun l hl => (hmore l hl).1) hr]
  have hwords := material_words hh fun l hl' => ⟨(hmore l hl').1, hl l (by simp [hl'])⟩
  rw [hw] at hwords
  have htok : materialTokens (cutDollar (join c!" " ((split first).drop 1) ++ c!" ") ++ (more.map cutDollar).flatten) =
      entryWords (m.composition.map fun e => (e.1 ++ extension preserve m e.1, io.render e.2)) := by
    unfold materialTokens
    rw [replaceChar_nil_eq_filter]
    have : (fun c : Char => c != '\n') = fun c => decide (c ≠ '\n') := by funext c; simp [bne]; rfl
    rw [this, hwords]
    apply List.filter_eq_self.2
    intro w hw
    simp only [decide_not, Bool.not_eq_eq_eq_not, Bool.not_true, decide_eq_false_iff_not]
    intro hq
    have hq := List.elem_iff.1 hq
    unfold entryWords at hw
    obtain ⟨p, hp, hw⟩ := List.mem_flatMap.1 hw
    obtain ⟨e, he, rfl⟩ := List.mem_map.1 hp
    simp only [List.mem_cons, List.not_mem_nil, or_false] at hw
    rcases hw with rfl | rfl
    · exact ((nuclide_word hm hx he).2.1 _ hq).facts.2.1 (by simp)
    · exact (floatText_plain (hm.fractions e he).1 _ hq).facts.2.1 (by simp)
  have hcomp := compositionGo_fresh io (fun e => e.1 ++ extension preserve m e.1) (fun e => if preserve then [(m.xsid.lookup e.1).getD []] else []) m.composition [] []
    hm.nodup (by simp) (by simp) fun e he => ⟨(nuclide_word hm hx he).2.2, fortranNumber_floatText io (hm.fractions e he).1 (hm.fractions e he).2⟩
  have heven : ∀ es : List (Str × Str), (entryWords es).length % 2 = 0 := by
    intro es
    induction es with
    | nil => rfl
    | cons e es ih =>
      have : entryWords (e :: es) = e.1 :: e.2 :: entryWords es := rfl
      rw [this]
      simp only [List.length_cons]
      omega
  have hread : readMaterial io m.number (cutDollar (join c!" " ((split first).drop 1) ++ c!" ") ++ (more.map cutDollar).flatten) = .ok (readBack preserve m) := by
    unfold readMaterial
    simp only [htok]
    rw [if_neg (by rw [heven]; simp), hcomp]
    simp only [hok]
    unfold readBack
    cases preserve <;> simp
  simp only [h0, hok, replace_m hm.number.2, hread]

/-- The cards read back. -/
theorem getMaterialCards_written {io : NumIO K} {preserve : Bool} : ∀ (ms : List (Material K)) (mats : List (Str × Material K)),
    (∀ m ∈ ms, Printable io m ∧ (preserve = true → PrintableXs m)) → (ms.map Material.number).Nodup → (∀ m ∈ ms, m.number ∉ mats.map Prod.fst) →
    getMaterialCards io mats (ms.map (materialGroup io preserve)).flatten = .ok (mats ++ ms.map fun m => (m.number, readBack preserve m)) := by
  intro ms
  induction ms with
  | nil => intro mats _ _ _; simp [getMaterialCards]
  | cons m ms ih =>
    intro mats h hn hf
    rw [List.map_cons, List.nodup_cons] at hn
    obtain ⟨hm, hx⟩ := h m (by simp)
    obtain ⟨first, more, e, hh, hnb, hmore, hl, hw⟩ := materialGroup_spec hm hx
    have hr : DataCards (ms.map (materialGroup io preserve)) := by
      intro g hg
      obtain ⟨m', hm', rfl⟩ := List.mem_map.1 hg
      obtain ⟨f', mo', e', -, hnb', hmore', hl', -⟩ := materialGroup_spec (h m' (by simp [hm'])).1 (h m' (by simp [hm'])).2
      exact ⟨f', mo', e', hnb', fun l hl => (hmore' l hl).1, by rw [e']; exact hl'⟩
    rw [List.map_cons, List.flatten_cons, e, List.cons_append, getMaterialCards, if_pos (isMaterialLine_iff.2 (looks_of_head hh)), getMaterialCard_written hm hx e hr]
    show getMaterialCards io (dictSet mats m.number (readBack preserve m)) _ = _
    rw [materials_skip io fun l hl => (hmore l hl).2, dictSet_fresh (hf m (by simp)), ih]
    · simp
    · exact fun m' hm' => h m' (by simp [hm'])
    · exact hn.2
    · intro m' hm' hk
      rw [List.map_append, List.mem_append] at hk
      rcases hk with hk | hk
      · exact hf m' (by simp [hm']) hk
      · simp only [List.map_cons, List.map_nil, List.mem_singleton] at hk
        exact hn.1 (List.mem_map.2 ⟨m', hm', hk⟩)

omit [Field K] in
/-- All cards after each other: what the file contains, and what is left of it after reading and dropping the comments. -/
theorem materialTexts {io : NumIO K} {preserve : Bool} (comment : Bool) {ms : List (Material K)} (h : ∀ m ∈ ms, Printable io m ∧ (preserve = true → PrintableXs m)) :
    ms.mapM (writeMcnpMaterial io preserve comment) = .ok (ms.map fun m => (materialLines io preserve comment m).flatten) ∧
    (∀ l ∈ (ms.map (materialLines io preserve comment)).flatten, ∃ t, '\n' ∉ t ∧ l = t ++ ['\n']) ∧
    dropComments ((ms.map (materialLines io preserve comment)).flatten.map lower) = .ok (ms.map (materialGroup io preserve)).flatten := by
  refine ⟨mapM_ok_of_forall fun m hm => written_lines comment (h m hm).1 (h m hm).2, ?_, ?_⟩
  · intro l hl
    obtain ⟨g, hg, hl⟩ := List.mem_flatten.1 hl
    obtain ⟨m, hm, rfl⟩ := List.mem_map.1 hg
    exact materialLines_complete comment (h m hm).1 (h m hm).2 l hl
  · induction ms with
    | nil => rfl
    | cons m ms ih =>
      rw [List.map_cons, List.flatten_cons, List.map_append, List.map_cons, List.flatten_cons]
      exact dropComments_append (materialLines_group comment (h m (by simp)).1 (h m (by simp)).2) (ih fun m' hm' => h m' (by simp [hm']))

end

end Csg
