import Verif.Lemmas.Message
import Verif.Lemmas.CellText
import Verif.Lemmas.MixedIO
import Verif.Spec.Outputs
import Verif.Spec.Sample

/-!
# C106: titles and message blocks
-/

namespace Csg

open Spec

section
variable {K : Type} [Field K] [LinearOrder K]

private theorem finish_title (fuel : Nat) (io : NumIO K) (cosDeg sqrt : K → K) (quick : Bool) (d : Deck K) (t : Str) :
    finishDeck fuel io cosDeg sqrt quick { d with title := t } = (finishDeck fuel io cosDeg sqrt quick d).map (Except.map fun p => { p with title := t }) := by
  unfold finishDeck
  simp only
  split
  · rfl
  · split
    · rfl
    · rfl
    · rename_i cells surfs last _ _ cells1 _
      simp only [Option.map_some, Option.some.injEq]
      cases applySurfaceTransformations d.transforms surfs with
      | error x => rfl
      | ok surfs =>
        cases applyUniverseTransformations d.transforms cells1 with
        | error x => rfl
        | ok cells =>
          simp only [bind, Except.bind]
          cases reorganiseMaterials io d.materials cells with
          | error x => rfl
          | ok mc =>
            obtain ⟨mats, cells⟩ := mc
            simp only
            cases applyBoundaryConditions io d.importances cells surfs with
            | error x => rfl
            | ok cs =>
              obtain ⟨cells, surfs⟩ := cs
              simp only
              cases boundingCoordinates surfs with
              | error x => rfl
              | ok box =>
                simp only
                cases surfs.mapM (updateSurface box) with
                | error x => rfl
                | ok surfs =>
                  simp only
                  cases (if quick = true then .ok (cells, surfs) else dedupe cells surfs : Py (List (Cell K) × List (Surface K))) with
                  | error x => rfl
                  | ok cs => rfl

/-- Texts whose lines after the title are the same give the same files. -/
private theorem convert_title (e : Env K) (cosDeg : K → K) (quick : Bool) (output : Option (List Str)) {text text' : Str} {t t' : Str} {ls ls' : List Str}
    (h : setTitle (readText text) = .ok (t, ls)) (h' : setTitle (readText text') = .ok (t', ls')) (hd : dropComments ls = dropComments ls') :
    convert e cosDeg quick output text = convert e cosDeg quick output text' := by
  have hr : ∀ {x : Str} {t : Str} {ls : List Str}, setTitle (readText x) = .ok (t, ls) →
      readDeck e.io cosDeg (readText x) = (readDeck e.io cosDeg (c!"t\n" :: ls)).map fun d => { d with title := t } := by
    intro x t ls hx
    have h0 : setTitle (c!"t\n" :: ls) = .ok (c!"t\n", ls) := rfl
    unfold readDeck
    rw [hx, h0]
    simp only [bind, Except.bind]
    cases dropComments ls with
    | error x => rfl
    | ok ls =>
      simp only
      cases block removeInlineComment (readCell e.io cosDeg) ls with
      | error x => rfl
      | ok cl =>
        simp only
        cases block stripDollar (classify e.io) cl.2 with
        | error x => rfl
        | ok sl =>
          simp only
          cases getImportances sl.2 with
          | error x => rfl
          | ok imps =>
            simp only
            cases getTransformCards e.io cosDeg [] sl.2 with
            | error x => rfl
            | ok trs =>
              simp only
              cases getMaterialCards e.io [] sl.2 with
              | error x => rfl
              | ok mats => rfl
  have hs : readDeck e.io cosDeg (c!"t\n" :: ls) = readDeck e.io cosDeg (c!"t\n" :: ls') := by
    have h0 : ∀ l, setTitle (c!"t\n" :: l) = .ok (c!"t\n", l) := fun _ => rfl
    unfold readDeck
    rw [h0, h0]
    simp only [bind, Except.bind]
    rw [hd]
  unfold convert processDeck
  rw [hr h, hr h', ← hs]
  cases readDeck e.io cosDeg (c!"t\n" :: ls) with
  | error x => rfl
  | ok d =>
    simp only [Except.map]
    rw [finish_title e.fuel e.io cosDeg e.sqrt quick d t, finish_title e.fuel e.io cosDeg e.sqrt quick d t']
    cases finishDeck e.fuel e.io cosDeg e.sqrt quick d with
    | none => rfl
    | some r => cases r <;> rfl

private theorem lower_newline {a : Str} (h : '\n' ∉ a) : '\n' ∉ lower a := by
  intro hm
  obtain ⟨x, hx, e⟩ := List.mem_map.1 hm
  refine h ?_
  rwa [toLower_newline e] at hx

private theorem first_line {a : Str} (h : '\n' ∉ a) (rest : Str) : readText (a ++ '\n' :: rest) = (lower a ++ ['\n']) :: readText rest := by
  unfold readText
  rw [readlines_line _ _ h]
  simp [lower]

private theorem says_iff (a : Str) : hasInfix c!"message" (lower a ++ ['\n']) = true ↔ SaysMessage a := by
  rw [hasInfix_iff]
  constructor
  · rintro ⟨p, q, e⟩
    rcases List.eq_nil_or_concat q with rfl | ⟨q', y, rfl⟩
    · rw [List.append_nil] at e
      have := congrArg List.getLast? e
      simp at this
    · have e' : lower a ++ ['\n'] = (p ++ c!"message" ++ q') ++ [y] := by rw [e]; simp
      exact ⟨p, q', (List.append_inj' e' rfl).1⟩
  · rintro ⟨p, q, e⟩
    exact ⟨p, q ++ ['\n'], by rw [show lower a = _ from e]; simp⟩

private theorem title_plain {a : Str} (h : '\n' ∉ a) (hm : ¬ SaysMessage a) (rest : Str) : setTitle (readText (a ++ '\n' :: rest)) = .ok (lower a ++ ['\n'], readText rest) := by
  rw [first_line h]
  show (if hasInfix c!"message" (lower a ++ ['\n']) = true then _ else _) = _
  rw [if_neg (fun hh => hm ((says_iff a).1 hh))]
  rfl

private theorem title_message {a b : Str} (h : '\n' ∉ a) (hm : SaysMessage a) (hb : '\n' ∉ b) (rest : Str) :
    setTitle (readText (a ++ '\n' :: (b ++ '\n' :: rest))) = .ok (lower b ++ ['\n'], readText rest) := by
  rw [first_line h, first_line hb]
  show (if hasInfix c!"message" (lower a ++ ['\n']) = true then _ else _) = _
  rw [if_pos ((says_iff a).2 hm)]
  rfl

/-- **C106**, titles: two texts that differ in the title give the same run, with the same files or the same exception, unless the word `message` stands in a title. -/
theorem C106_title (e : Env K) (cosDeg : K → K) (quick : Bool) (output : Option (List Str)) (a a' rest : Str) (ha : '\n' ∉ a) (ha' : '\n' ∉ a') (hm : ¬ SaysMessage a) (hm' : ¬ SaysMessage a') :
    convert e cosDeg quick output (a ++ '\n' :: rest) = convert e cosDeg quick output (a' ++ '\n' :: rest) :=
  convert_title e cosDeg quick output (title_plain ha hm rest) (title_plain ha' hm' rest) rfl

/-- A title with the word `message` makes the program leave out the next line, which is the first line of the first cell. -/
theorem C106_line_lost (e : Env K) (cosDeg : K → K) (quick : Bool) (output : Option (List Str)) (a a' l rest : Str) (ha : '\n' ∉ a) (ha' : '\n' ∉ a') (hl : '\n' ∉ l) (hm : SaysMessage a) (hm' : ¬ SaysMessage a') :
    convert e cosDeg quick output (a ++ '\n' :: (l ++ '\n' :: rest)) = convert e cosDeg quick output (a' ++ '\n' :: rest) :=
  convert_title e cosDeg quick output (title_message ha hm hl rest) (title_plain ha' hm' rest) rfl

/-- **C106**, message blocks (partial: the message is one line, and the title begins with the letter c, so that it is taken for a comment). The message block changes nothing. -/
theorem C106_message_partial (e : Env K) (cosDeg : K → K) (quick : Bool) (output : Option (List Str)) (m blank t rest : Str) (hm : '\n' ∉ m) (hb : '\n' ∉ blank) (ht : '\n' ∉ t)
    (hblock : MessageBlock [lower m ++ ['\n'], lower blank ++ ['\n']]) (htm : ¬ SaysMessage t) (htc : (lower t).head? = some 'c') :
    convert e cosDeg quick output (m ++ '\n' :: (blank ++ '\n' :: (t ++ '\n' :: rest))) = convert e cosDeg quick output (t ++ '\n' :: rest) := by
  obtain ⟨u, more, bl, e1, -, -⟩ := hblock
  have hms : SaysMessage m := by
    refine (says_iff m).1 ((hasInfix_iff _ _).2 ⟨[], c!":" ++ u, ?_⟩)
    rw [List.cons_append] at e1
    rw [(List.cons.inj e1).1]
    rfl
  refine convert_title e cosDeg quick output (title_message hm hms hb _) (title_plain ht htm rest) ?_
  rw [first_line ht]
  cases hlt : lower t with
  | nil => rw [hlt] at htc; cases htc
  | cons x s =>
    rw [hlt] at htc
    cases htc
    simp only [List.cons_append, dropComments, if_true]
    cases dropComments (readText rest) <;> rfl

private theorem drop_keeps {l : Str} (hl : l.head? ≠ some 'c') {ls r : List Str} (h : dropComments (l :: ls) = .ok r) : ∃ r', r = l :: r' ∧ dropComments ls = .ok r' := by
  cases l with
  | nil => cases h
  | cons x s =>
    simp only [dropComments] at h
    obtain ⟨r', h1, h2⟩ := bind_ok h
    rw [if_neg (fun hx => hl (by rw [hx]; rfl))] at h2
    cases h2
    exact ⟨r', rfl, h1⟩

/-- Apart from that, no file with a message block can be read: if the title begins with a letter other than c, and so do the further lines of the message, perhaps after blanks, the run ends with an
exception. -/
theorem C106_message_fails (e : Env K) (cosDeg : K → K) (quick : Bool) (output : Option (List Str)) (text : Str) (first : Char) (title : Str) (m body : List Str)
    (hlines : HasLines text (m ++ (first :: title) :: body)) (hm : MessageBlock m) (hmore : ∀ l ∈ m.dropLast.tail, LetterFirst l ∧ l.head? ≠ some 'c') (hf : first.isLower = true) (hc : first ≠ 'c') (files : List (Code × OutFile)) :
    ¬ Returns (convert e cosDeg quick output text) files := by
  intro h
  have hd : ∃ d, readDeck e.io cosDeg (readText text) = .ok d := by
    unfold convert at h
    obtain ⟨p, h1, -⟩ := (returns_bind _ _ _).1 h
    rw [returns_mk] at h1
    unfold processDeck at h1
    cases hr : readDeck e.io cosDeg (readText text) with
    | error x => rw [hr] at h1; cases h1
    | ok d => exact ⟨d, rfl⟩
  obtain ⟨d, hd⟩ := hd
  rw [readText_layout hlines.1 hlines.2] at hd
  obtain ⟨t, more, blank, rfl, -, hblank⟩ := hm
  have hmore' : ∀ l ∈ more, LetterFirst l ∧ l.head? ≠ some 'c' := fun l hl => hmore l (by
    rw [List.dropLast_concat]
    exact hl)
  have ht : LetterFirst (first :: title) := ⟨[], first, title, rfl, by simp, hf⟩
  have htc : (first :: title).head? ≠ some 'c' := fun h => hc (Option.some.inj h)
  have hmsg : hasInfix c!"message" (c!"message:" ++ t) = true := (hasInfix_iff _ _).2 ⟨[], c!":" ++ t, rfl⟩
  have hbc : blank.head? ≠ some 'c' := by
    intro hc
    exact absurd (hblank.2 'c' (List.mem_of_mem_head? (by rw [hc]; rfl))) (by decide)
  have cell := fun {s : Str} (hs : LetterFirst s) (c : Cell K) => readCell_letter e.io cosDeg hs c
  have surf := fun {s : Str} (hs : LetterFirst s) (c : Surface K) => classify_letter e.io hs c
  unfold readDeck at hd
  obtain ⟨⟨t1, ls⟩, h1, h2⟩ := bind_ok hd
  simp only at h2
  obtain ⟨ls', h3, h4⟩ := bind_ok h2
  obtain ⟨⟨cells, l2⟩, h5, h6⟩ := bind_ok h4
  simp only at h6
  obtain ⟨⟨surfs, l3⟩, h7, -⟩ := bind_ok h6
  have hst : ∀ (x : Str) (xs : List Str), setTitle ((c!"message:" ++ t) :: x :: xs) = .ok (x, xs) := by
    intro x xs
    have : ∀ a : Str, setTitle (a :: x :: xs) = if hasInfix c!"message" a = true then .ok (x, xs) else .ok (a, x :: xs) := fun _ => rfl
    rw [this, if_pos hmsg]
  cases more with
  | nil =>
    rw [show ((c!"message:" ++ t) :: [] ++ [blank]) ++ (first :: title) :: body = (c!"message:" ++ t) :: blank :: ((first :: title) :: body) from rfl, hst] at h1
    cases h1
    obtain ⟨r, rfl, -⟩ := drop_keeps htc h3
    exact block_letter removeInline_code (fun s hs => cell hs) ht r _ h5
  | cons l1 more =>
    cases more with
    | nil =>
      rw [show ((c!"message:" ++ t) :: [l1] ++ [blank]) ++ (first :: title) :: body = (c!"message:" ++ t) :: l1 :: (blank :: (first :: title) :: body) from rfl, hst] at h1
      cases h1
      obtain ⟨r, rfl, h8⟩ := drop_keeps hbc h3
      obtain ⟨r, rfl, -⟩ := drop_keeps htc h8
      have hcb : removeInlineComment blank = blank := by
        rw [removeInline_code]
        exact codeOf_plain fun hd => absurd (hblank.2 _ hd) (by decide)
      have hsp : isspace blank = true := by
        have := hblank.1
        simp only [isspace, Bool.and_eq_true, Bool.not_eq_true', List.all_eq_true]
        exact ⟨by cases blank <;> simp_all, hblank.2⟩
      change (if isspace (removeInlineComment blank) = true then (.ok ([], (first :: title) :: r) : Py (List (Cell K) × List Str)) else _) = _ at h5
      rw [hcb, if_pos hsp] at h5
      cases h5
      exact block_letter stripDollar_code (fun s hs => surf hs) ht r _ h7
    | cons l2 more =>
      rw [show ((c!"message:" ++ t) :: (l1 :: l2 :: more) ++ [blank]) ++ (first :: title) :: body = (c!"message:" ++ t) :: l1 :: (l2 :: (more ++ [blank] ++ (first :: title) :: body)) by simp, hst] at h1
      cases h1
      obtain ⟨hl, hc⟩ := hmore' l2 (by simp)
      obtain ⟨r, rfl, -⟩ := drop_keeps hc h3
      exact block_letter removeInline_code (fun s hs => cell hs) hl r _ h5

end

private def rest : Str := c!"2 0 1 -2 imp:n=1\n3 0 2 imp:n=0\n\n1 so 3\n2 so 9\n\nm1 1001 1.0\n"

private def env : Env ℚ :=
  { fuel := 100, io := mixedIO, fixed := formatF, sci := formatF, sci4 := fun x => (mixedIO.render x).take 10, sci3 := formatF, sqrt := id, degAtan := id, orderStr := id, orderInt := id }

/-- The MCNP file that a run writes. -/
private def written (text : Str) : Option Str :=
  match (convert env id true (some [c!"mcnp"]) text).run with
  | .ok (some [(_, .text t)]) => some t
  | _ => none

private def firstCell : Str := c!"1 1 -7 -1 imp:n=1\n"

/-- A file with a message block: the title is read as a cell card, so that nothing is written. -/
theorem C106_refuted_message : MessageBlock [c!"message: outp=a\n", c!"\n"] ∧ (written (c!"title\n" ++ firstCell ++ rest)).isSome = true ∧
    (convert env id true (some [c!"mcnp"]) (c!"message: outp=a\n\n" ++ (c!"title\n" ++ firstCell ++ rest))).run = .error .valueError :=
  ⟨⟨c!" outp=a\n", [], c!"\n", rfl, by simp, by unfold BlankLine; decide⟩, by decide +kernel, by decide +kernel⟩

/-- A title with the word `message`: the first cell is missing in the MCNP file, without any exception. -/
theorem C106_refuted_title :
    written (c!"title\n" ++ firstCell ++ rest) = some c!"C cell definitions\n1 1 -7.0 -1 IMP:N=1.0\n2 0 1 -2 IMP:N=1.0\n3 0 2 IMP:N=0.0\n\nC surface definitions\n1 s 0.0 0.0 0.0 3.0\n2 s 0.0 0.0 0.0 9.0\n\nC material definitions\nC Material M1\nM1     1001 1.0\n" ∧
    written (c!"A message from the sphere\n" ++ firstCell ++ rest) = some c!"C cell definitions\n2 0 1 -2 IMP:N=1.0\n3 0 2 IMP:N=0.0\n\nC surface definitions\n1 s 0.0 0.0 0.0 3.0\n2 s 0.0 0.0 0.0 9.0\n\nC material definitions\nC Material M1\nM1     1001 1.0\n" :=
  ⟨by decide +kernel, by decide +kernel⟩

/-! Cases that meet the hypotheses. -/

/-- `C106_title` and `C106_line_lost`. -/
example : (¬ SaysMessage c!"title") ∧ (¬ SaysMessage c!"Godiva") ∧ SaysMessage c!"A Message from the sphere" := by
  refine ⟨fun ⟨a, b, e⟩ => ?_, fun ⟨a, b, e⟩ => ?_, c!"a ", c!" from the sphere", by decide⟩
  · have := (hasInfix_iff c!"message" _).2 ⟨a, b, e⟩
    revert this
    decide +kernel
  · have := (hasInfix_iff c!"message" _).2 ⟨a, b, e⟩
    revert this
    decide +kernel

example : convert env id true none (c!"title" ++ '\n' :: (firstCell ++ rest)) = convert env id true none (c!"Godiva" ++ '\n' :: (firstCell ++ rest)) := by
  apply C106_title
  · decide
  · decide
  · rintro ⟨a, b, e⟩
    have := (hasInfix_iff c!"message" _).2 ⟨a, b, e⟩
    revert this
    decide +kernel
  · rintro ⟨a, b, e⟩
    have := (hasInfix_iff c!"message" _).2 ⟨a, b, e⟩
    revert this
    decide +kernel

/-- `C106_message_partial`, with a file that is written. -/
example : written (c!"MESSAGE: outp=a\n\nCylinder\n" ++ firstCell ++ rest) = written (c!"Cylinder\n" ++ firstCell ++ rest) ∧ (written (c!"Cylinder\n" ++ firstCell ++ rest)).isSome = true := by
  refine ⟨?_, by decide +kernel⟩
  have := C106_message_partial env id true (some [c!"mcnp"]) c!"MESSAGE: outp=a" [] c!"Cylinder" (firstCell ++ rest) (by decide) (by decide) (by decide)
    ⟨c!" outp=a\n", [], c!"\n", by decide, by simp, by unfold BlankLine; decide⟩ (by
      rintro ⟨a, b, e⟩
      have := (hasInfix_iff c!"message" _).2 ⟨a, b, e⟩
      revert this
      decide +kernel) (by decide)
  unfold written
  exact congrArg (fun w : W (List (Code × OutFile)) => match w.run with | .ok (some [(_, .text t)]) => some t | _ => none) this

/-- `C106_message_fails`, with a message of three lines. -/
example (files : List (Code × OutFile)) : ¬ Returns (convert env id true none (c!"Message: outp=a\n     runtpe=b\n     xsdir=d\n\nGodiva\n" ++ firstCell ++ rest)) files := by
  refine C106_message_fails env id true none _ 'g' c!"odiva\n" [c!"message: outp=a\n", c!"     runtpe=b\n", c!"     xsdir=d\n", c!"\n"]
    [firstCell, c!"2 0 1 -2 imp:n=1\n", c!"3 0 2 imp:n=0\n", c!"\n", c!"1 so 3\n", c!"2 so 9\n", c!"\n", c!"m1 1001 1.0\n"] ⟨by decide +kernel, ?_⟩
    ⟨c!" outp=a\n", [c!"     runtpe=b\n", c!"     xsdir=d\n"], c!"\n", rfl, by unfold BlankLine; decide, by unfold BlankLine; decide⟩ ?_ (by decide) (by decide) files
  · have : ∀ l ∈ [c!"message: outp=a\n", c!"     runtpe=b\n", c!"     xsdir=d\n", c!"\n", c!"godiva\n", firstCell, c!"2 0 1 -2 imp:n=1\n", c!"3 0 2 imp:n=0\n", c!"\n", c!"1 so 3\n", c!"2 so 9\n", c!"\n", c!"m1 1001 1.0\n"],
        '\n' ∉ l.dropLast ∧ l = l.dropLast ++ c!"\n" := by decide +kernel
    exact fun l hl => ⟨_, this l hl⟩
  · intro l hl
    simp only [List.dropLast, List.tail, List.mem_cons, List.not_mem_nil, or_false] at hl
    rcases hl with rfl | rfl
    · exact ⟨⟨c!"     ", 'r', c!"untpe=b\n", rfl, by decide, by decide⟩, by decide⟩
    · exact ⟨⟨c!"     ", 'x', c!"sdir=d\n", rfl, by decide, by decide⟩, by decide⟩

end Csg
