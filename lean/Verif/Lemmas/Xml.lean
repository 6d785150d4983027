import Verif.Lemmas.Num
import Verif.Lemmas.Py
import Verif.Lemmas.Flatten
import Verif.Model.Xml
import Verif.Spec.Xml

/-!
# Written xml is read back
-/

namespace Csg

open Spec

/-! ## Attributes -/

private theorem decode_name (n ds r : Str) (h : ';' ∉ ds) : xmlDecode (some n) (ds ++ ';' :: r) = (xmlReference (n ++ ds)).bind fun d => if xmlChar d = false then none else (xmlDecode none r).map (d :: ·) := by
  induction ds generalizing n with
  | nil => simp [xmlDecode]
  | cons c ds ih =>
    simp only [List.mem_cons, not_or] at h
    rw [List.cons_append, xmlDecode, if_neg (Ne.symm h.1), ih _ h.2, List.append_assoc]
    rfl

private theorem decode_ref (name r : Str) (d : Char) (h : ';' ∉ name) (hd : xmlReference name = some d) (hx : xmlChar d = true) :
    xmlDecode none ('&' :: name ++ ';' :: r) = (xmlDecode none r).map (d :: ·) := by
  have := decode_name [] name r h
  rw [List.nil_append, hd] at this
  rw [List.cons_append, xmlDecode, if_pos rfl, this]
  show (if xmlChar d = false then none else (xmlDecode none r).map (d :: ·)) = _
  rw [if_neg (by simp [hx])]

private theorem decode_char (c : Char) (r : Str) (h : c ≠ '\r') (hx : xmlChar c = true) : xmlDecode none (escapeAttr c ++ r) = (xmlDecode none r).map (c :: ·) := by
  unfold escapeAttr
  split
  · next h => subst h; exact decode_ref c!"amp" r _ (by decide) rfl (by decide)
  split
  · next h => subst h; exact decode_ref c!"lt" r _ (by decide) rfl (by decide)
  split
  · next h => subst h; exact decode_ref c!"gt" r _ (by decide) rfl (by decide)
  split
  · next h => subst h; exact decode_ref c!"quot" r _ (by decide) rfl (by decide)
  split
  · next h => subst h; exact decode_ref c!"#10" r _ (by decide) (by decide) (by decide)
  split
  · next h => subst h; exact decode_ref c!"#09" r _ (by decide) (by decide) (by decide)
  split
  · have hs : ';' ∉ '#' :: natStr c.toNat := by
      rw [List.mem_cons, not_or]
      exact ⟨by decide, natStr_not_mem _ (by decide)⟩
    have hd : xmlReference ('#' :: natStr c.toNat) = some c := by
      have hp : parseNat (natStr c.toNat) = some c.toNat := by
        have := natStrGo_spec (c.toNat + 1) c.toNat (by omega)
        unfold parseNat
        rw [if_pos ⟨this.2.1, List.all_eq_true.2 this.2.2⟩]
        exact congrArg some this.1
      have : xmlReference ('#' :: natStr c.toNat) = (parseNat (natStr c.toNat)).map Char.ofNat := by
        unfold xmlReference
        rw [if_neg (by simp), if_neg (by simp), if_neg (by simp), if_neg (by simp), if_neg (by simp)]
        rfl
      rw [this, hp]
      exact congrArg some (Char.ofNat_toNat c)
    have := decode_ref ('#' :: natStr c.toNat) r c hs hd hx
    simpa using this
  · next h1 h2 h3 h4 h5 h6 h7 =>
    rw [List.singleton_append, xmlDecode, if_neg h1, if_neg (by simp [hx]), if_neg]
    simp [h5, h6, h]

/-- Python's escapes of an attribute are resolved. -/
theorem decode_escape (s r : Str) (h : ∀ c ∈ s, xmlChar c = true ∧ c ≠ '\r') : xmlDecode none (s.flatMap escapeAttr ++ r) = (xmlDecode none r).map (s ++ ·) := by
  induction s with
  | nil => simp
  | cons c s ih =>
    rw [List.flatMap_cons, List.append_assoc, decode_char c _ (h c (by simp)).2 (h c (by simp)).1, ih fun d hd => h d (by simp [hd])]
    cases xmlDecode none r <;> rfl

theorem escape_quiet (s : Str) : ∀ c ∈ s.flatMap escapeAttr, c ≠ '"' ∧ c ≠ '<' ∧ c ≠ '>' := by
  intro c hc
  obtain ⟨d, -, hd⟩ := List.mem_flatMap.1 hc
  unfold escapeAttr at hd
  have lit : ∀ w : Str, (∀ c ∈ w, c ≠ '"' ∧ c ≠ '<' ∧ c ≠ '>') → c ∈ w → c ≠ '"' ∧ c ≠ '<' ∧ c ≠ '>' := fun w h hc => h c hc
  split at hd
  · exact lit _ (by decide) hd
  split at hd
  · exact lit _ (by decide) hd
  split at hd
  · exact lit _ (by decide) hd
  split at hd
  · exact lit _ (by decide) hd
  split at hd
  · exact lit _ (by decide) hd
  split at hd
  · exact lit _ (by decide) hd
  split at hd
  · simp only [List.mem_append] at hd
    rcases hd with (hd | hd) | hd
    · exact lit _ (by decide) hd
    · have := natStr_digits _ c hd
      refine ⟨?_, ?_, ?_⟩ <;> (rintro rfl; cases this)
    · exact lit _ (by decide) hd
  · next h1 h2 h3 h4 h5 h6 h7 =>
    rw [List.mem_singleton] at hd
    subst hd
    exact ⟨h4, h2, h3⟩

/-- The text of one attribute. -/
def attrText (a : Str × Str) : Str := c!" " ++ a.1 ++ c!"=\"" ++ a.2.flatMap escapeAttr ++ c!"\""

private theorem name_alpha {s : Str} (h : xmlName s = true) : s ≠ [] ∧ ∀ c ∈ s, c.isAlpha = true := by
  unfold xmlName at h
  simp only [Bool.and_eq_true, Bool.not_eq_true', List.isEmpty_eq_false_iff, List.all_eq_true] at h
  exact h

private theorem alpha_quiet {c : Char} (h : c.isAlpha = true) : c ≠ '"' ∧ c ≠ '<' ∧ c ≠ '>' ∧ c ≠ '/' ∧ isSpace c = false := by
  refine ⟨?_, ?_, ?_, ?_, ?_⟩
  · rintro rfl; revert h; decide
  · rintro rfl; revert h; decide
  · rintro rfl; revert h; decide
  · rintro rfl; revert h; decide
  · unfold isSpace
    simp only [Bool.or_eq_false_iff, beq_eq_false_iff_ne]
    refine ⟨⟨⟨⟨⟨?_, ?_⟩, ?_⟩, ?_⟩, ?_⟩, ?_⟩ <;> (rintro rfl; revert h; decide)

/-- The attributes are read. -/
private theorem attrs_read (as : List (Str × Str)) (w : Str) (hw : ∀ c ∈ w, c = ' ') (h : ∀ a ∈ as, xmlName a.1 = true ∧ ∀ c ∈ a.2, xmlChar c = true ∧ c ≠ '\r') :
    xmlAttrs (splitOnChar '"' (as.flatMap attrText ++ w)) = some as := by
  induction as with
  | nil =>
    rw [List.flatMap_nil, List.nil_append, splitOnChar_not_mem _ _ (fun hc => by have := hw _ hc; revert this; decide), xmlAttrs, if_pos]
    rw [List.all_eq_true]
    intro c hc
    rw [hw c hc]
    rfl
  | cons a as ih =>
    obtain ⟨hn, hv⟩ := h a (by simp)
    obtain ⟨ha, hal⟩ := name_alpha hn
    have e : (a :: as).flatMap attrText ++ w = (c!" " ++ a.1 ++ c!"=") ++ '"' :: (a.2.flatMap escapeAttr ++ '"' :: (as.flatMap attrText ++ w)) := by
      simp [attrText]
    have hq : '"' ∉ c!" " ++ a.1 ++ c!"=" := by
      simp only [List.mem_append, not_or]
      exact ⟨⟨by decide, fun hc => (alpha_quiet (hal _ hc)).1 rfl⟩, by decide⟩
    rw [e, splitOnChar_append _ _ _ hq, splitOnChar_append _ _ _ fun hc => (escape_quiet _ _ hc).1 rfl]
    have hk : c!" " ++ a.1 ++ c!"=" = ' ' :: (a.1 ++ c!"=") := by simp
    rw [hk, xmlAttrs]
    simp only [List.getLast?_append, List.getLast?_singleton, Option.some_or, List.dropLast_concat, hn, and_self, if_true]
    have := decode_escape a.2 [] hv
    rw [List.append_nil] at this
    rw [this, ih fun x hx => h x (by simp [hx])]
    simp [xmlDecode]

/-! ## Tags -/

private theorem attrs_head (as : List (Str × Str)) (w : Str) (hw : ∀ c ∈ w, c = ' ') : ∀ c ∈ (as.flatMap attrText ++ w).head?, isSpace c = true := by
  intro c hc
  cases as with
  | nil =>
    cases w with
    | nil => cases hc
    | cons d w =>
      rw [List.flatMap_nil, List.nil_append, List.head?_cons, Option.mem_some_iff] at hc
      rw [← hc, hw d (by simp)]
      rfl
  | cons a as => simp [attrText] at hc; rw [← hc]; rfl

private theorem span_word {s t : Str} (h : ∀ c ∈ s, isSpace c = false) (ht : ∀ c ∈ t.head?, isSpace c = true) :
    (s ++ t).takeWhile (fun c => !isSpace c) = s ∧ (s ++ t).dropWhile (fun c => !isSpace c) = t := by
  have h0 : t.takeWhile (fun c => !isSpace c) = [] ∧ t.dropWhile (fun c => !isSpace c) = t := by
    cases t with
    | nil => exact ⟨rfl, rfl⟩
    | cons c t => simp [ht c rfl]
  constructor
  · rw [List.takeWhile_append_of_pos (by simpa using h), h0.1, List.append_nil]
  · rw [List.dropWhile_append_of_pos (by simpa using h), h0.2]

private theorem tag_read (tag : Str) (as : List (Str × Str)) (ht : xmlName tag = true) (h : ∀ a ∈ as, xmlName a.1 = true ∧ ∀ c ∈ a.2, xmlChar c = true ∧ c ≠ '\r') (hn : (as.map Prod.fst).Nodup) :
    xmlTag (tag ++ as.flatMap attrText) = some (.start tag as) ∧ xmlTag (tag ++ as.flatMap attrText ++ c!" /") = some (.empty tag as) ∧ xmlTag ('/' :: tag) = some (.stop tag) := by
  obtain ⟨hne, hal⟩ := name_alpha ht
  obtain ⟨c, t, rfl⟩ : ∃ c t, tag = c :: t := by
    cases tag with
    | nil => exact absurd rfl hne
    | cons c t => exact ⟨c, t, rfl⟩
  have hc : c ≠ '/' := (alpha_quiet (hal c (by simp))).2.2.2.1
  have hlast : ((c :: t) ++ as.flatMap attrText).getLast? ≠ some '/' := by
    intro hl
    rcases List.eq_nil_or_concat as with rfl | ⟨bs, b, rfl⟩
    · rw [List.flatMap_nil, List.append_nil] at hl
      exact (alpha_quiet (hal '/' (List.mem_of_getLast? hl))).2.2.2.1 rfl
    · rw [List.concat_eq_append, List.flatMap_append, List.flatMap_cons, List.flatMap_nil, List.append_nil, attrText, ← List.append_assoc, ← List.append_assoc, List.getLast?_append] at hl
      cases hl
  have key : ∀ (s : Str) (w : Str), (∀ c ∈ w, c = ' ') → s = (c :: t) ++ (as.flatMap attrText ++ w) →
      s.takeWhile (fun c => !isSpace c) = c :: t ∧ xmlAttrs (splitOnChar '"' (s.dropWhile fun c => !isSpace c)) = some as := by
    rintro s w hw rfl
    obtain ⟨a, b⟩ := span_word (fun x hx => (alpha_quiet (hal x hx)).2.2.2.2) (attrs_head as w hw)
    rw [a, b]
    exact ⟨rfl, attrs_read as w hw h⟩
  refine ⟨?_, ?_, ?_⟩
  · obtain ⟨k1, k2⟩ := key ((c :: t) ++ as.flatMap attrText) [] (by simp) (by simp)
    unfold xmlTag
    split
    · next heq => exact absurd (List.cons.inj heq).1 hc
    · simp only [hlast, if_false, k1, k2]
      simp [ht, hn]
  · obtain ⟨k1, k2⟩ := key ((c :: t) ++ as.flatMap attrText ++ c!" ") c!" " (by simp) (by simp)
    have hl : ((c :: t) ++ as.flatMap attrText ++ c!" /").getLast? = some '/' := by rw [List.getLast?_append]; rfl
    have hd : ((c :: t) ++ as.flatMap attrText ++ c!" /").dropLast = (c :: t) ++ as.flatMap attrText ++ c!" " := by
      rw [show c!" /" = c!" " ++ c!"/" from rfl, ← List.append_assoc, List.dropLast_concat]
    unfold xmlTag
    split
    · next heq => exact absurd (List.cons.inj heq).1 hc
    · simp only [hl, if_true, hd, k1, k2]
      simp [ht, hn]
  · unfold xmlTag
    simp [ht]

/-! ## Pieces -/

private theorem pieces_quiet (q : Bool) (acc s r : Str) (h : ∀ c ∈ s, c ≠ '"' ∧ c ≠ '<' ∧ c ≠ '>') : xmlPieces (some q) acc (s ++ r) = xmlPieces (some q) (acc ++ s) r := by
  induction s generalizing acc with
  | nil => simp
  | cons c s ih =>
    obtain ⟨h1, h2, h3⟩ := h c (by simp)
    rw [List.cons_append, xmlPieces, if_neg (fun k => h3 k.1), if_neg h2, if_neg h1, ih _ fun x hx => h x (by simp [hx]), List.append_assoc]
    rfl

private theorem pieces_quote (q : Bool) (acc r : Str) : xmlPieces (some q) acc ('"' :: r) = xmlPieces (some !q) (acc ++ c!"\"") r := by
  rw [xmlPieces, if_neg (by simp), if_neg (by decide), if_pos rfl]

private theorem pieces_attrs (as : List (Str × Str)) (acc r : Str) (h : ∀ a ∈ as, xmlName a.1 = true) :
    xmlPieces (some false) acc (as.flatMap attrText ++ r) = xmlPieces (some false) (acc ++ as.flatMap attrText) r := by
  induction as generalizing acc with
  | nil => simp
  | cons a as ih =>
    have hal := (name_alpha (h a (by simp))).2
    have e : (a :: as).flatMap attrText ++ r = (c!" " ++ a.1 ++ c!"=") ++ '"' :: (a.2.flatMap escapeAttr ++ '"' :: (as.flatMap attrText ++ r)) := by
      simp [attrText]
    rw [e, pieces_quiet, pieces_quote, pieces_quiet _ _ _ _ (escape_quiet _), pieces_quote, Bool.not_false, Bool.not_true, ih _ fun x hx => h x (by simp [hx])]
    · congr 1
      simp [attrText]
    · intro c hc
      simp only [List.mem_append] at hc
      rcases hc with (hc | hc) | hc
      · revert c; decide
      · have := alpha_quiet (hal c hc)
        exact ⟨this.1, this.2.1, this.2.2.1⟩
      · revert c; decide

private theorem pieces_tag (acc s r : Str) (h : ∀ acc r, xmlPieces (some false) acc (s ++ r) = xmlPieces (some false) (acc ++ s) r) :
    xmlPieces none acc (c!"<" ++ s ++ c!">" ++ r) = (xmlPieces none [] r).map ([(false, acc), (true, s)] ++ ·) := by
  have : c!"<" ++ s ++ c!">" ++ r = '<' :: (s ++ '>' :: r) := by simp
  rw [this, xmlPieces, if_pos rfl, h, List.nil_append, xmlPieces, if_pos ⟨rfl, rfl⟩]
  cases xmlPieces none [] r <;> rfl

private theorem pieces_blank (acc s r : Str) (h : ∀ c ∈ s, c = ' ' ∨ c = '\n') : xmlPieces none acc (s.flatMap escapeText ++ r) = xmlPieces none (acc ++ s) r := by
  induction s generalizing acc with
  | nil => simp
  | cons c s ih =>
    have hc : c ≠ '<' ∧ escapeText c = [c] := by rcases h c (by simp) with rfl | rfl <;> exact ⟨by decide, by decide⟩
    rw [List.flatMap_cons, hc.2, List.append_assoc, List.singleton_append, xmlPieces, if_neg hc.1, ih _ fun x hx => h x (by simp [hx]), List.append_assoc]
    rfl

/-! ## Elements -/

mutual

/-- Names of letters, no attribute twice, only blanks and new lines between elements. -/
def Xml.Good : Xml → Prop
  | .node tag attrs text cs tail => xmlName tag = true ∧ (∀ a ∈ attrs, xmlName a.1 = true ∧ ∀ c ∈ a.2, xmlChar c = true ∧ c ≠ '\r') ∧ (attrs.map Prod.fst).Nodup ∧ (∀ c ∈ text, c = ' ' ∨ c = '\n') ∧ (∀ c ∈ tail, c = ' ' ∨ c = '\n') ∧
    Xml.AllGood cs

def Xml.AllGood : List Xml → Prop
  | [] => True
  | x :: xs => x.Good ∧ Xml.AllGood xs

end

mutual

/-- The element without the texts. -/
def Xml.bare : Xml → XmlNode
  | .node tag attrs _ cs _ => .node tag attrs (Xml.bareAll cs)

def Xml.bareAll : List Xml → List XmlNode
  | [] => []
  | x :: xs => x.bare :: Xml.bareAll xs

end

private def Blank (s : Str) : Prop := ∀ c ∈ s, c = ' ' ∨ c = '\n'

private theorem blank_all {s : Str} (h : Blank s) : s.all isSpace = true := by
  rw [List.all_eq_true]
  intro c hc
  rcases h c hc with rfl | rfl <;> rfl

private theorem build_blank {s : Str} (h : Blank s) (st : Sum (List XmlOpen) XmlNode) (qs : List (Bool × Str)) : xmlBuild st ((false, s) :: qs) = xmlBuild st qs := by
  cases st <;> rw [xmlBuild, if_pos (blank_all h)]

mutual

private theorem read_one : ∀ (x : Xml), x.Good → ∀ acc, Blank acc → ∃ ps acc', Blank acc' ∧ (∀ r, xmlPieces none acc (x.write ++ r) = (xmlPieces none acc' r).map (ps ++ ·)) ∧
    ∀ st qs, xmlBuild (.inl st) (ps ++ qs) = xmlBuild (xmlClose x.bare st) qs
  | .node tag attrs text cs tail, hx, acc, hacc => by
    simp only [Xml.Good] at hx
    obtain ⟨h1, h2, h3, h4, h5, h6⟩ := hx
    obtain ⟨t1, t2, t3⟩ := tag_read tag attrs h1 h2 h3
    have htag : ∀ acc r, xmlPieces (some false) acc (tag ++ r) = xmlPieces (some false) (acc ++ tag) r := fun acc r => pieces_quiet _ _ _ _ fun c hc => by
      have := alpha_quiet ((name_alpha h1).2 c hc)
      exact ⟨this.1, this.2.1, this.2.2.1⟩
    have hA : ∀ acc r, xmlPieces (some false) acc ((tag ++ attrs.flatMap attrText) ++ r) = xmlPieces (some false) (acc ++ (tag ++ attrs.flatMap attrText)) r := fun acc r => by
      rw [List.append_assoc, htag, pieces_attrs _ _ _ fun a ha => (h2 a ha).1, List.append_assoc]
    have hattr : attrs.flatMap (fun a => c!" " ++ a.1 ++ c!"=\"" ++ a.2.flatMap escapeAttr ++ c!"\"") = attrs.flatMap attrText := rfl
    by_cases he : text = [] ∧ cs.isEmpty
    · refine ⟨[(false, acc), (true, tag ++ attrs.flatMap attrText ++ c!" /")], tail, h5, fun r => ?_, fun st qs => ?_⟩
      · rw [Xml.write, if_pos he, hattr]
        have e : c!"<" ++ tag ++ attrs.flatMap attrText ++ c!" />" ++ tail.flatMap escapeText ++ r = c!"<" ++ (tag ++ attrs.flatMap attrText ++ c!" /") ++ c!">" ++ (tail.flatMap escapeText ++ r) := by simp
        rw [e, pieces_tag, pieces_blank _ _ _ h5, List.nil_append]
        intro acc r
        rw [List.append_assoc, hA, pieces_quiet _ _ _ _ (by decide), List.append_assoc]
      · have : cs = [] := List.isEmpty_iff.1 he.2
        subst this
        rw [List.cons_append, build_blank hacc, List.singleton_append, xmlBuild, t2]
        rfl
    · obtain ⟨ps, acc', hacc', hp, hb⟩ := read_all cs h6 text h4
      refine ⟨[(false, acc), (true, tag ++ attrs.flatMap attrText)] ++ ps ++ [(false, acc'), (true, '/' :: tag)], tail, h5, fun r => ?_, fun st qs => ?_⟩
      · rw [Xml.write, if_neg he, hattr]
        have e : c!"<" ++ tag ++ attrs.flatMap attrText ++ (c!">" ++ text.flatMap escapeText ++ Xml.writeAll cs ++ c!"</" ++ tag ++ c!">") ++ tail.flatMap escapeText ++ r =
            c!"<" ++ (tag ++ attrs.flatMap attrText) ++ c!">" ++ (text.flatMap escapeText ++ (Xml.writeAll cs ++ (c!"<" ++ ('/' :: tag) ++ c!">" ++ (tail.flatMap escapeText ++ r)))) := by simp
        rw [e, pieces_tag _ _ _ hA, pieces_blank _ _ _ h4, List.nil_append, hp, pieces_tag, pieces_blank _ _ _ h5, List.nil_append]
        · cases xmlPieces none tail r <;> simp
        · intro acc r
          have : ('/' :: tag) ++ r = c!"/" ++ (tag ++ r) := rfl
          rw [this, pieces_quiet _ _ _ _ (by decide), htag, List.append_assoc]
          rfl
      · have : [(false, acc), (true, tag ++ attrs.flatMap attrText)] ++ ps ++ [(false, acc'), (true, '/' :: tag)] ++ qs =
          (false, acc) :: (true, tag ++ attrs.flatMap attrText) :: (ps ++ ((false, acc') :: (true, '/' :: tag) :: qs)) := by simp
        rw [this, build_blank hacc, xmlBuild, t1]
        simp only []
        rw [hb, build_blank hacc', xmlBuild, t3]
        simp only [if_true, List.nil_append]
        rfl

private theorem read_all : ∀ (xs : List Xml), Xml.AllGood xs → ∀ acc, Blank acc → ∃ ps acc', Blank acc' ∧ (∀ r, xmlPieces none acc (Xml.writeAll xs ++ r) = (xmlPieces none acc' r).map (ps ++ ·)) ∧
    ∀ t as ys st qs, xmlBuild (.inl ((t, as, ys) :: st)) (ps ++ qs) = xmlBuild (.inl ((t, as, ys ++ Xml.bareAll xs) :: st)) qs
  | [], _, acc, hacc => ⟨[], acc, hacc, fun r => by simp [Xml.writeAll], fun t as ys st qs => by simp [Xml.bareAll]⟩
  | x :: xs, hx, acc, hacc => by
    simp only [Xml.AllGood] at hx
    obtain ⟨ps, acc1, h1, h2, h3⟩ := read_one x hx.1 acc hacc
    obtain ⟨qs, acc2, k1, k2, k3⟩ := read_all xs hx.2 acc1 h1
    refine ⟨ps ++ qs, acc2, k1, fun r => ?_, fun t as ys st rs => ?_⟩
    · rw [Xml.writeAll, List.append_assoc, h2, k2]
      cases xmlPieces none acc2 r <;> simp
    · rw [List.append_assoc, h3]
      show xmlBuild (.inl ((t, as, ys ++ [x.bare]) :: st)) (qs ++ rs) = _
      rw [k3, Xml.bareAll, List.append_assoc]
      rfl

end

/-- A written element is read back. -/
theorem xmlRead_write (x : Xml) (h : x.Good) : xmlRead x.write = some x.bare := by
  obtain ⟨ps, acc, h1, h2, h3⟩ := read_one x h [] (by intro c hc; cases hc)
  have := h2 []
  rw [List.append_nil] at this
  have h4 := h3 [] [(false, acc)]
  unfold xmlRead
  rw [this, xmlPieces]
  show xmlBuild (.inl []) (ps ++ [(false, acc)]) = _
  rw [h4]
  show xmlBuild (.inr x.bare) [(false, acc)] = _
  rw [build_blank h1, xmlBuild]

/-! ## `indent` -/

private theorem indentOf_blank (n : Nat) : Blank (indentOf n) := by
  intro c hc
  unfold indentOf at hc
  rcases List.mem_cons.1 hc with rfl | hc
  · exact .inr rfl
  · obtain ⟨l, hl, hc⟩ := List.mem_flatten.1 hc
    rw [List.eq_of_mem_replicate hl] at hc
    simp at hc
    exact .inl hc

private theorem setTail_good (i : Str) (hi : Blank i) (x : Xml) (h : x.Good) : (x.setTail i).Good ∧ (x.setTail i).bare = x.bare := by
  obtain ⟨tag, attrs, text, cs, tail⟩ := x
  simp only [Xml.Good, Xml.setTail, Xml.bare, and_true] at h ⊢
  refine ⟨h.1, h.2.1, h.2.2.1, h.2.2.2.1, ?_, h.2.2.2.2.2⟩
  split
  · exact hi
  · exact h.2.2.2.2.1

private theorem setLastTail_good (i : Str) (hi : Blank i) : ∀ xs : List Xml, Xml.AllGood xs → Xml.AllGood (setLastTail i xs) ∧ Xml.bareAll (setLastTail i xs) = Xml.bareAll xs
  | [], _ => ⟨trivial, rfl⟩
  | [x], h => by
    simp only [Xml.AllGood, setLastTail, Xml.bareAll, and_true] at h ⊢
    obtain ⟨a, b⟩ := setTail_good i hi x h
    exact ⟨a, by rw [b]⟩
  | x :: y :: ys, h => by
    obtain ⟨a, b⟩ := setLastTail_good i hi (y :: ys) h.2
    simp only [setLastTail]
    exact ⟨⟨h.1, a⟩, by rw [Xml.bareAll, Xml.bareAll, b]⟩

mutual

theorem indent_good (n : Nat) : ∀ x : Xml, x.Good → (x.indent n).Good ∧ (x.indent n).bare = x.bare
  | .node tag attrs text cs tail, h => by
    simp only [Xml.Good] at h
    obtain ⟨h1, h2, h3, h4, h5, h6⟩ := h
    rw [Xml.indent]
    split
    · simp only [Xml.Good, Xml.bare, and_true]
      refine ⟨h1, h2, h3, h4, ?_, h6⟩
      split
      · exact indentOf_blank n
      · exact h5
    · obtain ⟨a, b⟩ := indentAll_good (n + 1) cs h6
      obtain ⟨a', b'⟩ := setLastTail_good (indentOf n) (indentOf_blank n) _ a
      simp only [Xml.Good, Xml.bare]
      refine ⟨⟨h1, h2, h3, ?_, ?_, a'⟩, by rw [b', b]⟩
      · split
        · intro c hc
          rcases List.mem_append.1 hc with hc | hc
          · exact indentOf_blank n c hc
          · simp at hc; exact .inl hc
        · exact h4
      · split
        · exact indentOf_blank n
        · exact h5

theorem indentAll_good (n : Nat) : ∀ xs : List Xml, Xml.AllGood xs → Xml.AllGood (Xml.indentAll n xs) ∧ Xml.bareAll (Xml.indentAll n xs) = Xml.bareAll xs
  | [], _ => ⟨trivial, rfl⟩
  | x :: xs, h => by
    simp only [Xml.AllGood] at h
    obtain ⟨a, b⟩ := indent_good n x h.1
    obtain ⟨c, d⟩ := indentAll_good n xs h.2
    simp only [Xml.indentAll, Xml.AllGood, Xml.bareAll]
    exact ⟨⟨a, c⟩, by rw [b, d]⟩

end

/-- A tree is read back after `indent`. -/
theorem xmlRead_indent (x : Xml) (h : x.Good) : xmlRead (x.indent 0).write = some x.bare := by
  obtain ⟨a, b⟩ := indent_good 0 x h
  rw [xmlRead_write _ a, b]

theorem allGood_iff (xs : List Xml) : Xml.AllGood xs ↔ ∀ x ∈ xs, x.Good := by
  induction xs with
  | nil => simp [Xml.AllGood]
  | cons x xs ih => simp [Xml.AllGood, ih]

theorem bareAll_eq (xs : List Xml) : Xml.bareAll xs = xs.map Xml.bare := by
  induction xs with
  | nil => rfl
  | cons x xs ih => rw [Xml.bareAll, ih]; rfl

end Csg
