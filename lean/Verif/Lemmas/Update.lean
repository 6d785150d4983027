import Verif.Lemmas.CellText
import Verif.Lemmas.Exact
import Verif.Lemmas.Describe

/-!
# Reading a cell again from a new description (`MCNPCellCard.update`)
-/

set_option linter.unusedSectionVars false

namespace Csg

open Spec

/-- An expression is not empty and ends with an atom or a closing parenthesis. -/
theorem derives_last {A : Type} {l : Level} {w : List (Sym A)} {r : Reg A} (h : Derives l w r) :
    ∃ u s, w = u ++ [s] ∧ (s = .rp ∨ ∃ a, s = .atom a) := by
  induction h with
  | atom a => exact ⟨[], _, rfl, Or.inr ⟨a, rfl⟩⟩
  | @paren w r _ _ => exact ⟨.lp :: w, .rp, by simp, Or.inl rfl⟩
  | compl _ ih => obtain ⟨u, s, rfl, h⟩ := ih; exact ⟨.no :: u, s, by simp, h⟩
  | single _ ih => exact ih
  | @inter w r w' r' _ _ _ ih => obtain ⟨u, s, rfl, h⟩ := ih; exact ⟨w ++ u, s, by simp, h⟩
  | one _ ih => exact ih
  | @union w r w' r' _ _ _ ih => obtain ⟨u, s, rfl, h⟩ := ih; exact ⟨w ++ .un :: u, s, by simp, h⟩

theorem legal_not_open {toks : List Str} (h : Legal (tokenSyms toks)) : ¬ OpenEnd toks := by
  obtain ⟨r, hr⟩ := h
  obtain ⟨u, s, hu, hs⟩ := derives_last hr
  rcases List.eq_nil_or_concat toks with rfl | ⟨ts, t, rfl⟩
  · simp [tokenSyms] at hu
  · have hu' : tokenSyms ts ++ [tokenSym t] = u ++ [s] := by rw [← hu]; simp [tokenSyms]
    have h1 := (List.append_inj' hu' rfl).2
    simp only [List.cons.injEq, and_true] at h1
    subst h1
    unfold OpenEnd
    simp only [List.concat_eq_append, List.append_eq_nil_iff, List.cons_ne_nil, and_false, List.getLast?_append, List.getLast?_singleton, Option.some_or, false_or,
      Option.some.injEq]
    rintro (rfl | rfl | rfl) <;> rcases hs with h | ⟨a, h⟩ <;> revert h <;> simp [tokenSym, wordSym]

theorem legal_generalise {toks : List Str} (h : Legal (tokenSyms toks)) :
    ∃ is ns, generalise toks = .ok (is, ns) ∧ itemSyms is = tokenSyms toks := by
  have ho := legal_not_open h
  unfold generalise
  cases hl : toks.getLast? with
  | none => exact absurd (Or.inl (List.getLast?_eq_none_iff.1 hl)) ho
  | some t =>
    obtain ⟨⟨is, ns⟩, hx⟩ := (generaliseGo_fails toks (.str t)).2 ho
    exact ⟨is, ns, hx, generaliseGo_syms toks _ _ _ hx⟩

theorem lexGo_space (a : Str) : ∀ acc b, lexGo acc (a ++ ' ' :: b) = lexGo acc a ++ lexGo [] b := by
  induction a with
  | nil => intro acc b; simp [lexGo, isSpace]
  | cons c a ih =>
    intro acc b
    simp only [List.cons_append, lexGo]
    split
    · rw [ih]; simp
    · split
      · rw [ih]; simp
      · split
        · rw [ih]; simp
        · split
          · rw [ih]; simp
          · split
            · rw [ih]
            · rw [ih]

theorem lexGeometry_join (ws : List Str) : lexGeometry (join c!" " ws) = (ws.map lexGeometry).flatten := by
  induction ws with
  | nil => rfl
  | cons w ws ih =>
    cases ws with
    | nil => simp [join]
    | cons v vs =>
      have : join c!" " (w :: v :: vs) = w ++ ' ' :: join c!" " (v :: vs) := by simp [join]
      rw [this]
      unfold lexGeometry at ih ⊢
      rw [lexGo_space, ih]
      rfl

/-- None of the letters with which a keyword begins. -/
def NoKeyword (s : Str) : Prop := ∀ x ∈ s, x ∉ ['u', 'f', 'i', 'v', 't', '*', '$']

theorem NoKeyword.append {a b : Str} (ha : NoKeyword a) (hb : NoKeyword b) : NoKeyword (a ++ b) := by
  intro x hx
  rcases List.mem_append.1 hx with h | h
  · exact ha x h
  · exact hb x h

theorem noKeyword_digit {x : Char} (h : isDigit x = true) : x ∉ ['u', 'f', 'i', 'v', 't', '*', '$'] := by
  intro hx
  simp only [List.mem_cons, List.not_mem_nil, or_false] at hx
  rcases hx with rfl | rfl | rfl | rfl | rfl | rfl | rfl <;> exact absurd h (by decide)

theorem noKeyword_intStr (z : Int) : NoKeyword (intStr z) := by
  intro x hx
  rcases intStr_chars z x hx with h | rfl
  · exact noKeyword_digit h
  · decide

theorem noKeyword_natStr (n : Nat) : NoKeyword (natStr n) := fun x hx => noKeyword_digit (natStr_digits n x hx)

theorem noKeyword_join {ws : List Str} (h : ∀ w ∈ ws, NoKeyword w) : NoKeyword (join c!" " ws) := by
  induction ws with
  | nil => intro x hx; simp [join] at hx
  | cons w ws ih =>
    cases ws with
    | nil => simpa [join] using h w (by simp)
    | cons v vs =>
      have e : join c!" " (w :: v :: vs) = w ++ (c!" " ++ join c!" " (v :: vs)) := by simp [join]
      rw [e]
      exact (h w (by simp)).append (NoKeyword.append (by intro x hx; simp at hx; subst hx; decide) (ih fun u hu => h u (by simp [hu])))

section
variable {K : Type} [Field K]

theorem detectKeywords_none (io : NumIO K) (cosDeg : K → K) (c : Cell K) {s : Str} (h : NoKeyword s) : detectKeywords io cosDeg c s = .ok (c, s) := by
  unfold detectKeywords
  rw [if_pos]
  simp only [List.any_eq_true, not_exists, not_and]
  intro w hw hi
  obtain ⟨a, b, rfl⟩ := (hasInfix_iff _ _).1 hi
  simp only [cellKeywords, List.mem_cons, List.not_mem_nil, or_false] at hw
  rcases hw with rfl | rfl | rfl | rfl | rfl
  · exact h 'i' (by simp) (by decide)
  · exact h 'u' (by simp) (by decide)
  · exact h 'f' (by simp) (by decide)
  · exact h 'v' (by simp) (by decide)
  · exact h 't' (by simp) (by decide)

/-- Material and density as they are after a card is read. -/
def ReadMaterial (c : Cell K) : Prop := ∃ m : Int, c.material = .int m ∧ 0 ≤ m ∧ (m = 0 → c.density = 0)

/-- Reading a cell again with a description that is an expression changes only the description and adds surface numbers. -/
theorem update_ok (io : NumIO K) (hio : Exact io) (cosDeg : K → K) (c : Cell K) (hm : ReadMaterial c) (d : Str) (hd : NoKeyword d)
    (hl : Legal (lexGeometry d)) :
    ∃ is ns, generalise (split (expandText d)) = .ok (is, ns) ∧ itemSyms is = lexGeometry d ∧ tokenSyms (split (expandText d)) = lexGeometry d ∧
      Cell.update io cosDeg c d = .ok { c with text := split (expandText d), interpreted := is, surfaces := c.surfaces ++ ns } := by
  have hlex : tokenSyms (split (expandText d)) = lexGeometry d := split_expand_syms d [] (by simp)
  obtain ⟨is, ns, hg, hs⟩ := legal_generalise (toks := split (expandText d)) (by rw [hlex]; exact hl)
  refine ⟨is, ns, hg, by rw [hs, hlex], hlex, ?_⟩
  obtain ⟨m, h1, h2, h3⟩ := hm
  have hplain : ∀ z : Int, expandText (intStr z) = intStr z := by
    intro z
    apply expandText_id
    intro x hx hx'
    simp only [List.mem_cons, List.not_mem_nil, or_false] at hx'
    have hc := intStr_chars z x hx
    rcases hx' with rfl | rfl | rfl | rfl <;> revert hc <;> decide
  have hsp : ∀ s t, expandText (s ++ ' ' :: t) = expandText s ++ ' ' :: expandText t := by
    intro s t
    rw [expandText_append]
    simp [expandText, replaceChar]
  have hword : ∀ (z : Int) t, split (intStr z ++ ' ' :: t) = intStr z :: split t := fun z t =>
    split_word_space _ _ _ rfl (intStr_noSpace z) (intStr_ne_nil z)
  by_cases hz : m = 0
  · subst hz
    have ht : updateText io c d = intStr c.id ++ ' ' :: (intStr 0 ++ ' ' :: d) := by
      unfold updateText
      rw [if_pos h1, h1]
      simp [MatNum.text]
    have hk' : NoKeyword (intStr c.id ++ (c!" " ++ (intStr 0 ++ (c!" " ++ d)))) :=
      (noKeyword_intStr _).append (NoKeyword.append (a := c!" ") (by intro x hx; simp at hx; subst hx; decide)
        ((noKeyword_intStr 0).append (NoKeyword.append (a := c!" ") (by intro x hx; simp at hx; subst hx; decide) hd)))
    have hk : NoKeyword (intStr c.id ++ ' ' :: (intStr 0 ++ ' ' :: d)) := hk'
    unfold Cell.update
    rw [ht]
    unfold interpret
    rw [detectKeywords_none io cosDeg c hk]
    simp only [bind, Except.bind]
    rw [hsp, hsp, hplain, hplain, hword, hword]
    simp only [pyGet, List.getElem?_cons_zero, List.getElem?_cons_succ, pyInt_intStr, lt_self_iff_false, if_false, List.drop_succ_cons, List.drop_zero, hg]
    rw [← h1, ← h3 rfl]
  · have hpos : 0 < m := by omega
    have ht : updateText io c d = intStr c.id ++ ' ' :: (intStr m ++ ' ' :: (io.render c.density ++ ' ' :: d)) := by
      unfold updateText
      rw [if_neg (by rw [h1]; simpa using hz), h1]
      simp [MatNum.text]
    have hr := hio.text c.density
    have hrk : NoKeyword (io.render c.density) := by
      intro x hx
      rcases hr.chars x hx with h | rfl | rfl | rfl | rfl
      · exact noKeyword_digit h
      all_goals decide
    have hk : NoKeyword (intStr c.id ++ ' ' :: (intStr m ++ ' ' :: (io.render c.density ++ ' ' :: d))) :=
      (noKeyword_intStr _).append (NoKeyword.append (a := c!" ") (by intro x hx; simp at hx; subst hx; decide)
        ((noKeyword_intStr _).append (NoKeyword.append (a := c!" ") (by intro x hx; simp at hx; subst hx; decide)
          (hrk.append (NoKeyword.append (a := c!" ") (by intro x hx; simp at hx; subst hx; decide) hd)))))
    have hren : expandText (io.render c.density) = replaceChar '+' [] (io.render c.density) := by
      unfold expandText
      rw [replaceChar_not_mem '(' _ _ (hr.not_mem (by decide) (by decide)), replaceChar_not_mem ')' _ _ (hr.not_mem (by decide) (by decide)),
        replaceChar_not_mem ':' _ _ (hr.not_mem (by decide) (by decide))]
    have hrw : ∀ t, split (replaceChar '+' [] (io.render c.density) ++ ' ' :: t) = replaceChar '+' [] (io.render c.density) :: split t := by
      intro t
      rw [replaceChar_nil_eq_filter]
      exact split_word_space _ _ _ rfl hr.filter_plus.noSpace hr.filter_plus.ne_nil
    unfold Cell.update
    rw [ht]
    unfold interpret
    rw [detectKeywords_none io cosDeg c hk]
    simp only [bind, Except.bind]
    rw [hsp, hsp, hsp, hplain, hplain, hren, hword, hword, hrw]
    simp only [pyGet, List.getElem?_cons_zero, List.getElem?_cons_succ, pyInt_intStr, hpos, if_true, List.drop_succ_cons, List.drop_zero, hg, hio.fortran]
    rw [← h1]

end

end Csg
