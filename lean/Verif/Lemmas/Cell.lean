import Verif.Spec.Cell
import Verif.Lemmas.Py
import Verif.Lemmas.Region

/-!
# Facts about cell cards
-/

namespace Csg

open Spec

theorem generaliseGo_cons (prev : Item) (s : Str) (rest : List Str) :
    generaliseGo prev (s :: rest) =
      (if s = c!":" then (generaliseGo (.op .union) rest).map fun x => (.op .union :: x.1, x.2)
      else if s = c!"#" then (generaliseGo (.op .not) rest).map fun x => (.op .not :: x.1, x.2)
      else if s = c!"(" then (generaliseGo (.str s) rest).map fun x => (.str s :: x.1, x.2)
      else
        let put : List Item × List Int :=
          if prev ≠ .str c!"(" ∧ s ≠ c!")" then
            ([.op .and, .str s], match parseInt s with | some z => [(z.natAbs : Int)] | none => [])
          else ([.str s], [])
        if rest = [] then .ok put
        else (generaliseGo (.str s) rest).map fun x => (put.1 ++ x.1, put.2 ++ x.2)) := by
  rw [generaliseGo]
  split
  · cases generaliseGo (.op .union) rest <;> rfl
  · split
    · cases generaliseGo (.op .not) rest <;> rfl
    · split
      · cases generaliseGo (.str s) rest <;> rfl
      · dsimp only
        split
        · rfl
        · cases generaliseGo (.str s) rest <;> rfl

theorem itemSyms_append (a b : List Item) : itemSyms (a ++ b) = itemSyms a ++ itemSyms b := by
  induction a with
  | nil => rfl
  | cons i a ih =>
    cases i with
    | op o => cases o <;> simp [itemSyms, ih]
    | str s => simp [itemSyms, ih]

theorem Except.map_eq_ok {ε α β : Type} {f : α → β} {x : Except ε α} {b : β} (h : x.map f = .ok b) :
    ∃ a, x = .ok a ∧ f a = b := by
  cases x with
  | error e => cases h
  | ok a => exact ⟨a, rfl, by cases h; rfl⟩

theorem generaliseGo_syms (toks : List Str) : ∀ (prev : Item) (is : List Item) (ns : List Int),
    generaliseGo prev toks = .ok (is, ns) → itemSyms is = tokenSyms toks := by
  induction toks with
  | nil => intro prev is ns h; simp [generaliseGo] at h
  | cons s rest ih =>
    intro prev is ns h
    rw [generaliseGo_cons] at h
    split at h
    · rename_i hs
      obtain ⟨x, h1, h2⟩ := Except.map_eq_ok h
      cases h2
      simp [itemSyms, tokenSyms, hs, tokenSym] at *
      exact ih _ _ _ h1
    · rename_i hs1
      split at h
      · rename_i hs
        obtain ⟨x, h1, h2⟩ := Except.map_eq_ok h
        cases h2
        simp [itemSyms, tokenSyms, hs, tokenSym, wordSym] at *
        exact ih _ _ _ h1
      · rename_i hs2
        split at h
        · rename_i hs
          obtain ⟨x, h1, h2⟩ := Except.map_eq_ok h
          cases h2
          simp [itemSyms, tokenSyms, hs, tokenSym] at *
          exact ih _ _ _ h1
        · rename_i hs3
          dsimp only at h
          have hput : ∀ b : Bool, itemSyms (if b then [.op .and, .str s] else [.str s]) = [tokenSym s] := by
            intro b
            have : (if s = c!")" then Sym.rp else .atom s) = tokenSym s := by
              simp only [tokenSym, if_neg hs3, if_neg hs1, wordSym, if_neg hs2]
            cases b <;> simp [itemSyms, hs3] <;> exact this
          split at h
          · rename_i hr
            subst hr
            have h2 := congrArg (fun x : Py (List Item × List Int) => x.map (fun y => itemSyms y.1)) h
            simp only [Except.map, Except.ok.injEq] at h2
            rw [← h2]
            split
            · exact hput true
            · exact hput false
          · obtain ⟨x, h1, h2⟩ := Except.map_eq_ok h
            cases h2
            rw [itemSyms_append, ih _ _ _ h1]
            split
            · have := hput true; simp only [if_true] at this; rw [this]; rfl
            · have := hput false; simp only [Bool.false_eq_true, if_false] at this; rw [this]; rfl

/-- The tokens after which the loop runs off the end. -/
def OpenEnd (toks : List Str) : Prop :=
  toks = [] ∨ toks.getLast? = some c!":" ∨ toks.getLast? = some c!"#" ∨ toks.getLast? = some c!"("

theorem generaliseGo_fails (toks : List Str) : ∀ prev : Item,
    (∃ x, generaliseGo prev toks = .ok x) ↔ ¬ OpenEnd toks := by
  induction toks with
  | nil => intro prev; simp [generaliseGo, OpenEnd]
  | cons s rest ih =>
    intro prev
    have mapOk : ∀ (p : Item) (f : List Item × List Int → List Item × List Int),
        (∃ x, (generaliseGo p rest).map f = .ok x) ↔ ¬ OpenEnd rest := by
      intro p f
      rw [← ih p]
      constructor
      · rintro ⟨x, hx⟩
        obtain ⟨a, ha, _⟩ := Except.map_eq_ok hx
        exact ⟨a, ha⟩
      · rintro ⟨x, hx⟩; exact ⟨f x, by rw [hx]; rfl⟩
    have openCons : rest ≠ [] → (OpenEnd (s :: rest) ↔ OpenEnd rest) := by
      intro hr
      obtain ⟨a, l, rfl⟩ := List.exists_cons_of_ne_nil hr
      simp [OpenEnd, List.getLast?_cons_cons]
    rw [generaliseGo_cons]
    by_cases hr : rest = []
    · subst hr
      split
      · rename_i hs; rw [mapOk]; simp [OpenEnd, hs]
      · split
        · rename_i hs; rw [mapOk]; simp [OpenEnd, hs]
        · split
          · rename_i hs; rw [mapOk]; simp [OpenEnd, hs]
          · rename_i h1 h2 h3
            simp [OpenEnd, h1, h2, h3]
    · rw [openCons hr]
      split
      · exact mapOk _ _
      · split
        · exact mapOk _ _
        · split
          · exact mapOk _ _
          · exact mapOk _ _

/-- Which surfaces are recorded. -/
theorem generaliseGo_surfaces (toks : List Str) : ∀ (prev : Item) (is : List Item) (ns : List Int),
    generaliseGo prev toks = .ok (is, ns) →
    (∀ n ∈ ns, ∃ w ∈ toks, ∃ z : Int, parseInt w = some z ∧ n = z.natAbs) ∧
    ∀ a w b, toks = a ++ w :: b → (a = [] → prev ≠ .str c!"(") → a.getLast? ≠ some c!"(" →
      ∀ z : Int, parseInt w = some z → (z.natAbs : Int) ∈ ns := by
  induction toks with
  | nil => intro prev is ns h; simp [generaliseGo] at h
  | cons s rest ih =>
    intro prev is ns h
    rw [generaliseGo_cons] at h
    have notop : ∀ w : Str, (w = c!":" ∨ w = c!"#" ∨ w = c!"(" ∨ w = c!")") → parseInt w = none := by
      rintro w (rfl | rfl | rfl | rfl) <;> rfl
    have step : ∀ (p : Item) (is' : List Item) (ns' : List Int), generaliseGo p rest = .ok (is', ns') →
        (p = .str c!"(" → s = c!"(") →
        (∀ n ∈ ns', ∃ w ∈ s :: rest, ∃ z : Int, parseInt w = some z ∧ n = z.natAbs) ∧
        ∀ a w b, s :: rest = a ++ w :: b → a ≠ [] → a.getLast? ≠ some c!"(" →
          ∀ z : Int, parseInt w = some z → (z.natAbs : Int) ∈ ns' := by
      intro p is' ns' hgo hp
      obtain ⟨h1, h2⟩ := ih p is' ns' hgo
      refine ⟨fun n hn => ?_, ?_⟩
      · obtain ⟨w, hw, z, hz⟩ := h1 n hn
        exact ⟨w, List.mem_cons_of_mem _ hw, z, hz⟩
      · intro a w b e hne hl z hz
        obtain ⟨x, a', rfl⟩ := List.exists_cons_of_ne_nil hne
        simp only [List.cons_append, List.cons.injEq] at e
        obtain ⟨rfl, e⟩ := e
        refine h2 a' w b e ?_ ?_ z hz
        · rintro rfl hpp
          simp [hp hpp] at hl
        · cases a' with
          | nil => simp
          | cons y a'' => simpa [List.getLast?_cons_cons] using hl
    split at h
    · rename_i hs
      obtain ⟨x, h1, h2⟩ := Except.map_eq_ok h
      cases h2
      obtain ⟨s1, s2⟩ := step _ _ _ h1 (by simp)
      refine ⟨s1, fun a w b e hp hl z hz => ?_⟩
      by_cases ha : a = []
      · subst ha; simp at e; rw [← e.1] at hz; rw [notop s (by simp [hs])] at hz; cases hz
      · exact s2 a w b e ha hl z hz
    · rename_i hs1
      split at h
      · rename_i hs
        obtain ⟨x, h1, h2⟩ := Except.map_eq_ok h
        cases h2
        obtain ⟨s1, s2⟩ := step _ _ _ h1 (by simp)
        refine ⟨s1, fun a w b e hp hl z hz => ?_⟩
        by_cases ha : a = []
        · subst ha; simp at e; rw [← e.1] at hz; rw [notop s (by simp [hs])] at hz; cases hz
        · exact s2 a w b e ha hl z hz
      · rename_i hs2
        split at h
        · rename_i hs
          obtain ⟨x, h1, h2⟩ := Except.map_eq_ok h
          cases h2
          obtain ⟨s1, s2⟩ := step _ _ _ h1 (fun _ => hs)
          refine ⟨s1, fun a w b e hp hl z hz => ?_⟩
          by_cases ha : a = []
          · subst ha; simp at e; rw [← e.1] at hz; rw [notop s (by simp [hs])] at hz; cases hz
          · exact s2 a w b e ha hl z hz
        · rename_i hs3
          dsimp only at h
          have head : ∀ z : Int, parseInt s = some z → prev ≠ .str c!"(" →
              (z.natAbs : Int) ∈ (if prev ≠ .str c!"(" ∧ s ≠ c!")" then
                (([.op .and, .str s], match parseInt s with | some z => [(z.natAbs : Int)] | none => []) : List Item × List Int)
              else ([.str s], [])).2 := by
            intro z hz hp
            have : s ≠ c!")" := by rintro rfl; rw [notop _ (by simp)] at hz; cases hz
            rw [if_pos ⟨hp, this⟩]; simp [hz]
          have sound : ∀ n ∈ (if prev ≠ .str c!"(" ∧ s ≠ c!")" then
                (([.op .and, .str s], match parseInt s with | some z => [(z.natAbs : Int)] | none => []) : List Item × List Int)
              else ([.str s], [])).2, ∃ w ∈ s :: rest, ∃ z : Int, parseInt w = some z ∧ n = z.natAbs := by
            intro n hn
            split at hn
            · dsimp only at hn
              split at hn
              · rename_i z hz
                rw [List.mem_singleton] at hn
                exact ⟨s, by simp, z, hz, hn⟩
              · simp at hn
            · simp at hn
          split at h
          · rename_i hr
            subst hr
            simp only [Except.ok.injEq] at h
            have h2 := congrArg Prod.snd h
            simp only at h2
            refine ⟨fun n hn => sound n (h2 ▸ hn), fun a w b e hp hl z hz => ?_⟩
            cases a with
            | nil =>
              simp at e
              rw [← e.1] at hz
              rw [← h2]; exact head z hz (hp rfl)
            | cons y a => simp at e
          · obtain ⟨x, h1, hx⟩ := Except.map_eq_ok h
            have h2 := congrArg Prod.snd hx
            simp only at h2
            obtain ⟨s1, s2⟩ := step _ x.1 x.2 h1 (by simp)
            refine ⟨fun n hn => ?_, fun a w b e hp hl z hz => ?_⟩
            · rw [← h2] at hn
              rcases List.mem_append.1 hn with hn | hn
              · exact sound n hn
              · exact s1 n hn
            · rw [← h2]
              by_cases ha : a = []
              · subst ha
                simp at e
                rw [← e.1] at hz
                exact List.mem_append_left _ (head z hz (hp rfl))
              · exact List.mem_append_right _ (s2 a w b e ha hl z hz)

/-- The text with blanks around parentheses and colons, cut at blanks, has the symbols of the text. -/
theorem split_expand_syms (s : Str) : ∀ acc : Str, (∀ c ∈ acc, c ≠ '(' ∧ c ≠ ')' ∧ c ≠ ':' ∧ isSpace c = false) →
    tokenSyms (splitGo acc (expandText s)) = lexGo acc s := by
  induction s with
  | nil =>
    intro acc hacc
    simp only [expandText, replaceChar, List.flatMap_nil, splitGo, lexGo, flush, endWord]
    split
    · rfl
    · rename_i hne
      have : tokenSym acc = wordSym acc := by
        unfold tokenSym
        rw [if_neg, if_neg, if_neg]
        · rintro rfl; exact (hacc ':' (by simp)).2.2.1 rfl
        · rintro rfl; exact (hacc ')' (by simp)).2.1 rfl
        · rintro rfl; exact (hacc '(' (by simp)).1 rfl
      simp [tokenSyms, this]
  | cons c s ih =>
    intro acc hacc
    have hflush : tokenSyms (flush acc) = endWord acc := by
      unfold flush endWord
      split
      · rfl
      · have : tokenSym acc = wordSym acc := by
          unfold tokenSym
          rw [if_neg, if_neg, if_neg]
          · rintro rfl; exact (hacc ':' (by simp)).2.2.1 rfl
          · rintro rfl; exact (hacc ')' (by simp)).2.1 rfl
          · rintro rfl; exact (hacc '(' (by simp)).1 rfl
        simp [tokenSyms, this]
    have happ : ∀ a b, tokenSyms (a ++ b) = tokenSyms a ++ tokenSyms b := fun a b => List.map_append
    have cons : expandText (c :: s) =
        (if c = '(' then c!" ( " else if c = ')' then c!" ) " else if c = ':' then c!" : " else if c = '+' then [] else [c]) ++
          expandText s := by
      by_cases h1 : c = '('
      · subst h1; simp [expandText, replaceChar]
      · by_cases h2 : c = ')'
        · subst h2; simp [expandText, replaceChar]
        · by_cases h3 : c = ':'
          · subst h3; simp [expandText, replaceChar]
          · by_cases h4 : c = '+'
            · subst h4; simp [expandText, replaceChar]
            · simp [expandText, replaceChar, h1, h2, h3, h4]
    rw [cons, lexGo]
    by_cases hsp : isSpace c = true
    · have e1 : c ≠ '(' := by rintro rfl; simp [isSpace] at hsp
      have e2 : c ≠ ')' := by rintro rfl; simp [isSpace] at hsp
      have e3 : c ≠ ':' := by rintro rfl; simp [isSpace] at hsp
      have e4 : c ≠ '+' := by rintro rfl; simp [isSpace] at hsp
      simp only [e1, e2, e3, e4, if_false, List.cons_append, List.nil_append, splitGo, hsp, if_true]
      rw [happ, hflush, ih [] (by simp)]
    · rw [if_neg hsp]
      have sym1 : ∀ d : Char, d = '(' ∨ d = ')' ∨ d = ':' → tokenSyms (splitGo acc ([' ', d, ' '] ++ expandText s)) =
          endWord acc ++ tokenSym [d] :: lexGo [] s := by
        intro d hd
        have hd' : isSpace d = false := by rcases hd with rfl | rfl | rfl <;> rfl
        have hs : isSpace ' ' = true := rfl
        simp only [List.cons_append, List.nil_append, splitGo, hs, if_true, hd', Bool.false_eq_true, if_false]
        rw [happ, hflush, happ, ih [] (by simp)]
        simp [flush, tokenSyms]
      by_cases h1 : c = '('
      · subst h1; simp only [if_true]; exact sym1 '(' (by simp)
      · rw [if_neg h1, if_neg h1]
        by_cases h2 : c = ')'
        · subst h2; simp only [if_true]; exact sym1 ')' (by simp)
        · rw [if_neg h2, if_neg h2]
          by_cases h3 : c = ':'
          · subst h3; simp only [if_true]; exact sym1 ':' (by simp)
          · rw [if_neg h3, if_neg h3]
            by_cases h4 : c = '+'
            · simp only [h4, if_true, List.nil_append]; exact ih acc hacc
            · rw [if_neg h4, if_neg h4]
              simp only [List.cons_append, List.nil_append, splitGo, hsp]
              exact ih _ (by
                intro d hd
                rcases List.mem_append.1 hd with hd | hd
                · exact hacc d hd
                · simp at hd; subst hd; exact ⟨h1, h2, h3, by simpa using hsp⟩)

end Csg
