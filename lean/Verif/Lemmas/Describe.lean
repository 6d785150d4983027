import Verif.Lemmas.Faces
import Mathlib.Data.List.Induction

/-!
# The descriptions of a macrobody as region expressions
-/

set_option linter.unusedSectionVars false

namespace Csg

open Spec

/-- Characters without a special meaning in geometry text. -/
def PlainWord (w : Str) : Prop := ∀ c ∈ w, isSpace c = false ∧ c ≠ '(' ∧ c ≠ ')' ∧ c ≠ ':' ∧ c ≠ '+'

theorem lexGo_plain (w : Str) (hw : PlainWord w) : ∀ acc rest, lexGo acc (w ++ rest) = lexGo (acc ++ w) rest := by
  induction w with
  | nil => intro acc rest; simp
  | cons c w ih =>
    intro acc rest
    obtain ⟨h1, h2, h3, h4, h5⟩ := hw c (by simp)
    simp only [List.cons_append, lexGo, h1, h2, h3, h4, h5, if_false, Bool.false_eq_true]
    rw [ih fun d hd => hw d (List.mem_cons_of_mem _ hd)]
    simp

theorem intStr_plain (z : Int) : PlainWord (intStr z) := by
  intro c hc
  have h := intStr_chars z c hc
  have hs := intStr_noSpace z c hc
  refine ⟨hs, ?_, ?_, ?_, ?_⟩ <;> rintro rfl <;> rcases h with h | h <;> revert h <;> decide

theorem plain_minus {w : Str} (h : PlainWord w) : PlainWord ('-' :: w) := by
  intro c hc
  rcases List.mem_cons.1 hc with rfl | hc
  · decide
  · exact h c hc

theorem endWord_nil : endWord [] = [] := rfl

theorem endWord_intStr (z : Int) : endWord (intStr z) = [.atom (intStr z)] := by
  unfold endWord
  rw [if_neg (intStr_ne_nil z)]
  unfold wordSym
  rw [if_neg]
  intro h
  exact intStr_not_mem z (c := '#') (by decide) (by decide) (by rw [h]; simp)

theorem endWord_minus (w : Str) : endWord ('-' :: w) = [.atom ('-' :: w)] := by
  unfold endWord wordSym
  rw [if_neg (by simp), if_neg (by simp)]

theorem lexGo_inside (close : Str) (hc : close = c!" )" ∨ close = c!")") (ids : List Int) : ∀ acc,
    lexGo acc ((ids.flatMap fun i => c!" -" ++ intStr i) ++ close) =
      endWord acc ++ (ids.map fun i => Sym.atom ('-' :: intStr i)) ++ [.rp] := by
  induction ids with
  | nil => intro acc; rcases hc with rfl | rfl <;> simp [lexGo, isSpace, endWord_nil]
  | cons i ids ih =>
    intro acc
    have e : (((i :: ids).flatMap fun i => c!" -" ++ intStr i) ++ close) =
        ' ' :: (('-' :: intStr i) ++ ((ids.flatMap fun i => c!" -" ++ intStr i) ++ close)) := by simp
    rw [e]
    rw [show lexGo acc (' ' :: (('-' :: intStr i) ++ ((ids.flatMap fun i => c!" -" ++ intStr i) ++ close))) =
      endWord acc ++ lexGo [] (('-' :: intStr i) ++ ((ids.flatMap fun i => c!" -" ++ intStr i) ++ close)) from rfl]
    rw [lexGo_plain _ (plain_minus (intStr_plain i)), ih, List.nil_append, endWord_minus]
    simp

theorem lex_inside (close : Str) (hc : close = c!" )" ∨ close = c!")") (ids : List Int) :
    lexGeometry (insideText close ids) = .lp :: ((ids.map fun i => Sym.atom ('-' :: intStr i)) ++ [.rp]) := by
  unfold lexGeometry insideText
  rw [List.append_assoc]
  rw [show lexGo [] (c!"(" ++ ((ids.flatMap fun i => c!" -" ++ intStr i) ++ close)) =
    .lp :: lexGo [] ((ids.flatMap fun i => c!" -" ++ intStr i) ++ close) from rfl, lexGo_inside close hc]
  simp [endWord_nil]

/-- Atoms with union signs between them. -/
def unionSyms {A : Type} : List A → List (Sym A)
  | [] => []
  | [a] => [.atom a]
  | a :: as => .atom a :: .un :: unionSyms as

theorem lexGo_outside (sep : Str) (hs : sep = c!" : " ∨ sep = c!":") (ids : List Int) (hne : ids ≠ []) :
    lexGo [] (join sep (ids.map intStr) ++ c!")") = unionSyms (ids.map intStr) ++ [.rp] := by
  induction ids with
  | nil => exact absurd rfl hne
  | cons i ids ih =>
    cases ids with
    | nil =>
      simp only [List.map_cons, List.map_nil, join, unionSyms]
      rw [lexGo_plain _ (intStr_plain i)]
      simp [lexGo, isSpace, endWord_intStr, endWord_nil]
    | cons j ids =>
      have hj := ih (by simp)
      have e : join sep ((i :: j :: ids).map intStr) = intStr i ++ (sep ++ join sep ((j :: ids).map intStr)) := by
        simp [join]
      rw [e, List.append_assoc, lexGo_plain _ (intStr_plain i), List.nil_append]
      have e2 : unionSyms ((i :: j :: ids).map intStr) = .atom (intStr i) :: .un :: unionSyms ((j :: ids).map intStr) := rfl
      rw [e2, List.cons_append, List.cons_append, ← hj]
      rcases hs with rfl | rfl
      · simp [lexGo, isSpace, endWord_intStr, endWord_nil]
      · simp [lexGo, isSpace, endWord_intStr]

theorem lex_outside (opening sep : Str) (ho : opening = c!"( " ∨ opening = c!"(") (hs : sep = c!" : " ∨ sep = c!":") (ids : List Int)
    (hne : ids ≠ []) : lexGeometry (outsideText opening sep ids) = .lp :: (unionSyms (ids.map intStr) ++ [.rp]) := by
  unfold lexGeometry outsideText
  rw [List.append_assoc, ← lexGo_outside sep hs ids hne]
  rcases ho with rfl | rfl <;> simp [lexGo, isSpace, endWord_nil]

/-- Juxtaposed atoms are an intersection. -/
theorem derives_atoms {A : Type} (as : List A) (hne : as ≠ []) :
    ∃ r : Reg A, Derives .term (as.map .atom) r ∧ ∀ σ, r.holds σ ↔ ∀ a ∈ as, σ a := by
  induction as using List.reverseRecOn with
  | nil => exact absurd rfl hne
  | append_singleton as a ih =>
    by_cases h : as = []
    · subst h
      exact ⟨.atom a, .single (.atom a), fun σ => by simp [Reg.holds]⟩
    · obtain ⟨r, h1, h2⟩ := ih h
      refine ⟨.inter r (.atom a), ?_, fun σ => ?_⟩
      · rw [List.map_append]
        exact .inter h1 (.atom a)
      · simp only [Reg.holds, h2, List.mem_append, List.mem_singleton]
        constructor
        · rintro ⟨h1, h2⟩ b (hb | rfl)
          · exact h1 b hb
          · exact h2
        · exact fun h => ⟨fun b hb => h b (Or.inl hb), h a (Or.inr rfl)⟩

theorem unionSyms_append {A : Type} (as : List A) (h : as ≠ []) (a : A) : unionSyms (as ++ [a]) = unionSyms as ++ .un :: [.atom a] := by
  induction as with
  | nil => exact absurd rfl h
  | cons b as ih =>
    cases as with
    | nil => rfl
    | cons c as =>
      have := ih (by simp)
      simp only [List.cons_append, unionSyms] at this ⊢
      rw [this]

theorem derives_union {A : Type} (as : List A) (hne : as ≠ []) :
    ∃ r : Reg A, Derives .expr (unionSyms as) r ∧ ∀ σ, r.holds σ ↔ ∃ a ∈ as, σ a := by
  induction as using List.reverseRecOn with
  | nil => exact absurd rfl hne
  | append_singleton as a ih =>
    by_cases h : as = []
    · subst h
      exact ⟨.atom a, .one (.single (.atom a)), fun σ => by simp [Reg.holds]⟩
    · obtain ⟨r, h1, h2⟩ := ih h
      refine ⟨.union r (.atom a), ?_, fun σ => ?_⟩
      · rw [unionSyms_append as h a]
        exact .union h1 (.single (.atom a))
      · simp only [Reg.holds, h2, List.mem_append, List.mem_singleton]
        constructor
        · rintro (⟨b, h1, h2⟩ | h)
          · exact ⟨b, Or.inl h1, h2⟩
          · exact ⟨a, Or.inr rfl, h⟩
        · rintro ⟨b, h1 | rfl, h2⟩
          · exact Or.inl ⟨b, h1, h2⟩
          · exact Or.inr h2

/-- The inside description is a factor that says "negative side of all". -/
theorem inside_factor (close : Str) (hc : close = c!" )" ∨ close = c!")") (ids : List Int) (hne : ids ≠ []) :
    ∃ r, Derives .factor (lexGeometry (insideText close ids)) r ∧ ∀ σ, r.holds σ ↔ ∀ i ∈ ids, σ ('-' :: intStr i) := by
  obtain ⟨r, h1, h2⟩ := derives_atoms (ids.map fun i => '-' :: intStr i) (by simpa using hne)
  refine ⟨r, ?_, fun σ => ?_⟩
  · rw [lex_inside close hc]
    rw [List.map_map] at h1
    exact .paren (.one h1)
  · rw [h2]; simp

/-- The outside description is a factor that says "positive side of one". -/
theorem outside_factor (opening sep : Str) (ho : opening = c!"( " ∨ opening = c!"(") (hs : sep = c!" : " ∨ sep = c!":") (ids : List Int)
    (hne : ids ≠ []) : ∃ r, Derives .factor (lexGeometry (outsideText opening sep ids)) r ∧ ∀ σ, r.holds σ ↔ ∃ i ∈ ids, σ (intStr i) := by
  obtain ⟨r, h1, h2⟩ := derives_union (ids.map intStr) (by simpa using hne)
  refine ⟨r, ?_, fun σ => ?_⟩
  · rw [lex_outside opening sep ho hs ids hne]
    exact .paren h1
  · rw [h2]; simp

end Csg
