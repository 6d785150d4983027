import Verif.Lemmas.Lines
import Verif.Lemmas.McnpFile
import Verif.Spec.PhitsFile

/-!
# Lemmas about the reading of a PHITS file
-/

namespace Csg

open Spec

theorem phitsTitle_none {l : Str} (h : '[' ∉ l) : phitsTitle l = none := by
  unfold phitsTitle
  split
  · rename_i r e
    exact absurd (List.mem_of_mem_filter (e ▸ List.mem_cons_self : '[' ∈ l.filter fun c => !isSpace c)) h
  · rfl

theorem phitsWords_quiet {l : Str} (h : PhitsQuiet l) : phitsWords l = split l := by
  unfold phitsWords
  have : l.takeWhile (fun c => !(['$', '!', '%'].contains c)) = l := by
    have key : ∀ l : Str, (∀ c ∈ l, c ∉ ['[', '$', '!', '%']) → l.takeWhile (fun c => !(['$', '!', '%'].contains c)) = l := by
      intro l
      induction l with
      | nil => intro _; rfl
      | cons c l ih =>
        intro h
        have h1 := h c (by simp)
        rw [List.takeWhile_cons, if_pos, ih fun c hc => h c (List.mem_cons_of_mem _ hc)]
        simp at h1 ⊢
        exact h1.2
    exact key l h
  rw [this]

theorem PhitsQuiet.title {l : Str} (h : PhitsQuiet l) : phitsTitle l = none := phitsTitle_none fun hh => h _ hh (by simp)

/-- The lines of a card with these words. -/
structure IsPhitsCard (g : List Str) (ws : List Str) : Prop where
  complete : ∀ l ∈ g, ∃ t, '\n' ∉ t ∧ l = t ++ ['\n']
  title : ∀ l ∈ g, phitsTitle l = none
  read : ∀ rest, (phitsCards rest).1 = [] → phitsCards (g ++ rest) = ([], ws :: (phitsCards rest).2)

theorem phitsCards_continued : ∀ (ls : List Str) (rest : List Str), (∀ l ∈ ls, PhitsQuiet l ∧ l.take 5 = c!"     ") →
    phitsCards (ls ++ rest) = (ls.flatMap split ++ (phitsCards rest).1, (phitsCards rest).2) := by
  intro ls
  induction ls with
  | nil => intro rest _; rfl
  | cons l ls ih =>
    intro rest h
    obtain ⟨h1, h2⟩ := h l (by simp)
    have := ih rest fun l hl => h l (List.mem_cons_of_mem _ hl)
    rw [List.cons_append, phitsCards, phitsWords_quiet h1, this, if_pos h2]
    by_cases he : split l = []
    · rw [if_pos he, List.flatMap_cons, he]; rfl
    · rw [if_neg he, List.flatMap_cons, List.append_assoc]

theorem split_lines : ∀ (ls : List Str), (∀ l ∈ ls, ∃ t, l = t ++ ['\n']) → split ls.flatten = ls.flatMap split := by
  intro ls
  induction ls with
  | nil => intro _; rfl
  | cons l ls ih =>
    intro h
    obtain ⟨t, rfl⟩ := h l (by simp)
    rw [List.flatten_cons, List.flatMap_cons, List.append_assoc, List.singleton_append, split_append_space _ _ '\n' (by decide),
      ih fun l hl => h l (List.mem_cons_of_mem _ hl), split_append_space t [] '\n' (by decide), split_nil, List.append_nil]

theorem isPhitsCard_of {first : Str} {more : List Str} (hc : ∀ l ∈ first :: more, ∃ t, '\n' ∉ t ∧ l = t ++ ['\n']) (hq : ∀ l ∈ first :: more, PhitsQuiet l)
    (hm : ∀ l ∈ more, l.take 5 = c!"     ") {ch : Char} {t : Str} (hf : first = ch :: t) (hs : isSpace ch = false) (hn : ch ≠ 'c' ∧ ch ≠ 'C') :
    IsPhitsCard (first :: more) (split (first :: more).flatten) := by
  refine ⟨hc, fun l hl => PhitsQuiet.title (hq l hl), fun rest hr => ?_⟩
  have hw := phitsWords_quiet (hq first (by simp))
  rw [List.cons_append, phitsCards, phitsCards_continued more rest (fun l hl => ⟨hq l (List.mem_cons_of_mem _ hl), hm l hl⟩), hw, hr, List.append_nil]
  have hmem : ∃ w ∈ split first, ch ∈ w := split_mem first ch hs (by rw [hf]; simp)
  have hne : split first ≠ [] := by
    obtain ⟨w, hw, -⟩ := hmem
    intro e
    rw [e] at hw
    cases hw
  rw [if_neg hne, if_neg, if_neg, split_lines _ (fun l hl => (hc l hl).imp fun _ h => h.2), List.flatMap_cons]
  · obtain ⟨w, ws, e⟩ := List.exists_cons_of_ne_nil hne
    obtain ⟨x, y, e', hx, -, -⟩ := split_cons_parts e
    have hx0 : x = [] := by
      cases x with
      | nil => rfl
      | cons z x =>
        rw [hf] at e'
        have : ch = z := (List.cons.inj e').1
        have := hx z (by simp)
        rw [← ‹ch = z›, hs] at this
        cases this
    rw [e, List.head?_cons, Option.some.injEq, Option.some.injEq]
    rw [hx0, hf, List.nil_append] at e'
    rintro (rfl | rfl)
    · exact hn.1 (List.cons.inj e').1
    · exact hn.2 (List.cons.inj e').1
  · rw [hf]
    intro h
    have : ch = ' ' := by simpa using congrArg List.head? h
    rw [this] at hs
    exact absurd hs (by decide)

theorem physical_phits {l : Str} {ls : List Str} {ch : Char} {t : Str} (hl : l = ch :: t) (hs : isSpace ch = false) (hc : ch ≠ 'c' ∧ ch ≠ 'C')
    (h : ∀ l' ∈ l :: ls, '\n' ∉ l' ∧ ∃ ch ∈ l', isSpace ch = false) (hd : ∀ w ∈ split (physical (l :: ls)).flatten, PhitsQuiet w) :
    IsPhitsCard (physical (l :: ls)) (split (physical (l :: ls)).flatten) := by
  have hq : PhitsQuiet (physical (l :: ls)).flatten := by
    intro c hc hm
    have : isSpace c = false := by
      simp only [List.mem_cons, List.not_mem_nil, or_false] at hm
      rcases hm with rfl | rfl | rfl | rfl <;> decide
    obtain ⟨w, hw, hcw⟩ := split_mem _ c this hc
    exact hd w hw c hcw hm
  refine isPhitsCard_of (ch := ch) (t := t ++ c!"\n") ?_ ?_ ?_ (by rw [hl]; rfl) hs hc
  · intro x hx
    rcases List.mem_cons.1 hx with rfl | hx
    · exact ⟨l, (h l (by simp)).1, rfl⟩
    · obtain ⟨y, hy, rfl⟩ := List.mem_map.1 hx
      exact ⟨c!"     " ++ y, by simp [(h y (List.mem_cons_of_mem _ hy)).1], rfl⟩
  · intro x hx c hc
    exact hq c (List.mem_flatten.2 ⟨x, hx, hc⟩)
  · intro x hx
    obtain ⟨y, hy, rfl⟩ := List.mem_map.1 hx
    rfl

/-- All cards of a section, which is ended by a blank line. -/
theorem phitsCards_cards {gs : List (List Str)} {wss : List (List Str)} (h : List.Forall₂ IsPhitsCard gs wss) : phitsCards (gs.flatten ++ [c!"\n"]) = ([], wss) := by
  induction h with
  | nil => decide
  | @cons g ws gs wss hg _ ih =>
    rw [List.flatten_cons, List.append_assoc, hg.read _ (by rw [ih]), ih]

theorem phitsSections_lines : ∀ (ls rest : List Str), (∀ l ∈ ls, phitsTitle l = none) → phitsSections (ls ++ rest) = (ls ++ (phitsSections rest).1, (phitsSections rest).2) := by
  intro ls
  induction ls with
  | nil => intro rest _; rfl
  | cons l ls ih =>
    intro rest h
    rw [List.cons_append, phitsSections, h l (by simp), ih rest fun l hl => h l (List.mem_cons_of_mem _ hl)]
    rfl

theorem phitsSections_title {l n : Str} (h : phitsTitle l = some n) (rest : List Str) : phitsSections (l :: rest) = ([], (n, (phitsSections rest).1) :: (phitsSections rest).2) := by
  rw [phitsSections, h]

end Csg
