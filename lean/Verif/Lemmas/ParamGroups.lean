import Verif.Lemmas.SplitParts
import Verif.Lemmas.McnpCell
import Verif.Spec.Parameters

/-!
# Parameters given by words
-/

namespace Csg

open Spec

theorem split_flatten (s : Str) : (split s).flatten = s.filter fun c => !isSpace c := by
  have key : ∀ (s acc : Str), (splitGo acc s).flatten = acc ++ s.filter fun c => !isSpace c := by
    intro s
    induction s with
    | nil => intro acc; unfold splitGo flush; cases acc <;> simp
    | cons c s ih =>
      intro acc
      unfold splitGo
      split
      · rename_i hc
        rw [List.flatten_append, ih, List.filter_cons_of_neg (by simp [hc])]
        unfold flush
        cases acc <;> simp
      · rename_i hc
        rw [ih, List.filter_cons_of_pos (by simpa using hc)]
        simp
  exact key s []

/-- The text without the blanks at its end. -/
theorem trim_right (s : Str) (h : ∃ c ∈ s, isSpace c = false) :
    ∃ a d sp, s = a ++ [d] ++ sp ∧ isSpace d = false ∧ (∀ c ∈ sp, isSpace c = true) ∧ split (a ++ [d]) = split s := by
  induction s using List.reverseRecOn with
  | nil => obtain ⟨c, hc, -⟩ := h; simp at hc
  | append_singleton s x ih =>
    by_cases hx : isSpace x = true
    · obtain ⟨a, d, sp, rfl, hd, hsp, hs⟩ := ih (by
        obtain ⟨c, hc, hf⟩ := h
        rcases List.mem_append.1 hc with hc | hc
        · exact ⟨c, hc, hf⟩
        · rw [List.mem_singleton] at hc
          subst hc
          rw [hx] at hf; cases hf)
      refine ⟨a, d, sp ++ [x], by simp, hd, ?_, ?_⟩
      · intro c hc
        rcases List.mem_append.1 hc with hc | hc
        · exact hsp c hc
        · rw [List.mem_singleton] at hc; subst hc; exact hx
      · rw [hs, split_append_spaces _ [x] (by simp [hx])]
    · exact ⟨s, x, [], by simp, by simpa using hx, by simp, by simp⟩

/-- A text of one word with nothing around it. -/
theorem single_word {a w : Str} (h : split a = [w]) (h1 : ∃ c t, a = c :: t ∧ isSpace c = false) (h2 : ∃ t d, a = t ++ [d] ∧ isSpace d = false) : a = w := by
  obtain ⟨x, b, e, hx, hb, hs⟩ := split_cons_parts h
  have hx0 : x = [] := by
    cases x with
    | nil => rfl
    | cons y x =>
      obtain ⟨c, t, e1, hc⟩ := h1
      rw [e1] at e
      simp only [List.cons_append] at e
      obtain ⟨rfl, -⟩ := List.cons.inj e
      rw [hx c (by simp)] at hc; cases hc
  have hb0 : b = [] := by
    rcases List.eq_nil_or_concat b with h | ⟨t', d', rfl⟩
    · exact h
    · obtain ⟨t, d, e1, hd⟩ := h2
      rw [e1] at e
      have : d = d' := by
        have := congrArg List.getLast? e
        simpa [List.getLast?_append] using this
      subst this
      obtain ⟨w', hw', -⟩ := split_mem (t'.concat d) d hd (by simp)
      rw [hs] at hw'; cases hw'
  rw [e, hx0, hb0]; simp

/-- Words that are a parameter with the property `P` whenever they stand in a text, with nothing before and after. -/
structure ParamGroup where
  kind : Nat
  means : Param → Prop
  words : List Str

/-- Any text with the words of the group is such a parameter. -/
structure ParamGroup.Ok (G : ParamGroup) : Prop where
  kind : ∀ p, G.means p → p.kind = G.kind
  ne_nil : G.words ≠ []
  reads : ∀ a, split a = G.words → (∃ c t, a = c :: t ∧ isSpace c = false) → (∃ t d, a = t ++ [d] ∧ isSpace d = false) → ∃ p, G.means p ∧ ParamText p a

theorem paramGroups (Gs : List ParamGroup) (hok : ∀ G ∈ Gs, G.Ok) (hne : Gs ≠ []) : ∀ T : Str, split T = Gs.flatMap (·.words) → (∃ c t, T = c :: t ∧ isSpace c = false) →
    ∃ l : List (Param × Str × Str), paramListText l = T ∧ List.Forall₂ (fun e G => ParamGroup.means G e.1) l Gs ∧
      (∀ e ∈ l, ParamText e.1 e.2.1 ∧ ∀ c ∈ e.2.2, isSpace c = true) ∧ ∀ e ∈ l.dropLast, e.2.2 ≠ [] := by
  induction Gs with
  | nil => exact absurd rfl hne
  | cons G Gs ih =>
    intro T hT h1
    have hG := hok G (by simp)
    cases Gs with
    | nil =>
      obtain ⟨c0, t0, e0, hc0⟩ := h1
      obtain ⟨a, d, sp, rfl, hd, hsp, hs⟩ := trim_right T ⟨c0, by rw [e0]; simp, hc0⟩
      obtain ⟨p, hp, ht⟩ := hG.reads (a ++ [d]) (by rw [hs, hT]; simp) (by
        cases a with
        | nil => exact ⟨d, [], rfl, hd⟩
        | cons x a =>
          simp only [List.cons_append] at e0
          obtain ⟨rfl, -⟩ := List.cons.inj e0
          exact ⟨_, _, rfl, hc0⟩) ⟨a, d, rfl, hd⟩
      exact ⟨[(p, a ++ [d], sp)], by simp [paramListText], .cons hp .nil, by
        intro e he; rw [List.mem_singleton] at he; subst he; exact ⟨ht, hsp⟩, by simp⟩
    | cons G' Gs =>
      obtain ⟨a, b, rfl, ha, hb, hb0, hsp0⟩ := split_append_parts (show split T = G.words ++ (G' :: Gs).flatMap (·.words) by rw [hT]; rfl) (by
        rw [List.flatMap_cons]
        intro h
        exact (hok G' (by simp)).ne_nil (List.append_eq_nil_iff.1 h).1)
      obtain ⟨l, hl, hf, ht, hap⟩ := ih (fun X hX => hok X (List.mem_cons_of_mem _ hX)) (by simp) b hb hb0
      obtain ⟨a', x, rfl, hx⟩ := hsp0 hG.ne_nil
      obtain ⟨w, ws, hw⟩ := List.exists_cons_of_ne_nil hG.ne_nil
      have hex : ∃ c ∈ a' ++ [x], isSpace c = false := by
        have := split_words (a' ++ [x]) w (by rw [ha, hw]; simp)
        obtain ⟨c, t, hc⟩ := List.exists_cons_of_ne_nil this.1
        exact ⟨c, mem_of_mem_split (w := w) (by rw [ha, hw]; simp) (by simp [hc]), this.2 c (by simp [hc])⟩
      obtain ⟨q, d, sp, e, hd, hsp, hs⟩ := trim_right (a' ++ [x]) hex
      have hspne : sp ≠ [] := by
        rintro rfl
        have := congrArg List.getLast? e
        simp at this
        subst this
        rw [hx] at hd; cases hd
      obtain ⟨c0, t0, e0, hc0⟩ := h1
      obtain ⟨p, hp, hpt⟩ := hG.reads (q ++ [d]) (by rw [hs, ha]) (by
        rw [e] at e0
        cases q with
        | nil => exact ⟨d, [], rfl, hd⟩
        | cons y q =>
          simp only [List.cons_append] at e0
          obtain ⟨rfl, -⟩ := List.cons.inj e0
          exact ⟨_, _, rfl, hc0⟩) ⟨q, d, rfl, hd⟩
      refine ⟨(p, q ++ [d], sp) :: l, ?_, .cons hp hf, ?_, ?_⟩
      · rw [e, ← hl]
        simp [paramListText]
      · intro e' he'
        rcases List.mem_cons.1 he' with rfl | he'
        · exact ⟨hpt, hsp⟩
        · exact ht e' he'
      · have hlne : l ≠ [] := by rintro rfl; cases hf
        rw [List.dropLast_cons_of_ne_nil hlne]
        intro e' he'
        rcases List.mem_cons.1 he' with rfl | he'
        · exact hspne
        · exact hap e' he'

end Csg
