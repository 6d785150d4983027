import Verif.Lemmas.McnpCell
import Verif.Spec.SerpentFile

/-!
# Lemmas about the text of output files
-/

namespace Csg

open Spec

/-- A text whose last line is complete. -/
def Complete (s : Str) : Prop := s = [] ∨ ∃ t, s = t ++ c!"\n"

theorem complete_line (t : Str) : Complete (t ++ c!"\n") := .inr ⟨t, rfl⟩

theorem complete_nil : Complete [] := .inl rfl

theorem complete_append {a b : Str} (ha : Complete a) (hb : Complete b) : Complete (a ++ b) := by
  rcases hb with rfl | ⟨t, rfl⟩
  · simpa using ha
  · exact .inr ⟨a ++ t, by simp⟩

theorem complete_flatten {ls : List Str} (h : ∀ l ∈ ls, Complete l) : Complete ls.flatten := by
  induction ls with
  | nil => exact complete_nil
  | cons l ls ih =>
    rw [List.flatten_cons]
    exact complete_append (h l (by simp)) (ih fun l' hl => h l' (by simp [hl]))

theorem split_complete {a : Str} (h : Complete a) (b : Str) : split (a ++ b) = split a ++ split b := by
  rcases h with rfl | ⟨t, rfl⟩
  · rfl
  · rw [List.append_assoc, List.singleton_append, split_append_space _ _ _ (by decide), split_append_spaces _ _ (by decide)]

theorem split_flatten_complete {ls : List Str} (h : ∀ l ∈ ls, Complete l) : split ls.flatten = ls.flatMap split := by
  induction ls with
  | nil => rfl
  | cons l ls ih => rw [List.flatten_cons, split_complete (h l (by simp)), ih fun l' hl => h l' (by simp [hl]), List.flatMap_cons]

/-- The formatter leaves the last line complete. -/
theorem lineFormatter_complete {fuel : Nat} {t out : Str} (h : lineFormatter fuel (t ++ c!"\n") = some out) (hn : ∃ c ∈ t, isSpace c = false) : ∃ b, out = b ++ c!"\n" := by
  have key : ∀ (fuel : Nat) (new tmp out : Str), isspace tmp = false → (∃ b, tmp = b ++ c!"\n") → fmtLoop fuel new tmp = some out → ∃ b, out = b ++ c!"\n" := by
    intro fuel
    induction fuel with
    | zero => intro new tmp out _ _ h; cases h
    | succ fuel ih =>
      intro new tmp out hs hb h
      obtain ⟨b, hb⟩ := hb
      unfold fmtLoop at h
      split at h
      · rw [if_neg (by simp [hs])] at h
        cases h
        exact ⟨new ++ b, by rw [hb]; simp⟩
      · rename_i hl
        simp only at h
        split at h
        · cases h
          exact ⟨_, rfl⟩
        · rename_i hs'
          refine ih _ _ _ (by simpa using hs') ?_ h
          have hsuf : ∃ p, tmp = p ++ sliceFrom tmp (rfindChar ' ' (tmp.take 72)) := by
            unfold sliceFrom
            split <;> exact ⟨_, (List.take_append_drop _ _).symm⟩
          obtain ⟨p, hp⟩ := hsuf
          have hne : sliceFrom tmp (rfindChar ' ' (tmp.take 72)) ≠ [] := by
            intro e
            have h1 : rfindChar ' ' (tmp.take 72) < (tmp.length : Int) := by
              have : ∀ s : Str, s ≠ [] → rfindChar ' ' s < (s.length : Int) := by
                intro s
                induction s with
                | nil => intro h; exact absurd rfl h
                | cons c s ih =>
                  intro _
                  unfold rfindChar
                  simp only
                  split
                  · cases s with
                    | nil => simp [rfindChar]
                    | cons d s => have := ih (by simp); simp at this ⊢; omega
                  · split <;> simp <;> omega
              have h2 := this (tmp.take 72) (by intro e'; have := congrArg List.length e'; rw [List.length_take] at this; simp only [List.length_nil] at this; omega)
              have : (tmp.take 72).length ≤ tmp.length := by simp
              omega
            unfold sliceFrom at e
            split at e
            · rename_i n hn
              rw [hn] at h1
              rw [List.drop_eq_nil_iff] at e
              simp at h1
              omega
            · rw [List.drop_eq_nil_iff] at e
              omega
          have hl := congrArg List.getLast? hp
          rw [hb] at hl
          have hl' : (sliceFrom tmp (rfindChar ' ' (tmp.take 72))).getLast? = some '\n' := by
            rw [← hb] at hl
            rw [hb, List.getLast?_append] at hl
            rw [List.getLast?_append] at hl
            cases hx : (sliceFrom tmp (rfindChar ' ' (tmp.take 72))).getLast? with
            | none => exact absurd (List.getLast?_eq_none_iff.1 hx) hne
            | some x =>
              rw [← hb, hx] at hl
              simpa using hl.symm
          obtain ⟨ys, hys⟩ := List.getLast?_eq_some_iff.1 hl'
          exact ⟨ys, hys⟩
  unfold lineFormatter at h
  split at h
  · cases h; exact ⟨t, rfl⟩
  · refine key fuel [] _ _ ?_ ⟨t, rfl⟩ h
    obtain ⟨c, hc, hsp⟩ := hn
    by_contra hh
    have : isspace (t ++ c!"\n") = true := by simpa using hh
    unfold isspace at this
    simp only [Bool.and_eq_true, List.all_eq_true] at this
    have := this.2 c (by simp [hc])
    rw [hsp] at this
    cases this

theorem forall₂_exists {α β : Type} {R : α → β → Prop} {l : List α} (h : ∀ a ∈ l, ∃ b, R a b) : ∃ r, List.Forall₂ R l r := by
  induction l with
  | nil => exact ⟨[], .nil⟩
  | cons a l ih =>
    obtain ⟨b, hb⟩ := h a (by simp)
    obtain ⟨r, hr⟩ := ih fun a' ha => h a' (by simp [ha])
    exact ⟨b :: r, .cons hb hr⟩

theorem forall₂_eventually {α β : Type} {R : Nat → α → β → Prop} {l : List α} {r : List β} (h : List.Forall₂ (fun a b => ∃ n₀, ∀ n ≥ n₀, R n a b) l r) :
    ∃ n₀, ∀ n ≥ n₀, List.Forall₂ (R n) l r := by
  induction h with
  | nil => exact ⟨0, fun _ _ => .nil⟩
  | cons h _ ih =>
    obtain ⟨a, ha⟩ := h
    obtain ⟨b, hb⟩ := ih
    exact ⟨max a b, fun n hn => .cons (ha n (le_trans (le_max_left _ _) hn)) (hb n (le_trans (le_max_right _ _) hn))⟩

/-! ## Comments -/

theorem uncomment_plain {mark : Char} {a : Str} (h : mark ∉ a) (b : Str) : uncomment mark false (a ++ b) = a ++ uncomment mark false b := by
  induction a with
  | nil => rfl
  | cons c a ih =>
    rw [List.cons_append, uncomment, if_neg (fun e => h (by simp [e])), ih (fun hm => h (by simp [hm])), List.cons_append]

theorem uncomment_inside {mark : Char} {a : Str} (h : '\n' ∉ a) (b : Str) : uncomment mark true (a ++ '\n' :: b) = '\n' :: uncomment mark false b := by
  induction a with
  | nil => simp [uncomment]
  | cons c a ih =>
    rw [List.cons_append, uncomment, if_neg (fun e => h (by simp [e])), ih (fun hm => h (by simp [hm]))]

theorem uncomment_line {mark : Char} {a : Str} (h : '\n' ∉ a) (b : Str) : uncomment mark false (mark :: a ++ '\n' :: b) = '\n' :: uncomment mark false b := by
  rw [List.cons_append, uncomment, if_pos rfl, uncomment_inside h]

/-! ## Cards -/

theorem cutCards_words {key : Str → Bool} {c : List Str} (h : ∀ w ∈ c, key w = false) (ws : List Str) : cutCards key (c ++ ws) = (c ++ (cutCards key ws).1, (cutCards key ws).2) := by
  induction c with
  | nil => rfl
  | cons w c ih =>
    rw [List.cons_append, cutCards, if_neg (by simp [h w]), ih fun w' hw' => h w' (by simp [hw'])]
    rfl

/-- A card: a name and words that are not names of cards. -/
def IsCard (key : Str → Bool) (c : List Str) : Prop := ∃ n ws, c = n :: ws ∧ key n = true ∧ ∀ w ∈ ws, key w = false

theorem cutCards_flatten {key : Str → Bool} {cs : List (List Str)} (h : ∀ c ∈ cs, IsCard key c) : cutCards key cs.flatten = ([], cs) := by
  induction cs with
  | nil => rfl
  | cons c cs ih =>
    obtain ⟨n, ws, rfl, hn, hw⟩ := h c (by simp)
    rw [List.flatten_cons, List.cons_append, cutCards, if_pos hn, cutCards_words hw, ih fun c' hc => h c' (by simp [hc])]
    simp

end Csg
