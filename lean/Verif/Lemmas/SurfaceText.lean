import Verif.Model.SurfaceWriters
import Verif.Spec.SurfaceCodes
import Verif.Lemmas.Num
import Verif.Lemmas.Words

/-!
# The words of written surfaces
-/

namespace Csg

open Spec

theorem Spec.Prints.noSpace {K : Type} {read : Str → Option K} {print : K → Str} {x : K} (h : Prints read print x) : NoSpace (print x) := by
  intro c hc
  rcases h.chars c hc with h | rfl | rfl | rfl | rfl
  · exact isSpace_of_isDigit h
  all_goals decide

theorem split_head {w t : Str} (hne : w ≠ []) (hw : NoSpace w) : split (w ++ ' ' :: t) = w :: split t := split_word_space w t ' ' (by decide) hw hne

theorem split_lead (t : Str) : split (' ' :: t) = split t := split_space_cons ' ' t (by decide)

theorem split_newline {w : Str} (hne : w ≠ []) (hw : NoSpace w) : split (w ++ c!"\n") = [w] := by
  rw [split_word_space w [] '\n' (by decide) hw hne]; rfl

/-- Words joined by blanks. -/
theorem split_joined (ws : List Str) (h : ∀ w ∈ ws, w ≠ [] ∧ NoSpace w) : split (join c!" " ws ++ c!"\n") = ws := by
  induction ws with
  | nil => rfl
  | cons w ws ih =>
    have hw := h w (by simp)
    cases ws with
    | nil => exact split_newline hw.1 hw.2
    | cons v ws =>
      show split ((w ++ c!" " ++ join c!" " (v :: ws)) ++ c!"\n") = _
      rw [List.append_assoc, List.append_assoc]
      show split (w ++ ' ' :: (join c!" " (v :: ws) ++ c!"\n")) = _
      rw [split_head hw.1 hw.2, ih fun x hx => h x (List.mem_cons_of_mem _ hx)]

/-- Words each followed by a blank. -/
theorem split_trailing {α : Type} (f : α → Str) (xs : List α) (h : ∀ x ∈ xs, f x ≠ [] ∧ NoSpace (f x)) :
    split (xs.flatMap (fun x => f x ++ c!" ") ++ c!"\n") = xs.map f := by
  induction xs with
  | nil => rfl
  | cons x xs ih =>
    have hx := h x (by simp)
    rw [List.flatMap_cons, List.append_assoc, List.append_assoc]
    show split (f x ++ ' ' :: (xs.flatMap (fun x => f x ++ c!" ") ++ c!"\n")) = _
    rw [split_head hx.1 hx.2, ih fun y hy => h y (List.mem_cons_of_mem _ hy)]; rfl

/-- Words between two blanks each. -/
theorem split_spaced {α : Type} (f : α → Str) (xs : List α) (h : ∀ x ∈ xs, f x ≠ [] ∧ NoSpace (f x)) :
    split (xs.flatMap (fun x => c!" " ++ f x ++ c!" ") ++ c!"\n") = xs.map f := by
  induction xs with
  | nil => rfl
  | cons x xs ih =>
    have hx := h x (by simp)
    rw [List.flatMap_cons, List.append_assoc, List.append_assoc, List.append_assoc]
    show split (' ' :: (f x ++ ' ' :: (xs.flatMap (fun x => c!" " ++ f x ++ c!" ") ++ c!"\n"))) = _
    rw [split_lead, split_head hx.1 hx.2, ih fun y hy => h y (List.mem_cons_of_mem _ hy)]; rfl

/-- Words each after a blank. -/
theorem split_leading {α : Type} (f : α → Str) (xs : List α) (h : ∀ x ∈ xs, f x ≠ [] ∧ NoSpace (f x)) (w : Str) (hne : w ≠ []) (hw : NoSpace w) :
    split (w ++ (xs.flatMap (fun x => c!" " ++ f x) ++ c!"\n")) = w :: xs.map f := by
  induction xs generalizing w with
  | nil => exact split_newline hne hw
  | cons x xs ih =>
    have hx := h x (by simp)
    rw [List.flatMap_cons, List.append_assoc, List.append_assoc]
    show split (w ++ ' ' :: (f x ++ (xs.flatMap (fun x => c!" " ++ f x) ++ c!"\n"))) = _
    rw [split_head hne hw, ih (fun y hy => h y (List.mem_cons_of_mem _ hy)) _ hx.1 hx.2]; rfl

end Csg
