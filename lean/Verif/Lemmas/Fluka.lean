import Verif.Lemmas.Material
import Verif.Lemmas.Merge
import Verif.Lemmas.Py
import Verif.Model.Fluka
import Verif.Spec.Fluka

/-!
# FLUKA cards
-/

namespace Csg

open Spec

theorem ljust_length {n : Nat} {s : Str} (h : s.length ≤ n) : (ljust n s).length = n := by simp [ljust]; omega
theorem rjust_length {n : Nat} {s : Str} (h : s.length ≤ n) : (rjust n s).length = n := by simp [rjust]; omega

theorem filter_replicate (n : Nat) : (List.replicate n ' ').filter (· ≠ ' ') = [] := by
  rw [List.filter_eq_nil_iff]
  intro x hx
  rw [List.eq_of_mem_replicate hx]
  simp

theorem filter_noBlank {s : Str} (h : ' ' ∉ s) : s.filter (· ≠ ' ') = s := by
  rw [List.filter_eq_self]
  intro x hx
  simp only [ne_eq, decide_not, Bool.not_eq_eq_eq_not, Bool.not_true, decide_eq_false_iff_not]
  rintro rfl; exact h hx

theorem ljust_filter {n : Nat} {s : Str} (h : ' ' ∉ s) : (ljust n s).filter (· ≠ ' ') = s := by
  rw [ljust, List.filter_append, filter_replicate, filter_noBlank h, List.append_nil]

theorem rjust_filter {n : Nat} {s : Str} (h : ' ' ∉ s) : (rjust n s).filter (· ≠ ' ') = s := by
  rw [rjust, List.filter_append, filter_replicate, filter_noBlank h, List.nil_append]

/-- A field is found after the texts of the fields before it. -/
theorem field_at {a f b : Str} {i : Nat} (ha : a.length = 10 * i) (hf : f.length = 10) : field (a ++ (f ++ b)) i = f.filter (· ≠ ' ') := by
  unfold field
  rw [← ha, List.drop_left, ← hf, List.take_left]

theorem field_flatten {fs : List Str} {t : Str} (h : ∀ f ∈ fs, f.length = 10) {i : Nat} {f : Str} (hi : fs[i]? = some f) :
    field (fs.flatten ++ t) i = f.filter (· ≠ ' ') := by
  have hlt : i < fs.length := (List.getElem?_eq_some_iff.1 hi).1
  have e : fs.flatten = (fs.take i).flatten ++ (f ++ (fs.drop (i + 1)).flatten) := by
    rw [← List.flatten_cons, ← List.flatten_append]
    congr 1
    rw [← (List.getElem?_eq_some_iff.1 hi).2, List.cons_getElem_drop_succ, List.take_append_drop]
  rw [e, List.append_assoc, List.append_assoc]
  refine field_at ?_ (h f (List.mem_of_getElem? hi))
  have : ∀ l : List Str, (∀ f ∈ l, f.length = 10) → l.flatten.length = 10 * l.length := by
    intro l hl
    induction l with
    | nil => rfl
    | cons a l ih => rw [List.flatten_cons, List.length_append, hl a (by simp), ih fun x hx => hl x (by simp [hx]), List.length_cons]; omega
  rw [this _ fun f hf => h f (List.mem_of_mem_take hf), List.length_take, min_eq_left (by omega)]

/-! ## Compounds -/

/-- A constituent in the text of a COMPOUND card. -/
def itemText (e : Str × Str) : Str := e.1 ++ rjust 10 e.2

/-- A line with the given constituents. -/
def compoundLine (name : Str) (g : List (Str × Str)) : Str :=
  ljust 10 c!"COMPOUND" ++ (g.flatMap itemText ++ List.replicate (60 - 20 * g.length) ' ') ++ name ++ c!"\n"

theorem items_length {g : List (Str × Str)} (h : ∀ e ∈ g, e.1.length = 10 ∧ e.2.length ≤ 10) : (g.flatMap itemText).length = 20 * g.length := by
  induction g with
  | nil => rfl
  | cons e g ih =>
    have he := h e (by simp)
    rw [List.flatMap_cons, List.length_append, ih fun x hx => h x (by simp [hx])]
    simp only [itemText, List.length_append, rjust_length he.2, he.1, List.length_cons]
    omega

theorem takeLast_append {n : Nat} (a : Str) {b : Str} (h : b.length = n) : takeLast n (a ++ b) = b := by subst h; simp [takeLast]
theorem dropLastN_append {n : Nat} (a : Str) {b : Str} (h : b.length = n) : dropLastN n (a ++ b) = a := by subst h; simp [dropLastN]

theorem compoundGo_groups (name : Str) : ∀ (n : Nat) (g : List (Str × Str)), g.length ≤ n → (∀ e ∈ g, e.1.length = 10 ∧ e.2.length ≤ 10) → ∀ fuel, g.length ≤ fuel →
    ∃ gs : List (List (Str × Str)), compoundGo name fuel (g.flatMap itemText) = some (gs.map (compoundLine name)) ∧ gs.reverse.flatten = g ∧
      ∀ x ∈ gs, 1 ≤ x.length ∧ x.length ≤ 3 := by
  intro n
  induction n with
  | zero =>
    intro g hg _ fuel _
    have : g = [] := List.length_eq_zero_iff.1 (by omega)
    subst this
    exact ⟨[], by cases fuel <;> rfl, rfl, by simp⟩
  | succ n ih =>
    intro g hg hl fuel hf
    by_cases hnil : g = []
    · subst hnil
      exact ⟨[], by cases fuel <;> rfl, rfl, by simp⟩
    · have hpos : 0 < g.length := List.length_pos_iff.2 hnil
      obtain ⟨fuel, rfl⟩ : ∃ f, fuel = f + 1 := ⟨fuel - 1, by omega⟩
      -- the last constituents
      obtain ⟨k, hk1, hk2, hk⟩ : ∃ k, 1 ≤ k ∧ k ≤ 3 ∧ k = min 3 g.length := ⟨min 3 g.length, by omega, by omega, rfl⟩
      let a := g.take (g.length - k)
      let b := g.drop (g.length - k)
      have hab : g = a ++ b := (List.take_append_drop _ _).symm
      have hb : b.length = k := by simp [b]; omega
      have hla : ∀ e ∈ a, e.1.length = 10 ∧ e.2.length ≤ 10 := fun e he => hl e (List.mem_of_mem_take he)
      have hlb : ∀ e ∈ b, e.1.length = 10 ∧ e.2.length ≤ 10 := fun e he => hl e (List.mem_of_mem_drop he)
      have hal : a.length = g.length - k := by simp [a]
      obtain ⟨gs, h1, h2, h3⟩ := ih a (by rw [hal]; omega) hla fuel (by rw [hal]; omega)
      have hlen := items_length hl
      have hlenb := items_length hlb
      have hsplit : g.flatMap itemText = a.flatMap itemText ++ b.flatMap itemText := by rw [hab, List.flatMap_append]
      refine ⟨b :: gs, ?_, by rw [List.reverse_cons, List.flatten_append, h2, List.flatten_singleton, ← hab], ?_⟩
      · obtain ⟨c, cs, hc⟩ : ∃ c cs, g.flatMap itemText = c :: cs := List.exists_cons_of_ne_nil (by
          intro e; rw [e, List.length_nil] at hlen; omega)
        rw [hc, compoundGo]
        simp only []
        rw [← hc, hlen, List.map_cons]
        have hgo : ∀ part rest, part = b.flatMap itemText ++ List.replicate (60 - 20 * b.length) ' ' → rest = a.flatMap itemText →
            (compoundGo name fuel rest).map (fun ls => (ljust 10 c!"COMPOUND" ++ part ++ name ++ c!"\n") :: ls) = some (compoundLine name b :: gs.map (compoundLine name)) := by
          rintro part rest rfl rfl
          rw [h1]; rfl
        by_cases h60 : 60 ≤ 20 * g.length
        · rw [if_pos h60]
          have hb3 : b.length = 3 := by omega
          have e60 : (b.flatMap itemText).length = 60 := by omega
          refine hgo _ _ ?_ ?_
          · show takeLast 60 _ = _
            rw [hsplit, takeLast_append _ e60, hb3]; simp
          · show dropLastN 60 _ = _
            rw [hsplit, dropLastN_append _ e60]
        · rw [if_neg h60]
          have hgk : g.length = k := by omega
          have ha0 : a = [] := List.length_eq_zero_iff.1 (by omega)
          have hgb : g = b := by rw [hab, ha0]; rfl
          by_cases h40 : 20 * g.length / 20 = 2
          · rw [if_pos h40]
            have hb3 : b.length = 2 := by omega
            have e60 : (b.flatMap itemText).length = 40 := by omega
            refine hgo _ _ ?_ ?_
            · show takeLast 40 _ ++ _ = _
              rw [hsplit, takeLast_append _ e60, hb3]; rfl
            · show dropLastN 40 _ = _
              rw [hsplit, dropLastN_append _ e60]
          · rw [if_neg h40]
            have h20 : 20 * g.length / 20 = 1 := by omega
            rw [if_pos h20]
            have hb3 : b.length = 1 := by omega
            have e60 : (b.flatMap itemText).length = 20 := by omega
            refine hgo _ _ ?_ ?_
            · show takeLast 20 _ ++ _ = _
              rw [hsplit, takeLast_append _ e60, hb3]; rfl
            · show dropLastN 20 _ = _
              rw [hsplit, dropLastN_append _ e60]
      · intro x hx
        rcases List.mem_cons.1 hx with rfl | hx
        · omega
        · exact h3 x hx

def blank10 : Str := List.replicate 10 ' '

theorem compoundLine_fields (name : Str) {g : List (Str × Str)} (h1 : 1 ≤ g.length) (h3 : g.length ≤ 3) : ∃ fs : List Str, compoundLine name g = fs.flatten ++ c!"\n" ∧
    fs = [ljust 10 c!"COMPOUND"] ++ g.flatMap (fun e => [e.1, rjust 10 e.2]) ++ List.replicate (6 - 2 * g.length) blank10 ++ [name] := by
  refine ⟨_, ?_, rfl⟩
  match g, h1, h3 with
  | [a], _, _ => simp [compoundLine, itemText]; rfl
  | [a, b], _, _ => simp [compoundLine, itemText]; rfl
  | [a, b, c], _, _ => simp [compoundLine, itemText]
  | _ :: _ :: _ :: _ :: _, _, h => simp at h

/-- What the fields of a line are. -/
theorem compoundLine_read {name : Str} {g : List (Str × Str)} (h1 : 1 ≤ g.length) (h3 : g.length ≤ 3)
    (hl : ∀ e ∈ g, e.1.length = 10 ∧ e.2.length ≤ 10 ∧ e.2 ≠ [] ∧ ' ' ∉ e.2) (hn : name.length = 10) :
    field (compoundLine name g) 0 = c!"COMPOUND" ∧ field (compoundLine name g) 7 = name.filter (· ≠ ' ') ∧ (compoundLine name g).length = 81 ∧
      compoundPairs (compoundLine name g) = g.map fun e => (e.1.filter (· ≠ ' '), e.2) := by
  obtain ⟨fs, e, hfs⟩ := compoundLine_fields name h1 h3
  have hall : ∀ f ∈ fs, f.length = 10 := by
    intro f hf
    rw [hfs] at hf
    simp only [List.mem_append, List.mem_singleton, List.mem_flatMap] at hf
    rcases hf with ((rfl | ⟨x, hx, hf⟩) | hf) | rfl
    · rfl
    · have := hl x hx
      rcases List.mem_pair.1 hf with rfl | rfl
      · exact this.1
      · exact rjust_length this.2.1
    · rw [List.eq_of_mem_replicate hf]; rfl
    · exact hn
  have hbl : blank10.filter (· ≠ ' ') = [] := by decide
  have hc : (ljust 10 c!"COMPOUND").filter (· ≠ ' ') = c!"COMPOUND" := by decide
  rw [e]
  have F := fun i f h => field_flatten (t := c!"\n") hall (i := i) (f := f) h
  match g, h1, h3, hl, hfs with
  | [a], _, _, hl, hfs =>
    have ha := hl a (by simp)
    refine ⟨by rw [F 0 _ (by rw [hfs]; rfl), hc], by rw [F 7 _ (by rw [hfs]; rfl)], ?_, ?_⟩
    · rw [hfs]; simp [ha.1, rjust_length ha.2.1, blank10, hn, ljust]
    · unfold compoundPairs
      simp only [List.map_cons, List.map_nil]
      rw [F 1 a.1 (by rw [hfs]; rfl), F (1 + 1) (rjust 10 a.2) (by rw [hfs]; rfl), F 3 blank10 (by rw [hfs]; rfl), F (3 + 1) blank10 (by rw [hfs]; rfl),
        F 5 blank10 (by rw [hfs]; rfl), F (5 + 1) blank10 (by rw [hfs]; rfl), hbl, rjust_filter ha.2.2.2]
      simp [ha.2.2.1]
  | [a, b], _, _, hl, hfs =>
    have ha := hl a (by simp)
    have hb := hl b (by simp)
    refine ⟨by rw [F 0 _ (by rw [hfs]; rfl), hc], by rw [F 7 _ (by rw [hfs]; rfl)], ?_, ?_⟩
    · rw [hfs]; simp [ha.1, rjust_length ha.2.1, hb.1, rjust_length hb.2.1, blank10, hn, ljust]
    · unfold compoundPairs
      simp only [List.map_cons, List.map_nil]
      rw [F 1 a.1 (by rw [hfs]; rfl), F (1 + 1) (rjust 10 a.2) (by rw [hfs]; rfl), F 3 b.1 (by rw [hfs]; rfl), F (3 + 1) (rjust 10 b.2) (by rw [hfs]; rfl),
        F 5 blank10 (by rw [hfs]; rfl), F (5 + 1) blank10 (by rw [hfs]; rfl), hbl, rjust_filter ha.2.2.2, rjust_filter hb.2.2.2]
      simp [ha.2.2.1, hb.2.2.1]
  | [a, b, c], _, _, hl, hfs =>
    have ha := hl a (by simp)
    have hb := hl b (by simp)
    have hc' := hl c (by simp)
    refine ⟨by rw [F 0 _ (by rw [hfs]; rfl), hc], by rw [F 7 _ (by rw [hfs]; rfl)], ?_, ?_⟩
    · rw [hfs]; simp [ha.1, rjust_length ha.2.1, hb.1, rjust_length hb.2.1, hc'.1, rjust_length hc'.2.1, hn, ljust]
    · unfold compoundPairs
      simp only [List.map_cons, List.map_nil]
      rw [F 1 a.1 (by rw [hfs]; rfl), F (1 + 1) (rjust 10 a.2) (by rw [hfs]; rfl), F 3 b.1 (by rw [hfs]; rfl), F (3 + 1) (rjust 10 b.2) (by rw [hfs]; rfl),
        F 5 c.1 (by rw [hfs]; rfl), F (5 + 1) (rjust 10 c.2) (by rw [hfs]; rfl), rjust_filter ha.2.2.2, rjust_filter hb.2.2.2, rjust_filter hc'.2.2.2]
      simp [ha.2.2.1, hb.2.2.1, hc'.2.2.1]
  | _ :: _ :: _ :: _ :: _, _, h, _, _ => simp at h

end Csg
