import Verif.Lemmas.OtherCells
import Verif.Lemmas.Scone
import Verif.Spec.Sample

/-!
# Universes for SCONE (C55, C56, C57)
-/

namespace Csg

open Spec

section
variable {K : Type}

private theorem insert_one {α : Type} {order : List Int} (L : Int → List α) (u : Int) (a : α) (hnd : order.Nodup) (h : u ∈ order) :
    List.Perm (order.flatMap fun v => if u = v then a :: L v else L v) (a :: order.flatMap L) := by
  induction order with
  | nil => cases h
  | cons v order ih =>
    have hn := List.nodup_cons.1 hnd
    rw [List.flatMap_cons, List.flatMap_cons]
    by_cases e : u = v
    · subst e
      rw [if_pos rfl]
      have : (order.flatMap fun v => if u = v then a :: L v else L v) = order.flatMap L :=
        List.flatMap_congr fun x hx => if_neg fun (e : u = x) => hn.1 (e ▸ hx)
      rw [this, List.cons_append]
    · rw [if_neg e]
      refine (List.Perm.append_left _ (ih hn.2 ((List.mem_cons.1 h).resolve_left e))).trans ?_
      exact List.perm_middle

/-- Sorted by universe, all cells are there once. -/
private theorem partition_perm {cells : List (Cell K)} {order : List Int} (hnd : order.Nodup) (h : ∀ c ∈ cells, ∃ u ∈ order, parseInt (optText c.uni) = some u) :
    List.Perm (order.flatMap (cellsOf cells)) (cells.map Cell.id) := by
  induction cells with
  | nil =>
    have : order.flatMap (cellsOf ([] : List (Cell K))) = [] := by rw [List.flatMap_eq_nil_iff]; intro u _; rfl
    rw [this]; rfl
  | cons c cells ih =>
    obtain ⟨u, hu, hc⟩ := h c (by simp)
    have e : order.flatMap (cellsOf (c :: cells)) = order.flatMap fun v => if u = v then c.id :: cellsOf cells v else cellsOf cells v := by
      refine List.flatMap_congr fun v _ => ?_
      unfold cellsOf
      rw [List.filter_cons, hc]
      by_cases h : u = v <;> simp [h]
    rw [e]
    exact (insert_one _ u c.id hnd hu).trans ((ih fun x hx => h x (by simp [hx])).cons _)

private theorem readInt {w : Str} (hd : w.dropWhile (· = '-') ≠ [] ∧ ∀ c ∈ w.dropWhile (· = '-'), isDigit c = true) (hns : ∀ t, w ≠ '-' :: '-' :: t) : ∃ z, pyInt w = .ok z := by
  obtain ⟨hne, hd⟩ := hd
  have nat : ∀ t : Str, t ≠ [] → (∀ c ∈ t, isDigit c = true) → ∃ n, parseNat t = some n := by
    intro t h1 h2
    refine ⟨natVal t, ?_⟩
    unfold parseNat
    rw [if_pos ⟨h1, List.all_eq_true.2 h2⟩]
  match w, hne, hd, hns with
  | [], hne, _, _ => exact absurd rfl hne
  | a :: t, hne, hd, hns =>
    by_cases ha : a = '-'
    · subst ha
      rw [List.dropWhile_cons_of_pos (by simp)] at hne hd
      cases t with
      | nil => exact absurd rfl hne
      | cons b t =>
        have hb : b ≠ '-' := fun e => hns t (by rw [e])
        rw [List.dropWhile_cons_of_neg (by simpa using hb)] at hd
        obtain ⟨n, hn⟩ := nat (b :: t) (by simp) hd
        exact ⟨_, pyInt_ok.2 (by unfold parseInt; simp only []; rw [hn]; rfl)⟩
    · rw [List.dropWhile_cons_of_neg (by simpa using ha)] at hd
      exact ⟨_, pyInt_ok.2 (parseInt_of_digits (by simp) hd)⟩

theorem readable_of {cells : List (Cell K)} (hu : ∀ c ∈ cells, ∃ u, parseInt (optText c.uni) = some u) (hs : ∀ c ∈ cells, ∀ w ∈ c.text, ∀ t, w ≠ '-' :: '-' :: t) :
    Readable cells := by
  refine fun c hc => ⟨hu c hc, ?_⟩
  unfold halfspaces
  have : ∀ l : List Str, (∀ w ∈ l, ∃ z, pyInt w = .ok z) → ∃ r, l.mapM pyInt = .ok r := by
    intro l h
    induction l with
    | nil => exact ⟨[], rfl⟩
    | cons w l ih =>
      obtain ⟨z, hz⟩ := h w (by simp)
      obtain ⟨r, hr⟩ := ih fun x hx => h x (by simp [hx])
      exact ⟨z :: r, by rw [List.mapM_cons, hz, hr]; rfl⟩
  refine this _ fun w hw => ?_
  obtain ⟨hw, hd⟩ := List.mem_filter.1 hw
  simp only [Bool.and_eq_true, decide_eq_true_eq, List.all_eq_true] at hd
  exact readInt hd (hs c hc w hw)

/-- C55: the universe list made of the cells. For each universe number of a cell, other than 0, there is one universe with this number that holds exactly the cells with this number; if there
are cells in universe 0 there is a root universe with number 0 that holds no cells and is filled with a universe, of a new number, that holds exactly the cells of universe 0. There are no other
universes. All together, the universes other than the root hold every cell exactly once. `order` is the set of the universe numbers in any order; the cells are those read from cards, so that
universe numbers are numbers and no word of a description has two signs. -/
theorem C55_partition (cells : List (Cell K)) (hu : ∀ c ∈ cells, ∃ u, parseInt (optText c.uni) = some u) (hs : ∀ c ∈ cells, ∀ w ∈ c.text, ∀ t, w ≠ '-' :: '-' :: t)
    (order : List Int) (hnd : order.Nodup) (ho : ∀ u, u ∈ order ↔ ∃ c ∈ cells, parseInt (optText c.uni) = some u) :
    ∃ us, createUniverses order [] cells = .ok us ∧
      (∃ new : Int, (0 ∈ order → (∃ m ∈ order, new = m + 1) ∧ ∀ u ∈ order, u < new) ∧
        List.Perm (us.map fun w => (w.id, w.isRoot, w.cells, w.fill))
          ((order.filter (· ≠ 0)).map (fun u => (u, false, (cells.filter fun c => decide (parseInt (optText c.uni) = some u)).map Cell.id, none)) ++
            (if 0 ∈ order then [(0, true, [], some new), (new, false, (cells.filter fun c => decide (parseInt (optText c.uni) = some 0)).map Cell.id, none)] else []))) ∧
      List.Perm ((us.filter fun w => !w.isRoot).flatMap UniverseCard.cells) (cells.map Cell.id) := by
  obtain ⟨us, h1, ⟨new, h2, h3⟩, hrest⟩ := createUniverses_ok (readable_of hu hs) hnd ho
  refine ⟨us, h1, ⟨new, h2, h3⟩, ?_⟩
  clear hrest
  let g : Int × Bool × List Int × Option Int → List Int := fun s => if s.2.1 then [] else s.2.2.1
  have e1 : (us.filter fun w => !w.isRoot).flatMap UniverseCard.cells = (us.map UniverseCard.summary).flatMap g := by
    clear h1 h3
    induction us with
    | nil => rfl
    | cons w us ih =>
      rw [List.filter_cons, List.map_cons, List.flatMap_cons, ← ih]
      cases hw : w.isRoot <;> simp [g, UniverseCard.summary, hw]
  rw [e1]
  refine (h3.flatMap_right g).trans ?_
  refine List.Perm.trans ?_ (partition_perm hnd fun c hc => by obtain ⟨u, hcu⟩ := hu c hc; exact ⟨u, (ho u).2 ⟨c, hc, hcu⟩, hcu⟩)
  rw [List.flatMap_append, List.flatMap_map]
  have e2 : ((order.filter (· ≠ 0)).flatMap fun u => g (u, false, cellsOf cells u, none)) = (order.filter (· ≠ 0)).flatMap (cellsOf cells) := rfl
  rw [e2]
  by_cases h0 : (0 : Int) ∈ order
  · rw [if_pos h0]
    have e3 : ([(0, true, [], some new), (new, false, cellsOf cells 0, none)] : List (Int × Bool × List Int × Option Int)).flatMap g = [(0 : Int)].flatMap (cellsOf cells) := rfl
    rw [e3, ← List.flatMap_append]
    refine List.Perm.flatMap_right _ ?_
    refine List.Perm.trans (List.perm_append_comm (l₂ := [(0 : Int)])) ?_
    rw [List.singleton_append]
    refine ((List.perm_cons_erase h0).trans (List.Perm.cons _ ?_)).symm
    rw [hnd.erase_eq_filter]
    exact List.Perm.of_eq (List.filter_congr fun x _ => by by_cases h : x = 0 <;> simp [h])
  · rw [if_neg h0]
    have : order.filter (· ≠ 0) = order := List.filter_eq_self.2 fun x hx => by
      simp only [ne_eq, decide_not, Bool.not_eq_eq_eq_not, Bool.not_true, decide_eq_false_iff_not]
      rintro rfl; exact h0 hx
    rw [this]
    simp
/-! ## Text -/

/-- The words of a list of cells between parentheses. -/
def parenthesised : List Int → List Str
  | [] => [c!"();"]
  | a :: as => (c!"(" ++ intStr a) :: (as.map intStr ++ [c!");"])

private theorem blanked_text {ws : List Str} (h : ∀ w ∈ ws, Token w) :
    ∃ out, (∃ fuel₀, ∀ fuel ≥ fuel₀, lineFormatter fuel (squeeze (blanked ws ++ c!" } \n")) = some out) ∧ WellWrapped out ∧ split out = ws ++ [c!"}"] := by
  obtain ⟨out, h1, h2, h3⟩ := wrapped_words (A := blanked ws ++ c!" } \n") (T := blanked ws ++ c!" } ") (by simp) (by
    rw [List.mem_append]
    rintro (hm | hm)
    · exact blanked_noNewline (fun w hw => token_noNewline (h w hw)) hm
    · revert hm; decide) (runOk_tokens (fun w hw => Or.inl (h w hw)) (by simp [runOk]))
  exact ⟨out, h1, h2, by rw [h3, split_blanked h]; rfl⟩

private theorem tok {a b : Str} {z : Int} (h : (intStr z).length ≤ 50) (ha : a.length ≤ 5 ∧ ∀ c ∈ a, isSpace c = false) (hb : b.length ≤ 5 ∧ ∀ c ∈ b, isSpace c = false) :
    Token (a ++ intStr z ++ b) := by
  refine ⟨fun e => intStr_ne_nil z ?_, fun c hc => ?_, ?_⟩
  · rw [List.append_eq_nil_iff, List.append_eq_nil_iff] at e; exact e.1.2
  · rcases List.mem_append.1 hc with hc | hc
    · rcases List.mem_append.1 hc with hc | hc
      · exact ha.2 c hc
      · exact intStr_noSpace z c hc
    · exact hb.2 c hc
  · rw [List.length_append, List.length_append]; have := ha.1; have := hb.1; omega

private theorem blanked_append (a b : List Str) : blanked (a ++ b) = blanked a ++ blanked b := by simp [blanked]

/-- The words of a universe, with those of its displacement. -/
private theorem moved_words (io : NumIO K) (u : UniverseCard K) (tw : List Str) (htw : ∀ w ∈ tw, Token w) (hr : u.isRoot = false) (ho : sconeTranslation io u.offset = .ok (blanked tw)) (hrot : u.rotation = none)
    (hid : (intStr (u.id + 1)).length ≤ 50) (hc : ∀ c ∈ u.cells, (intStr c).length ≤ 50) :
    ∃ out, (∃ fuel₀, ∀ fuel ≥ fuel₀, writeSconeUniverse fuel io u = .ok (some out)) ∧ WellWrapped out ∧
      split out = [intStr (u.id + 1), c!"{", c!"type", c!"cellUniverse;", c!"cells"] ++ parenthesised u.cells ++ [c!"id", intStr (u.id + 1) ++ c!";"] ++ tw ++ [c!"}"] := by
  let ws : List Str := [intStr (u.id + 1), c!"{", c!"type", c!"cellUniverse;", c!"cells"] ++ parenthesised u.cells ++ [c!"id", intStr (u.id + 1) ++ c!";"] ++ tw
  have hp : c!"(" ++ (u.cells.map fun c => intStr c ++ c!" ").flatten ++ c!"); " = blanked (parenthesised u.cells) := by
    cases u.cells with
    | nil => rfl
    | cons a as =>
      simp only [parenthesised, blanked, List.map_cons, List.map_append, List.map_map, List.flatten_cons, List.flatten_append, List.map_nil, List.flatten_nil, List.append_assoc]
      rfl
  have hA : sconeUniverseText io u = .ok (squeeze (blanked ws ++ c!" } \n")) := by
    unfold sconeUniverseText
    rw [hr, ho, hrot]
    simp only [ws, blanked_append, ← hp]
    simp [blanked, bind, Except.bind]
  have tokz := fun z (h : (intStr z).length ≤ 50) => tok (a := []) (b := []) h ⟨by decide, by decide⟩ ⟨by decide, by decide⟩
  have hws : ∀ w ∈ ws, Token w := by
    intro w hw
    rcases List.mem_append.1 hw with hw | hw
    swap
    · exact htw w hw
    rcases List.mem_append.1 hw with hw | hw
    · rcases List.mem_append.1 hw with hw | hw
      · simp only [List.mem_cons, List.not_mem_nil, or_false] at hw
        rcases hw with rfl | rfl | rfl | rfl | rfl
        · simpa using tokz _ hid
        · exact ⟨by decide, by decide, by decide⟩
        · exact ⟨by decide, by decide, by decide⟩
        · exact ⟨by decide, by decide, by decide⟩
        · exact ⟨by decide, by decide, by decide⟩
      · cases hcs : u.cells with
        | nil =>
          rw [hcs] at hw
          rw [List.mem_singleton.1 hw]
          exact ⟨by decide, by decide, by decide⟩
        | cons a as =>
          rw [hcs] at hw hc
          rcases List.mem_cons.1 hw with rfl | hw
          · simpa using tok (a := c!"(") (b := []) (hc a (by simp)) ⟨by decide, by decide⟩ ⟨by decide, by decide⟩
          · rcases List.mem_append.1 hw with hw | hw
            · obtain ⟨z, hz, rfl⟩ := List.mem_map.1 hw
              simpa using tokz _ (hc z (by simp [hz]))
            · rw [List.mem_singleton.1 hw]
              exact ⟨by decide, by decide, by decide⟩
    · simp only [List.mem_cons, List.not_mem_nil, or_false] at hw
      rcases hw with rfl | rfl
      · exact ⟨by decide, by decide, by decide⟩
      · simpa using tok (a := []) (b := c!";") hid ⟨by decide, by decide⟩ ⟨by decide, by decide⟩
  obtain ⟨out, ⟨fuel₀, h1⟩, h2, h3⟩ := blanked_text hws
  refine ⟨out, ⟨fuel₀, fun fuel hf => ?_⟩, h2, by rw [h3]⟩
  unfold writeSconeUniverse
  rw [hA]
  show Except.ok _ = _
  rw [h1 fuel hf]

/-- The words of a universe without displacement. -/
private theorem universe_words (io : NumIO K) (u : UniverseCard K) (hr : u.isRoot = false) (ho : u.offset = none) (hrot : u.rotation = none)
    (hid : (intStr (u.id + 1)).length ≤ 50) (hc : ∀ c ∈ u.cells, (intStr c).length ≤ 50) :
    ∃ out, (∃ fuel₀, ∀ fuel ≥ fuel₀, writeSconeUniverse fuel io u = .ok (some out)) ∧ WellWrapped out ∧
      split out = [intStr (u.id + 1), c!"{", c!"type", c!"cellUniverse;", c!"cells"] ++ parenthesised u.cells ++ [c!"id", intStr (u.id + 1) ++ c!";", c!"}"] := by
  obtain ⟨out, h1, h2, h3⟩ := moved_words io u [] (by simp) hr (by rw [ho]; rfl) hrot hid hc
  exact ⟨out, h1, h2, by simpa using h3⟩

/-- C57, the part of the writer: if a universe had a displacement, it would be in the text, as three words after `translation`. (`C57_never_displaced` shows that the writer is never given one.) -/
theorem C57_writer (io : NumIO K) (u : UniverseCard K) (x y z : Str) (hr : u.isRoot = false) (hx : Token (c!"(" ++ x)) (hy : Token y) (hz : Token z) (ho : u.offset = some [.txt x, .txt y, .txt z]) (hrot : u.rotation = none)
    (hid : (intStr (u.id + 1)).length ≤ 50) (hc : ∀ c ∈ u.cells, (intStr c).length ≤ 50) :
    ∃ out, (∃ fuel₀, ∀ fuel ≥ fuel₀, writeSconeUniverse fuel io u = .ok (some out)) ∧ WellWrapped out ∧
      split out = [intStr (u.id + 1), c!"{", c!"type", c!"cellUniverse;", c!"cells"] ++ parenthesised u.cells ++ [c!"id", intStr (u.id + 1) ++ c!";", c!"translation", c!"(" ++ x, y, z, c!");", c!"}"] := by
  have ht : ∀ w ∈ [c!"translation", c!"(" ++ x, y, z, c!");"], Token w := by
    intro w hw
    simp only [List.mem_cons, List.not_mem_nil, or_false] at hw
    rcases hw with rfl | rfl | rfl | rfl | rfl
    exacts [⟨by decide, by decide, by decide⟩, hx, hy, hz, ⟨by decide, by decide, by decide⟩]
  have ho' : sconeTranslation io u.offset = .ok (blanked [c!"translation", c!"(" ++ x, y, z, c!");"]) := by
    rw [ho]
    simp [sconeTranslation, blanked, bind, Except.bind, pyGet, List.range, List.range.loop, List.mapM_cons, pure, Except.pure]
  obtain ⟨out, h1, h2, h3⟩ := moved_words io u _ ht hr ho' hrot hid hc
  exact ⟨out, h1, h2, by simpa using h3⟩

/-- C57 for rotations: the writer fails on every universe with a rotation. -/
theorem C57_rotation_fails (io : NumIO K) (u : UniverseCard K) (r : List (Entry K)) (hrot : u.rotation = some r) (fuel : Nat) : ∃ e, writeSconeUniverse fuel io u = .error e := by
  unfold writeSconeUniverse sconeUniverseText
  rw [hrot]
  cases sconeTranslation io u.offset with
  | error e => exact ⟨e, rfl⟩
  | ok t => exact ⟨_, rfl⟩

/-- The text of the root universe names its border and the universe that fills it. -/
theorem C55_root_text (io : NumIO K) (u : UniverseCard K) (hr : u.isRoot = true) (ho : u.offset = none) (hrot : u.rotation = none)
    (hid : (intStr (u.id + 1)).length ≤ 50) (hb : (intStr u.border).length ≤ 50) (new : Int) (hf : u.fill = some new) (hnew : (intStr (new + 1)).length ≤ 50) :
    ∃ out, (∃ fuel₀, ∀ fuel ≥ fuel₀, writeSconeUniverse fuel io u = .ok (some out)) ∧ WellWrapped out ∧
      split out = [c!"root", c!"{", c!"type", c!"rootUniverse;", c!"border", intStr u.border ++ c!";", c!"fill", c!"u<" ++ intStr (new + 1) ++ c!">;", c!"id", intStr (u.id + 1) ++ c!";", c!"}"] := by
  let ws : List Str := [c!"root", c!"{", c!"type", c!"rootUniverse;", c!"border", intStr u.border ++ c!";", c!"fill", c!"u<" ++ intStr (new + 1) ++ c!">;", c!"id", intStr (u.id + 1) ++ c!";"]
  have hA : sconeUniverseText io u = .ok (squeeze (blanked ws ++ c!" } \n")) := by
    unfold sconeUniverseText
    rw [hr, hf, ho, hrot]
    simp [ws, sconeTranslation, blanked, bind, Except.bind]
  have hws : ∀ w ∈ ws, Token w := by
    intro w hw
    simp only [ws, List.mem_cons, List.not_mem_nil, or_false] at hw
    rcases hw with rfl | rfl | rfl | rfl | rfl | rfl | rfl | rfl | rfl | rfl
    · exact ⟨by decide, by decide, by decide⟩
    · exact ⟨by decide, by decide, by decide⟩
    · exact ⟨by decide, by decide, by decide⟩
    · exact ⟨by decide, by decide, by decide⟩
    · exact ⟨by decide, by decide, by decide⟩
    · simpa using tok (a := []) (b := c!";") hb ⟨by decide, by decide⟩ ⟨by decide, by decide⟩
    · exact ⟨by decide, by decide, by decide⟩
    · exact tok (a := c!"u<") (b := c!">;") hnew ⟨by decide, by decide⟩ ⟨by decide, by decide⟩
    · exact ⟨by decide, by decide, by decide⟩
    · simpa using tok (a := []) (b := c!";") hid ⟨by decide, by decide⟩ ⟨by decide, by decide⟩
  obtain ⟨out, ⟨fuel₀, h1⟩, h2, h3⟩ := blanked_text hws
  refine ⟨out, ⟨fuel₀, fun fuel hf => ?_⟩, h2, by rw [h3]; simp [ws]⟩
  unfold writeSconeUniverse
  rw [hA]
  show Except.ok _ = _
  rw [h1 fuel hf]

/-- The text of a universe that is not the root names it by its number plus one and lists its cells. -/
theorem C55_universe_text (io : NumIO K) (u : UniverseCard K) (hr : u.isRoot = false) (ho : u.offset = none) (hrot : u.rotation = none)
    (hid : (intStr (u.id + 1)).length ≤ 50) (hc : ∀ c ∈ u.cells, (intStr c).length ≤ 50) :
    ∃ out, (∃ fuel₀, ∀ fuel ≥ fuel₀, writeSconeUniverse fuel io u = .ok (some out)) ∧ WellWrapped out ∧
      split out = [intStr (u.id + 1), c!"{", c!"type", c!"cellUniverse;", c!"cells"] ++ parenthesised u.cells ++ [c!"id", intStr (u.id + 1) ++ c!";", c!"}"] :=
  universe_words io u hr ho hrot hid hc

/-- C56: if a cell is filled with universe `z`, and some cell has the universe number `z`, then SCONE gets a universe `z + 1`, the number that the cell names (see `C31_cell_text`), with the
cells of universe `z`; and the universe that the root names is there, with the cells of universe 0. Partial: in MCNP a cell can belong to universe `z` by the number `-z`, see `C56_refuted`;
and cells that are not filled must have no displacement or rotation, as is the case for cells read from cards. -/
theorem C56_fills_partial (io : NumIO K) (cells : List (Cell K)) (hu : ∀ c ∈ cells, ∃ u, parseInt (optText c.uni) = some u) (hs : ∀ c ∈ cells, ∀ w ∈ c.text, ∀ t, w ≠ '-' :: '-' :: t)
    (hplain : ∀ c ∈ cells, c.fill = none → c.offset = none ∧ c.rotation = none) (order : List Int) (hnd : order.Nodup)
    (ho : ∀ u, u ∈ order ↔ ∃ c ∈ cells, parseInt (optText c.uni) = some u) (hlen : ∀ c ∈ cells, (intStr c.id).length ≤ 50) :
    ∃ us, createUniverses order [] cells = .ok us ∧
      (∀ c ∈ cells, ∀ f z, c.fill = some f → parseInt f = some z → z ≠ 0 → (∃ d ∈ cells, parseInt (optText d.uni) = some z) → (intStr (z + 1)).length ≤ 50 →
        ∃ w ∈ us, ∃ out, (∃ fuel₀, ∀ fuel ≥ fuel₀, writeSconeUniverse fuel io w = .ok (some out)) ∧
          split out = [intStr (z + 1), c!"{", c!"type", c!"cellUniverse;", c!"cells"] ++
            parenthesised ((cells.filter fun c => decide (parseInt (optText c.uni) = some z)).map Cell.id) ++ [c!"id", intStr (z + 1) ++ c!";", c!"}"]) ∧
      ((∃ d ∈ cells, parseInt (optText d.uni) = some 0) → ∃ new : Int, ∃ r ∈ us, ∃ w ∈ us, r.isRoot = true ∧
        ((intStr (new + 1)).length ≤ 50 → (intStr r.border).length ≤ 50 →
          (∃ out, (∃ fuel₀, ∀ fuel ≥ fuel₀, writeSconeUniverse fuel io r = .ok (some out)) ∧
            split out = [c!"root", c!"{", c!"type", c!"rootUniverse;", c!"border", intStr r.border ++ c!";", c!"fill", c!"u<" ++ intStr (new + 1) ++ c!">;", c!"id", c!"1;", c!"}"]) ∧
          ∃ out, (∃ fuel₀, ∀ fuel ≥ fuel₀, writeSconeUniverse fuel io w = .ok (some out)) ∧
            split out = [intStr (new + 1), c!"{", c!"type", c!"cellUniverse;", c!"cells"] ++
              parenthesised ((cells.filter fun c => decide (parseInt (optText c.uni) = some 0)).map Cell.id) ++ [c!"id", intStr (new + 1) ++ c!";", c!"}"])) := by
  obtain ⟨us, h1, ⟨new, h2, h3⟩, h4, h5⟩ := createUniverses_ok (readable_of hu hs) hnd ho
  have hoff := h4 fun c hc hf => (hplain c hc hf).1
  have hrot := h5 fun c hc hf => (hplain c hc hf).2
  have hcells : ∀ z, ∀ i ∈ cellsOf cells z, (intStr i).length ≤ 50 := by
    intro z i hi
    obtain ⟨c, hc, rfl⟩ := List.mem_map.1 hi
    exact hlen c (List.mem_filter.1 hc).1
  have find : ∀ s, s ∈ us.map UniverseCard.summary → ∃ w ∈ us, w.id = s.1 ∧ w.isRoot = s.2.1 ∧ w.cells = s.2.2.1 ∧ w.fill = s.2.2.2 := by
    intro s hs
    obtain ⟨w, hw, rfl⟩ := List.mem_map.1 hs
    exact ⟨w, hw, rfl, rfl, rfl, rfl⟩
  refine ⟨us, h1, ?_, ?_⟩
  · intro c hc f z hf hz hz0 hd hl
    obtain ⟨w, hw, e1, e2, e3, _⟩ := find (z, false, cellsOf cells z, none) (h3.mem_iff.2 (List.mem_append_left _ (List.mem_map.2 ⟨z,
      List.mem_filter.2 ⟨(ho z).2 hd, by simpa using hz0⟩, rfl⟩)))
    simp only at e1 e2 e3
    obtain ⟨out, o1, _, o3⟩ := universe_words io w e2 (hoff w hw) (hrot w hw) (by rw [e1]; exact hl) (by rw [e3]; exact hcells z)
    refine ⟨w, hw, out, o1, ?_⟩
    rw [o3, e1, e3]
    rfl
  · intro hd
    have h0 : (0 : Int) ∈ order := (ho 0).2 hd
    rw [if_pos h0] at h3
    obtain ⟨r, hr, e1, e2, e3, e4⟩ := find (0, true, [], some new) (h3.mem_iff.2 (List.mem_append_right _ (by simp)))
    obtain ⟨w, hw, f1, f2, f3, _⟩ := find (new, false, cellsOf cells 0, none) (h3.mem_iff.2 (List.mem_append_right _ (by simp)))
    simp only at e1 e2 e3 e4 f1 f2 f3
    refine ⟨new, r, hr, w, hw, e2, fun hl hb => ⟨?_, ?_⟩⟩
    · obtain ⟨out, o1, _, o3⟩ := C55_root_text io r e2 (hoff r hr) (hrot r hr) (by rw [e1]; decide) hb new e4 hl
      refine ⟨out, o1, ?_⟩
      rw [o3, e1]
      rfl
    · obtain ⟨out, o1, _, o3⟩ := universe_words io w f2 (hoff w hw) (hrot w hw) (by rw [f1]; exact hl) (by rw [f3]; exact hcells 0)
      refine ⟨out, o1, ?_⟩
      rw [o3, f1, f3]
      rfl

/-- C57 fails for every deck read from cards: cells without a fill have no displacement, and then no universe gets one. -/
theorem C57_never_displaced (cells : List (Cell K)) (hu : ∀ c ∈ cells, ∃ u, parseInt (optText c.uni) = some u) (hs : ∀ c ∈ cells, ∀ w ∈ c.text, ∀ t, w ≠ '-' :: '-' :: t)
    (hplain : ∀ c ∈ cells, c.fill = none → c.offset = none) (order : List Int) (hnd : order.Nodup)
    (ho : ∀ u, u ∈ order ↔ ∃ c ∈ cells, parseInt (optText c.uni) = some u) :
    ∃ us, createUniverses order [] cells = .ok us ∧ ∀ w ∈ us, w.offset = none := by
  obtain ⟨us, h1, _, h4, _⟩ := createUniverses_ok (readable_of hu hs) hnd ho
  exact ⟨us, h1, h4 hplain⟩

/-- C57, what is left of it: a universe that no cell displaces is written without displacement. -/
theorem C57_undisplaced_partial (cells : List (Cell K)) (hu : ∀ c ∈ cells, ∃ u, parseInt (optText c.uni) = some u) (hs : ∀ c ∈ cells, ∀ w ∈ c.text, ∀ t, w ≠ '-' :: '-' :: t)
    (hplain : ∀ c ∈ cells, c.offset = none) (order : List Int) (hnd : order.Nodup) (ho : ∀ u, u ∈ order ↔ ∃ c ∈ cells, parseInt (optText c.uni) = some u) :
    ∃ us, createUniverses order [] cells = .ok us ∧ ∀ w ∈ us, w.offset = none :=
  C57_never_displaced cells hu hs (fun c hc _ => hplain c hc) order hnd ho

end

/-- Cells for examples. -/
private def cl (id : Int) (text : List Str) (uni fill : Option Str) (offset : Option (List (Entry ℚ))) : Cell ℚ := { Cell.blank with id := id, text := text, uni := uni, fill := fill, offset := offset }

/-- Two cells in universe 0, one of them filled with universe 7, two in universe 7. -/
example : (createUniverses [0, 7] [] [cl 1 [c!"-1"] none (some c!"7") none, cl 2 [c!"1"] none none none, cl 3 [c!"2"] (some c!"7") none none, cl 4 [c!"-2"] (some c!"7") none none]) =
    .ok [{ id := 0, cells := [], fill := some 8, isRoot := true, border := 1, offset := none, rotation := none },
      { id := 7, cells := [3, 4], fill := none, isRoot := false, border := 0, offset := none, rotation := none },
      { id := 8, cells := [1, 2], fill := none, isRoot := false, border := 0, offset := none, rotation := none }] := by rfl

example : (sconeUniverseText sampleIO { id := 7, cells := [3, 4], fill := none, isRoot := false, border := 0, offset := none, rotation := none }) =
    .ok c!"8 { type cellUniverse; cells (3 4 ); id 8; } \n" := by rfl

/-- A universe with a displacement, for `C57_writer`. -/
example : Token (c!"(" ++ c!"1.5") ∧ (sconeUniverseText sampleIO { id := 7, cells := [3, 4], fill := none, isRoot := false, border := 0, offset := some [.txt c!"1.5", .txt c!"0", .txt c!"-2"], rotation := none }) =
    .ok c!"8 { type cellUniverse; cells (3 4 ); id 8; translation (1.5 0 -2 ); } \n" := ⟨⟨by decide, by decide, by decide⟩, by rfl⟩

/-- C56 does not hold in general: the cell with `u=-3` belongs to universe 3 in MCNP, and SCONE gets no universe 4. -/
theorem C56_refuted : ∃ us, createUniverses [0, -3] [] [cl 1 [c!"-1"] none (some c!"3") none, cl 2 [c!"-2"] (some c!"-3") none none] = .ok us ∧ ∀ w ∈ us, w.id + 1 ≠ 4 :=
  ⟨_, rfl, by decide +kernel⟩

/-- C57 does not hold: the fill of cell 1 has a displacement, the universe has none. -/
theorem C57_refuted : ∃ us, createUniverses [0, 7] [] [cl 1 [c!"-1"] none (some c!"7") (some [.num 5, .num 0, .num 0]), cl 3 [c!"2"] (some c!"7") none none] = .ok us ∧ ∀ w ∈ us, w.offset = none :=
  ⟨_, rfl, by decide +kernel⟩

end Csg
