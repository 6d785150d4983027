import Verif.Model.Nots
import Verif.Spec.Complement
import Verif.Lemmas.Cell
import Verif.Lemmas.Num
import Verif.Lemmas.Region

/-!
# Expansion of cell complements
-/

namespace Csg

open Spec

theorem words_append (a b : List Item) : words (a ++ b) = words a ++ words b := by
  simp [words]

theorem mem_words {s : Str} {is : List Item} : s ∈ words is ↔ Item.str s ∈ is := by
  unfold words
  rw [List.mem_filterMap]
  constructor
  · rintro ⟨i, hi, h⟩
    cases i with
    | op o => simp at h
    | str t => simp at h; rwa [← h]
  · intro h; exact ⟨_, h, rfl⟩

theorem atom_mem_itemSyms {s : Str} {is : List Item} (h : Sym.atom s ∈ itemSyms is) : s ∈ words is := by
  rw [mem_words]
  induction is with
  | nil => simp [itemSyms] at h
  | cons i is ih =>
    cases i with
    | op o => cases o <;> simp [itemSyms] at h <;> simp [ih h]
    | str t =>
      simp only [itemSyms, List.mem_cons] at h
      rcases h with h | h
      · split at h
        · cases h
        · split at h
          · cases h
          · cases h; simp
      · simp [ih h]

theorem spanDigits_natStr (n : Nat) : spanDigits (natStr n) = (natStr n, []) := by
  unfold spanDigits
  have h1 := List.takeWhile_append_of_pos (l₂ := []) (natStr_digits n)
  have h2 := List.dropWhile_append_of_pos (l₂ := []) (natStr_digits n)
  simp only [List.append_nil, List.takeWhile_nil, List.dropWhile_nil] at h1 h2
  rw [h1, h2]

theorem hashDigits_refWord (n : Nat) : hashDigits (refWord n) = some (natStr n) := by
  unfold refWord hashDigits
  rw [spanDigits_natStr, if_pos ⟨rfl, natStr_ne_nil n⟩]

theorem hash_mem_refWord (n : Nat) : '#' ∈ refWord n := by simp [refWord]

theorem refWord_injective {m n : Nat} (h : refWord m = refWord n) : m = n := by
  unfold refWord at h
  have h : natStr m = natStr n := by simpa using h
  have : intStr (m : Int) = intStr (n : Int) := h
  have := intStr_injective this
  omega

/-- No entry contains `#`. -/
def HashFree (is : List Item) : Prop := ∀ w ∈ words is, '#' ∉ w

theorem HashFree.append {a b : List Item} (ha : HashFree a) (hb : HashFree b) : HashFree (a ++ b) := by
  intro w hw
  rw [words_append] at hw
  rcases List.mem_append.1 hw with h | h
  · exact ha w h
  · exact hb w h

theorem hashDigits_none {s : Str} (h : '#' ∉ s) : hashDigits s = none := by
  induction s with
  | nil => rfl
  | cons c s ih =>
    simp only [List.mem_cons, not_or] at h
    unfold hashDigits
    rw [if_neg (fun e => h.1 e.1.symm), ih h.2]

theorem HashFree.not_remaining {is : List Item} (h : HashFree is) : notsRemaining is = false := by
  unfold notsRemaining
  rw [List.any_eq_false]
  intro i hi
  cases i with
  | op o => simp
  | str s => simp [hashDigits_none (h s (mem_words.2 hi))]

theorem findHash_free {a : List Item} (ha : HashFree a) (s : Str) (hs : '#' ∈ s) (b : List Item) :
    findHash (a ++ .str s :: b) = some (a, s, b) := by
  induction a with
  | nil => simp [findHash, hs]
  | cons i a ih =>
    have ha' : HashFree a := fun w hw => ha w (by rw [show i :: a = [i] ++ a from rfl, words_append]; simp [hw])
    cases i with
    | op o => simp [findHash, ih ha']
    | str t =>
      have : '#' ∉ t := ha t (by rw [mem_words]; simp)
      simp [findHash, ih ha', this]

theorem findHash_some {is a b : List Item} {s : Str} (h : findHash is = some (a, s, b)) : is = a ++ .str s :: b ∧ '#' ∈ s ∧ HashFree a := by
  induction is generalizing a with
  | nil => cases h
  | cons i is ih =>
    cases i with
    | op o =>
      simp only [findHash, Option.map_eq_some_iff] at h
      obtain ⟨⟨a', s', b'⟩, h1, h2⟩ := h
      cases h2
      obtain ⟨e1, e2, e3⟩ := ih h1
      refine ⟨by simp [e1], e2, ?_⟩
      intro w hw
      exact e3 w (by simpa [words] using hw)
    | str t =>
      unfold findHash at h
      split at h
      · rename_i ht
        cases h
        exact ⟨by simp, by simpa using ht, by simp [HashFree, words]⟩
      · rename_i ht
        rw [Option.map_eq_some_iff] at h
        obtain ⟨⟨a', s', b'⟩, h1, h2⟩ := h
        cases h2
        obtain ⟨e1, e2, e3⟩ := ih h1
        refine ⟨by simp [e1], e2, ?_⟩
        intro w hw
        rw [show Item.str t :: a' = [.str t] ++ a' from rfl, words_append] at hw
        rcases List.mem_append.1 hw with h | h
        · simp [words] at h; subst h; simpa using ht
        · exact e3 w h

theorem notsRemaining_findHash {is : List Item} (h : notsRemaining is = true) : ∃ x, findHash is = some x := by
  induction is with
  | nil => simp [notsRemaining] at h
  | cons i is ih =>
    cases i with
    | op o =>
      obtain ⟨x, hx⟩ := ih (by simpa [notsRemaining] using h)
      exact ⟨_, by unfold findHash; rw [hx]; rfl⟩
    | str t =>
      unfold findHash
      by_cases ht : t.elem '#' = true
      · exact ⟨_, by rw [if_pos ht]⟩
      · have h' : notsRemaining is = true := by
          have := hashDigits_none (s := t) (by simpa using ht)
          simpa [notsRemaining, this] using h
        obtain ⟨x, hx⟩ := ih h'
        exact ⟨_, by rw [if_neg ht, hx]; rfl⟩

section
variable {K : Type}

theorem findCell_of_mem {cells : List (Cell K)} (hn : (cells.map Cell.id).Nodup) {d : Cell K} (hd : d ∈ cells) {n : Nat} (hid : d.id = n) :
    findCell cells (natStr n) = some d := by
  unfold findCell
  induction cells with
  | nil => cases hd
  | cons c cells ih =>
    simp only [List.map_cons, List.nodup_cons] at hn
    rcases List.mem_cons.1 hd with rfl | hd
    · rw [List.find?_cons_of_pos]
      rw [hid]; exact decide_eq_true rfl
    · rw [List.find?_cons_of_neg, ih hn.2 hd]
      intro e
      have e : intStr c.id = natStr n := by simpa using e
      have := @intStr_injective c.id n e
      exact hn.1 (by rw [this, ← hid]; exact List.mem_map_of_mem hd)

/-- The cell in position `i` with another description. -/
def setItems (cells : List (Cell K)) (i : Nat) (is : List Item) : List (Cell K) :=
  cells.modify i fun c => { c with interpreted := is }

theorem setItems_ids (cells : List (Cell K)) (i : Nat) (is : List Item) : (setItems cells i is).map Cell.id = cells.map Cell.id := by
  unfold setItems
  induction cells generalizing i with
  | nil => simp
  | cons c cells ih => cases i <;> simp [ih]

theorem set_eq_setItems (cells : List (Cell K)) (i : Nat) (c : Cell K) (h : cells[i]? = some c) (is : List Item) :
    cells.set i { c with interpreted := is } = setItems cells i is := by
  unfold setItems
  induction cells generalizing i with
  | nil => simp
  | cons d cells ih =>
    cases i with
    | zero => simp at h; subst h; rfl
    | succ i => simp at h; simp [ih i h]

theorem setItems_get (cells : List (Cell K)) (i : Nat) (c : Cell K) (h : cells[i]? = some c) (is : List Item) :
    (setItems cells i is)[i]? = some { c with interpreted := is } := by
  unfold setItems; simp [h]

theorem setItems_setItems (cells : List (Cell K)) (i : Nat) (is is' : List Item) :
    setItems (setItems cells i is) i is' = setItems cells i is' := by
  unfold setItems
  induction cells generalizing i with
  | nil => simp
  | cons d cells ih =>
    cases i with
    | zero => rfl
    | succ i => simp [ih i]

theorem setItems_self (cells : List (Cell K)) (i : Nat) (c : Cell K) (h : cells[i]? = some c) :
    setItems cells i c.interpreted = cells := by
  rw [← set_eq_setItems cells i c h]
  exact (List.getElem?_eq_some_iff.1 h).elim fun hl e => by subst e; exact List.set_getElem_self hl

theorem mem_setItems {cells : List (Cell K)} {i : Nat} {c : Cell K} (h : cells[i]? = some c) {is : List Item} {d : Cell K}
    (hd : d ∈ setItems cells i is) : d = { c with interpreted := is } ∨ d ∈ cells := by
  rw [← set_eq_setItems cells i c h] at hd
  rcases List.mem_or_eq_of_mem_set hd with h | h
  · exact Or.inr h
  · exact Or.inl h

theorem mem_setItems_of_ne {cells : List (Cell K)} {i : Nat} {c : Cell K} (h : cells[i]? = some c) {is : List Item} {d : Cell K}
    (hd : d ∈ cells) (hne : d ≠ c) : d ∈ setItems cells i is := by
  rw [← set_eq_setItems cells i c h]
  obtain ⟨j, hj⟩ := List.mem_iff_getElem?.1 hd
  have : j ≠ i := by rintro rfl; rw [h] at hj; cases hj; exact hne rfl
  apply List.mem_iff_getElem?.2
  exact ⟨j, by rw [List.getElem?_set_ne this.symm]; exact hj⟩

/-- One round on cell `i` when the first word with `#` is the complement of a cell in another position. -/
theorem explodeCell_step (cells : List (Cell K)) (i : Nat) (c : Cell K) (hi : cells[i]? = some c)
    (hn : (cells.map Cell.id).Nodup) (pre suf : List Item) (hpre : HashFree pre) (n : Nat) (d : Cell K) (hd : d ∈ cells) (hid : d.id = n)
    (hne : d ≠ c) (fuel : Nat) :
    explodeCell (fuel + 1) (setItems cells i (pre ++ .str (refWord n) :: suf)) i =
      explodeCell fuel (setItems cells i (pre ++ (.op .not :: .str c!"(" :: d.interpreted ++ [.str c!")"]) ++ suf)) i := by
  have hg := setItems_get cells i c hi (pre ++ .str (refWord n) :: suf)
  have hrem : notsRemaining (pre ++ .str (refWord n) :: suf) = true := by
    unfold notsRemaining
    rw [List.any_eq_true]
    exact ⟨.str (refWord n), by simp, by simp [hashDigits_refWord]⟩
  have hfc : findCell (setItems cells i (pre ++ .str (refWord n) :: suf)) (natStr n) = some d :=
    findCell_of_mem (by rw [setItems_ids]; exact hn) (mem_setItems_of_ne hi hd hne) hid
  rw [explodeCell, hg]
  simp only [hrem, if_true, splitNots, findHash_free hpre _ (hash_mem_refWord n), hashDigits_refWord, hfc]
  have := set_eq_setItems (setItems cells i (pre ++ .str (refWord n) :: suf)) i _ hg
    (pre ++ (.op .not :: .str c!"(" :: d.interpreted ++ [.str c!")"]) ++ suf)
  simp only at this
  rw [this, setItems_setItems]

/-- References of a list of entries go to cells of rank below `k`. -/
def RefsBelow (rank : Int → Nat) (cells : List (Cell K)) (k : Nat) (is : List Item) : Prop :=
  ∀ w ∈ words is, '#' ∈ w → ∃ n : Nat, ∃ d ∈ cells, w = refWord n ∧ d.id = n ∧ rank d.id < k

theorem explode_terminates (rank : Int → Nat) (cells : List (Cell K)) (h : Acyclic rank cells) (i : Nat) (c : Cell K)
    (hi : cells[i]? = some c) : ∀ k ≤ rank c.id, ∀ todo : List Item, RefsBelow rank cells k todo →
      ∀ pre suf : List Item, HashFree pre → ∃ out m, HashFree out ∧ ∀ fuel,
        explodeCell (fuel + m) (setItems cells i (pre ++ todo ++ suf)) i =
          explodeCell fuel (setItems cells i (pre ++ out ++ suf)) i := by
  intro k
  induction k using Nat.strong_induction_on with
  | _ k ihk =>
    intro hk todo
    induction todo with
    | nil =>
      intro _ pre suf _
      exact ⟨[], 0, by simp [HashFree, words], fun fuel => rfl⟩
    | cons j todo ih =>
      intro hr pre suf hpre
      have hr' : RefsBelow rank cells k todo := fun w hw => hr w (by
        rw [mem_words] at hw ⊢; exact List.mem_cons_of_mem _ hw)
      by_cases hj : HashFree [j]
      · obtain ⟨out, m, h1, h2⟩ := ih hr' (pre ++ [j]) suf (hpre.append hj)
        refine ⟨j :: out, m, ?_, fun fuel => ?_⟩
        · exact HashFree.append hj h1
        · simpa using h2 fuel
      · cases j with
        | op o => exact absurd (by simp [HashFree, words]) hj
        | str s =>
          have hs : '#' ∈ s := by
            by_contra hc
            exact hj (by intro w hw; simp [words] at hw; subst hw; exact hc)
          obtain ⟨n, d, hd, rfl, hid, hlt⟩ := hr s (by rw [mem_words]; simp) hs
          have hne : d ≠ c := by rintro rfl; omega
          have hstep := explodeCell_step cells i c hi h.ids pre (todo ++ suf) hpre n d hd hid hne
          -- expand the inserted cell
          have hbel : RefsBelow rank cells (rank d.id) d.interpreted := h.refs d hd
          obtain ⟨out1, m1, f1, g1⟩ := ihk (rank d.id) hlt (by omega) d.interpreted hbel (pre ++ [.op .not, .str c!"("])
            (.str c!")" :: (todo ++ suf)) (hpre.append (by simp [HashFree, words]))
          obtain ⟨out2, m2, f2, g2⟩ := ih hr' (pre ++ [.op .not, .str c!"("] ++ out1 ++ [.str c!")"]) suf
            (((hpre.append (by simp [HashFree, words])).append f1).append (by simp [HashFree, words]))
          refine ⟨[.op .not, .str c!"("] ++ out1 ++ [.str c!")"] ++ out2, m2 + m1 + 1, ?_, fun fuel => ?_⟩
          · exact ((HashFree.append (by simp [HashFree, words]) f1).append (by simp [HashFree, words])).append f2
          · have e1 := hstep (fuel + m2 + m1)
            have e2 := g1 (fuel + m2)
            have e3 := g2 fuel
            simp only [List.append_assoc, List.cons_append, List.nil_append] at e1 e2 e3 ⊢
            rw [show fuel + (m2 + m1 + 1) = fuel + m2 + m1 + 1 by omega, e1, e2, e3]

theorem explodeCell_mono {fuel fuel' : Nat} (hf : fuel ≤ fuel') {cells : List (Cell K)} {i : Nat} {r : Py (List (Cell K))}
    (h : explodeCell fuel cells i = some r) : explodeCell fuel' cells i = some r := by
  induction fuel generalizing fuel' cells with
  | zero => cases h
  | succ fuel ih =>
    obtain ⟨g, rfl⟩ : ∃ g, fuel' = g + 1 := ⟨fuel' - 1, by omega⟩
    unfold explodeCell at h ⊢
    cases hc : cells[i]? with
    | none => rw [hc] at h; exact h
    | some c =>
      rw [hc] at h
      dsimp only at h ⊢
      split
      · rename_i hr
        rw [if_pos hr] at h
        cases hs : splitNots cells c.interpreted with
        | error e => rw [hs] at h; exact h
        | ok is => rw [hs] at h; exact ih (by omega) h
      · rename_i hr
        rwa [if_neg hr] at h

theorem explodeFrom_mono {fuel fuel' : Nat} (hf : fuel ≤ fuel') {n : Nat} {cells : List (Cell K)} {i : Nat} {r : Py (List (Cell K))}
    (h : explodeFrom fuel n cells i = some r) : explodeFrom fuel' n cells i = some r := by
  induction n generalizing cells i with
  | zero => exact h
  | succ n ih =>
    unfold explodeFrom at h ⊢
    cases hc : explodeCell fuel cells i with
    | none => rw [hc] at h; cases h
    | some x =>
      rw [hc] at h
      rw [explodeCell_mono hf hc]
      cases x with
      | error e => exact h
      | ok cells' => exact ih h

/-- Inserting a cell in place of its complement keeps the assumptions and the truth values. -/
theorem acyclic_step {rank : Int → Nat} {cells : List (Cell K)} (h : Acyclic rank cells) {i : Nat} {c : Cell K}
    (hi : cells[i]? = some c) {a b : List Item} {n : Nat} (hc : c.interpreted = a ++ .str (refWord n) :: b) {d : Cell K} (hd : d ∈ cells)
    (hid : d.id = n) (hlt : rank d.id < rank c.id) :
    Acyclic rank (setItems cells i (a ++ (.op .not :: .str c!"(" :: d.interpreted ++ [.str c!")"]) ++ b)) ∧
      ∀ σ T, IsCellTruth σ T cells →
        IsCellTruth σ T (setItems cells i (a ++ (.op .not :: .str c!"(" :: d.interpreted ++ [.str c!")"]) ++ b)) := by
  have hcm : c ∈ cells := List.mem_iff_getElem?.2 ⟨i, hi⟩
  obtain ⟨rd, hrd⟩ := h.legal d hd
  have hsym : itemSyms (a ++ (.op .not :: .str c!"(" :: d.interpreted ++ [.str c!")"]) ++ b) =
      itemSyms a ++ (.no :: .lp :: (itemSyms d.interpreted ++ [.rp])) ++ itemSyms b := by
    simp [itemSyms_append, itemSyms]
  have hrw1 : refWord n ≠ c!"(" := by simp [refWord]
  have hrw2 : refWord n ≠ c!")" := by simp [refWord]
  have hsymc : itemSyms c.interpreted = itemSyms a ++ .atom (refWord n) :: itemSyms b := by
    rw [hc, itemSyms_append]
    simp [itemSyms, hrw1, hrw2]
  obtain ⟨hleg, hrep⟩ := holds_replace (itemSyms a) (itemSyms b) (refWord n) _ _ (by rw [← hsymc]; exact h.legal c hcm)
    (derives_compl_paren hrd)
  rw [← hsymc, ← hsym] at hrep
  rw [← hsym] at hleg
  refine ⟨⟨by rw [setItems_ids]; exact h.ids, ?_, ?_⟩, ?_⟩
  · intro e he
    rcases mem_setItems hi he with rfl | he
    · exact hleg
    · exact h.legal e he
  · intro e he w hw hh
    have lift : ∀ m : Nat, ∀ f ∈ cells, w = refWord m → f.id = m → rank f.id < rank e.id →
        ∃ n : Nat, ∃ f ∈ setItems cells i (a ++ (.op .not :: .str c!"(" :: d.interpreted ++ [.str c!")"]) ++ b),
          w = refWord n ∧ f.id = n ∧ rank f.id < rank e.id := by
      intro m f hf hw' hfid hlt'
      by_cases hfc : f = c
      · subst hfc
        exact ⟨m, { f with interpreted := _ }, List.mem_iff_getElem?.2 ⟨i, setItems_get cells i f hi _⟩, hw', hfid, hlt'⟩
      · exact ⟨m, f, mem_setItems_of_ne hi hf hfc, hw', hfid, hlt'⟩
    rcases mem_setItems hi he with rfl | he
    · simp only at hw
      have hw' : w ∈ words c.interpreted ∨ w ∈ words d.interpreted := by
        rw [words_append, words_append] at hw
        rw [hc, words_append]
        simp only [List.mem_append] at hw ⊢
        rcases hw with (hw | hw) | hw
        · exact Or.inl (Or.inl hw)
        · rw [mem_words] at hw
          simp only [List.cons_append, List.mem_cons, List.mem_append, List.not_mem_nil, or_false] at hw
          rcases hw with hw | hw | hw | hw
          · cases hw
          · cases hw; simp at hh
          · exact Or.inr (mem_words.2 hw)
          · cases hw; simp at hh
        · exact Or.inl (Or.inr (by rw [mem_words] at hw ⊢; exact List.mem_cons_of_mem _ hw))
      rcases hw' with hw' | hw'
      · obtain ⟨m, f, hf, h1, h2, h3⟩ := h.refs c hcm w hw' hh
        exact lift m f hf h1 h2 h3
      · obtain ⟨m, f, hf, h1, h2, h3⟩ := h.refs d hd w hw' hh
        exact lift m f hf h1 h2 (lt_trans h3 hlt)
    · obtain ⟨m, f, hf, h1, h2, h3⟩ := h.refs e he w hw hh
      exact lift m f hf h1 h2 h3
  · intro σ T hT e he
    rcases mem_setItems hi he with rfl | he
    · rw [hT c hcm]
      refine hrep _ ?_
      show _ ↔ ¬ _
      rw [← holds_iff hrd, ← hT d hd, hid]
      unfold cellSense
      rw [if_pos (hash_mem_refWord n)]
      constructor
      · rintro ⟨m, e, hm⟩; rwa [refWord_injective e]
      · intro hm; exact ⟨n, rfl, hm⟩
    · exact hT e he

theorem explodeCell_keeps {rank : Int → Nat} {fuel : Nat} {cells cells' : List (Cell K)} (h : Acyclic rank cells) {i : Nat} {c : Cell K}
    (hi : cells[i]? = some c) (he : explodeCell fuel cells i = some (.ok cells')) :
    ∃ is, cells' = setItems cells i is ∧ HashFree is ∧ Acyclic rank cells' ∧ ∀ σ T, IsCellTruth σ T cells → IsCellTruth σ T cells' := by
  induction fuel generalizing cells c with
  | zero => cases he
  | succ fuel ih =>
    unfold explodeCell at he
    rw [hi] at he
    dsimp only at he
    have hcm : c ∈ cells := List.mem_iff_getElem?.2 ⟨i, hi⟩
    by_cases hr : notsRemaining c.interpreted = true
    · rw [if_pos hr] at he
      obtain ⟨⟨a, s, b⟩, hf⟩ := notsRemaining_findHash hr
      obtain ⟨e1, e2, e3⟩ := findHash_some hf
      obtain ⟨n, d, hd, rfl, hid, hlt⟩ := h.refs c hcm s (by rw [mem_words, e1]; simp) e2
      have hfc := findCell_of_mem h.ids hd hid
      unfold splitNots at he
      simp only [hf, hashDigits_refWord, hfc] at he
      rw [set_eq_setItems cells i c hi] at he
      obtain ⟨k1, k2⟩ := acyclic_step h hi e1 hd hid hlt
      obtain ⟨is, h1, h2, h3, h4⟩ := ih k1 (setItems_get cells i c hi _) he
      refine ⟨is, by rw [h1, setItems_setItems], h2, h3, fun σ T hT => h4 σ T (k2 σ T hT)⟩
    · rw [if_neg hr] at he
      cases he
      refine ⟨c.interpreted, (setItems_self _ i c hi).symm, ?_, h, fun _ _ hT => hT⟩
      intro w hw hh
      obtain ⟨n, d, hd, rfl, -⟩ := h.refs c hcm w hw hh
      apply hr
      unfold notsRemaining
      rw [List.any_eq_true]
      exact ⟨_, mem_words.1 hw, by simp [hashDigits_refWord]⟩

theorem explodeCell_total {rank : Int → Nat} {cells : List (Cell K)} (h : Acyclic rank cells) {i : Nat} {c : Cell K}
    (hi : cells[i]? = some c) : ∃ fuel cells', explodeCell fuel cells i = some (.ok cells') := by
  have hcm : c ∈ cells := List.mem_iff_getElem?.2 ⟨i, hi⟩
  obtain ⟨out, m, h1, h2⟩ := explode_terminates rank cells h i c hi (rank c.id) (Nat.le_refl _) c.interpreted (h.refs c hcm) [] []
    (by simp [HashFree, words])
  have h3 := h2 1
  simp only [List.nil_append, List.append_nil] at h3
  rw [setItems_self cells i c hi] at h3
  refine ⟨1 + m, setItems cells i out, ?_⟩
  rw [h3, explodeCell, setItems_get cells i c hi]
  simp [h1.not_remaining]

/-- The whole loop from position `i` on. -/
theorem explodeFrom_spec {rank : Int → Nat} (n : Nat) : ∀ {cells : List (Cell K)} (_ : Acyclic rank cells) (i : Nat)
    (_ : i + n = cells.length) (_ : ∀ j c, j < i → cells[j]? = some c → HashFree c.interpreted),
    ∃ fuel cells', explodeFrom fuel n cells i = some (.ok cells') ∧ Acyclic rank cells' ∧
      (∀ c ∈ cells', HashFree c.interpreted) ∧ (∀ σ T, IsCellTruth σ T cells → IsCellTruth σ T cells') ∧
      List.Forall₂ (fun c c' => c' = { c with interpreted := c'.interpreted }) cells cells' := by
  have refl : ∀ cells : List (Cell K), List.Forall₂ (fun c c' => c' = { c with interpreted := c'.interpreted }) cells cells := by
    intro cells
    induction cells with
    | nil => exact .nil
    | cons c cells ih => exact .cons rfl ih
  induction n with
  | zero =>
    intro cells h i hi hfree
    refine ⟨0, cells, rfl, h, ?_, fun _ _ hT => hT, refl cells⟩
    intro c hc
    obtain ⟨j, hj⟩ := List.mem_iff_getElem?.1 hc
    exact hfree j c (by have := (List.getElem?_eq_some_iff.1 hj).1; omega) hj
  | succ n ih =>
    intro cells h i hi hfree
    obtain ⟨c, hc⟩ : ∃ c, cells[i]? = some c := ⟨_, List.getElem?_eq_getElem (by omega)⟩
    obtain ⟨f1, cells1, he1⟩ := explodeCell_total h hc
    obtain ⟨is, rfl, hf, ha, ht⟩ := explodeCell_keeps h hc he1
    obtain ⟨f2, cells2, he2, k1, k2, k3, k4⟩ := ih ha (i + 1) (by rw [← List.length_map (f := Cell.id), setItems_ids, List.length_map]; omega)
      (by
        intro j d hj hd
        by_cases hji : j = i
        · subst hji
          rw [setItems_get cells j c hc] at hd
          cases hd; exact hf
        · rw [← set_eq_setItems cells i c hc, List.getElem?_set_ne (fun e => hji e.symm)] at hd
          exact hfree j d (by omega) hd)
    refine ⟨max f1 f2, cells2, ?_, k1, k2, fun σ T hT => k3 σ T (ht σ T hT), ?_⟩
    · unfold explodeFrom
      rw [explodeCell_mono (le_max_left f1 f2) he1]
      exact explodeFrom_mono (le_max_right f1 f2) he2
    · have hset : List.Forall₂ (fun c c' : Cell K => c' = { c with interpreted := c'.interpreted }) cells (setItems cells i is) := by
        clear * - refl
        unfold setItems
        induction cells generalizing i with
        | nil => simp
        | cons d cells ih =>
          cases i with
          | zero => exact .cons rfl (refl cells)
          | succ i => exact .cons rfl (ih i)
      clear * - hset k4
      generalize setItems cells i is = l at hset k4
      induction hset generalizing cells2 with
      | nil => cases k4; exact .nil
      | cons h1 _ ih =>
        cases k4 with
        | cons h2 h3 =>
          refine .cons ?_ (ih _ h3)
          rw [h2, h1]

/-- Truth values with references followed to a given depth. -/
def truthAt (σ : Str → Prop) (cells : List (Cell K)) : Nat → Int → Prop
  | 0, _ => False
  | k + 1, n => ∃ c ∈ cells, c.id = n ∧ Holds (cellSense σ (truthAt σ cells k)) (itemSyms c.interpreted)

theorem truthAt_stable {rank : Int → Nat} {cells : List (Cell K)} (h : Acyclic rank cells) (σ : Str → Prop) :
    ∀ k c, c ∈ cells → rank c.id = k → ∀ j l, k < j → k < l → (truthAt σ cells j c.id ↔ truthAt σ cells l c.id) := by
  intro k
  induction k using Nat.strong_induction_on with
  | _ k ih =>
    intro c hc hk j l hj hl
    obtain ⟨j, rfl⟩ : ∃ j', j = j' + 1 := ⟨j - 1, by omega⟩
    obtain ⟨l, rfl⟩ : ∃ l', l = l' + 1 := ⟨l - 1, by omega⟩
    simp only [truthAt]
    refine exists_congr fun d => and_congr_right fun hd => and_congr_right fun he => ?_
    refine holds_congr fun w hw => ?_
    unfold cellSense
    split
    · rename_i hh
      obtain ⟨n, f, hf, rfl, hfid, hlt⟩ := h.refs d hd w (atom_mem_itemSyms hw) hh
      have := ih (rank f.id) (by rw [he] at hlt; omega) f hf rfl j l (by rw [he] at hlt; omega) (by rw [he] at hlt; omega)
      rw [hfid] at this
      refine exists_congr fun m => and_congr_right fun hm => ?_
      rw [← refWord_injective hm, this]
    · exact Iff.rfl

/-- Every word with `#` is the complement of an existing cell. -/
def RefsExist (cells : List (Cell K)) : Prop :=
  ∀ c ∈ cells, ∀ w ∈ words c.interpreted, '#' ∈ w → ∃ n : Nat, ∃ d ∈ cells, w = refWord n ∧ d.id = n

/-- Each cell of the set `S` refers to a cell of `S`. -/
def RefersWithin (S : Int → Prop) (cells : List (Cell K)) : Prop :=
  ∀ c ∈ cells, S c.id → ∃ n : Nat, S n ∧ refWord n ∈ words c.interpreted

theorem findCell_some {cells : List (Cell K)} {n : Nat} {d : Cell K} (h : findCell cells (natStr n) = some d) : d ∈ cells ∧ d.id = n := by
  unfold findCell at h
  refine ⟨List.mem_of_find?_eq_some h, ?_⟩
  have := List.find?_some h
  have this : intStr d.id = natStr n := by simpa using this
  exact @intStr_injective d.id n this

theorem findCell_exists {cells : List (Cell K)} {n : Nat} {d : Cell K} (hd : d ∈ cells) (hid : d.id = n) :
    ∃ e, findCell cells (natStr n) = some e := by
  cases h : findCell cells (natStr n) with
  | some e => exact ⟨e, rfl⟩
  | none =>
    unfold findCell at h
    rw [List.find?_eq_none] at h
    exact absurd (by rw [hid]; exact decide_eq_true rfl) (h d hd)

/-- One round when all references exist. -/
theorem round {cells : List (Cell K)} (h : RefsExist cells) {i : Nat} {c : Cell K} (hi : cells[i]? = some c)
    (hr : notsRemaining c.interpreted = true) : ∃ (a b : List Item) (n : Nat) (d : Cell K), c.interpreted = a ++ .str (refWord n) :: b ∧ d ∈ cells ∧ d.id = (n : Int) ∧
      splitNots cells c.interpreted = .ok (a ++ (.op .not :: .str c!"(" :: d.interpreted ++ [.str c!")"]) ++ b) := by
  obtain ⟨⟨a, s, b⟩, hf⟩ := notsRemaining_findHash hr
  obtain ⟨e1, e2, e3⟩ := findHash_some hf
  obtain ⟨n, d, hd, rfl, hid⟩ := h c (List.mem_iff_getElem?.2 ⟨i, hi⟩) s (by rw [mem_words, e1]; simp) e2
  obtain ⟨e, he⟩ := findCell_exists hd hid
  obtain ⟨h1, h2⟩ := findCell_some he
  refine ⟨a, b, n, e, e1, h1, h2, ?_⟩
  unfold splitNots
  simp only [hf, hashDigits_refWord, he]

theorem words_inserted {a b ds : List Item} {w : Str} (hh : '#' ∈ w) :
    w ∈ words (a ++ (.op .not :: .str c!"(" :: ds ++ [.str c!")"]) ++ b) ↔ w ∈ words a ∨ w ∈ words ds ∨ w ∈ words b := by
  rw [words_append, words_append]
  simp only [List.mem_append]
  have : w ∈ words (.op .not :: .str c!"(" :: ds ++ [.str c!")"]) ↔ w ∈ words ds := by
    rw [mem_words, mem_words]
    simp only [List.cons_append, List.mem_cons, List.mem_append, List.not_mem_nil, or_false]
    constructor
    · rintro (h | h | h | h)
      · cases h
      · cases h; simp at hh
      · exact h
      · cases h; simp at hh
    · intro h; exact Or.inr (Or.inr (Or.inl h))
  rw [this]; tauto

theorem mem_of_setItems {cells : List (Cell K)} (i : Nat) (is : List Item) {d : Cell K}
    (hd : d ∈ cells) : ∃ e ∈ setItems cells i is, e.id = d.id := by
  have : d.id ∈ (setItems cells i is).map Cell.id := by rw [setItems_ids]; exact List.mem_map_of_mem hd
  obtain ⟨e, he, h⟩ := List.mem_map.1 this
  exact ⟨e, he, h⟩

theorem round_keeps {S : Int → Prop} {cells : List (Cell K)} (h : RefsExist cells) (hS : RefersWithin S cells) {i : Nat} {c : Cell K}
    (hi : cells[i]? = some c) {a b : List Item} {n : Nat} {d : Cell K} (e : c.interpreted = a ++ .str (refWord n) :: b) (hd : d ∈ cells)
    (hid : d.id = (n : Int)) :
    RefsExist (setItems cells i (a ++ (.op .not :: .str c!"(" :: d.interpreted ++ [.str c!")"]) ++ b)) ∧
      RefersWithin S (setItems cells i (a ++ (.op .not :: .str c!"(" :: d.interpreted ++ [.str c!")"]) ++ b)) := by
  have hcm : c ∈ cells := List.mem_iff_getElem?.2 ⟨i, hi⟩
  constructor
  · intro f hf w hw hh
    have : ∃ g ∈ cells, w ∈ words g.interpreted := by
      rcases mem_setItems hi hf with rfl | hf
      · rcases (words_inserted hh).1 hw with hw | hw | hw
        · exact ⟨c, hcm, by rw [e, words_append]; simp [hw]⟩
        · exact ⟨d, hd, hw⟩
        · refine ⟨c, hcm, ?_⟩
          rw [mem_words] at hw ⊢
          rw [e]; simp [hw]
      · exact ⟨f, hf, hw⟩
    obtain ⟨g, hg, hw⟩ := this
    obtain ⟨m, k, hk, h1, h2⟩ := h g hg w hw hh
    obtain ⟨k', hk', h3⟩ := mem_of_setItems i (a ++ (.op .not :: .str c!"(" :: d.interpreted ++ [.str c!")"]) ++ b) hk
    exact ⟨m, k', hk', h1, by rw [h3, h2]⟩
  · intro f hf hSf
    rcases mem_setItems hi hf with rfl | hf
    · obtain ⟨m, hm1, hm2⟩ := hS c hcm hSf
      by_cases hmn : m = n
      · subst hmn
        obtain ⟨m', h1, h2⟩ := hS d hd (by rw [hid]; exact hm1)
        exact ⟨m', h1, (words_inserted (hash_mem_refWord m')).2 (Or.inr (Or.inl h2))⟩
      · refine ⟨m, hm1, (words_inserted (hash_mem_refWord m)).2 ?_⟩
        rw [e, mem_words] at hm2
        simp only [List.mem_append, List.mem_cons] at hm2
        rcases hm2 with h | h | h
        · exact Or.inl (mem_words.2 h)
        · exact absurd (refWord_injective (by simpa using h)) hmn
        · exact Or.inr (Or.inr (mem_words.2 h))
    · exact hS f hf hSf

theorem remaining_of_mem {is : List Item} {n : Nat} (h : refWord n ∈ words is) : notsRemaining is = true := by
  unfold notsRemaining
  rw [List.any_eq_true]
  exact ⟨_, mem_words.1 h, by simp [hashDigits_refWord]⟩

theorem explodeCell_cycle {S : Int → Prop} (fuel : Nat) {cells : List (Cell K)} (h : RefsExist cells) (hS : RefersWithin S cells) {i : Nat}
    {c : Cell K} (hi : cells[i]? = some c) :
    explodeCell fuel cells i = none ∨ ¬ S c.id ∧ ∃ is, explodeCell fuel cells i = some (.ok (setItems cells i is)) ∧
      RefsExist (setItems cells i is) ∧ RefersWithin S (setItems cells i is) := by
  induction fuel generalizing cells c with
  | zero => exact Or.inl rfl
  | succ fuel ih =>
    unfold explodeCell
    rw [hi]
    dsimp only
    by_cases hr : notsRemaining c.interpreted = true
    · rw [if_pos hr]
      obtain ⟨a, b, n, d, h1, h2, h3, h4⟩ := round h hi hr
      rw [h4]
      simp only
      rw [set_eq_setItems cells i c hi]
      obtain ⟨k1, k2⟩ := round_keeps h hS hi h1 h2 h3
      rcases ih k1 k2 (setItems_get cells i c hi _) with hn | ⟨hs, is, h5, h6, h7⟩
      · exact Or.inl hn
      · refine Or.inr ⟨hs, is, ?_⟩
        rw [setItems_setItems] at h5 h6 h7
        exact ⟨h5, h6, h7⟩
    · rw [if_neg hr]
      refine Or.inr ⟨?_, c.interpreted, ?_⟩
      · intro hs
        obtain ⟨n, -, hn⟩ := hS c (List.mem_iff_getElem?.2 ⟨i, hi⟩) hs
        exact hr (remaining_of_mem hn)
      · rw [setItems_self cells i c hi]
        exact ⟨rfl, h, hS⟩

theorem explodeFrom_cycle {S : Int → Prop} (fuel : Nat) (n : Nat) : ∀ {cells : List (Cell K)} (_ : RefsExist cells) (_ : RefersWithin S cells)
    (i : Nat) (_ : i + n = cells.length), explodeFrom fuel n cells i = none ∨
      (∃ cells', explodeFrom fuel n cells i = some (.ok cells')) ∧ ∀ j c, i ≤ j → cells[j]? = some c → ¬ S c.id := by
  induction n with
  | zero =>
    intro cells _ _ i hi
    refine Or.inr ⟨⟨cells, rfl⟩, fun j c hj hc => ?_⟩
    have := (List.getElem?_eq_some_iff.1 hc).1
    omega
  | succ n ih =>
    intro cells h hS i hi
    obtain ⟨c, hc⟩ : ∃ c, cells[i]? = some c := ⟨_, List.getElem?_eq_getElem (by omega)⟩
    unfold explodeFrom
    rcases explodeCell_cycle fuel h hS hc with h1 | ⟨h1, is, h2, h3, h4⟩
    · rw [h1]; exact Or.inl rfl
    · rw [h2]
      dsimp only
      rcases ih h3 h4 (i + 1) (by rw [← List.length_map (f := Cell.id), setItems_ids, List.length_map]; omega) with h5 | ⟨h5, h6⟩
      · exact Or.inl h5
      · refine Or.inr ⟨h5, fun j d hj hd => ?_⟩
        by_cases hji : j = i
        · subst hji; rw [hc] at hd; cases hd; exact h1
        · refine h6 j d (by omega) ?_
          rw [← set_eq_setItems cells i c hc, List.getElem?_set_ne (fun e => hji e.symm)]
          exact hd

end

end Csg
