import Verif.Lemmas.CellWriters
import Verif.Lemmas.Region
import Verif.Model.Nots
import Mathlib.Data.List.Chain

/-!
# Descriptions made by the reader are spaced
-/

namespace Csg

open Spec

/-! ## No two union signs in a row -/

theorem derives_union_ends {A : Type} {l : Level} {w : List (Sym A)} {r : Reg A} (h : Derives l w r) :
    w ≠ [] ∧ w.head? ≠ some .un ∧ w.getLast? ≠ some .un ∧ ∀ a b, w ≠ a ++ .un :: .un :: b := by
  have app : ∀ (u v : List (Sym A)), (u.getLast? ≠ some .un ∨ v.head? ≠ some .un) → (∀ a b, u ≠ a ++ .un :: .un :: b) → (∀ a b, v ≠ a ++ .un :: .un :: b) →
      ∀ a b, u ++ v ≠ a ++ .un :: .un :: b := by
    intro u v hmid hu hv a b e
    rcases List.append_eq_append_iff.1 e with ⟨c, h1, h2⟩ | ⟨c, h1, h2⟩
    · exact hv c b h2
    · cases c with
      | nil => simp at h1 h2; exact hv [] b h2.symm
      | cons x c =>
        simp at h2
        obtain ⟨rfl, h2⟩ := h2
        cases c with
        | nil =>
          simp at h2
          subst h1
          rcases hmid with h | h
          · simp at h
          · rw [← h2] at h; simp at h
        | cons y c =>
          simp at h2
          obtain ⟨rfl, h2⟩ := h2
          exact hu a c h1
  induction h with
  | atom a => refine ⟨by simp, by simp, by simp, ?_⟩; intro a b e; cases a <;> simp at e
  | @paren w r _ ih =>
    refine ⟨by simp, by simp, ?_, ?_⟩
    · rw [← List.cons_append, List.getLast?_append]; simp
    · have h1 := app w [.rp] (Or.inr (by simp)) ih.2.2.2 (by intro a b e; rcases a with _ | ⟨x, _ | ⟨y, a⟩⟩ <;> simp at e)
      exact app [.lp] (w ++ [.rp]) (Or.inl (by simp)) (by intro a b e; rcases a with _ | ⟨x, _ | ⟨y, a⟩⟩ <;> simp at e) h1
  | @compl w r _ ih =>
    refine ⟨by simp, by simp, ?_, ?_⟩
    · have : (Sym.no :: w).getLast? = w.getLast? := by
        obtain ⟨x, w, rfl⟩ := List.exists_cons_of_ne_nil ih.1
        rfl
      rw [this]; exact ih.2.2.1
    · exact app [.no] w (Or.inl (by simp)) (by intro a b e; rcases a with _ | ⟨x, _ | ⟨y, a⟩⟩ <;> simp at e) ih.2.2.2
  | single _ ih => exact ih
  | @inter w r w' r' _ _ ih ih' =>
    refine ⟨by simp [ih.1], ?_, ?_, app _ _ (Or.inl ih.2.2.1) ih.2.2.2 ih'.2.2.2⟩
    · obtain ⟨x, w, rfl⟩ := List.exists_cons_of_ne_nil ih.1
      exact ih.2.1
    · rw [List.getLast?_append]
      obtain ⟨y, hy⟩ : ∃ y, w'.getLast? = some y := by
        cases hh : w'.getLast? with
        | none => exact absurd (List.getLast?_eq_none_iff.1 hh) ih'.1
        | some y => exact ⟨y, rfl⟩
      rw [hy]
      have := ih'.2.2.1
      rw [hy] at this
      simpa using this
  | one _ ih => exact ih
  | @union w r w' r' _ _ ih ih' =>
    refine ⟨by simp, ?_, ?_, ?_⟩
    · obtain ⟨x, w, rfl⟩ := List.exists_cons_of_ne_nil ih.1
      exact ih.2.1
    · rw [List.getLast?_append]
      have : (Sym.un :: w').getLast? = w'.getLast? := by
        obtain ⟨x, w, rfl⟩ := List.exists_cons_of_ne_nil ih'.1
        rfl
      rw [this]
      obtain ⟨y, hy⟩ : ∃ y, w'.getLast? = some y := by
        cases hh : w'.getLast? with
        | none => exact absurd (List.getLast?_eq_none_iff.1 hh) ih'.1
        | some y => exact ⟨y, rfl⟩
      rw [hy]
      have := ih'.2.2.1
      rw [hy] at this
      simpa using this
    · refine app _ _ (Or.inl ih.2.2.1) ih.2.2.2 ?_
      exact app [.un] w' (Or.inr ih'.2.1) (by intro a b e; rcases a with _ | ⟨x, _ | ⟨y, a⟩⟩ <;> simp at e) ih'.2.2.2

theorem legal_no_double_union {A : Type} {w : List (Sym A)} (h : Legal w) : ∀ a b, w ≠ a ++ .un :: .un :: b := by
  obtain ⟨r, hr⟩ := h
  exact (derives_union_ends hr).2.2.2

/-! ## Interpretation -/

theorem follows_of_not_atom {i j : Item} (hj : ∀ s, j = .str s → IsParen s) (hu : ¬ (i = .op .union ∧ j = .op .union)) : Follows i j :=
  ⟨fun s hs hp => absurd (hj s hs) hp, hu⟩

theorem generaliseGo_spaced (toks : List Str) : ∀ (prev : Item) (is : List Item) (ns : List Int), generaliseGo prev toks = .ok (is, ns) →
    (∀ a b, toks ≠ a ++ c!":" :: c!":" :: b) → (prev = .op .union → toks.head? ≠ some c!":") →
    Spaced is ∧ ∀ j, is.head? = some j → Follows prev j := by
  induction toks with
  | nil => intro prev is ns h; cases h
  | cons s rest ih =>
    intro prev is ns h hd hp
    have hd' : ∀ a b, rest ≠ a ++ c!":" :: c!":" :: b := fun a b e => hd (s :: a) b (by rw [e]; rfl)
    have chain : ∀ (i : Item) (is' : List Item), (Spaced is' ∧ ∀ j, is'.head? = some j → Follows i j) → Spaced (i :: is') :=
      fun i is' h => List.IsChain.cons h.1 fun y hy => h.2 y hy
    unfold generaliseGo at h
    by_cases h1 : s = c!":"
    · rw [if_pos h1] at h
      obtain ⟨⟨is', ns'⟩, h', h⟩ := bind_ok h
      cases h
      refine ⟨chain _ _ (ih _ _ _ h' hd' ?_), ?_⟩
      · intro _ hh
        cases rest with
        | nil => simp at hh
        | cons t rest =>
          simp at hh
          exact hd [] rest (by rw [h1, hh]; rfl)
      · intro j hj
        simp at hj
        subst hj
        refine follows_of_not_atom (by simp) ?_
        rintro ⟨hu, -⟩
        exact hp hu (by simp [h1])
    · rw [if_neg h1] at h
      by_cases h2 : s = c!"#"
      · rw [if_pos h2] at h
        obtain ⟨⟨is', ns'⟩, h', h⟩ := bind_ok h
        cases h
        refine ⟨chain _ _ (ih _ _ _ h' hd' (by simp)), ?_⟩
        intro j hj
        simp at hj
        subst hj
        exact follows_of_not_atom (by simp) (by simp)
      · rw [if_neg h2] at h
        by_cases h3 : s = c!"("
        · rw [if_pos h3] at h
          obtain ⟨⟨is', ns'⟩, h', h⟩ := bind_ok h
          cases h
          refine ⟨chain _ _ (ih _ _ _ h' hd' (by simp)), ?_⟩
          intro j hj
          simp at hj
          subst hj
          exact follows_of_not_atom (fun t ht => by cases ht; exact Or.inl h3) (by simp)
        · rw [if_neg h3] at h
          have key : ∀ put : List Item × List Int,
              (put.1 = [.op .and, .str s] ∨ put.1 = [.str s] ∧ (prev = .str c!"(" ∨ s = c!")")) →
              (if rest = [] then (.ok put : Py (List Item × List Int))
                else do
                  let (is, ns) ← generaliseGo (.str s) rest
                  .ok (put.1 ++ is, put.2 ++ ns)) = .ok (is, ns) →
              Spaced is ∧ ∀ j, is.head? = some j → Follows prev j := by
            intro put hput hh
            have hfirst : ∀ is' : List Item, is'.head? = put.1.head? → ∀ j, is'.head? = some j → Follows prev j := by
              intro is' he j hj
              rw [he] at hj
              rcases hput with e | ⟨e, h4⟩
              · rw [e] at hj; simp at hj; subst hj
                exact follows_of_not_atom (by simp) (by simp)
              · rw [e] at hj; simp at hj; subst hj
                refine ⟨fun t ht htp => ?_, by simp⟩
                cases ht
                rcases h4 with h4 | h4
                · exact Or.inr h4
                · exact absurd (Or.inr h4) htp
            have hand : Follows (.op .and) (.str s) := ⟨fun _ _ _ => Or.inl rfl, by simp⟩
            by_cases hr : rest = []
            · rw [if_pos hr] at hh
              cases hh
              refine ⟨?_, hfirst _ rfl⟩
              rcases hput with e | ⟨e, -⟩
              · rw [show is = _ from e]
                exact List.IsChain.cons_cons hand (List.isChain_singleton _)
              · rw [show is = _ from e]
                exact List.isChain_singleton _
            · rw [if_neg hr] at hh
              obtain ⟨⟨is', ns'⟩, h', hh⟩ := bind_ok hh
              cases hh
              have hs := chain _ _ (ih _ _ _ h' hd' (by simp))
              refine ⟨?_, hfirst _ ?_⟩
              · rcases hput with e | ⟨e, -⟩
                · rw [e]
                  exact List.IsChain.cons_cons hand hs
                · rw [e]; exact hs
              · rcases hput with e | ⟨e, -⟩ <;> rw [e] <;> rfl
          refine key _ ?_ h
          by_cases h4 : prev ≠ .str c!"(" ∧ s ≠ c!")"
          · rw [if_pos h4]; exact Or.inl rfl
          · rw [if_neg h4]
            refine Or.inr ⟨rfl, ?_⟩
            by_contra hcon
            exact h4 ⟨fun e => hcon (Or.inl e), fun e => hcon (Or.inr e)⟩

theorem generalise_spaced {toks : List Str} {is : List Item} {ns : List Int} (h : generalise toks = .ok (is, ns))
    (hl : Legal (tokenSyms toks)) : Spaced is := by
  unfold generalise at h
  split at h
  · cases h
  · refine (generaliseGo_spaced _ _ _ _ h ?_ (by simp)).1
    intro a b e
    refine legal_no_double_union hl (tokenSyms a) (tokenSyms b) ?_
    subst e
    simp [tokenSyms, tokenSym]

/-! ## Complement expansion and renaming -/

theorem findHash_eq {is a b : List Item} {s : Str} (h : findHash is = some (a, s, b)) : is = a ++ .str s :: b ∧ '#' ∈ s := by
  induction is generalizing a with
  | nil => cases h
  | cons i is ih =>
    cases i with
    | op o =>
      simp only [findHash, Option.map_eq_some_iff] at h
      obtain ⟨⟨a', s', b'⟩, h1, h2⟩ := h
      cases h2
      obtain ⟨e, hm⟩ := ih h1
      exact ⟨by rw [e]; rfl, hm⟩
    | str t =>
      simp only [findHash] at h
      split at h
      · rename_i ht
        cases h
        exact ⟨rfl, by simpa using ht⟩
      · simp only [Option.map_eq_some_iff] at h
        obtain ⟨⟨a', s', b'⟩, h1, h2⟩ := h
        cases h2
        obtain ⟨e, hm⟩ := ih h1
        exact ⟨by rw [e]; rfl, hm⟩

theorem spaced_expand {a b d : List Item} {s : Str} (hs : ¬ IsParen s) (h : Spaced (a ++ .str s :: b)) (hd : Spaced d) :
    Spaced (a ++ (.op .not :: .str c!"(" :: d ++ [.str c!")"]) ++ b) := by
  obtain ⟨ha, hsb, hm⟩ := List.isChain_append.1 h
  have hb := spaced_tail hsb
  have hsbh : ∀ j, b.head? = some j → Follows (.str s) j := by
    intro j hj
    cases b with
    | nil => simp at hj
    | cons k b => simp at hj; subst hj; exact (List.isChain_cons_cons.1 hsb).1
  have h1 : Spaced (d ++ [.str c!")"]) := by
    refine List.isChain_append.2 ⟨hd, List.isChain_singleton _, ?_⟩
    intro x _ y hy
    simp at hy
    subst hy
    exact follows_of_not_atom (fun t ht => by cases ht; exact Or.inr rfl) (by simp)
  have h2 : Spaced (.op .not :: .str c!"(" :: d ++ [.str c!")"]) := by
    refine List.IsChain.cons_cons (follows_of_not_atom (fun t ht => by cases ht; exact Or.inl rfl) (by simp)) ?_
    refine List.IsChain.cons h1 fun y _ => ?_
    exact ⟨fun _ _ _ => Or.inr rfl, by simp⟩
  have h3 : Spaced (a ++ (.op .not :: .str c!"(" :: d ++ [.str c!")"])) := by
    refine List.isChain_append.2 ⟨ha, h2, ?_⟩
    intro x _ y hy
    simp at hy
    subst hy
    exact follows_of_not_atom (by simp) (by simp)
  refine List.isChain_append.2 ⟨h3, hb, ?_⟩
  intro x hx y hy
  have hlast : (a ++ (Item.op .not :: Item.str c!"(" :: d ++ [Item.str c!")"])).getLast? = some (.str c!")") := by
    rw [← List.append_assoc, List.getLast?_append]; rfl
  rw [hlast] at hx
  simp at hx
  subst hx
  have hf := hsbh y hy
  refine follows_of_not_atom (fun t ht => ?_) (by simp)
  by_contra hp
  rcases hf.1 t ht hp with h | h
  · simp at h
  · simp at h; exact hs (Or.inl h)

theorem splitNots_spaced {K : Type} {cells : List (Cell K)} {is is' : List Item} (h : splitNots cells is = .ok is') (hs : Spaced is)
    (hc : ∀ c ∈ cells, Spaced c.interpreted) : Spaced is' := by
  unfold splitNots at h
  split at h
  · cases h; exact hs
  · rename_i a s b hf
    obtain ⟨e, hm⟩ := findHash_eq hf
    split at h
    · cases h; exact hs
    · split at h
      · cases h
      · rename_i d hd
        cases h
        refine spaced_expand ?_ (e ▸ hs) (hc d (List.mem_of_find?_eq_some hd))
        rintro (rfl | rfl) <;> revert hm <;> decide

/-- Entries of the same kind: the same operation, the same parenthesis, or surface words. -/
def SameKind (i j : Item) : Prop := i = j ∨ ∃ s t, i = .str s ∧ j = .str t ∧ ¬ IsParen s ∧ ¬ IsParen t

theorem spaced_sameKind {is js : List Item} (h : List.Forall₂ SameKind is js) (hs : Spaced is) : Spaced js := by
  induction h with
  | nil => exact List.isChain_nil
  | @cons i j is js hij ht ih =>
    refine List.IsChain.cons (ih (spaced_tail hs)) ?_
    intro y hy
    cases ht with
    | nil => simp at hy
    | @cons i' j' is' js' hij' ht' =>
      simp at hy
      subst hy
      have hf := (List.isChain_cons_cons.1 hs).1
      refine ⟨fun t ht hp => ?_, ?_⟩
      · have : i = .op .and ∨ i = .str c!"(" := by
          rcases hij' with rfl | ⟨s, t', rfl, rfl, hsp, -⟩
          · exact hf.1 t ht hp
          · exact hf.1 s rfl hsp
        rcases hij with rfl | ⟨s, t', rfl, rfl, hsp, -⟩
        · exact this
        · rcases this with h | h
          · simp at h
          · simp at h; exact absurd (Or.inl h) hsp
      · rintro ⟨rfl, rfl⟩
        rcases hij with rfl | ⟨s, t', -, h, -⟩
        · rcases hij' with rfl | ⟨s, t', -, h, -⟩
          · exact hf.2 ⟨rfl, rfl⟩
          · simp at h
        · simp at h

theorem intStr_not_paren (z : Int) : ¬ IsParen (intStr z) := by
  rintro (h | h)
  · exact (intStr_plain z '(' (by rw [h]; simp)).2.1 rfl
  · exact (intStr_plain z ')' (by rw [h]; simp)).2.2.1 rfl

theorem replaceSurface_sameKind {ref new : Int} {reverse : Bool} {is js : List Item} (h : replaceSurface ref new reverse is = .ok js) :
    List.Forall₂ SameKind is js := by
  unfold replaceSurface at h
  induction is generalizing js with
  | nil => cases h; exact .nil
  | cons i is ih =>
    rw [List.mapM_cons] at h
    obtain ⟨j, hj, h⟩ := bind_ok h
    obtain ⟨js', hjs, h⟩ := bind_ok h
    cases h
    refine .cons ?_ (ih hjs)
    cases i with
    | op o => cases hj; exact Or.inl rfl
    | str s =>
      unfold replaceItem at hj
      by_cases hp : s = c!"(" ∨ s = c!")"
      · simp only [if_pos hp] at hj; cases hj; exact Or.inl rfl
      · simp only [if_neg hp] at hj
        obtain ⟨z, -, hj⟩ := bind_ok hj
        have new : ∀ w : Int, SameKind (.str s) (.str (intStr w)) := fun w => Or.inr ⟨s, _, rfl, rfl, hp, intStr_not_paren w⟩
        split at hj
        · cases hj; split <;> exact new _
        · split at hj
          · cases hj; split <;> exact new _
          · cases hj; exact Or.inl rfl

theorem replaceSurface_spaced {ref new : Int} {reverse : Bool} {is js : List Item} (h : replaceSurface ref new reverse is = .ok js)
    (hs : Spaced is) : Spaced js := spaced_sameKind (replaceSurface_sameKind h) hs

end Csg
