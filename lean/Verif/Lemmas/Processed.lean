import Verif.Lemmas.FlukaCell
import Verif.Lemmas.Processing
import Verif.Lemmas.Spaced

/-!
# The form of descriptions through the steps of processing
-/

set_option linter.unusedSectionVars false

namespace Csg

open Spec

theorem parseInt_no_hash {s : Str} {z : Int} (h : parseInt s = some z) : '#' ∉ s := by
  intro hm
  have key : ∀ t : Str, '#' ∈ t → parseNat t = none := by
    intro t ht
    cases hn : parseNat t with
    | none => rfl
    | some n => exact absurd (parseNat_digits hn '#' ht) (by decide)
  unfold parseInt at h
  split at h
  · rw [key _ (by simpa using hm)] at h; cases h
  · rw [key _ (by simpa using hm)] at h; cases h
  · rw [key _ hm] at h; cases h

section
variable {K : Type} [Field K] [LinearOrder K] [IsStrictOrderedRing K]

/-- The description is the one made from the words of the card. -/
def Generalised (c : Cell K) : Prop := ∃ ns, generalise c.text = .ok (c.interpreted, ns)

theorem interpret_generalised {io : NumIO K} {cosDeg : K → K} {c c' : Cell K} {text : Str} (h : interpret io cosDeg c text = .ok c') : Generalised c' := by
  unfold interpret at h
  obtain ⟨⟨c1, s⟩, -, h⟩ := bind_ok h
  obtain ⟨t0, -, h⟩ := bind_ok h
  obtain ⟨id, -, h⟩ := bind_ok h
  obtain ⟨t1, -, h⟩ := bind_ok h
  obtain ⟨m, -, h⟩ := bind_ok h
  obtain ⟨c2, -, h⟩ := bind_ok h
  obtain ⟨⟨is, ns⟩, h1, h⟩ := bind_ok h
  cases h
  exact ⟨ns, h1⟩

theorem flattenCell_generalised {io : NumIO K} {cosDeg : K → K} {id : Int} {inside outside : Str} {news : List (Surface K)} {c c' : Cell K}
    (h : flattenCell io cosDeg id inside outside news c = .ok c') : Generalised c' := by
  unfold flattenCell at h
  split at h
  · cases h
  · cases h
  · exact interpret_generalised h

theorem flattenGo_generalised {io : NumIO K} {cosDeg sqrt : K → K} (ss : List (Surface K)) : ∀ {cells : List (Cell K)} {last : Int} {r},
    (∀ c ∈ cells, Generalised c) → flattenGo io cosDeg sqrt ss cells last = .ok r → ∀ c ∈ r.1, Generalised c := by
  induction ss with
  | nil => intro cells last r hc h; cases h; exact hc
  | cons s ss ih =>
    intro cells last r hc h
    rw [flattenGo] at h
    split at h
    · obtain ⟨e, -, h⟩ := bind_ok h
      obtain ⟨cells1, h1, h⟩ := bind_ok h
      obtain ⟨⟨cells2, more, last2⟩, h2, h⟩ := bind_ok h
      cases h
      refine ih (r := (cells2, more, last2)) ?_ h2
      intro c hc1
      obtain ⟨c0, -, hx⟩ := forall₂_right (mapM_ok_forall₂ h1) c hc1
      exact flattenCell_generalised hx
    · exact ih hc h

theorem flatten_generalised {io : NumIO K} {cosDeg sqrt : K → K} {cells cells' : List (Cell K)} {surfs surfs' : List (Surface K)} {last last' : Int}
    (hc : ∀ c ∈ cells, Generalised c) (h : flatten io cosDeg sqrt cells surfs last = .ok (cells', surfs', last')) : ∀ c ∈ cells', Generalised c := by
  unfold flatten at h
  obtain ⟨⟨c1, more, l1⟩, h1, h⟩ := bind_ok h
  have := flattenGo_generalised surfs hc h1
  cases h
  exact this

theorem explodeCell_form {Q : List Item → Prop}
    (hQ : ∀ (cells : List (Cell K)) is is', splitNots cells is = .ok is' → Q is → (∀ c ∈ cells, Q c.interpreted) → Q is') (fuel : Nat) :
    ∀ {cells cells' : List (Cell K)} {i : Nat}, (∀ c ∈ cells, Q c.interpreted) → explodeCell fuel cells i = some (.ok cells') → ∀ c ∈ cells', Q c.interpreted := by
  induction fuel with
  | zero => intro _ _ _ _ h; cases h
  | succ fuel ih =>
    intro cells cells' i hc h
    unfold explodeCell at h
    split at h
    · cases h
    · rename_i c hi
      split at h
      · split at h
        · cases h
        · rename_i is his
          refine ih ?_ h
          intro d hd
          rcases List.mem_or_eq_of_mem_set hd with hd | rfl
          · exact hc d hd
          · exact hQ cells _ _ his (hc c (List.mem_of_getElem? hi)) hc
      · cases h; exact hc

theorem explodeFrom_form {Q : List Item → Prop}
    (hQ : ∀ (cells : List (Cell K)) is is', splitNots cells is = .ok is' → Q is → (∀ c ∈ cells, Q c.interpreted) → Q is') (fuel n : Nat) :
    ∀ {cells cells' : List (Cell K)} {i : Nat}, (∀ c ∈ cells, Q c.interpreted) → explodeFrom fuel n cells i = some (.ok cells') → ∀ c ∈ cells', Q c.interpreted := by
  induction n with
  | zero => intro _ _ _ hc h; cases h; exact hc
  | succ n ih =>
    intro cells cells' i hc h
    unfold explodeFrom at h
    split at h
    · cases h
    · cases h
    · rename_i cells1 h1
      exact ih (explodeCell_form hQ fuel hc h1) h

theorem renameAll_keeps {Q : List Item → Prop} (hQ : ∀ ref new r is is', replaceSurface ref new r is = .ok is' → Q is → Q is') (rs : List (Int × Int × Bool)) :
    ∀ {is is' : List Item}, renameAll rs is = .ok is' → Q is → Q is' := by
  induction rs with
  | nil => intro is is' h hi; cases h; exact hi
  | cons r rs ih =>
    obtain ⟨ref, new, b⟩ := r
    intro is is' h hi
    unfold renameAll at h
    obtain ⟨is1, h1, h⟩ := bind_ok h
    exact ih h (hQ _ _ _ _ _ h1 hi)

theorem dedupe_keeps {Q : List Item → Prop} (hQ : ∀ ref new r is is', replaceSurface ref new r is = .ok is' → Q is → Q is') {cells cells' : List (Cell K)}
    {surfs surfs' : List (Surface K)} (h : dedupe cells surfs = .ok (cells', surfs')) (hc : ∀ c ∈ cells, Q c.interpreted) : ∀ c ∈ cells', Q c.interpreted := by
  unfold dedupe at h
  obtain ⟨gs, -, h⟩ := bind_ok h
  obtain ⟨rs, -, h⟩ := bind_ok h
  obtain ⟨cs, h3, h⟩ := bind_ok h
  cases h
  intro c hcm
  obtain ⟨c0, hc0, hx⟩ := forall₂_right (mapM_ok_forall₂ h3) c hcm
  obtain ⟨is, h4, h5⟩ := bind_ok hx
  cases h5
  exact renameAll_keeps hQ rs h4 (hc c0 hc0)

/-- A parenthesis, a number in the usual notation, or a word with `#`. -/
def UsualWord (w : Str) : Prop := w = c!"(" ∨ w = c!")" ∨ '#' ∈ w ∨ ∃ z : Int, w = intStr z

theorem replaceSurface_usual {ref new : Int} {r : Bool} {is is' : List Item} (h : replaceSurface ref new r is = .ok is')
    (hi : ∀ w ∈ words is, UsualWord w) : ∀ w ∈ words is', UsualWord w := by
  intro w hw
  obtain ⟨i, him, hx⟩ := forall₂_right (mapM_ok_forall₂ h) _ (mem_words.1 hw)
  cases i with
  | op o => simp [replaceItem] at hx
  | str s =>
    have hs := hi s (mem_words.2 him)
    simp only [replaceItem] at hx
    by_cases hp : s = c!"(" ∨ s = c!")"
    · rw [if_pos hp] at hx
      cases hx; exact hs
    · rw [if_neg hp] at hx
      obtain ⟨z, -, hx⟩ := bind_ok hx
      split at hx
      · cases hx
        split
        · exact Or.inr (Or.inr (Or.inr ⟨_, rfl⟩))
        · exact Or.inr (Or.inr (Or.inr ⟨_, rfl⟩))
      · split at hx
        · cases hx
          split
          · exact Or.inr (Or.inr (Or.inr ⟨_, rfl⟩))
          · exact Or.inr (Or.inr (Or.inr ⟨_, rfl⟩))
        · cases hx; exact hs

theorem usual_of_good {surfs : List (Surface K)} (hpos : ∀ s ∈ surfs, 0 < s.id) {w : Str} (h : GoodWord surfs w) : UsualWord w := by
  rcases h with h | h | h | ⟨s, hs, h | h⟩
  · exact Or.inl h
  · exact Or.inr (Or.inl h)
  · exact Or.inr (Or.inr (Or.inl h))
  · exact Or.inr (Or.inr (Or.inr ⟨_, h⟩))
  · refine Or.inr (Or.inr (Or.inr ⟨-s.id, ?_⟩))
    rw [h]
    obtain ⟨m, e⟩ := Int.eq_succ_of_zero_lt (hpos s hs)
    rw [e]
    rfl

variable {fuel : Nat} {io : NumIO K} {cosDeg sqrt : K → K} {quick : Bool} {d d' : Deck K} {cells1 cells2 cells3 cells4 cells5 : List (Cell K)}
    {surfs1 surfs2 surfs3 surfs4 : List (Surface K)}

/-- What holds for the descriptions after flattening and is kept by the expansion of complements and the renaming of surfaces holds at the end. -/
theorem Run.keeps {Q : List Item → Prop} (r : Run fuel io cosDeg sqrt quick d d' cells1 cells2 cells3 cells4 cells5 surfs1 surfs2 surfs3 surfs4)
    (hQ : ∀ (cells : List (Cell K)) is is', splitNots cells is = .ok is' → Q is → (∀ c ∈ cells, Q c.interpreted) → Q is')
    (hQ' : ∀ ref new r is is', replaceSurface ref new r is = .ok is' → Q is → Q is') (h1 : ∀ c ∈ cells1, Q c.interpreted) : ∀ c ∈ d'.cells, Q c.interpreted := by
  have h2 : ∀ c ∈ cells2, Q c.interpreted := explodeFrom_form hQ fuel _ h1 r.nots
  have h5 : ∀ c ∈ cells5, Q c.interpreted := by
    intro c hc
    obtain ⟨c2, hc2, hx⟩ := forall₂_right r.cellFrame c hc
    unfold CellFrame at hx
    rw [hx]
    exact h2 c2 hc2
  have e := r.dups
  cases quick with
  | true =>
    simp only [if_true] at e
    have e1 : cells5 = d'.cells := by injection e with e; exact congrArg Prod.fst e
    rw [← e1]
    exact h5
  | false =>
    simp only [Bool.false_eq_true, if_false] at e
    exact dedupe_keeps hQ' e h5

end

end Csg
