import Verif.Lemmas.Dedupe
import Verif.Spec.Dedupe
import Verif.Props.Surfaces
import Verif.Props.Cells

/-!
# Renaming of duplicates in descriptions
-/

set_option linter.unusedSectionVars false

namespace Csg

open Spec

/-- The effect of one renaming on a signed number. -/
def renameOne (e : Int × Int × Bool) (z : Int) : Int :=
  if z = e.2.1 then (if e.2.2 then -e.1 else e.1) else if z = -e.2.1 then (if e.2.2 then e.1 else -e.1) else z

/-- The effect of all renamings in order. -/
def renameNum : List (Int × Int × Bool) → Int → Int
  | [], z => z
  | e :: rs, z => renameNum rs (renameOne e z)

/-- Renamings that do not interfere. -/
structure Separate (rs : List (Int × Int × Bool)) : Prop where
  nodup : (rs.map fun e => e.2.1).Nodup
  refs : ∀ e ∈ rs, ∀ e' ∈ rs, e.1 ≠ e'.2.1
  pos : ∀ e ∈ rs, 0 < e.1 ∧ 0 < e.2.1

theorem Separate.tail {e : Int × Int × Bool} {rs : List (Int × Int × Bool)} (h : Separate (e :: rs)) : Separate rs :=
  ⟨(List.nodup_cons.1 h.nodup).2, fun a ha b hb => h.refs a (by simp [ha]) b (by simp [hb]), fun a ha => h.pos a (by simp [ha])⟩

theorem renameNum_other {rs : List (Int × Int × Bool)} {z : Int} (h : ∀ e ∈ rs, (z.natAbs : Int) ≠ e.2.1 ∧ 0 < e.2.1) : renameNum rs z = z := by
  induction rs with
  | nil => rfl
  | cons e rs ih =>
    have h1 := h e (by simp)
    have : renameOne e z = z := by
      unfold renameOne
      rw [if_neg (by omega), if_neg (by omega)]
    rw [renameNum, this]
    exact ih fun e he => h e (by simp [he])

theorem renameNum_key {rs : List (Int × Int × Bool)} (h : Separate rs) {e : Int × Int × Bool} (he : e ∈ rs) {z : Int} (hz : (z.natAbs : Int) = e.2.1) :
    renameNum rs z = renameOne e z := by
  induction rs with
  | nil => cases he
  | cons e' rs ih =>
    rw [renameNum]
    rcases List.mem_cons.1 he with rfl | he'
    · refine renameNum_other fun x hx => ?_
      have h1 := h.refs e (by simp) x (by simp [hx])
      have h2 := h.pos e (by simp)
      refine ⟨?_, (h.pos x (by simp [hx])).2⟩
      unfold renameOne
      split_ifs <;> omega
    · have hne : e'.2.1 ≠ e.2.1 := fun e1 => (List.nodup_cons.1 h.nodup).1 (List.mem_map.2 ⟨e, he', e1.symm⟩)
      have h2 := h.pos e' (by simp)
      have : renameOne e' z = z := by
        unfold renameOne
        rw [if_neg (by omega), if_neg (by omega)]
      rw [this]
      exact ih h.tail he'

/-- The entries of a description before and after renaming. -/
inductive Renamed (f : Int → Int) : Item → Item → Prop
  | op (o : Op) : Renamed f (.op o) (.op o)
  | paren {s : Str} : s = c!"(" ∨ s = c!")" → Renamed f (.str s) (.str s)
  | num {s t : Str} {z : Int} : parseInt s = some z → parseInt t = some (f z) → Renamed f (.str s) (.str t)

theorem Renamed.comp {f g : Int → Int} {a b c : Item} (h : Renamed f a b) (h' : Renamed g b c) : Renamed (fun z => g (f z)) a c := by
  cases h with
  | op o => cases h'; exact .op o
  | paren hs =>
    cases h' with
    | paren _ => exact .paren hs
    | num hz _ => rcases hs with rfl | rfl <;> simp [parseInt, parseNat, isDigit] at hz
  | num hs ht =>
    cases h' with
    | paren hp => rcases hp with rfl | rfl <;> simp [parseInt, parseNat, isDigit] at ht
    | num hs' ht' =>
      rw [ht] at hs'
      cases hs'
      exact .num hs ht'

theorem forall₂_comp {α β γ : Type} {R : α → β → Prop} {S : β → γ → Prop} {T : α → γ → Prop} (hT : ∀ a b c, R a b → S b c → T a c)
    {l : List α} {l' : List β} {l'' : List γ} (h : List.Forall₂ R l l') (h' : List.Forall₂ S l' l'') : List.Forall₂ T l l'' := by
  induction h generalizing l'' with
  | nil => cases h'; exact .nil
  | cons h _ ih =>
    cases h' with
    | cons h1 h2 => exact .cons (hT _ _ _ h h1) (ih h2)

theorem onlyNumbers_cons_op {o : Op} {is : List Item} : OnlyNumbers (.op o :: is) ↔ OnlyNumbers is := Iff.rfl

theorem onlyNumbers_cons {s : Str} {is : List Item} :
    OnlyNumbers (.str s :: is) ↔ (s = c!"(" ∨ s = c!")" ∨ ∃ z, parseInt s = some z) ∧ OnlyNumbers is := by
  simp [OnlyNumbers, words]

theorem onlyNumbers_iff {is : List Item} : OnlyNumbers is ↔ ∀ s, Item.str s ∈ is → s = c!"(" ∨ s = c!")" ∨ ∃ z, parseInt s = some z := by
  induction is with
  | nil => simp [OnlyNumbers, words]
  | cons i is ih =>
    cases i with
    | op o => rw [onlyNumbers_cons_op, ih]; simp
    | str s => rw [onlyNumbers_cons, ih]; simp

theorem replaceSurface_renamed {ref new : Int} {r : Bool} (hnew : 0 < new) {is is' : List Item} (h : replaceSurface ref new r is = .ok is') :
    List.Forall₂ (Renamed (renameOne (ref, new, r))) is is' := by
  have := C20_entries ref new r is is' h
  clear h
  induction this with
  | nil => exact .nil
  | @cons i i' is is' h1 _ ih =>
    refine .cons ?_ ih
    cases i with
    | op o => rw [h1.1 o rfl]; exact .op o
    | str s =>
      rcases h1.2 s rfl with ⟨hp, rfl⟩ | ⟨z, hz, h2⟩
      · exact .paren hp
      · rcases h2 with ⟨e, -, rfl⟩ | ⟨e, hneg, rfl⟩ | ⟨e1, e2, rfl⟩ | ⟨e, -⟩
        · refine .num hz ?_
          rw [parseInt_intStr, renameOne, if_pos e]
        · refine .num hz ?_
          rw [parseInt_intStr, renameOne, if_neg (show ¬ z = new by omega), if_pos e]
        · refine .num hz ?_
          rw [hz, renameOne, if_neg e1, if_neg e2]
        · omega

theorem renamed_onlyNumbers {f : Int → Int} {is is' : List Item} (h : List.Forall₂ (Renamed f) is is') : OnlyNumbers is ∧ OnlyNumbers is' := by
  induction h with
  | nil => simp [OnlyNumbers, words]
  | cons h _ ih =>
    cases h with
    | op o => exact ih
    | paren hs =>
      rw [onlyNumbers_cons, onlyNumbers_cons]
      exact ⟨⟨by tauto, ih.1⟩, ⟨by tauto, ih.2⟩⟩
    | num h1 h2 =>
      rw [onlyNumbers_cons, onlyNumbers_cons]
      exact ⟨⟨Or.inr (Or.inr ⟨_, h1⟩), ih.1⟩, ⟨Or.inr (Or.inr ⟨_, h2⟩), ih.2⟩⟩

theorem renameAll_ok {rs : List (Int × Int × Bool)} (hpos : ∀ e ∈ rs, 0 < e.2.1) {is : List Item} (hn : OnlyNumbers is) : ∃ is', renameAll rs is = .ok is' := by
  induction rs generalizing is with
  | nil => exact ⟨is, rfl⟩
  | cons e rs ih =>
    obtain ⟨ref, new, r⟩ := e
    obtain ⟨is1, h1⟩ := (C20_succeeds_iff ref new r is).2 (onlyNumbers_iff.1 hn)
    obtain ⟨is', h2⟩ := ih (fun e he => hpos e (by simp [he])) (renamed_onlyNumbers (replaceSurface_renamed (hpos (ref, new, r) (by simp)) h1)).2
    exact ⟨is', by rw [renameAll, h1]; exact h2⟩

theorem renameAll_nil_renamed {is : List Item} (hn : OnlyNumbers is) : List.Forall₂ (Renamed fun z => z) is is := by
  induction is with
  | nil => exact .nil
  | cons i is ih =>
    cases i with
    | op o => exact .cons (.op o) (ih hn)
    | str s =>
      rw [onlyNumbers_cons] at hn
      refine .cons ?_ (ih hn.2)
      rcases hn.1 with h | h | ⟨z, h⟩
      · exact .paren (Or.inl h)
      · exact .paren (Or.inr h)
      · exact .num h h

theorem renameAll_renamed {rs : List (Int × Int × Bool)} (hpos : ∀ e ∈ rs, 0 < e.2.1) {is is' : List Item} (hn : OnlyNumbers is)
    (h : renameAll rs is = .ok is') : List.Forall₂ (Renamed (renameNum rs)) is is' := by
  induction rs generalizing is with
  | nil => cases h; exact renameAll_nil_renamed hn
  | cons e rs ih =>
    obtain ⟨ref, new, r⟩ := e
    rw [renameAll] at h
    obtain ⟨is1, h1, h⟩ := bind_ok h
    have g1 := replaceSurface_renamed (hpos (ref, new, r) (by simp)) h1
    have g2 := ih (fun e he => hpos e (by simp [he])) (renamed_onlyNumbers g1).2 h
    exact forall₂_comp (fun a b c x y => x.comp y) g1 g2

/-- A description before and after, with the truth values before and after. -/
theorem renamed_holds {f : Int → Int} {is is' : List Item} (h : List.Forall₂ (Renamed f) is is') (σ τ : Int → Prop) (hσ : ∀ z, τ (f z) ↔ σ z) :
    (Legal (itemSyms is) ↔ Legal (itemSyms is')) ∧ (Holds (wordSense σ) (itemSyms is) ↔ Holds (wordSense τ) (itemSyms is')) := by
  refine holds_rel _ _ ?_
  induction h with
  | nil => exact .nil
  | @cons i i' is is' h1 _ ih =>
    cases h1 with
    | op o =>
      cases o
      · exact .cons .no ih
      · exact .cons .un ih
      · exact ih
    | paren hs =>
      rcases hs with rfl | rfl
      · exact .cons .lp ih
      · exact .cons .rp ih
    | @num s t z hs ht =>
      have a1 : s ≠ c!"(" := by rintro rfl; simp [parseInt, parseNat, isDigit] at hs
      have a2 : s ≠ c!")" := by rintro rfl; simp [parseInt, parseNat, isDigit] at hs
      have b1 : t ≠ c!"(" := by rintro rfl; simp [parseInt, parseNat, isDigit] at ht
      have b2 : t ≠ c!")" := by rintro rfl; simp [parseInt, parseNat, isDigit] at ht
      simp only [itemSyms, if_neg a1, if_neg a2, if_neg b1, if_neg b2]
      refine .cons (.atom ?_) ih
      simp only [wordSense, hs, ht, Option.some.injEq, exists_eq_left']
      exact (hσ z).symm

theorem renamed_numbers {f : Int → Int} {is is' : List Item} (h : List.Forall₂ (Renamed f) is is') : numbers is' = (numbers is).map f := by
  induction h with
  | nil => rfl
  | cons h1 _ ih =>
    unfold numbers at ih ⊢
    cases h1 with
    | op o => exact ih
    | paren hs =>
      rcases hs with rfl | rfl
      · simpa [words, parseInt, parseNat, isDigit] using ih
      · simpa [words, parseInt, parseNat, isDigit] using ih
    | num hs ht =>
      simp only [words, List.filterMap_cons, hs, ht, List.map_cons, List.cons.injEq, true_and] at ih ⊢
      exact ih

section
variable {K : Type} [Field K] [DecidableEq K]

theorem renamings_ok {surfs : List (Surface K)} {d : List (Nat × Nat × Bool)} (h : ∀ e ∈ d, e.1 < surfs.length ∧ e.2.1 < surfs.length) :
    ∃ rs, renamings surfs d = .ok rs ∧
      List.Forall₂ (fun e r => ∃ s t, surfs[e.1]? = some s ∧ surfs[e.2.1]? = some t ∧ r = (t.id, s.id, e.2.2)) d rs := by
  induction d with
  | nil => exact ⟨[], rfl, .nil⟩
  | cons e d ih =>
    obtain ⟨i, j, r⟩ := e
    obtain ⟨rs, h1, h2⟩ := ih fun e he => h e (by simp [he])
    have hi := h (i, j, r) (by simp)
    simp only at hi
    refine ⟨_, ?_, .cons ⟨surfs[i], surfs[j], List.getElem?_eq_getElem hi.1, List.getElem?_eq_getElem hi.2, rfl⟩ h2⟩
    rw [renamings, pyGet, pyGet, List.getElem?_eq_getElem hi.1, List.getElem?_eq_getElem hi.2]
    simp only [bind, Except.bind]
    rw [h1]

/-- What remains after duplicates are removed. -/
def remaining (surfs : List (Surface K)) (keys : List Nat) : List (Surface K) := (surfs.zipIdx.filter fun x => x.2 ∉ keys).map Prod.fst

theorem mem_remaining {surfs : List (Surface K)} {keys : List Nat} {s : Surface K} : s ∈ remaining surfs keys ↔ ∃ i, surfs[i]? = some s ∧ i ∉ keys := by
  unfold remaining
  simp only [List.mem_map, List.mem_filter, decide_eq_true_eq, Prod.exists]
  constructor
  · rintro ⟨t, i, ⟨h1, h2⟩, rfl⟩
    exact ⟨i, by rwa [List.mk_mem_zipIdx_iff_getElem?] at h1, h2⟩
  · rintro ⟨i, h1, h2⟩
    exact ⟨s, i, ⟨by rwa [List.mk_mem_zipIdx_iff_getElem?], h2⟩, rfl⟩

theorem remaining_sublist (surfs : List (Surface K)) (keys : List Nat) : List.Sublist (remaining surfs keys) surfs := by
  unfold remaining
  have := List.Sublist.map Prod.fst (List.filter_sublist (p := fun x => decide (x.2 ∉ keys)) (l := surfs.zipIdx))
  rwa [List.zipIdx_map_fst] at this

end

end Csg
