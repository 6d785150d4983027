import Verif.Spec.Region
import Mathlib.Data.List.Forall2

/-!
# Facts about region expressions
-/

namespace Csg

open Spec

theorem forall₂_append_left {C D : Type} {R : C → D → Prop} {a b : List C} {l : List D} (h : List.Forall₂ R (a ++ b) l) :
    ∃ u v, List.Forall₂ R a u ∧ List.Forall₂ R b v ∧ l = u ++ v := by
  induction a generalizing l with
  | nil => exact ⟨[], l, .nil, h, rfl⟩
  | cons c a ih =>
    cases h with
    | cons h1 h2 =>
      obtain ⟨u, v, h3, h4, rfl⟩ := ih h2
      exact ⟨_ :: u, v, .cons h1 h3, h4, rfl⟩

section
variable {A B : Type}

/-- A frame of the stack machine: finished union, current intersection, pending complements. -/
structure Frame (A : Type) where
  un : Option (Reg A)
  cur : Option (Reg A)
  nots : Nat

def Frame.fresh : Frame A := ⟨none, none, 0⟩

def compls : Nat → Reg A → Reg A
  | 0, r => r
  | n + 1, r => compls n (.compl r)

def joinUnion : Option (Reg A) → Reg A → Reg A
  | none, r => r
  | some u, r => .union u r

def Frame.push (f : Frame A) (r : Reg A) : Frame A :=
  ⟨f.un, some (match f.cur with | none => compls f.nots r | some c => .inter c (compls f.nots r)), 0⟩

def Frame.close (f : Frame A) : Option (Reg A) :=
  match f.cur with
  | some c => some (joinUnion f.un c)
  | none => none

def machine : List (Frame A) → List (Sym A) → Option (List (Frame A))
  | st, [] => some st
  | f :: fs, .atom a :: w => machine (f.push (.atom a) :: fs) w
  | f :: fs, .no :: w => machine ({ f with nots := f.nots + 1 } :: fs) w
  | f :: fs, .un :: w => machine (⟨f.close, none, 0⟩ :: fs) w
  | f :: fs, .lp :: w => machine (.fresh :: f :: fs) w
  | f :: g :: fs, .rp :: w =>
    match f.close with
    | some r => machine (g.push r :: fs) w
    | none => none
  | _, _ => none

theorem machine_append (st : List (Frame A)) (w v : List (Sym A)) :
    machine st (w ++ v) = (machine st w).bind fun st' => machine st' v := by
  induction w generalizing st with
  | nil => cases st <;> simp [machine]
  | cons s w ih =>
    cases st with
    | nil => cases s <;> simp [machine]
    | cons f fs =>
      cases s with
      | lp => simp only [List.cons_append, machine]; exact ih _
      | un => simp only [List.cons_append, machine]; exact ih _
      | no => simp only [List.cons_append, machine]; exact ih _
      | atom a => simp only [List.cons_append, machine]; exact ih _
      | rp =>
        cases fs with
        | nil => simp [machine]
        | cons g fs =>
          simp only [List.cons_append, machine]
          cases f.close with
          | none => rfl
          | some r => exact ih _

/-- What the machine does on an expression of each level. -/
def MachineSpec : Level → List (Sym A) → Reg A → Prop
  | .factor, w, r => ∀ f fs, machine (f :: fs) w = some (f.push r :: fs)
  | .term, w, r => ∀ u fs, machine (⟨u, none, 0⟩ :: fs) w = some (⟨u, some r, 0⟩ :: fs)
  | .expr, w, r => ∀ fs, ∃ u c, machine (.fresh :: fs) w = some (⟨u, some c, 0⟩ :: fs) ∧ joinUnion u c = r

theorem machine_derives {l : Level} {w : List (Sym A)} {r : Reg A} (h : Derives l w r) : MachineSpec l w r := by
  induction h with
  | atom a => intro f fs; simp [machine]
  | paren _ ih =>
    intro f fs
    obtain ⟨u, c, h1, h2⟩ := ih (f :: fs)
    simp only [machine]
    rw [machine_append, h1]
    simp [machine, Frame.close, h2]
  | compl _ ih =>
    intro f fs
    simp only [machine]
    rw [ih]
    simp [Frame.push, compls]
  | single _ ih =>
    intro u fs
    rw [ih]
    simp [Frame.push, compls]
  | inter _ _ ih1 ih2 =>
    intro u fs
    rw [machine_append, ih1]
    simp only [Option.bind_some]
    rw [ih2]
    simp [Frame.push, compls]
  | one _ ih =>
    intro fs
    exact ⟨none, _, ih none fs, rfl⟩
  | union _ _ ih1 ih2 =>
    intro fs
    obtain ⟨u, c, h1, h2⟩ := ih1 fs
    have h3 := ih2 (some (joinUnion u c)) fs
    refine ⟨some (joinUnion u c), _, ?_, by rw [h2]; rfl⟩
    rw [machine_append, h1]
    simp only [Option.bind_some, machine, Frame.close]
    exact h3

/-- The grammar is unambiguous. -/
theorem derives_unique {w : List (Sym A)} {r r' : Reg A} (h : Derives .expr w r) (h' : Derives .expr w r') : r = r' := by
  obtain ⟨u, c, h1, h2⟩ := machine_derives h []
  obtain ⟨u', c', h1', h2'⟩ := machine_derives h' []
  rw [h1] at h1'
  simp at h1'
  rw [← h2, ← h2', h1'.1, h1'.2]

theorem holds_iff {σ : A → Prop} {w : List (Sym A)} {r : Reg A} (h : Derives .expr w r) : Holds σ w ↔ r.holds σ := by
  constructor
  · rintro ⟨r', h1, h2⟩
    rw [derives_unique h h1]; exact h2
  · exact fun h2 => ⟨r, h, h2⟩

/-- Symbol lists with atoms replaced by symbol lists. -/
def substSyms (f : A → List (Sym B)) : List (Sym A) → List (Sym B)
  | [] => []
  | .lp :: w => .lp :: substSyms f w
  | .rp :: w => .rp :: substSyms f w
  | .un :: w => .un :: substSyms f w
  | .no :: w => .no :: substSyms f w
  | .atom a :: w => f a ++ substSyms f w

theorem substSyms_append (f : A → List (Sym B)) (v w : List (Sym A)) :
    substSyms f (v ++ w) = substSyms f v ++ substSyms f w := by
  induction v with
  | nil => rfl
  | cons s v ih => cases s <;> simp [substSyms, ih]

/-- The atoms that occur in the symbols. -/
def symAtoms : List (Sym A) → List A
  | [] => []
  | .atom a :: w => a :: symAtoms w
  | _ :: w => symAtoms w

theorem symAtoms_append (v w : List (Sym A)) : symAtoms (v ++ w) = symAtoms v ++ symAtoms w := by
  induction v with
  | nil => rfl
  | cons s v ih => cases s <;> simp [symAtoms, ih]

/-- Replacing atoms by factors with the same truth value keeps structure and truth value. -/
theorem derives_subst (σ : A → Prop) (τ : B → Prop) (f : A → List (Sym B)) {l : Level} {w : List (Sym A)} {r : Reg A}
    (h : Derives l w r) (hf : ∀ a ∈ symAtoms w, ∃ g, Derives .factor (f a) g ∧ (g.holds τ ↔ σ a)) :
    ∃ r', Derives l (substSyms f w) r' ∧ (r'.holds τ ↔ r.holds σ) := by
  induction h with
  | atom a => simpa [substSyms, Reg.holds] using hf a (by simp [symAtoms])
  | paren _ ih =>
    simp only [symAtoms, symAtoms_append, List.append_nil] at hf
    obtain ⟨r', h1, h2⟩ := ih hf
    exact ⟨r', by simpa [substSyms, substSyms_append] using Derives.paren h1, h2⟩
  | compl _ ih =>
    obtain ⟨r', h1, h2⟩ := ih (by simpa [symAtoms] using hf)
    exact ⟨.compl r', .compl h1, by simp only [Reg.holds]; rw [h2]⟩
  | single _ ih =>
    obtain ⟨r', h1, h2⟩ := ih hf
    exact ⟨r', .single h1, h2⟩
  | inter _ _ ih1 ih2 =>
    simp only [symAtoms_append, List.mem_append] at hf
    rw [substSyms_append]
    obtain ⟨r1, h1, e1⟩ := ih1 fun a ha => hf a (Or.inl ha)
    obtain ⟨r2, h2, e2⟩ := ih2 fun a ha => hf a (Or.inr ha)
    exact ⟨_, .inter h1 h2, by simp only [Reg.holds]; rw [e1, e2]⟩
  | one _ ih =>
    obtain ⟨r', h1, h2⟩ := ih hf
    exact ⟨r', .one h1, h2⟩
  | union _ _ ih1 ih2 =>
    simp only [symAtoms_append, symAtoms, List.mem_append] at hf
    rw [substSyms_append]
    obtain ⟨r1, h1, e1⟩ := ih1 fun a ha => hf a (Or.inl ha)
    obtain ⟨r2, h2, e2⟩ := ih2 fun a ha => hf a (Or.inr ha)
    exact ⟨_, .union h1 h2, by simp only [Reg.holds]; rw [e1, e2]⟩

theorem holds_subst (σ : A → Prop) (τ : B → Prop) (f : A → List (Sym B)) {w : List (Sym A)} (hw : Legal w)
    (hf : ∀ a ∈ symAtoms w, ∃ g, Derives .factor (f a) g ∧ (g.holds τ ↔ σ a)) :
    Legal (substSyms f w) ∧ (Holds τ (substSyms f w) ↔ Holds σ w) := by
  obtain ⟨r, hr⟩ := hw
  obtain ⟨r', h1, h2⟩ := derives_subst σ τ f hr hf
  exact ⟨⟨r', h1⟩, by rw [holds_iff h1, holds_iff hr, h2]⟩

/-- An expression in parentheses under a complement. -/
theorem derives_compl_paren {w : List (Sym A)} {r : Reg A} (h : Derives .expr w r) :
    Derives .factor (.no :: .lp :: (w ++ [.rp])) (.compl r) := .compl (.paren h)

/-- Two symbols of the same kind; atoms have the same truth value. -/
inductive SymRel (σ : A → Prop) (τ : B → Prop) : Sym A → Sym B → Prop
  | lp : SymRel σ τ .lp .lp
  | rp : SymRel σ τ .rp .rp
  | un : SymRel σ τ .un .un
  | no : SymRel σ τ .no .no
  | atom {a b} : (σ a ↔ τ b) → SymRel σ τ (.atom a) (.atom b)

/-- Replacing atoms one for one by atoms with the same truth value keeps structure and truth value. -/
theorem derives_rel (σ : A → Prop) (τ : B → Prop) {l : Level} {w : List (Sym A)} {r : Reg A} (h : Derives l w r) :
    ∀ w' : List (Sym B), List.Forall₂ (SymRel σ τ) w w' → ∃ r', Derives l w' r' ∧ (r.holds σ ↔ r'.holds τ) := by
  induction h with
  | atom a =>
    intro w' hw
    cases hw with
    | cons h1 h2 =>
      cases h2
      cases h1 with
      | atom e => exact ⟨_, .atom _, e⟩
  | paren _ ih =>
    intro w' hw
    cases hw with
    | cons h1 h2 =>
      cases h1
      obtain ⟨u, v, h3, h4, rfl⟩ := forall₂_append_left h2
      cases h4 with
      | cons h5 h6 =>
        cases h6; cases h5
        obtain ⟨r', h7, h8⟩ := ih _ h3
        exact ⟨r', .paren h7, h8⟩
  | compl _ ih =>
    intro w' hw
    cases hw with
    | cons h1 h2 =>
      cases h1
      obtain ⟨r', h7, h8⟩ := ih _ h2
      exact ⟨_, .compl h7, not_congr h8⟩
  | single _ ih =>
    intro w' hw
    obtain ⟨r', h7, h8⟩ := ih _ hw
    exact ⟨_, .single h7, h8⟩
  | inter _ _ ih1 ih2 =>
    intro w' hw
    obtain ⟨u, v, h3, h4, rfl⟩ := forall₂_append_left hw
    obtain ⟨r1, h5, h6⟩ := ih1 _ h3
    obtain ⟨r2, h7, h8⟩ := ih2 _ h4
    exact ⟨_, .inter h5 h7, and_congr h6 h8⟩
  | one _ ih =>
    intro w' hw
    obtain ⟨r', h7, h8⟩ := ih _ hw
    exact ⟨_, .one h7, h8⟩
  | union _ _ ih1 ih2 =>
    intro w' hw
    obtain ⟨u, v, h3, h4, rfl⟩ := forall₂_append_left hw
    cases h4 with
    | cons h1 h4 =>
      cases h1
      obtain ⟨r1, h5, h6⟩ := ih1 _ h3
      obtain ⟨r2, h7, h8⟩ := ih2 _ h4
      exact ⟨_, .union h5 h7, or_congr h6 h8⟩

theorem SymRel.flip {σ : A → Prop} {τ : B → Prop} {a : Sym A} {b : Sym B} (h : SymRel σ τ a b) : SymRel τ σ b a := by
  cases h
  · exact .lp
  · exact .rp
  · exact .un
  · exact .no
  · rename_i e; exact .atom e.symm

theorem forall₂_flip {C D : Type} {R : C → D → Prop} {S : D → C → Prop} (hRS : ∀ c d, R c d → S d c) {w : List C} {w' : List D}
    (h : List.Forall₂ R w w') : List.Forall₂ S w' w := by
  induction h with
  | nil => exact .nil
  | cons h _ ih => exact .cons (hRS _ _ h) ih

theorem holds_rel (σ : A → Prop) (τ : B → Prop) {w : List (Sym A)} {w' : List (Sym B)} (h : List.Forall₂ (SymRel σ τ) w w') :
    (Legal w ↔ Legal w') ∧ (Holds σ w ↔ Holds τ w') := by
  have h' : List.Forall₂ (SymRel τ σ) w' w := forall₂_flip (fun _ _ h => h.flip) h
  refine ⟨⟨?_, ?_⟩, ⟨?_, ?_⟩⟩
  · rintro ⟨r, hr⟩
    obtain ⟨r', h1, -⟩ := derives_rel σ τ hr _ h
    exact ⟨r', h1⟩
  · rintro ⟨r, hr⟩
    obtain ⟨r', h1, -⟩ := derives_rel τ σ hr _ h'
    exact ⟨r', h1⟩
  · rintro ⟨r, hr, e⟩
    obtain ⟨r', h1, h2⟩ := derives_rel σ τ hr _ h
    exact ⟨r', h1, h2.1 e⟩
  · rintro ⟨r, hr, e⟩
    obtain ⟨r', h1, h2⟩ := derives_rel τ σ hr _ h'
    exact ⟨r', h1, h2.1 e⟩

/-- A symbol and the symbols put in its place: the symbol itself, or for an atom a factor, with the same truth value if `P`. -/
inductive SymExp (P : Prop) (σ : A → Prop) (τ : B → Prop) : Sym A → List (Sym B) → Prop
  | lp : SymExp P σ τ .lp [.lp]
  | rp : SymExp P σ τ .rp [.rp]
  | un : SymExp P σ τ .un [.un]
  | no : SymExp P σ τ .no [.no]
  | atom {a w g} : Derives .factor w g → (P → (σ a ↔ g.holds τ)) → SymExp P σ τ (.atom a) w

/-- Replacing atoms by factors with the same truth value keeps structure and truth value. -/
theorem derives_exp {P : Prop} (σ : A → Prop) (τ : B → Prop) {l : Level} {w : List (Sym A)} {r : Reg A} (h : Derives l w r) :
    ∀ ws : List (List (Sym B)), List.Forall₂ (SymExp P σ τ) w ws →
      ∃ r', Derives l ws.flatten r' ∧ (P → (r.holds σ ↔ r'.holds τ)) := by
  induction h with
  | atom a =>
    intro w' hw
    cases hw with
    | cons h1 h2 =>
      cases h2
      cases h1 with
      | atom d e => exact ⟨_, by simpa using d, e⟩
  | paren _ ih =>
    intro w' hw
    cases hw with
    | cons h1 h2 =>
      cases h1
      obtain ⟨u, v, h3, h4, rfl⟩ := forall₂_append_left h2
      cases h4 with
      | cons h5 h6 =>
        cases h6; cases h5
        obtain ⟨r', h7, h8⟩ := ih _ h3
        exact ⟨r', by simpa using Derives.paren h7, h8⟩
  | compl _ ih =>
    intro w' hw
    cases hw with
    | cons h1 h2 =>
      cases h1
      obtain ⟨r', h7, h8⟩ := ih _ h2
      exact ⟨.compl r', by simpa using Derives.compl h7, fun p => not_congr (h8 p)⟩
  | single _ ih =>
    intro w' hw
    obtain ⟨r', h7, h8⟩ := ih _ hw
    exact ⟨_, .single h7, h8⟩
  | inter _ _ ih1 ih2 =>
    intro w' hw
    obtain ⟨u, v, h3, h4, rfl⟩ := forall₂_append_left hw
    obtain ⟨r1, h5, h6⟩ := ih1 _ h3
    obtain ⟨r2, h7, h8⟩ := ih2 _ h4
    exact ⟨.inter r1 r2, by simpa using Derives.inter h5 h7, fun p => and_congr (h6 p) (h8 p)⟩
  | one _ ih =>
    intro w' hw
    obtain ⟨r', h7, h8⟩ := ih _ hw
    exact ⟨_, .one h7, h8⟩
  | union _ _ ih1 ih2 =>
    intro w' hw
    obtain ⟨u, v, h3, h4, rfl⟩ := forall₂_append_left hw
    cases h4 with
    | cons h1 h4 =>
      cases h1
      obtain ⟨r1, h5, h6⟩ := ih1 _ h3
      obtain ⟨r2, h7, h8⟩ := ih2 _ h4
      exact ⟨.union r1 r2, by simpa using Derives.union h5 h7, fun p => or_congr (h6 p) (h8 p)⟩

theorem holds_exp {P : Prop} (σ : A → Prop) (τ : B → Prop) {w : List (Sym A)} (ws : List (List (Sym B))) (hw : Legal w)
    (h : List.Forall₂ (SymExp P σ τ) w ws) : Legal ws.flatten ∧ (P → (Holds σ w ↔ Holds τ ws.flatten)) := by
  obtain ⟨r, hr⟩ := hw
  obtain ⟨r', h1, h2⟩ := derives_exp σ τ hr _ h
  exact ⟨⟨r', h1⟩, fun p => by rw [holds_iff h1, holds_iff hr, h2 p]⟩

/-- A symbol stays in place. -/
theorem SymExp.refl {P : Prop} {σ τ : A → Prop} (s : Sym A) (h : ∀ a, s = .atom a → (σ a ↔ τ a)) : SymExp P σ τ s [s] := by
  cases s
  · exact .lp
  · exact .rp
  · exact .un
  · exact .no
  · exact .atom (.atom _) fun _ => h _ rfl

theorem mem_symAtoms {a : A} {w : List (Sym A)} : a ∈ symAtoms w ↔ Sym.atom a ∈ w := by
  induction w with
  | nil => simp [symAtoms]
  | cons s w ih => cases s <;> simp [symAtoms, ih]

/-- One atom is replaced by a factor. -/
theorem holds_replace (u v : List (Sym A)) (a : A) (f : List (Sym A)) (g : Reg A) (hw : Legal (u ++ .atom a :: v))
    (hf : Derives .factor f g) :
    Legal (u ++ f ++ v) ∧ ∀ σ : A → Prop, (σ a ↔ g.holds σ) → (Holds σ (u ++ .atom a :: v) ↔ Holds σ (u ++ f ++ v)) := by
  have hself : ∀ (P : Prop) (σ : A → Prop) (w : List (Sym A)), List.Forall₂ (SymExp P σ σ) w (w.map fun s => [s]) := by
    intro P σ w
    induction w with
    | nil => exact .nil
    | cons s w ih => exact .cons (.refl s fun _ _ => Iff.rfl) ih
  have key := fun (P : Prop) (σ : A → Prop) (hg : P → (σ a ↔ g.holds σ)) =>
    holds_exp σ σ (u.map (fun s => [s]) ++ f :: v.map fun s => [s]) hw
      (List.rel_append (hself P σ u) (.cons (.atom hf hg) (hself P σ v)))
  have e : ∀ w : List (Sym A), (w.map fun s => [s]).flatten = w := by
    intro w; induction w with
    | nil => rfl
    | cons s w ih => simp [ih]
  refine ⟨?_, fun σ hσ => ?_⟩
  · simpa [e] using (key False (fun _ => True) (by simp)).1
  · simpa [e] using (key True σ fun _ => hσ).2 trivial

/-- The truth value depends only on the atoms that occur. -/
theorem holds_congr {σ τ : A → Prop} {w : List (Sym A)} (h : ∀ a, Sym.atom a ∈ w → (σ a ↔ τ a)) : Holds σ w ↔ Holds τ w := by
  refine (holds_rel σ τ ?_).2
  induction w with
  | nil => exact .nil
  | cons s w ih =>
    refine .cons ?_ (ih fun a ha => h a (List.mem_cons_of_mem _ ha))
    cases s
    · exact .lp
    · exact .rp
    · exact .un
    · exact .no
    · exact .atom (h _ (by simp))

end

end Csg
