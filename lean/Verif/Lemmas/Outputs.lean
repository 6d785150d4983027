import Verif.Lemmas.FlukaNames
import Verif.Spec.Outputs

/-!
# Lemmas about output files
-/

namespace Csg

open Spec

theorem returns_bind {α β : Type} (w : W α) (f : α → W β) (b : β) : Returns (w >>= f) b ↔ ∃ a, Returns w a ∧ Returns (f a) b := by
  unfold Returns
  change (OptionT.run (OptionT.bind w f)) = _ ↔ _
  unfold OptionT.bind OptionT.run OptionT.mk
  change (Except.bind w _) = _ ↔ _
  cases hw : (w : Except PyErr (Option α)) with
  | error e => simp [Except.bind]
  | ok o =>
    cases o with
    | none =>
      simp only [Except.bind]
      constructor
      · intro h; cases h
      · rintro ⟨a, h, -⟩; cases h
    | some a =>
      simp only [Except.bind]
      constructor
      · intro h; exact ⟨a, rfl, h⟩
      · rintro ⟨a', h, h'⟩
        cases h
        exact h'

theorem returns_pure {α : Type} (a b : α) : Returns (pure a : W α) b ↔ a = b := by
  unfold Returns
  change (Except.ok (some a) : Except PyErr (Option α)) = _ ↔ _
  simp

theorem returns_lift {α : Type} (x : Py α) (b : α) : Returns (liftM x : W α) b ↔ x = .ok b := by
  unfold Returns
  change (Except.bind x fun a => Except.ok (some a)) = _ ↔ _
  cases x <;> simp [Except.bind]

theorem returns_mk {α : Type} (x : Py (Option α)) (b : α) : Returns (OptionT.mk x : W α) b ↔ x = .ok (some b) := Iff.rfl

theorem returns_unique {α : Type} {w : W α} {a b : α} (h : Returns w a) (h' : Returns w b) : a = b := by
  unfold Returns at h h'
  rw [h] at h'
  simpa using h'

theorem forall₂_left {α β : Type} {R : α → β → Prop} {l : List α} {r : List β} (h : List.Forall₂ R l r) {x : α} (hx : x ∈ l) : ∃ y, R x y := by
  induction h with
  | nil => cases hx
  | cons h _ ih =>
    rcases List.mem_cons.1 hx with rfl | hx
    · exact ⟨_, h⟩
    · exact ih hx

theorem returns_mapM {α β : Type} (f : α → W β) : ∀ (l : List α) (r : List β), Returns (l.mapM f) r ↔ List.Forall₂ (fun x y => Returns (f x) y) l r := by
  intro l
  induction l with
  | nil =>
    intro r
    rw [List.mapM_nil, returns_pure, List.forall₂_nil_left_iff]
    exact eq_comm
  | cons x l ih =>
    intro r
    rw [List.mapM_cons, returns_bind, List.forall₂_cons_left_iff]
    constructor
    · rintro ⟨y, hy, h⟩
      rw [returns_bind] at h
      obtain ⟨ys, hys, h⟩ := h
      rw [returns_pure] at h
      exact ⟨y, ys, hy, (ih ys).1 hys, h.symm⟩
    · rintro ⟨y, ys, hy, hys, rfl⟩
      refine ⟨y, hy, ?_⟩
      rw [returns_bind]
      exact ⟨ys, (ih ys).2 hys, by rw [returns_pure]⟩

theorem returns_cards {α : Type} (f : α → Py (Option Str)) (l : List α) (t : Str) :
    Returns (cards f l) t ↔ ∃ ts, List.Forall₂ (fun x y => f x = .ok (some y)) l ts ∧ t = ts.flatten := by
  unfold cards
  rw [returns_bind]
  constructor
  · rintro ⟨ts, h, e⟩
    rw [returns_pure] at e
    exact ⟨ts, (returns_mapM _ _ _).1 h, e.symm⟩
  · rintro ⟨ts, h, rfl⟩
    exact ⟨ts, (returns_mapM _ _ _).2 h, by rw [returns_pure]⟩

theorem returns_cards' {α : Type} (f : α → Py Str) (l : List α) (t : Str) :
    Returns (cards' f l) t ↔ ∃ ts, List.Forall₂ (fun x y => f x = .ok y) l ts ∧ t = ts.flatten := by
  unfold cards'
  rw [returns_cards]
  have : (fun (x : α) (y : Str) => (f x).map some = .ok (some y)) = fun x y => f x = .ok y := by
    funext x y
    cases f x <;> simp [Except.map]
  rw [this]

section
variable {K : Type} [Field K] [LinearOrder K]

/-- What a code leaves behind: only FLUKA changes the surfaces and the materials, only SCONE the universes. -/
theorem writeCode_shared {e : Env K} {c : Code} {s s' : Shared K} {t : OutFile} (h : Returns (writeCode e c s) (t, s')) :
    s'.cells = s.cells ∧ (c ≠ .fluka → s'.surfaces = s.surfaces ∧ s'.materials = s.materials) ∧ (c ≠ .scone → s'.universes = s.universes) := by
  cases c <;> simp only [writeCode] at h <;> rw [returns_bind] at h <;> obtain ⟨x, hx, h⟩ := h <;> rw [returns_pure] at h <;> cases h <;>
    simp

/-- What a code writes depends on the universes only for SCONE. -/
theorem writeCode_congr {e : Env K} {c : Code} {s s' : Shared K} {t : OutFile} {r : Shared K} (h : Returns (writeCode e c s) (t, r))
    (hc : s'.cells = s.cells) (hs : s'.surfaces = s.surfaces) (hm : s'.materials = s.materials) (hu : c = .scone → s'.universes = s.universes) :
    ∃ r', Returns (writeCode e c s') (t, r') := by
  cases c <;> simp only [writeCode] at h ⊢ <;> rw [returns_bind] at h <;> obtain ⟨x, hx, h⟩ := h <;> rw [returns_pure] at h <;> cases h
  all_goals first
    | exact ⟨_, by rw [returns_bind]; exact ⟨_, by rw [hc, hs, hm]; exact hx, by rw [returns_pure]⟩⟩
    | exact ⟨_, by rw [returns_bind]; exact ⟨_, by rw [hc, hs, hm, hu rfl]; exact hx, by rw [returns_pure]⟩⟩

theorem writeCodes_cons {e : Env K} {c : Code} {cs : List Code} {s : Shared K} {fs : List (Code × OutFile)} :
    Returns (writeCodes e (c :: cs) s) fs ↔ ∃ t s' ts, Returns (writeCode e c s) (t, s') ∧ Returns (writeCodes e cs s') ts ∧ fs = (c, t) :: ts := by
  rw [writeCodes, returns_bind]
  constructor
  · rintro ⟨⟨t, s'⟩, h, h'⟩
    rw [returns_bind] at h'
    obtain ⟨ts, h', h''⟩ := h'
    rw [returns_pure] at h''
    exact ⟨t, s', ts, h, h', h''.symm⟩
  · rintro ⟨t, s', ts, h, h', rfl⟩
    refine ⟨(t, s'), h, ?_⟩
    rw [returns_bind]
    exact ⟨ts, h', by rw [returns_pure]⟩

theorem writeCodes_names {e : Env K} : ∀ {cs : List Code} {s : Shared K} {fs : List (Code × OutFile)}, Returns (writeCodes e cs s) fs → fs.map Prod.fst = cs := by
  intro cs
  induction cs with
  | nil =>
    intro s fs h
    rw [writeCodes, returns_pure] at h
    rw [← h]
    rfl
  | cons c cs ih =>
    intro s fs h
    obtain ⟨t, s', ts, -, h', rfl⟩ := writeCodes_cons.1 h
    simp [ih h']

/-- The names of a FLUKA composition are no integers. -/
theorem fluka_no_int : ∀ p ∈ zzToFluka, parseInt p.2 = none := by decide +kernel

theorem flukaName_table {nuc name : Str} (h : flukaName nuc = .ok (some name)) : ∃ z, (z, name) ∈ zzToFluka := by
  unfold flukaName at h
  cases hz : pyInt nuc with
  | error e => rw [hz] at h; cases h
  | ok z =>
    rw [hz] at h
    simp only [bind, Except.bind] at h
    split at h
    · rename_i n hn
      cases h
      exact ⟨_, mem_of_lookup hn⟩
    · split at h
      · cases h
      · split at h
        · rename_i n hn
          cases h
          exact ⟨_, mem_of_lookup hn⟩
        · cases h

theorem collapsedMap_mem : ∀ {nucs : List Str} {map : List (Str × Str)}, collapsedMap nucs = .ok map →
    (∀ p ∈ map, flukaName p.1 = .ok (some p.2)) ∧ ∀ nuc ∈ nucs, ∀ name, flukaName nuc = .ok (some name) → (nuc, name) ∈ map := by
  intro nucs
  induction nucs with
  | nil =>
    intro map h
    cases h
    simp
  | cons a nucs ih =>
    intro map h
    rw [collapsedMap] at h
    cases ha : flukaName a with
    | error e => rw [ha] at h; cases h
    | ok o =>
      cases hr : collapsedMap nucs with
      | error e => rw [ha, hr] at h; cases h
      | ok rest =>
        rw [ha, hr] at h
        obtain ⟨h1, h2⟩ := ih hr
        cases o with
        | none =>
          cases h
          refine ⟨h1, ?_⟩
          intro nuc hn name hname
          rcases List.mem_cons.1 hn with rfl | hn
          · rw [ha] at hname; cases hname
          · exact h2 nuc hn name hname
        | some b =>
          cases h
          refine ⟨?_, ?_⟩
          · intro p hp
            rcases List.mem_cons.1 hp with rfl | hp
            · exact ha
            · exact h1 p hp
          · intro nuc hn name hname
            rcases List.mem_cons.1 hn with rfl | hn
            · rw [ha] at hname
              cases hname
              simp
            · exact List.mem_cons_of_mem _ (h2 nuc hn name hname)

omit [LinearOrder K] in
theorem molarMass_fails : ∀ {comp : List (Str × K)} {s : K}, (∃ p ∈ comp, parseInt p.1 = none) →
    ∀ r, comp.foldlM (fun s e => do let z ← pyInt e.1; .ok (s + e.2 * ((z % 1000 : Int) : K))) s ≠ (.ok r : Py K) := by
  intro comp
  induction comp with
  | nil => rintro s ⟨p, hp, -⟩; cases hp
  | cons a comp ih =>
    rintro s ⟨p, hp, hn⟩ r h
    rw [List.foldlM_cons] at h
    cases ha : parseInt a.1 with
    | none =>
      rw [pyInt, ha] at h
      cases h
    | some z =>
      rw [pyInt, ha] at h
      rcases List.mem_cons.1 hp with rfl | hp
      · rw [ha] at hn; cases hn
      · exact ih ⟨p, hp, hn⟩ r h

end

end Csg
