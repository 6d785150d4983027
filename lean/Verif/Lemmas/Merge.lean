import Verif.Lemmas.Rename
import Verif.Lemmas.FlattenDeck

/-!
# Which surfaces are merged
-/

set_option linter.unusedSectionVars false

namespace Csg

open Spec

theorem mapM_ok_iff {α β : Type} {f : α → Py β} {l : List α} {l' : List β} : l.mapM f = .ok l' ↔ List.Forall₂ (fun a b => f a = .ok b) l l' := by
  induction l generalizing l' with
  | nil =>
    constructor
    · intro h; cases h; exact .nil
    · intro h; cases h; rfl
  | cons a l ih =>
    rw [List.mapM_cons]
    constructor
    · intro h
      obtain ⟨b, h1, h⟩ := bind_ok h
      obtain ⟨bs, h2, h⟩ := bind_ok h
      cases h
      exact .cons h1 (ih.1 h2)
    · intro h
      cases h with
      | cons h1 h2 =>
        rw [h1]
        show (l.mapM f >>= _) = _
        rw [ih.2 h2]
        rfl

theorem forall₂_get {α β : Type} {R : α → β → Prop} {l : List α} {l' : List β} (h : List.Forall₂ R l l') {i : Nat} {b : β} (hb : l'[i]? = some b) :
    ∃ a, l[i]? = some a ∧ R a b := by
  induction h generalizing i with
  | nil => simp at hb
  | cons h _ ih =>
    cases i with
    | zero => simp only [List.getElem?_cons_zero, Option.some.injEq] at hb ⊢; exact ⟨_, rfl, hb ▸ h⟩
    | succ i => simp only [List.getElem?_cons_succ] at hb ⊢; exact ih hb

theorem forall₂_get' {α β : Type} {R : α → β → Prop} {l : List α} {l' : List β} (h : List.Forall₂ R l l') {i : Nat} {a : α} (ha : l[i]? = some a) :
    ∃ b, l'[i]? = some b ∧ R a b := by
  induction h generalizing i with
  | nil => simp at ha
  | cons h _ ih =>
    cases i with
    | zero => simp only [List.getElem?_cons_zero, Option.some.injEq] at ha ⊢; exact ⟨_, rfl, ha ▸ h⟩
    | succ i => simp only [List.getElem?_cons_succ] at ha ⊢; exact ih ha

section
variable {K : Type} [Field K] [DecidableEq K]

theorem getElem_of_nodup_ids {surfs : List (Surface K)} (h : (surfs.map Surface.id).Nodup) {i j : Nat} {s t : Surface K} (hi : surfs[i]? = some s)
    (hj : surfs[j]? = some t) (e : s.id = t.id) : i = j := by
  have h1 : (surfs.map Surface.id)[i]? = some s.id := by rw [List.getElem?_map, hi]; rfl
  have h2 : (surfs.map Surface.id)[j]? = some s.id := by rw [List.getElem?_map, hj, e]; rfl
  exact (List.getElem?_inj (List.getElem?_eq_some_iff.1 h1).1 h).1 (h1.trans h2.symm)

/-- An entry of the dictionary. -/
structure Entered (surfs gs : List (Surface K)) (e : Nat × Nat × Bool) (s t a b : Surface K) : Prop where
  before : e.1 < e.2.1
  first : surfs[e.1]? = some s
  later : surfs[e.2.1]? = some t
  general : gs[e.1]? = some b ∧ gs[e.2.1]? = some a
  gen : s.generalise = .ok b ∧ t.generalise = .ok a
  same : (a.diff b true).1 = (true, e.2.2)

theorem entered {surfs gs : List (Surface K)} (h : surfs.mapM Surface.generalise = .ok gs) {e : Nat × Nat × Bool} (he : e ∈ duplicates gs) :
    ∃ s t a b, Entered surfs gs e s t a b := by
  obtain ⟨h1, a, b, ha, hb, hd⟩ := mem_duplicateEntries.1 ((duplicates_spec gs).last e he).1
  obtain ⟨s, hs, gs'⟩ := forall₂_get (mapM_ok_iff.1 h) hb
  obtain ⟨t, ht, gt⟩ := forall₂_get (mapM_ok_iff.1 h) ha
  exact ⟨s, t, a, b, h1, hs, ht, ⟨hb, ha⟩, ⟨gs', gt⟩, hd⟩

/-- The surface that replaces another one is not replaced itself. -/
theorem later_stays {gs : List (Surface K)} {e : Nat × Nat × Bool} (he : e ∈ duplicates gs) : e.2.1 ∉ (duplicates gs).map Prod.fst := by
  intro hk
  obtain ⟨e', he', hk⟩ := List.mem_map.1 hk
  obtain ⟨h0, a, b, ha, hb, hd⟩ := mem_duplicateEntries.1 ((duplicates_spec gs).last e he).1
  obtain ⟨h0', a', b', ha', hb', hd'⟩ := mem_duplicateEntries.1 ((duplicates_spec gs).last e' he').1
  rw [hk, ha] at hb'
  cases hb'
  have h1 : Alike a b := (diff_iff _ _).1 (by rw [hd])
  have h2 : Alike a' a := (diff_iff _ _).1 (by rw [hd'])
  have h3 := (diff_iff _ _).2 (h2.trans h1)
  have h4 : (e.1, e'.2.1, (a'.diff b true).1.2) ∈ duplicateEntries gs :=
    mem_duplicateEntries.2 ⟨by simp only; omega, a', b, ha', hb, Prod.ext h3 rfl⟩
  have := ((duplicates_spec gs).last e he).2 _ h4 rfl
  simp only at this
  omega

theorem separate_renamings {surfs gs : List (Surface K)} (h : surfs.mapM Surface.generalise = .ok gs) (hids : (surfs.map Surface.id).Nodup)
    (hpos : ∀ s ∈ surfs, 0 < s.id) :
    ∃ rs, renamings surfs (duplicates gs) = .ok rs ∧ Separate rs ∧
      (∀ e ∈ duplicates gs, ∃ s t a b, Entered surfs gs e s t a b ∧ (t.id, s.id, e.2.2) ∈ rs) ∧
      (∀ r ∈ rs, ∃ e ∈ duplicates gs, ∃ s t a b, Entered surfs gs e s t a b ∧ r = (t.id, s.id, e.2.2)) := by
  have hlen : ∀ e ∈ duplicates gs, e.1 < surfs.length ∧ e.2.1 < surfs.length := by
    intro e he
    obtain ⟨s, t, a, b, hent⟩ := entered h he
    exact ⟨(List.getElem?_eq_some_iff.1 hent.first).1, (List.getElem?_eq_some_iff.1 hent.later).1⟩
  obtain ⟨rs, h1, h2⟩ := renamings_ok hlen
  have hback : ∀ r ∈ rs, ∃ e ∈ duplicates gs, ∃ s t a b, Entered surfs gs e s t a b ∧ r = (t.id, s.id, e.2.2) := by
    intro r hr
    obtain ⟨e, he, s, t, hs, ht, rfl⟩ := forall₂_right h2 r hr
    obtain ⟨s', t', a, b, hent⟩ := entered h he
    have e1 := hent.first; rw [hs] at e1; cases e1
    have e2 := hent.later; rw [ht] at e2; cases e2
    exact ⟨e, he, s, t, a, b, hent, rfl⟩
  refine ⟨rs, h1, ⟨?_, ?_, ?_⟩, ?_, hback⟩
  · have hk := (duplicates_spec gs).nodup
    generalize duplicates gs = d at h2 hk
    clear h1 hback hlen
    induction h2 with
    | nil => simp
    | @cons e r d rs hr h3 ih =>
      rw [List.map_cons, List.nodup_cons] at hk ⊢
      refine ⟨?_, ih hk.2⟩
      intro hm
      obtain ⟨r', hr', e1⟩ := List.mem_map.1 hm
      obtain ⟨e', he', s', t', hs', -, rfl⟩ := forall₂_right h3 r' hr'
      obtain ⟨s, t, hs, -, rfl⟩ := hr
      simp only at e1
      have : e'.1 = e.1 := getElem_of_nodup_ids hids hs' hs e1
      exact hk.1 (this ▸ List.mem_map_of_mem he')
  · intro r hr r' hr' e1
    obtain ⟨e, he, s, t, a, b, hent, rfl⟩ := hback r hr
    obtain ⟨e', he', s', t', a', b', hent', rfl⟩ := hback r' hr'
    simp only at e1
    have : e.2.1 = e'.1 := getElem_of_nodup_ids hids hent.later hent'.first e1
    exact later_stays he (this ▸ List.mem_map_of_mem he')
  · intro r hr
    obtain ⟨e, he, s, t, a, b, hent, rfl⟩ := hback r hr
    exact ⟨hpos t (List.mem_of_getElem? hent.later), hpos s (List.mem_of_getElem? hent.first)⟩
  · intro e he
    obtain ⟨s, t, a, b, hent⟩ := entered h he
    refine ⟨s, t, a, b, hent, ?_⟩
    have : ∀ {d : List (Nat × Nat × Bool)} {rs}, List.Forall₂ (fun e r => ∃ s t, surfs[e.1]? = some s ∧ surfs[e.2.1]? = some t ∧ r = (t.id, s.id, e.2.2)) d rs →
        e ∈ d → (t.id, s.id, e.2.2) ∈ rs := by
      intro d rs hf hm
      induction hf with
      | nil => cases hm
      | cons hx _ ih =>
        rcases List.mem_cons.1 hm with rfl | hm
        · obtain ⟨s', t', hs, ht, rfl⟩ := hx
          have e1 := hent.first; rw [hs] at e1; cases e1
          have e2 := hent.later; rw [ht] at e2; cases e2
          simp
        · exact List.mem_cons_of_mem _ (ih hm)
    exact this h2 he

end

section
variable {K : Type} [Field K] [LinearOrder K] [IsStrictOrderedRing K]

theorem value_map_neg {cs : List K} (p : Point K) :
    value .generalQuadratic (cs.map fun x => -x) p = (value .generalQuadratic cs p).map fun v => -v := by
  rcases Nat.lt_trichotomy cs.length 10 with h | h | h
  · match cs, h with
    | [], _ | [_], _ | [_, _], _ | [_, _, _], _ | [_, _, _, _], _ | [_, _, _, _, _], _ | [_, _, _, _, _, _], _ | [_, _, _, _, _, _, _], _
    | [_, _, _, _, _, _, _, _], _ | [_, _, _, _, _, _, _, _, _], _ => rfl
  · obtain ⟨a, b, c, d, e, f, g, h', j, k, rfl⟩ := length_ten h
    simp only [value, List.map_cons, List.map_nil, Option.map_some, Option.some.injEq]
    ring
  · match cs, h with
    | _ :: _ :: _ :: _ :: _ :: _ :: _ :: _ :: _ :: _ :: _ :: _, _ => rfl

/-- A quadratic polynomial determines its coefficients. -/
theorem gq_injective {cs ds : List K} (hc : cs.length = 10) (hd : ds.length = 10)
    (h : ∀ p, value .generalQuadratic cs p = value .generalQuadratic ds p) : cs = ds := by
  obtain ⟨a, b, c, d, e, f, g, h', j, k, rfl⟩ := length_ten hc
  obtain ⟨a2, b2, c2, d2, e2, f2, g2, h2, j2, k2, rfl⟩ := length_ten hd
  simp only [value, Option.some.injEq] at h
  have q0 := h ⟨0, 0, 0⟩
  have q1 := h ⟨1, 0, 0⟩
  have q2 := h ⟨-1, 0, 0⟩
  have q3 := h ⟨0, 1, 0⟩
  have q4 := h ⟨0, -1, 0⟩
  have q5 := h ⟨0, 0, 1⟩
  have q6 := h ⟨0, 0, -1⟩
  have q7 := h ⟨1, 1, 0⟩
  have q8 := h ⟨0, 1, 1⟩
  have q9 := h ⟨1, 0, 1⟩
  simp only at q0 q1 q2 q3 q4 q5 q6 q7 q8 q9
  simp only [List.cons.injEq, and_true]
  refine ⟨?_, ?_, ?_, ?_, ?_, ?_, ?_, ?_, ?_, ?_⟩ <;> linarith

theorem generalise_quadric {s g : Surface K} (hw : WellFormed s) (hq : IsQuadric s.type) (h : s.generalise = .ok g) :
    g.type = .generalQuadratic ∧ WellFormed g ∧ ∀ p, value g.type g.coeffs p = value s.type s.coeffs p := by
  obtain ⟨g', h1, h2, h3, -, -, -, h4⟩ := C01_generalise_value s hw hq
  rw [h] at h1
  cases h1
  exact ⟨h2, h3, h4⟩

theorem generalise_torus {s g : Surface K} (hq : s.type.isTorus = true) (h : s.generalise = .ok g) : g = s := by
  unfold Surface.generalise at h
  rw [if_pos hq] at h
  cases h
  rfl

theorem sameEquation_of_diff {s t a b : Surface K} (hws : WellFormed s) (hqs : IsQuadric s.type) (hwt : WellFormed t) (hqt : IsQuadric t.type)
    (hb : s.generalise = .ok b) (ha : t.generalise = .ok a) (h : Alike a b) : SameEquation t s := by
  obtain ⟨tb, -, vb⟩ := generalise_quadric hws hqs hb
  obtain ⟨ta, -, va⟩ := generalise_quadric hwt hqt ha
  rcases h.2 with e | e
  · left
    intro p
    rw [← va, ← vb, ta, tb, e]
  · right
    intro p
    rw [← va, ← vb, ta, tb, e, value_map_neg]

theorem Spec.SameEquation.symm {s t : Surface K} (h : SameEquation s t) : SameEquation t s := by
  rcases h with h | h
  · exact Or.inl fun p => (h p).symm
  · refine Or.inr fun p => ?_
    rw [h p, Option.map_map]
    cases value t.type t.coeffs p <;> simp

theorem alike_of_sameEquation {s t a b : Surface K} (hws : WellFormed s) (hqs : IsQuadric s.type) (hwt : WellFormed t) (hqt : IsQuadric t.type)
    (hb : s.generalise = .ok b) (ha : t.generalise = .ok a) (h : SameEquation t s) : Alike a b := by
  obtain ⟨tb, wb, vb⟩ := generalise_quadric hws hqs hb
  obtain ⟨ta, wa, va⟩ := generalise_quadric hwt hqt ha
  have la : a.coeffs.length = 10 := by rw [WellFormed, ta] at wa; simpa [arity] using wa.symm
  have lb : b.coeffs.length = 10 := by rw [WellFormed, tb] at wb; simpa [arity] using wb.symm
  refine ⟨ta.trans tb.symm, ?_⟩
  rw [ta] at va
  rw [tb] at vb
  rcases h with h | h
  · left
    exact gq_injective la lb fun p => by rw [va, vb, h]
  · right
    refine gq_injective la (by simpa using lb) fun p => ?_
    rw [value_map_neg, va, vb, h]

/-- The senses of two surfaces of which one replaces the other. -/
theorem entered_side (sqrt : K → K) {surfs gs : List (Surface K)} (hids : (surfs.map Surface.id).Nodup) (hm : Mergeable surfs) {e : Nat × Nat × Bool}
    {s t a b : Surface K} (h : Entered surfs gs e s t a b) (p : Point K) :
    side sqrt s.type s.coeffs p = if e.2.2 then (side sqrt t.type t.coeffs p).map Side.flip else side sqrt t.type t.coeffs p := by
  have hms := List.mem_of_getElem? h.first
  have hmt := List.mem_of_getElem? h.later
  have hal : Alike a b := (diff_iff _ _).1 (by rw [h.same])
  have hne : s ≠ t := by
    intro e1
    have := getElem_of_nodup_ids hids h.first h.later (congrArg Surface.id e1)
    have := h.before
    omega
  obtain ⟨hws, hs⟩ := hm.shape s hms
  obtain ⟨hwt, ht⟩ := hm.shape t hmt
  rcases hs with hqs | ⟨hts, hcs⟩ <;> rcases ht with hqt | ⟨htt, hct⟩
  · have heq := sameEquation_of_diff hws hqs hwt hqt h.gen.1 h.gen.2 hal
    have h2s := hm.sheets s hms t hmt hne heq.symm
    have h2t := hm.sheets t hmt s hms hne.symm heq
    obtain ⟨b', hb', tb, -, -, sb⟩ := C01_generalise_side sqrt s hws hqs h2s
    obtain ⟨a', ha', ta, -, -, sa⟩ := C01_generalise_side sqrt t hwt hqt h2t
    rw [h.gen.1] at hb'; cases hb'
    rw [h.gen.2] at ha'; cases ha'
    rw [← (sb p).1, ← (sa p).1, ta, tb, side_gq, side_gq]
    by_cases hr : e.2.2 = true
    · rw [if_pos hr]
      have hc : a.coeffs = b.coeffs.map fun x => -x := diff_reverse' (by rw [h.same, hr])
      rw [hc, value_map_neg]
      cases value .generalQuadratic b.coeffs p with
      | none => rfl
      | some v =>
        simp only [Option.map_some, Option.some.injEq]
        unfold sideOf
        rcases lt_trichotomy v 0 with hv | hv | hv
        · rw [if_pos hv, if_neg (by linarith), if_neg (by linarith)]; rfl
        · rw [if_neg (by linarith), if_pos hv, if_neg (by linarith), if_pos (by linarith)]; rfl
        · rw [if_neg (by linarith), if_neg (by linarith), if_pos (by linarith)]; rfl
    · rw [if_neg hr]
      have hc : a.coeffs = b.coeffs := diff_reverse (by rw [h.same]; simpa using hr)
      rw [hc]
  · exfalso
    have h1 := (generalise_quadric hws hqs h.gen.1).1
    have h2 := generalise_torus htt h.gen.2
    have := hal.1
    rw [h1, h2] at this
    rw [this] at htt
    cases htt
  · exfalso
    have h1 := (generalise_quadric hwt hqt h.gen.2).1
    have h2 := generalise_torus hts h.gen.1
    have := hal.1
    rw [h1, h2] at this
    rw [← this] at hts
    cases hts
  · have h1 := generalise_torus hts h.gen.1
    have h2 := generalise_torus htt h.gen.2
    have hsame := h.same
    rw [h1, h2] at hal hsame
    by_cases hr : e.2.2 = true
    · exfalso
      have hc : t.coeffs = s.coeffs.map fun x => -x := diff_reverse' (by rw [hsame, hr])
      obtain ⟨x, y, z, q, u, v, e1, hq⟩ := hcs
      obtain ⟨x2, y2, z2, q2, u2, v2, e2, hq2⟩ := hct
      rw [e1, e2] at hc
      simp only [List.map_cons, List.map_nil, List.cons.injEq] at hc
      linarith [hc.2.2.2.1]
    · rw [if_neg hr]
      have hc : t.coeffs = s.coeffs := diff_reverse (by rw [hsame]; simpa using hr)
      rw [hc, hal.1]

theorem not_macro_of_shape {s : Surface K} (h : IsQuadric s.type ∨ ProperTorus s) : s.isMacrobody = false := by
  rcases h with h | h
  · cases hs : s.type <;> simp_all [IsQuadric, Surface.isMacrobody]
  · have h := h.1
    cases hs : s.type <;> simp_all [SType.isTorus, Surface.isMacrobody]

end

end Csg
