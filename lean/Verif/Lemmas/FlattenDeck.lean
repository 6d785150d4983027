import Verif.Lemmas.FlattenCell
import Mathlib.Data.List.Forall2

/-!
# Flattening of all cells for all macrobodies
-/

set_option linter.unusedSectionVars false

namespace Csg

open Spec

theorem mapM_forall₂ {α β : Type} {f : α → Py β} {R : α → β → Prop} {l : List α} (h : ∀ a ∈ l, ∃ b, f a = .ok b ∧ R a b) :
    ∃ l', l.mapM f = .ok l' ∧ List.Forall₂ R l l' := by
  induction l with
  | nil => exact ⟨[], rfl, .nil⟩
  | cons a l ih =>
    obtain ⟨b, h1, h2⟩ := h a (by simp)
    obtain ⟨l', h3, h4⟩ := ih fun x hx => h x (List.mem_cons_of_mem _ hx)
    refine ⟨b :: l', ?_, .cons h2 h4⟩
    rw [List.mapM_cons, h1]
    simp only [bind, Except.bind] at h3 ⊢
    rw [h3]
    rfl

theorem forall₂_right {α β : Type} {R : α → β → Prop} {l : List α} {l' : List β} (h : List.Forall₂ R l l') :
    ∀ b ∈ l', ∃ a ∈ l, R a b := by
  induction h with
  | nil => intro b hb; cases hb
  | cons h1 _ ih =>
    intro b hb
    rcases List.mem_cons.1 hb with rfl | hb
    · exact ⟨_, by simp, h1⟩
    · obtain ⟨a, ha, hr⟩ := ih b hb
      exact ⟨a, by simp [ha], hr⟩

section
variable {K : Type} [Field K] [LinearOrder K] [IsStrictOrderedRing K]
variable {sqrt : K → K} (place : Option Str → Point K → Point K)

/-- The `while` loop on the words ends in the second round at the latest. -/
theorem flattenWords_ok {surfs rest : List (Surface K)} {last : Int} {s : Surface K} (h : Ready sqrt surfs last s rest) {ws : List Str}
    (hw : ∀ w ∈ ws, tokenSym w = .atom w → LoopWord surfs (s :: rest) w) :
    ∃ ws', flattenWords s.id (explodedBody sqrt last s).inside (explodedBody sqrt last s).outside (placed s.transform (newSurfaces sqrt last s)) 3 ws =
        some (.ok ws') ∧ List.Forall₂ (WordStep (sqrt := sqrt) place surfs rest last s) ws ws' := by
  obtain ⟨ws', h1, h2⟩ := mapM_forall₂ (l := ws) (fun w hw' => by
    obtain ⟨w', hs⟩ := wordStep_exists place h (hw w hw')
    exact ⟨w', hs.step, hs⟩)
  refine ⟨ws', ?_, h2⟩
  have hend : ws'.any (refersTo s.id) = false := by
    rw [List.any_eq_false]
    intro w' hw'
    obtain ⟨w, -, hs⟩ := forall₂_right h2 w' hw'
    rw [hs.ends]; decide
  have hround : ∀ n, flattenWords s.id (explodedBody sqrt last s).inside (explodedBody sqrt last s).outside
      (placed s.transform (newSurfaces sqrt last s)) (n + 1) ws' = some (.ok ws') := by
    intro n
    unfold flattenWords
    rw [hend]
    rfl
  by_cases hany : ws.any (refersTo s.id) = true
  · unfold flattenWords
    rw [if_pos hany, h1]
    exact hround 1
  · have hsame : ws' = ws := by
      have hf : ∀ w ∈ ws, refersTo s.id w = false := by
        intro w hw'
        rw [Bool.eq_false_iff]
        intro e
        exact hany (List.any_eq_true.2 ⟨w, hw', e⟩)
      clear hw h1 hend hround hany
      induction h2 with
      | nil => rfl
      | cons hs _ ih =>
        rw [hs.same (hf _ (by simp)), ih fun w hw => hf w (List.mem_cons_of_mem _ hw)]
    rw [← hsame]
    exact hround 2

/-- What is known about each cell in the loop. -/
structure LoopCell (surfs rest : List (Surface K)) (c : Cell K) : Prop where
  material : ReadMaterial c
  legal : Legal (tokenSyms c.text)
  parsed : itemSyms c.interpreted = tokenSyms c.text
  words : ∀ w ∈ c.text, tokenSym w = .atom w → LoopWord surfs rest w

theorem tokenSym_eq_atom {t w : Str} (e : tokenSym t = .atom w) : t = w := by
  rcases token_cases t with rfl | rfl | rfl | rfl | h
  · cases e
  · cases e
  · cases e
  · cases e
  · rw [e] at h; cases h; rfl

/-- A cell before and after one or more steps: only the description and the surface set change, the region is the same, and words with `#` are kept and not new. -/
structure SameRegion (surfs surfs' : List (Surface K)) (sqrt : K → K) (c c' : Cell K) : Prop where
  fields : c' = { c with text := c'.text, interpreted := c'.interpreted, surfaces := c'.surfaces }
  holds : ∀ p T, Holds (cellSense (pointSense sqrt place surfs p) T) (tokenSyms c.text) ↔
    Holds (cellSense (pointSense sqrt place surfs' p) T) (tokenSyms c'.text)
  refs : ∀ w ∈ c'.text, tokenSym w = .atom w → '#' ∈ w → w ∈ c.text
  nots : HashOpen c.text → HashOpen c'.text
  more : (∀ s ∈ surfs, s ∈ surfs') ∧ ∀ n ∈ c.surfaces, n ∈ c'.surfaces
  plain : NumbersPlain surfs c.text → NumbersPlain surfs' c'.text ∧ ∀ n ∈ c'.surfaces, n ∈ c.surfaces ∨ ∃ s ∈ surfs', s.isMacrobody = false ∧ s.id = n
  named : NumbersPlain surfs c.text → (∀ w ∈ c'.text, ∀ z, parseInt w = some z → w ∈ c.text ∨ ∃ s ∈ surfs', s ∉ surfs ∧ s.id = z.natAbs) ∧
    ∀ n ∈ c'.surfaces, n ∈ c.surfaces ∨ (∃ w ∈ c.text, ∃ z : Int, parseInt w = some z ∧ n = z.natAbs) ∨ ∃ s ∈ surfs', s ∉ surfs ∧ s.id = n
  kept : ∀ n, refWord n ∈ c.text → refWord n ∈ c'.text

theorem forall₂_map_left {α β γ : Type} {R : α → β → Prop} {f : γ → α} {l : List γ} {l' : List β}
    (h : List.Forall₂ (fun c b => R (f c) b) l l') : List.Forall₂ R (l.map f) l' := by
  induction h with
  | nil => exact .nil
  | cons h _ ih => exact .cons h ih

theorem forall₂_map_both {α β γ δ : Type} {R : α → β → Prop} {f : γ → α} {g : δ → β} {l : List γ} {l' : List δ}
    (h : List.Forall₂ (fun c d => R (f c) (g d)) l l') : List.Forall₂ R (l.map f) (l'.map g) := by
  induction h with
  | nil => exact .nil
  | cons h _ ih => exact .cons h ih

theorem forall₂_imp {α β : Type} {R S : α → β → Prop} {l : List α} {l' : List β} (hRS : ∀ a b, R a b → S a b)
    (h : List.Forall₂ R l l') : List.Forall₂ S l l' := by
  induction h with
  | nil => exact .nil
  | cons h _ ih => exact .cons (hRS _ _ h) ih

theorem forall₂_mem {α β : Type} {R : α → β → Prop} {l : List α} {l' : List β} (h : List.Forall₂ R l l') : List.Forall₂ (fun a b => a ∈ l ∧ b ∈ l' ∧ R a b) l l' := by
  induction h with
  | nil => exact .nil
  | cons a _ ih => exact .cons ⟨by simp, by simp, a⟩ (forall₂_imp (fun _ _ x => ⟨by simp [x.1], by simp [x.2.1], x.2.2⟩) ih)

theorem parseInt_minus {n : Int} (h : 0 < n) : parseInt ('-' :: intStr n) = some (-n) := by
  have : '-' :: intStr n = intStr (-n) := by
    obtain ⟨m, rfl⟩ := Int.eq_succ_of_zero_lt h
    rfl
  rw [this, parseInt_intStr]

theorem mem_of_pyGet {α : Type} {l : List α} {i : Nat} {x : α} (h : pyGet l i = .ok x) : x ∈ l := by
  unfold pyGet at h
  split at h
  · rename_i e
    cases h
    exact List.mem_of_getElem? e
  · cases h

theorem pyGetI_mem {α : Type} {l : List α} {i : Int} {x : α} (h : pyGetI l i = .ok x) : x ∈ l := by
  unfold pyGetI at h
  split at h
  · exact mem_of_pyGet h
  · split at h
    · exact mem_of_pyGet h
    · cases h

/-- A word that is not the body itself stays, or is a facet, which becomes one of the new surfaces. -/
theorem flattenWord_plain {id : Int} {inside outside : Str} {news : List (Surface K)} {w w' : Str} (h : flattenWord id inside outside news w = .ok w')
    (h1 : intStr id ≠ w) (h2 : '-' :: intStr id ≠ w) : w' = w ∨ ∃ n ∈ news, w' = intStr n.id ∨ w' = '-' :: intStr n.id := by
  unfold flattenWord at h
  simp only [if_neg h1, if_neg h2] at h
  by_cases hd : hasInfix (intStr id ++ c!".") w = true
  · rw [if_pos hd] at h
    obtain ⟨t, -, h⟩ := bind_ok h
    obtain ⟨k, -, h⟩ := bind_ok h
    obtain ⟨s, hs, h⟩ := bind_ok h
    cases h
    refine Or.inr ⟨s, pyGetI_mem hs, ?_⟩
    split
    · exact Or.inr rfl
    · exact Or.inl rfl
  · rw [if_neg hd] at h
    cases h
    exact Or.inl rfl

theorem insideText_hash (ty : SType) (ids : List Int) : '#' ∉ insideText (closeText ty) ids := by
  unfold insideText
  simp only [List.mem_append, not_or, List.mem_flatMap, not_exists, not_and]
  refine ⟨⟨by decide, fun i _ => ⟨by decide, hash_not_mem_intStr i⟩⟩, ?_⟩
  rcases closeText_or ty with h | h <;> rw [h] <;> decide

theorem outsideText_hash (opening sep : Str) (ho : opening = c!"( " ∨ opening = c!"(") (hs : sep = c!" : " ∨ sep = c!":") (ids : List Int) :
    '#' ∉ outsideText opening sep ids := by
  unfold outsideText
  simp only [List.mem_append, not_or]
  refine ⟨⟨by rcases ho with rfl | rfl <;> decide, fun h => ?_⟩, by decide⟩
  rcases mem_join h with h | ⟨w, hw, h⟩
  · rcases hs with rfl | rfl <;> simp at h
  · obtain ⟨i, -, rfl⟩ := List.mem_map.1 hw
    exact hash_not_mem_intStr i h

/-- A word stays or is replaced by a text without `#`. -/
theorem flattenWord_hash {id : Int} {inside outside : Str} {news : List (Surface K)} {w w' : Str} (h : flattenWord id inside outside news w = .ok w')
    (hi : '#' ∉ inside) (ho : '#' ∉ outside) : w' = w ∨ '#' ∉ w' := by
  unfold flattenWord at h
  simp only at h
  by_cases hd : hasInfix (intStr id ++ c!".") w = true
  · rw [if_pos hd] at h
    obtain ⟨t, -, h⟩ := bind_ok h
    obtain ⟨k, -, h⟩ := bind_ok h
    obtain ⟨s, -, h⟩ := bind_ok h
    cases h
    right
    split
    · simp only [List.mem_append, not_or]
      exact ⟨by decide, hash_not_mem_intStr _⟩
    · exact hash_not_mem_intStr _
  · rw [if_neg hd] at h
    cases h
    split
    · exact Or.inr ho
    · split
      · exact Or.inr hi
      · exact Or.inl rfl

theorem lexGo_chars {a : Str} {x : Char} (hx : x ∈ a) : ∀ (s cur : Str), Sym.atom a ∈ lexGo cur s → x ∈ cur ∨ x ∈ s := by
  have hend : ∀ cur : Str, Sym.atom a ∈ endWord cur → x ∈ cur := by
    intro cur h
    unfold endWord at h
    split at h
    · cases h
    · unfold wordSym at h
      split at h
      · simp at h
      · simp only [List.mem_singleton, Sym.atom.injEq] at h
        rwa [← h]
  intro s
  induction s with
  | nil => intro cur h; exact Or.inl (hend cur h)
  | cons c s ih =>
    intro cur h
    have hsub : ∀ sy : List (Sym Str), (∀ y ∈ sy, ∀ b, y ≠ Sym.atom b) → Sym.atom a ∈ endWord cur ++ (sy ++ lexGo [] s) → x ∈ cur ∨ x ∈ c :: s := by
      intro sy hsy h
      rcases List.mem_append.1 h with h | h
      · exact Or.inl (hend cur h)
      · rcases List.mem_append.1 h with h | h
        · exact absurd rfl (hsy _ h a)
        · rcases ih [] h with h | h
          · cases h
          · exact Or.inr (List.mem_cons_of_mem _ h)
    unfold lexGo at h
    split at h
    · exact hsub [] (by simp) h
    split at h
    · exact hsub [.lp] (by simp) h
    split at h
    · exact hsub [.rp] (by simp) h
    split at h
    · exact hsub [.un] (by simp) h
    split at h
    · rcases ih cur h with h | h
      · exact Or.inl h
      · exact Or.inr (List.mem_cons_of_mem _ h)
    · rcases ih _ h with h | h
      · rcases List.mem_append.1 h with h | h
        · exact Or.inl h
        · exact Or.inr (by simp at h; simp [h])
      · exact Or.inr (List.mem_cons_of_mem _ h)

theorem lexGeometry_chars {a s : Str} {x : Char} (h : Sym.atom a ∈ lexGeometry s) (hx : x ∈ a) : x ∈ s := by
  rcases lexGo_chars hx s [] h with h | h
  · cases h
  · exact h

theorem lexGo_no : ∀ (s cur : Str), Sym.no ∈ lexGo cur s → '#' ∈ cur ∨ '#' ∈ s := by
  have hend : ∀ cur : Str, Sym.no ∈ endWord cur → '#' ∈ cur := by
    intro cur h
    unfold endWord at h
    split at h
    · cases h
    · unfold wordSym at h
      split at h
      · rename_i e
        rw [e]
        simp
      · simp at h
  intro s
  induction s with
  | nil => intro cur h; exact Or.inl (hend cur h)
  | cons c s ih =>
    intro cur h
    have hsub : ∀ sy : List (Sym Str), Sym.no ∉ sy → Sym.no ∈ endWord cur ++ (sy ++ lexGo [] s) → '#' ∈ cur ∨ '#' ∈ c :: s := by
      intro sy hsy h
      rcases List.mem_append.1 h with h | h
      · exact Or.inl (hend cur h)
      · rcases List.mem_append.1 h with h | h
        · exact absurd h hsy
        · rcases ih [] h with h | h
          · cases h
          · exact Or.inr (List.mem_cons_of_mem _ h)
    unfold lexGo at h
    split at h
    · exact hsub [] (by simp) h
    split at h
    · exact hsub [.lp] (by simp) h
    split at h
    · exact hsub [.rp] (by simp) h
    split at h
    · exact hsub [.un] (by simp) h
    split at h
    · rcases ih cur h with h | h
      · exact Or.inl h
      · exact Or.inr (List.mem_cons_of_mem _ h)
    · rcases ih _ h with h | h
      · rcases List.mem_append.1 h with h | h
        · exact Or.inl h
        · exact Or.inr (by simp at h; simp [← h])
      · exact Or.inr (List.mem_cons_of_mem _ h)

theorem lexGeometry_no {s : Str} (h : Sym.no ∈ lexGeometry s) : '#' ∈ s := by
  rcases lexGo_no s [] h with h | h
  · cases h
  · exact h

/-- Each complement stands before an opening parenthesis. -/
def OpenSyms : List (Sym Str) → Prop
  | [] => True
  | s :: ss => (s = .no → ss.head? = some .lp) ∧ OpenSyms ss

theorem tokenSym_no {w : Str} : tokenSym w = .no ↔ w = c!"#" := by
  unfold tokenSym wordSym
  constructor
  · intro h
    split_ifs at h
    assumption
  · rintro rfl; rfl

theorem tokenSym_lp {w : Str} : tokenSym w = .lp ↔ w = c!"(" := by
  unfold tokenSym wordSym
  constructor
  · intro h
    split_ifs at h
    assumption
  · rintro rfl; rfl

theorem hashOpen_iff (ws : List Str) : HashOpen ws ↔ OpenSyms (tokenSyms ws) := by
  induction ws with
  | nil =>
    refine ⟨fun _ => trivial, fun _ a b e => ?_⟩
    cases a <;> cases e
  | cons w ws ih =>
    unfold tokenSyms at ih ⊢
    simp only [List.map_cons, OpenSyms, ← ih]
    constructor
    · intro h
      refine ⟨fun e => ?_, fun a b e => h (w :: a) b (by rw [e]; rfl)⟩
      have := h [] ws (by rw [tokenSym_no.1 e]; rfl)
      rw [List.head?_map, this]
      rfl
    · rintro ⟨h1, h2⟩ a b e
      cases a with
      | nil =>
        simp only [List.nil_append, List.cons.injEq] at e
        obtain ⟨rfl, rfl⟩ := e
        have := h1 rfl
        rw [List.head?_map] at this
        cases h : ws.head? with
        | none => rw [h] at this; cases this
        | some v =>
          rw [h] at this
          simp only [Option.map_some, Option.some.injEq] at this
          rw [tokenSym_lp.1 this]
      | cons x a =>
        simp only [List.cons_append, List.cons.injEq] at e
        exact h2 a b e.2

theorem openSyms_append {a b : List (Sym Str)} (ha : Sym.no ∉ a) (hb : OpenSyms b) : OpenSyms (a ++ b) := by
  induction a with
  | nil => exact hb
  | cons x a ih =>
    simp only [List.mem_cons, not_or] at ha
    exact ⟨fun e => absurd e.symm ha.1, ih ha.2⟩

theorem openSyms_exp {P : Prop} {σ τ : Str → Prop} {w : List (Sym Str)} {ws : List (List (Sym Str))} (h : List.Forall₂ (SymExp P σ τ) w ws)
    (ha : List.Forall₂ (fun s l => s ≠ .no → Sym.no ∉ l) w ws) (ho : OpenSyms w) : OpenSyms ws.flatten := by
  induction h with
  | nil => trivial
  | @cons s l w ws hs ht ih =>
    cases ha with
    | cons hx hxs =>
    have hrest := ih hxs ho.2
    rw [List.flatten_cons]
    by_cases e : s = .no
    · subst e
      cases hs
      refine ⟨fun _ => ?_, hrest⟩
      have := ho.1 rfl
      cases ht with
      | nil => cases this
      | cons h1 _ =>
        simp only [List.head?_cons, Option.some.injEq] at this
        subst this
        cases h1
        rfl
    · exact openSyms_append (hx e) hrest

theorem LoopWord.lex {surfs rest : List (Surface K)} {w : Str} (h : LoopWord surfs rest w) : lexGeometry w = [.atom w] := by
  rcases h with ⟨n, rfl⟩ | ⟨t, -, -, rfl | rfl⟩ | ⟨t, -, -, -, neg, k, rfl, -⟩
  · exact lexGeometry_word (plain_refWord n) (by simp [refWord]) (refWord_ne_hash n)
  · exact lexGeometry_word (intStr_plain _) (intStr_ne_nil _) (ne_hash_of_not_mem (hash_not_mem_intStr _))
  · exact lexGeometry_word (plain_minus (intStr_plain _)) (by simp) (ne_hash_of_not_mem (hash_not_mem_minus _))
  · exact lexGeometry_word (plain_facetWord _ _ _) (facetWord_ne_nil _ _ _) (ne_hash_of_not_mem (hash_not_mem_facetWord _ _ _))

theorem lexGeometry_loop {surfs rest : List (Surface K)} {w a : Str} (h : tokenSym w = .atom w → LoopWord surfs rest w)
    (ha : Sym.atom a ∈ lexGeometry w) : w = a := by
  rcases token_cases w with rfl | rfl | rfl | rfl | e
  · simp [lexGeometry, lexGo, isSpace, endWord] at ha
  · simp [lexGeometry, lexGo, isSpace, endWord] at ha
  · simp [lexGeometry, lexGo, isSpace, endWord] at ha
  · simp [lexGeometry, lexGo, isSpace, endWord, wordSym] at ha
  · rw [(h e).lex] at ha
    simp only [List.mem_singleton, Sym.atom.injEq] at ha
    exact ha.symm

theorem newSurfaces_length (last : Int) (s : Surface K) : (newSurfaces sqrt last s).length = (faces sqrt s.type s.coeffs).length := by
  simp [newSurfaces]

theorem placed_range {last : Int} {s n : Surface K} {t : Option Str} (h : n ∈ placed t (newSurfaces sqrt last s)) :
    last < n.id ∧ n.id ≤ last + (faces sqrt s.type s.coeffs).length := by
  obtain ⟨m, hm, rfl⟩ := List.mem_map.1 h
  obtain ⟨i, f, hf, rfl⟩ := mem_newSurfaces sqrt hm
  have : i < (faces sqrt s.type s.coeffs).length := by
    rcases Nat.lt_or_ge i (faces sqrt s.type s.coeffs).length with h | h
    · exact h
    · rw [List.getElem?_eq_none h] at hf; cases hf
  simp only [plainCard]
  omega

theorem flattenCell_ok (io : NumIO K) (hio : Exact io) (cosDeg : K → K) {surfs rest : List (Surface K)} {last : Int} {s : Surface K}
    (h : Ready sqrt surfs last s rest) {c : Cell K} (hc : LoopCell surfs (s :: rest) c) :
    ∃ c', flattenCell io cosDeg s.id (explodedBody sqrt last s).inside (explodedBody sqrt last s).outside
        (placed s.transform (newSurfaces sqrt last s)) c = .ok c' ∧
      LoopCell (surfs ++ placed s.transform (newSurfaces sqrt last s)) rest c' ∧
      SameRegion place surfs (surfs ++ placed s.transform (newSurfaces sqrt last s)) sqrt c c' := by
  obtain ⟨ws, h1, h2⟩ := flattenWords_ok place h hc.words
  have hlex := lexGeometry_join ws
  have hexp : ∀ p T, List.Forall₂ (SymExp True (cellSense (pointSense sqrt place surfs p) T)
      (cellSense (pointSense sqrt place (surfs ++ placed s.transform (newSurfaces sqrt last s)) p) T)) (tokenSyms c.text) (ws.map lexGeometry) :=
    fun p T => forall₂_map_both (forall₂_imp (fun w w' hs => hs.meaning p T) h2)
  have hleg : Legal (lexGeometry (join c!" " ws)) := by
    rw [hlex]
    exact (holds_exp _ _ _ hc.legal (hexp ⟨0, 0, 0⟩ fun _ => True)).1
  have hkw : NoKeyword (join c!" " ws) := noKeyword_join fun w' hw' => by
    obtain ⟨w, -, hs⟩ := forall₂_right h2 w' hw'
    exact hs.keyword
  obtain ⟨is, ns, g1, g2, g3, g4⟩ := update_ok io hio cosDeg { c with text := ws } hc.material (join c!" " ws) hkw hleg
  refine ⟨{ c with text := split (expandText (join c!" " ws)), interpreted := is, surfaces := c.surfaces ++ ns }, ?_,
    ⟨hc.material, by rw [g3]; exact hleg, by rw [g3]; exact g2, ?_⟩, ⟨rfl, ?_, ?_, ?_, ⟨fun t ht => List.mem_append_left _ ht, fun n hn => List.mem_append_left _ hn⟩, ?_, ?_, ?_⟩⟩
  · unfold flattenCell
    rw [h1]
    exact g4
  · intro w hw hsym
    have hmem : Sym.atom w ∈ lexGeometry (join c!" " ws) := by
      rw [← g3, ← hsym]
      exact List.mem_map_of_mem hw
    rw [hlex] at hmem
    obtain ⟨l, hl, hal⟩ := List.mem_flatten.1 hmem
    obtain ⟨w', hw', rfl⟩ := List.mem_map.1 hl
    obtain ⟨w0, -, hs⟩ := forall₂_right h2 w' hw'
    exact hs.words w hal
  · intro p T
    rw [g3, hlex]
    exact (holds_exp _ _ _ hc.legal (hexp p T)).2 trivial
  · intro w hw hsym hash
    have hmem : Sym.atom w ∈ lexGeometry (join c!" " ws) := by
      rw [← g3, ← hsym]
      exact List.mem_map_of_mem hw
    rw [hlex] at hmem
    obtain ⟨l, hl, hal⟩ := List.mem_flatten.1 hmem
    obtain ⟨w', hw', rfl⟩ := List.mem_map.1 hl
    obtain ⟨w0, hw0, hs⟩ := forall₂_right h2 w' hw'
    rcases flattenWord_hash hs.step (insideText_hash _ _) (outsideText_hash _ _ (openText_or _) (sepText_or _) _) with rfl | hno
    · rw [← lexGeometry_loop (hc.words w' hw0) hal]
      exact hw0
    · exact absurd (lexGeometry_chars hal hash) hno
  · intro ho
    refine (hashOpen_iff _).2 ?_
    rw [g3, hlex]
    refine openSyms_exp (hexp ⟨0, 0, 0⟩ fun _ => True) ?_ ((hashOpen_iff _).1 ho)
    refine forall₂_map_both (forall₂_imp ?_ (forall₂_mem h2))
    rintro w w' ⟨hw, -, hs⟩ hn hm
    have hash := lexGeometry_no hm
    rcases flattenWord_hash hs.step (insideText_hash _ _) (outsideText_hash _ _ (openText_or _) (sepText_or _) _) with rfl | hno
    · rcases token_cases w' with rfl | rfl | rfl | rfl | e
      · exact absurd hash (by decide)
      · exact absurd hash (by decide)
      · exact absurd hash (by decide)
      · exact hn rfl
      · rw [(hc.words w' hw e).lex] at hm
        simp at hm
    · exact hno hash
  · intro hn
    have hnew : NumbersPlain (surfs ++ placed s.transform (newSurfaces sqrt last s)) (split (expandText (join c!" " ws))) := by
      intro w hw z hz
      have hsym : tokenSym w = .atom w := by
        rcases token_cases w with rfl | rfl | rfl | rfl | e
        · rw [show parseInt c!"(" = none by decide] at hz; cases hz
        · rw [show parseInt c!")" = none by decide] at hz; cases hz
        · rw [show parseInt c!":" = none by decide] at hz; cases hz
        · rw [show parseInt c!"#" = none by decide] at hz; cases hz
        · exact e
      have hmem : Sym.atom w ∈ lexGeometry (join c!" " ws) := by
        rw [← g3, ← hsym]
        exact List.mem_map_of_mem hw
      rw [hlex] at hmem
      obtain ⟨l, hl, hal⟩ := List.mem_flatten.1 hmem
      obtain ⟨w', hw', rfl⟩ := List.mem_map.1 hl
      obtain ⟨w0, hw0, hs⟩ := forall₂_right h2 w' hw'
      have hbody : ∀ z : Int, parseInt w0 = some z → s.id ≠ z.natAbs := by
        intro z hz e
        obtain ⟨t, ht, hm, e'⟩ := hn w0 hw0 z hz
        obtain rfl := h.unique t ht s h.mem (e'.trans e.symm)
        rw [h.body] at hm
        cases hm
      have hpos := (h.range s h.mem).1
      rcases flattenWord_plain hs.step (fun e => hbody s.id (by rw [← e]; exact parseInt_intStr _) (by omega))
        (fun e => hbody (-s.id) (by rw [← e]; exact parseInt_minus hpos) (by omega)) with rfl | ⟨n, hnm, e⟩
      · obtain rfl := lexGeometry_loop (hc.words w' hw0) hal
        obtain ⟨t, ht, hm, e⟩ := hn w' hw0 z hz
        exact ⟨t, List.mem_append_left _ ht, hm, e⟩
      · refine ⟨n, List.mem_append_right _ hnm, placed_not_macro hnm, ?_⟩
        have hnpos : 0 < n.id := h.pos' n (List.mem_append_right _ hnm)
        have hlw : LoopWord (surfs ++ placed s.transform (newSurfaces sqrt last s)) [] w' :=
          Or.inr (Or.inl ⟨n, List.mem_append_right _ hnm, fun hm => absurd hm (by rw [placed_not_macro hnm]; decide), e⟩)
        rw [hlw.lex, List.mem_singleton] at hal
        cases hal
        rcases e with rfl | rfl
        · rw [parseInt_intStr] at hz
          cases hz
          omega
        · rw [parseInt_minus hnpos] at hz
          cases hz
          omega
    refine ⟨hnew, fun n hn' => ?_⟩
    rcases List.mem_append.1 hn' with hn' | hn'
    · exact Or.inl hn'
    · refine Or.inr ?_
      unfold generalise at g1
      split at g1
      · cases g1
      · obtain ⟨w, hw, z, hz, rfl⟩ := (generaliseGo_surfaces _ _ _ _ g1).1 n hn'
        exact hnew w hw z hz
  · intro hn
    have hnew : ∀ w ∈ split (expandText (join c!" " ws)), ∀ z, parseInt w = some z → w ∈ c.text ∨
        ∃ t ∈ surfs ++ placed s.transform (newSurfaces sqrt last s), t ∉ surfs ∧ t.id = (z.natAbs : Int) := by
      intro w hw z hz
      have hsym : tokenSym w = .atom w := by
        rcases token_cases w with rfl | rfl | rfl | rfl | e
        · rw [show parseInt c!"(" = none by decide] at hz; cases hz
        · rw [show parseInt c!")" = none by decide] at hz; cases hz
        · rw [show parseInt c!":" = none by decide] at hz; cases hz
        · rw [show parseInt c!"#" = none by decide] at hz; cases hz
        · exact e
      have hmem : Sym.atom w ∈ lexGeometry (join c!" " ws) := by
        rw [← g3, ← hsym]
        exact List.mem_map_of_mem hw
      rw [hlex] at hmem
      obtain ⟨l, hl, hal⟩ := List.mem_flatten.1 hmem
      obtain ⟨w', hw', rfl⟩ := List.mem_map.1 hl
      obtain ⟨w0, hw0, hs⟩ := forall₂_right h2 w' hw'
      have hbody : ∀ z : Int, parseInt w0 = some z → s.id ≠ z.natAbs := by
        intro z hz e
        obtain ⟨t, ht, hm, e'⟩ := hn w0 hw0 z hz
        obtain rfl := h.unique t ht s h.mem (e'.trans e.symm)
        rw [h.body] at hm
        cases hm
      have hpos := (h.range s h.mem).1
      rcases flattenWord_plain hs.step (fun e => hbody s.id (by rw [← e]; exact parseInt_intStr _) (by omega))
        (fun e => hbody (-s.id) (by rw [← e]; exact parseInt_minus hpos) (by omega)) with rfl | ⟨n, hnm, e⟩
      · obtain rfl := lexGeometry_loop (hc.words w' hw0) hal
        exact .inl hw0
      · refine .inr ⟨n, List.mem_append_right _ hnm, fun hmem => ?_, ?_⟩
        · have := (h.range n hmem).2
          have := (placed_range hnm).1
          omega
        have hnpos : 0 < n.id := h.pos' n (List.mem_append_right _ hnm)
        have hlw : LoopWord (surfs ++ placed s.transform (newSurfaces sqrt last s)) [] w' :=
          Or.inr (Or.inl ⟨n, List.mem_append_right _ hnm, fun hm => absurd hm (by rw [placed_not_macro hnm]; decide), e⟩)
        rw [hlw.lex, List.mem_singleton] at hal
        cases hal
        rcases e with rfl | rfl
        · rw [parseInt_intStr] at hz
          cases hz
          omega
        · rw [parseInt_minus hnpos] at hz
          cases hz
          omega
    refine ⟨hnew, fun n hn' => ?_⟩
    rcases List.mem_append.1 hn' with hn' | hn'
    · exact Or.inl hn'
    · refine Or.inr ?_
      unfold generalise at g1
      split at g1
      · cases g1
      · obtain ⟨w, hw, z, hz, rfl⟩ := (generaliseGo_surfaces _ _ _ _ g1).1 n hn'
        rcases hnew w hw z hz with k | k
        · exact .inl ⟨w, k, z, hz, rfl⟩
        · exact .inr k
  · intro n hn
    obtain ⟨w', hw', hs⟩ := forall₂_right (forall₂_flip (S := fun w' w => WordStep (sqrt := sqrt) place surfs rest last s w w') (fun _ _ h => h) h2) _ hn
    obtain rfl := hs.same (refersTo_head (by decide) (by decide))
    have hmem : Sym.atom (refWord n) ∈ tokenSyms (split (expandText (join c!" " ws))) := by
      rw [g3, hlex]
      refine List.mem_flatten.2 ⟨_, List.mem_map.2 ⟨_, hw', rfl⟩, ?_⟩
      rw [lexGeometry_word (plain_refWord n) (by simp [refWord]) (refWord_ne_hash n)]
      exact List.mem_singleton.2 rfl
    obtain ⟨t, ht, e⟩ := List.mem_map.1 hmem
    obtain rfl := tokenSym_eq_atom e
    exact ht

theorem SameRegion.trans {a b c : List (Surface K)} {x y z : Cell K} (h1 : SameRegion place a b sqrt x y) (h2 : SameRegion place b c sqrt y z) :
    SameRegion place a c sqrt x z := by
  refine ⟨?_, fun p T => (h1.holds p T).trans (h2.holds p T), fun w hw hs hh => h1.refs w (h2.refs w hw hs hh) hs hh, fun h => h2.nots (h1.nots h),
    ⟨fun s hs => h2.more.1 s (h1.more.1 s hs), fun n hn => h2.more.2 n (h1.more.2 n hn)⟩, fun h => ⟨(h2.plain (h1.plain h).1).1, fun n hn => ?_⟩,
    fun h => ⟨fun w hw z hz => ?_, fun n hn => ?_⟩, fun n hn => h2.kept n (h1.kept n hn)⟩
  · have e1 := h1.fields
    have e2 := h2.fields
    rw [e1] at e2
    exact e2
  · rcases (h2.plain (h1.plain h).1).2 n hn with hn | hn
    · rcases (h1.plain h).2 n hn with hn | ⟨s, hs, hn⟩
      · exact Or.inl hn
      · exact Or.inr ⟨s, h2.more.1 s hs, hn⟩
    · exact Or.inr hn
  · rcases (h2.named (h1.plain h).1).1 w hw z hz with hw | ⟨s, hs, hn, e⟩
    · rcases (h1.named h).1 w hw z hz with hw | ⟨s, hs, hn⟩
      · exact .inl hw
      · exact .inr ⟨s, h2.more.1 s hs, hn⟩
    · exact .inr ⟨s, hs, fun hm => hn (h1.more.1 s hm), e⟩
  · rcases (h2.named (h1.plain h).1).2 n hn with hn | ⟨w, hw, z, hz, rfl⟩ | ⟨s, hs, hn, e⟩
    · rcases (h1.named h).2 n hn with hn | hn | ⟨s, hs, hn⟩
      · exact .inl hn
      · exact .inr (.inl hn)
      · exact .inr (.inr ⟨s, h2.more.1 s hs, hn⟩)
    · rcases (h1.named h).1 w hw z hz with hw | ⟨s, hs, hn, e⟩
      · exact .inr (.inl ⟨w, hw, z, hz, rfl⟩)
      · exact .inr (.inr ⟨s, h2.more.1 s hs, hn, e⟩)
    · exact .inr (.inr ⟨s, hs, fun hm => hn (h1.more.1 s hm), e⟩)

theorem flattenGo_cons (io : NumIO K) (hio : Exact io) (cosDeg : K → K) {s : Surface K} {ss : List (Surface K)} {cells : List (Cell K)} {last : Int}
    (hm : s.isMacrobody = true) (hp : ProperBody s.type s.coeffs) (hr : Roots sqrt s.type s.coeffs) :
    flattenGo io cosDeg sqrt (s :: ss) cells last = (do
      let cells ← cells.mapM (flattenCell io cosDeg s.id (explodedBody sqrt last s).inside (explodedBody sqrt last s).outside
        (placed s.transform (newSurfaces sqrt last s)))
      let (cells, more, last') ← flattenGo io cosDeg sqrt ss cells (explodedBody sqrt last s).last
      .ok (cells, placed s.transform (newSurfaces sqrt last s) ++ more, last')) := by
  rw [flattenGo, if_pos hm, explode_ok io hio sqrt last s hp hr]
  cases h : s.transform with
  | none => simp only [placed_none]; rfl
  | some t => rfl

/-- Words of a visited surface that is no macrobody. -/
theorem LoopWord.skip {surfs rest : List (Surface K)} {s : Surface K} (hs : s.isMacrobody = false) {w : Str} (h : LoopWord surfs (s :: rest) w) :
    LoopWord surfs rest w := by
  have hne : ∀ t, t.isMacrobody = true → t ∈ s :: rest → t ∈ rest := by
    intro t ht hm
    rcases List.mem_cons.1 hm with rfl | hm
    · rw [hs] at ht; cases ht
    · exact hm
  rcases h with h | ⟨t, h1, h2, h3⟩ | ⟨t, h1, h2, h3, neg, k, h4, h5, h6, h7⟩
  · exact Or.inl h
  · exact Or.inr (Or.inl ⟨t, h1, fun hm => hne t hm (h2 hm), h3⟩)
  · exact Or.inr (Or.inr ⟨t, hne t h3 h1, h2, h3, neg, k, h4, h5, h6, fun m hm => h7 m (List.mem_cons_of_mem _ hm)⟩)

theorem LoopWord.of_known {surfs : List (Surface K)} {w : Str} (h : KnownWord surfs w) : LoopWord surfs surfs w := by
  rcases h with h | ⟨t, h1, h3⟩ | ⟨t, h1, h2, neg, k, h4, h5, h6, h7⟩
  · exact Or.inl h
  · exact Or.inr (Or.inl ⟨t, h1, fun _ => h1, h3⟩)
  · exact Or.inr (Or.inr ⟨t, h1, h1, h2, neg, k, h4, h5, h6, h7⟩)

/-- At the end only numbers of ordinary surfaces and complements are left, so the bodies can be removed. -/
theorem sense_filter {surfs : List (Surface K)} (hu : UniqueIds surfs) (hpos : ∀ t ∈ surfs, 0 < t.id) (p : Point K) (T : Int → Prop) {w : Str}
    (h : LoopWord surfs [] w) :
    cellSense (pointSense sqrt place surfs p) T w ↔ cellSense (pointSense sqrt place (surfs.filter fun s => !s.isMacrobody) p) T w := by
  rcases h with ⟨n, rfl⟩ | ⟨t, h1, h2, h3⟩ | ⟨t, h1, -⟩
  · unfold cellSense
    rw [if_pos (by simp [refWord]), if_pos (by simp [refWord])]
  · have hm : t.isMacrobody = false := by
      rw [Bool.eq_false_iff]
      intro e
      cases h2 e
    have hmem : t ∈ surfs.filter fun s => !s.isMacrobody := List.mem_filter.2 ⟨h1, by simp [hm]⟩
    have hu' : UniqueIds (surfs.filter fun s => !s.isMacrobody) :=
      fun a ha b hb => hu a (List.mem_filter.1 ha).1 b (List.mem_filter.1 hb).1
    rcases h3 with rfl | rfl
    · rw [cellSense_plain _ _ (hash_not_mem_intStr _), cellSense_plain _ _ (hash_not_mem_intStr _), pointSense_pos sqrt place hu h1 (hpos t h1),
        pointSense_pos sqrt place hu' hmem (hpos t h1)]
    · have hh : '#' ∉ '-' :: intStr t.id := by
        rw [← intStr_neg (hpos t h1)]; exact hash_not_mem_intStr _
      rw [cellSense_plain _ _ hh, cellSense_plain _ _ hh, pointSense_neg sqrt place hu h1 (hpos t h1),
        pointSense_neg sqrt place hu' hmem (hpos t h1)]
  · cases h1

theorem placed_nodup (t : Option Str) (last : Int) (s : Surface K) : ((placed t (newSurfaces sqrt last s)).map Surface.id).Nodup := by
  have : (placed t (newSurfaces sqrt last s)).map Surface.id = (newSurfaces sqrt last s).map Surface.id := by
    simp [placed, List.map_map, Function.comp_def]
  rw [this, newSurfaces_ids, List.Nodup, List.pairwise_iff_getElem]
  intro i j hi hj hij
  simp only [List.getElem_mapIdx]
  omega

/-- The loop over the surfaces. -/
theorem flattenGo_ok (io : NumIO K) (hio : Exact io) (cosDeg : K → K) (ss : List (Surface K)) : ∀ (surfs : List (Surface K)) (last : Int) (cells : List (Cell K)),
    UniqueIds surfs → (∀ t ∈ surfs, 0 < t.id ∧ t.id ≤ last) → 0 ≤ last → (∀ t ∈ ss, t ∈ surfs) → ss.Nodup →
    (∀ t ∈ ss, t.isMacrobody = true → ProperBody t.type t.coeffs ∧ Roots sqrt t.type t.coeffs) →
    (∀ c ∈ cells, LoopCell surfs ss c) →
    ∃ cells' more last', flattenGo io cosDeg sqrt ss cells last = .ok (cells', more, last') ∧ last ≤ last' ∧
      UniqueIds (surfs ++ more) ∧ (∀ t ∈ surfs ++ more, 0 < t.id ∧ t.id ≤ last') ∧ (∀ n ∈ more, n.isMacrobody = false ∧ last < n.id) ∧
      List.Forall₂ (fun c c' => LoopCell (surfs ++ more) [] c' ∧ SameRegion place surfs (surfs ++ more) sqrt c c') cells cells' := by
  induction ss with
  | nil =>
    intro surfs last cells hu hr h0 _ _ _ hc
    refine ⟨cells, [], last, rfl, le_refl _, by simpa using hu, by simpa using hr, by simp, ?_⟩
    simp only [List.append_nil]
    clear hu
    induction cells with
    | nil => exact .nil
    | cons c cells ih =>
      exact .cons ⟨hc c (by simp), ⟨rfl, fun _ _ => Iff.rfl, fun _ hw _ _ => hw, fun h => h, ⟨fun _ h => h, fun _ h => h⟩, fun h => ⟨h, fun _ hn => Or.inl hn⟩, fun _ => ⟨fun _ hw _ _ => .inl hw, fun _ hn => .inl hn⟩, fun _ hn => hn⟩⟩ (ih fun d hd => hc d (List.mem_cons_of_mem _ hd))
  | cons s ss ih =>
    intro surfs last cells hu hr h0 hss hnd hp hc
    rw [List.nodup_cons] at hnd
    by_cases hm : s.isMacrobody = true
    · have hready : Ready sqrt surfs last s ss :=
        ⟨hu, hr, h0, hss s (by simp), fun t ht => ⟨hss t (by simp [ht]), fun e => hnd.1 (e ▸ ht)⟩, hp, hm⟩
      obtain ⟨hps, hrs⟩ := hp s (by simp) hm
      rw [flattenGo_cons io hio cosDeg hm hps hrs]
      obtain ⟨cells1, h1, h2⟩ := mapM_forall₂ (l := cells) fun c hc' => flattenCell_ok place io hio cosDeg hready (hc c hc')
      have h1' : cells.mapM (flattenCell io cosDeg s.id (explodedBody sqrt last s).inside (explodedBody sqrt last s).outside
        (placed s.transform (newSurfaces sqrt last s))) = .ok cells1 := h1
      rw [h1']
      have hu' := hready.unique'
      have hr' : ∀ t ∈ surfs ++ placed s.transform (newSurfaces sqrt last s), 0 < t.id ∧ t.id ≤ (explodedBody sqrt last s).last := by
        intro t ht
        refine ⟨hready.pos' t ht, ?_⟩
        simp only [explodedBody]
        rcases List.mem_append.1 ht with ht | ht
        · have := (hr t ht).2; omega
        · exact (placed_range ht).2
      have hlast : last ≤ (explodedBody sqrt last s).last := by simp only [explodedBody]; omega
      obtain ⟨cells', more, last', g1, g2, g3, g4, g5, g6⟩ := ih _ (explodedBody sqrt last s).last cells1 hu' hr' (by omega)
        (fun t ht => List.mem_append_left _ (hss t (by simp [ht]))) hnd.2 (fun t ht => hp t (by simp [ht]))
        (fun c' hc' => by obtain ⟨c, -, hx, -⟩ := forall₂_right h2 c' hc'; exact hx)
      simp only [bind, Except.bind]
      rw [g1]
      refine ⟨cells', placed s.transform (newSurfaces sqrt last s) ++ more, last', rfl, by omega, by rwa [← List.append_assoc],
        by rwa [← List.append_assoc], ?_, ?_⟩
      · intro n hn
        rcases List.mem_append.1 hn with hn | hn
        · exact ⟨placed_not_macro hn, (placed_range hn).1⟩
        · exact ⟨(g5 n hn).1, by have := (g5 n hn).2; omega⟩
      · rw [← List.append_assoc]
        clear g1 h1 h1' hc
        induction h2 generalizing cells' with
        | nil => cases g6; exact .nil
        | cons hh _ ih2 =>
          cases g6 with
          | cons gg g6 => exact .cons ⟨gg.1, hh.2.trans place gg.2⟩ (ih2 _ g6)
    · rw [flattenGo, if_neg hm]
      exact ih surfs last cells hu hr h0 (fun t ht => hss t (by simp [ht])) hnd.2 (fun t ht => hp t (by simp [ht]))
        (fun c hc' => ⟨(hc c hc').material, (hc c hc').legal, (hc c hc').parsed, fun w hw hs =>
          LoopWord.skip (by simpa using hm) ((hc c hc').words w hw hs)⟩)

/-- What the loop makes, whatever is in the cells. -/
theorem flattenGo_news (io : NumIO K) (hio : Exact io) (cosDeg : K → K) (ss : List (Surface K)) : ∀ (last : Int) (cells : List (Cell K)) {r},
    (∀ t ∈ ss, t.isMacrobody = true → BodyShape t.type t.coeffs) → flattenGo io cosDeg sqrt ss cells last = .ok r →
    last ≤ r.2.2 ∧ (∀ n ∈ r.2.1, n.isMacrobody = false ∧ last < n.id ∧ n.id ≤ r.2.2) ∧ (r.2.1.map Surface.id).Nodup := by
  induction ss with
  | nil => intro last cells r _ h; cases h; simp
  | cons s ss ih =>
    intro last cells r hp h
    rw [flattenGo] at h
    by_cases hm : s.isMacrobody = true
    · rw [if_pos hm] at h
      obtain ⟨e, h1, h⟩ := bind_ok h
      obtain rfl := explode_shape io hio sqrt last s (hp s (by simp) hm) e h1
      obtain ⟨news, hn, hnews⟩ : ∃ news, news = (match s.transform with
        | none => (explodedBody sqrt last s).surfs
        | some t => (explodedBody sqrt last s).surfs.map fun n => { n with transform := some t }) ∧
          news = placed s.transform (newSurfaces sqrt last s) := by
        cases h : s.transform with
        | none => exact ⟨_, rfl, (placed_none sqrt last s).symm⟩
        | some t => exact ⟨_, rfl, rfl⟩
      obtain ⟨cells1, h2, h⟩ := bind_ok h
      obtain ⟨⟨cells2, more, last'⟩, h3, h⟩ := bind_ok h
      obtain ⟨g1, g2, g3⟩ := ih _ _ (fun t ht => hp t (by simp [ht])) h3
      cases h
      have hl : last + (faces sqrt s.type s.coeffs).length ≤ last' := by simpa [explodedBody] using g1
      refine ⟨by show last ≤ last'; omega, ?_, ?_⟩
      · show ∀ n ∈ (match s.transform with
          | none => (explodedBody sqrt last s).surfs
          | some t => (explodedBody sqrt last s).surfs.map fun n => { n with transform := some t }) ++ more, _
        rw [← hn, hnews]
        intro n hmem
        rcases List.mem_append.1 hmem with hmem | hmem
        · have := placed_range hmem
          exact ⟨placed_not_macro hmem, this.1, by show n.id ≤ last'; omega⟩
        · obtain ⟨a, b, c⟩ := g2 n hmem
          refine ⟨a, ?_, c⟩
          have : last + (faces sqrt s.type s.coeffs).length < n.id := by simpa [explodedBody] using b
          omega
      · show (((match s.transform with
          | none => (explodedBody sqrt last s).surfs
          | some t => (explodedBody sqrt last s).surfs.map fun n => { n with transform := some t }) ++ more).map Surface.id).Nodup
        rw [← hn, hnews, List.map_append, List.nodup_append]
        refine ⟨placed_nodup _ _ _, g3, ?_⟩
        intro a ha b hb
        obtain ⟨m, hm, rfl⟩ := List.mem_map.1 ha
        obtain ⟨n, hn, rfl⟩ := List.mem_map.1 hb
        have h1 := placed_range hm
        have h2 : last + (faces sqrt s.type s.coeffs).length < n.id := by simpa [explodedBody] using (g2 n hn).2.1
        omega
    · rw [if_neg hm] at h
      exact ih last cells (fun t ht => hp t (by simp [ht])) h

end

end Csg
