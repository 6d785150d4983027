import Verif.Lemmas.Flatten
import Verif.Lemmas.Update

/-!
# Flattening of a cell for one macrobody
-/

set_option linter.unusedSectionVars false

namespace Csg

open Spec

/-! ## Tokens and words -/

/-- The tokens of geometry text: the four special ones and the words. -/
theorem token_cases (w : Str) : w = c!"(" ∨ w = c!")" ∨ w = c!":" ∨ w = c!"#" ∨ tokenSym w = .atom w := by
  unfold tokenSym wordSym
  by_cases h1 : w = c!"("
  · simp [h1]
  by_cases h2 : w = c!")"
  · simp [h2]
  by_cases h3 : w = c!":"
  · simp [h3]
  by_cases h4 : w = c!"#"
  · simp [h4]
  · simp [h1, h2, h3, h4]

theorem lexGeometry_word {w : Str} (h : PlainWord w) (hne : w ≠ []) (hh : w ≠ c!"#") : lexGeometry w = [.atom w] := by
  unfold lexGeometry
  have := lexGo_plain w h [] []
  rw [List.append_nil, List.nil_append] at this
  rw [this]
  simp [lexGo, endWord, hne, wordSym, hh]

theorem tokenSym_word {w : Str} (h : PlainWord w) (hne : w ≠ []) (hh : w ≠ c!"#") : tokenSym w = .atom w := by
  rcases token_cases w with rfl | rfl | rfl | rfl | e
  · have := h '(' (by simp); simp at this
  · have := h ')' (by simp); simp at this
  · have := h ':' (by simp); simp at this
  · exact absurd rfl hh
  · exact e

theorem plain_natStr (n : Nat) : PlainWord (natStr n) := intStr_plain n

theorem PlainWord.append {a b : Str} (ha : PlainWord a) (hb : PlainWord b) : PlainWord (a ++ b) := by
  intro c hc
  rcases List.mem_append.1 hc with h | h
  · exact ha c h
  · exact hb c h

theorem plain_facetWord (neg : Bool) (n : Int) (k : Nat) : PlainWord (facetWord neg n k) := by
  unfold facetWord
  refine ((PlainWord.append ?_ (intStr_plain n)).append ?_).append (plain_natStr k)
  · cases neg
    · intro c hc; simp at hc
    · intro c hc; simp at hc; subst hc; decide
  · intro c hc; simp at hc; subst hc; decide

theorem plain_refWord (n : Nat) : PlainWord (refWord n) := by
  intro c hc
  rcases List.mem_cons.1 hc with rfl | h
  · decide
  · exact plain_natStr n c h

theorem hash_not_mem_intStr (z : Int) : '#' ∉ intStr z := intStr_not_mem z (by decide) (by decide)

theorem hash_not_mem_facetWord (neg : Bool) (n : Int) (k : Nat) : '#' ∉ facetWord neg n k := by
  unfold facetWord
  simp only [List.mem_append, not_or]
  refine ⟨⟨⟨by cases neg <;> decide, hash_not_mem_intStr n⟩, by decide⟩, natStr_not_mem k (by decide)⟩

theorem ne_hash_of_not_mem {w : Str} (h : '#' ∉ w) : w ≠ c!"#" := by rintro rfl; simp at h

theorem refWord_ne_hash (n : Nat) : refWord n ≠ c!"#" := by
  unfold refWord
  intro h
  simp at h
  exact natStr_ne_nil n h

theorem facetWord_ne_nil (neg : Bool) (n : Int) (k : Nat) : facetWord neg n k ≠ [] := by
  unfold facetWord; simp

theorem noKeyword_facetWord (neg : Bool) (n : Int) (k : Nat) : NoKeyword (facetWord neg n k) := by
  unfold facetWord
  refine ((NoKeyword.append ?_ (noKeyword_intStr n)).append ?_).append (noKeyword_natStr k)
  · cases neg
    · intro c hc; simp at hc
    · intro c hc; simp at hc; subst hc; decide
  · intro c hc; simp at hc; subst hc; decide

theorem noKeyword_refWord (n : Nat) : NoKeyword (refWord n) := by
  intro c hc
  rcases List.mem_cons.1 hc with rfl | h
  · decide
  · exact noKeyword_natStr n c h

theorem parseNat_digits {s : Str} {n : Nat} (h : parseNat s = some n) : ∀ c ∈ s, isDigit c = true := by
  unfold parseNat at h
  split at h
  · rename_i hd; simpa using hd.2
  · cases h

theorem parseInt_no_dot {s : Str} {z : Int} (h : parseInt s = some z) : '.' ∉ s := by
  intro hm
  have key : ∀ t : Str, '.' ∈ t → parseNat t = none := by
    intro t ht
    cases hn : parseNat t with
    | none => rfl
    | some n => exact absurd (parseNat_digits hn '.' ht) (by decide)
  unfold parseInt at h
  split at h
  · rw [key _ (by simpa using hm)] at h; cases h
  · rw [key _ (by simpa using hm)] at h; cases h
  · rw [key _ hm] at h; cases h

section
variable {K : Type} [Field K] [LinearOrder K] [IsStrictOrderedRing K]
variable (sqrt : K → K) (place : Option Str → Point K → Point K)

theorem pointSense_facet {surfs : List (Surface K)} (hu : UniqueIds surfs) (hpos : ∀ s ∈ surfs, 0 < s.id) {s : Surface K} (hs : s ∈ surfs) (p : Point K)
    (neg : Bool) {k : Nat} (hk : 1 ≤ k) {v : K} (hv : facetValue s.type s.coeffs k (place s.transform p) = some v) :
    pointSense sqrt place surfs p (facetWord neg s.id k) ↔ (if neg then v < 0 else 0 < v) := by
  unfold pointSense
  constructor
  · rintro (⟨z, hz, -⟩ | ⟨t, ht, neg', k', v', hw, -, hv', h⟩)
    · exact absurd (dot_mem_facetWord neg s.id k) (parseInt_no_dot hz)
    · obtain ⟨rfl, h1, rfl⟩ := facetWord_injective (hpos s hs) (hpos t ht) hw
      have := hu s hs t ht h1
      subst this
      rw [hv] at hv'
      cases hv'
      exact h
  · intro h
    exact Or.inr ⟨s, hs, neg, k, v, rfl, hk, hv, h⟩

/-! ## The step for one word -/

/-- The words that occur while macrobodies are replaced: `surfs` are all surfaces so far, `rest` those that are still to be visited. -/
def LoopWord (surfs rest : List (Surface K)) (w : Str) : Prop :=
  (∃ n, w = refWord n) ∨
  (∃ s ∈ surfs, (s.isMacrobody = true → s ∈ rest) ∧ (w = intStr s.id ∨ w = '-' :: intStr s.id)) ∨
  ∃ s ∈ rest, s ∈ surfs ∧ s.isMacrobody = true ∧ ∃ neg k, w = facetWord neg s.id k ∧ (1 ≤ k ∧ k ≤ facetCount s.type) ∧ (s.type = .macroRCC → k = 1) ∧
    ∀ m ∈ rest, m.isMacrobody = true → intStr m.id <:+ intStr s.id → m.id = s.id

/-- What is known about the state when a body is replaced. -/
structure Ready (surfs : List (Surface K)) (last : Int) (s : Surface K) (rest : List (Surface K)) : Prop where
  unique : UniqueIds surfs
  range : ∀ t ∈ surfs, 0 < t.id ∧ t.id ≤ last
  nonneg : 0 ≤ last
  mem : s ∈ surfs
  others : ∀ t ∈ rest, t ∈ surfs ∧ t ≠ s
  proper : ∀ t ∈ s :: rest, t.isMacrobody = true → ProperBody t.type t.coeffs ∧ Roots sqrt t.type t.coeffs
  body : s.isMacrobody = true

variable {sqrt}

theorem Ready.unique' {surfs rest : List (Surface K)} {last : Int} {s : Surface K} (h : Ready sqrt surfs last s rest) :
    UniqueIds (surfs ++ placed s.transform (newSurfaces sqrt last s)) := by
  have hlow : ∀ n ∈ placed s.transform (newSurfaces sqrt last s), last < n.id := by
    intro n hn
    obtain ⟨m, hm, rfl⟩ := List.mem_map.1 hn
    obtain ⟨i, f, -, rfl⟩ := mem_newSurfaces sqrt hm
    simp only [plainCard]; omega
  intro a ha b hb hab
  rcases List.mem_append.1 ha with ha | ha <;> rcases List.mem_append.1 hb with hb | hb
  · exact h.unique a ha b hb hab
  · have := (h.range a ha).2; have := hlow b hb; omega
  · have := (h.range b hb).2; have := hlow a ha; omega
  · exact newSurfaces_unique sqrt last s s.transform a ha b hb hab

/-- A word that does not name a new surface has the same value over the longer list. -/
theorem pointSense_more {surfs news : List (Surface K)} (hu : UniqueIds (surfs ++ news)) (hpos : ∀ t ∈ surfs ++ news, 0 < t.id) {t : Surface K}
    (ht : t ∈ surfs) (p : Point K) {w : Str} (hw : w = intStr t.id ∨ w = '-' :: intStr t.id) :
    pointSense sqrt place surfs p w ↔ pointSense sqrt place (surfs ++ news) p w := by
  have hu0 : UniqueIds surfs := fun a ha b hb => hu a (List.mem_append_left _ ha) b (List.mem_append_left _ hb)
  have hp := hpos t (List.mem_append_left _ ht)
  rcases hw with rfl | rfl
  · rw [pointSense_pos sqrt place hu0 ht hp, pointSense_pos sqrt place hu (List.mem_append_left _ ht) hp]
  · rw [pointSense_neg sqrt place hu0 ht hp, pointSense_neg sqrt place hu (List.mem_append_left _ ht) hp]

/-- The result for one word. -/
structure WordStep (surfs rest : List (Surface K)) (last : Int) (s : Surface K) (w w' : Str) : Prop where
  step : flattenWord s.id (explodedBody sqrt last s).inside (explodedBody sqrt last s).outside (placed s.transform (newSurfaces sqrt last s)) w = .ok w'
  ends : refersTo s.id w' = false
  same : refersTo s.id w = false → w' = w
  keyword : NoKeyword w'
  words : ∀ a, Sym.atom a ∈ lexGeometry w' → LoopWord (surfs ++ placed s.transform (newSurfaces sqrt last s)) rest a
  meaning : ∀ p T, SymExp True (cellSense (pointSense sqrt place surfs p) T)
    (cellSense (pointSense sqrt place (surfs ++ placed s.transform (newSurfaces sqrt last s)) p) T) (tokenSym w) (lexGeometry w')

theorem facetCount_le (ty : SType) : facetCount ty ≤ 9 := by
  unfold facetCount; split <;> omega

theorem insideText_noKeyword (close : Str) (hc : close = c!" )" ∨ close = c!")") (ids : List Int) : NoKeyword (insideText close ids) := by
  unfold insideText
  refine (NoKeyword.append (by intro x hx; simp at hx; subst hx; decide) ?_).append ?_
  · intro x hx
    obtain ⟨i, -, hi⟩ := List.mem_flatMap.1 hx
    have : NoKeyword (c!" -" ++ intStr i) := NoKeyword.append (by intro x hx; simp at hx; rcases hx with rfl | rfl <;> decide) (noKeyword_intStr i)
    exact this x hi
  · rcases hc with rfl | rfl <;> (intro x hx; simp at hx)
    · rcases hx with rfl | rfl <;> decide
    · subst hx; decide

theorem mem_join {sep : Str} {ws : List Str} {x : Char} (h : x ∈ join sep ws) : x ∈ sep ∨ ∃ w ∈ ws, x ∈ w := by
  induction ws with
  | nil => simp [join] at h
  | cons w ws ih =>
    cases ws with
    | nil => exact Or.inr ⟨w, by simp, by simpa [join] using h⟩
    | cons v vs =>
      simp only [join, List.mem_append] at h
      rcases h with (h | h) | h
      · exact Or.inr ⟨w, by simp, h⟩
      · exact Or.inl h
      · rcases ih h with h | ⟨u, hu, hx⟩
        · exact Or.inl h
        · exact Or.inr ⟨u, by simp [hu], hx⟩

theorem outsideText_noKeyword (opening sep : Str) (ho : opening = c!"( " ∨ opening = c!"(") (hs : sep = c!" : " ∨ sep = c!":") (ids : List Int) :
    NoKeyword (outsideText opening sep ids) := by
  unfold outsideText
  refine (NoKeyword.append ?_ ?_).append (by intro x hx; simp at hx; subst hx; decide)
  · rcases ho with rfl | rfl <;> (intro x hx; simp at hx)
    · rcases hx with rfl | rfl <;> decide
    · subst hx; decide
  · intro x hx
    rcases mem_join hx with h | ⟨w, hw, h⟩
    · rcases hs with rfl | rfl <;> simp at h
      · rcases h with rfl | rfl | rfl <;> decide
      · subst h; decide
    · obtain ⟨i, -, rfl⟩ := List.mem_map.1 hw
      exact noKeyword_intStr i x h

theorem atom_mem_unionSyms {A : Type} {a : A} {l : List A} (h : Sym.atom a ∈ unionSyms l) : a ∈ l := by
  induction l with
  | nil => simp [unionSyms] at h
  | cons b l ih =>
    cases l with
    | nil => simpa [unionSyms] using h
    | cons c l =>
      simp only [unionSyms, List.mem_cons, reduceCtorEq, false_or, Sym.atom.injEq] at h
      rcases h with h | h
      · simp [h]
      · exact List.mem_cons_of_mem _ (ih h)

theorem cellSense_plain (σ : Str → Prop) (T : Int → Prop) {w : Str} (h : '#' ∉ w) : cellSense σ T w ↔ σ w := by
  unfold cellSense
  rw [if_neg h]

theorem placed_not_macro {last : Int} {s n : Surface K} {t : Option Str} (h : n ∈ placed t (newSurfaces sqrt last s)) : n.isMacrobody = false := by
  obtain ⟨m, hm, rfl⟩ := List.mem_map.1 h
  obtain ⟨i, f, hf, rfl⟩ := mem_newSurfaces sqrt hm
  rcases faces_plain sqrt f (List.mem_of_getElem? hf) with h | h | h | h | h <;> simp [Surface.isMacrobody, plainCard, h]

theorem placed_ids (last : Int) (s : Surface K) (t : Option Str) :
    (placed t (newSurfaces sqrt last s)).map Surface.id = (newSurfaces sqrt last s).map Surface.id := by
  unfold placed
  rw [List.map_map]
  rfl

theorem Ready.pos' {surfs rest : List (Surface K)} {last : Int} {s : Surface K} (h : Ready sqrt surfs last s rest) :
    ∀ t ∈ surfs ++ placed s.transform (newSurfaces sqrt last s), 0 < t.id := by
  intro t ht
  rcases List.mem_append.1 ht with ht | ht
  · exact (h.range t ht).1
  · obtain ⟨m, hm, rfl⟩ := List.mem_map.1 ht
    obtain ⟨i, f, -, rfl⟩ := mem_newSurfaces sqrt hm
    have := h.nonneg
    simp only [plainCard]; omega

/-- A word with the number of a new surface. -/
theorem loopWord_new {surfs rest : List (Surface K)} {last : Int} {s : Surface K} {i : Int}
    (hi : i ∈ (newSurfaces sqrt last s).map Surface.id) {w : Str} (hw : w = intStr i ∨ w = '-' :: intStr i) :
    LoopWord (surfs ++ placed s.transform (newSurfaces sqrt last s)) rest w := by
  rw [← placed_ids last s s.transform] at hi
  obtain ⟨n, hn, rfl⟩ := List.mem_map.1 hi
  refine Or.inr (Or.inl ⟨n, List.mem_append_right _ hn, fun hm => ?_, hw⟩)
  rw [placed_not_macro hn] at hm
  cases hm

theorem dot_not_mem_minus (z : Int) : '.' ∉ '-' :: intStr z := by
  simp only [List.mem_cons, not_or]
  exact ⟨by decide, dot_not_mem_intStr z⟩

theorem hash_not_mem_minus (z : Int) : '#' ∉ '-' :: intStr z := by
  simp only [List.mem_cons, not_or]
  exact ⟨by decide, hash_not_mem_intStr z⟩

theorem noKeyword_minus (z : Int) : NoKeyword ('-' :: intStr z) := by
  intro x hx
  rcases List.mem_cons.1 hx with rfl | hx
  · decide
  · exact noKeyword_intStr z x hx

/-- A word that stays. -/
theorem wordStep_same {surfs rest : List (Surface K)} {last : Int} {s : Surface K} {w : Str}
    (hstep : flattenWord s.id (explodedBody sqrt last s).inside (explodedBody sqrt last s).outside (placed s.transform (newSurfaces sqrt last s)) w = .ok w)
    (hends : refersTo s.id w = false) (hk : NoKeyword w) (hplain : PlainWord w) (hne : w ≠ []) (hh : w ≠ c!"#")
    (hw : LoopWord (surfs ++ placed s.transform (newSurfaces sqrt last s)) rest w)
    (hm : ∀ p T, cellSense (pointSense sqrt place surfs p) T w ↔
      cellSense (pointSense sqrt place (surfs ++ placed s.transform (newSurfaces sqrt last s)) p) T w) :
    WordStep (sqrt := sqrt) place surfs rest last s w w where
  step := hstep
  ends := hends
  same := fun _ => rfl
  keyword := hk
  words := by
    intro a ha
    rw [lexGeometry_word hplain hne hh] at ha
    simp only [List.mem_singleton, Sym.atom.injEq] at ha
    rw [ha]; exact hw
  meaning := by
    intro p T
    rw [tokenSym_word hplain hne hh, lexGeometry_word hplain hne hh]
    exact .atom (.atom w) fun _ => hm p T

theorem intStr_ne_minus {a b : Int} (ha : 0 < a) : intStr a ≠ '-' :: intStr b := by
  rw [intStr_of_pos ha]
  intro h
  exact natStr_not_mem a.natAbs (c := '-') (by decide) (by rw [h]; simp)

theorem wordStep_exists {surfs rest : List (Surface K)} {last : Int} {s : Surface K} (h : Ready sqrt surfs last s rest) {w : Str}
    (hw : tokenSym w = .atom w → LoopWord surfs (s :: rest) w) : ∃ w', WordStep (sqrt := sqrt) place surfs rest last s w w' := by
  have hid := (h.range s h.mem).1
  have hu' := h.unique'
  have hpos' := h.pos'
  obtain ⟨hp, hr⟩ := h.proper s (by simp) h.body
  have hspecial : ∀ (w : Str) (c : Char), w = [c] → isDigit c = false → c ≠ '-' → c ≠ '.' → NoKeyword w →
      (∀ a, Sym.atom a ∉ lexGeometry w) → (∀ σ τ : Str → Prop, SymExp True σ τ (tokenSym w) (lexGeometry w)) →
      ∃ w', WordStep (sqrt := sqrt) place surfs rest last s w w' := by
    rintro w c rfl h1 h2 h3 h4 h5 h6
    refine ⟨[c], ?_, refersTo_head h1 h2, fun _ => rfl, h4, fun a ha => absurd ha (h5 a), fun p T => h6 _ _⟩
    rw [flattenWord_no_dot _ _ _ _ (by simpa using Ne.symm h3)]
    have e1 : intStr s.id ≠ [c] := by
      intro e
      rcases intStr_chars s.id c (by rw [e]; simp) with h | h
      · rw [h] at h1; cases h1
      · exact h2 h
    have e2 : '-' :: intStr s.id ≠ [c] := by
      intro e
      simp only [List.cons.injEq] at e
      exact h2 e.1.symm
    rw [if_neg e1, if_neg e2]
  rcases token_cases w with rfl | rfl | rfl | rfl | e
  · exact hspecial _ '(' rfl (by decide) (by decide) (by decide) (by intro x hx; simp at hx; subst hx; decide)
      (by simp [lexGeometry, lexGo, isSpace, endWord]) (fun σ τ => .lp)
  · exact hspecial _ ')' rfl (by decide) (by decide) (by decide) (by intro x hx; simp at hx; subst hx; decide)
      (by simp [lexGeometry, lexGo, isSpace, endWord]) (fun σ τ => .rp)
  · exact hspecial _ ':' rfl (by decide) (by decide) (by decide) (by intro x hx; simp at hx; subst hx; decide)
      (by simp [lexGeometry, lexGo, isSpace, endWord]) (fun σ τ => .un)
  · exact hspecial _ '#' rfl (by decide) (by decide) (by decide) (by intro x hx; simp at hx; subst hx; decide)
      (by simp [lexGeometry, lexGo, isSpace, endWord, wordSym]) (fun σ τ => .no)
  have hmacro : ∀ p b, OnSide sqrt s p b ↔ (if b then Outside s.type s.coeffs p else Inside s.type s.coeffs p) := by
    intro p b
    unfold OnSide
    rw [if_pos h.body]
  have hsub : ∀ n ∈ placed s.transform (newSurfaces sqrt last s), n ∈ surfs ++ placed s.transform (newSurfaces sqrt last s) :=
    fun n hn => List.mem_append_right _ hn
  replace hw := hw e
  rcases hw with ⟨n, rfl⟩ | ⟨t, ht, hrest, hw⟩ | ⟨t, hrest, ht, hb, neg, k, rfl, hk, hrcc, hsuf⟩
  · -- a cell complement
    have hdot : '.' ∉ refWord n := by
      simp only [refWord, List.mem_cons, not_or]
      exact ⟨by decide, natStr_not_mem n (by decide)⟩
    have e1 : intStr s.id ≠ refWord n := fun e => hash_not_mem_intStr s.id (e ▸ hash_mem_refWord n)
    have e2 : '-' :: intStr s.id ≠ refWord n := fun e => hash_not_mem_minus s.id (e ▸ hash_mem_refWord n)
    refine ⟨_, wordStep_same place ?_ (refersTo_head (by decide) (by decide)) (noKeyword_refWord n) (plain_refWord n) (by simp [refWord])
      (refWord_ne_hash n) (Or.inl ⟨n, rfl⟩) fun p T => ?_⟩
    · rw [flattenWord_no_dot _ _ _ _ hdot, if_neg e1, if_neg e2]
    · unfold cellSense
      rw [if_pos (hash_mem_refWord n), if_pos (hash_mem_refWord n)]
  · by_cases hts : t = s
    · subst hts
      rcases hw with rfl | rfl
      · -- the positive side of the body
        obtain ⟨g, h1, h2⟩ := outside_factor (openText t.type) (sepText t.type) (openText_or _) (sepText_or _)
          ((newSurfaces sqrt last t).map Surface.id) (newSurfaces_ne_nil sqrt hp)
        refine ⟨outsideText (openText t.type) (sepText t.type) ((newSurfaces sqrt last t).map Surface.id), ?_, ?_, ?_, ?_, ?_, ?_⟩
        · rw [flattenWord_no_dot _ _ _ _ (dot_not_mem_intStr _), if_pos rfl]; rfl
        · unfold outsideText
          rcases openText_or t.type with e | e <;> rw [e]
          · exact refersTo_head (by decide) (by decide)
          · exact refersTo_head (by decide) (by decide)
        · intro hf
          rw [(refersTo_intStr hid t.id).2 (by omega)] at hf; cases hf
        · exact outsideText_noKeyword _ _ (openText_or _) (sepText_or _) _
        · intro a ha
          rw [lex_outside _ _ (openText_or _) (sepText_or _) _ (newSurfaces_ne_nil sqrt hp)] at ha
          simp only [List.mem_cons, reduceCtorEq, false_or, List.mem_append, List.not_mem_nil, or_false] at ha
          obtain ⟨i, hi, rfl⟩ := List.mem_map.1 (atom_mem_unionSyms ha)
          exact loopWord_new hi (Or.inl rfl)
        · intro p T
          rw [e]
          refine .atom h1 fun _ => ?_
          rw [cellSense_plain _ _ (hash_not_mem_intStr _), pointSense_pos sqrt place h.unique ht hid, hmacro, if_pos rfl, h2,
            ← outside_sense sqrt place hu' h.nonneg hsub hp hr p]
          refine exists_congr fun i => and_congr_right fun _ => ?_
          rw [cellSense_plain _ _ (hash_not_mem_intStr _)]
      · -- the negative side
        obtain ⟨g, h1, h2⟩ := inside_factor (closeText t.type) (closeText_or _)
          ((newSurfaces sqrt last t).map Surface.id) (newSurfaces_ne_nil sqrt hp)
        refine ⟨insideText (closeText t.type) ((newSurfaces sqrt last t).map Surface.id), ?_, ?_, ?_, ?_, ?_, ?_⟩
        · rw [flattenWord_no_dot _ _ _ _ (dot_not_mem_minus _), if_neg (intStr_ne_minus hid), if_pos rfl]; rfl
        · exact refersTo_head (by decide) (by decide)
        · intro hf
          rw [← intStr_neg hid, (refersTo_intStr hid (-t.id)).2 (by omega)] at hf; cases hf
        · exact insideText_noKeyword _ (closeText_or _) _
        · intro a ha
          rw [lex_inside _ (closeText_or _)] at ha
          simp only [List.mem_cons, reduceCtorEq, false_or, List.mem_append, List.not_mem_nil, or_false, List.mem_map, Sym.atom.injEq] at ha
          obtain ⟨i, hi, rfl⟩ := ha
          exact loopWord_new (List.mem_map.2 hi) (Or.inr rfl)
        · intro p T
          rw [e]
          refine .atom h1 fun _ => ?_
          rw [cellSense_plain _ _ (hash_not_mem_minus _), pointSense_neg sqrt place h.unique ht hid, hmacro, if_neg (by decide), h2,
            ← inside_sense sqrt place hu' h.nonneg hsub hp hr p]
          refine forall_congr' fun i => imp_congr_right fun _ => ?_
          rw [cellSense_plain _ _ (hash_not_mem_minus _)]
    · -- another surface
      have htid := (h.range t ht).1
      have hne : t.id ≠ s.id := fun e => hts (h.unique t ht s h.mem e)
      have hloop : LoopWord (surfs ++ placed s.transform (newSurfaces sqrt last s)) rest w :=
        Or.inr (Or.inl ⟨t, List.mem_append_left _ ht, fun hm => (List.mem_cons.1 (hrest hm)).resolve_left hts, hw⟩)
      have hsense := fun p => pointSense_more (sqrt := sqrt) place hu' hpos' ht p hw
      rcases hw with rfl | rfl
      · refine ⟨_, wordStep_same place ?_ ?_ (noKeyword_intStr _) (intStr_plain _) (intStr_ne_nil _) (ne_hash_of_not_mem (hash_not_mem_intStr _))
          hloop fun p T => ?_⟩
        · rw [flattenWord_no_dot _ _ _ _ (dot_not_mem_intStr _), if_neg (fun e => hne (intStr_injective e).symm),
            if_neg (fun e => intStr_ne_minus htid e.symm)]
        · rw [Bool.eq_false_iff]
          intro e
          have := (refersTo_intStr hid t.id).1 e
          omega
        · rw [cellSense_plain _ _ (hash_not_mem_intStr _), cellSense_plain _ _ (hash_not_mem_intStr _), hsense]
      · refine ⟨_, wordStep_same place ?_ ?_ (noKeyword_minus _) (plain_minus (intStr_plain _)) (by simp) (ne_hash_of_not_mem (hash_not_mem_minus _))
          hloop fun p T => ?_⟩
        · rw [flattenWord_no_dot _ _ _ _ (dot_not_mem_minus _), if_neg (intStr_ne_minus hid),
            if_neg (fun e => hne (intStr_injective (List.cons.inj e).2).symm)]
        · rw [Bool.eq_false_iff]
          intro e
          rw [← intStr_neg htid] at e
          have := (refersTo_intStr hid (-t.id)).1 e
          omega
        · rw [cellSense_plain _ _ (hash_not_mem_minus _), cellSense_plain _ _ (hash_not_mem_minus _), hsense]
  · have htid := (h.range t ht).1
    have hk9 : 1 ≤ k ∧ k ≤ 9 := ⟨hk.1, hk.2.trans (facetCount_le _)⟩
    obtain ⟨hpt, hrt⟩ := h.proper t hrest hb
    by_cases hts : t = s
    · -- a facet of the body
      subst hts
      obtain ⟨f, hf⟩ : ∃ f, (faces sqrt t.type t.coeffs)[k - 1]? = some f := by
        obtain ⟨v, hv⟩ := facetValue_some hp.shape hk ⟨0, 0, 0⟩
        obtain ⟨v', hv', -⟩ := faces_facet hp hr ⟨0, 0, 0⟩ k hrcc v hv
        cases hf : (faces sqrt t.type t.coeffs)[k - 1]? with
        | some f => exact ⟨f, rfl⟩
        | none =>
          rw [List.getElem?_eq_none_iff, ← faceValues_length sqrt t.type t.coeffs ⟨0, 0, 0⟩] at hf
          rw [List.getElem?_eq_none hf] at hv'
          cases hv'
      have hn0 : (newSurfaces sqrt last t)[k - 1]? = some (plainCard (last + 1 + (k - 1 : Nat)) f.1 f.2) := by
        rw [newSurfaces_get, hf]; rfl
      have hn : (placed t.transform (newSurfaces sqrt last t))[k - 1]? =
          some { plainCard (last + 1 + (k - 1 : Nat)) f.1 f.2 with transform := t.transform } := by
        unfold placed
        rw [List.getElem?_map, hn0]; rfl
      have hmem : (last + 1 + (k - 1 : Nat)) ∈ (newSurfaces sqrt last t).map Surface.id :=
        List.mem_map.2 ⟨_, List.mem_of_getElem? hn0, rfl⟩
      have hnew : last + 1 + ((k - 1 : Nat) : Int) ≠ t.id := by have := (h.range t ht).2; omega
      have hnewpos : 0 < last + 1 + ((k - 1 : Nat) : Int) := by have := h.nonneg; omega
      have hstep := flattenWord_facet hid (explodedBody sqrt last t).inside (explodedBody sqrt last t).outside _ neg k hk.1 hn
      have hsense : ∀ p, ∃ v, facetValue t.type t.coeffs k (place t.transform p) = some v ∧
          (pointSense sqrt place (surfs ++ placed t.transform (newSurfaces sqrt last t)) p (intStr (last + 1 + (k - 1 : Nat))) ↔ 0 < v) ∧
          (pointSense sqrt place (surfs ++ placed t.transform (newSurfaces sqrt last t)) p ('-' :: intStr (last + 1 + (k - 1 : Nat))) ↔ v < 0) := by
        intro p
        obtain ⟨v, hv⟩ := facetValue_some hp.shape hk (place t.transform p)
        obtain ⟨v', hv', h1, h2⟩ := faces_facet hp hr (place t.transform p) k hrcc v hv
        obtain ⟨v'', h3, h4, h5⟩ := sense_face sqrt place hu' h.nonneg hsub p hf
        rw [hv'] at h3
        cases h3
        exact ⟨v, hv, h4.trans h2.symm, h5.trans h1.symm⟩
      cases neg
      · refine ⟨_, hstep, ?_, ?_, noKeyword_intStr _, ?_, ?_⟩
        · rw [Bool.eq_false_iff]
          intro e
          have := (refersTo_intStr hid _).1 e
          simp only [plainCard] at this
          omega
        · intro hf
          rw [(refersTo_facetWord hid false htid k hk9).2 rfl] at hf; cases hf
        · intro a ha
          rw [if_neg (by decide), lexGeometry_word (intStr_plain _) (intStr_ne_nil _) (ne_hash_of_not_mem (hash_not_mem_intStr _))] at ha
          simp only [List.mem_singleton, Sym.atom.injEq] at ha
          exact loopWord_new hmem (Or.inl ha)
        · intro p T
          rw [e, if_neg (by decide), lexGeometry_word (intStr_plain _) (intStr_ne_nil _) (ne_hash_of_not_mem (hash_not_mem_intStr _))]
          refine .atom (.atom _) fun _ => ?_
          obtain ⟨v, hv, h1, -⟩ := hsense p
          show _ ↔ cellSense _ _ _
          rw [cellSense_plain _ _ (hash_not_mem_facetWord _ _ _), cellSense_plain _ _ (hash_not_mem_intStr _),
            pointSense_facet sqrt place h.unique (fun a ha => (h.range a ha).1) ht p false hk.1 hv]
          exact h1.symm
      · refine ⟨_, hstep, ?_, ?_, noKeyword_minus _, ?_, ?_⟩
        · rw [Bool.eq_false_iff]
          intro e
          rw [if_pos rfl] at e
          have e' : refersTo t.id ('-' :: intStr (last + 1 + ((k - 1 : Nat) : Int))) = true := e
          rw [← intStr_neg hnewpos] at e'
          have := (refersTo_intStr hid _).1 e'
          omega
        · intro hf
          rw [(refersTo_facetWord hid true htid k hk9).2 rfl] at hf; cases hf
        · intro a ha
          rw [if_pos rfl, lexGeometry_word (plain_minus (intStr_plain _)) (by simp) (ne_hash_of_not_mem (hash_not_mem_minus _))] at ha
          simp only [List.mem_singleton, Sym.atom.injEq] at ha
          exact loopWord_new hmem (Or.inr ha)
        · intro p T
          rw [e, if_pos rfl, lexGeometry_word (plain_minus (intStr_plain _)) (by simp) (ne_hash_of_not_mem (hash_not_mem_minus _))]
          refine .atom (.atom _) fun _ => ?_
          obtain ⟨v, hv, -, h1⟩ := hsense p
          show _ ↔ cellSense _ _ _
          rw [cellSense_plain _ _ (hash_not_mem_facetWord _ _ _), cellSense_plain _ _ (hash_not_mem_minus _),
            pointSense_facet sqrt place h.unique (fun a ha => (h.range a ha).1) ht p true hk.1 hv]
          exact h1.symm
    · -- a facet of another body
      have hrest' := (List.mem_cons.1 hrest).resolve_left hts
      have hne : t.id ≠ s.id := fun e => hts (h.unique t ht s h.mem e)
      have hloop : LoopWord (surfs ++ placed s.transform (newSurfaces sqrt last s)) rest (facetWord neg t.id k) :=
        Or.inr (Or.inr ⟨t, hrest', List.mem_append_left _ ht, hb, neg, k, rfl, hk, hrcc, fun m hm => hsuf m (List.mem_cons_of_mem _ hm)⟩)
      refine ⟨_, wordStep_same place ?_ ?_ (noKeyword_facetWord _ _ _) (plain_facetWord _ _ _) (facetWord_ne_nil _ _ _)
        (ne_hash_of_not_mem (hash_not_mem_facetWord _ _ _)) hloop fun p T => ?_⟩
      · exact flattenWord_other_facet hid _ _ _ neg htid k fun hs => hne (hsuf s (by simp) h.body hs).symm
      · rw [Bool.eq_false_iff]
        intro e
        exact hne ((refersTo_facetWord hid neg htid k hk9).1 e)
      · obtain ⟨v, hv⟩ := facetValue_some hpt.shape hk (place t.transform p)
        rw [cellSense_plain _ _ (hash_not_mem_facetWord _ _ _), cellSense_plain _ _ (hash_not_mem_facetWord _ _ _),
          pointSense_facet sqrt place h.unique (fun a ha => (h.range a ha).1) ht p neg hk.1 hv,
          pointSense_facet sqrt place hu' hpos' (List.mem_append_left _ ht) p neg hk.1 hv]

end

end Csg
