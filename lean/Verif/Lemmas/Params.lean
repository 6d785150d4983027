import Verif.Lemmas.Keywords

/-!
# The parameter part of a cell card
-/

namespace Csg

open Spec

theorem split_joinWords (ws : List Str) (h : ∀ w ∈ ws, w ≠ [] ∧ NoSpace w) : split (join c!" " ws) = ws := by
  induction ws with
  | nil => rfl
  | cons w ws ih =>
    have hw := h w (by simp)
    cases ws with
    | nil => exact split_word _ hw.2 hw.1
    | cons v vs =>
      have e : join c!" " (w :: v :: vs) = w ++ ' ' :: join c!" " (v :: vs) := by simp [join]
      rw [e, split_word_space _ _ ' ' (by decide) hw.2 hw.1, ih fun u hu => h u (by simp [hu])]

/-! ## One parameter -/

/-- The letters of the keyword of a parameter. -/
def paramKey : Param → Str
  | .uni _ => c!"u"
  | .fill d _ _ => (if d then c!"*" else []) ++ c!"fill"
  | .importance _ => c!"imp:n"
  | .volume _ => c!"vol"
  | .temperature _ => c!"tmp"

/-- The number of a parameter. -/
def paramValue : Param → Str
  | .uni v => v
  | .fill _ v _ => v
  | .importance v => v
  | .volume v => v
  | .temperature v => v

/-- What may follow a value: nothing, or blanks and a transform in parentheses. -/
def ParamEnd (q : Param) (x : Str) : Prop :=
  (x = [] ∧ ∀ d v t, q ≠ .fill d v (some t)) ∨ ∃ d v t sp, q = .fill d v (some t) ∧ x = sp ++ c!"(" ++ t ++ c!")" ∧ (∀ c ∈ sp, isSpace c = true) ∧ ∀ c ∈ t, isSpace c = true ∨ NumberChar c

theorem paramText_form {q : Param} {t : Str} (h : ParamText q t) :
    ∃ eq x, t = paramKey q ++ eq ++ (paramValue q ++ x) ∧ EqualsSign eq ∧ paramValue q ≠ [] ∧ (∀ c ∈ paramValue q, NumberChar c) ∧ ParamEnd q x := by
  cases h with
  | uni v eq he hv => exact ⟨eq, [], by simp [paramKey, paramValue], he, (plainNumber_chars hv).1, (plainNumber_chars hv).2, Or.inl ⟨rfl, by simp⟩⟩
  | fill d v eq he hv => exact ⟨eq, [], by simp [paramKey, paramValue], he, (plainNumber_chars hv).1, (plainNumber_chars hv).2, Or.inl ⟨rfl, by simp⟩⟩
  | filled d v eq sp t he hv hs ht =>
    exact ⟨eq, sp ++ c!"(" ++ t ++ c!")", by simp [paramKey, paramValue], he, (plainNumber_chars hv).1, (plainNumber_chars hv).2, Or.inr ⟨d, v, t, sp, rfl, rfl, hs, ht⟩⟩
  | importance v eq he hv => exact ⟨eq, [], by simp [paramKey, paramValue], he, (plainNumber_chars hv).1, (plainNumber_chars hv).2, Or.inl ⟨rfl, by simp⟩⟩
  | volume v eq he hne hv => exact ⟨eq, [], by simp [paramKey, paramValue], he, hne, hv, Or.inl ⟨rfl, by simp⟩⟩
  | temperature v eq he hne hv => exact ⟨eq, [], by simp [paramKey, paramValue], he, hne, hv, Or.inl ⟨rfl, by simp⟩⟩

theorem paramEnd_chars {q : Param} {x : Str} (h : ParamEnd q x) : ∀ c ∈ x, isSpace c = true ∨ NumberChar c ∨ c = '(' ∨ c = ')' := by
  rcases h with ⟨rfl, _⟩ | ⟨d, v, t, sp, _, rfl, hs, ht⟩
  · simp
  · intro c hc
    simp only [List.mem_append, List.mem_cons, List.not_mem_nil, or_false] at hc
    rcases hc with ((hc | rfl) | hc) | rfl
    · exact Or.inl (hs c hc)
    · exact Or.inr (Or.inr (Or.inl rfl))
    · rcases ht c hc with h | h
      · exact Or.inl h
      · exact Or.inr (Or.inl h)
    · exact Or.inr (Or.inr (Or.inr rfl))

/-- Letters that only occur in keywords. -/
def KeyLetter (x : Char) : Prop := isSpace x = false ∧ isDigit x = false ∧ x ≠ '+' ∧ x ≠ '-' ∧ x ≠ '.' ∧ x ≠ 'e' ∧ x ≠ '=' ∧ x ≠ '(' ∧ x ≠ ')'

instance (x : Char) : Decidable (KeyLetter x) := by unfold KeyLetter; infer_instance

theorem numberChar_not_key {c x : Char} (h : NumberChar c) (hx : KeyLetter x) : c ≠ x :=
  numberChar_not h ⟨hx.2.1, hx.2.2.1, hx.2.2.2.1, hx.2.2.2.2.1, hx.2.2.2.2.2.1⟩

theorem paramEnd_not_key {q : Param} {y : Str} (h : ParamEnd q y) {x : Char} (hx : KeyLetter x) : x ∉ y := by
  intro hm
  rcases paramEnd_chars h x hm with h | h | h | h
  · rw [hx.1] at h; cases h
  · exact numberChar_not_key h hx rfl
  · exact hx.2.2.2.2.2.2.2.1 h
  · exact hx.2.2.2.2.2.2.2.2 h

theorem spaces_not_key {s : Str} (h : ∀ c ∈ s, isSpace c = true) {x : Char} (hx : KeyLetter x) : x ∉ s := by
  intro hm
  have := h x hm
  rw [hx.1] at this; cases this

theorem equals_not_key {s : Str} (h : EqualsSign s) {x : Char} (hx : KeyLetter x) : x ∉ s := by
  have h1 : x ≠ '=' := hx.2.2.2.2.2.2.1
  have h2 : x ≠ ' ' := by rintro rfl; exact absurd hx.1 (by decide)
  rcases h with rfl | rfl | rfl | rfl <;> simp [h1, h2]

theorem paramKey_head (q : Param) : (∃ z, (paramKey q).head? = some z ∧ z ≠ ' ' ∧ z ≠ '=') ∧ paramKey q ≠ [] ∧ ' ' ∉ paramKey q ∧ '=' ∉ paramKey q := by
  cases q with
  | fill d v tr =>
    cases d
    · exact ⟨⟨'f', rfl, by decide, by decide⟩, by simp [paramKey], by simp [paramKey], by simp [paramKey]⟩
    · exact ⟨⟨'*', rfl, by decide, by decide⟩, by simp [paramKey], by simp [paramKey], by simp [paramKey]⟩
  | uni v => exact ⟨⟨'u', rfl, by decide, by decide⟩, by simp [paramKey], by simp [paramKey], by simp [paramKey]⟩
  | importance v => exact ⟨⟨'i', rfl, by decide, by decide⟩, by simp [paramKey], by simp [paramKey], by simp [paramKey]⟩
  | volume v => exact ⟨⟨'v', rfl, by decide, by decide⟩, by simp [paramKey], by simp [paramKey], by simp [paramKey]⟩
  | temperature v => exact ⟨⟨'t', rfl, by decide, by decide⟩, by simp [paramKey], by simp [paramKey], by simp [paramKey]⟩

theorem paramText_head {q : Param} {t : Str} (h : ParamText q t) : ∃ z, t.head? = some z ∧ z ≠ ' ' ∧ z ≠ '=' := by
  obtain ⟨eq, x, rfl, _⟩ := paramText_form h
  obtain ⟨⟨z, h1, h2⟩, hne, _⟩ := paramKey_head q
  refine ⟨z, ?_, h2⟩
  obtain ⟨a, k, e⟩ := List.exists_cons_of_ne_nil hne
  rw [e] at h1 ⊢
  simpa using h1

theorem paramText_last {q : Param} {t : Str} (h : ParamText q t) : ∃ t' z, t = t' ++ [z] ∧ z ≠ ' ' ∧ z ≠ '=' := by
  obtain ⟨eq, x, rfl, _, hne, hv, hx⟩ := paramText_form h
  rcases hx with ⟨rfl, _⟩ | ⟨d, v, t, sp, _, rfl, hs, ht⟩
  · have hl := List.getLast_mem hne
    refine ⟨paramKey q ++ eq ++ (paramValue q).dropLast, (paramValue q).getLast hne, ?_, numberChar_not (hv _ hl), numberChar_not (hv _ hl)⟩
    rw [List.append_assoc _ (List.dropLast _), List.dropLast_append_getLast hne]; simp
  · exact ⟨paramKey q ++ eq ++ (paramValue q ++ (sp ++ c!"(" ++ t)), ')', by simp, by decide, by decide⟩

theorem squeezePairs_head {c : Char} (x : Str) : (squeezePairs c x).head? = x.head? := by
  match x with
  | [] => rfl
  | [a] => rfl
  | a :: b :: s =>
    rw [squeezePairs]
    split
    · rename_i h; simp [h.1]
    · rfl

theorem spaceEquals_head {x : Str} (h : '=' ∉ x) : (spaceEquals x).head? = x.head? := by
  unfold spaceEquals
  rw [squeezePairs_head, replaceChar_not_mem _ _ _ h, replaceChar_not_mem _ _ _ h]

/-- A parameter after the equals signs are spaced. -/
theorem spaced_param {q : Param} {t : Str} (h : ParamText q t) :
    ∃ x, spaceEquals t = paramKey q ++ c!" = " ++ paramValue q ++ spaceEquals x ∧ ParamEnd q x := by
  obtain ⟨eq, x, rfl, he, hne, hv, hx⟩ := paramText_form h
  obtain ⟨_, k1, k2, k3⟩ := paramKey_head q
  refine ⟨x, ?_, hx⟩
  have hl := List.getLast_mem hne
  have e : paramValue q ++ x = (paramValue q).dropLast ++ (paramValue q).getLast hne :: x := by
    conv_lhs => rw [← List.dropLast_append_getLast hne]
    simp
  have hhead : ∀ z, (paramValue q ++ x).head? = some z → z ≠ ' ' ∧ z ≠ '=' := by
    intro z hz
    obtain ⟨a, v, ev⟩ := List.exists_cons_of_ne_nil hne
    rw [ev] at hz
    simp at hz
    subst hz
    have := hv a (by rw [ev]; simp)
    exact ⟨numberChar_not this, numberChar_not this⟩
  rw [spaceEquals_sign k1 k2 k3 he hhead, e, spaceEquals_left (numberChar_not (hv _ hl)) (numberChar_not (hv _ hl)), List.dropLast_append_getLast hne,
    spaceEquals_plain (fun hm => numberChar_not (x := ' ') (hv _ hm) (by decide) rfl) (fun hm => numberChar_not (x := '=') (hv _ hm) (by decide) rfl)]
  simp

theorem paramEnd_noEquals {q : Param} {x : Str} (h : ParamEnd q x) : '=' ∉ x := by
  intro hm
  rcases paramEnd_chars h '=' hm with h | h | h | h
  · exact absurd h (by decide)
  · exact numberChar_not h (by decide) rfl
  · exact absurd h (by decide)
  · exact absurd h (by decide)

theorem paramEnd_head {q : Param} {x : Str} (h : ParamEnd q x) : ∀ c, x.head? = some c → isDigit c = false ∧ c ≠ '.' := by
  intro c hc
  rcases h with ⟨rfl, _⟩ | ⟨d, v, t, sp, _, rfl, hs, ht⟩
  · simp at hc
  · cases sp with
    | nil => simp at hc; subst hc; decide
    | cons a sp =>
      simp at hc; subst hc
      have := hs a (by simp)
      constructor
      · by_contra hd
        have := isSpace_of_isDigit (by simpa using hd)
        simp_all
      · rintro rfl; exact absurd this (by decide)

/-! ## Words that a parameter avoids -/

/-- A text made of a key and of characters that are not letters of keys. -/
theorem avoids_key {k key rest : Str} {x : Char} (hk : k.head? = some x) (h1 : Avoids k key) (h2 : x ∉ rest) : Avoids k (key ++ rest) :=
  h1.append (avoids_of_head hk h2)

/-- The searched words, with the kind of parameter in which they stand. -/
def searched : List (Str × Nat) := [(c!"u", 0), (c!"fill", 1), (c!"*fill", 1), (c!"imp", 2), (c!"imp:n", 2)]

theorem avoids_paramKey {k : Str} {n : Nat} (hk : (k, n) ∈ searched) {q : Param} (hq : q.kind ≠ n) : Avoids k (paramKey q) := by
  simp only [searched, List.mem_cons, List.not_mem_nil, or_false, Prod.mk.injEq] at hk
  rcases hk with ⟨rfl, rfl⟩ | ⟨rfl, rfl⟩ | ⟨rfl, rfl⟩ | ⟨rfl, rfl⟩ | ⟨rfl, rfl⟩
  · cases q with
    | uni v => exact absurd rfl hq
    | fill d v tr => cases d <;> exact avoids_of_head (x := 'u') rfl (by simp [paramKey])
    | _ => exact avoids_of_head (x := 'u') rfl (by simp [paramKey])
  · cases q with
    | fill d v tr => exact absurd rfl hq
    | _ => exact avoids_of_head (x := 'f') rfl (by simp [paramKey])
  · cases q with
    | fill d v tr => exact absurd rfl hq
    | _ => exact avoids_of_head (x := '*') rfl (by simp [paramKey])
  · cases q with
    | importance v => exact absurd rfl hq
    | fill d v tr =>
      refine Avoids.append ?_ (avoids_imp_fill c!"p")
      cases d
      · exact avoids_nil _
      · exact avoids_of_head (x := 'i') rfl (by decide)
    | _ => exact avoids_of_head (x := 'i') rfl (by simp [paramKey])
  · cases q with
    | importance v => exact absurd rfl hq
    | fill d v tr =>
      refine Avoids.append ?_ (avoids_imp_fill c!"p:n")
      cases d
      · exact avoids_nil _
      · exact avoids_of_head (x := 'i') rfl (by decide)
    | _ => exact avoids_of_head (x := 'i') rfl (by simp [paramKey])

theorem searched_head {k : Str} {n : Nat} (hk : (k, n) ∈ searched) : ∃ x, k.head? = some x ∧ KeyLetter x := by
  simp only [searched, List.mem_cons, List.not_mem_nil, or_false, Prod.mk.injEq] at hk
  rcases hk with ⟨rfl, rfl⟩ | ⟨rfl, rfl⟩ | ⟨rfl, rfl⟩ | ⟨rfl, rfl⟩ | ⟨rfl, rfl⟩
  · exact ⟨'u', rfl, by decide⟩
  · exact ⟨'f', rfl, by decide⟩
  · exact ⟨'*', rfl, by decide⟩
  · exact ⟨'i', rfl, by decide⟩
  · exact ⟨'i', rfl, by decide⟩

theorem avoids_paramText {k : Str} {n : Nat} (hk : (k, n) ∈ searched) {q : Param} (hq : q.kind ≠ n) {t : Str} (h : ParamText q t) : Avoids k t := by
  obtain ⟨eq, x, rfl, he, hne, hv, hx⟩ := paramText_form h
  obtain ⟨y, hy, hl⟩ := searched_head hk
  rw [List.append_assoc]
  refine avoids_key hy (avoids_paramKey hk hq) ?_
  simp only [List.mem_append, not_or]
  exact ⟨equals_not_key he hl, fun hm => numberChar_not_key (hv _ hm) hl rfl, paramEnd_not_key hx hl⟩

theorem not_mem_spaceEquals {s : Str} {x : Char} (h : x ∉ s) (hx : x ≠ ' ') : x ∉ spaceEquals s := by
  intro hm
  rcases spaceEquals_chars x hm with h' | h'
  · exact h h'
  · exact hx h'

theorem KeyLetter.ne_blank {x : Char} (h : KeyLetter x) : x ≠ ' ' := by rintro rfl; exact absurd h.1 (by decide)

theorem avoids_spacedText {k : Str} {n : Nat} (hk : (k, n) ∈ searched) {q : Param} (hq : q.kind ≠ n) {t : Str} (h : ParamText q t) : Avoids k (spaceEquals t) := by
  obtain ⟨x, e, hx⟩ := spaced_param h
  obtain ⟨_, _, _, _, _, hv, _⟩ := paramText_form h
  obtain ⟨y, hy, hl⟩ := searched_head hk
  rw [e, List.append_assoc, List.append_assoc]
  refine avoids_key hy (avoids_paramKey hk hq) ?_
  simp only [List.mem_append, not_or]
  refine ⟨?_, fun hm => numberChar_not_key (hv _ hm) hl rfl, not_mem_spaceEquals (paramEnd_not_key hx hl) hl.ne_blank⟩
  simp only [List.mem_cons, List.not_mem_nil, or_false, not_or]
  exact ⟨hl.ne_blank, hl.2.2.2.2.2.2.1, hl.ne_blank⟩

end Csg
