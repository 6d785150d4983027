import Verif.Lemmas.Params

/-!
# Reading the parameter part of a cell card
-/

namespace Csg

open Spec

abbrev PEntry := Param × Str × Str

theorem IsParamList.tail {e : PEntry} {l : List PEntry} (h : IsParamList (e :: l)) (hne : l ≠ []) : IsParamList l := by
  refine ⟨fun x hx => h.texts x (by simp [hx]), fun x hx => h.apart x ?_, ?_, hne⟩
  · obtain ⟨a, l, rfl⟩ := List.exists_cons_of_ne_nil hne
    rw [List.dropLast_cons_cons]
    exact List.mem_cons_of_mem _ hx
  · have := h.kinds
    rw [List.map_cons, List.nodup_cons] at this
    exact this.2

theorem paramListText_append (a b : List PEntry) : paramListText (a ++ b) = paramListText a ++ paramListText b := by simp [paramListText]

/-- The head of the text of parameters. -/
theorem paramListText_head {l : List PEntry} (h : ∀ e ∈ l, ParamText e.1 e.2.1) : ∀ z, (paramListText l).head? = some z → z ≠ ' ' ∧ z ≠ '=' := by
  intro z hz
  cases l with
  | nil => simp [paramListText] at hz
  | cons e l =>
    obtain ⟨y, h1, h2⟩ := paramText_head (h e (by simp))
    have : (paramListText (e :: l)).head? = e.2.1.head? := by
      cases ht : e.2.1 with
      | nil => rw [ht] at h1; simp at h1
      | cons a t => simp [paramListText, ht]
    rw [this, h1] at hz
    cases hz
    exact h2

theorem spaceEquals_list {l : List PEntry} (h : ∀ e ∈ l, ParamText e.1 e.2.1) :
    spaceEquals (paramListText l) = l.flatMap fun e => spaceEquals e.2.1 ++ spaceEquals e.2.2 := by
  induction l with
  | nil => rfl
  | cons e l ih =>
    obtain ⟨t', z, e1, z1, z2⟩ := paramText_last (h e (by simp))
    have hl : ∀ x ∈ l, ParamText x.1 x.2.1 := fun x hx => h x (by simp [hx])
    have eq : paramListText (e :: l) = t' ++ z :: (e.2.2 ++ paramListText l) := by
      simp [paramListText, e1]
    rw [eq, spaceEquals_left z1 z2, spaceEquals_right (paramListText_head hl), ← e1, ih hl]
    simp

theorem avoids_list {k : Str} {n : Nat} (hk : (k, n) ∈ searched) {l : List PEntry} (h : ∀ e ∈ l, ParamText e.1 e.2.1 ∧ ∀ c ∈ e.2.2, isSpace c = true)
    (hn : ∀ e ∈ l, e.1.kind ≠ n) : Avoids k (paramListText l) := by
  obtain ⟨y, hy, hl⟩ := searched_head hk
  induction l with
  | nil => exact avoids_nil _
  | cons e l ih =>
    have he := h e (by simp)
    have eq : paramListText (e :: l) = e.2.1 ++ e.2.2 ++ paramListText l := by simp [paramListText]
    rw [eq]
    exact ((avoids_paramText hk (hn e (by simp)) he.1).append (avoids_of_head hy (spaces_not_key he.2 hl))).append
      (ih (fun x hx => h x (by simp [hx])) fun x hx => hn x (by simp [hx]))

theorem avoids_spacedList {k : Str} {n : Nat} (hk : (k, n) ∈ searched) {l : List PEntry} (h : ∀ e ∈ l, ParamText e.1 e.2.1 ∧ ∀ c ∈ e.2.2, isSpace c = true)
    (hn : ∀ e ∈ l, e.1.kind ≠ n) : Avoids k (l.flatMap fun e => spaceEquals e.2.1 ++ spaceEquals e.2.2) := by
  obtain ⟨y, hy, hl⟩ := searched_head hk
  induction l with
  | nil => exact avoids_nil _
  | cons e l ih =>
    have he := h e (by simp)
    rw [List.flatMap_cons]
    exact ((avoids_spacedText hk (hn e (by simp)) he.1).append (avoids_of_head hy (not_mem_spaceEquals (spaces_not_key he.2 hl) hl.ne_blank))).append
      (ih (fun x hx => h x (by simp [hx])) fun x hx => hn x (by simp [hx]))

/-- The entry of a parameter, and what stands before and after it. -/
theorem paramList_split {l : List PEntry} (h : IsParamList l) {q : Param} (hq : q ∈ l.map Prod.fst) :
    ∃ l1 e l2, l = l1 ++ e :: l2 ∧ e.1 = q ∧ (∀ x ∈ l1 ++ l2, x.1.kind ≠ q.kind) ∧ (l2 ≠ [] → e.2.2 ≠ []) := by
  obtain ⟨e, he, rfl⟩ := List.mem_map.1 hq
  obtain ⟨l1, l2, rfl⟩ := List.append_of_mem he
  refine ⟨l1, e, l2, rfl, rfl, ?_, ?_⟩
  · have hk := h.kinds
    rw [List.map_append, List.map_cons, List.nodup_append] at hk
    obtain ⟨_, h2, h3⟩ := hk
    rw [List.nodup_cons] at h2
    intro x hx
    rcases List.mem_append.1 hx with hx | hx
    · exact h3 _ (List.mem_map_of_mem hx) _ (by simp)
    · intro e'
      exact h2.1 (e' ▸ List.mem_map_of_mem (f := fun e : PEntry => e.1.kind) hx)
  · intro hne
    apply h.apart
    rw [List.dropLast_append_of_ne_nil (by simp)]
    obtain ⟨a, l2, rfl⟩ := List.exists_cons_of_ne_nil hne
    rw [List.dropLast_cons_cons]
    simp

/-- Finding the value of a parameter. -/
theorem keywordValue_param {l : List PEntry} (h : IsParamList l) {kw : Str} {q : Param} (hk : (kw, q.kind) ∈ searched) (hb : ' ' ∉ kw)
    (hq : q ∈ l.map Prod.fst) (hv : PlainNumber (paramValue q)) {star : Str} (hkey : paramKey q = star ++ kw) (hs : Avoids kw star) :
    keywordValue kw (spaceEquals (paramListText l) ++ c!" ") = .ok (paramValue q) := by
  obtain ⟨l1, e, l2, rfl, rfl, hn, hsep⟩ := paramList_split h hq
  have ht := h.texts
  have he := ht e (by simp)
  obtain ⟨x, ex, hx⟩ := spaced_param he.1
  rw [spaceEquals_list fun y hy => (ht y hy).1, List.flatMap_append, List.flatMap_cons, ex]
  have ha : Avoids kw (l1.flatMap fun e => spaceEquals e.2.1 ++ spaceEquals e.2.2) :=
    avoids_spacedList hk (fun y hy => ht y (by simp [hy])) fun y hy => hn y (by simp [hy])
  refine keywordValue_found (rest := spaceEquals x ++ (spaceEquals e.2.2 ++ ((l2.flatMap fun e => spaceEquals e.2.1 ++ spaceEquals e.2.2) ++ c!" "))) hb hv ?_ (ha.append hs) ?_
  · intro c hc
    cases hsx : spaceEquals x with
    | cons a s =>
      rw [hsx] at hc
      simp at hc; subst hc
      have e2 := spaceEquals_head (paramEnd_noEquals hx)
      rw [hsx] at e2
      exact paramEnd_head hx a e2.symm
    | nil =>
      rw [hsx, List.nil_append] at hc
      have hspace : isSpace c = true := by
        cases hb2 : e.2.2 with
        | nil =>
          have : l2 = [] := by by_contra hne; exact hsep hne hb2
          subst this
          rw [hb2] at hc
          simp [spaceEquals, replaceChar, squeezePairs] at hc
          subst hc; decide
        | cons a s =>
          have hne : '=' ∉ e.2.2 := by
            intro hm
            exact absurd (he.2 '=' hm) (by decide)
          have e2 := spaceEquals_head hne
          cases hse : spaceEquals e.2.2 with
          | nil => rw [hse, hb2] at e2; simp at e2
          | cons b s' =>
            rw [hse] at hc e2
            simp at hc; subst hc
            rw [hb2] at e2
            simp at e2
            rw [e2]
            exact he.2 a (by rw [hb2]; simp)
      constructor
      · by_contra hd
        have := isSpace_of_isDigit (by simpa using hd)
        simp_all
      · rintro rfl; exact absurd hspace (by decide)
  · rw [hkey]
    simp

/-! ## Positions -/

theorem findStr_none {k pre t : Str} (hk : k ≠ []) (h1 : Avoids k pre) (h2 : Avoids k t) : findStr k (pre ++ t) = -1 := by
  have := findStr_avoid (s := []) (h1.append h2)
  rw [List.append_nil] at this
  rw [this]
  simp [findStr, hk]

theorem findStr_here {k a b : Str} (h : Avoids k a) : findStr k (a ++ (k ++ b)) = a.length := by
  rw [findStr_avoid h]
  have : findStr k (k ++ b) = 0 := by
    have h1 := findStr_le (w := k) (a := []) (b := b)
    simp at h1
    have h2 := findStr_ge k (k ++ b)
    by_contra hn
    have h3 : findStr k (k ++ b) < 0 := by omega
    exact findStr_neg h3 [] b (by simp)
  rw [this]
  simp

theorem sliceFrom_append {α : Type} (a b : List α) : sliceFrom (a ++ b) (a.length : Int) = b := by
  simp [sliceFrom]

theorem extractBetween_found {a t b : Str} (ha : '(' ∉ a ∧ ')' ∉ a) (ht : ')' ∉ t) : extractBetween (a ++ ('(' :: (t ++ ')' :: b))) '(' ')' = join c!" " (split t) := by
  unfold extractBetween
  rw [findChar_append _ _ _ ha.1]
  have e : a ++ '(' :: (t ++ ')' :: b) = (a ++ '(' :: t) ++ ')' :: b := by simp
  have h2 : findChar ')' (a ++ '(' :: (t ++ ')' :: b)) = ((a ++ '(' :: t).length : Int) := by
    rw [e, findChar_append _ _ _ (by simp [ha.2, ht])]
  rw [h2]
  have e3 : slice (a ++ '(' :: (t ++ ')' :: b)) ((a.length : Int) + 1) ((a ++ '(' :: t).length : Int) = t := by
    have : ((a.length : Int) + 1) = Int.ofNat (a.length + 1) := rfl
    rw [this]
    show (List.take (a ++ '(' :: t).length (a ++ '(' :: (t ++ ')' :: b))).drop (a.length + 1) = t
    rw [e, List.take_left]
    have e4 : a ++ '(' :: t = (a ++ ['(']) ++ t := by simp
    rw [e4, List.drop_left' (by simp)]
  rw [e3]

/-- Parentheses belong to a fill. -/
theorem paren_not_mem {l : List PEntry} (h : ∀ e ∈ l, ParamText e.1 e.2.1 ∧ ∀ c ∈ e.2.2, isSpace c = true) (hn : ∀ e ∈ l, ∀ d v t, e.1 ≠ .fill d v (some t)) :
    '(' ∉ paramListText l := by
  intro hm
  obtain ⟨e, he, hm⟩ := List.mem_flatMap.1 hm
  obtain ⟨ht, hs⟩ := h e he
  rcases List.mem_append.1 hm with hm | hm
  · obtain ⟨eq, x, e1, heq, _, hv, hx⟩ := paramText_form ht
    rw [e1] at hm
    rcases hx with ⟨rfl, _⟩ | ⟨d, v, t, sp, hq, _⟩
    · simp only [List.mem_append, List.not_mem_nil, or_false] at hm
      rcases hm with (hm | hm) | hm
      · cases hq : e.1 with
        | fill d v tr => cases d <;> simp [hq, paramKey] at hm
        | _ => simp [hq, paramKey] at hm
      · rcases heq with rfl | rfl | rfl | rfl <;> simp at hm
      · exact numberChar_not (hv _ hm) (by decide) rfl
    · exact hn e he d v t hq
  · exact absurd (hs _ hm) (by decide)

end Csg
