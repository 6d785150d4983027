import Verif.Lemmas.Cell
import Verif.Lemmas.Num

/-!
# Reading a whole cell card
-/

namespace Csg

open Spec

theorem bind_ok {α β : Type} {x : Py α} {f : α → Py β} {b : β} (h : (x >>= f) = .ok b) : ∃ a, x = .ok a ∧ f a = .ok b := by
  cases x with
  | error e => cases h
  | ok a => exact ⟨a, rfl, h⟩

theorem pyInt_ok {s : Str} {z : Int} : pyInt s = .ok z ↔ parseInt s = some z := by
  unfold pyInt
  cases parseInt s <;> simp

theorem findStr_nonneg {w s : Str} (h : 0 ≤ findStr w s) : ∃ a b, s = a ++ w ++ b ∧ (a.length : Int) = findStr w s := by
  induction s with
  | nil =>
    unfold findStr at h ⊢
    split at h
    · rename_i hw; subst hw; exact ⟨[], [], rfl, rfl⟩
    · omega
  | cons c s ih =>
    unfold findStr at h ⊢
    by_cases hp : w.isPrefixOf (c :: s) = true
    · rw [if_pos hp]
      obtain ⟨b, hb⟩ := List.isPrefixOf_iff_prefix.1 hp
      exact ⟨[], b, by simp [hb], rfl⟩
    · rw [if_neg hp] at h ⊢
      simp only at h ⊢
      split at h
      · rename_i hr
        obtain ⟨a, b, e, hl⟩ := ih hr
        rw [if_pos hr]
        exact ⟨c :: a, b, by simp [e], by simp [hl]⟩
      · omega

theorem findStr_ge (w s : Str) : -1 ≤ findStr w s := by
  induction s with
  | nil => unfold findStr; split <;> omega
  | cons c s ih =>
    unfold findStr
    split
    · omega
    · simp only; split <;> omega

theorem findStr_neg {w s : Str} (h : findStr w s < 0) : ∀ a b, s ≠ a ++ w ++ b := by
  induction s with
  | nil =>
    intro a b e
    unfold findStr at h
    have := congrArg List.length e
    simp at this
    have hw : w = [] := List.length_eq_zero_iff.1 (by omega)
    simp [hw] at h
  | cons c s ih =>
    intro a b e
    unfold findStr at h
    by_cases hp : w.isPrefixOf (c :: s) = true
    · simp [hp] at h
    · simp only [hp] at h
      cases a with
      | nil => exact hp (List.isPrefixOf_iff_prefix.2 ⟨b, by simpa using e.symm⟩)
      | cons d a =>
        simp at e
        refine ih ?_ a b (by simpa using e.2)
        by_contra hc
        simp only [Bool.false_eq_true, if_false] at h
        rw [if_pos (by omega)] at h
        omega

/-- The first occurrence is the earliest. -/
theorem findStr_le {w a b : Str} : findStr w (a ++ w ++ b) ≤ a.length := by
  induction a with
  | nil =>
    cases hw : w ++ b with
    | nil => simp [hw, findStr]; split <;> omega
    | cons c s =>
      simp only [List.nil_append, hw, findStr]
      rw [if_pos (List.isPrefixOf_iff_prefix.2 ⟨b, hw⟩)]; simp
  | cons d a ih =>
    simp only [List.cons_append, findStr]
    rw [List.length_cons]
    split
    · omega
    · split <;> omega

theorem findStr_append {w pre s : Str} (hw : w ≠ []) (h : ∀ c ∈ pre, w.head? ≠ some c) :
    findStr w (pre ++ s) = if 0 ≤ findStr w s then findStr w s + pre.length else -1 := by
  induction pre with
  | nil =>
    have := findStr_ge w s
    split
    · simp
    · simp; omega
  | cons c pre ih =>
    have ih := ih fun d hd => h d (List.mem_cons_of_mem _ hd)
    have hnp : ¬ w.isPrefixOf (c :: (pre ++ s)) = true := by
      obtain ⟨x, w', rfl⟩ := List.exists_cons_of_ne_nil hw
      have := h c (by simp)
      simp at this
      simp [List.isPrefixOf, this]
    simp only [List.cons_append, findStr, if_neg hnp]
    rw [ih]
    by_cases hr : 0 ≤ findStr w s
    · simp only [hr, if_true]
      rw [if_pos (by omega)]
      simp; omega
    · simp only [hr, if_false]; simp

theorem findChar_eq (c : Char) (s : Str) : findChar c s = findStr [c] s := by
  induction s with
  | nil => simp [findChar, findStr]
  | cons x s ih =>
    simp only [findStr, List.isPrefixOf]
    rw [← ih]
    unfold findChar
    rw [List.findIdx?_cons]
    by_cases hx : x = c
    · subst hx; simp
    · have : ¬ c = x := fun e => hx e.symm
      simp only [beq_iff_eq, hx, if_false]
      cases List.findIdx? (fun x => x == c) s with
      | none => simp [this]
      | some i => simp [this]

theorem hasInfix_iff (w s : Str) : hasInfix w s = true ↔ ∃ a b, s = a ++ w ++ b := by
  induction s with
  | nil =>
    simp only [hasInfix, List.isEmpty_iff]
    constructor
    · rintro rfl; exact ⟨[], [], rfl⟩
    · rintro ⟨a, b, e⟩
      have := congrArg List.length e
      simp at this
      exact List.length_eq_zero_iff.1 (by omega)
  | cons c s ih =>
    simp only [hasInfix, Bool.or_eq_true, ih]
    constructor
    · rintro (h | ⟨a, b, e⟩)
      · obtain ⟨b, hb⟩ := List.isPrefixOf_iff_prefix.1 h
        exact ⟨[], b, by simp [hb]⟩
      · exact ⟨c :: a, b, by simp [e]⟩
    · rintro ⟨a, b, e⟩
      cases a with
      | nil => exact Or.inl (List.isPrefixOf_iff_prefix.2 ⟨b, by simpa using e.symm⟩)
      | cons d a => simp at e; exact Or.inr ⟨a, b, by simp [e.2]⟩

theorem expandText_append (a b : Str) : expandText (a ++ b) = expandText a ++ expandText b := by
  simp [expandText, replaceChar]

theorem findStr_bound {w pre params : Str} (hw : w ≠ []) (h : ∀ c ∈ pre, w.head? ≠ some c) (hpos : 0 < findStr w (pre ++ params)) :
    (pre.length : Int) ≤ findStr w (pre ++ params) := by
  rw [findStr_append hw h] at hpos ⊢
  split
  · omega
  · rename_i h; rw [if_neg h] at hpos; omega

theorem min?_eq {l : List Int} {m : Int} (hm : m ∈ l) (hb : ∀ x ∈ l, m ≤ x) : l.min? = some m := by
  rw [List.min?_eq_some_iff]
  exact ⟨hm, hb⟩

section
variable {K : Type} [Field K]

omit [Field K] in
theorem setUniverseTransform_surfaces {io : NumIO K} {cosDeg : K → K} {c c' : Cell K} {t : Str} {deg : Bool}
    (h : setUniverseTransform io cosDeg c t deg = .ok c') : c'.surfaces = c.surfaces := by
  unfold setUniverseTransform at h
  split at h
  · cases h; rfl
  · dsimp only at h
    split at h
    · split at h
      · obtain ⟨xs, h1, h2⟩ := bind_ok h
        cases h2; rfl
      · cases h; rfl
    · cases h; rfl
  · cases h; rfl

theorem readKeywords_surfaces {io : NumIO K} {cosDeg : K → K} {c c' : Cell K} {s : Str} {a b d m : Int} {deg : Bool}
    (h : readKeywords io cosDeg c s a b d deg m = .ok c') : c'.surfaces = c.surfaces := by
  unfold readKeywords at h
  obtain ⟨u, h1, h⟩ := bind_ok h
  obtain ⟨c1, h2, h⟩ := bind_ok h
  obtain ⟨i, h3, h⟩ := bind_ok h
  cases h
  show c1.surfaces = _
  split at h2
  · cases h2; rfl
  · obtain ⟨f, h4, h2⟩ := bind_ok h2
    have := setUniverseTransform_surfaces h2
    exact this

/-- What the keyword search does with a parameter part. -/
theorem detectKeywords_eq (io : NumIO K) (cosDeg : K → K) (c : Cell K) (pre params : Str) (hpre : pre ≠ [])
    (hl : ∀ x ∈ pre, x ∉ ['u', 'f', 'i', 'v', 't', '*', '$'])
    (hp : ∃ w ∈ parameterWords, ∃ rest, params = w ++ rest) (hd : '$' ∉ params)
    (hf : ∀ a b, params = a ++ c!"fill" ++ b → ∀ a' b', params = a' ++ c!"*fill" ++ b' → a = a' ++ c!"*") :
    detectKeywords io cosDeg c (pre ++ params) = (do
      let d ← readKeywords io cosDeg c (pre ++ params) (findChar 'u' (pre ++ params))
        (if decide (¬ findStr c!"*fill" (pre ++ params) = -1) = true then findStr c!"fill" (pre ++ params) - 1 else findStr c!"fill" (pre ++ params))
        (findStr c!"imp" (pre ++ params)) (decide (¬ findStr c!"*fill" (pre ++ params) = -1)) (pre.length : Int)
      .ok (d, pre)) := by
  have hl' : ∀ (w : Str) (x : Char), x ∈ ['u', 'f', 'i', 'v', 't', '*', '$'] → w.head? = some x → ∀ y ∈ pre, w.head? ≠ some y := by
    intro w x hx hw y hy e
    rw [hw] at e; cases e
    exact hl x hy hx
  have hpl : 0 < pre.length := List.length_pos_iff.2 hpre
  unfold detectKeywords
  obtain ⟨w, hw, rest, hwr⟩ := hp
  have hne : params ≠ [] := by
    intro e
    rw [e] at hwr
    simp only [parameterWords, List.mem_cons, List.not_mem_nil, or_false] at hw
    rcases hw with rfl | rfl | rfl | rfl | rfl | rfl <;> simp at hwr
  have hyes : ¬ ¬ cellKeywords.any (fun w => hasInfix w (pre ++ params)) = true := by
    rw [not_not, List.any_eq_true]
    have : ∃ k ∈ cellKeywords, ∃ a b, params = a ++ k ++ b := by
      simp only [parameterWords, List.mem_cons, List.not_mem_nil, or_false] at hw
      rcases hw with rfl | rfl | rfl | rfl | rfl | rfl
      · exact ⟨c!"imp", by simp [cellKeywords], [], rest, by simp [hwr]⟩
      · exact ⟨c!"u", by simp [cellKeywords], [], rest, by simp [hwr]⟩
      · exact ⟨c!"fill", by simp [cellKeywords], [], rest, by simp [hwr]⟩
      · exact ⟨c!"fill", by simp [cellKeywords], c!"*", rest, by simp [hwr]⟩
      · exact ⟨c!"vol", by simp [cellKeywords], [], rest, by simp [hwr]⟩
      · exact ⟨c!"tmp", by simp [cellKeywords], [], rest, by simp [hwr]⟩
    obtain ⟨k, hk, a, b, e⟩ := this
    exact ⟨k, hk, (hasInfix_iff _ _).2 ⟨pre ++ a, b, by simp [e]⟩⟩
  rw [if_neg hyes]
  have hdol : findChar '$' (pre ++ params) = -1 := by
    apply findChar_not_mem
    simp only [List.mem_append, not_or]
    exact ⟨fun hm => hl '$' hm (by simp), hd⟩
  dsimp only
  simp only [hdol, ne_eq, not_true_eq_false, if_false]
  -- the first position
  have hu := @findStr_bound c!"u" pre params (by simp) (hl' _ 'u' (by simp) rfl)
  have hfi := @findStr_bound c!"fill" pre params (by simp) (hl' _ 'f' (by simp) rfl)
  have hi := @findStr_bound c!"imp" pre params (by simp) (hl' _ 'i' (by simp) rfl)
  have hv := @findStr_bound c!"vol" pre params (by simp) (hl' _ 'v' (by simp) rfl)
  have ht := @findStr_bound c!"tmp" pre params (by simp) (hl' _ 't' (by simp) rfl)
  have start : ∀ (k : Str) (x : Char), x ∈ ['u', 'f', 'i', 'v', 't', '*', '$'] → k.head? = some x →
      ∀ a b, params = a ++ k ++ b → findStr k (pre ++ params) ≤ pre.length + a.length ∧ 0 ≤ findStr k (pre ++ params) := by
    intro k x hx hk a b e
    have h1 : findStr k (pre ++ params) ≤ (pre ++ a).length := by
      have := @findStr_le k (pre ++ a) b
      rwa [show pre ++ a ++ k ++ b = pre ++ params by simp [e]] at this
    refine ⟨by simpa using h1, ?_⟩
    by_contra hneg
    exact findStr_neg (w := k) (s := pre ++ params) (by omega) (pre ++ a) b (by simp [e])
  generalize hF : (if decide (¬ findStr c!"*fill" (pre ++ params) = -1) = true then findStr c!"fill" (pre ++ params) - 1
      else findStr c!"fill" (pre ++ params)) = posf
  have hFb : 0 < posf → (pre.length : Int) ≤ posf := by
    intro hpos
    by_cases hdeg : findStr c!"*fill" (pre ++ params) = -1
    · simp [hdeg] at hF
      subst hF; exact hfi hpos
    · simp [hdeg] at hF
      subst hF
      have h0 := findStr_ge c!"*fill" (pre ++ params)
      have e1 := findStr_append (w := c!"*fill") (s := params) (by simp) (hl' _ '*' (by simp) rfl)
      have e2 := findStr_append (w := c!"fill") (s := params) (by simp) (hl' _ 'f' (by simp) rfl)
      by_cases h1 : 0 ≤ findStr c!"*fill" params
      · obtain ⟨a', b', ea, _⟩ := findStr_nonneg h1
        by_cases h2 : 0 ≤ findStr c!"fill" params
        · obtain ⟨a, b, eb, hlen⟩ := findStr_nonneg h2
          have := hf a b eb a' b' ea
          rw [if_pos h2] at e2
          have hl2 : 1 ≤ a.length := by rw [this]; simp
          omega
        · rw [if_neg h2] at e2; omega
      · rw [if_neg h1] at e1; omega
  have hex : ((pre.length : Int) = findChar 'u' (pre ++ params) ∨ (pre.length : Int) = posf ∨
      (pre.length : Int) = findStr c!"imp" (pre ++ params) ∨ (pre.length : Int) = findStr c!"vol" (pre ++ params) ∨
      (pre.length : Int) = findStr c!"tmp" (pre ++ params)) := by
    rw [findChar_eq]
    simp only [parameterWords, List.mem_cons, List.not_mem_nil, or_false] at hw
    have at0 : ∀ (k : Str) (x : Char), x ∈ ['u', 'f', 'i', 'v', 't', '*', '$'] → k.head? = some x → k ≠ [] →
        params = k ++ rest → (pre.length : Int) = findStr k (pre ++ params) := by
      intro k x hx hk hkn e
      have h1 := start k x hx hk [] rest (by simpa using e)
      have h2 := @findStr_append k pre params hkn (hl' _ x hx hk)
      simp at h1
      split at h2 <;> omega
    rcases hw with rfl | rfl | rfl | rfl | rfl | rfl
    · exact Or.inr (Or.inr (Or.inl (at0 _ 'i' (by simp) rfl (by simp) hwr)))
    · exact Or.inl (at0 _ 'u' (by simp) rfl (by simp) hwr)
    · have e := at0 _ 'f' (by simp) rfl (by simp) hwr
      have hdeg : findStr c!"*fill" (pre ++ params) = -1 := by
        have e1 := findStr_append (w := c!"*fill") (s := params) (by simp) (hl' _ '*' (by simp) rfl)
        by_cases h1 : 0 ≤ findStr c!"*fill" params
        · obtain ⟨a', b', ea, _⟩ := findStr_nonneg h1
          have := hf [] rest (by simpa using hwr) a' b' ea
          simp at this
        · rw [if_neg h1] at e1; exact e1
      simp [hdeg] at hF
      subst hF
      exact Or.inr (Or.inl e)
    · have e := at0 _ '*' (by simp) rfl (by simp) hwr
      have hdeg : ¬ findStr c!"*fill" (pre ++ params) = -1 := by omega
      simp [hdeg] at hF
      subst hF
      have h1 := start c!"fill" 'f' (by simp) rfl c!"*" rest (by simpa using hwr)
      refine Or.inr (Or.inl ?_)
      have := hFb (by
        have h2 := findStr_append (w := c!"fill") (s := params) (by simp) (hl' _ 'f' (by simp) rfl)
        by_cases h3 : 0 ≤ findStr c!"fill" params
        · rw [if_pos h3] at h2
          obtain ⟨a, b, eb, hlen⟩ := findStr_nonneg h3
          have := hf a b eb [] rest (by simpa using hwr)
          have hl2 : a.length = 1 := by rw [this]; simp
          omega
        · rw [if_neg h3] at h2; omega)
      simp at h1
      omega
    · exact Or.inr (Or.inr (Or.inr (Or.inl (at0 _ 'v' (by simp) rfl (by simp) hwr))))
    · exact Or.inr (Or.inr (Or.inr (Or.inr (at0 _ 't' (by simp) rfl (by simp) hwr))))
  rw [if_neg (by rintro ⟨h1, h2, h3, h4, h5⟩; omega)]
  have hmin : ([findChar 'u' (pre ++ params), posf, findStr c!"imp" (pre ++ params), findStr c!"vol" (pre ++ params),
      findStr c!"tmp" (pre ++ params)].filter fun i => decide (0 < i)).min? = some (pre.length : Int) := by
    apply min?_eq
    · rw [List.mem_filter]
      refine ⟨by simpa using hex, by simpa using hpl⟩
    · intro x hx
      rw [List.mem_filter] at hx
      obtain ⟨hx, hpos⟩ := hx
      have hpos : 0 < x := by simpa using hpos
      simp only [List.mem_cons, List.not_mem_nil, or_false] at hx
      rw [findChar_eq] at hx
      rcases hx with rfl | rfl | rfl | rfl | rfl
      · exact hu hpos
      · exact hFb hpos
      · exact hi hpos
      · exact hv hpos
      · exact ht hpos
  simp only [hmin]
  have hcut : sliceTo (pre ++ params) (pre.length : Int) = pre := by
    simp [sliceTo]
  rw [hcut]

/-- What the keyword search cuts off. -/
theorem detectKeywords_cut (io : NumIO K) (cosDeg : K → K) (c c' : Cell K) (pre params string : Str) (hpre : pre ≠ [])
    (hl : ∀ x ∈ pre, x ∉ ['u', 'f', 'i', 'v', 't', '*', '$'])
    (hp : params = [] ∨ ∃ w ∈ parameterWords, ∃ rest, params = w ++ rest) (hd : '$' ∉ params)
    (hf : ∀ a b, params = a ++ c!"fill" ++ b → ∀ a' b', params = a' ++ c!"*fill" ++ b' → a = a' ++ c!"*")
    (h : detectKeywords io cosDeg c (pre ++ params) = .ok (c', string)) :
    string = pre ∧ c'.surfaces = c.surfaces ∧ (params = [] → c' = c) := by
  have hl' : ∀ (w : Str) (x : Char), x ∈ ['u', 'f', 'i', 'v', 't', '*', '$'] → w.head? = some x → ∀ y ∈ pre, w.head? ≠ some y := by
    intro w x hx hw y hy e
    rw [hw] at e; cases e
    exact hl x hy hx
  rcases hp with rfl | ⟨w, hw, rest, hwr⟩
  · -- no parameters
    unfold detectKeywords at h
    have hno : ¬ cellKeywords.any (fun w => hasInfix w (pre ++ [])) = true := by
      simp only [List.append_nil, List.any_eq_true, not_exists, not_and]
      intro w hw hi
      obtain ⟨a, b, e⟩ := (hasInfix_iff w pre).1 hi
      have : ∃ x, x ∈ ['u', 'f', 'i', 'v', 't', '*', '$'] ∧ x ∈ w := by
        simp only [cellKeywords, List.mem_cons, List.not_mem_nil, or_false] at hw
        rcases hw with rfl | rfl | rfl | rfl | rfl
        · exact ⟨'i', by simp, by simp⟩
        · exact ⟨'u', by simp, by simp⟩
        · exact ⟨'f', by simp, by simp⟩
        · exact ⟨'v', by simp, by simp⟩
        · exact ⟨'t', by simp, by simp⟩
      obtain ⟨x, hx, hxw⟩ := this
      exact hl x (by rw [e]; simp [hxw]) hx
    rw [if_pos hno] at h
    cases h
    exact ⟨by simp, rfl, fun _ => rfl⟩
  · have hne : params ≠ [] := by
      intro e
      rw [e] at hwr
      simp only [parameterWords, List.mem_cons, List.not_mem_nil, or_false] at hw
      rcases hw with rfl | rfl | rfl | rfl | rfl | rfl <;> simp at hwr
    rw [detectKeywords_eq io cosDeg c pre params hpre hl ⟨w, hw, rest, hwr⟩ hd hf] at h
    obtain ⟨d, hr, h⟩ := bind_ok h
    cases h
    exact ⟨rfl, readKeywords_surfaces hr, fun e => absurd e hne⟩

theorem expandText_id {s : Str} (h : ∀ c ∈ s, c ∉ ['(', ')', ':', '+']) : expandText s = s := by
  induction s with
  | nil => rfl
  | cons c s ih =>
    have hc := h c (by simp)
    simp only [List.mem_cons, List.not_mem_nil, or_false, not_or] at hc
    have e : expandText (c :: s) = expandText [c] ++ expandText s := expandText_append [c] s
    rw [e, ih fun d hd => h d (List.mem_cons_of_mem _ hd)]
    simp [expandText, replaceChar, hc]

/-- How the header of a card is laid out: number, material and, for a material that is not 0, density. -/
def HeaderOk (material : Str) (density : Option Str) : Prop :=
  (density = none ∧ ∀ m, parseInt material = some m → m ≤ 0) ∨ (∃ d, density = some d ∧ ∀ m, parseInt material = some m → 0 < m)

/-- The parts of an interpreted card. -/
theorem interpret_parts (io : NumIO K) (cosDeg : K → K) (c0 c : Cell K) (header geometry params number material : Str)
    (density : Option Str) (hh : split (expandText header) = number :: material :: density.toList)
    (hm : HeaderOk material density)
    (hl : ∀ x ∈ header ++ geometry, x ∉ ['u', 'f', 'i', 'v', 't', '*', '$'])
    (hp : params = [] ∨ ∃ w ∈ parameterWords, ∃ rest, params = w ++ rest) (hd : '$' ∉ params)
    (hf : ∀ a b, params = a ++ c!"fill" ++ b → ∀ a' b', params = a' ++ c!"*fill" ++ b' → a = a' ++ c!"*")
    (h : interpret io cosDeg c0 (header ++ ' ' :: (geometry ++ params)) = .ok c) :
    ∃ ns m, c.text = split (expandText geometry) ∧ generalise c.text = .ok (c.interpreted, ns) ∧ c.surfaces = c0.surfaces ++ ns ∧
      parseInt number = some c.id ∧ parseInt material = some m ∧
      (density = none → c.material = .int 0 ∧ c.density = 0) ∧
      (∀ d, density = some d → c.material = .int m ∧ fortranNumber io d = .ok c.density) ∧
      (params = [] → c.importance = c0.importance ∧ c.fill = c0.fill ∧ c.uni = c0.uni ∧ c.offset = c0.offset ∧
        c.rotation = c0.rotation ∧ c.trId = c0.trId) := by
  unfold interpret at h
  obtain ⟨⟨c1, string⟩, h1, h⟩ := bind_ok h
  have hcut := detectKeywords_cut io cosDeg c0 c1 (header ++ ' ' :: geometry) params string (by simp)
    (by
      intro x hx
      simp only [List.mem_append, List.mem_cons] at hx
      rcases hx with hx | rfl | hx
      · exact hl x (by simp [hx])
      · simp
      · exact hl x (by simp [hx]))
    hp hd hf (by simpa using h1)
  obtain ⟨rfl, hs, hc1⟩ := hcut
  dsimp only at h
  have htok : split (expandText (header ++ ' ' :: geometry)) = number :: material :: (density.toList ++ split (expandText geometry)) := by
    rw [expandText_append, show expandText (' ' :: geometry) = ' ' :: expandText geometry from by simp [expandText, replaceChar],
      split_append_space _ _ _ rfl, hh]
    rfl
  rw [htok] at h
  simp only [pyGet, List.getElem?_cons_zero, List.getElem?_cons_succ] at h
  obtain ⟨t0, ht0, h⟩ := bind_ok h
  cases ht0
  obtain ⟨id, hid, h⟩ := bind_ok h
  obtain ⟨t1, ht1, h⟩ := bind_ok h
  cases ht1
  obtain ⟨m, hmm, h⟩ := bind_ok h
  obtain ⟨c2, hc2, h⟩ := bind_ok h
  obtain ⟨⟨is, ns⟩, hg, h⟩ := bind_ok h
  cases h
  have hid' : parseInt number = some id := pyInt_ok.1 hid
  have hmm' : parseInt material = some m := pyInt_ok.1 hmm
  rcases hm with ⟨rfl, hm⟩ | ⟨d, rfl, hm⟩
  · rw [if_neg (by have := hm m hmm'; omega)] at hc2
    cases hc2
    refine ⟨ns, m, by simp, hg, by simp [hs], hid', hmm', by simp, by simp, ?_⟩
    intro hp
    rw [hc1 hp]
    simp
  · rw [if_pos (hm m hmm')] at hc2
    simp only [Option.toList, List.cons_append, List.getElem?_cons_zero] at hc2
    obtain ⟨t2, ht2, hc2⟩ := bind_ok hc2
    cases ht2
    obtain ⟨dv, hdv, hc2⟩ := bind_ok hc2
    cases hc2
    refine ⟨ns, m, by simp, hg, by simp [hs], hid', hmm', by simp, ?_, ?_⟩
    · rintro d' ⟨⟩
      exact ⟨rfl, hdv⟩
    · intro hp
      rw [hc1 hp]
      simp

end

end Csg
