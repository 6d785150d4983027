import Verif.Lemmas.CellText
import Verif.Lemmas.Update
import Verif.Spec.Parameters

/-!
# Finding keywords in the parameter part of a cell card
-/

namespace Csg

open Spec

/-! ## Texts in which a word cannot begin -/

/-- No suffix of `t` begins with `k` or can be continued to begin with `k`. -/
def Avoids (k t : Str) : Prop := ∀ a b, t = a ++ b → b ≠ [] → ¬ k <+: b ∧ ¬ b <+: k

theorem Avoids.append {k a b : Str} (ha : Avoids k a) (hb : Avoids k b) : Avoids k (a ++ b) := by
  intro x y e hy
  rcases List.append_eq_append_iff.1 e.symm with ⟨c, e1, e2⟩ | ⟨c, e1, e2⟩
  · by_cases hc : c = []
    · subst hc
      simp at e2
      exact hb [] y (by simpa using e2.symm) hy
    · obtain ⟨h1, h2⟩ := ha x c e1 hc
      subst e2
      refine ⟨fun h => ?_, fun h => h2 ((List.prefix_append _ _).trans h)⟩
      rcases List.prefix_or_prefix_of_prefix h (List.prefix_append c b) with h | h
      · exact h1 h
      · exact h2 h
  · exact hb c y e2 hy

theorem avoids_nil (k : Str) : Avoids k [] := by
  intro a b e hb
  simp at e
  exact absurd e.2 hb

theorem avoids_of_head {k t : Str} {x : Char} (hk : k.head? = some x) (h : x ∉ t) : Avoids k t := by
  intro a b e hb
  obtain ⟨y, b, rfl⟩ := List.exists_cons_of_ne_nil hb
  cases k with
  | nil => simp at hk
  | cons z k =>
    simp at hk
    subst hk
    have hy : z ≠ y := fun e' => h (by rw [e, ← e']; simp)
    refine ⟨fun h => hy ?_, fun h => hy ?_⟩
    · exact (List.cons_prefix_cons.1 h).1
    · exact (List.cons_prefix_cons.1 h).1.symm

theorem avoids_imp_fill (k : Str) : Avoids (c!"im" ++ k) c!"fill" := by
  have : Avoids (c!"im" ++ k) c!"f" := avoids_of_head (x := 'i') rfl (by decide)
  have h2 : Avoids (c!"im" ++ k) c!"il" := by
    intro a b e hb
    match a, e with
    | [], e =>
      simp at e; subst e
      constructor
      · rintro ⟨t, ht⟩; simp at ht
      · rintro ⟨t, ht⟩; simp at ht
    | [_], e =>
      simp at e
      obtain ⟨_, rfl⟩ := e
      constructor
      · rintro ⟨t, ht⟩; simp at ht
      · rintro ⟨t, ht⟩; simp at ht
    | [_, _], e => simp at e; exact absurd e.2.2 hb
    | _ :: _ :: _ :: _, e => simp at e
  have h3 : Avoids (c!"im" ++ k) c!"l" := avoids_of_head (x := 'i') rfl (by decide)
  exact (this.append h2).append h3

theorem findStr_avoid {k t s : Str} (h : Avoids k t) : findStr k (t ++ s) = if 0 ≤ findStr k s then findStr k s + t.length else -1 := by
  induction t with
  | nil =>
    have := findStr_ge k s
    simp only [List.nil_append, List.length_nil]
    split
    · simp
    · omega
  | cons c t ih =>
    have ih := ih (fun a b e hb => h (c :: a) b (by simp [e]) hb)
    have hn : ¬ k.isPrefixOf (c :: (t ++ s)) = true := by
      rw [List.isPrefixOf_iff_prefix]
      intro hp
      obtain ⟨h1, h2⟩ := h [] (c :: t) rfl (by simp)
      rcases List.prefix_or_prefix_of_prefix hp (List.prefix_append (c :: t) s) with h | h
      · exact h1 h
      · exact h2 h
    simp only [List.cons_append, findStr, if_neg hn]
    rw [ih]
    by_cases hr : 0 ≤ findStr k s
    · simp only [hr, if_true]
      rw [if_pos (by omega)]
      simp; omega
    · simp only [hr, if_false]; simp

theorem matchKeyword_none {kw s : Str} (h : ¬ kw <+: s) : matchKeyword kw s = none := by
  unfold matchKeyword
  rw [if_neg]
  rwa [List.isPrefixOf_iff_prefix]

theorem searchKeyword_avoid {k t s : Str} (h : Avoids k t) : searchKeyword k (t ++ s) = searchKeyword k s := by
  induction t with
  | nil => rfl
  | cons c t ih =>
    have ih := ih (fun a b e hb => h (c :: a) b (by simp [e]) hb)
    have hn : ¬ k <+: (c :: (t ++ s)) := by
      intro hp
      obtain ⟨h1, h2⟩ := h [] (c :: t) rfl (by simp)
      rcases List.prefix_or_prefix_of_prefix hp (List.prefix_append (c :: t) s) with h | h
      · exact h1 h
      · exact h2 h
    rw [List.cons_append, searchKeyword, matchKeyword_none hn]
    exact ih

theorem searchKeyword_here {k s r : Str} (h : matchKeyword k s = some r) : searchKeyword k s = some r := by
  cases s with
  | nil => exact h
  | cons c s => rw [searchKeyword, h]

/-! ## Spacing equals signs -/

theorem squeezePairs_right {c : Char} : ∀ {x y : Str}, (∀ z, y.head? = some z → z ≠ c) → squeezePairs c (x ++ y) = squeezePairs c x ++ squeezePairs c y
  | [], y, _ => rfl
  | [a], [], _ => by simp [squeezePairs]
  | [a], b :: y, h => by
    have hb : b ≠ c := h b rfl
    simp [squeezePairs, hb]
  | a :: b :: x, y, h => by
    simp only [List.cons_append, squeezePairs]
    by_cases hab : a = c ∧ b = c
    · rw [if_pos hab, if_pos hab, squeezePairs_right (x := x) h]; rfl
    · rw [if_neg hab, if_neg hab, ← List.cons_append, squeezePairs_right (x := b :: x) h]; rfl

theorem squeezePairs_left {c z : Char} (hz : z ≠ c) : ∀ {x y : Str}, squeezePairs c (x ++ z :: y) = squeezePairs c (x ++ [z]) ++ squeezePairs c y
  | [], [] => by simp [squeezePairs]
  | [], b :: y => by simp [squeezePairs, hz]
  | [a], y => by
    have e := squeezePairs_left hz (x := []) (y := y)
    simp only [List.nil_append] at e
    simp only [List.cons_append, List.nil_append, squeezePairs]
    rw [if_neg (by rintro ⟨_, h⟩; exact hz h), if_neg (by rintro ⟨_, h⟩; exact hz h), e]
    simp [squeezePairs]
  | a :: b :: x, y => by
    simp only [List.cons_append, squeezePairs]
    by_cases hab : a = c ∧ b = c
    · rw [if_pos hab, if_pos hab, squeezePairs_left hz (x := x)]; rfl
    · rw [if_neg hab, if_neg hab, ← List.cons_append, squeezePairs_left hz (x := b :: x)]; rfl

theorem squeezePairs_chars {c : Char} : ∀ {x : Str}, ∀ z ∈ squeezePairs c x, z ∈ x
  | [], z, h => by simp [squeezePairs] at h
  | [a], z, h => by simpa [squeezePairs] using h
  | a :: b :: x, z, h => by
    rw [squeezePairs] at h
    split at h
    · rename_i hab
      rcases List.mem_cons.1 h with rfl | h
      · simp [hab.1]
      · have := squeezePairs_chars z h; simp [this]
    · rcases List.mem_cons.1 h with rfl | h
      · simp
      · have := squeezePairs_chars (x := b :: x) z h; exact List.mem_cons_of_mem _ this

/-- Lines 256-258 of `__detect_keywords`. -/
def spaceEquals (s : Str) : Str := squeezePairs ' ' (replaceChar '=' c!"= " (replaceChar '=' c!" =" s))

theorem replaceChar_append (c : Char) (w a b : Str) : replaceChar c w (a ++ b) = replaceChar c w a ++ replaceChar c w b := by simp [replaceChar]

theorem spaceEquals_chars {s : Str} : ∀ z ∈ spaceEquals s, z ∈ s ∨ z = ' ' := by
  intro z hz
  have := squeezePairs_chars z hz
  simp only [replaceChar, List.mem_flatMap] at this
  obtain ⟨a, ⟨b, hb, ha⟩, hza⟩ := this
  split at ha
  · rename_i hbe
    simp at ha
    rcases ha with rfl | rfl
    · simp at hza; exact Or.inr hza
    · simp at hza
      rcases hza with rfl | rfl
      · exact Or.inl (hbe ▸ hb)
      · exact Or.inr rfl
  · simp at ha
    subst ha
    split at hza
    · rename_i h1 h2; exact absurd h2 h1
    · simp at hza; subst hza; exact Or.inl hb

theorem spaceEquals_right {x y : Str} (h : ∀ z, y.head? = some z → z ≠ ' ' ∧ z ≠ '=') : spaceEquals (x ++ y) = spaceEquals x ++ spaceEquals y := by
  unfold spaceEquals
  rw [replaceChar_append, replaceChar_append]
  apply squeezePairs_right
  intro z hz
  cases y with
  | nil => simp [replaceChar] at hz
  | cons a y =>
    obtain ⟨h1, h2⟩ := h a rfl
    simp [replaceChar, h2] at hz
    rw [← hz]; exact h1

theorem spaceEquals_left {x y : Str} {z : Char} (h1 : z ≠ ' ') (h2 : z ≠ '=') : spaceEquals (x ++ z :: y) = spaceEquals (x ++ [z]) ++ spaceEquals y := by
  unfold spaceEquals
  have e : ∀ y : Str, replaceChar '=' c!"= " (replaceChar '=' c!" =" (x ++ z :: y)) =
      replaceChar '=' c!"= " (replaceChar '=' c!" =" x) ++ z :: replaceChar '=' c!"= " (replaceChar '=' c!" =" y) := by
    intro y
    rw [replaceChar_append, replaceChar_append]
    simp [replaceChar, h2]
  rw [e y, e [], squeezePairs_left h1]
  simp [replaceChar]

theorem spaceEquals_plain {s : Str} (h1 : ' ' ∉ s) (h2 : '=' ∉ s) : spaceEquals s = s := by
  unfold spaceEquals
  rw [replaceChar_not_mem _ _ _ h2, replaceChar_not_mem _ _ _ h2]
  induction s with
  | nil => rfl
  | cons a s ih =>
    have ih := ih (fun h => h1 (by simp [h])) (fun h => h2 (by simp [h]))
    cases s with
    | nil => rfl
    | cons b s =>
      rw [squeezePairs, if_neg, ih]
      rintro ⟨rfl, _⟩
      exact h1 (by simp)

/-- Around an equals sign. -/
theorem spaceEquals_sign {k v eq : Str} (hk : k ≠ []) (hk1 : ' ' ∉ k) (hk2 : '=' ∉ k) (he : EqualsSign eq) (hv : ∀ z, v.head? = some z → z ≠ ' ' ∧ z ≠ '=') :
    spaceEquals (k ++ eq ++ v) = k ++ c!" = " ++ spaceEquals v := by
  rw [spaceEquals_right hv]
  congr 1
  obtain ⟨k', z, rfl⟩ : ∃ k' z, k = k' ++ [z] := ⟨k.dropLast, k.getLast hk, (List.dropLast_append_getLast hk).symm⟩
  have hz1 : z ≠ ' ' := fun e => hk1 (by simp [e])
  have hz2 : z ≠ '=' := fun e => hk2 (by simp [e])
  have e : k' ++ [z] ++ eq = k' ++ z :: eq := by simp
  rw [e, spaceEquals_left hz1 hz2, spaceEquals_plain hk1 hk2]
  congr 1
  rcases he with rfl | rfl | rfl | rfl <;> decide

/-! ## Numbers -/

theorem plainNumber_chars {v : Str} (h : PlainNumber v) : v ≠ [] ∧ ∀ c ∈ v, NumberChar c := by
  have sign : ∀ sg ∈ [[], c!"+", c!"-"], ∀ c ∈ sg, NumberChar c := by
    intro sg hs c hc
    simp only [List.mem_cons, List.not_mem_nil, or_false] at hs
    rcases hs with rfl | rfl | rfl
    · simp at hc
    · simp at hc; subst hc; exact Or.inr (Or.inl rfl)
    · simp at hc; subst hc; exact Or.inr (Or.inr (Or.inl rfl))
  cases h with
  | whole sg a hs ha hd =>
    refine ⟨by simp [ha], fun c hc => ?_⟩
    rcases List.mem_append.1 hc with hc | hc
    · exact sign sg hs c hc
    · exact Or.inl (hd c hc)
  | point sg a b hs ha hd hb hdb =>
    refine ⟨by simp, fun c hc => ?_⟩
    simp only [List.mem_append, List.mem_cons] at hc
    rcases hc with (hc | hc) | rfl | hc
    · exact sign sg hs c hc
    · exact Or.inl (hd c hc)
    · exact Or.inr (Or.inr (Or.inr (Or.inl rfl)))
    · exact Or.inl (hdb c hc)

theorem numberChar_not {c x : Char} (h : NumberChar c) (hx : isDigit x = false ∧ x ≠ '+' ∧ x ≠ '-' ∧ x ≠ '.' ∧ x ≠ 'e' := by decide) : c ≠ x := by
  rintro rfl
  rcases h with h | h | h | h | h
  · rw [hx.1] at h; cases h
  · exact hx.2.1 h
  · exact hx.2.2.1 h
  · exact hx.2.2.2.1 h
  · exact hx.2.2.2.2 h

theorem spanDigits_append {a s : Str} (ha : ∀ c ∈ a, isDigit c = true) (hs : ∀ c, s.head? = some c → isDigit c = false) : spanDigits (a ++ s) = (a, s) := by
  unfold spanDigits
  rw [List.takeWhile_append_of_pos ha, List.dropWhile_append_of_pos ha]
  cases s with
  | nil => simp
  | cons c s =>
    have := hs c rfl
    simp [this]

private def afterSign (sg s : Str) : Str :=
  let (a, s) := spanDigits s
  match s with
  | '.' :: t =>
    let (b, _) := spanDigits t
    if b = [] then sg ++ a else sg ++ a ++ '.' :: b
  | _ => sg ++ a

private def signOf (s : Str) : Str × Str :=
  match s with
  | '+' :: t => (c!"+", t)
  | '-' :: t => (c!"-", t)
  | t => ([], t)

private theorem matchNumber_sign {sg a : Str} (s : Str) (ha : a ≠ []) (hda : ∀ c ∈ a, isDigit c = true) (hs : sg ∈ [[], c!"+", c!"-"]) :
    matchNumber (sg ++ a ++ s) = afterSign sg (a ++ s) := by
  simp only [List.mem_cons, List.not_mem_nil, or_false] at hs
  rcases hs with rfl | rfl | rfl
  · obtain ⟨c, a, rfl⟩ := List.exists_cons_of_ne_nil ha
    have hc := hda c (by simp)
    have h1 : c ≠ '+' := by rintro rfl; exact absurd hc (by decide)
    have h2 : c ≠ '-' := by rintro rfl; exact absurd hc (by decide)
    have e : signOf ([] ++ c :: a ++ s) = ([], c :: a ++ s) := by
      unfold signOf
      simp only [List.nil_append, List.cons_append]
      split
      · rename_i t e'; simp at e'; exact absurd e'.1 h1
      · rename_i t e'; simp at e'; exact absurd e'.1 h2
      · rfl
    have e2 : ∀ x, matchNumber x = afterSign (signOf x).1 (signOf x).2 := fun x => rfl
    rw [e2, e]
  · rfl
  · rfl

theorem matchNumber_plain {v rest : Str} (h : PlainNumber v) (hr : ∀ c, rest.head? = some c → isDigit c = false ∧ c ≠ '.') : matchNumber (v ++ rest) = v := by
  have hd : ∀ c, rest.head? = some c → isDigit c = false := fun c hc => (hr c hc).1
  cases h with
  | whole sg a hs ha hda =>
    rw [matchNumber_sign rest ha hda hs]
    unfold afterSign
    simp only [spanDigits_append hda hd]
    cases rest with
    | nil => rfl
    | cons c rest =>
      have := (hr c rfl).2
      split
      · rename_i t e; simp at e; exact absurd e.1 this
      · rfl
  | point sg a b hs ha hda hb hdb =>
    have e : sg ++ a ++ '.' :: b ++ rest = sg ++ a ++ ('.' :: (b ++ rest)) := by simp
    rw [e, matchNumber_sign _ ha hda hs]
    unfold afterSign
    simp only [spanDigits_append hda (s := '.' :: (b ++ rest)) (by intro c hc; simp at hc; subst hc; decide), spanDigits_append hdb hd, if_neg hb]

/-- The value of a keyword whose parameter is found. -/
theorem matchKeyword_value {kw v rest : Str} (h : PlainNumber v) (hr : ∀ c, rest.head? = some c → isDigit c = false ∧ c ≠ '.') :
    matchKeyword kw (kw ++ c!" = " ++ v ++ rest) = some (kw ++ c!" = " ++ v) := by
  obtain ⟨hne, hch⟩ := plainNumber_chars h
  have e : kw ++ c!" = " ++ v ++ rest = kw ++ (' ' :: '=' :: ' ' :: (v ++ rest)) := by simp
  have hm := matchNumber_plain h hr
  obtain ⟨c, v, rfl⟩ := List.exists_cons_of_ne_nil hne
  have hn : c ≠ '\n' := numberChar_not (hch c (by simp))
  rw [e]
  unfold matchKeyword
  rw [if_pos (by rw [List.isPrefixOf_iff_prefix]; exact List.prefix_append _ _), List.drop_left]
  simp only [List.cons_append] at hm ⊢
  rw [if_pos hn, hm]
  simp

theorem keywordValue_found {kw v s t rest : Str} (hk : ' ' ∉ kw) (h : PlainNumber v) (hr : ∀ c, rest.head? = some c → isDigit c = false ∧ c ≠ '.')
    (ht : Avoids kw t) (e : s = t ++ (kw ++ c!" = " ++ v ++ rest)) : keywordValue kw s = .ok v := by
  have hv : ' ' ∉ v := fun hm => numberChar_not (x := ' ') ((plainNumber_chars h).2 _ hm) (by decide) rfl
  unfold keywordValue
  rw [e, searchKeyword_avoid ht, searchKeyword_here (matchKeyword_value h hr)]
  have e2 : kw ++ c!" = " ++ v = kw ++ ' ' :: (c!"=" ++ ' ' :: v) := by simp
  simp only [e2]
  rw [splitOnChar_append _ _ _ hk, splitOnChar_append _ _ _ (by decide), splitOnChar_not_mem _ _ hv]
  rfl

end Csg
