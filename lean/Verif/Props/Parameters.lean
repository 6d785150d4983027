import Verif.Lemmas.ParamList
import Verif.Spec.Sample

/-!
# Parameters of cell cards: C70
-/

namespace Csg

open Spec

section
variable {K : Type} [Field K]

private theorem plain_of {q : Param} {t : Str} (h : ParamText q t) (hk : q.kind = 0 ∨ q.kind = 1 ∨ q.kind = 2) : PlainNumber (paramValue q) := by
  cases h <;> first | assumption | (simp [Param.kind] at hk)

private theorem letter_not_mem {q : Param} {t : Str} (h : ParamText q t) {x : Char} (hx : KeyLetter x) (hk : x ∉ paramKey q) : x ∉ t := by
  obtain ⟨eq, y, rfl, he, hne, hv, hy⟩ := paramText_form h
  simp only [List.mem_append, not_or]
  exact ⟨⟨hk, equals_not_key he hx⟩, fun hm => numberChar_not_key (hv _ hm) hx rfl, paramEnd_not_key hy hx⟩

private theorem letter_not_mem_list {l : List PEntry} (h : ∀ e ∈ l, ParamText e.1 e.2.1 ∧ ∀ c ∈ e.2.2, isSpace c = true) {x : Char} (hx : KeyLetter x)
    (hk : ∀ e ∈ l, x ∉ paramKey e.1) : x ∉ paramListText l := by
  intro hm
  obtain ⟨e, he, hm⟩ := List.mem_flatMap.1 hm
  rcases List.mem_append.1 hm with hm | hm
  · exact letter_not_mem (h e he).1 hx (hk e he) hm
  · exact spaces_not_key (h e he).2 hx hm

private theorem f_not_mem {l : List PEntry} (h : ∀ e ∈ l, ParamText e.1 e.2.1 ∧ ∀ c ∈ e.2.2, isSpace c = true) (hk : ∀ e ∈ l, e.1.kind ≠ 1) {x : Char} (hx : x = 'f' ∨ x = '*') :
    x ∉ paramListText l := by
  refine letter_not_mem_list h (by rcases hx with rfl | rfl <;> decide) fun e he => ?_
  have := hk e he
  rcases hx with rfl | rfl <;> cases hq : e.1 with
    | fill d v tr => exact absurd (by rw [hq]; rfl) this
    | _ => simp [paramKey]

private theorem avoids_pre {pre : Str} (hl : ∀ x ∈ pre, x ∉ ['u', 'f', 'i', 'v', 't', '*', '$']) {k : Str} {n : Nat} (hk : (k, n) ∈ searched) : Avoids k pre := by
  simp only [searched, List.mem_cons, List.not_mem_nil, or_false, Prod.mk.injEq] at hk
  rcases hk with ⟨rfl, rfl⟩ | ⟨rfl, rfl⟩ | ⟨rfl, rfl⟩ | ⟨rfl, rfl⟩ | ⟨rfl, rfl⟩
  · exact avoids_of_head (x := 'u') rfl fun hm => hl _ hm (by simp)
  · exact avoids_of_head (x := 'f') rfl fun hm => hl _ hm (by simp)
  · exact avoids_of_head (x := '*') rfl fun hm => hl _ hm (by simp)
  · exact avoids_of_head (x := 'i') rfl fun hm => hl _ hm (by simp)
  · exact avoids_of_head (x := 'i') rfl fun hm => hl _ hm (by simp)

private theorem searched_ne {k : Str} {n : Nat} (hk : (k, n) ∈ searched) : k ≠ [] := by
  obtain ⟨x, hx, _⟩ := searched_head hk
  rintro rfl
  simp at hx

private theorem pos_none {pre : Str} (hl : ∀ x ∈ pre, x ∉ ['u', 'f', 'i', 'v', 't', '*', '$']) {l : List PEntry} (h : IsParamList l) {k : Str} {n : Nat} (hk : (k, n) ∈ searched)
    (hn : ∀ e ∈ l, e.1.kind ≠ n) : findStr k (pre ++ paramListText l) = -1 :=
  findStr_none (searched_ne hk) (avoids_pre hl hk) (avoids_list hk h.texts hn)

private theorem pos_some {pre : Str} {l : List PEntry} (h : IsParamList l) {k star more : Str} {q : Param} (hq : q ∈ l.map Prod.fst) (hkey : paramKey q = star ++ k ++ more) :
    findStr k (pre ++ paramListText l) ≠ -1 := by
  intro hn
  obtain ⟨l1, e, l2, rfl, rfl, _, _⟩ := paramList_split h hq
  obtain ⟨eq, x, e1, _⟩ := paramText_form (h.texts e (by simp)).1
  refine findStr_neg (w := k) (s := pre ++ paramListText (l1 ++ e :: l2)) (by omega) (pre ++ paramListText l1 ++ star) (more ++ eq ++ (paramValue e.1 ++ x) ++ e.2.2 ++ paramListText l2) ?_
  rw [paramListText_append]
  have : paramListText (e :: l2) = e.2.1 ++ e.2.2 ++ paramListText l2 := by simp [paramListText]
  rw [this, e1, hkey]
  simp

/-- Keyword and value of the universe. -/
private theorem universe_value {pre : Str} (hl : ∀ x ∈ pre, x ∉ ['u', 'f', 'i', 'v', 't', '*', '$']) {l : List PEntry} (h : IsParamList l) :
    ∃ o, (if findChar 'u' (pre ++ paramListText l) = -1 then .ok none else (keywordValue c!"u" (spaceEquals (paramListText l) ++ c!" ")).map some : Py (Option Str)) = .ok o ∧
      ∀ v, o = some v ↔ .uni v ∈ l.map Prod.fst := by
  rw [findChar_eq]
  by_cases hex : ∃ v, .uni v ∈ l.map Prod.fst
  · obtain ⟨v, hv⟩ := hex
    rw [if_neg (pos_some (k := c!"u") (star := []) (more := []) h hv rfl)]
    obtain ⟨e, he, hev⟩ := List.mem_map.1 hv
    have hp := plain_of (h.texts e he).1 (Or.inl (by rw [hev]; rfl))
    rw [hev] at hp
    rw [keywordValue_param (q := .uni v) h (by simp [searched, Param.kind]) (by decide) hv hp (star := []) rfl (avoids_nil _)]
    refine ⟨some v, rfl, fun w => ⟨fun e => by cases e; exact hv, fun hw => ?_⟩⟩
    obtain ⟨l1, e, l2, rfl, he, hn, _⟩ := paramList_split h hv
    obtain ⟨e', he', hw'⟩ := List.mem_map.1 hw
    rcases List.mem_append.1 he' with h1 | h1
    · exact absurd (by rw [hw']; rfl) (hn e' (by simp [h1]))
    · rcases List.mem_cons.1 h1 with rfl | h1
      · rw [he] at hw'; cases hw'; rfl
      · exact absurd (by rw [hw']; rfl) (hn e' (by simp [h1]))
  · rw [if_pos]
    · exact ⟨none, rfl, fun v => ⟨nofun, fun hv => absurd ⟨v, hv⟩ hex⟩⟩
    · refine pos_none hl h (n := 0) (by decide) fun e he hk => hex ?_
      cases hq : e.1 with
      | uni v => exact ⟨v, hq ▸ List.mem_map_of_mem he⟩
      | _ => rw [hq] at hk; simp [Param.kind] at hk

/-- Keyword and value of the importance. -/
private theorem importance_value (io : NumIO K) {pre : Str} (hl : ∀ x ∈ pre, x ∉ ['u', 'f', 'i', 'v', 't', '*', '$']) {l : List PEntry} (h : IsParamList l)
    (hfl : ∀ v, .importance v ∈ l.map Prod.fst → ∃ x, io.float v = .ok x) :
    ∃ x, (if findStr c!"imp" (pre ++ paramListText l) = -1 then .ok 1
      else do
        let v ← keywordValue c!"imp:n" (spaceEquals (paramListText l) ++ c!" ")
        io.float v : Py K) = .ok x ∧ (∀ v, .importance v ∈ l.map Prod.fst → io.float v = .ok x) ∧ ((∀ v, .importance v ∉ l.map Prod.fst) → x = 1) := by
  by_cases hex : ∃ v, .importance v ∈ l.map Prod.fst
  · obtain ⟨v, hv⟩ := hex
    rw [if_neg (pos_some (k := c!"imp") (star := []) (more := c!":n") h hv rfl)]
    obtain ⟨e, he, hev⟩ := List.mem_map.1 hv
    have hp := plain_of (h.texts e he).1 (Or.inr (Or.inr (by rw [hev]; rfl)))
    rw [hev] at hp
    rw [keywordValue_param (q := .importance v) h (by simp [searched, Param.kind]) (by decide) hv hp (star := []) rfl (avoids_nil _)]
    obtain ⟨x, hx⟩ := hfl v hv
    refine ⟨x, hx, fun w hw => ?_, fun hno => absurd hv (hno v)⟩
    obtain ⟨l1, e, l2, rfl, he, hn, _⟩ := paramList_split h hv
    obtain ⟨e', he', hw'⟩ := List.mem_map.1 hw
    rcases List.mem_append.1 he' with h1 | h1
    · exact absurd (by rw [hw']; rfl) (hn e' (by simp [h1]))
    · rcases List.mem_cons.1 h1 with rfl | h1
      · rw [he] at hw'; cases hw'; exact hx
      · exact absurd (by rw [hw']; rfl) (hn e' (by simp [h1]))
  · rw [if_pos]
    · exact ⟨1, rfl, fun v hv => absurd ⟨v, hv⟩ hex, fun _ => rfl⟩
    · refine pos_none hl h (n := 2) (by decide) fun e he hk => hex ?_
      cases hq : e.1 with
      | importance v => exact ⟨v, hq ▸ List.mem_map_of_mem he⟩
      | _ => rw [hq] at hk; simp [Param.kind] at hk

/-- Position of the fill, and what stands from there on. -/
private theorem fill_position {pre : Str} (hl : ∀ x ∈ pre, x ∉ ['u', 'f', 'i', 'v', 't', '*', '$']) {l : List PEntry} (h : IsParamList l) {d : Bool} {v : Str} {tr : Option Str}
    (hq : .fill d v tr ∈ l.map Prod.fst) :
    ∃ l1 e l2, l = l1 ++ e :: l2 ∧ e.1 = .fill d v tr ∧ (∀ x ∈ l1 ++ l2, x.1.kind ≠ 1) ∧ decide (¬ findStr c!"*fill" (pre ++ paramListText l) = -1) = d ∧
      (if decide (¬ findStr c!"*fill" (pre ++ paramListText l) = -1) = true then findStr c!"fill" (pre ++ paramListText l) - 1
        else findStr c!"fill" (pre ++ paramListText l)) = ((pre ++ paramListText l1).length : Int) ∧
      sliceFrom (pre ++ paramListText l) ((pre ++ paramListText l1).length : Int) = e.2.1 ++ (e.2.2 ++ paramListText l2) := by
  obtain ⟨l1, e, l2, rfl, he, hn, _⟩ := paramList_split h hq
  refine ⟨l1, e, l2, rfl, he, hn, ?_⟩
  obtain ⟨eq, x, e1, heq, hne, hv, hx⟩ := paramText_form (h.texts e (by simp)).1
  have e2 : pre ++ paramListText (l1 ++ e :: l2) = (pre ++ paramListText l1) ++ (e.2.1 ++ (e.2.2 ++ paramListText l2)) := by
    simp [paramListText]
  have hl1 : ∀ y ∈ l1, ParamText y.1 y.2.1 ∧ ∀ c ∈ y.2.2, isSpace c = true := fun y hy => h.texts y (by simp [hy])
  have hl2 : ∀ y ∈ l2, ParamText y.1 y.2.1 ∧ ∀ c ∈ y.2.2, isSpace c = true := fun y hy => h.texts y (by simp [hy])
  have n1 : ∀ y ∈ l1, y.1.kind ≠ 1 := fun y hy => hn y (by simp [hy])
  have n2 : ∀ y ∈ l2, y.1.kind ≠ 1 := fun y hy => hn y (by simp [hy])
  have a1 : ∀ k, (k, 1) ∈ searched → Avoids k (pre ++ paramListText l1) := fun k hk => (avoids_pre hl hk).append (avoids_list hk hl1 n1)
  rw [e2]
  rw [he] at e1
  cases d with
  | true =>
    have t1 : e.2.1 = c!"*fill" ++ (eq ++ (v ++ x)) := by rw [e1]; simp [paramKey, paramValue]
    have p1 : findStr c!"*fill" ((pre ++ paramListText l1) ++ (e.2.1 ++ (e.2.2 ++ paramListText l2))) = ((pre ++ paramListText l1).length : Int) := by
      rw [t1, List.append_assoc c!"*fill"]
      exact findStr_here (a1 _ (by decide))
    have p2 : findStr c!"fill" ((pre ++ paramListText l1) ++ (e.2.1 ++ (e.2.2 ++ paramListText l2))) = ((pre ++ paramListText l1).length : Int) + 1 := by
      have : (pre ++ paramListText l1) ++ (e.2.1 ++ (e.2.2 ++ paramListText l2)) =
          (pre ++ paramListText l1 ++ c!"*") ++ (c!"fill" ++ (eq ++ (v ++ x) ++ (e.2.2 ++ paramListText l2))) := by rw [t1]; simp
      rw [this, findStr_here ((a1 _ (by decide)).append (avoids_of_head (x := 'f') rfl (by decide)))]
      simp; omega
    have hd : decide (¬ findStr c!"*fill" ((pre ++ paramListText l1) ++ (e.2.1 ++ (e.2.2 ++ paramListText l2))) = -1) = true := by
      rw [p1]; simp; omega
    refine ⟨hd, ?_, sliceFrom_append _ _⟩
    rw [if_pos hd, p2]; omega
  | false =>
    have t1 : e.2.1 = c!"fill" ++ (eq ++ (v ++ x)) := by rw [e1]; simp [paramKey, paramValue]
    have p1 : findStr c!"*fill" ((pre ++ paramListText l1) ++ (e.2.1 ++ (e.2.2 ++ paramListText l2))) = -1 := by
      refine findStr_none (by simp) (a1 _ (by decide)) (Avoids.append ?_ (Avoids.append ?_ (avoids_list (n := 1) (by decide) hl2 n2)))
      · exact avoids_of_head (x := '*') rfl (letter_not_mem (h.texts e (by simp)).1 (by decide) (by rw [he]; simp [paramKey]))
      · exact avoids_of_head (x := '*') rfl (spaces_not_key (h.texts e (by simp)).2 (by decide))
    have p2 : findStr c!"fill" ((pre ++ paramListText l1) ++ (e.2.1 ++ (e.2.2 ++ paramListText l2))) = ((pre ++ paramListText l1).length : Int) := by
      rw [t1, List.append_assoc c!"fill"]
      exact findStr_here (a1 _ (by decide))
    have hd : decide (¬ findStr c!"*fill" ((pre ++ paramListText l1) ++ (e.2.1 ++ (e.2.2 ++ paramListText l2))) = -1) = false := by
      rw [p1]; simp
    refine ⟨hd, ?_, sliceFrom_append _ _⟩
    rw [if_neg (by rw [hd]; simp), p2]

/-! ## The transform of a fill -/

private theorem strip_plain {v : Str} (h : PlainNumber v) : strip v = v := by
  have hs : ∀ x ∈ v, isSpace x = false := by
    intro x hx
    rcases (plainNumber_chars h).2 x hx with hd | rfl | rfl | rfl | rfl
    · exact isSpace_of_isDigit hd
    all_goals decide
  have hdrop : ∀ w : Str, (∀ x ∈ w, isSpace x = false) → w.dropWhile isSpace = w := by
    intro w hw
    cases w with
    | nil => rfl
    | cons a w => simp [hw a (by simp)]
  unfold strip
  rw [hdrop v hs, hdrop _ fun x hx => hs x (List.mem_reverse.1 hx), List.reverse_reverse]

/-- The text handed to `__set_universe_transform`. -/
private theorem fill_body {l : List PEntry} (h : IsParamList l) {l1 l2 : List PEntry} {e : PEntry} (hl : l = l1 ++ e :: l2) {d : Bool} {v : Str} {tr : Option Str}
    (he : e.1 = .fill d v tr) (hn : ∀ x ∈ l1 ++ l2, x.1.kind ≠ 1) :
    split (if (e.2.1 ++ (e.2.2 ++ paramListText l2)).elem '(' then extractBetween (e.2.1 ++ (e.2.2 ++ paramListText l2)) '(' ')' else c!"0") =
      match tr with
      | none => [c!"0"]
      | some t => split t := by
  subst hl
  have hl2 : ∀ y ∈ l2, ParamText y.1 y.2.1 ∧ ∀ c ∈ y.2.2, isSpace c = true := fun y hy => h.texts y (by simp [hy])
  obtain ⟨ht, hs⟩ := h.texts e (by simp)
  cases tr with
  | none =>
    have hno : '(' ∉ e.2.1 ++ (e.2.2 ++ paramListText l2) := by
      have : '(' ∉ paramListText (e :: l2) := by
        refine paren_not_mem (fun y hy => h.texts y (by simp only [List.mem_append]; exact Or.inr hy)) fun y hy d' v' t' e' => ?_
        rcases List.mem_cons.1 hy with rfl | hy
        · rw [he] at e'; cases e'
        · exact hn y (by simp [hy]) (by rw [e']; rfl)
      intro hm
      exact this (by simpa [paramListText] using hm)
    rw [if_neg (by simpa using hno)]
    rfl
  | some t =>
    obtain ⟨eq, x, e1, heq, hne, hv, hx⟩ := paramText_form ht
    rw [he] at hx e1 hv
    rcases hx with ⟨_, hx⟩ | ⟨d', v', t', sp, hq, rfl, hsp, htc⟩
    · exact absurd rfl (hx d v t)
    cases hq
    have e2 : e.2.1 ++ (e.2.2 ++ paramListText l2) = (paramKey (.fill d v (some t)) ++ eq ++ v ++ sp) ++ ('(' :: (t ++ ')' :: (e.2.2 ++ paramListText l2))) := by
      rw [e1]; simp [paramValue]
    have hpar : ∀ x, x = '(' ∨ x = ')' → x ∉ paramKey (.fill d v (some t)) ++ eq ++ v ++ sp := by
      intro x hx hm
      simp only [List.mem_append] at hm
      rcases hm with ((hm | hm) | hm) | hm
      · cases d <;> rcases hx with rfl | rfl <;> simp [paramKey] at hm
      · rcases heq with rfl | rfl | rfl | rfl <;> rcases hx with rfl | rfl <;> simp at hm
      · have := hv x hm
        rcases hx with rfl | rfl <;> revert this <;> simp [NumberChar] <;> decide
      · have := hsp x hm
        rcases hx with rfl | rfl <;> exact absurd this (by decide)
    have htp : ')' ∉ t := by
      intro hm
      rcases htc _ hm with h1 | h1
      · exact absurd h1 (by decide)
      · revert h1; simp [NumberChar]; decide
    rw [e2, if_pos (by simp), extractBetween_found ⟨hpar _ (Or.inl rfl), hpar _ (Or.inr rfl)⟩ htp, split_joinWords _ (split_words t)]

omit [Field K] in
/-- What the transform of a fill does to a cell. -/
private theorem transform_set (io : NumIO K) (cosDeg : K → K) (c : Cell K) (s : Str) (d : Bool) (hfl : d = true → 3 ≤ (split s).length → ∀ w ∈ split s, ∃ x, io.float w = .ok x) :
    ∃ off rot tid, setUniverseTransform io cosDeg c s d = .ok { c with offset := off, rotation := rot, trId := tid } ∧
      (∀ w, split s = [w] → tid = w ∧ off = c.offset ∧ rot = c.rotation) ∧
      (∀ x y z rest, split s = x :: y :: z :: rest → tid = c.trId ∧ off = some [.txt x, .txt y, .txt z] ∧
        (rest.length < 9 → rot = c.rotation) ∧ (d = false → 9 ≤ rest.length → rot = some ((rest.take 9).map .txt)) ∧
        (d = true → 9 ≤ rest.length → ∃ xs, (rest.take 9).mapM io.float = .ok xs ∧ rot = some (xs.map fun x => .num (cosDeg x)))) := by
  unfold setUniverseTransform
  match hsp : split s with
  | [] => exact ⟨c.offset, c.rotation, c.trId, rfl, nofun, nofun⟩
  | [t] => exact ⟨c.offset, c.rotation, t, rfl, fun w hw => by cases hw; exact ⟨rfl, rfl, rfl⟩, nofun⟩
  | [t, t'] => exact ⟨c.offset, c.rotation, c.trId, rfl, nofun, nofun⟩
  | t0 :: t1 :: t2 :: rest =>
    simp only []
    by_cases h9 : 9 ≤ rest.length
    · rw [if_pos h9]
      cases d with
      | false =>
        refine ⟨_, _, c.trId, rfl, nofun, fun x y z r hr => ?_⟩
        cases hr
        exact ⟨rfl, rfl, fun h => absurd h (by omega), fun _ _ => rfl, nofun⟩
      | true =>
        obtain ⟨xs, hxs⟩ : ∃ xs, (rest.take 9).mapM io.float = .ok xs := by
          have : ∀ w ∈ rest.take 9, ∃ x, io.float w = .ok x := fun w hw => hfl rfl (by rw [hsp]; simp) w (by rw [hsp]; simp [List.mem_of_mem_take hw])
          generalize rest.take 9 = ws at this
          induction ws with
          | nil => exact ⟨[], rfl⟩
          | cons w ws ih =>
            obtain ⟨x, hx⟩ := this w (by simp)
            obtain ⟨xs, hxs⟩ := ih fun w' hw' => this w' (by simp [hw'])
            exact ⟨x :: xs, by rw [List.mapM_cons, hx]; show (do let ys ← ws.mapM io.float; pure (x :: ys)) = _; rw [hxs]; rfl⟩
        rw [if_pos rfl, hxs]
        refine ⟨_, _, c.trId, rfl, nofun, fun x y z r hr => ?_⟩
        cases hr
        exact ⟨rfl, rfl, fun h => absurd h (by omega), nofun, fun _ _ => ⟨xs, hxs, rfl⟩⟩
    · rw [if_neg h9]
      refine ⟨_, _, c.trId, rfl, nofun, fun x y z r hr => ?_⟩
      cases hr
      exact ⟨rfl, rfl, fun _ => rfl, fun _ h => absurd h h9, fun _ h => absurd h h9⟩

/-- The values of a list of parameters are read into a new cell. -/
private theorem readKeywords_params (io : NumIO K) (cosDeg : K → K) {pre : Str} (hl : ∀ x ∈ pre, x ∉ ['u', 'f', 'i', 'v', 't', '*', '$']) {l : List PEntry} (h : IsParamList l)
    (himp : ∀ v, .importance v ∈ l.map Prod.fst → ∃ x, io.float v = .ok x)
    (hfl : ∀ v t, .fill true v (some t) ∈ l.map Prod.fst → ∀ w ∈ split t, ∃ x, io.float w = .ok x) :
    ∃ u f x off rot tid, readKeywords io cosDeg Cell.blank (pre ++ paramListText l) (findChar 'u' (pre ++ paramListText l))
        (if decide (¬ findStr c!"*fill" (pre ++ paramListText l) = -1) = true then findStr c!"fill" (pre ++ paramListText l) - 1 else findStr c!"fill" (pre ++ paramListText l))
        (findStr c!"imp" (pre ++ paramListText l)) (decide (¬ findStr c!"*fill" (pre ++ paramListText l) = -1)) (pre.length : Int) =
        .ok { (Cell.blank : Cell K) with uni := u, fill := f, importance := x, offset := off, rotation := rot, trId := tid } ∧
      Carries io cosDeg (l.map Prod.fst) { (Cell.blank : Cell K) with uni := u, fill := f, importance := x, offset := off, rotation := rot, trId := tid } := by
  obtain ⟨u, hu, hu'⟩ := universe_value hl h
  obtain ⟨x, hx, hx', hx''⟩ := importance_value io hl h himp
  unfold readKeywords
  rw [sliceFrom_append]
  have et : squeezePairs ' ' (replaceChar '=' c!"= " (replaceChar '=' c!" =" (paramListText l))) = spaceEquals (paramListText l) := rfl
  simp only [et]
  have hok : ∀ {α β : Type} (a : α) (k : α → Py β), ((.ok a : Py α) >>= k) = k a := fun _ _ => rfl
  rw [hu, hx]
  simp only [hok]
  by_cases hex : ∃ d v tr, .fill d v tr ∈ l.map Prod.fst
  · obtain ⟨d, v, tr, hq⟩ := hex
    obtain ⟨l1, e, l2, e1, he, hn, hd, hpos, hsl⟩ := fill_position hl h hq
    have hne : ¬ ((pre ++ paramListText l1).length : Int) = -1 := by omega
    rw [hpos, hd, if_neg hne, hsl]
    have hpl := plain_of (h.texts e (by rw [e1]; simp)).1 (Or.inr (Or.inl (by rw [he]; rfl)))
    rw [he] at hpl
    have hkv : keywordValue c!"fill" (spaceEquals (paramListText l) ++ c!" ") = .ok v := by
      refine keywordValue_param (q := .fill d v tr) h (by simp [searched, Param.kind]) (by decide) hq hpl (star := if d then c!"*" else []) rfl ?_
      cases d
      · exact avoids_nil _
      · exact avoids_of_head (x := 'f') rfl (by decide)
    rw [hkv]
    simp only [hok]
    rw [strip_plain (v := v) hpl]
    have hb := fill_body h e1 he hn
    obtain ⟨off, rot, tid, hset, hone, hmany⟩ := transform_set io cosDeg { (Cell.blank : Cell K) with uni := u, fill := some v }
      (if (e.2.1 ++ (e.2.2 ++ paramListText l2)).elem '(' then extractBetween (e.2.1 ++ (e.2.2 ++ paramListText l2)) '(' ')' else c!"0") d (by
        rintro rfl h3 w hw
        rw [hb] at hw h3
        cases tr with
        | none => simp at h3
        | some t => exact hfl v t hq w hw)
    rw [hb] at hone hmany
    rw [hset]
    have huniq : ∀ d' v' tr', .fill d' v' tr' ∈ l.map Prod.fst → d' = d ∧ v' = v ∧ tr' = tr := by
      intro d' v' tr' hq'
      obtain ⟨e', he', hw'⟩ := List.mem_map.1 hq'
      rw [e1] at he'
      rcases List.mem_append.1 he' with h1 | h1
      · exact absurd (by rw [hw']; rfl) (hn e' (by simp [h1]))
      · rcases List.mem_cons.1 h1 with rfl | h1
        · rw [he] at hw'; cases hw'; exact ⟨rfl, rfl, rfl⟩
        · exact absurd (by rw [hw']; rfl) (hn e' (by simp [h1]))
    refine ⟨u, some v, x, off, rot, tid, rfl, hu', ?_, hx', hx'', ?_, ?_, ?_⟩
    · intro w
      constructor
      · intro hw; cases hw; exact ⟨d, tr, hq⟩
      · rintro ⟨d', tr', hq'⟩; rw [(huniq _ _ _ hq').2.1]
    · intro hno
      cases tr with
      | some t => exact absurd hq (hno d v t)
      | none => exact hone _ rfl
    · intro d' v' t w hq' hw
      obtain ⟨rfl, rfl, rfl⟩ := huniq _ _ _ hq'
      exact hone w hw
    · intro d' v' t a b c rest hq' hw
      obtain ⟨rfl, rfl, rfl⟩ := huniq _ _ _ hq'
      exact hmany a b c rest hw
  · have hno : ∀ e ∈ l, e.1.kind ≠ 1 := by
      intro e he hk
      apply hex
      cases hq : e.1 with
      | fill d v tr => exact ⟨d, v, tr, hq ▸ List.mem_map_of_mem he⟩
      | _ => rw [hq] at hk; simp [Param.kind] at hk
    have p1 := pos_none hl h (k := c!"*fill") (n := 1) (by decide) hno
    have p2 := pos_none hl h (k := c!"fill") (n := 1) (by decide) hno
    rw [p1, p2]
    simp only [not_true_eq_false, decide_false, Bool.false_eq_true, if_false, if_true, hok]
    refine ⟨u, none, x, none, none, c!"0", rfl, hu', ?_, hx', hx'', fun _ => ⟨rfl, rfl, rfl⟩, ?_, ?_⟩
    · exact fun w => ⟨nofun, fun ⟨d, tr, hq⟩ => absurd ⟨d, w, tr, hq⟩ hex⟩
    · exact fun d v t w hq _ => absurd ⟨d, v, _, hq⟩ hex
    · exact fun d v t _ _ _ _ hq _ => absurd ⟨d, v, _, hq⟩ hex

/-! ## The conditions of the cut -/

private theorem starts_with_word {l : List PEntry} (h : IsParamList l) : ∃ w ∈ parameterWords, ∃ rest, paramListText l = w ++ rest := by
  cases l with
  | nil => exact absurd rfl h.ne_nil
  | cons e l =>
    obtain ⟨eq, x, e1, _⟩ := paramText_form (h.texts e (by simp)).1
    have e2 : paramListText (e :: l) = paramKey e.1 ++ (eq ++ (paramValue e.1 ++ x) ++ (e.2.2 ++ paramListText l)) := by
      simp [paramListText, e1]
    rw [e2]
    cases e.1 with
    | uni v => exact ⟨c!"u", by decide, _, rfl⟩
    | fill d v tr =>
      cases d
      · exact ⟨c!"fill", by decide, _, rfl⟩
      · exact ⟨c!"*fill", by decide, _, rfl⟩
    | importance v => exact ⟨c!"imp", by decide, c!":n" ++ (eq ++ (paramValue (.importance v) ++ x) ++ (e.2.2 ++ paramListText l)), rfl⟩
    | volume v => exact ⟨c!"vol", by decide, _, rfl⟩
    | temperature v => exact ⟨c!"tmp", by decide, _, rfl⟩

private theorem dollar_not_mem {l : List PEntry} (h : IsParamList l) : '$' ∉ paramListText l := by
  refine letter_not_mem_list h.texts (by decide) fun e _ => ?_
  cases e.1 with
  | fill d v tr => cases d <;> simp [paramKey]
  | _ => simp [paramKey]

private theorem first_unique {a b x y : Str} {c : Char} (e : a ++ c :: b = x ++ c :: y) (hx : c ∉ x) (hy : c ∉ y) : a = x := by
  rcases List.append_eq_append_iff.1 e with ⟨z, rfl, hz⟩ | ⟨z, rfl, hz⟩
  · cases z with
    | nil => simp
    | cons d z =>
      simp only [List.cons_append, List.cons.injEq] at hz
      exact absurd (hz.1 ▸ by simp) hx
  · cases z with
    | nil => simp
    | cons d z =>
      simp only [List.cons_append, List.cons.injEq] at hz
      exact absurd (hz.2 ▸ by simp) hy

private theorem fill_once {l : List PEntry} (h : IsParamList l) :
    ∀ a b, paramListText l = a ++ c!"fill" ++ b → ∀ a' b', paramListText l = a' ++ c!"*fill" ++ b' → a = a' ++ c!"*" := by
  intro a b e a' b' e'
  by_cases hex : ∃ d v tr, .fill d v tr ∈ l.map Prod.fst
  · obtain ⟨d, v, tr, hq⟩ := hex
    obtain ⟨l1, p, l2, rfl, hp, hn, _⟩ := paramList_split h hq
    obtain ⟨eq, x, e1, heq, _, hv, hx⟩ := paramText_form (h.texts p (by simp)).1
    have f1 : 'f' ∉ paramListText l1 ++ (if d then c!"*" else []) := by
      have := f_not_mem (fun y hy => h.texts y (by simp [hy])) (fun y hy => hn y (by simp [hy])) (l := l1) (x := 'f') (Or.inl rfl)
      cases d <;> simp [this]
    have f2 : 'f' ∉ c!"ill" ++ (eq ++ (paramValue p.1 ++ x) ++ (p.2.2 ++ paramListText l2)) := by
      have := f_not_mem (fun y hy => h.texts y (by simp [hy])) (fun y hy => hn y (by simp [hy])) (l := l2) (x := 'f') (Or.inl rfl)
      have k : KeyLetter 'f' := by decide
      simp only [List.mem_append, not_or]
      exact ⟨by decide, ⟨equals_not_key heq k, fun hm => numberChar_not_key (hv _ hm) k rfl, paramEnd_not_key hx k⟩, spaces_not_key (h.texts p (by simp)).2 k, this⟩
    have e2 : paramListText (l1 ++ p :: l2) = (paramListText l1 ++ (if d then c!"*" else [])) ++ 'f' :: (c!"ill" ++ (eq ++ (paramValue p.1 ++ x) ++ (p.2.2 ++ paramListText l2))) := by
      rw [paramListText_append]
      have : paramListText (p :: l2) = p.2.1 ++ p.2.2 ++ paramListText l2 := by simp [paramListText]
      rw [this, e1, hp]
      simp [paramKey]
    have u1 := first_unique (a := a) (b := c!"ill" ++ b) (c := 'f') ((by simpa using e.symm : a ++ 'f' :: (c!"ill" ++ b) = paramListText (l1 ++ p :: l2)).trans e2) f1 f2
    have u2 := first_unique (a := a' ++ c!"*") (b := c!"ill" ++ b') (c := 'f') ((by simpa using e'.symm : (a' ++ c!"*") ++ 'f' :: (c!"ill" ++ b') = paramListText (l1 ++ p :: l2)).trans e2) f1 f2
    rw [u1, u2]
  · have : 'f' ∉ paramListText l := by
      refine f_not_mem h.texts (fun e he hk => hex ?_) (Or.inl rfl)
      cases hq : e.1 with
      | fill d v tr => exact ⟨d, v, tr, hq ▸ List.mem_map_of_mem he⟩
      | _ => rw [hq] at hk; simp [Param.kind] at hk
    exact absurd (e ▸ by simp) this

/-- The cell that is read from a description with parameters is the cell of the description with the values of the parameters, and if one cannot be read the other neither. -/
theorem readCell_params (io : NumIO K) (cosDeg : K → K) {pre : Str} (hne : pre ≠ []) (hpre : ∀ x ∈ pre, x ∉ ['u', 'f', 'i', 'v', 't', '*', '$']) {l : List (Param × Str × Str)} (h : IsParamList l)
    (himp : ∀ v, .importance v ∈ l.map Prod.fst → ∃ x, io.float v = .ok x)
    (hfl : ∀ v t, .fill true v (some t) ∈ l.map Prod.fst → ∀ w ∈ split t, ∃ x, io.float w = .ok x) :
    ∃ u f x off rot tid, Carries io cosDeg (l.map Prod.fst) { (Cell.blank : Cell K) with uni := u, fill := f, importance := x, offset := off, rotation := rot, trId := tid } ∧
      readCell io cosDeg (pre ++ paramListText l) = (readCell io cosDeg pre).map fun c => { c with uni := u, fill := f, importance := x, offset := off, rotation := rot, trId := tid } := by
  obtain ⟨u, f, x, off, rot, tid, hrk, hc⟩ := readKeywords_params io cosDeg hpre h himp hfl
  refine ⟨u, f, x, off, rot, tid, hc, ?_⟩
  have hok : ∀ {α β : Type} (a : α) (k : α → Py β), ((.ok a : Py α) >>= k) = k a := fun _ _ => rfl
  have herr : ∀ {α β : Type} (a : PyErr) (k : α → Py β), ((.error a : Py α) >>= k) = .error a := fun _ _ => rfl
  unfold readCell interpret
  rw [detectKeywords_none io cosDeg _ hpre, detectKeywords_eq io cosDeg _ pre _ hne hpre (starts_with_word h) (dollar_not_mem h) (fill_once h), hrk]
  simp only [hok]
  cases pyGet (split (expandText pre)) 0 with
  | error a => rfl
  | ok t0 =>
    simp only [hok]
    cases pyInt t0 with
    | error a => rfl
    | ok i =>
      simp only [hok]
      cases pyGet (split (expandText pre)) 1 with
      | error a => rfl
      | ok t1 =>
        simp only [hok]
        cases pyInt t1 with
        | error a => rfl
        | ok m =>
          simp only [hok]
          by_cases hp : 0 < m
          · simp only [if_pos hp]
            cases pyGet (split (expandText pre)) 2 with
            | error a => rfl
            | ok t2 =>
              simp only [hok]
              cases fortranNumber io t2 with
              | error a => rfl
              | ok d =>
                simp only [hok]
                cases generalise ((split (expandText pre)).drop 3) with
                | error a => rfl
                | ok r => rfl
          · simp only [if_neg hp, hok]
            cases generalise ((split (expandText pre)).drop 2) with
            | error a => rfl
            | ok r => rfl

/-- **C70** (partial: numbers without exponent, at most one blank on either side of each equals sign, `imp:n` only). Parameters written after a cell description
leave the number, material, density and region as they are and give the cell the universe, fill, transform and importance they say. -/
theorem C70_parameters_partial (io : NumIO K) (cosDeg : K → K) {pre : Str} {c0 : Cell K} (hne : pre ≠ []) (hpre : ∀ x ∈ pre, x ∉ ['u', 'f', 'i', 'v', 't', '*', '$'])
    (h0 : readCell io cosDeg pre = .ok c0) {l : List (Param × Str × Str)} (h : IsParamList l)
    (himp : ∀ v, .importance v ∈ l.map Prod.fst → ∃ x, io.float v = .ok x)
    (hfl : ∀ v t, .fill true v (some t) ∈ l.map Prod.fst → ∀ w ∈ split t, ∃ x, io.float w = .ok x) :
    ∃ c, readCell io cosDeg (pre ++ paramListText l) = .ok c ∧
      c.id = c0.id ∧ c.material = c0.material ∧ c.density = c0.density ∧ c.text = c0.text ∧ c.interpreted = c0.interpreted ∧ c.surfaces = c0.surfaces ∧
      Carries io cosDeg (l.map Prod.fst) c := by
  obtain ⟨u, f, x, off, rot, tid, hrk, hc⟩ := readKeywords_params io cosDeg hpre h himp hfl
  have hok : ∀ {α β : Type} (a : α) (k : α → Py β), ((.ok a : Py α) >>= k) = k a := fun _ _ => rfl
  unfold readCell interpret at h0 ⊢
  rw [detectKeywords_none io cosDeg _ hpre, hok] at h0
  rw [detectKeywords_eq io cosDeg _ pre _ hne hpre (starts_with_word h) (dollar_not_mem h) (fill_once h), hrk, hok]
  simp only [hok] at h0 ⊢
  obtain ⟨t0, ht0, h0⟩ := bind_ok h0
  obtain ⟨i, hi, h0⟩ := bind_ok h0
  obtain ⟨t1, ht1, h0⟩ := bind_ok h0
  obtain ⟨m, hm, h0⟩ := bind_ok h0
  rw [ht0, hok, hi, hok, ht1, hok, hm, hok]
  by_cases hp : 0 < m
  · rw [if_pos hp] at h0 ⊢
    obtain ⟨c1, hc1, h0⟩ := bind_ok h0
    obtain ⟨t2, ht2, hc1⟩ := bind_ok hc1
    obtain ⟨d, hd, hc1⟩ := bind_ok hc1
    cases hc1
    rw [ht2, hok, hd, hok]
    obtain ⟨⟨is, ns⟩, hg, h0⟩ := bind_ok h0
    cases h0
    simp only [hok]
    simp only at hg
    rw [hg, hok]
    exact ⟨_, rfl, rfl, rfl, rfl, rfl, rfl, rfl, hc.uni, hc.fill, hc.importance, hc.noImportance, hc.noTransform, hc.card, hc.shift⟩
  · rw [if_neg hp] at h0 ⊢
    obtain ⟨c1, hc1, h0⟩ := bind_ok h0
    cases hc1
    obtain ⟨⟨is, ns⟩, hg, h0⟩ := bind_ok h0
    cases h0
    simp only [hok]
    simp only at hg
    rw [hg, hok]
    exact ⟨_, rfl, rfl, rfl, rfl, rfl, rfl, rfl, hc.uni, hc.fill, hc.importance, hc.noImportance, hc.noTransform, hc.card, hc.shift⟩

end

/-- An importance with an exponent is cut at the exponent: one thousandth becomes one. -/
theorem C70_refuted : (readCell sampleIO id c!"1 0 -2 imp:n=1e-3").map Cell.importance = .ok 1 ∧ sampleIO.float c!"1e-3" = .ok (1 / 1000) := by
  constructor <;> decide +kernel

/-- Parameters that make reading fail: an importance for photons, and two blanks before the equals sign. -/
theorem C70_refuted_failures : readCell sampleIO id c!"1 0 -2 imp:p=1" = .error .typeError ∧ readCell sampleIO id c!"1 0 -2 imp:n  = 1" = .error .typeError := by
  constructor <;> decide +kernel

/-- A parameter with the letter u in its name is taken for a universe, and the letters before it for a part of the region. -/
theorem C70_refuted_letter : (readCell sampleIO id c!"1 0 -2 nonu=1").map (fun c => (c.text, c.uni)) = .ok ([c!"-2", c!"non"], some c!"1") := by
  decide +kernel

private def sampleParams : List (Param × Str × Str) :=
  [(.fill true c!"5" (some c!"1 2 3 0 90 90 90 0 90 90 90 0"), c!"*fill=5 (1 2 3 0 90 90 90 0 90 90 90 0)", c!" "), (.uni c!"3", c!"u = 3", c!"  "),
    (.importance c!"2.5", c!"imp:n= 2.5", c!" "), (.volume c!"1e3", c!"vol=1e3", c!"\n")]

private theorem sampleParams_ok : IsParamList sampleParams where
  texts := by
    intro e he
    simp only [sampleParams, List.mem_cons, List.not_mem_nil, or_false] at he
    rcases he with rfl | rfl | rfl | rfl
    · exact ⟨.filled true c!"5" c!"=" c!" " c!"1 2 3 0 90 90 90 0 90 90 90 0" (by simp [EqualsSign]) (.whole [] c!"5" (by decide) (by decide) (by decide)) (by decide)
        (by simp only [NumberChar]; decide), by decide⟩
    · exact ⟨.uni c!"3" c!" = " (by simp [EqualsSign]) (.whole [] c!"3" (by decide) (by decide) (by decide)), by decide⟩
    · exact ⟨.importance c!"2.5" c!"= " (by simp [EqualsSign]) (.point [] c!"2" c!"5" (by decide) (by decide) (by decide) (by decide) (by decide)), by decide⟩
    · exact ⟨.volume c!"1e3" c!"=" (by simp [EqualsSign]) (by decide) (by simp only [NumberChar]; decide), by decide⟩
  apart := by decide
  kinds := by decide
  ne_nil := by decide

/-- A cell with a fill that is turned and shifted, a universe, an importance and a volume. -/
example : ∃ c : Cell ℚ, readCell sampleIO id (c!"1 4 -7.8 -2 3 " ++ paramListText sampleParams) = .ok c ∧ c.uni = some c!"3" ∧ c.fill = some c!"5" ∧ c.importance = 5 / 2 := by
  have h0 : ∃ c0, readCell sampleIO id c!"1 4 -7.8 -2 3 " = .ok c0 := by
    have : (readCell sampleIO id c!"1 4 -7.8 -2 3 ").isOk = true := by decide +kernel
    cases h : readCell sampleIO id c!"1 4 -7.8 -2 3 " with
    | ok c => exact ⟨c, rfl⟩
    | error e => rw [h] at this; cases this
  obtain ⟨c0, h0⟩ := h0
  have himp : sampleIO.float c!"2.5" = .ok (5 / 2) := by decide +kernel
  obtain ⟨c, hc, -, -, -, -, -, -, hk⟩ := C70_parameters_partial sampleIO id (by decide) (by decide) h0 sampleParams_ok
    (by
      intro v hv
      simp [sampleParams] at hv
      subst hv
      exact ⟨_, himp⟩)
    (by
      intro v t hv
      simp [sampleParams] at hv
      obtain ⟨rfl, rfl⟩ := hv
      intro w hw
      have : (sampleIO.float w).isOk = true := by revert w; decide +kernel
      cases h : sampleIO.float w with
      | ok x => exact ⟨x, rfl⟩
      | error e => rw [h] at this; cases this)
  refine ⟨c, hc, (hk.uni _).2 (by simp [sampleParams]), (hk.fill _).2 ⟨true, _, by simp [sampleParams]; rfl⟩, ?_⟩
  have := hk.importance c!"2.5" (by simp [sampleParams])
  rw [himp] at this
  exact (Except.ok.inj this).symm

end Csg
