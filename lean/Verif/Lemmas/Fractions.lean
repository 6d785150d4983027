import Verif.Spec.Fractions
import Verif.Props.OtherCards
import Verif.Lemmas.Missing

/-!
# Materials whose fractions are proportional
-/

set_option linter.unusedSectionVars false

namespace Csg

open Spec

/-- Both fail in the same way, or both return and the results are related. -/
def BothPy {α : Type} (R : α → α → Prop) (x y : Py α) : Prop := (∃ e, x = .error e ∧ y = .error e) ∨ ∃ a b, x = .ok a ∧ y = .ok b ∧ R a b

theorem bothPy_bind {α β : Type} {R : α → α → Prop} {S : β → β → Prop} {x y : Py α} {f g : α → Py β} (h : BothPy R x y) (k : ∀ a b, R a b → BothPy S (f a) (g b)) : BothPy S (x >>= f) (y >>= g) := by
  rcases h with ⟨e, rfl, rfl⟩ | ⟨a, b, rfl, rfl, h⟩
  · exact .inl ⟨e, rfl, rfl⟩
  · exact k a b h

section
variable {K : Type} [Field K] [LinearOrder K] [IsStrictOrderedRing K]

/-- The fractions times a factor. -/
def timesFactor (c : K) (comp : List (Str × K)) : List (Str × K) := comp.map fun e => (e.1, c * e.2)

def ScaledMaterial (m m' : Material K) : Prop := ∃ c : K, 0 < c ∧ m' = { m with composition := timesFactor c m.composition }

def ScaledMaterials : List (Str × Material K) → List (Str × Material K) → Prop := List.Forall₂ fun e e' => e'.1 = e.1 ∧ ScaledMaterial e.2 e'.2

theorem timesFactor_one (comp : List (Str × K)) : timesFactor 1 comp = comp := by
  unfold timesFactor
  conv_rhs => rw [← List.map_id comp]
  exact List.map_congr_left fun e _ => by simp

theorem scaled_refl (m : Material K) : ScaledMaterial m m := ⟨1, one_pos, by rw [timesFactor_one]⟩

theorem scaled_keys {mats mats' : List (Str × Material K)} (h : ScaledMaterials mats mats') : mats'.map Prod.fst = mats.map Prod.fst := by
  induction h with
  | nil => rfl
  | cons h _ ih => rw [List.map_cons, List.map_cons, h.1, ih]

theorem scaled_set {mats mats' : List (Str × Material K)} (h : ScaledMaterials mats mats') (k : Str) {m m' : Material K} (hm : ScaledMaterial m m') : ScaledMaterials (dictSet mats k m) (dictSet mats' k m') := by
  induction h with
  | nil => exact .cons ⟨rfl, hm⟩ .nil
  | @cons e e' _ _ h t ih =>
    obtain ⟨a, x⟩ := e
    obtain ⟨a', x'⟩ := e'
    obtain rfl : a' = a := h.1
    unfold dictSet
    split
    · exact .cons ⟨rfl, hm⟩ t
    · exact .cons h ih

theorem scaled_lookup {mats mats' : List (Str × Material K)} (h : ScaledMaterials mats mats') (k : Str) :
    (mats.lookup k = none ∧ mats'.lookup k = none) ∨ ∃ m m', mats.lookup k = some m ∧ mats'.lookup k = some m' ∧ ScaledMaterial m m' := by
  induction h with
  | nil => exact .inl ⟨rfl, rfl⟩
  | @cons e e' _ _ h t ih =>
    obtain ⟨a, x⟩ := e
    obtain ⟨a', x'⟩ := e'
    obtain rfl : a' = a := h.1
    rw [List.lookup_cons, List.lookup_cons]
    cases k == a' with
    | true => exact .inr ⟨x, x', rfl, rfl, h.2⟩
    | false => exact ih

/-! ## Reading -/

private theorem lookup_times (c : K) (comp : List (Str × K)) (k : Str) : (timesFactor c comp).lookup k = (comp.lookup k).map (c * ·) := by
  induction comp with
  | nil => rfl
  | cons e comp ih =>
    obtain ⟨a, x⟩ := e
    show ((a, c * x) :: timesFactor c comp).lookup k = _
    rw [List.lookup_cons, List.lookup_cons]
    cases k == a with
    | true => rfl
    | false => exact ih

private theorem set_times (c : K) (comp : List (Str × K)) (k : Str) (x : K) : timesFactor c (dictSet comp k x) = dictSet (timesFactor c comp) k (c * x) := by
  induction comp with
  | nil => rfl
  | cons e comp ih =>
    obtain ⟨a, y⟩ := e
    show timesFactor c (dictSet ((a, y) :: comp) k x) = dictSet ((a, c * y) :: timesFactor c comp) k (c * x)
    unfold dictSet
    split
    · rfl
    · rw [← ih]; rfl

theorem compositionGo_times (io : NumIO K) (c : K) : ∀ {entries entries' : List (Str × Str)} {fracs : List K}, List.Forall₂ (fun e x => fortranNumber io e.2 = .ok x) entries fracs →
    List.Forall₂ (fun e x => fortranNumber io e.2 = .ok x) entries' (fracs.map (c * ·)) → entries'.map Prod.fst = entries.map Prod.fst → ∀ (comp : List (Str × K)) (xs : List (Str × Str)),
    ∃ comp' xs', compositionGo io comp xs (entryWords entries) = .ok (comp', xs') ∧ compositionGo io (timesFactor c comp) xs (entryWords entries') = .ok (timesFactor c comp', xs') := by
  intro entries entries' fracs h
  induction h generalizing entries' with
  | nil =>
    intro h' _ comp xs
    cases h'
    exact ⟨comp, xs, rfl, rfl⟩
  | @cons e x entries fracs hx _ ih =>
    intro h' hn comp xs
    rw [List.map_cons] at h'
    cases h' with
    | @cons e' _ es' _ hx' ht =>
      obtain ⟨a, b⟩ := e
      obtain ⟨a', b'⟩ := e'
      rw [List.map_cons, List.map_cons, List.cons.injEq] at hn
      obtain ⟨rfl, hn⟩ := hn
      obtain ⟨nuc, hnuc⟩ : ∃ nuc, pyGet (splitOnChar '.' a') 0 = .ok nuc := by
        cases hs : splitOnChar '.' a' with
        | nil => exact absurd hs (splitOnChar_ne_nil _ _)
        | cons x t => exact ⟨x, rfl⟩
      have step : ∀ (comp : List (Str × K)) (b : Str) (x : K) (es : List (Str × Str)), fortranNumber io b = .ok x → compositionGo io comp xs (entryWords ((a', b) :: es)) =
          compositionGo io (match comp.lookup nuc with | some y => dictSet comp nuc (y + x) | none => dictSet comp nuc x) (dictSet xs nuc (((splitOnChar '.' a')[1]?).getD [])) (entryWords es) := by
        intro comp b x es hb
        rw [show entryWords ((a', b) :: es) = a' :: b :: entryWords es from rfl]
        conv_lhs => unfold compositionGo
        rw [hnuc]
        simp only [bind, Except.bind]
        rw [hb]
        rfl
      obtain ⟨comp', xs', k1, k2⟩ := ih ht hn (match comp.lookup nuc with | some y => dictSet comp nuc (y + x) | none => dictSet comp nuc x) (dictSet xs nuc (((splitOnChar '.' a')[1]?).getD []))
      refine ⟨comp', xs', by rw [step _ _ _ _ hx, k1], ?_⟩
      rw [step _ _ _ _ hx', lookup_times, ← k2]
      cases comp.lookup nuc with
      | none => simp only [Option.map_none]; rw [set_times]
      | some y => simp only [Option.map_some]; rw [set_times, mul_add]

private theorem tokens_of {text : Str} {entries : List (Str × Str)} (ht : (split (text.filter (· ≠ '\n'))).filter (fun w => '=' ∉ w) = entryWords entries) : materialTokens text = entryWords entries := by
  unfold materialTokens
  rw [replaceChar_nil_eq_filter, ← ht]
  have : (text.filter fun x => x != '\n') = text.filter (· ≠ '\n') := by
    apply List.filter_congr; intro c _; by_cases h : c = '\n' <;> simp [h]
  rw [this]
  apply List.filter_congr
  intro w _
  simp

private theorem even_words (entries : List (Str × Str)) : (entryWords entries).length % 2 = 0 := by
  have : (entryWords entries).length = 2 * entries.length := by
    unfold entryWords
    induction entries with
    | nil => rfl
    | cons e es ih => simp; omega
  omega

private theorem card_times (io : NumIO K) {n : Str} {c : K} {first first' : Str} {more more' b : List Str} (h : ProportionalCards io n c (first :: more) (first' :: more')) (hb : BeginCard b) :
    ∃ m m', getMaterialCard io first (more ++ b) = .ok (n, m) ∧ getMaterialCard io first' (more' ++ b) = .ok (n, m') ∧ m' = { m with composition := timesFactor c m.composition } := by
  obtain ⟨entries, entries', fracs, ⟨⟨f1, m1, e1, hh⟩, hw, hf⟩, ⟨⟨f2, m2, e2, hh'⟩, hw', hf'⟩, hn⟩ := h.reads
  cases e1
  cases e2
  have hok : ∀ {α β : Type} (a : α) (k : α → Py β), ((.ok a : Py α) >>= k) = k a := fun _ _ => rfl
  obtain ⟨comp, xs, k1, k2⟩ := compositionGo_times io c hf hf' hn [] []
  have one : ∀ {first : Str} {more : List Str} {entries : List (Str × Str)} {comp : List (Str × K)}, (∃ f m, first :: more = f :: m ∧ ¬ FiveBlanks f ∧ (∀ l ∈ m, FiveBlanks l) ∧ ∀ l ∈ first :: more, Line l) → MaterialHead first n →
      ((cardWords (first :: more)).drop 1).filter (fun w => '=' ∉ w) = entryWords entries → compositionGo io [] [] (entryWords entries) = .ok (comp, xs) →
      getMaterialCard io first (more ++ b) = .ok (n, { name := c!"M" ++ n, number := n, composition := comp, xsid := xs, density := 0 }) := by
    intro first more entries comp hd hh hw hk
    obtain ⟨f, mo, e, hf1, hf2, hf3⟩ := hd
    cases e
    obtain ⟨ws, hws⟩ := head_words hh
    have ht := tokens_of (text := cutDollar (join c!" " ((split first).drop 1) ++ c!" ") ++ (more.map cutDollar).flatten) (entries := entries)
      (by rw [material_words hh fun l hl => ⟨hf2 l hl, hf3 l (by simp [hl])⟩]; exact hw)
    unfold getMaterialCard
    have htw : (more ++ b).takeWhile continues = more := by
      rw [takeWhile_begin hb]
      exact List.takeWhile_eq_self_iff.2 fun l hl => continues_iff.2 (hf2 l hl)
    have h0 : pyGet (split first) 0 = .ok ('m' :: n) := by rw [hws]; rfl
    have hr : readMaterial io n (cutDollar (join c!" " ((split first).drop 1) ++ c!" ") ++ (more.map cutDollar).flatten) = .ok { name := c!"M" ++ n, number := n, composition := comp, xsid := xs, density := 0 } := by
      unfold readMaterial
      simp only
      rw [ht, if_neg (by rw [even_words]; simp), hk]
      rfl
    simp only [h0, hok, replace_m hh.2.1, htw, hr]
  exact ⟨_, _, one (h.cards _ (by simp)) hh hw k1, one (h.cards _ (by simp)) hh' hw' k2, rfl⟩

theorem materials_scaled (io : NumIO K) (ls : List Str) : ∀ {mats mats' : List (Str × Material K)}, ScaledMaterials mats mats' → BothPy ScaledMaterials (getMaterialCards io mats ls) (getMaterialCards io mats' ls) := by
  induction ls with
  | nil => exact fun h => .inr ⟨_, _, rfl, rfl, h⟩
  | cons l ls ih =>
    intro mats mats' h
    rw [getMaterialCards, getMaterialCards]
    split
    · cases getMaterialCard io l ls with
      | error e => exact .inl ⟨e, rfl, rfl⟩
      | ok r => exact ih (scaled_set h _ (scaled_refl _))
    · exact ih h

theorem materials_proportional (io : NumIO K) {n : Str} {c : K} (hc : 0 < c) {g g' b : List Str} (h : ProportionalCards io n c g g') (hb : BeginCard b) (a : List Str) : ∀ {mats mats' : List (Str × Material K)},
    ScaledMaterials mats mats' → BothPy ScaledMaterials (getMaterialCards io mats (a ++ (g ++ b))) (getMaterialCards io mats' (a ++ (g' ++ b))) := by
  obtain ⟨first, more, rfl, k1, -⟩ := h.cards g (by simp)
  obtain ⟨first', more', rfl, k1', -⟩ := h.cards g' (by simp)
  have begin1 : BeginCard ((first :: more) ++ b) := fun l hl => by cases hl; exact k1
  have begin2 : BeginCard ((first' :: more') ++ b) := fun l hl => by cases hl; exact k1'
  induction a with
  | nil =>
    intro mats mats' hm
    obtain ⟨m, m', e1, e2, hs⟩ := card_times io h hb
    obtain ⟨entries, entries', fracs, ⟨⟨f1, m1, q1, hh⟩, -⟩, ⟨⟨f2, m2, q2, hh'⟩, -⟩, -⟩ := h.reads
    cases q1
    cases q2
    rw [List.nil_append, List.nil_append, List.cons_append, List.cons_append, getMaterialCards, getMaterialCards, if_pos (isMaterialLine_iff.2 (looks_of_head hh)), if_pos (isMaterialLine_iff.2 (looks_of_head hh')), e1, e2]
    show BothPy ScaledMaterials (getMaterialCards io (dictSet mats n m) (more ++ b)) (getMaterialCards io (dictSet mats' n m') (more' ++ b))
    rw [materials_skip io fun l hl => h.material l (by simp [hl]), materials_skip io fun l hl => h.material l (by simp [hl])]
    exact materials_scaled io b (scaled_set hm _ ⟨c, hc, hs⟩)
  | cons l a ih =>
    intro mats mats' hm
    rw [List.cons_append (as := a), List.cons_append (as := a), getMaterialCards, getMaterialCards]
    have e : getMaterialCard io l (a ++ ((first' :: more') ++ b)) = getMaterialCard io l (a ++ ((first :: more) ++ b)) := by
      unfold getMaterialCard
      rw [takeWhile_begin begin1, takeWhile_begin begin2]
    rw [e]
    split
    · cases getMaterialCard io l (a ++ ((first :: more) ++ b)) with
      | error x => exact .inl ⟨x, rfl, rfl⟩
      | ok r => exact ih (scaled_set hm _ (scaled_refl _))
    · exact ih hm

/-- With the factor 1, the materials are the same. -/
theorem materials_same (io : NumIO K) {n : Str} {g g' b : List Str} (h : ProportionalCards io n 1 g g') (hb : BeginCard b) (a : List Str) : ∀ mats : List (Str × Material K),
    getMaterialCards io mats (a ++ (g' ++ b)) = getMaterialCards io mats (a ++ (g ++ b)) := by
  obtain ⟨first, more, rfl, k1, -⟩ := h.cards g (by simp)
  obtain ⟨first', more', rfl, k1', -⟩ := h.cards g' (by simp)
  have begin1 : BeginCard ((first :: more) ++ b) := fun l hl => by cases hl; exact k1
  have begin2 : BeginCard ((first' :: more') ++ b) := fun l hl => by cases hl; exact k1'
  induction a with
  | nil =>
    intro mats
    obtain ⟨m, m', e1, e2, hs⟩ := card_times io h hb
    rw [timesFactor_one] at hs
    obtain rfl : m' = m := hs
    obtain ⟨entries, entries', fracs, ⟨⟨f1, m1, q1, hh⟩, -⟩, ⟨⟨f2, m2, q2, hh'⟩, -⟩, -⟩ := h.reads
    cases q1
    cases q2
    rw [List.nil_append, List.nil_append, List.cons_append, List.cons_append, getMaterialCards, getMaterialCards, if_pos (isMaterialLine_iff.2 (looks_of_head hh)), if_pos (isMaterialLine_iff.2 (looks_of_head hh')), e1, e2]
    show getMaterialCards io (dictSet mats n m') (more' ++ b) = getMaterialCards io (dictSet mats n m') (more ++ b)
    rw [materials_skip io fun l hl => h.material l (by simp [hl]), materials_skip io fun l hl => h.material l (by simp [hl])]
  | cons l a ih =>
    intro mats
    rw [List.cons_append (as := a), List.cons_append (as := a), getMaterialCards, getMaterialCards]
    have e : getMaterialCard io l (a ++ ((first' :: more') ++ b)) = getMaterialCard io l (a ++ ((first :: more) ++ b)) := by
      unfold getMaterialCard
      rw [takeWhile_begin begin1, takeWhile_begin begin2]
    rw [e]
    simp only [ih]

theorem importances_proportional (io : NumIO K) {n : Str} {c : K} {g g' : List Str} (h : ProportionalCards io n c g g') (a b : List Str) : getImportances (a ++ (g' ++ b)) = getImportances (a ++ (g ++ b)) := by
  have key : importancesGo [] none (a ++ (g' ++ b)) = importancesGo [] none (a ++ (g ++ b)) := by
    refine go_congr (fun d cur => ?_) a [] none
    have s1 := fun d => go_skip (ls := g) (fun l hl => h.importance l (by simp [hl])) d b
    have s2 := fun d => go_skip (ls := g') (fun l hl => h.importance l (by simp [hl])) d b
    cases cur with
    | none => rw [s1, s2]
    | some pt =>
      obtain ⟨p, t⟩ := pt
      obtain ⟨first, more, rfl, k1, -⟩ := h.cards g (by simp)
      obtain ⟨first', more', rfl, k1', -⟩ := h.cards g' (by simp)
      rw [List.cons_append, List.cons_append, go_ends k1, go_ends k1', ← List.cons_append, ← List.cons_append, s1, s2]
  unfold getImportances
  rw [key]

private theorem head_not_transform {l n : Str} (h : MaterialHead l n) : isTransformLine l = false := by
  obtain ⟨-, -, k, t, rfl, -⟩ := h
  cases k with
  | zero => rfl
  | succ k => rfl

theorem transforms_proportional (io : NumIO K) (cosDeg : K → K) {n : Str} {c : K} {g g' : List Str} (h : ProportionalCards io n c g g') (a b : List Str) (trs : List (Str × Transform K)) :
    getTransformCards io cosDeg trs (a ++ (g' ++ b)) = getTransformCards io cosDeg trs (a ++ (g ++ b)) := by
  obtain ⟨first, more, rfl, k1, k2, -⟩ := h.cards g (by simp)
  obtain ⟨first', more', rfl, k1', k2', -⟩ := h.cards g' (by simp)
  have begin1 : BeginCard ((first :: more) ++ b) := fun l hl => by cases hl; exact k1
  have begin2 : BeginCard ((first' :: more') ++ b) := fun l hl => by cases hl; exact k1'
  have skip : ∀ {more : List Str} (trs : List (Str × Transform K)), (∀ l ∈ more, isTransformLine l = false) → getTransformCards io cosDeg trs (more ++ b) = getTransformCards io cosDeg trs b := by
    intro more trs hm
    induction more with
    | nil => rfl
    | cons l ls ih =>
      rw [List.cons_append, getTransformCards, hm l (by simp), if_neg (by simp)]
      exact ih fun x hx => hm x (List.mem_cons_of_mem _ hx)
  induction a generalizing trs with
  | nil =>
    obtain ⟨entries, entries', fracs, ⟨⟨f1, m1, q1, hh⟩, -⟩, ⟨⟨f2, m2, q2, hh'⟩, -⟩, -⟩ := h.reads
    cases q1
    cases q2
    rw [List.nil_append, List.nil_append, skip, skip]
    · intro l hl
      rcases List.mem_cons.1 hl with rfl | hl
      exacts [head_not_transform hh, five_not_transform (k2 l hl)]
    · intro l hl
      rcases List.mem_cons.1 hl with rfl | hl
      exacts [head_not_transform hh', five_not_transform (k2' l hl)]
  | cons l a ih =>
    rw [List.cons_append (as := a), List.cons_append (as := a), getTransformCards, getTransformCards]
    split
    · rw [all_begin begin1 (by simp), all_begin begin2 (by simp), if_neg (by simp), if_neg (by simp), takeWhile_begin begin1, takeWhile_begin begin2]
      simp only [ih]
    · exact ih _

/-! ## Processing -/

theorem copy_scaled (io : NumIO K) (mat : Int) (ds : List K) : ∀ {mats mats' : List (Str × Material K)} (cells : List (Cell K)), ScaledMaterials mats mats' →
    BothPy (fun p q => ScaledMaterials p.1 q.1 ∧ q.2 = p.2) (copyMaterials io mat ds mats cells) (copyMaterials io mat ds mats' cells) := by
  induction ds with
  | nil => exact fun cells h => .inr ⟨_, _, rfl, rfl, h, rfl⟩
  | cons x ds ih =>
    intro mats mats' cells h
    rw [copyMaterials, copyMaterials]
    rcases scaled_lookup h (intStr mat) with ⟨e1, e2⟩ | ⟨m, m', e1, e2, c, hc, rfl⟩
    · rw [e1, e2]
      exact .inl ⟨_, rfl, rfl⟩
    · rw [e1, e2]
      simp only
      rw [scaled_keys h]
      exact ih _ (scaled_set h _ ⟨c, hc, rfl⟩)

theorem assign_scaled (io : NumIO K) (md : List (Int × List K)) : ∀ {mats mats' : List (Str × Material K)} (cells : List (Cell K)), ScaledMaterials mats mats' →
    BothPy (fun p q => ScaledMaterials p.1 q.1 ∧ q.2 = p.2) (assignDensities io md mats cells) (assignDensities io md mats' cells) := by
  induction md with
  | nil => exact fun cells h => .inr ⟨_, _, rfl, rfl, h, rfl⟩
  | cons e md ih =>
    intro mats mats' cells h
    obtain ⟨mat, ds⟩ := e
    rw [assignDensities, assignDensities]
    rcases scaled_lookup h (intStr mat) with ⟨e1, e2⟩ | ⟨m, m', e1, e2, c, hc, rfl⟩
    · rw [e1, e2]
      exact .inl ⟨_, rfl, rfl⟩
    · rw [e1, e2]
      simp only
      refine bothPy_bind (R := Eq) ?_ fun d0 _ e0 => ?_
      · cases pyGet ds 0 with
        | error x => exact .inl ⟨x, rfl, rfl⟩
        | ok x => exact .inr ⟨x, x, rfl, rfl, rfl⟩
      · subst e0
        refine bothPy_bind (copy_scaled io mat (ds.drop 1) cells (scaled_set h _ ⟨c, hc, rfl⟩)) fun p q hpq => ?_
        obtain ⟨p1, p2⟩ := p
        obtain ⟨q1, q2⟩ := q
        obtain ⟨k1, rfl⟩ := hpq
        exact ih _ k1

private theorem sum_times (c : K) (l : List (Str × K)) (s : K) : ((timesFactor c l).map Prod.snd).foldl (· + ·) (c * s) = c * (l.map Prod.snd).foldl (· + ·) s := by
  induction l generalizing s with
  | nil => rfl
  | cons e l ih =>
    show ((timesFactor c l).map Prod.snd).foldl (· + ·) (c * s + c * e.2) = _
    rw [← mul_add, ih]
    rfl

theorem normalise_scaled {m m' : Material K} (h : ScaledMaterial m m') : m'.normalise = m.normalise := by
  obtain ⟨c, hc, rfl⟩ := h
  have hs := sum_times c m.composition 0
  rw [mul_zero] at hs
  unfold Material.normalise
  simp only
  rw [hs, abs_mul, abs_of_pos hc]
  have h0 : timesFactor c m.composition ≠ [] ↔ m.composition ≠ [] := by unfold timesFactor; simp
  have h1 : ∀ s : K, c * s = 0 ↔ s = 0 := fun s => by simp [hc.ne']
  simp only [h0, h1]
  split
  · rfl
  · congr 2
    unfold timesFactor
    rw [List.map_map]
    exact List.map_congr_left fun e _ => by
      simp only [Function.comp]
      rw [mul_div_mul_left _ _ hc.ne']

private theorem mapM_scaled {β : Type} (f : Str × Material K → Py β) (hf : ∀ k m m', ScaledMaterial m m' → f (k, m') = f (k, m)) {mats mats' : List (Str × Material K)} (h : ScaledMaterials mats mats') : mats'.mapM f = mats.mapM f := by
  induction h with
  | nil => rfl
  | @cons e e' _ _ h _ ih =>
    obtain ⟨a, x⟩ := e
    obtain ⟨a', x'⟩ := e'
    obtain rfl : a' = a := h.1
    rw [List.mapM_cons, List.mapM_cons, ih, hf _ _ _ h.2]

theorem reorganise_scaled {io : NumIO K} {mats mats' : List (Str × Material K)} (h : ScaledMaterials mats mats') {cells : List (Cell K)} (hint : ∀ c ∈ cells, ∃ z, c.material = .int z)
    {c : Cell K} (hc : c ∈ cells) {z : Int} (hz : c.material = .int z) (h0 : z ≠ 0) : reorganiseMaterials io mats' cells = reorganiseMaterials io mats cells := by
  obtain ⟨md, h1, h2⟩ := materialDensity_spec cells hint [] (fun _ _ => False) ⟨List.nodup_nil, by simp, by simp⟩
  unfold reorganiseMaterials
  rw [h1]
  obtain ⟨ds, hmd, -⟩ := (h2.mem z c.density).2 (.inr ⟨c, hc, hz, rfl⟩)
  have hmf : (z, ds) ∈ md.filter fun e => e.1 ≠ 0 := List.mem_filter.2 ⟨hmd, by simpa using h0⟩
  have hok : ∀ {α β : Type} (a : α) (k : α → Py β), ((.ok a : Py α) >>= k) = k a := fun _ _ => rfl
  rw [hok, hok]
  simp only
  rw [if_neg (List.ne_nil_of_mem hmf), if_neg (List.ne_nil_of_mem hmf)]
  rcases assign_scaled io ((md.filter fun e => e.1 ≠ 0).insertionSort fun a b => a.1 ≤ b.1) cells h with ⟨e, e1, e2⟩ | ⟨p, q, e1, e2, k1, k2⟩
  · rw [e1, e2]
  · obtain ⟨p1, p2⟩ := p
    obtain ⟨q1, q2⟩ := q
    obtain rfl : q2 = p2 := k2
    rw [e1, e2, hok, hok]
    simp only
    rw [mapM_scaled _ (fun k m m' hm => ?_) k1]
    simp only [normalise_scaled hm]

end

end Csg
