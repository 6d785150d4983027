import Mathlib.Data.List.Perm.Subperm
import Verif.Lemmas.Lines
import Verif.Lemmas.Material
import Verif.Lemmas.Merge
import Verif.Spec.FlukaFile

/-!
# Lemmas about the FLUKA file
-/

namespace Csg

open Spec

theorem readlines_map (ts : List Str) (h : ∀ t ∈ ts, '\n' ∉ t) : readlines (ts.map (· ++ ['\n'])).flatten = ts.map (· ++ ['\n']) := by
  have := readlines_lines (ts.map (· ++ ['\n'])) [] (by
    intro l hl
    obtain ⟨t, ht, rfl⟩ := List.mem_map.1 hl
    exact ⟨t, h t ht, rfl⟩)
  rw [List.append_nil] at this
  rw [this]
  simp [readlines]

theorem flukaLines_map (ts : List Str) (h : ∀ t ∈ ts, '\n' ∉ t) : flukaLines (ts.map (· ++ ['\n'])).flatten = ts.filter fun t => t.head? ≠ some '*' := by
  unfold flukaLines
  rw [readlines_map ts h]
  induction ts with
  | nil => rfl
  | cons t ts ih =>
    have ih := ih fun x hx => h x (by simp [hx])
    have e : (t ++ ['\n']).head? = some '*' ↔ t.head? = some '*' := by cases t <;> simp
    have e2 : (t ++ ['\n']).filter (· ≠ '\n') = t := by
      rw [List.filter_append]
      have : t.filter (· ≠ '\n') = t := List.filter_eq_self.2 fun c hc => by
        have : c ≠ '\n' := by rintro rfl; exact h t (by simp) hc
        simpa using this
      rw [this]; simp
    by_cases hs : t.head? = some '*'
    · rw [List.map_cons, List.filter_cons_of_neg (by rw [decide_eq_true_iff, not_not]; exact e.2 hs), List.filter_cons_of_neg (by simp [hs]), ih]
    · rw [List.map_cons, List.filter_cons_of_pos (by rw [decide_eq_true_iff]; exact fun h => hs (e.1 h)), List.filter_cons_of_pos (by simp [hs]), List.map_cons, ih, e2]

theorem cutAt_append (p : Str → Bool) : ∀ (xs : List Str) (y : Str) (zs : List Str), (∀ x ∈ xs, p x = false) → p y = true → cutAt p (xs ++ y :: zs) = some (xs, zs) := by
  intro xs
  induction xs with
  | nil => intro y zs _ hy; simp [cutAt, hy]
  | cons x xs ih =>
    intro y zs h hy
    rw [List.cons_append, cutAt, if_neg (by simp [h x (by simp)]), ih y zs (fun x hx => h x (by simp [hx])) hy]
    rfl

theorem flukaBodies_words {bs : List (Str × Str × List Str)} (h : ∀ b ∈ bs, flukaArity.lookup b.1 = some b.2.2.length) :
    flukaBodies (bs.flatMap fun b => b.1 :: b.2.1 :: b.2.2) = some bs := by
  induction bs with
  | nil => simp [flukaBodies]
  | cons b bs ih =>
    obtain ⟨kw, name, ws⟩ := b
    have hb := h _ List.mem_cons_self
    dsimp only at hb
    rw [List.flatMap_cons]
    simp only [List.cons_append]
    rw [flukaBodies, hb]
    simp only [List.length_append]
    rw [if_neg (by omega), List.drop_left, List.take_left, ih fun b hb => h b (List.mem_cons_of_mem _ hb)]
    rfl

theorem squeezePairs_mem {c x : Char} : ∀ {s : Str}, x ∈ squeezePairs c s → x ∈ s := by
  intro s
  fun_induction squeezePairs c s with
  | case1 => exact id
  | case2 => exact id
  | case3 a b s h ih =>
    intro hx
    rcases List.mem_cons.1 hx with rfl | hx
    · simp [h.1]
    · exact List.mem_cons_of_mem _ (List.mem_cons_of_mem _ (ih hx))
  | case4 a b s h ih =>
    intro hx
    rcases List.mem_cons.1 hx with rfl | hx
    · simp
    · exact List.mem_cons_of_mem _ (ih hx)

theorem flukaSigns_mem {x : Char} : ∀ {s : Str}, x ∈ flukaSigns s → x ∈ s := by
  intro s
  fun_induction flukaSigns s with
  | case1 s ih =>
    intro hx
    rcases List.mem_cons.1 hx with rfl | hx
    · simp
    · rcases List.mem_cons.1 hx with rfl | hx
      · simp
      · exact List.mem_cons_of_mem _ (List.mem_cons_of_mem _ (List.mem_cons_of_mem _ (ih hx)))
  | case2 c s h ih =>
    intro hx
    rcases List.mem_cons.1 hx with rfl | hx
    · simp
    · exact List.mem_cons_of_mem _ (ih hx)
  | case3 => exact id

/-- The end of the line stays. -/
theorem squeezePairs_newline : ∀ s : Str, squeezePairs ' ' (s ++ ['\n']) = squeezePairs ' ' s ++ ['\n'] := by
  intro s
  fun_induction squeezePairs ' ' s with
  | case1 => rfl
  | case2 a => rw [List.cons_append, List.nil_append, squeezePairs, if_neg (by simp)]; rfl
  | case3 a b s h ih => rw [List.cons_append, List.cons_append, squeezePairs, if_pos h, ih]; rfl
  | case4 a b s h ih => rw [List.cons_append, List.cons_append, squeezePairs, if_neg h, ← List.cons_append, ih]; rfl

theorem flukaSigns_newline : ∀ s : Str, flukaSigns (s ++ ['\n']) = flukaSigns s ++ ['\n'] := by
  intro s
  fun_induction flukaSigns s with
  | case1 s ih => simp only [List.cons_append]; rw [flukaSigns_signed, ih]
  | case2 c s h ih =>
    rw [List.cons_append, flukaSigns_other, ih]; · rfl
    rintro ⟨r, rfl, hr⟩
    match s, h, hr with
    | [], _, hr => simp at hr
    | [a], _, hr => simp at hr
    | a :: b :: t, h, hr =>
      simp only [List.cons_append, List.cons.injEq] at hr
      obtain ⟨rfl, rfl, -⟩ := hr
      exact h t rfl rfl
  | case3 => rfl

/-- The text of a region is one line. -/
theorem writeFlukaCell_line {K : Type} [Field K] (c : Cell K) (hw : ∀ s, .str s ∈ c.interpreted → ¬ IsParen s → ∃ z, z ≠ 0 ∧ pyInt s = .ok z) {text : Str} (h : writeFlukaCell c = .ok text) :
    ∃ t, '\n' ∉ t ∧ text = t ++ ['\n'] := by
  unfold writeFlukaCell at h
  cases hm : c.interpreted.mapM flukaItem with
  | error e => rw [hm] at h; cases h
  | ok ws =>
    rw [hm] at h
    cases h
    rw [show (c!"\n" : Str) = ['\n'] from rfl, squeezePairs_newline, flukaSigns_newline]
    refine ⟨_, fun hx => ?_, rfl⟩
    have hx := squeezePairs_mem (flukaSigns_mem hx)
    have hitem : ∀ w ∈ ws, '\n' ∉ w := by
      intro w hww
      obtain ⟨i, hi, e⟩ := forall₂_mem_right (mapM_ok_iff.1 hm) hww
      cases i with
      | op o => cases o <;> cases e <;> decide
      | str s =>
        simp only [flukaItem] at e
        split at e
        · cases e; decide
        · split at e
          · cases e; decide
          · rename_i h1 h2
            obtain ⟨z, hz, he⟩ := hw s hi (by rintro (h | h) <;> contradiction)
            rw [he] at e
            simp only [bind, Except.bind] at e
            split at e
            · cases e
              have : '\n' ∉ natStr z.natAbs := intStr_not_mem (z.natAbs : Int) (by decide) (by decide)
              simpa using this
            · split at e
              · cases e
                have : '\n' ∉ intStr z := intStr_not_mem z (by decide) (by decide)
                simpa using this
              · omega
    have hid : '\n' ∉ intStr c.id := intStr_not_mem _ (by decide) (by decide)
    simp only [List.mem_append, List.mem_flatten] at hx
    rcases hx with ((((hx | hx) | hx) | hx) | ⟨w, hw, hx⟩) | hx
    · revert hx; decide
    · exact hid hx
    · revert hx; decide
    · revert hx; decide
    · exact hitem w hw hx
    · revert hx; decide

set_option maxHeartbeats 1000000 in
/-- The text of a body is one line and no comment. -/
theorem flukaSurface_line {K : Type} [Field K] [LinearOrder K] {io : NumIO K} {sqrt : K → K} (hio : ∀ x, '\n' ∉ io.render x) {s s' : Surface K} (hw : WellFormed s) (hs : FlukaReady s) {text : Str}
    (h : flukaSurface io sqrt s = .ok (text, s')) : ∃ t, '\n' ∉ t ∧ t.head? ≠ some '*' ∧ text = t ++ ['\n'] := by
  obtain ⟨ty, n, tr, cs, bc, bb⟩ := s
  have hn : '\n' ∉ intStr n := intStr_not_mem _ (by decide) (by decide)
  have trailing : ∀ xs : List K, '\n' ∉ xs.flatMap fun x => io.render x ++ c!" " := by
    intro xs hx
    obtain ⟨x, -, hx⟩ := List.mem_flatMap.1 hx
    simp [hio x] at hx
  have both : ∀ xs : List K, '\n' ∉ xs.flatMap fun x => c!" " ++ io.render x ++ c!" " := by
    intro xs hx
    obtain ⟨x, -, hx⟩ := List.mem_flatMap.1 hx
    simp [hio x] at hx
  have plane : ∀ kw : Str, '\n' ∉ kw ∧ kw.head? ≠ some '*' ∧ kw ≠ [] → ∀ r : Str, '\n' ∉ r → ∃ t, '\n' ∉ t ∧ t.head? ≠ some '*' ∧ kw ++ c!" S" ++ intStr n ++ r ++ c!"\n" = t ++ ['\n'] := by
    intro kw hk r hr
    refine ⟨_, ?_, ?_, rfl⟩
    · simp [hk.1, hn, hr]
    · cases kw with
      | nil => exact absurd rfl hk.2.2
      | cons a kw => simpa using hk.2.1
  cases ty
  case planeX =>
    match cs, hw with
    | [a, b, c, d], _ =>
      cases h
      obtain ⟨t, h1, h2, h3⟩ := plane c!"YZP" (by decide) (c!" " ++ io.render d) (by simp [hio])
      exact ⟨t, h1, h2, by rw [← h3]; simp [flukaHead]⟩
  case planeY =>
    match cs, hw with
    | [a, b, c, d], _ =>
      cases h
      obtain ⟨t, h1, h2, h3⟩ := plane c!"XZP" (by decide) (c!" " ++ io.render d) (by simp [hio])
      exact ⟨t, h1, h2, by rw [← h3]; simp [flukaHead]⟩
  case planeZ =>
    match cs, hw with
    | [a, b, c, d], _ =>
      cases h
      obtain ⟨t, h1, h2, h3⟩ := plane c!"XYP" (by decide) (c!" " ++ io.render d) (by simp [hio])
      exact ⟨t, h1, h2, by rw [← h3]; simp [flukaHead]⟩
  case cylinderX =>
    match cs, hw with
    | [a, b, c], _ =>
      cases h
      obtain ⟨t, h1, h2, h3⟩ := plane c!"XCC" (by decide) (c!" " ++ [a, b, c].flatMap fun x => io.render x ++ c!" ") (by simpa using trailing [a, b, c])
      exact ⟨t, h1, h2, by rw [← h3]; simp [flukaHead]⟩
  case cylinderY =>
    match cs, hw with
    | [a, b, c], _ =>
      cases h
      obtain ⟨t, h1, h2, h3⟩ := plane c!"YCC" (by decide) (c!" " ++ [b, a, c].flatMap fun x => io.render x ++ c!" ") (by simpa using trailing [b, a, c])
      exact ⟨t, h1, h2, by rw [← h3]; simp [flukaHead]⟩
  case cylinderZ =>
    match cs, hw with
    | [a, b, c], _ =>
      cases h
      obtain ⟨t, h1, h2, h3⟩ := plane c!"ZCC" (by decide) (c!" " ++ [a, b, c].flatMap fun x => io.render x ++ c!" ") (by simpa using trailing [a, b, c])
      exact ⟨t, h1, h2, by rw [← h3]; simp [flukaHead]⟩
  case sphereGeneral =>
    match cs, hw with
    | [a, b, c, d], _ =>
      cases h
      obtain ⟨t, h1, h2, h3⟩ := plane c!"SPH" (by decide) (c!" " ++ join c!" " ([a, b, c, d].map io.render)) (by simp [join, hio])
      exact ⟨t, h1, h2, by rw [← h3]; simp [flukaHead]⟩
  case generalQuadratic =>
    match cs, hw with
    | [a, b, c, d, e, f, g, h', j, k], _ =>
      cases h
      obtain ⟨t, h1, h2, h3⟩ := plane c!"QUA" (by decide) ([a, b, c, d, f, e, g, h', j, k].flatMap fun x => c!" " ++ io.render x ++ c!" ") (both _)
      exact ⟨t, h1, h2, by rw [← h3]; simp [flukaHead]⟩
  case planeGeneral =>
    match cs, hw with
    | [a, b, c, d], _ =>
      have e : flukaSurface io sqrt ⟨.planeGeneral, n, tr, [a, b, c, d], bc, bb⟩ = (flukaPlane io ⟨.planeGeneral, n, tr, [a, b, c, d], bc, bb⟩).map (·, (⟨.planeGeneral, n, tr, [a, b, c, d], bc, bb⟩ : Surface K)) := rfl
      rw [e] at h
      simp only [flukaPlane, pyGet, bind, Except.bind, List.getElem?_cons_zero, List.getElem?_cons_succ] at h
      split at h
      · cases h
      · cases h
        obtain ⟨t, h1, h2, h3⟩ := plane c!"PLA" (by decide) (c!" " ++ [a, b, c, a * (a * 0 + b * 0 + c * 0 + d) / (a ^ 2 + b ^ 2 + c ^ 2), b * (a * 0 + b * 0 + c * 0 + d) / (a ^ 2 + b ^ 2 + c ^ 2),
          c * (a * 0 + b * 0 + c * 0 + d) / (a ^ 2 + b ^ 2 + c ^ 2)].flatMap fun x => io.render x ++ c!" ") (by simp [hio])
        exact ⟨t, h1, h2, by rw [← h3]; simp [flukaHead]⟩
  case coneX =>
    match cs, hw, bb, hs with
    | [x, y, z, t, w], _, [lo, hi, k₁, k₂, k₃, k₄], hs =>
      have hw1 : w = 1 ∨ w = -1 := hs.1
      have hw0 : w ≠ 0 := by rcases hw1 with rfl | rfl <;> simp
      have e0 : flukaSurface io sqrt ⟨.coneX, n, tr, [x, y, z, t, w], bc, [lo, hi, k₁, k₂, k₃, k₄]⟩ = flukaCone io sqrt ⟨.coneX, n, tr, [x, y, z, t, w], bc, [lo, hi, k₁, k₂, k₃, k₄]⟩ := rfl
      rw [e0] at h
      cases hsh : flukaSheet .coneX w lo hi x with
      | error err => simp [flukaCone, pyGet, bind, Except.bind, hw0, hsh] at h
      | ok eh =>
        obtain ⟨e, k⟩ := eh
        simp only [flukaCone, pyGet, bind, Except.bind, List.getElem?_cons_zero, List.getElem?_cons_succ, if_pos hw0, hsh, Nat.mul_zero, Nat.zero_add] at h
        split at h
        · cases h
        · cases h
          obtain ⟨t', h1, h2, h3⟩ := plane c!"TRC" (by decide) (c!" " ++ (io.render e ++ c!" " ++ io.render y ++ c!" " ++ io.render z ++ c!" " ++ io.render k ++ c!" 0. 0. ") ++ io.render (|k| * sqrt t) ++ c!" 0.0") (by simp [hio])
          exact ⟨t', h1, h2, by rw [← h3]; simp [flukaHead]⟩
  case coneY =>
    match cs, hw, bb, hs with
    | [x, y, z, t, w], _, [k₁, k₂, lo, hi, k₃, k₄], hs =>
      have hw1 : w = 1 ∨ w = -1 := hs.1
      have hw0 : w ≠ 0 := by rcases hw1 with rfl | rfl <;> simp
      have e0 : flukaSurface io sqrt ⟨.coneY, n, tr, [x, y, z, t, w], bc, [k₁, k₂, lo, hi, k₃, k₄]⟩ = flukaCone io sqrt ⟨.coneY, n, tr, [x, y, z, t, w], bc, [k₁, k₂, lo, hi, k₃, k₄]⟩ := rfl
      rw [e0] at h
      cases hsh : flukaSheet .coneY w lo hi y with
      | error err => simp [flukaCone, pyGet, bind, Except.bind, hw0, hsh] at h
      | ok eh =>
        obtain ⟨e, k⟩ := eh
        simp only [flukaCone, pyGet, bind, Except.bind, List.getElem?_cons_zero, List.getElem?_cons_succ, if_pos hw0, hsh, Nat.mul_one, Nat.reduceAdd] at h
        split at h
        · cases h
        · cases h
          obtain ⟨t', h1, h2, h3⟩ := plane c!"TRC" (by decide) (c!" " ++ (io.render x ++ c!" " ++ io.render e ++ c!" " ++ io.render z ++ c!" " ++ c!"0. " ++ io.render k ++ c!" 0. ") ++ io.render (|k| * sqrt t) ++ c!" 0.0") (by simp [hio])
          exact ⟨t', h1, h2, by rw [← h3]; simp [flukaHead]⟩
  case coneZ =>
    match cs, hw, bb, hs with
    | [x, y, z, t, w], _, [k₁, k₂, k₃, k₄, lo, hi], hs =>
      have hw1 : w = 1 ∨ w = -1 := hs.1
      have hw0 : w ≠ 0 := by rcases hw1 with rfl | rfl <;> simp
      have e0 : flukaSurface io sqrt ⟨.coneZ, n, tr, [x, y, z, t, w], bc, [k₁, k₂, k₃, k₄, lo, hi]⟩ = flukaCone io sqrt ⟨.coneZ, n, tr, [x, y, z, t, w], bc, [k₁, k₂, k₃, k₄, lo, hi]⟩ := rfl
      rw [e0] at h
      cases hsh : flukaSheet .coneZ w lo hi z with
      | error err => simp [flukaCone, pyGet, bind, Except.bind, hw0, hsh] at h
      | ok eh =>
        obtain ⟨e, k⟩ := eh
        simp only [flukaCone, pyGet, bind, Except.bind, List.getElem?_cons_zero, List.getElem?_cons_succ, if_pos hw0, hsh, Nat.reduceMul, Nat.reduceAdd] at h
        split at h
        · cases h
        · cases h
          obtain ⟨t', h1, h2, h3⟩ := plane c!"TRC" (by decide) (c!" " ++ (io.render x ++ c!" " ++ io.render y ++ c!" " ++ io.render e ++ c!" " ++ c!"0. 0. " ++ io.render k ++ c!" ") ++ io.render (|k| * sqrt t) ++ c!" 0.0") (by simp [hio])
          exact ⟨t', h1, h2, by rw [← h3]; simp [flukaHead]⟩
  all_goals cases hs

theorem field_end {t : Str} (h : t.length = 80) {i : Nat} (hi : i ≤ 7) : field (t ++ ['\n']) i = field t i := by
  unfold field
  rw [List.drop_append_of_le_length (by omega), List.take_append_of_le_length (by rw [List.length_drop]; omega)]

theorem compoundPairs_end {t : Str} (h : t.length = 80) : compoundPairs (t ++ ['\n']) = compoundPairs t := by
  unfold compoundPairs
  simp only [List.map_cons, List.map_nil]
  rw [field_end h (by omega), field_end h (by omega), field_end h (by omega), field_end h (by omega), field_end h (by omega), field_end h (by omega)]

end Csg
