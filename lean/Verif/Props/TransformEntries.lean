import Verif.Model.DataCards
import Verif.Spec.Transform
import Verif.Spec.Sample
import Mathlib.Tactic.IntervalCases

/-!
# C109: TR cards with too few or too many entries
-/

namespace Csg

open Spec

section
variable {K : Type} [Field K]

omit [Field K] in
private theorem bindOk {α β : Type} {m : Py α} {g : α → Py β} {b : β} : (m >>= g) = .ok b ↔ ∃ a, m = .ok a ∧ g a = .ok b := by
  cases m with
  | error e => exact ⟨nofun, fun ⟨_, h, _⟩ => nomatch h⟩
  | ok a => exact ⟨fun h => ⟨a, rfl, h⟩, fun ⟨_, h, h'⟩ => by cases h; exact h'⟩

omit [Field K] in
private theorem bindEx {α β : Type} {m : Py α} {g : α → Py β} {a : α} (h : m = .ok a) (h' : ∃ b, g a = .ok b) : ∃ b, (m >>= g) = .ok b := by
  subst h
  exact h'

/-- The word at a position is a number. -/
private def NumAt (io : NumIO K) (ws : List Str) (i : Nat) : Prop := ∃ w, ws[i]? = some w ∧ (io.parse w).isSome

omit [Field K] in
private theorem get_float {io : NumIO K} {ws : List Str} {i : Nat} : (∃ a, pyGet ws i = .ok a ∧ ∃ x, io.float a = .ok x) ↔ NumAt io ws i := by
  constructor
  · rintro ⟨a, h1, x, h2⟩
    refine ⟨a, ?_, ?_⟩
    · unfold pyGet at h1
      split at h1
      · rename_i e; cases h1; exact e
      · cases h1
    · unfold NumIO.float at h2
      split at h2
      · rename_i e; rw [e]; rfl
      · cases h2
  · rintro ⟨w, h1, h2⟩
    obtain ⟨x, hx⟩ := Option.isSome_iff_exists.1 h2
    refine ⟨w, ?_, x, ?_⟩
    · unfold pyGet; rw [h1]
    · unfold NumIO.float; rw [hx]

omit [Field K] in
private theorem float3_iff {io : NumIO K} {ws : List Str} {i : Nat} : (∃ v, float3 io ws i = .ok v) ↔ NumAt io ws i ∧ NumAt io ws (i + 1) ∧ NumAt io ws (i + 2) := by
  rw [← get_float, ← get_float, ← get_float]
  constructor
  · rintro ⟨v, h⟩
    obtain ⟨a, h1, h⟩ := bindOk.1 h
    obtain ⟨x, h2, h⟩ := bindOk.1 h
    obtain ⟨b, h3, h⟩ := bindOk.1 h
    obtain ⟨y, h4, h⟩ := bindOk.1 h
    obtain ⟨c, h5, h⟩ := bindOk.1 h
    obtain ⟨z, h6, h⟩ := bindOk.1 h
    exact ⟨⟨a, h1, x, h2⟩, ⟨b, h3, y, h4⟩, ⟨c, h5, z, h6⟩⟩
  · rintro ⟨⟨a, h1, x, h2⟩, ⟨b, h3, y, h4⟩, ⟨c, h5, z, h6⟩⟩
    exact ⟨⟨x, y, z⟩, bindOk.2 ⟨a, h1, bindOk.2 ⟨x, h2, bindOk.2 ⟨b, h3, bindOk.2 ⟨y, h4, bindOk.2 ⟨c, h5, bindOk.2 ⟨z, h6, rfl⟩⟩⟩⟩⟩⟩⟩

omit [Field K] in
private theorem float3_congr {io : NumIO K} {ws ws' : List Str} {i : Nat} (h0 : ws[i]? = ws'[i]?) (h1 : ws[i + 1]? = ws'[i + 1]?) (h2 : ws[i + 2]? = ws'[i + 2]?) : float3 io ws i = float3 io ws' i := by
  unfold float3 pyGet
  rw [h0, h1, h2]

omit [Field K] in
private theorem numAt_cons {io : NumIO K} {t : Str} {ws : List Str} {i : Nat} : NumAt io (t :: ws) (i + 1) ↔ NumAt io ws i := by
  unfold NumAt
  rw [List.getElem?_cons_succ]

omit [Field K] in
private theorem numAt_take {io : NumIO K} {ws : List Str} {k : Nat} : (∀ i < k, NumAt io ws i) ↔ k ≤ ws.length ∧ ∀ w ∈ ws.take k, (io.parse w).isSome := by
  constructor
  · intro h
    constructor
    · by_contra hk
      obtain ⟨w, hw, -⟩ := h ws.length (by omega)
      rw [List.getElem?_eq_none le_rfl] at hw
      cases hw
    · intro w hw
      obtain ⟨i, hi, rfl⟩ := List.mem_iff_getElem.1 hw
      rw [List.length_take] at hi
      obtain ⟨w, h1, h2⟩ := h i (by omega)
      rw [List.getElem_take]
      rw [List.getElem?_eq_getElem (by omega)] at h1
      cases h1
      exact h2
  · rintro ⟨hk, h⟩ i hi
    refine ⟨ws[i]'(by omega), List.getElem?_eq_getElem (by omega), h _ (List.mem_iff_getElem.2 ⟨i, by rw [List.length_take]; omega, by rw [List.getElem_take]⟩)⟩

/-- What a TR card must have to be read: three numbers; with nine, twelve or thirteen entries the first nine or twelve must be numbers. Nothing else is necessary. What is missing: with other numbers of entries
the card is read all the same (`C109_lost`, `C109_refuted`), and the thirteenth entry is not looked at (`C109_last`, `C109_refuted_last`). -/
theorem C109_partial (io : NumIO K) (cosDeg : K → K) (text t : Str) (ws : List Str) (ht : split text = t :: ws) :
    (∃ r, parseTransform io cosDeg text = .ok r) ↔ (3 ≤ ws.length ∧ ∀ w ∈ ws.take 3, (io.parse w).isSome) ∧ (ws.length = 9 → ∀ w ∈ ws, (io.parse w).isSome) ∧
      (ws.length = 12 ∨ ws.length = 13 → ∀ w ∈ ws.take 12, (io.parse w).isSome) := by
  have e : parseTransform io cosDeg text = (do
      let shift ← float3 io (t :: ws) 1
      let conv : Vec3 K → Vec3 K := fun v => if t.elem '*' then ⟨cosDeg v.x, cosDeg v.y, cosDeg v.z⟩ else v
      if ws.length + 1 = 13 ∨ ws.length + 1 = 14 then do
        let v1 ← float3 io (t :: ws) 4
        let v2 ← float3 io (t :: ws) 7
        let v3 ← float3 io (t :: ws) 10
        .ok (sliceFrom t (findChar 'r' t + 1), ⟨shift, conv v1, conv v2, conv v3⟩)
      else if ws.length + 1 = 10 then do
        let v1 ← float3 io (t :: ws) 4
        let v2 ← float3 io (t :: ws) 7
        .ok (sliceFrom t (findChar 'r' t + 1), ⟨shift, conv v1, conv v2, cross (conv v1) (conv v2)⟩)
      else
        .ok (sliceFrom t (findChar 'r' t + 1), ⟨shift, ⟨1, 0, 0⟩, ⟨0, 1, 0⟩, ⟨0, 0, 1⟩⟩)) := by
    unfold parseTransform
    rw [ht]
    rfl
  rw [e]
  have n3 : (∃ v, float3 io (t :: ws) 1 = .ok v) ↔ ∀ i < 3, NumAt io ws i := by
    rw [float3_iff, numAt_cons, numAt_cons, numAt_cons]
    exact ⟨fun h i hi => by interval_cases i <;> [exact h.1; exact h.2.1; exact h.2.2], fun h => ⟨h 0 (by omega), h 1 (by omega), h 2 (by omega)⟩⟩
  have n4 : (∃ v, float3 io (t :: ws) 4 = .ok v) ↔ NumAt io ws 3 ∧ NumAt io ws 4 ∧ NumAt io ws 5 := by
    rw [float3_iff, numAt_cons, numAt_cons, numAt_cons]
  have n7 : (∃ v, float3 io (t :: ws) 7 = .ok v) ↔ NumAt io ws 6 ∧ NumAt io ws 7 ∧ NumAt io ws 8 := by
    rw [float3_iff, numAt_cons, numAt_cons, numAt_cons]
  have n10 : (∃ v, float3 io (t :: ws) 10 = .ok v) ↔ NumAt io ws 9 ∧ NumAt io ws 10 ∧ NumAt io ws 11 := by
    rw [float3_iff, numAt_cons, numAt_cons, numAt_cons]
  have t9 : ws.length = 9 → ws.take 9 = ws := fun h => List.take_of_length_le (by omega)
  rw [← numAt_take]
  constructor
  · rintro ⟨r, h⟩
    obtain ⟨v, h3, h⟩ := bindOk.1 h
    refine ⟨n3.1 ⟨v, h3⟩, fun h9 => ?_, fun h12 => ?_⟩
    · simp only [h9] at h
      rw [if_neg (by decide), if_pos (by decide)] at h
      obtain ⟨v1, hv1, h⟩ := bindOk.1 h
      obtain ⟨v2, hv2, h⟩ := bindOk.1 h
      rw [← t9 h9]
      refine (numAt_take.1 fun i hi => ?_).2
      have a := n3.1 ⟨v, h3⟩
      have b := n4.1 ⟨v1, hv1⟩
      have c := n7.1 ⟨v2, hv2⟩
      interval_cases i <;> [exact a 0 (by omega); exact a 1 (by omega); exact a 2 (by omega); exact b.1; exact b.2.1; exact b.2.2; exact c.1; exact c.2.1; exact c.2.2]
    · rw [if_pos (by omega)] at h
      obtain ⟨v1, hv1, h⟩ := bindOk.1 h
      obtain ⟨v2, hv2, h⟩ := bindOk.1 h
      obtain ⟨v3, hv3, h⟩ := bindOk.1 h
      refine (numAt_take.1 fun i hi => ?_).2
      have a := n3.1 ⟨v, h3⟩
      have b := n4.1 ⟨v1, hv1⟩
      have c := n7.1 ⟨v2, hv2⟩
      have d := n10.1 ⟨v3, hv3⟩
      interval_cases i <;> [exact a 0 (by omega); exact a 1 (by omega); exact a 2 (by omega); exact b.1; exact b.2.1; exact b.2.2; exact c.1; exact c.2.1; exact c.2.2; exact d.1; exact d.2.1; exact d.2.2]
  · rintro ⟨h3, h9, h12⟩
    obtain ⟨v, hv⟩ := n3.2 h3
    by_cases c12 : ws.length = 12 ∨ ws.length = 13
    · have a := numAt_take.2 ⟨by omega, h12 c12⟩
      obtain ⟨v1, hv1⟩ := n4.2 ⟨a 3 (by omega), a 4 (by omega), a 5 (by omega)⟩
      obtain ⟨v2, hv2⟩ := n7.2 ⟨a 6 (by omega), a 7 (by omega), a 8 (by omega)⟩
      obtain ⟨v3, hv3⟩ := n10.2 ⟨a 9 (by omega), a 10 (by omega), a 11 (by omega)⟩
      refine bindEx hv ?_
      rw [if_pos (by omega)]
      exact bindEx hv1 (bindEx hv2 (bindEx hv3 ⟨_, rfl⟩))
    by_cases c9 : ws.length = 9
    · have a := numAt_take.2 ⟨(by omega : 9 ≤ ws.length), by rw [t9 c9]; exact h9 c9⟩
      obtain ⟨v1, hv1⟩ := n4.2 ⟨a 3 (by omega), a 4 (by omega), a 5 (by omega)⟩
      obtain ⟨v2, hv2⟩ := n7.2 ⟨a 6 (by omega), a 7 (by omega), a 8 (by omega)⟩
      refine bindEx hv ?_
      rw [if_neg (by omega), if_pos (by omega)]
      exact bindEx hv1 (bindEx hv2 ⟨_, rfl⟩)
    · refine bindEx hv ?_
      rw [if_neg (by omega), if_neg (by omega)]
      exact ⟨_, rfl⟩

/-- With numbers of entries other than nine, twelve and thirteen everything after the displacement is lost: the card is read as the card without it. -/
theorem C109_lost (io : NumIO K) (cosDeg : K → K) (text text' t : Str) (ws : List Str) (ht : split text = t :: ws) (ht' : split text' = t :: ws.take 3) (h9 : ws.length ≠ 9) (h12 : ws.length ≠ 12)
    (h13 : ws.length ≠ 13) : parseTransform io cosDeg text = parseTransform io cosDeg text' := by
  have hl : (ws.take 3).length ≤ 3 := by rw [List.length_take]; omega
  have e : float3 io (t :: ws) 1 = float3 io (t :: ws.take 3) 1 := by
    refine float3_congr ?_ ?_ ?_ <;> simp
  unfold parseTransform
  rw [ht, ht']
  simp only [List.length_cons, e]
  have a1 : ¬ (ws.length + 1 = 13 ∨ ws.length + 1 = 14) := by omega
  have a2 : ¬ ws.length + 1 = 10 := by omega
  have a3 : ¬ ((ws.take 3).length + 1 = 13 ∨ (ws.take 3).length + 1 = 14) := by omega
  have a4 : ¬ (ws.take 3).length + 1 = 10 := by omega
  simp only [if_neg a1, if_neg a2, if_neg a3, if_neg a4]
  rfl

/-- The thirteenth entry is not looked at. In MCNP it says in which direction the displacement goes. -/
theorem C109_last (io : NumIO K) (cosDeg : K → K) (text text' t : Str) (ws : List Str) (w : Str) (ht : split text = t :: (ws ++ [w])) (ht' : split text' = t :: ws) (hl : ws.length = 12) :
    parseTransform io cosDeg text = parseTransform io cosDeg text' := by
  have e : ∀ i, i < 11 → float3 io (t :: (ws ++ [w])) i = float3 io (t :: ws) i := by
    intro i hi
    have key : ∀ j, j < 13 → (t :: (ws ++ [w]))[j]? = (t :: ws)[j]? := by
      intro j hj
      rw [show t :: (ws ++ [w]) = (t :: ws) ++ [w] from rfl, List.getElem?_append_left (by rw [List.length_cons]; omega)]
    exact float3_congr (key _ (by omega)) (key _ (by omega)) (key _ (by omega))
  unfold parseTransform
  rw [ht, ht']
  simp only [List.length_cons, List.length_append, List.length_nil, e 1 (by omega), e 4 (by omega), e 7 (by omega), e 10 (by omega)]
  have a1 : ws.length + (0 + 1) + 1 = 13 ∨ ws.length + (0 + 1) + 1 = 14 := by omega
  have a2 : ws.length + 1 = 13 ∨ ws.length + 1 = 14 := by omega
  simp only [if_pos a1, if_pos a2]
  rfl

end

/-- C109 is false: a card with one row of the rotation and an entry that is no number is read as a displacement. MCNP would complete the rotation from the row. -/
theorem C109_refuted : parseTransform sampleIO id c!"tr1 1 2 3 0 1 0 1 x" = .ok (c!"1", ⟨⟨1, 2, 3⟩, ⟨1, 0, 0⟩, ⟨0, 1, 0⟩, ⟨0, 0, 1⟩⟩) := by decide +kernel

/-- With `-1` in the thirteenth place the displacement is taken as with `1`. -/
theorem C109_refuted_last : parseTransform sampleIO id c!"tr1 1 2 3 0 1 0 -1 0 0 0 0 1 -1" = parseTransform sampleIO id c!"tr1 1 2 3 0 1 0 -1 0 0 0 0 1 1" ∧
    (parseTransform sampleIO id c!"tr1 1 2 3 0 1 0 -1 0 0 0 0 1 -1").toOption.isSome := by decide +kernel

/-- Cards as in the theorems: one that is read, one that is too short, one with an entry that is no number. -/
example : split c!"tr1 1 2 3 0 1 0 -1 0 0" = c!"tr1" :: [c!"1", c!"2", c!"3", c!"0", c!"1", c!"0", c!"-1", c!"0", c!"0"] ∧
    (parseTransform sampleIO id c!"tr1 1 2 3 0 1 0 -1 0 0").toOption.isSome ∧ parseTransform sampleIO id c!"tr1 1 2" = .error .indexError ∧
    parseTransform sampleIO id c!"tr1 1 2 3 0 1 0 -1 0 x" = .error .valueError := by decide +kernel

end Csg
