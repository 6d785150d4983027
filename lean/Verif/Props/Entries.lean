import Verif.Lemmas.SurfaceCard
import Verif.Lemmas.CellText
import Verif.Spec.Sample
import Verif.Spec.Entries

/-!
# C108: surface cards with too few or too many entries
-/

namespace Csg

open Spec

section
variable {K : Type} [Field K] [LinearOrder K]

private def Got (c : Coeffs K) (k : Nat) : Prop := ∀ i < k, ∃ x, c.get i = .ok x

omit [Field K] [LinearOrder K] in
private theorem first_got {c : Coeffs K} : ∀ {k : Nat} {l : List K}, c.first k = .ok l → Got c k := by
  intro k
  induction k with
  | zero => intro l _ i hi; omega
  | succ k ih =>
    intro l h i hi
    obtain ⟨l', h1, h⟩ := bind_ok h
    obtain ⟨x, h2, -⟩ := bind_ok h
    rcases Nat.lt_succ_iff_lt_or_eq.1 hi with hi | rfl
    · exact ih h1 i hi
    · exact ⟨x, h2⟩

omit [Field K] [LinearOrder K] in
private theorem first_congr {c c' : Coeffs K} : ∀ {k : Nat}, (∀ i < k, c.get i = c'.get i) → c.first k = c'.first k := by
  intro k
  induction k with
  | zero => intro _; rfl
  | succ k ih =>
    intro h
    rw [Coeffs.first, Coeffs.first, ih fun i hi => h i (by omega), h k (by omega)]

omit [Field K] [LinearOrder K] in
private theorem got_words {io : NumIO K} {ws : List Str} {k : Nat} (h : Got (.ofWords io ws) k) : k ≤ ws.length ∧ ∀ w ∈ ws.take k, (io.parse w).isSome := by
  have key : ∀ i < k, ∃ w, ws[i]? = some w ∧ (io.parse w).isSome := by
    intro i hi
    obtain ⟨x, hx⟩ := h i hi
    obtain ⟨w, h1, h2⟩ := bind_ok hx
    refine ⟨w, ?_, ?_⟩
    · unfold pyGet at h1
      split at h1
      · rename_i a ha; cases h1; exact ha
      · cases h1
    · unfold NumIO.float at h2
      split at h2
      · rename_i a ha; rw [ha]; rfl
      · cases h2
  constructor
  · by_contra hlt
    obtain ⟨w, hw, -⟩ := key ws.length (by omega)
    rw [List.getElem?_eq_none le_rfl] at hw
    cases hw
  · intro w hw
    obtain ⟨i, hi, rfl⟩ := List.mem_iff_getElem.1 hw
    rw [List.length_take] at hi
    obtain ⟨w, h1, h2⟩ := key i (by omega)
    rw [List.getElem_take]
    rw [List.getElem?_eq_getElem (by omega)] at h1
    cases h1
    exact h2

omit [Field K] [LinearOrder K] in
private theorem succ_got {c : Coeffs K} {k : Nat} (h : Got c k) {x : K} (hx : c.get k = .ok x) : Got c (k + 1) := by
  intro i hi
  rcases Nat.lt_succ_iff_lt_or_eq.1 hi with hi | rfl
  · exact h i hi
  · exact ⟨x, hx⟩

omit [Field K] [LinearOrder K] in
private theorem zero_got (c : Coeffs K) : Got c 0 := fun i hi => by omega

omit [Field K] [LinearOrder K] in
private theorem got_first {c : Coeffs K} : ∀ {k : Nat}, Got c k → ∃ l, c.first k = .ok l ∧ l.length = k := by
  intro k
  induction k with
  | zero => intro _; exact ⟨[], rfl, rfl⟩
  | succ k ih =>
    intro h
    obtain ⟨l, hl, hn⟩ := ih fun i hi => h i (by omega)
    obtain ⟨x, hx⟩ := h k (by omega)
    refine ⟨l ++ [x], ?_, by simp [hn]⟩
    rw [Coeffs.first, hl]
    change (c.get k >>= fun x => (.ok (l ++ [x]) : Py (List K))) = _
    rw [hx]
    rfl

omit [Field K] [LinearOrder K] in
private theorem words_got {io : NumIO K} {ws : List Str} {k : Nat} (hk : k ≤ ws.length) (h : ∀ w ∈ ws.take k, (io.parse w).isSome) : Got (.ofWords io ws) k := by
  intro i hi
  obtain ⟨x, hx⟩ := Option.isSome_iff_exists.1 (h (ws[i]'(by omega)) (List.mem_iff_getElem.2 ⟨i, by rw [List.length_take]; omega, by rw [List.getElem_take]⟩))
  refine ⟨x, ?_⟩
  change (pyGet ws i >>= fun w => io.float w) = _
  have e : pyGet ws i = .ok (ws[i]'(by omega)) := by
    unfold pyGet
    rw [List.getElem?_eq_getElem (by omega)]
  rw [e]
  change io.float _ = _
  unfold NumIO.float
  rw [hx]

/-- What a card that is read must have. -/
private def Need (c : Coeffs K) (counts : List Nat) : Prop := ∃ k ∈ counts, Got c k ∧ (c.len ∈ counts → k = c.len)

omit [Field K] [LinearOrder K] in
private theorem need_one {c : Coeffs K} {k : Nat} (h : Got c k) : Need c [k] := ⟨k, by simp, h, fun hc => (List.mem_singleton.1 hc).symm⟩

omit [Field K] [LinearOrder K] in
private theorem need_more {c : Coeffs K} {k : Nat} {w : K} (h : Got c k) (hl : c.len = k + 1) (hw : c.get k = .ok w) : Need c [k, k + 1] :=
  ⟨k + 1, by simp, succ_got h hw, fun _ => hl.symm⟩

omit [Field K] [LinearOrder K] in
private theorem need_less {c : Coeffs K} {k : Nat} (h : Got c k) (hl : c.len ≠ k + 1) : Need c [k, k + 1] := by
  refine ⟨k, by simp, h, fun hc => ?_⟩
  simp only [List.mem_cons, List.not_mem_nil, or_false] at hc
  omega

private theorem fields_need {n : Int} {tr : Option Str} {mn : Str} {counts : List Nat} {c : Coeffs K} {s : Surface K} (hm : (mn, counts) ∈ entryCounts)
    (h : classifyFields ⟨n, tr, mn, c⟩ = .ok s) : Need c counts ∧ (mn = c!"p" → c.len ∈ counts) := by
  have key : (mn = c!"p" ∧ counts = [4, 9]) ∨ mn ≠ c!"p" := by
    revert hm
    generalize hq : (mn, counts) = q
    intro hm
    by_cases hp : mn = c!"p"
    · subst hp hq
      refine .inl ⟨rfl, ?_⟩
      simpa [entryCounts] using hm
    · exact .inr hp
  rcases key with ⟨rfl, rfl⟩ | hp
  · change classifyGeneralPlanes .blank ⟨n, tr, c!"p", c⟩ = .ok s at h
    unfold classifyGeneralPlanes at h
    split at h
    · rename_i hl
      obtain ⟨l, h1, -⟩ := bind_ok h
      exact ⟨⟨9, by simp, first_got h1, fun _ => hl.symm⟩, fun _ => by rw [show c.len = 9 from hl]; simp⟩
    · split at h
      · rename_i hl
        obtain ⟨l, h1, -⟩ := bind_ok h
        exact ⟨⟨4, by simp, first_got h1, fun _ => hl.symm⟩, fun _ => by rw [show c.len = 4 from hl]; simp⟩
      · cases h
  refine ⟨?_, fun e => absurd e hp⟩
  unfold classifyFields at h
  simp only [entryCounts, List.mem_cons, List.not_mem_nil, or_false, Prod.mk.injEq] at hm
  rcases hm with ⟨rfl, rfl⟩ | ⟨rfl, rfl⟩ | ⟨rfl, rfl⟩ | ⟨rfl, rfl⟩ | ⟨rfl, rfl⟩ | ⟨rfl, rfl⟩ | ⟨rfl, rfl⟩ | ⟨rfl, rfl⟩ | ⟨rfl, rfl⟩ | ⟨rfl, rfl⟩ | ⟨rfl, rfl⟩ | ⟨rfl, rfl⟩ | ⟨rfl, rfl⟩ | ⟨rfl, rfl⟩ | ⟨rfl, rfl⟩ | ⟨rfl, rfl⟩ | ⟨rfl, rfl⟩ | ⟨rfl, rfl⟩ | ⟨rfl, rfl⟩ | ⟨rfl, rfl⟩ | ⟨rfl, rfl⟩ | ⟨rfl, rfl⟩ | ⟨rfl, rfl⟩ | ⟨rfl, rfl⟩ | ⟨rfl, rfl⟩ | ⟨rfl, rfl⟩ | ⟨rfl, rfl⟩ | ⟨rfl, rfl⟩ | ⟨rfl, rfl⟩ | ⟨rfl, rfl⟩
  · exact absurd rfl hp
  · change classifyXyzPlanes .blank ⟨n, tr, c!"px", c⟩ = .ok s at h
    obtain ⟨x0, h0, h⟩ := bind_ok h
    exact need_one (succ_got (zero_got c) h0)
  · change classifyXyzPlanes .blank ⟨n, tr, c!"py", c⟩ = .ok s at h
    obtain ⟨x0, h0, h⟩ := bind_ok h
    exact need_one (succ_got (zero_got c) h0)
  · change classifyXyzPlanes .blank ⟨n, tr, c!"pz", c⟩ = .ok s at h
    obtain ⟨x0, h0, h⟩ := bind_ok h
    exact need_one (succ_got (zero_got c) h0)
  · change classifyOriginSphere .blank ⟨n, tr, c!"so", c⟩ = .ok s at h
    obtain ⟨x0, h0, h⟩ := bind_ok h
    exact need_one (succ_got (zero_got c) h0)
  · change classifyGeneralSphere .blank ⟨n, tr, c!"s", c⟩ = .ok s at h
    obtain ⟨l, h0, -⟩ := bind_ok h
    exact need_one (first_got h0)
  · change classifyXyzSphere .blank ⟨n, tr, c!"sx", c⟩ = .ok s at h
    obtain ⟨x0, h0, h⟩ := bind_ok h
    obtain ⟨x1, h1, h⟩ := bind_ok h
    exact need_one (succ_got (succ_got (zero_got c) h0) h1)
  · change classifyXyzSphere .blank ⟨n, tr, c!"sy", c⟩ = .ok s at h
    obtain ⟨x0, h0, h⟩ := bind_ok h
    obtain ⟨x1, h1, h⟩ := bind_ok h
    exact need_one (succ_got (succ_got (zero_got c) h0) h1)
  · change classifyXyzSphere .blank ⟨n, tr, c!"sz", c⟩ = .ok s at h
    obtain ⟨x0, h0, h⟩ := bind_ok h
    obtain ⟨x1, h1, h⟩ := bind_ok h
    exact need_one (succ_got (succ_got (zero_got c) h0) h1)
  · change classifyCylinderParallel .blank ⟨n, tr, c!"c/x", c⟩ = .ok s at h
    obtain ⟨l, h0, -⟩ := bind_ok h
    exact need_one (first_got h0)
  · change classifyCylinderParallel .blank ⟨n, tr, c!"c/y", c⟩ = .ok s at h
    obtain ⟨l, h0, -⟩ := bind_ok h
    exact need_one (first_got h0)
  · change classifyCylinderParallel .blank ⟨n, tr, c!"c/z", c⟩ = .ok s at h
    obtain ⟨l, h0, -⟩ := bind_ok h
    exact need_one (first_got h0)
  · change classifyCylinderOnAxis .blank ⟨n, tr, c!"cx", c⟩ = .ok s at h
    obtain ⟨x0, h0, h⟩ := bind_ok h
    exact need_one (succ_got (zero_got c) h0)
  · change classifyCylinderOnAxis .blank ⟨n, tr, c!"cy", c⟩ = .ok s at h
    obtain ⟨x0, h0, h⟩ := bind_ok h
    exact need_one (succ_got (zero_got c) h0)
  · change classifyCylinderOnAxis .blank ⟨n, tr, c!"cz", c⟩ = .ok s at h
    obtain ⟨x0, h0, h⟩ := bind_ok h
    exact need_one (succ_got (zero_got c) h0)
  · change classifyConeParallel .blank ⟨n, tr, c!"k/x", c⟩ = .ok s at h
    unfold classifyConeParallel at h
    obtain ⟨l, h0, h⟩ := bind_ok h
    extract_lets at h
    split at h
    · rename_i hl
      obtain ⟨w, hw, -⟩ := bind_ok h
      exact need_more (first_got h0) hl hw
    · rename_i hl
      exact need_less (first_got h0) hl
  · change classifyConeParallel .blank ⟨n, tr, c!"k/y", c⟩ = .ok s at h
    unfold classifyConeParallel at h
    obtain ⟨l, h0, h⟩ := bind_ok h
    extract_lets at h
    split at h
    · rename_i hl
      obtain ⟨w, hw, -⟩ := bind_ok h
      exact need_more (first_got h0) hl hw
    · rename_i hl
      exact need_less (first_got h0) hl
  · change classifyConeParallel .blank ⟨n, tr, c!"k/z", c⟩ = .ok s at h
    unfold classifyConeParallel at h
    obtain ⟨l, h0, h⟩ := bind_ok h
    extract_lets at h
    split at h
    · rename_i hl
      obtain ⟨w, hw, -⟩ := bind_ok h
      exact need_more (first_got h0) hl hw
    · rename_i hl
      exact need_less (first_got h0) hl
  · change classifyConeOnAxis .blank ⟨n, tr, c!"kx", c⟩ = .ok s at h
    obtain ⟨x0, h0, h⟩ := bind_ok h
    obtain ⟨x1, h1, h⟩ := bind_ok h
    extract_lets at h
    split at h
    · rename_i hl
      obtain ⟨w, hw, -⟩ := bind_ok h
      exact need_more (succ_got (succ_got (zero_got c) h0) h1) hl hw
    · rename_i hl
      exact need_less (succ_got (succ_got (zero_got c) h0) h1) hl
  · change classifyConeOnAxis .blank ⟨n, tr, c!"ky", c⟩ = .ok s at h
    obtain ⟨x0, h0, h⟩ := bind_ok h
    obtain ⟨x1, h1, h⟩ := bind_ok h
    extract_lets at h
    split at h
    · rename_i hl
      obtain ⟨w, hw, -⟩ := bind_ok h
      exact need_more (succ_got (succ_got (zero_got c) h0) h1) hl hw
    · rename_i hl
      exact need_less (succ_got (succ_got (zero_got c) h0) h1) hl
  · change classifyConeOnAxis .blank ⟨n, tr, c!"kz", c⟩ = .ok s at h
    obtain ⟨x0, h0, h⟩ := bind_ok h
    obtain ⟨x1, h1, h⟩ := bind_ok h
    extract_lets at h
    split at h
    · rename_i hl
      obtain ⟨w, hw, -⟩ := bind_ok h
      exact need_more (succ_got (succ_got (zero_got c) h0) h1) hl hw
    · rename_i hl
      exact need_less (succ_got (succ_got (zero_got c) h0) h1) hl
  · change classifyGq .blank ⟨n, tr, c!"sq", c⟩ = .ok s at h
    obtain ⟨x0, h0, h⟩ := bind_ok h
    obtain ⟨x1, h1, h⟩ := bind_ok h
    obtain ⟨x2, h2, h⟩ := bind_ok h
    obtain ⟨x3, h3, h⟩ := bind_ok h
    obtain ⟨x4, h4, h⟩ := bind_ok h
    obtain ⟨x5, h5, h⟩ := bind_ok h
    obtain ⟨x7, h7, h⟩ := bind_ok h
    obtain ⟨x8, h8, h⟩ := bind_ok h
    obtain ⟨x9, h9, h⟩ := bind_ok h
    obtain ⟨x6, h6, h⟩ := bind_ok h
    exact need_one (succ_got (succ_got (succ_got (succ_got (succ_got (succ_got (succ_got (succ_got (succ_got (succ_got (zero_got c) h0) h1) h2) h3) h4) h5) h6) h7) h8) h9)
  · change classifyGq .blank ⟨n, tr, c!"gq", c⟩ = .ok s at h
    obtain ⟨l, h0, -⟩ := bind_ok h
    exact need_one (first_got h0)
  · change classifyTorus .blank ⟨n, tr, c!"tx", c⟩ = .ok s at h
    obtain ⟨l, h0, -⟩ := bind_ok h
    exact need_one (first_got h0)
  · change classifyTorus .blank ⟨n, tr, c!"ty", c⟩ = .ok s at h
    obtain ⟨l, h0, -⟩ := bind_ok h
    exact need_one (first_got h0)
  · change classifyTorus .blank ⟨n, tr, c!"tz", c⟩ = .ok s at h
    obtain ⟨l, h0, -⟩ := bind_ok h
    exact need_one (first_got h0)
  · change classifyBox .blank ⟨n, tr, c!"box", c⟩ = .ok s at h
    obtain ⟨x0, h0, h⟩ := bind_ok h
    obtain ⟨x1, h1, h⟩ := bind_ok h
    obtain ⟨x2, h2, h⟩ := bind_ok h
    obtain ⟨x3, h3, h⟩ := bind_ok h
    obtain ⟨x4, h4, h⟩ := bind_ok h
    obtain ⟨x5, h5, h⟩ := bind_ok h
    obtain ⟨x6, h6, h⟩ := bind_ok h
    obtain ⟨x7, h7, h⟩ := bind_ok h
    obtain ⟨x8, h8, h⟩ := bind_ok h
    obtain ⟨x9, h9, h⟩ := bind_ok h
    obtain ⟨x10, h10, h⟩ := bind_ok h
    obtain ⟨x11, h11, h⟩ := bind_ok h
    exact need_one (succ_got (succ_got (succ_got (succ_got (succ_got (succ_got (succ_got (succ_got (succ_got (succ_got (succ_got (succ_got (zero_got c) h0) h1) h2) h3) h4) h5) h6) h7) h8) h9) h10) h11)
  · change classifyRpp .blank ⟨n, tr, c!"rpp", c⟩ = .ok s at h
    obtain ⟨l, h0, -⟩ := bind_ok h
    exact need_one (first_got h0)
  · change classifyGeneralSphere .blank ⟨n, tr, c!"sph", c⟩ = .ok s at h
    obtain ⟨l, h0, -⟩ := bind_ok h
    exact need_one (first_got h0)
  · change classifyRcc .blank ⟨n, tr, c!"rcc", c⟩ = .ok s at h
    obtain ⟨l, h0, -⟩ := bind_ok h
    exact need_one (first_got h0)

private theorem fields_congr {n : Int} {tr : Option Str} {mn : Str} {k : Nat} {rest : List Nat} {c c' : Coeffs K} (hm : (mn, k :: rest) ∈ entryCounts) (hp : mn ≠ c!"p")
    (h : ∀ i < k, c.get i = c'.get i) (hl : c.len ∉ rest) (hl' : c'.len ∉ rest) : classifyFields ⟨n, tr, mn, c⟩ = classifyFields ⟨n, tr, mn, c'⟩ := by
  unfold classifyFields
  simp only [entryCounts, List.mem_cons, List.not_mem_nil, or_false, Prod.mk.injEq, List.cons.injEq] at hm
  rcases hm with ⟨rfl, rfl, rfl⟩ | ⟨rfl, rfl, rfl⟩ | ⟨rfl, rfl, rfl⟩ | ⟨rfl, rfl, rfl⟩ | ⟨rfl, rfl, rfl⟩ | ⟨rfl, rfl, rfl⟩ | ⟨rfl, rfl, rfl⟩ | ⟨rfl, rfl, rfl⟩ | ⟨rfl, rfl, rfl⟩ | ⟨rfl, rfl, rfl⟩ | ⟨rfl, rfl, rfl⟩ | ⟨rfl, rfl, rfl⟩ | ⟨rfl, rfl, rfl⟩ | ⟨rfl, rfl, rfl⟩ | ⟨rfl, rfl, rfl⟩ | ⟨rfl, rfl, rfl⟩ | ⟨rfl, rfl, rfl⟩ | ⟨rfl, rfl, rfl⟩ | ⟨rfl, rfl, rfl⟩ | ⟨rfl, rfl, rfl⟩ | ⟨rfl, rfl, rfl⟩ | ⟨rfl, rfl, rfl⟩ | ⟨rfl, rfl, rfl⟩ | ⟨rfl, rfl, rfl⟩ | ⟨rfl, rfl, rfl⟩ | ⟨rfl, rfl, rfl⟩ | ⟨rfl, rfl, rfl⟩ | ⟨rfl, rfl, rfl⟩ | ⟨rfl, rfl, rfl⟩ | ⟨rfl, rfl, rfl⟩
  · exact absurd rfl hp
  · change classifyXyzPlanes .blank ⟨n, tr, c!"px", c⟩ = classifyXyzPlanes .blank ⟨n, tr, c!"px", c'⟩
    simp only [classifyXyzPlanes, Surface.setFrom, h 0 (by omega)]
  · change classifyXyzPlanes .blank ⟨n, tr, c!"py", c⟩ = classifyXyzPlanes .blank ⟨n, tr, c!"py", c'⟩
    simp only [classifyXyzPlanes, Surface.setFrom, h 0 (by omega)]
  · change classifyXyzPlanes .blank ⟨n, tr, c!"pz", c⟩ = classifyXyzPlanes .blank ⟨n, tr, c!"pz", c'⟩
    simp only [classifyXyzPlanes, Surface.setFrom, h 0 (by omega)]
  · change classifyOriginSphere .blank ⟨n, tr, c!"so", c⟩ = classifyOriginSphere .blank ⟨n, tr, c!"so", c'⟩
    simp only [classifyOriginSphere, Surface.setFrom, h 0 (by omega)]
  · change classifyGeneralSphere .blank ⟨n, tr, c!"s", c⟩ = classifyGeneralSphere .blank ⟨n, tr, c!"s", c'⟩
    simp only [classifyGeneralSphere, Surface.setFrom, first_congr h]
  · change classifyXyzSphere .blank ⟨n, tr, c!"sx", c⟩ = classifyXyzSphere .blank ⟨n, tr, c!"sx", c'⟩
    simp only [classifyXyzSphere, Surface.setFrom, h 0 (by omega), h 1 (by omega)]
  · change classifyXyzSphere .blank ⟨n, tr, c!"sy", c⟩ = classifyXyzSphere .blank ⟨n, tr, c!"sy", c'⟩
    simp only [classifyXyzSphere, Surface.setFrom, h 0 (by omega), h 1 (by omega)]
  · change classifyXyzSphere .blank ⟨n, tr, c!"sz", c⟩ = classifyXyzSphere .blank ⟨n, tr, c!"sz", c'⟩
    simp only [classifyXyzSphere, Surface.setFrom, h 0 (by omega), h 1 (by omega)]
  · change classifyCylinderParallel .blank ⟨n, tr, c!"c/x", c⟩ = classifyCylinderParallel .blank ⟨n, tr, c!"c/x", c'⟩
    simp only [classifyCylinderParallel, Surface.setFrom, first_congr h]
  · change classifyCylinderParallel .blank ⟨n, tr, c!"c/y", c⟩ = classifyCylinderParallel .blank ⟨n, tr, c!"c/y", c'⟩
    simp only [classifyCylinderParallel, Surface.setFrom, first_congr h]
  · change classifyCylinderParallel .blank ⟨n, tr, c!"c/z", c⟩ = classifyCylinderParallel .blank ⟨n, tr, c!"c/z", c'⟩
    simp only [classifyCylinderParallel, Surface.setFrom, first_congr h]
  · change classifyCylinderOnAxis .blank ⟨n, tr, c!"cx", c⟩ = classifyCylinderOnAxis .blank ⟨n, tr, c!"cx", c'⟩
    simp only [classifyCylinderOnAxis, Surface.setFrom, h 0 (by omega)]
  · change classifyCylinderOnAxis .blank ⟨n, tr, c!"cy", c⟩ = classifyCylinderOnAxis .blank ⟨n, tr, c!"cy", c'⟩
    simp only [classifyCylinderOnAxis, Surface.setFrom, h 0 (by omega)]
  · change classifyCylinderOnAxis .blank ⟨n, tr, c!"cz", c⟩ = classifyCylinderOnAxis .blank ⟨n, tr, c!"cz", c'⟩
    simp only [classifyCylinderOnAxis, Surface.setFrom, h 0 (by omega)]
  · change classifyConeParallel .blank ⟨n, tr, c!"k/x", c⟩ = classifyConeParallel .blank ⟨n, tr, c!"k/x", c'⟩
    have hl := fun e => hl (List.mem_singleton.2 e)
    have hl' := fun e => hl' (List.mem_singleton.2 e)
    simp only [classifyConeParallel, Surface.setFrom, first_congr h, if_neg hl, if_neg hl']
  · change classifyConeParallel .blank ⟨n, tr, c!"k/y", c⟩ = classifyConeParallel .blank ⟨n, tr, c!"k/y", c'⟩
    have hl := fun e => hl (List.mem_singleton.2 e)
    have hl' := fun e => hl' (List.mem_singleton.2 e)
    simp only [classifyConeParallel, Surface.setFrom, first_congr h, if_neg hl, if_neg hl']
  · change classifyConeParallel .blank ⟨n, tr, c!"k/z", c⟩ = classifyConeParallel .blank ⟨n, tr, c!"k/z", c'⟩
    have hl := fun e => hl (List.mem_singleton.2 e)
    have hl' := fun e => hl' (List.mem_singleton.2 e)
    simp only [classifyConeParallel, Surface.setFrom, first_congr h, if_neg hl, if_neg hl']
  · change classifyConeOnAxis .blank ⟨n, tr, c!"kx", c⟩ = classifyConeOnAxis .blank ⟨n, tr, c!"kx", c'⟩
    have hl := fun e => hl (List.mem_singleton.2 e)
    have hl' := fun e => hl' (List.mem_singleton.2 e)
    simp only [classifyConeOnAxis, Surface.setFrom, h 0 (by omega), h 1 (by omega), if_neg hl, if_neg hl']
  · change classifyConeOnAxis .blank ⟨n, tr, c!"ky", c⟩ = classifyConeOnAxis .blank ⟨n, tr, c!"ky", c'⟩
    have hl := fun e => hl (List.mem_singleton.2 e)
    have hl' := fun e => hl' (List.mem_singleton.2 e)
    simp only [classifyConeOnAxis, Surface.setFrom, h 0 (by omega), h 1 (by omega), if_neg hl, if_neg hl']
  · change classifyConeOnAxis .blank ⟨n, tr, c!"kz", c⟩ = classifyConeOnAxis .blank ⟨n, tr, c!"kz", c'⟩
    have hl := fun e => hl (List.mem_singleton.2 e)
    have hl' := fun e => hl' (List.mem_singleton.2 e)
    simp only [classifyConeOnAxis, Surface.setFrom, h 0 (by omega), h 1 (by omega), if_neg hl, if_neg hl']
  · change classifyGq .blank ⟨n, tr, c!"sq", c⟩ = classifyGq .blank ⟨n, tr, c!"sq", c'⟩
    simp only [classifyGq, Surface.setFrom, first_congr h, h 0 (by omega), h 1 (by omega), h 2 (by omega), h 3 (by omega), h 4 (by omega), h 5 (by omega), h 6 (by omega), h 7 (by omega), h 8 (by omega), h 9 (by omega)]
  · change classifyGq .blank ⟨n, tr, c!"gq", c⟩ = classifyGq .blank ⟨n, tr, c!"gq", c'⟩
    simp only [classifyGq, Surface.setFrom, first_congr h, h 0 (by omega), h 1 (by omega), h 2 (by omega), h 3 (by omega), h 4 (by omega), h 5 (by omega), h 6 (by omega), h 7 (by omega), h 8 (by omega), h 9 (by omega)]
  · change classifyTorus .blank ⟨n, tr, c!"tx", c⟩ = classifyTorus .blank ⟨n, tr, c!"tx", c'⟩
    simp only [classifyTorus, Surface.setFrom, first_congr h]
  · change classifyTorus .blank ⟨n, tr, c!"ty", c⟩ = classifyTorus .blank ⟨n, tr, c!"ty", c'⟩
    simp only [classifyTorus, Surface.setFrom, first_congr h]
  · change classifyTorus .blank ⟨n, tr, c!"tz", c⟩ = classifyTorus .blank ⟨n, tr, c!"tz", c'⟩
    simp only [classifyTorus, Surface.setFrom, first_congr h]
  · change classifyBox .blank ⟨n, tr, c!"box", c⟩ = classifyBox .blank ⟨n, tr, c!"box", c'⟩
    simp only [classifyBox, Surface.setFrom, h 0 (by omega), h 1 (by omega), h 2 (by omega), h 3 (by omega), h 4 (by omega), h 5 (by omega), h 6 (by omega), h 7 (by omega), h 8 (by omega), h 9 (by omega), h 10 (by omega), h 11 (by omega)]
  · change classifyRpp .blank ⟨n, tr, c!"rpp", c⟩ = classifyRpp .blank ⟨n, tr, c!"rpp", c'⟩
    simp only [classifyRpp, Surface.setFrom, first_congr h]
  · change classifyGeneralSphere .blank ⟨n, tr, c!"sph", c⟩ = classifyGeneralSphere .blank ⟨n, tr, c!"sph", c'⟩
    simp only [classifyGeneralSphere, Surface.setFrom, first_congr h]
  · change classifyRcc .blank ⟨n, tr, c!"rcc", c⟩ = classifyRcc .blank ⟨n, tr, c!"rcc", c'⟩
    simp only [classifyRcc, Surface.setFrom, first_congr h]

private theorem except_bind {α β : Type} (a : α) (f : α → Py β) : ((.ok a : Py α) >>= f) = f a := rfl

private theorem fields_suff {n : Int} {tr : Option Str} {mn : Str} {counts : List Nat} {c : Coeffs K} {k : Nat} (hm : (mn, counts) ∈ entryCounts) (hk : k ∈ counts) (h : Got c k)
    (hlen : c.len ∈ counts → k = c.len) (hp : mn = c!"p" → c.len ∈ counts) : ∃ s, classifyFields ⟨n, tr, mn, c⟩ = .ok s := by
  unfold classifyFields
  simp only [entryCounts, List.mem_cons, List.not_mem_nil, or_false, Prod.mk.injEq] at hm
  rcases hm with ⟨rfl, rfl⟩ | ⟨rfl, rfl⟩ | ⟨rfl, rfl⟩ | ⟨rfl, rfl⟩ | ⟨rfl, rfl⟩ | ⟨rfl, rfl⟩ | ⟨rfl, rfl⟩ | ⟨rfl, rfl⟩ | ⟨rfl, rfl⟩ | ⟨rfl, rfl⟩ | ⟨rfl, rfl⟩ | ⟨rfl, rfl⟩ | ⟨rfl, rfl⟩ | ⟨rfl, rfl⟩ | ⟨rfl, rfl⟩ | ⟨rfl, rfl⟩ | ⟨rfl, rfl⟩ | ⟨rfl, rfl⟩ | ⟨rfl, rfl⟩ | ⟨rfl, rfl⟩ | ⟨rfl, rfl⟩ | ⟨rfl, rfl⟩ | ⟨rfl, rfl⟩ | ⟨rfl, rfl⟩ | ⟨rfl, rfl⟩ | ⟨rfl, rfl⟩ | ⟨rfl, rfl⟩ | ⟨rfl, rfl⟩ | ⟨rfl, rfl⟩ | ⟨rfl, rfl⟩
  · change ∃ s, classifyGeneralPlanes .blank ⟨n, tr, c!"p", c⟩ = .ok s
    have hc := hp rfl
    obtain rfl := hlen hc
    obtain ⟨l, hl, hn⟩ := got_first h
    simp only [List.mem_cons, List.not_mem_nil, or_false] at hc
    rcases hc with e | e
    · rw [e] at hl
      simp [classifyGeneralPlanes, e, hl, except_bind]
    · rw [e] at hl hn
      obtain ⟨a0, a1, a2, a3, a4, a5, a6, a7, a8, rfl⟩ : ∃ a0 a1 a2 a3 a4 a5 a6 a7 a8, l = [a0, a1, a2, a3, a4, a5, a6, a7, a8] := by
        match l, hn with
        | [a0, a1, a2, a3, a4, a5, a6, a7, a8], _ => exact ⟨_, _, _, _, _, _, _, _, _, rfl⟩
      simp only [classifyGeneralPlanes, e, if_true, hl, except_bind]
      exact ⟨_, rfl⟩
  · change ∃ s, classifyXyzPlanes .blank ⟨n, tr, c!"px", c⟩ = .ok s
    obtain rfl := List.mem_singleton.1 hk
    obtain ⟨x0, h0⟩ := h 0 (by omega)
    simp [classifyXyzPlanes, h0, except_bind]
  · change ∃ s, classifyXyzPlanes .blank ⟨n, tr, c!"py", c⟩ = .ok s
    obtain rfl := List.mem_singleton.1 hk
    obtain ⟨x0, h0⟩ := h 0 (by omega)
    simp [classifyXyzPlanes, h0, except_bind]
  · change ∃ s, classifyXyzPlanes .blank ⟨n, tr, c!"pz", c⟩ = .ok s
    obtain rfl := List.mem_singleton.1 hk
    obtain ⟨x0, h0⟩ := h 0 (by omega)
    simp [classifyXyzPlanes, h0, except_bind]
  · change ∃ s, classifyOriginSphere .blank ⟨n, tr, c!"so", c⟩ = .ok s
    obtain rfl := List.mem_singleton.1 hk
    obtain ⟨x0, h0⟩ := h 0 (by omega)
    simp [classifyOriginSphere, h0, except_bind]
  · change ∃ s, classifyGeneralSphere .blank ⟨n, tr, c!"s", c⟩ = .ok s
    obtain rfl := List.mem_singleton.1 hk
    obtain ⟨l, hl, -⟩ := got_first h
    simp [classifyGeneralSphere, hl, except_bind]
  · change ∃ s, classifyXyzSphere .blank ⟨n, tr, c!"sx", c⟩ = .ok s
    obtain rfl := List.mem_singleton.1 hk
    obtain ⟨x0, h0⟩ := h 0 (by omega)
    obtain ⟨x1, h1⟩ := h 1 (by omega)
    simp [classifyXyzSphere, h0, h1, except_bind]
  · change ∃ s, classifyXyzSphere .blank ⟨n, tr, c!"sy", c⟩ = .ok s
    obtain rfl := List.mem_singleton.1 hk
    obtain ⟨x0, h0⟩ := h 0 (by omega)
    obtain ⟨x1, h1⟩ := h 1 (by omega)
    simp [classifyXyzSphere, h0, h1, except_bind]
  · change ∃ s, classifyXyzSphere .blank ⟨n, tr, c!"sz", c⟩ = .ok s
    obtain rfl := List.mem_singleton.1 hk
    obtain ⟨x0, h0⟩ := h 0 (by omega)
    obtain ⟨x1, h1⟩ := h 1 (by omega)
    simp [classifyXyzSphere, h0, h1, except_bind]
  · change ∃ s, classifyCylinderParallel .blank ⟨n, tr, c!"c/x", c⟩ = .ok s
    obtain rfl := List.mem_singleton.1 hk
    obtain ⟨l, hl, -⟩ := got_first h
    simp [classifyCylinderParallel, hl, except_bind]
  · change ∃ s, classifyCylinderParallel .blank ⟨n, tr, c!"c/y", c⟩ = .ok s
    obtain rfl := List.mem_singleton.1 hk
    obtain ⟨l, hl, -⟩ := got_first h
    simp [classifyCylinderParallel, hl, except_bind]
  · change ∃ s, classifyCylinderParallel .blank ⟨n, tr, c!"c/z", c⟩ = .ok s
    obtain rfl := List.mem_singleton.1 hk
    obtain ⟨l, hl, -⟩ := got_first h
    simp [classifyCylinderParallel, hl, except_bind]
  · change ∃ s, classifyCylinderOnAxis .blank ⟨n, tr, c!"cx", c⟩ = .ok s
    obtain rfl := List.mem_singleton.1 hk
    obtain ⟨x0, h0⟩ := h 0 (by omega)
    simp [classifyCylinderOnAxis, h0, except_bind]
  · change ∃ s, classifyCylinderOnAxis .blank ⟨n, tr, c!"cy", c⟩ = .ok s
    obtain rfl := List.mem_singleton.1 hk
    obtain ⟨x0, h0⟩ := h 0 (by omega)
    simp [classifyCylinderOnAxis, h0, except_bind]
  · change ∃ s, classifyCylinderOnAxis .blank ⟨n, tr, c!"cz", c⟩ = .ok s
    obtain rfl := List.mem_singleton.1 hk
    obtain ⟨x0, h0⟩ := h 0 (by omega)
    simp [classifyCylinderOnAxis, h0, except_bind]
  · change ∃ s, classifyConeParallel .blank ⟨n, tr, c!"k/x", c⟩ = .ok s
    by_cases hl : c.len = 5
    · obtain rfl : k = 5 := (hlen (by simp [hl])).trans hl
      obtain ⟨l, h0, -⟩ := got_first (k := 4) fun i hi => h i (by omega)
      obtain ⟨w, hw⟩ := h 4 (by omega)
      simp [classifyConeParallel, h0, hw, hl, except_bind]
    · have hk : 4 ≤ k := by simp only [List.mem_cons, List.not_mem_nil, or_false] at hk; omega
      obtain ⟨l, h0, -⟩ := got_first (k := 4) fun i hi => h i (by omega)
      simp [classifyConeParallel, h0, hl, except_bind]
  · change ∃ s, classifyConeParallel .blank ⟨n, tr, c!"k/y", c⟩ = .ok s
    by_cases hl : c.len = 5
    · obtain rfl : k = 5 := (hlen (by simp [hl])).trans hl
      obtain ⟨l, h0, -⟩ := got_first (k := 4) fun i hi => h i (by omega)
      obtain ⟨w, hw⟩ := h 4 (by omega)
      simp [classifyConeParallel, h0, hw, hl, except_bind]
    · have hk : 4 ≤ k := by simp only [List.mem_cons, List.not_mem_nil, or_false] at hk; omega
      obtain ⟨l, h0, -⟩ := got_first (k := 4) fun i hi => h i (by omega)
      simp [classifyConeParallel, h0, hl, except_bind]
  · change ∃ s, classifyConeParallel .blank ⟨n, tr, c!"k/z", c⟩ = .ok s
    by_cases hl : c.len = 5
    · obtain rfl : k = 5 := (hlen (by simp [hl])).trans hl
      obtain ⟨l, h0, -⟩ := got_first (k := 4) fun i hi => h i (by omega)
      obtain ⟨w, hw⟩ := h 4 (by omega)
      simp [classifyConeParallel, h0, hw, hl, except_bind]
    · have hk : 4 ≤ k := by simp only [List.mem_cons, List.not_mem_nil, or_false] at hk; omega
      obtain ⟨l, h0, -⟩ := got_first (k := 4) fun i hi => h i (by omega)
      simp [classifyConeParallel, h0, hl, except_bind]
  · change ∃ s, classifyConeOnAxis .blank ⟨n, tr, c!"kx", c⟩ = .ok s
    by_cases hl : c.len = 3
    · obtain rfl : k = 3 := (hlen (by simp [hl])).trans hl
      obtain ⟨x0, h0⟩ := h 0 (by omega)
      obtain ⟨x1, h1⟩ := h 1 (by omega)
      obtain ⟨w, hw⟩ := h 2 (by omega)
      simp [classifyConeOnAxis, h0, h1, hw, hl, except_bind]
    · have hk : 2 ≤ k := by simp only [List.mem_cons, List.not_mem_nil, or_false] at hk; omega
      obtain ⟨x0, h0⟩ := h 0 (by omega)
      obtain ⟨x1, h1⟩ := h 1 (by omega)
      simp [classifyConeOnAxis, h0, h1, hl, except_bind]
  · change ∃ s, classifyConeOnAxis .blank ⟨n, tr, c!"ky", c⟩ = .ok s
    by_cases hl : c.len = 3
    · obtain rfl : k = 3 := (hlen (by simp [hl])).trans hl
      obtain ⟨x0, h0⟩ := h 0 (by omega)
      obtain ⟨x1, h1⟩ := h 1 (by omega)
      obtain ⟨w, hw⟩ := h 2 (by omega)
      simp [classifyConeOnAxis, h0, h1, hw, hl, except_bind]
    · have hk : 2 ≤ k := by simp only [List.mem_cons, List.not_mem_nil, or_false] at hk; omega
      obtain ⟨x0, h0⟩ := h 0 (by omega)
      obtain ⟨x1, h1⟩ := h 1 (by omega)
      simp [classifyConeOnAxis, h0, h1, hl, except_bind]
  · change ∃ s, classifyConeOnAxis .blank ⟨n, tr, c!"kz", c⟩ = .ok s
    by_cases hl : c.len = 3
    · obtain rfl : k = 3 := (hlen (by simp [hl])).trans hl
      obtain ⟨x0, h0⟩ := h 0 (by omega)
      obtain ⟨x1, h1⟩ := h 1 (by omega)
      obtain ⟨w, hw⟩ := h 2 (by omega)
      simp [classifyConeOnAxis, h0, h1, hw, hl, except_bind]
    · have hk : 2 ≤ k := by simp only [List.mem_cons, List.not_mem_nil, or_false] at hk; omega
      obtain ⟨x0, h0⟩ := h 0 (by omega)
      obtain ⟨x1, h1⟩ := h 1 (by omega)
      simp [classifyConeOnAxis, h0, h1, hl, except_bind]
  · change ∃ s, classifyGq .blank ⟨n, tr, c!"sq", c⟩ = .ok s
    obtain rfl := List.mem_singleton.1 hk
    obtain ⟨x0, h0⟩ := h 0 (by omega)
    obtain ⟨x1, h1⟩ := h 1 (by omega)
    obtain ⟨x2, h2⟩ := h 2 (by omega)
    obtain ⟨x3, h3⟩ := h 3 (by omega)
    obtain ⟨x4, h4⟩ := h 4 (by omega)
    obtain ⟨x5, h5⟩ := h 5 (by omega)
    obtain ⟨x6, h6⟩ := h 6 (by omega)
    obtain ⟨x7, h7⟩ := h 7 (by omega)
    obtain ⟨x8, h8⟩ := h 8 (by omega)
    obtain ⟨x9, h9⟩ := h 9 (by omega)
    simp [classifyGq, h0, h1, h2, h3, h4, h5, h6, h7, h8, h9, except_bind]
  · change ∃ s, classifyGq .blank ⟨n, tr, c!"gq", c⟩ = .ok s
    obtain rfl := List.mem_singleton.1 hk
    obtain ⟨l, hl, -⟩ := got_first h
    simp [classifyGq, hl, except_bind]
  · change ∃ s, classifyTorus .blank ⟨n, tr, c!"tx", c⟩ = .ok s
    obtain rfl := List.mem_singleton.1 hk
    obtain ⟨l, hl, -⟩ := got_first h
    simp [classifyTorus, hl, except_bind]
  · change ∃ s, classifyTorus .blank ⟨n, tr, c!"ty", c⟩ = .ok s
    obtain rfl := List.mem_singleton.1 hk
    obtain ⟨l, hl, -⟩ := got_first h
    simp [classifyTorus, hl, except_bind]
  · change ∃ s, classifyTorus .blank ⟨n, tr, c!"tz", c⟩ = .ok s
    obtain rfl := List.mem_singleton.1 hk
    obtain ⟨l, hl, -⟩ := got_first h
    simp [classifyTorus, hl, except_bind]
  · change ∃ s, classifyBox .blank ⟨n, tr, c!"box", c⟩ = .ok s
    obtain rfl := List.mem_singleton.1 hk
    obtain ⟨x0, h0⟩ := h 0 (by omega)
    obtain ⟨x1, h1⟩ := h 1 (by omega)
    obtain ⟨x2, h2⟩ := h 2 (by omega)
    obtain ⟨x3, h3⟩ := h 3 (by omega)
    obtain ⟨x4, h4⟩ := h 4 (by omega)
    obtain ⟨x5, h5⟩ := h 5 (by omega)
    obtain ⟨x6, h6⟩ := h 6 (by omega)
    obtain ⟨x7, h7⟩ := h 7 (by omega)
    obtain ⟨x8, h8⟩ := h 8 (by omega)
    obtain ⟨x9, h9⟩ := h 9 (by omega)
    obtain ⟨x10, h10⟩ := h 10 (by omega)
    obtain ⟨x11, h11⟩ := h 11 (by omega)
    unfold classifyBox
    simp only [h0, h1, h2, h3, h4, h5, h6, h7, h8, h9, h10, h11, except_bind]
    split <;> exact ⟨_, rfl⟩
  · change ∃ s, classifyRpp .blank ⟨n, tr, c!"rpp", c⟩ = .ok s
    obtain rfl := List.mem_singleton.1 hk
    obtain ⟨l, hl, -⟩ := got_first h
    simp [classifyRpp, hl, except_bind]
  · change ∃ s, classifyGeneralSphere .blank ⟨n, tr, c!"sph", c⟩ = .ok s
    obtain rfl := List.mem_singleton.1 hk
    obtain ⟨l, hl, -⟩ := got_first h
    simp [classifyGeneralSphere, hl, except_bind]
  · change ∃ s, classifyRcc .blank ⟨n, tr, c!"rcc", c⟩ = .ok s
    obtain rfl := List.mem_singleton.1 hk
    obtain ⟨l, hl, -⟩ := got_first h
    simp [classifyRcc, hl, except_bind]

/-- A card is read only if it has as many numbers as its mnemonic takes: short cards and entries that are no numbers raise an exception. If the number of entries is one that the mnemonic
takes, all of them must be numbers, and this is enough. Cards of general planes must have one of these numbers of entries. What is missing: with too many entries the card is read all the
same (`C108_extra`, `C108_refuted`). -/
theorem C108_partial (io : NumIO K) (text : Str) (n : Int) (tr : Option Str) (mn : Str) (ws : List Str) (counts : List Nat) (hc : Spec.IsCard io text n tr mn ws) (hm : (mn, counts) ∈ entryCounts) :
    (∃ s, classify io text = .ok s) ↔ (mn = c!"p" → ws.length ∈ counts) ∧
      ∃ k ∈ counts, k ≤ ws.length ∧ (ws.length ∈ counts → k = ws.length) ∧ ∀ w ∈ ws.take k, (io.parse w).isSome := by
  rw [classify_isCard io text n tr mn ws hc]
  constructor
  · rintro ⟨s, h⟩
    obtain ⟨⟨k, hk, hg, hl⟩, hp⟩ := fields_need hm h
    obtain ⟨h1, h2⟩ := got_words hg
    exact ⟨hp, k, hk, h1, hl, h2⟩
  · rintro ⟨hp, k, hk, h1, hl, h2⟩
    exact fields_suff hm hk (words_got h1 h2) hl hp

/-- A card with fewer entries than its mnemonic takes is never read. -/
theorem C108_short (io : NumIO K) (text : Str) (n : Int) (tr : Option Str) (mn : Str) (ws : List Str) (counts : List Nat) (hc : Spec.IsCard io text n tr mn ws) (hm : (mn, counts) ∈ entryCounts)
    (hs : ∀ k ∈ counts, ws.length < k) : ∃ e, classify io text = .error e := by
  cases h : classify io text with
  | error e => exact ⟨e, rfl⟩
  | ok s =>
    obtain ⟨-, k, hk, h1, -⟩ := (C108_partial io text n tr mn ws counts hc hm).1 ⟨s, h⟩
    exact absurd (hs k hk) (by omega)

/-- With the exception of general planes a card with more entries than its mnemonic takes is read as the card without the entries after the smallest number, whatever they are. For cones this loses the entry
that selects the sheet. -/
theorem C108_extra (io : NumIO K) (text text' : Str) (n : Int) (tr : Option Str) (mn : Str) (ws : List Str) (k : Nat) (rest : List Nat) (hm : (mn, k :: rest) ∈ entryCounts) (hp : mn ≠ c!"p")
    (hc : Spec.IsCard io text n tr mn ws) (hc' : Spec.IsCard io text' n tr mn (ws.take k)) (hl : ∀ j ∈ k :: rest, j < ws.length) : classify io text = classify io text' := by
  rw [classify_isCard io text n tr mn ws hc, classify_isCard io text' n tr mn (ws.take k) hc']
  have hk : k < ws.length := hl k (by simp)
  refine fields_congr hm hp ?_ ?_ ?_
  · intro i hi
    change (pyGet ws i >>= fun w => io.float w) = (pyGet (ws.take k) i >>= fun w => io.float w)
    unfold pyGet
    rw [List.getElem?_take, if_pos hi]
  · intro hr
    exact absurd (hl _ (List.mem_cons_of_mem _ hr)) (lt_irrefl _)
  · intro hr
    have e : (ws.take k).length = k := by rw [List.length_take]; omega
    rw [show (Coeffs.ofWords io (ws.take k)).len = (ws.take k).length from rfl, e] at hr
    exact (List.nodup_cons.1 ((by decide : ∀ e ∈ entryCounts, e.2.Nodup) _ hm)).1 hr

end

/-- C108 is false: the plane `px 3 abc` is read. -/
theorem C108_refuted : ¬ ∀ (text : Str) (n : Int) (tr : Option Str) (mn : Str) (ws : List Str) (counts : List Nat), Spec.IsCard sampleIO text n tr mn ws → (mn, counts) ∈ entryCounts →
    (∃ s, classify sampleIO text = .ok s) → ws.length ∈ counts ∧ ∀ w ∈ ws, (sampleIO.parse w).isSome := by
  intro h
  have hc : Spec.IsCard sampleIO c!"1 px 3 abc" 1 none c!"px" [c!"3", c!"abc"] :=
    ⟨c!"1", by decide +kernel, by decide +kernel, ⟨c!"1 px 3 abc", [], Or.inl rfl, by decide +kernel, by decide +kernel⟩, by decide +kernel⟩
  have e : classify sampleIO c!"1 px 3 abc" = .ok { (Surface.blank : Surface ℚ) with type := .planeX, id := 1, coeffs := [1, 0, 0, 3] } := by
    decide +kernel
  exact absurd (h _ 1 none _ _ [1] hc (by decide) ⟨_, e⟩).1 (by decide)

/-- One entry after the selector makes a cone with one sheet a cone with two. -/
theorem C108_refuted_sheet : classify sampleIO c!"1 kx 0 1 1 7" = classify sampleIO c!"1 kx 0 1" ∧ classify sampleIO c!"1 kx 0 1 1 7" ≠ classify sampleIO c!"1 kx 0 1 1" := by
  decide +kernel

/-- Cards as in `C108_partial`, `C108_short` and `C108_extra`: one with the right number of entries, a short one, and one with too many. -/
example : Spec.IsCard sampleIO c!"1 c/z 1 2 5" 1 none c!"c/z" [c!"1", c!"2", c!"5"] ∧ Spec.IsCard sampleIO c!"1 c/z 1 2" 1 none c!"c/z" [c!"1", c!"2"] ∧
    Spec.IsCard sampleIO c!"1 c/z 1 2 5 8" 1 none c!"c/z" [c!"1", c!"2", c!"5", c!"8"] ∧ (c!"c/z", [3]) ∈ entryCounts ∧ (classify sampleIO c!"1 c/z 1 2 5").toOption.isSome ∧
    classify sampleIO c!"1 c/z 1 2" = .error .indexError ∧ classify sampleIO c!"1 c/z 1 2 5 8" = classify sampleIO c!"1 c/z 1 2 5" := by
  refine ⟨⟨c!"1", by decide +kernel, by decide +kernel, ⟨c!"1 c/z 1 2 5", [], Or.inl rfl, by decide +kernel, by decide +kernel⟩, by decide +kernel⟩,
    ⟨c!"1", by decide +kernel, by decide +kernel, ⟨c!"1 c/z 1 2", [], Or.inl rfl, by decide +kernel, by decide +kernel⟩, by decide +kernel⟩,
    ⟨c!"1", by decide +kernel, by decide +kernel, ⟨c!"1 c/z 1 2 5 8", [], Or.inl rfl, by decide +kernel, by decide +kernel⟩, by decide +kernel⟩, by decide, ?_, ?_, ?_⟩ <;> decide +kernel

end Csg
