import Verif.Lemmas.Flatten
import Verif.Spec.Sample

/-!
# C12 to C15: macrobodies are replaced by the right surfaces

All statements start from the text of a card. `last` is the last surface number in use.
-/

set_option linter.unusedSectionVars false

namespace Csg

open Spec

section
variable {K : Type} [Field K] [LinearOrder K] [IsStrictOrderedRing K]

/-- The two descriptions of a proper body. -/
private theorem describes (io : NumIO K) (hio : Exact io) (sqrt : K → K) (last : Int) (hl : 0 ≤ last) (s : Surface K)
    (hp : ProperBody s.type s.coeffs) (hr : Roots sqrt s.type s.coeffs) :
    ∃ e, explodeMacrobody io sqrt last s = .ok e ∧ Describes sqrt e.surfs e.inside (Inside s.type s.coeffs) ∧
      Describes sqrt e.surfs e.outside (Outside s.type s.coeffs) := by
  refine ⟨_, explode_ok io hio sqrt last s hp hr, fun p => ?_, fun p => ?_⟩
  all_goals
    have hu := newSurfaces_unique sqrt last s none
    have hs : ∀ n ∈ placed none (newSurfaces sqrt last s), n ∈ placed none (newSurfaces sqrt last s) := fun n hn => hn
  · obtain ⟨r, h1, h2⟩ := inside_factor (closeText s.type) (closeText_or _) ((newSurfaces sqrt last s).map Surface.id)
      (newSurfaces_ne_nil sqrt hp)
    have hd := Derives.one (.single h1)
    refine ⟨⟨r, hd⟩, ?_⟩
    have := inside_sense sqrt (fun _ q => q) hu hl hs hp hr p
    rw [placed_none] at this
    simp only [explodedBody]
    rw [holds_iff hd, h2, this]
  · obtain ⟨r, h1, h2⟩ := outside_factor (openText s.type) (sepText s.type) (openText_or _) (sepText_or _)
      ((newSurfaces sqrt last s).map Surface.id) (newSurfaces_ne_nil sqrt hp)
    have hd := Derives.one (.single h1)
    refine ⟨⟨r, hd⟩, ?_⟩
    have := outside_sense sqrt (fun _ q => q) hu hl hs hp hr p
    rw [placed_none] at this
    simp only [explodedBody]
    rw [holds_iff hd, h2, this]

private theorem classify_rpp (io : NumIO K) (text : Str) (n : Int) (ws : List Str) (x0 x1 y0 y1 z0 z1 : K) (hc : IsCard io text n none c!"rpp" ws)
    (hw : Reads io ws [x0, x1, y0, y1, z0, z1]) :
    ∃ s, classify io text = .ok s ∧ s.id = n ∧ s.type = .macroRPP ∧ s.coeffs = [x0, x1, y0, y1, z0, z1] := by
  rw [classify_isCard io text n none c!"rpp" ws hc, ofWords_eq io _ _ hw]
  refine ⟨plainCard n .macroRPP [x0, x1, y0, y1, z0, z1], ?_, rfl, rfl, rfl⟩
  run_classify; run_card; simp [plainCard, Surface.blank]

private theorem classify_rcc (io : NumIO K) (text : Str) (n : Int) (ws : List Str) (x y z a b c r : K) (hc : IsCard io text n none c!"rcc" ws)
    (hw : Reads io ws [x, y, z, a, b, c, r]) :
    ∃ s, classify io text = .ok s ∧ s.id = n ∧ s.type = .macroRCC ∧ s.coeffs = [x, y, z, a, b, c, r] := by
  rw [classify_isCard io text n none c!"rcc" ws hc, ofWords_eq io _ _ hw]
  refine ⟨plainCard n .macroRCC [x, y, z, a, b, c, r], ?_, rfl, rfl, rfl⟩
  run_classify; run_card; simp [plainCard, Surface.blank]

private theorem classify_box (io : NumIO K) (text : Str) (n : Int) (ws : List Str) (x y z a1 b1 c1 a2 b2 c2 a3 b3 c3 : K)
    (hc : IsCard io text n none c!"box" ws) (hw : Reads io ws [x, y, z, a1, b1, c1, a2, b2, c2, a3, b3, c3]) :
    ∃ s, classify io text = .ok s ∧ s.id = n ∧
      (¬ (b1 = 0 ∧ c1 = 0 ∧ a2 = 0 ∧ c2 = 0 ∧ a3 = 0 ∧ b3 = 0) → s.type = .macroBOX ∧ s.coeffs = [x, y, z, a1, b1, c1, a2, b2, c2, a3, b3, c3]) ∧
      (b1 = 0 ∧ c1 = 0 ∧ a2 = 0 ∧ c2 = 0 ∧ a3 = 0 ∧ b3 = 0 → s.type = .macroRPP ∧ s.coeffs = [x, x + a1, y, y + b2, z, z + c3]) := by
  rw [classify_isCard io text n none c!"box" ws hc, ofWords_eq io _ _ hw]
  run_classify
  rw [if_pos (show hasInfix c!"box" c!"box" = true from by decide)]
  simp only [classifyBox, Coeffs.ofValues, pyGet, bind, Except.bind, List.getElem?_cons_zero, List.getElem?_cons_succ]
  by_cases h : b1 = 0 ∧ c1 = 0 ∧ a2 = 0 ∧ c2 = 0 ∧ a3 = 0 ∧ b3 = 0
  · rw [if_pos h]
    exact ⟨_, rfl, rfl, fun h' => absurd h h', fun _ => ⟨rfl, rfl⟩⟩
  · rw [if_neg h]
    exact ⟨_, rfl, rfl, fun _ => ⟨rfl, rfl⟩, fun h' => absurd h' h⟩

/-- C12: an RPP card is replaced by descriptions of the open box and of the points outside the closed box. -/
theorem C12_rpp (io : NumIO K) (hio : Exact io) (sqrt : K → K) (last : Int) (hl : 0 ≤ last) (text : Str) (n : Int) (ws : List Str)
    (x0 x1 y0 y1 z0 z1 : K) (hc : IsCard io text n none c!"rpp" ws) (hw : Reads io ws [x0, x1, y0, y1, z0, z1]) :
    ∃ s e, classify io text = .ok s ∧ explodeMacrobody io sqrt last s = .ok e ∧
      Describes sqrt e.surfs e.inside (fun p => (x0 < p.x ∧ p.x < x1) ∧ (y0 < p.y ∧ p.y < y1) ∧ (z0 < p.z ∧ p.z < z1)) ∧
      Describes sqrt e.surfs e.outside
        (fun p => (p.x < x0 ∨ x1 < p.x) ∨ (p.y < y0 ∨ y1 < p.y) ∨ (p.z < z0 ∨ z1 < p.z)) := by
  obtain ⟨s, h1, -, h2, h3⟩ := classify_rpp io text n ws x0 x1 y0 y1 z0 z1 hc hw
  obtain ⟨e, he, hi, ho⟩ := describes io hio sqrt last hl s (by rw [h2, h3]; trivial) (by rw [h2, h3]; trivial)
  rw [h2, h3] at hi ho
  refine ⟨s, e, h1, he, hi, fun p => ⟨(ho p).1, (ho p).2.trans ?_⟩⟩
  simp only [Outside, not_and_or, not_le]

/-- A card that meets the hypotheses; the theorem with its values. -/
example : IsCard fractionIO c!"5 rpp -1 2 -1 3 0 4" 5 none c!"rpp" [c!"-1", c!"2", c!"-1", c!"3", c!"0", c!"4"] ∧
    Reads fractionIO [c!"-1", c!"2", c!"-1", c!"3", c!"0", c!"4"] [-1, 2, -1, 3, 0, 4] := by
  refine ⟨⟨c!"5", by decide +kernel, by decide, ⟨_, [], Or.inl rfl, by decide, by decide +kernel⟩, by decide +kernel⟩, ?_⟩
  unfold Reads
  repeat (first | exact .nil | refine .cons (by decide +kernel) ?_)

/-- C13, partial: a BOX card with edges at right angles is replaced by descriptions of the open solid and of the points outside the
closed solid, provided that the edges are not along the axes in the order x, y, z with a negative component. Missing: those boxes; for them the claim is
false (`C13_refuted`). -/
theorem C13_box_partial (io : NumIO K) (hio : Exact io) (sqrt : K → K) (last : Int) (hl : 0 ≤ last) (text : Str) (n : Int) (ws : List Str)
    (v e₁ e₂ e₃ : Point K) (hc : IsCard io text n none c!"box" ws)
    (hw : Reads io ws [v.x, v.y, v.z, e₁.x, e₁.y, e₁.z, e₂.x, e₂.y, e₂.z, e₃.x, e₃.y, e₃.z])
    (h1 : dot e₁ e₁ ≠ 0) (h2 : dot e₂ e₂ ≠ 0) (h3 : dot e₃ e₃ ≠ 0) (h12 : dot e₁ e₂ = 0) (h23 : dot e₂ e₃ = 0) (h13 : dot e₁ e₃ = 0)
    (hroot : ∀ e ∈ [e₁, e₂, e₃], RootAt sqrt (e.x ^ 2 + e.y ^ 2 + e.z ^ 2))
    (hpos : e₁ = ⟨e₁.x, 0, 0⟩ → e₂ = ⟨0, e₂.y, 0⟩ → e₃ = ⟨0, 0, e₃.z⟩ → 0 < e₁.x ∧ 0 < e₂.y ∧ 0 < e₃.z) :
    ∃ s e, classify io text = .ok s ∧ explodeMacrobody io sqrt last s = .ok e ∧
      Describes sqrt e.surfs e.inside (InBox (fun t => 0 < t ∧ t < 1) v e₁ e₂ e₃) ∧
      Describes sqrt e.surfs e.outside (fun p => ¬ InBox (fun t => 0 ≤ t ∧ t ≤ 1) v e₁ e₂ e₃ p) := by
  obtain ⟨x, y, z⟩ := v
  obtain ⟨a1, b1, c1⟩ := e₁
  obtain ⟨a2, b2, c2⟩ := e₂
  obtain ⟨a3, b3, c3⟩ := e₃
  obtain ⟨s, hs1, -, hs2, hs3⟩ := classify_box io text n ws _ _ _ _ _ _ _ _ _ _ _ _ hc hw
  simp only at hs2 hs3 hpos
  by_cases h : b1 = 0 ∧ c1 = 0 ∧ a2 = 0 ∧ c2 = 0 ∧ a3 = 0 ∧ b3 = 0
  · obtain ⟨t1, t2⟩ := hs3 h
    obtain ⟨rfl, rfl, rfl, rfl, rfl, rfl⟩ := h
    obtain ⟨p1, p2, p3⟩ := hpos rfl rfl rfl
    obtain ⟨e, he, hi, ho⟩ := describes io hio sqrt last hl s (by rw [t1, t2]; trivial) (by rw [t1, t2]; trivial)
    rw [t1, t2] at hi ho
    have d1 : ∀ p : Point K, dot (p.sub ⟨x, y, z⟩) ⟨a1, 0, 0⟩ / dot (⟨a1, 0, 0⟩ : Point K) ⟨a1, 0, 0⟩ = (p.x - x) / a1 := by
      intro p; simp only [dot, Point.sub]; have := p1.ne'; field_simp; ring
    have d2 : ∀ p : Point K, dot (p.sub ⟨x, y, z⟩) ⟨0, b2, 0⟩ / dot (⟨0, b2, 0⟩ : Point K) ⟨0, b2, 0⟩ = (p.y - y) / b2 := by
      intro p; simp only [dot, Point.sub]; have := p2.ne'; field_simp; ring
    have d3 : ∀ p : Point K, dot (p.sub ⟨x, y, z⟩) ⟨0, 0, c3⟩ / dot (⟨0, 0, c3⟩ : Point K) ⟨0, 0, c3⟩ = (p.z - z) / c3 := by
      intro p; simp only [dot, Point.sub]; have := p3.ne'; field_simp; ring
    have o : ∀ {a u w : K}, 0 < a → ((w < u ∧ u < w + a) ↔ (0 < (u - w) / a ∧ (u - w) / a < 1)) := by
      intro a u w ha
      rw [div_pos_iff_of_pos_right ha, div_lt_one ha, sub_pos, sub_lt_iff_lt_add']
    have c : ∀ {a u w : K}, 0 < a → ((w ≤ u ∧ u ≤ w + a) ↔ (0 ≤ (u - w) / a ∧ (u - w) / a ≤ 1)) := by
      intro a u w ha
      rw [le_div_iff₀ ha, div_le_one ha, zero_mul, sub_nonneg, sub_le_iff_le_add']
    refine ⟨s, e, hs1, he, fun p => ⟨(hi p).1, (hi p).2.trans ?_⟩, fun p => ⟨(ho p).1, (ho p).2.trans ?_⟩⟩
    · rw [inBox_iff _ _ _ _ _ _ h1 h2 h3 h12 h23 h13, d1, d2, d3, ← o p1, ← o p2, ← o p3]; rfl
    · show _ ↔ ¬ InBox _ _ _ _ _ p
      rw [inBox_iff _ _ _ _ _ _ h1 h2 h3 h12 h23 h13, d1, d2, d3, ← c p1, ← c p2, ← c p3]; rfl
  · obtain ⟨t1, t2⟩ := hs2 h
    obtain ⟨e, he, hi, ho⟩ := describes io hio sqrt last hl s (by rw [t1, t2]; exact ⟨h1, h2, h3, h12, h23, h13⟩)
      (by rw [t1, t2]; exact ⟨hroot ⟨a1, b1, c1⟩ (by simp), hroot ⟨a2, b2, c2⟩ (by simp), hroot ⟨a3, b3, c3⟩ (by simp)⟩)
    rw [t1, t2] at hi ho
    exact ⟨s, e, hs1, he, hi, ho⟩

/-- C14: an RCC card with an axis that is not zero is replaced by descriptions of the open cylinder and of the points outside the closed
cylinder. `InCylinder` names the points by their position along the axis and their squared distance from it. -/
theorem C14_rcc (io : NumIO K) (hio : Exact io) (sqrt : K → K) (last : Int) (hl : 0 ≤ last) (text : Str) (n : Int) (ws : List Str)
    (b h : Point K) (r : K) (hc : IsCard io text n none c!"rcc" ws) (hw : Reads io ws [b.x, b.y, b.z, h.x, h.y, h.z, r])
    (h0 : dot h h ≠ 0) (hroot : RootAt sqrt (h.x ^ 2 + h.y ^ 2 + h.z ^ 2)) :
    ∃ s e, classify io text = .ok s ∧ explodeMacrobody io sqrt last s = .ok e ∧
      Describes sqrt e.surfs e.inside (InCylinder (fun t => 0 < t ∧ t < 1) (fun d => d < r ^ 2) b h) ∧
      Describes sqrt e.surfs e.outside (fun p => ¬ InCylinder (fun t => 0 ≤ t ∧ t ≤ 1) (fun d => d ≤ r ^ 2) b h p) := by
  obtain ⟨x, y, z⟩ := b
  obtain ⟨a, b, c⟩ := h
  obtain ⟨s, h1, -, h2, h3⟩ := classify_rcc io text n ws _ _ _ _ _ _ _ hc hw
  simp only at h3
  obtain ⟨e, he, hi, ho⟩ := describes io hio sqrt last hl s
    (by rw [h2, h3]; show a ^ 2 + b ^ 2 + c ^ 2 ≠ 0; rw [sq_eq_dot]; exact h0) (by rw [h2, h3]; exact hroot)
  rw [h2, h3] at hi ho
  exact ⟨s, e, h1, he, hi, ho⟩

/-- C15, partial: a reference to a facet becomes a signed number of a new surface, true on the same side of the facet. Missing: facets 2 and 3
of an RCC; for them the claim is false (`C15_refuted`). -/
theorem C15_facet_partial (io : NumIO K) (hio : Exact io) (sqrt : K → K) (last : Int) (hl : 0 ≤ last) (s : Surface K) (hid : 0 < s.id)
    (hp : ProperBody s.type s.coeffs) (hr : Roots sqrt s.type s.coeffs) (neg : Bool) (k : Nat) (hk : 1 ≤ k ∧ k ≤ facetCount s.type)
    (hrcc : s.type = .macroRCC → k = 1) :
    ∃ e w, explodeMacrobody io sqrt last s = .ok e ∧ flattenWord s.id e.inside e.outside e.surfs (facetWord neg s.id k) = .ok w ∧
      ∀ p, ∃ v, facetValue s.type s.coeffs k p = some v ∧
        (pointSense sqrt (fun _ q => q) e.surfs p w ↔ if neg then v < 0 else 0 < v) := by
  have hval : ∀ p, ∃ v, facetValue s.type s.coeffs k p = some v := facetValue_some hp.shape hk
  obtain ⟨f, hf⟩ : ∃ f, (faces sqrt s.type s.coeffs)[k - 1]? = some f := by
    obtain ⟨v, hv⟩ := hval ⟨0, 0, 0⟩
    obtain ⟨v', hv', -⟩ := faces_facet hp hr ⟨0, 0, 0⟩ k hrcc v hv
    cases hf : (faces sqrt s.type s.coeffs)[k - 1]? with
    | some f => exact ⟨f, rfl⟩
    | none =>
      rw [List.getElem?_eq_none_iff, ← faceValues_length sqrt s.type s.coeffs ⟨0, 0, 0⟩] at hf
      rw [List.getElem?_eq_none hf] at hv'
      cases hv'
  have hn : (newSurfaces sqrt last s)[k - 1]? = some (plainCard (last + 1 + (k - 1 : Nat)) f.1 f.2) := by
    rw [newSurfaces_get, hf]; rfl
  refine ⟨_, _, explode_ok io hio sqrt last s hp hr, flattenWord_facet hid _ _ _ neg k hk.1 hn, fun p => ?_⟩
  obtain ⟨v, hv⟩ := hval p
  refine ⟨v, hv, ?_⟩
  obtain ⟨v', hv', h1, h2⟩ := faces_facet hp hr p k hrcc v hv
  have hs := sense_face sqrt (fun _ q => q) (newSurfaces_unique sqrt last s none) hl (fun n hn => hn) p hf
  obtain ⟨v'', h3, h4, h5⟩ := hs
  rw [hv'] at h3
  cases h3
  rw [placed_none] at h4 h5
  cases neg
  · simpa [plainCard, explodedBody, h2] using h4
  · simpa [plainCard, explodedBody, h1] using h5

/-- C15: the body lies on the negative side of each of its facets, for all three kinds. -/
theorem C15_negative_side (sqrt : K → K) (s : Surface K) (hp : ProperBody s.type s.coeffs) (hr : Roots sqrt s.type s.coeffs) (k : Nat)
    (hk : 1 ≤ k) (p : Point K) (hin : Inside s.type s.coeffs p) (v : K) (hv : facetValue s.type s.coeffs k p = some v) : v < 0 := by
  have hf := (faces_inside hp hr p).2 hin
  by_cases hrcc : s.type = .macroRCC → k = 1
  · obtain ⟨v', h1, h2, -⟩ := faces_facet hp hr p k hrcc v hv
    exact h2.2 (hf v' (List.mem_of_getElem? h1))
  · push Not at hrcc
    obtain ⟨h1, h2⟩ := hrcc
    generalize s.type = ty at *
    generalize s.coeffs = cs at *
    subst h1
    unfold ProperBody at hp
    split at hp <;> simp_all only [reduceCtorEq]
    rename_i x y z a b c r
    have n1 := root_pos (sqrt := sqrt) hr hp
    simp only [faceValues, List.mem_cons, List.not_mem_nil, or_false, forall_eq_or_imp, forall_eq] at hf
    simp only [facetValue] at hv
    have h3 : k = 2 ∨ k = 3 := by
      rcases Nat.lt_or_ge k 4 with h | h
      · omega
      · rw [List.getElem?_eq_none (by simp; omega)] at hv; cases hv
    rcases h3 with rfl | rfl
    · simp at hv
      rw [← hv]
      exact (div_signs n1).1.1 hf.2.2
    · simp at hv
      rw [← hv]
      exact (div_signs n1).1.1 hf.2.1

end

/-- A square root function that is right on 25 and 100. -/
def sampleRoot : ℚ → ℚ := fun x => if x = 25 then 5 else if x = 100 then 10 else x

/-- A box that is turned around the z axis meets the hypotheses of `C13_box_partial`. -/
example : IsCard fractionIO c!"5 box 1 2 3 3 4 0 -8 6 0 0 0 -5" 5 none c!"box"
      [c!"1", c!"2", c!"3", c!"3", c!"4", c!"0", c!"-8", c!"6", c!"0", c!"0", c!"0", c!"-5"] ∧
    Reads fractionIO [c!"1", c!"2", c!"3", c!"3", c!"4", c!"0", c!"-8", c!"6", c!"0", c!"0", c!"0", c!"-5"]
      [1, 2, 3, 3, 4, 0, -8, 6, 0, 0, 0, -5] ∧
    dot (⟨3, 4, 0⟩ : Point ℚ) ⟨3, 4, 0⟩ ≠ 0 ∧ dot (⟨-8, 6, 0⟩ : Point ℚ) ⟨-8, 6, 0⟩ ≠ 0 ∧ dot (⟨0, 0, -5⟩ : Point ℚ) ⟨0, 0, -5⟩ ≠ 0 ∧
    dot (⟨3, 4, 0⟩ : Point ℚ) ⟨-8, 6, 0⟩ = 0 ∧ dot (⟨-8, 6, 0⟩ : Point ℚ) ⟨0, 0, -5⟩ = 0 ∧ dot (⟨3, 4, 0⟩ : Point ℚ) ⟨0, 0, -5⟩ = 0 ∧
    (∀ e ∈ [(⟨3, 4, 0⟩ : Point ℚ), ⟨-8, 6, 0⟩, ⟨0, 0, -5⟩], RootAt sampleRoot (e.x ^ 2 + e.y ^ 2 + e.z ^ 2)) ∧
    (⟨3, 4, 0⟩ : Point ℚ) ≠ ⟨3, 0, 0⟩ := by
  refine ⟨⟨c!"5", by decide +kernel, by decide, ⟨_, [], Or.inl rfl, by decide, by decide +kernel⟩, by decide +kernel⟩, ?_,
    by decide +kernel, by decide +kernel, by decide +kernel, by decide +kernel, by decide +kernel, by decide +kernel, ?_, by decide +kernel⟩
  · unfold Reads
    repeat (first | exact .nil | refine .cons (by decide +kernel) ?_)
  · unfold RootAt; decide +kernel

/-- A cylinder that meets the hypotheses of `C14_rcc`. -/
example : IsCard fractionIO c!"5 rcc 1 2 3 3 4 0 2" 5 none c!"rcc" [c!"1", c!"2", c!"3", c!"3", c!"4", c!"0", c!"2"] ∧
    Reads fractionIO [c!"1", c!"2", c!"3", c!"3", c!"4", c!"0", c!"2"] [1, 2, 3, 3, 4, 0, 2] ∧
    dot (⟨3, 4, 0⟩ : Point ℚ) ⟨3, 4, 0⟩ ≠ 0 ∧ RootAt sampleRoot ((3 : ℚ) ^ 2 + 4 ^ 2 + 0 ^ 2) := by
  refine ⟨⟨c!"5", by decide +kernel, by decide, ⟨_, [], Or.inl rfl, by decide, by decide +kernel⟩, by decide +kernel⟩, ?_,
    by decide +kernel, by unfold RootAt; decide +kernel⟩
  unfold Reads
  repeat (first | exact .nil | refine .cons (by decide +kernel) ?_)

/-- A body that meets the hypotheses of `C15_facet_partial`, with what it gives for facet 4. -/
example : ProperBody (.macroRPP) [(0 : ℚ), 1, 0, 1, 0, 1] ∧
    (explodeMacrobody fractionIO sampleRoot 7 (plainCard 5 .macroRPP [0, 1, 0, 1, 0, 1])).bind
      (fun e => flattenWord 5 e.inside e.outside e.surfs c!"-5.4") = .ok c!"-11" := by
  exact ⟨trivial, by decide +kernel⟩

/-- C13 is false for edges along the axes in negative direction: the solid has points, but the description of its inside holds nowhere. -/
theorem C13_refuted : ∃ (text : Str) (ws : List Str) (v e₁ e₂ e₃ : Point ℚ) (s : Surface ℚ) (e : Exploded ℚ),
    IsCard fractionIO text 5 none c!"box" ws ∧
    Reads fractionIO ws [v.x, v.y, v.z, e₁.x, e₁.y, e₁.z, e₂.x, e₂.y, e₂.z, e₃.x, e₃.y, e₃.z] ∧
    (dot e₁ e₁ ≠ 0 ∧ dot e₂ e₂ ≠ 0 ∧ dot e₃ e₃ ≠ 0) ∧ (dot e₁ e₂ = 0 ∧ dot e₂ e₃ = 0 ∧ dot e₁ e₃ = 0) ∧
    classify fractionIO text = .ok s ∧ explodeMacrobody fractionIO sampleRoot 5 s = .ok e ∧
    InBox (fun t => 0 < t ∧ t < 1) v e₁ e₂ e₃ ⟨0, 0, 0⟩ ∧ Describes sampleRoot e.surfs e.inside (fun _ => False) := by
  have hr : Reads fractionIO [c!"1", c!"1", c!"1", c!"-2", c!"0", c!"0", c!"0", c!"-2", c!"0", c!"0", c!"0", c!"-2"]
      [1, 1, 1, -2, 0, 0, 0, -2, 0, 0, 0, -2] := by
    unfold Reads
    repeat (first | exact .nil | refine .cons (by decide +kernel) ?_)
  have hc : IsCard fractionIO c!"5 box 1 1 1 -2 0 0 0 -2 0 0 0 -2" 5 none c!"box"
      [c!"1", c!"1", c!"1", c!"-2", c!"0", c!"0", c!"0", c!"-2", c!"0", c!"0", c!"0", c!"-2"] :=
    ⟨c!"5", by decide +kernel, by decide, ⟨_, [], Or.inl rfl, by decide, by decide +kernel⟩, by decide +kernel⟩
  obtain ⟨s, h1, -, -, h2⟩ := classify_box _ _ _ _ _ _ _ _ _ _ _ _ _ _ _ _ hc hr
  obtain ⟨h2, h3⟩ := h2 (by simp)
  obtain ⟨e, h4, h5, -⟩ := describes fractionIO fractionIO_exact sampleRoot 5 (by decide) s (by rw [h2, h3]; trivial) (by rw [h2, h3]; trivial)
  refine ⟨_, _, ⟨1, 1, 1⟩, ⟨-2, 0, 0⟩, ⟨0, -2, 0⟩, ⟨0, 0, -2⟩, s, e, hc, hr, by decide +kernel, by decide +kernel, h1, h4,
    ⟨1 / 2, 1 / 2, 1 / 2, by norm_num, by norm_num, by norm_num, by simp [Point.add, Point.scale]⟩,
    fun p => ⟨(h5 p).1, (h5 p).2.trans ?_⟩⟩
  rw [h2, h3]
  simp only [Inside, iff_false]
  rintro ⟨⟨a, b⟩, -⟩
  linarith

/-- C15 is false for facets 2 and 3 of an RCC: the two end planes are exchanged. The point lies on the negative side of facet 2, but the word that
replaces the reference is false there. -/
theorem C15_refuted : ∃ (s : Surface ℚ) (e : Exploded ℚ) (w : Str) (p : Point ℚ) (v : ℚ),
    ProperBody s.type s.coeffs ∧ Roots sampleRoot s.type s.coeffs ∧ s.type = .macroRCC ∧
    explodeMacrobody fractionIO sampleRoot 5 s = .ok e ∧ flattenWord 5 e.inside e.outside e.surfs (facetWord true 5 2) = .ok w ∧
    facetValue s.type s.coeffs 2 p = some v ∧ v < 0 ∧ ¬ pointSense sampleRoot (fun _ q => q) e.surfs p w := by
  have hp : ProperBody .macroRCC [(0 : ℚ), 0, 0, 0, 0, 5, 1] := by simp [ProperBody]
  have hr : Roots sampleRoot .macroRCC [(0 : ℚ), 0, 0, 0, 0, 5, 1] := by
    show RootAt sampleRoot _
    unfold RootAt; decide +kernel
  refine ⟨plainCard 5 .macroRCC [0, 0, 0, 0, 0, 5, 1], _, c!"-7", ⟨0, 0, -1⟩, -30, hp, hr, rfl,
    explode_ok fractionIO fractionIO_exact sampleRoot 5 _ hp hr, by decide +kernel, by decide +kernel, by norm_num, ?_⟩
  obtain ⟨v, h1, -, h2⟩ := sense_face sampleRoot (fun _ q => q)
    (newSurfaces_unique sampleRoot 5 (plainCard 5 .macroRCC [0, 0, 0, 0, 0, 5, 1]) none) (by decide) (fun n hn => hn) ⟨0, 0, -1⟩ (i := 1) rfl
  rw [placed_none] at h2
  intro h
  have h3 : v < 0 := h2.1 h
  have h4 : v = 1 := by
    have : some v = some (1 : ℚ) := by rw [← h1]; decide +kernel
    simpa using this
  rw [h4] at h3
  exact absurd h3 (by norm_num)

end Csg
