import Verif.Lemmas.Words
import Verif.Lemmas.Num
import Verif.Lemmas.Surface
import Verif.Lemmas.SurfaceCard
import Verif.Props.Wrapping
import Verif.Spec.Sample
import Verif.Spec.CellBack

/-!
# C63: surface cards written in MCNP syntax are read back
-/

namespace Csg

open Spec

/-- The mnemonics that are printed. -/
def printedMnemonics : List Str :=
  [c!"p", c!"px", c!"py", c!"pz", c!"c/x", c!"c/y", c!"c/z", c!"k/x", c!"k/y", c!"k/z", c!"s", c!"gq", c!"tx", c!"ty", c!"tz"]

private theorem printed_ok : ∀ mn ∈ printedMnemonics, mn ≠ [] ∧ (∀ c ∈ mn, isSpace c = false) ∧ mn.length ≤ 3 ∧ '$' ∉ mn ∧ ∀ c ∈ mn, c.isUpper = false := by
  decide

section
variable {K : Type} [Field K] [LinearOrder K]

/-- For every type: the text is made of words, and these are classified back. -/
private theorem shape (io : NumIO K) (s : Surface K) (he : Expressible s) (b : Str) (hb : mcnpBoundary s.bc = .ok b) :
    ∃ mn vals, mcnpSurfaceLine io s = .ok (joinLine ((b ++ intStr s.id) :: mn :: vals.map io.render)) ∧
      (∀ x ∈ vals, x ∈ s.coeffs) ∧ mn ∈ printedMnemonics ∧
      classifyFields ⟨s.id, none, mn, .ofValues vals⟩ =
        .ok { (Surface.blank : Surface K) with type := s.type, id := s.id, coeffs := s.coeffs } := by
  unfold Expressible at he
  unfold mcnpSurfaceLine
  rw [hb]
  split at he
  all_goals rename_i hty
  all_goals try contradiction
  · obtain ⟨a, ha⟩ := he
    refine ⟨c!"px", [a], ?_, ?_, by decide, ?_⟩
    · simp [hty, ha, mcnpLayout, coeffText, pyGet, bind, Except.bind, joinLine]
    · simp [ha]
    · rw [hty, ha]; run_classify; run_card
  · obtain ⟨a, ha⟩ := he
    refine ⟨c!"py", [a], ?_, ?_, by decide, ?_⟩
    · simp [hty, ha, mcnpLayout, coeffText, pyGet, bind, Except.bind, joinLine]
    · simp [ha]
    · rw [hty, ha]; run_classify; run_card
  · obtain ⟨a, ha⟩ := he
    refine ⟨c!"pz", [a], ?_, ?_, by decide, ?_⟩
    · simp [hty, ha, mcnpLayout, coeffText, pyGet, bind, Except.bind, joinLine]
    · simp [ha]
    · rw [hty, ha]; run_classify; run_card
  · obtain ⟨a, b', c, d, ha⟩ := he
    refine ⟨c!"k/x", [a, b', c, d], ?_, ?_, by decide, ?_⟩
    · simp [hty, ha, mcnpLayout, coeffText, pyGet, bind, Except.bind, joinLine]
    · simp [ha]
    · rw [hty, ha]; run_classify; run_card
  · obtain ⟨a, b', c, d, ha⟩ := he
    refine ⟨c!"k/y", [a, b', c, d], ?_, ?_, by decide, ?_⟩
    · simp [hty, ha, mcnpLayout, coeffText, pyGet, bind, Except.bind, joinLine]
    · simp [ha]
    · rw [hty, ha]; run_classify; run_card
  · obtain ⟨a, b', c, d, ha⟩ := he
    refine ⟨c!"k/z", [a, b', c, d], ?_, ?_, by decide, ?_⟩
    · simp [hty, ha, mcnpLayout, coeffText, pyGet, bind, Except.bind, joinLine]
    · simp [ha]
    · rw [hty, ha]; run_classify; run_card
  · obtain ⟨x0, x1, x2, x3, ha⟩ := length_four he
    refine ⟨c!"p", [x0, x1, x2, x3], ?_, ?_, by decide, ?_⟩
    · simp [hty, ha, mcnpLayout, coeffText, pyGet, bind, Except.bind, joinLine]
    · simp [ha]
    · rw [hty, ha]; run_classify; run_card
  · obtain ⟨x0, x1, x2, x3, ha⟩ := length_four he
    refine ⟨c!"s", [x0, x1, x2, x3], ?_, ?_, by decide, ?_⟩
    · simp [hty, ha, mcnpLayout, coeffText, pyGet, bind, Except.bind, joinLine]
    · simp [ha]
    · rw [hty, ha]; run_classify; run_card
  · obtain ⟨x0, x1, x2, ha⟩ := length_three he
    refine ⟨c!"c/x", [x0, x1, x2], ?_, ?_, by decide, ?_⟩
    · simp [hty, ha, mcnpLayout, coeffText, pyGet, bind, Except.bind, joinLine]
    · simp [ha]
    · rw [hty, ha]; run_classify; run_card
  · obtain ⟨x0, x1, x2, ha⟩ := length_three he
    refine ⟨c!"c/y", [x0, x1, x2], ?_, ?_, by decide, ?_⟩
    · simp [hty, ha, mcnpLayout, coeffText, pyGet, bind, Except.bind, joinLine]
    · simp [ha]
    · rw [hty, ha]; run_classify; run_card
  · obtain ⟨x0, x1, x2, ha⟩ := length_three he
    refine ⟨c!"c/z", [x0, x1, x2], ?_, ?_, by decide, ?_⟩
    · simp [hty, ha, mcnpLayout, coeffText, pyGet, bind, Except.bind, joinLine]
    · simp [ha]
    · rw [hty, ha]; run_classify; run_card
  · obtain ⟨x0, x1, x2, x3, x4, x5, ha⟩ := length_six he
    refine ⟨c!"tx", [x0, x1, x2, x3, x4, x5], ?_, ?_, by decide, ?_⟩
    · simp [hty, ha, mcnpLayout, coeffText, pyGet, bind, Except.bind, joinLine]
    · simp [ha]
    · rw [hty, ha]; run_classify; run_card
  · obtain ⟨x0, x1, x2, x3, x4, x5, ha⟩ := length_six he
    refine ⟨c!"ty", [x0, x1, x2, x3, x4, x5], ?_, ?_, by decide, ?_⟩
    · simp [hty, ha, mcnpLayout, coeffText, pyGet, bind, Except.bind, joinLine]
    · simp [ha]
    · rw [hty, ha]; run_classify; run_card
  · obtain ⟨x0, x1, x2, x3, x4, x5, ha⟩ := length_six he
    refine ⟨c!"tz", [x0, x1, x2, x3, x4, x5], ?_, ?_, by decide, ?_⟩
    · simp [hty, ha, mcnpLayout, coeffText, pyGet, bind, Except.bind, joinLine]
    · simp [ha]
    · rw [hty, ha]; run_classify; run_card
  · obtain ⟨x0, x1, x2, x3, x4, x5, x6, x7, x8, x9, ha⟩ := length_ten he
    refine ⟨c!"gq", [x0, x1, x2, x3, x4, x5, x6, x7, x8, x9], ?_, ?_, by decide, ?_⟩
    · simp [hty, ha, mcnpLayout, coeffText, pyGet, bind, Except.bind, joinLine]
    · simp [ha]
    · rw [hty, ha]; run_classify; run_card

/-- The words of the card of an expressible surface, and that a text with these words is read as the surface. -/
theorem surface_words (io : NumIO K) (s : Surface K) (he : Expressible s) (hb : s.bc ≠ .periodic) (hid : 0 ≤ s.id)
    (hlen : (intStr s.id).length ≤ 60) (hgood : ∀ x ∈ s.coeffs, io.Good x)
    (hmn : ∀ mn ∈ printedMnemonics, io.parse mn = none) :
    ∃ ws, mcnpSurfaceLine io s = .ok (joinLine ws) ∧
      (∀ w ∈ ws, w ≠ [] ∧ NoSpace w ∧ w.length + 1 ≤ 69 ∧ '$' ∉ w ∧ ∀ c ∈ w, c.isUpper = false) ∧
      (∃ ch t ws', ws = (ch :: t) :: ws' ∧ (isDigit ch = true ∨ ch ∈ ['-', '*', '+'])) ∧
      ∀ txt, split txt = ws → ∃ r, classify io txt = .ok r ∧ SameSurface s r := by
  obtain ⟨b, hbc, hstar, hblen⟩ : ∃ b, mcnpBoundary s.bc = .ok b ∧ (b = [] ∨ b = c!"*" ∨ b = c!"+") ∧ b.length ≤ 1 := by
    cases h : s.bc <;> simp [mcnpBoundary, h] at hb ⊢
  obtain ⟨mn, vals, hline, hvals, hm, hcl⟩ := shape io s he b hbc
  obtain ⟨hm1, hm2, hm3, hm4, hm5⟩ := printed_ok mn hm
  have hgv : ∀ x ∈ vals, io.Good x := fun x hx => hgood x (hvals x hx)
  have hbw : NoSpace b ∧ '$' ∉ b := by
    rcases hstar with rfl | rfl | rfl <;> exact ⟨by unfold NoSpace; decide, by decide⟩
  have hdig : ∀ c, isDigit c = true → c.isUpper = false := by
    intro c h
    unfold isDigit at h
    simp only [Bool.or_eq_true, beq_iff_eq] at h
    rcases h with ((((((((rfl | rfl) | rfl) | rfl) | rfl) | rfl) | rfl) | rfl) | rfl) | rfl <;> decide
  have hwords : ∀ w ∈ (b ++ intStr s.id) :: mn :: vals.map io.render, w ≠ [] ∧ NoSpace w ∧ w.length + 1 ≤ 69 ∧ '$' ∉ w ∧ ∀ c ∈ w, c.isUpper = false := by
    intro w hw
    rcases List.mem_cons.1 hw with rfl | hw
    · refine ⟨by simp [intStr_ne_nil], ?_, by simp; omega, ?_, ?_⟩
      · intro c hc
        rcases List.mem_append.1 hc with h | h
        · exact hbw.1 c h
        · exact intStr_noSpace _ c h
      · intro hc
        rcases List.mem_append.1 hc with h | h
        · exact hbw.2 h
        · exact intStr_not_mem _ (by decide) (by decide) h
      · intro c hc
        rcases List.mem_append.1 hc with h | h
        · rcases hstar with rfl | rfl | rfl <;> simp at h <;> subst h <;> decide
        · rcases intStr_chars _ c h with h | rfl
          · exact hdig c h
          · decide
    · rcases List.mem_cons.1 hw with rfl | hw
      · exact ⟨hm1, hm2, by omega, hm4, hm5⟩
      · obtain ⟨x, hx, rfl⟩ := List.mem_map.1 hw
        have g := hgv x hx
        refine ⟨g.ne_nil, g.noSpace, by have := g.len; omega, g.not_mem (by decide) (by decide), ?_⟩
        intro c hc
        rcases g.chars c hc with h | rfl | rfl | rfl | rfl
        · exact hdig c h
        all_goals decide
  refine ⟨_, hline, hwords, ?_, ?_⟩
  · obtain ⟨z, q, hz⟩ := List.exists_cons_of_ne_nil (intStr_ne_nil s.id)
    rcases hstar with rfl | rfl | rfl
    · refine ⟨z, q, _, by rw [List.nil_append, hz], ?_⟩
      rcases intStr_chars s.id z (by rw [hz]; simp) with h | h
      · exact Or.inl h
      · right; simp [h]
    · exact ⟨'*', intStr s.id, _, rfl, by simp⟩
    · exact ⟨'+', intStr s.id, _, rfl, by simp⟩
  intro out hsplit
  refine ⟨{ (Surface.blank : Surface K) with type := s.type, id := s.id, coeffs := s.coeffs }, ?_, rfl, rfl, rfl, rfl⟩
  rw [← hcl]
  have hreads : Reads io (vals.map io.render) vals := by
    unfold Reads
    clear hline hvals hcl hwords hsplit
    induction vals with
    | nil => exact .nil
    | cons v vs ih => exact .cons (hgv v (by simp)).parse_render (ih fun x hx => hgv x (List.mem_cons_of_mem _ hx))
  rw [← ofWords_eq io _ _ hreads]
  have hbody : Words out ((b ++ intStr s.id) :: mn :: vals.map io.render) := by
    refine ⟨out, [], Or.inl rfl, ?_, hsplit⟩
    intro hd
    obtain ⟨w, hw, hd⟩ := split_mem out '$' (by decide) hd
    rw [hsplit] at hw
    exact (hwords w hw).2.2.2.1 hd
  have hns : '*' ∉ intStr s.id := intStr_not_mem _ (by decide) (by decide)
  rcases hstar with rfl | rfl | rfl
  · exact classify_isCard io out s.id none mn _ ⟨intStr s.id, parseInt_intStr _, hns, hbody, hmn mn hm⟩
  · exact classify_isStarCard io out s.id none mn _ ⟨intStr s.id, parseInt_intStr _, hns, hbody, hmn mn hm⟩
  · refine classify_isCard io out s.id none mn _ ⟨'+' :: intStr s.id, ?_, ?_, hbody, hmn mn hm⟩
    · obtain ⟨n, hn⟩ := Int.eq_ofNat_of_zero_le hid
      have := parseNat_natStr n
      rw [hn]
      simp [parseInt, intStr, this]
    · simp [hns]

/-- C63, partial: an expressible card with a non-negative number is written without an endless loop as a text of at most 80 columns per line, and
reading the text gives back number, type and coefficients. Missing: the sheet selector (see C08) and the boundary condition, which is not
read back (see C26). `float` and `str` are assumed to be inverse to each other on the coefficients. -/
theorem C63_round_trip_partial (io : NumIO K) (s : Surface K) (he : Expressible s) (hb : s.bc ≠ .periodic) (hid : 0 ≤ s.id)
    (hlen : (intStr s.id).length ≤ 60) (hgood : ∀ x ∈ s.coeffs, io.Good x)
    (hmn : ∀ mn ∈ printedMnemonics, io.parse mn = none) :
    ∃ out, (∃ fuel₀, ∀ fuel ≥ fuel₀, writeMcnpSurface fuel io s = .ok (some out)) ∧ WellWrapped out ∧
      ∃ r, classify io out = .ok r ∧ r.id = s.id ∧ r.type = s.type ∧ r.coeffs = s.coeffs ∧ r.transform = none := by
  obtain ⟨ws, hline, hwords, -, hread⟩ := surface_words io s he hb hid hlen hgood hmn
  obtain ⟨out, ⟨f0, hf⟩, hsplit, hwrap⟩ := C33_wrapping _
    (maxRun_joinLine ws (by norm_num) fun w hw => by have := (hwords w hw).2.2.1; omega)
    (oneLine_joinLine _ fun w hw => (hwords w hw).2.1)
  rw [split_joinLine _ fun w hw => ⟨(hwords w hw).1, (hwords w hw).2.1⟩] at hsplit
  obtain ⟨r, hr, h1, h2, h3, h4⟩ := hread out hsplit
  exact ⟨out, ⟨f0, fun fuel hfu => by simp [writeMcnpSurface, hline, bind, Except.bind, hf fuel hfu]⟩, hwrap, r, hr, h1, h2, h3, h4⟩

end

/-- A two-sheet cone that meets the hypotheses. -/
def roundTripCone : Surface ℚ := { (Surface.blank : Surface ℚ) with type := .coneX, id := 7, coeffs := [1, -2, 3, 4, 0] }

example : Expressible roundTripCone ∧ 0 ≤ roundTripCone.id ∧ (∀ x ∈ roundTripCone.coeffs, sampleIO.Good x) ∧
    (∀ mn ∈ printedMnemonics, sampleIO.parse mn = none) ∧
    writeMcnpSurface 5 sampleIO roundTripCone = .ok (some c!"7 k/x 1.0 -2.0 3.0 4.0\n") := by
  refine ⟨⟨1, -2, 3, 4, rfl⟩, by decide, ?_, by decide +kernel, by decide +kernel⟩
  intro x hx
  have : ∀ x ∈ roundTripCone.coeffs, sampleIO.parse (sampleIO.render x) = some x ∧ sampleIO.render x ≠ [] ∧
      (sampleIO.render x).length ≤ 24 ∧ ∀ c ∈ sampleIO.render x,
        isDigit c = true ∨ c = '+' ∨ c = '-' ∨ c = '.' ∨ c = 'e' := by decide +kernel
  obtain ⟨h1, h2, h3, h4⟩ := this x hx
  exact ⟨h1, h2, h3, h4⟩

/-- C63 is false: a cone that opens in one direction comes back as a double cone. -/
theorem C63_refuted : ¬ ∀ (s r : Surface ℚ) (out : Str), WellFormed s → IsQuadric s.type → s.bc = .transmission →
    writeMcnpSurface 5 sampleIO s = .ok (some out) → classify sampleIO out = .ok r →
    r.type = s.type ∧ r.coeffs = s.coeffs := by
  intro h
  have := h { roundTripCone with coeffs := [1, -2, 3, 4, 1] } roundTripCone c!"7 k/x 1.0 -2.0 3.0 4.0\n" rfl trivial rfl
    (by decide +kernel) (by decide +kernel)
  exact absurd this.2 (by decide +kernel)

end Csg
