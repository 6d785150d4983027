import Verif.Spec.InputFile
import Verif.Lemmas.McnpFile
import Verif.Lemmas.Macrobody
import Verif.Lemmas.Faces
import Verif.Props.Parameters
import Verif.Props.SurfaceCards
import Verif.Props.Importances
import Verif.Props.DataCards
import Verif.Props.Cells

/-!
# Reading an input file card by card
-/

set_option linter.unusedSectionVars false

namespace Csg

open Spec

/-! ## Lines -/

theorem toLower_newline {c : Char} (h : c.toLower = '\n') : c = '\n' := by
  unfold Char.toLower at h
  split at h
  · rename_i h1
    exfalso
    have h2 := congrArg Char.val h
    simp only at h2
    have h3 : c.val.toNat ≥ 65 := UInt32.le_iff_toNat_le.1 h1.1
    have h4 : c.val.toNat ≤ 90 := UInt32.le_iff_toNat_le.1 h1.2
    have h5 := congrArg UInt32.toNat h2
    rw [UInt32.toNat_add] at h5
    have h6 : ('a'.val - 'A'.val).toNat = 32 := by decide
    have h7 : ('\n' : Char).val.toNat = 10 := by decide
    rw [h6, h7] at h5
    omega
  · exact h

theorem readlines_lower (s : Str) : readlines (lower s) = (readlines s).map lower := by
  induction s with
  | nil => rfl
  | cons c s ih =>
    show readlines (c.toLower :: lower s) = _
    rw [readlines, readlines, ih]
    by_cases hc : c = '\n'
    · subst hc
      rw [if_pos (by decide), if_pos rfl]
      rfl
    · rw [if_neg fun h => hc (toLower_newline h), if_neg hc]
      cases readlines s with
      | nil => rfl
      | cons l ls => rfl

theorem readText_layout {text : Str} {ls : List Str} (h : text.map Char.toLower = ls.flatten) (hl : ∀ l ∈ ls, ∃ t, '\n' ∉ t ∧ l = t ++ c!"\n") : readText text = ls := by
  have h1 : readText text = readlines (lower text) := (readlines_lower text).symm
  rw [h1, show lower text = ls.flatten ++ [] by rw [List.append_nil]; exact h, readlines_lines _ _ hl]
  simp [readlines]

theorem dropComments_filter {ls : List Str} (h : ∀ l ∈ ls, l ≠ []) : dropComments ls = .ok (ls.filter fun l => l.head? ≠ some 'c') := by
  induction ls with
  | nil => rfl
  | cons l ls ih =>
    cases l with
    | nil => exact absurd rfl (h [] (by simp))
    | cons c t =>
      rw [dropComments, ih fun l hl => h l (List.mem_cons_of_mem _ hl)]
      by_cases hc : c = 'c'
      · subst hc
        rw [List.filter_cons_of_neg (by simp)]
        rfl
      · rw [List.filter_cons_of_pos (by simp [hc])]
        simp [bind, Except.bind, hc]

theorem codeOf_plain {l : Str} (h : '$' ∉ l) : codeOf l = l :=
  List.takeWhile_eq_self_iff.2 fun x hx => by
    simp only [decide_eq_true_eq]
    rintro rfl
    exact h hx

theorem codeOf_comment {code a : Str} (h : '$' ∉ code) : codeOf (code ++ '$' :: a) = code := by
  unfold codeOf
  rw [List.takeWhile_append_of_pos fun x hx => by
    simp only [decide_eq_true_eq]
    rintro rfl
    exact h hx]
  simp

theorem dollar_cases (l : Str) : '$' ∉ l ∨ ∃ code a, '$' ∉ code ∧ l = code ++ '$' :: a := by
  by_cases h : '$' ∈ l
  · obtain ⟨a, b, e, ha⟩ := List.eq_append_cons_of_mem h
    exact .inr ⟨a, b, ha, e⟩
  · exact .inl h

theorem removeInline_code (l : Str) : removeInlineComment l = codeOf l := by
  rcases dollar_cases l with h | ⟨code, a, h, rfl⟩
  · rw [removeInlineComment_plain h, codeOf_plain h]
  · rw [removeInlineComment_comment h, codeOf_comment h]

theorem stripDollar_code (l : Str) : stripDollar l = codeOf l := by
  unfold stripDollar
  rcases dollar_cases l with h | ⟨code, a, h, rfl⟩
  · rw [findChar_not_mem _ _ h, codeOf_plain h]
    rfl
  · rw [codeOf_comment h, findChar_append _ _ _ h]
    simp only
    rw [if_neg (by omega)]
    simp [sliceTo]

/-- A block of cards is read up to the blank line. -/
theorem block_layout {α : Type} {clean : Str → Str} {parse : Str → Py α} (hclean : ∀ l, clean l = codeOf l) {gs : List (List Str)} (h : ∀ g ∈ gs, CardOf g) {blank : Str}
    (hb : BlankLine blank) {ys : List α} (hy : (gs.map cardText).mapM parse = .ok ys) (rest : List Str) : block clean parse (gs.flatten ++ blank :: rest) = .ok (ys, rest) := by
  refine (C38_block clean parse _ ys rest).2 ⟨gs.flatten, blank, gs.map (List.map codeOf), rfl, ?_, ?_, ⟨?_, ?_⟩, ?_⟩
  · have : '$' ∉ blank := fun hd => absurd (hb.2 _ hd) (by decide)
    rw [hclean, show codeOf blank = blank from ?_]
    · exact hb
    · exact codeOf_plain this
  · rw [List.map_flatten]
    congr 1
    apply List.map_congr_left
    intro g _
    exact List.map_congr_left fun l _ => hclean l
  · intro g hg
    obtain ⟨g', hg', rfl⟩ := List.mem_map.1 hg
    obtain ⟨first, more, rfl, -, hm, hc⟩ := h g' hg'
    have nb : ∀ l ∈ first :: more, ¬ BlankLine (codeOf l) := by
      intro l hl hbl
      obtain ⟨ch, hch, hs⟩ := hc l hl
      rw [hbl.2 ch hch] at hs
      cases hs
    refine ⟨_, _, rfl, nb first (by simp), ?_⟩
    intro l hl
    obtain ⟨l', hl', rfl⟩ := List.mem_map.1 hl
    refine ⟨nb l' (by simp [hl']), ?_⟩
    obtain ⟨t, rfl⟩ := hm l' hl'
    exact ⟨codeOf t, by simp [codeOf]⟩
  · intro g hg l hl hcont
    obtain ⟨g', hg', rfl⟩ := List.mem_map.1 (List.mem_of_mem_tail hg)
    obtain ⟨first, more, rfl, hf, -, -⟩ := h g' hg'
    simp only [List.map_cons, List.head?_cons, Option.some.injEq] at hl
    subst hl
    obtain ⟨-, t, e⟩ := hcont
    apply hf
    refine ⟨t ++ first.dropWhile (· ≠ '$'), ?_⟩
    rw [← List.append_assoc, ← e]
    exact (List.takeWhile_append_dropWhile).symm
  · rw [List.map_map]
    exact hy

/-! ## Cells -/

theorem derives_closed {A : Type} {lv : Level} {w : List (Sym A)} {r : Reg A} (h : Derives lv w r) : ∃ s, w.getLast? = some s ∧ s ≠ .un ∧ s ≠ .no ∧ s ≠ .lp := by
  induction h with
  | atom a => exact ⟨_, rfl, by simp, by simp, by simp⟩
  | paren _ _ => exact ⟨.rp, by rw [← List.cons_append, List.getLast?_concat], by simp, by simp, by simp⟩
  | compl _ ih =>
    obtain ⟨s, e, k⟩ := ih
    exact ⟨s, by rw [List.getLast?_cons, e]; rfl, k⟩
  | single _ ih => exact ih
  | inter _ _ _ ih =>
    obtain ⟨s, e, k⟩ := ih
    exact ⟨s, by rw [List.getLast?_append, e]; rfl, k⟩
  | one _ ih => exact ih
  | union _ _ _ ih =>
    obtain ⟨s, e, k⟩ := ih
    exact ⟨s, by rw [List.getLast?_append, List.getLast?_cons, e]; rfl, k⟩

theorem generalise_legal {toks : List Str} (h : Legal (tokenSyms toks)) : ∃ is ns, generalise toks = .ok (is, ns) ∧ itemSyms is = tokenSyms toks := by
  have hno : ¬ ∃ e, generalise toks = .error e := by
    rw [C18_fails_iff]
    obtain ⟨r, hr⟩ := h
    obtain ⟨s, e, k1, k2, k3⟩ := derives_closed hr
    unfold tokenSyms at e
    rw [List.getLast?_map] at e
    rintro (rfl | h | h | h)
    · simp at e
    all_goals
      rw [h] at e
      simp only [Option.map_some, Option.some.injEq] at e
      subst e
    · exact k1 (by decide)
    · exact k2 (by decide)
    · exact k3 (by decide)
  cases hg : generalise toks with
  | error e => exact absurd ⟨e, hg⟩ hno
  | ok x =>
    refine ⟨x.1, x.2, rfl, ?_⟩
    unfold generalise at hg
    split at hg
    · cases hg
    · exact generaliseGo_syms _ _ _ _ hg

section
variable {K : Type} [Field K] [LinearOrder K]

theorem readCell_says (io : NumIO K) (cosDeg : K → K) {text : Str} {e : CellEntry K} (h : CellSays io text e) :
    ∃ c, readCell io cosDeg text = .ok c ∧ CellAgrees io cosDeg e c := by
  obtain ⟨⟨header, number, material, density, l, rfl, hl, hps, hh, hn, hm, h2, h3⟩, hleg, himp, hang⟩ := h
  have hok : ∀ {α β : Type} (a : α) (k : α → Py β), ((.ok a : Py α) >>= k) = k a := fun _ _ => rfl
  have hsyms : tokenSyms (split (expandText e.geometry)) = lexGeometry e.geometry := split_expand_syms e.geometry [] (by simp)
  obtain ⟨is, ns, hg, hi⟩ := generalise_legal (toks := split (expandText e.geometry)) (by rw [hsyms]; exact hleg)
  have htok : split (expandText (header ++ ' ' :: e.geometry)) = number :: material :: (density.toList ++ split (expandText e.geometry)) := by
    rw [expandText_append, show expandText (' ' :: e.geometry) = ' ' :: expandText e.geometry from by simp [expandText, replaceChar],
      split_append_space _ _ _ rfl, expandText_id h2, hh]
    rfl
  have hpre : ∀ x ∈ header ++ ' ' :: e.geometry, x ∉ ['u', 'f', 'i', 'v', 't', '*', '$'] := by
    intro x hx
    simp only [List.mem_append, List.mem_cons] at hx
    rcases hx with hx | rfl | hx
    · exact h3 x (by simp [hx])
    · simp
    · exact h3 x (by simp [hx])
  obtain ⟨c0, h0, k1, k2, k3, k4, k5, k6, k7, k8, k9, k10⟩ : ∃ c0, readCell io cosDeg (header ++ ' ' :: e.geometry) = .ok c0 ∧ c0.id = e.number ∧
      (match e.content with
        | none => c0.material = .int 0 ∧ c0.density = 0
        | some (m, x) => c0.material = .int m ∧ c0.density = x) ∧
      c0.text = split (expandText e.geometry) ∧ c0.interpreted = is ∧ c0.uni = none ∧ c0.fill = none ∧ c0.importance = 1 ∧ c0.trId = c!"0" ∧ c0.offset = none ∧ c0.rotation = none := by
    unfold readCell interpret
    rw [detectKeywords_none io cosDeg _ hpre, hok]
    simp only [htok, pyGet, List.getElem?_cons_zero, List.getElem?_cons_succ, hok]
    rw [show pyInt number = .ok e.number from pyInt_ok.2 hn, hok]
    cases hc : e.content with
    | none =>
      rw [hc] at hm
      obtain ⟨hm, rfl⟩ := hm
      rw [show pyInt material = .ok 0 from pyInt_ok.2 hm, hok, if_neg (by simp), hok]
      simp only [Option.toList, List.nil_append, List.drop_succ_cons, List.drop_zero]
      rw [hg, hok]
      exact ⟨_, rfl, rfl, ⟨rfl, rfl⟩, rfl, rfl, rfl, rfl, rfl, rfl, rfl, rfl⟩
    | some mx =>
      rw [hc] at hm
      obtain ⟨hm, hpos, w, rfl, hw⟩ := hm
      rw [show pyInt material = .ok mx.1 from pyInt_ok.2 hm, hok, if_pos hpos]
      simp only [Option.toList, List.cons_append, List.nil_append, List.getElem?_cons_zero, hok]
      rw [hw, hok, hok]
      simp only [List.drop_succ_cons, List.drop_zero]
      rw [hg, hok]
      exact ⟨_, rfl, rfl, ⟨rfl, rfl⟩, rfl, rfl, rfl, rfl, rfl, rfl, rfl, rfl⟩
  rcases hl with rfl | hl
  · refine ⟨c0, by rw [← h0]; simp [paramListText], k1, k2, ⟨by rw [k3, hsyms], by rw [k4, hi, hsyms]⟩, ?_⟩
    rw [hps]
    refine ⟨by simp [k5], by simp [k6], by simp, fun _ => k7, fun _ => ⟨k8, k9, k10⟩, by simp, by simp⟩
  · obtain ⟨c, hc, j1, j2, j3, j4, j5, -, j7⟩ := C70_parameters_partial io cosDeg (by simp) hpre h0 hl (by rw [← hps]; exact himp) (by rw [← hps]; exact hang)
    refine ⟨c, by rw [← hc]; simp, by rw [j1, k1], ?_, ⟨by rw [j4, k3, hsyms], by rw [j5, k4, hi, hsyms]⟩, by rw [hps]; exact j7⟩
    cases hcon : e.content with
    | none =>
      rw [hcon] at k2
      exact ⟨by rw [j2, k2.1], by rw [j3, k2.2]⟩
    | some mx =>
      rw [hcon] at k2
      exact ⟨by rw [j2, k2.1], by rw [j3, k2.2]⟩

/-! ## Surfaces -/

theorem find_word (m : Mn) : (allMnemonics.find? fun m' => m'.word == m.word) = some m := by cases m <;> rfl

theorem cardSide_word (sqrt : K → K) (m : Mn) (cs : List K) (p : Point K) : cardSide sqrt m.word cs p =
    match mcnpCone m cs p with
    | some (apex, at_, v, w) => some (nappeSide (w * (at_ - apex)) v)
    | none => (mcnpValue m cs p).map sideOf := by
  unfold cardSide
  rw [if_neg (by cases m <;> decide), if_neg (by cases m <;> decide), if_neg (by cases m <;> decide), find_word]
  rfl

theorem bodyType_word (m : Mn) : bodyType m.word = none := by cases m <;> rfl

theorem facetValue_plain {s : Surface K} (h : s.isMacrobody = false) (k : Nat) (q : Point K) : facetValue s.type s.coeffs k q = none := by
  unfold Surface.isMacrobody at h
  cases hs : s.type <;> simp_all [facetValue]

theorem quadric_plain {s : Surface K} (h : IsQuadric s.type) : s.isMacrobody = false := by
  unfold Surface.isMacrobody
  cases hs : s.type <;> simp_all [IsQuadric]

theorem mcnpCone_isSome (m : Mn) (cs : List K) (p q : Point K) : (mcnpCone m cs p).isSome = (mcnpCone m cs q).isSome := by
  cases m <;> simp only [mcnpCone] <;> (try split) <;> rfl

theorem mcnpCone_selector {m : Mn} {cs : List K} {p q : Point K} {a b c w a' b' c' w' : K} (h : mcnpCone m cs p = some (a, b, c, w)) (h' : mcnpCone m cs q = some (a', b', c', w')) : w = w' := by
  cases m <;> simp only [mcnpCone] at h h' <;> (try split at h) <;> simp_all

theorem mcnpValue_cone {m : Mn} {cs : List K} {p : Point K} (h : (mcnpValue m cs p).isSome = true) (q : Point K) : mcnpCone m cs q = none := by
  cases m <;> simp only [mcnpValue] at h <;> simp only [mcnpCone] <;> split at h <;> simp_all

/-- The sides of a surface that is no macrobody. -/
theorem agrees_plain {sqrt : K → K} {e : SurfaceEntry K} {s : Surface K} (h1 : s.id = e.number) (h2 : s.transform = e.tr.map natStr) (hm : s.isMacrobody = false) (hb : bodyType e.mn = none)
    (h : ∀ q, side sqrt s.type s.coeffs q = cardSide sqrt e.mn e.values q) : SurfaceAgrees sqrt e s where
  number := h1
  transform := h2
  sides := fun q b => by
    unfold OnSide OnCardSide
    rw [hm, hb, h q]
    simp
  facets := fun k q => by
    rw [facetValue_plain hm, hb]
    simp
  facets' := fun k q => by
    rw [facetValue_plain hm, hb]
    simp

/-- The same for a macrobody that is stored as it is. -/
theorem agrees_body {sqrt : K → K} {e : SurfaceEntry K} {s : Surface K} (h1 : s.id = e.number) (h2 : s.transform = e.tr.map natStr) (hm : s.isMacrobody = true) (hb : bodyType e.mn = some s.type)
    (h : s.coeffs = e.values) : SurfaceAgrees sqrt e s where
  number := h1
  transform := h2
  sides := fun q b => by
    unfold OnSide OnCardSide
    rw [hm, hb, h]
    simp
  facets := fun k q => by
    rw [hb, h]
    simp
  facets' := fun k q => by
    rw [hb, h]
    simp

variable [IsStrictOrderedRing K]

/-- A box along the axes is stored as RPP. -/
theorem agrees_box {sqrt : K → K} {e : SurfaceEntry K} {s : Surface K} (h1 : s.id = e.number) (h2 : s.transform = e.tr.map natStr) {x y z a b c : K} (ha : 0 < a) (hb : 0 < b) (hc : 0 < c)
    (hm : e.mn = c!"box") (hv : e.values = [x, y, z, a, 0, 0, 0, b, 0, 0, 0, c]) (ht : s.type = .macroRPP) (hs : s.coeffs = [x, x + a, y, y + b, z, z + c]) : SurfaceAgrees sqrt e s := by
  have hty : bodyType e.mn = some .macroBOX := by rw [hm]; rfl
  have g1 : dot (⟨a, 0, 0⟩ : Point K) ⟨a, 0, 0⟩ ≠ 0 := by simp [dot, ha.ne']
  have g2 : dot (⟨0, b, 0⟩ : Point K) ⟨0, b, 0⟩ ≠ 0 := by simp [dot, hb.ne']
  have g3 : dot (⟨0, 0, c⟩ : Point K) ⟨0, 0, c⟩ ≠ 0 := by simp [dot, hc.ne']
  have box : ∀ (S : K → Prop) (p : Point K), InBox S ⟨x, y, z⟩ ⟨a, 0, 0⟩ ⟨0, b, 0⟩ ⟨0, 0, c⟩ p ↔ S ((p.x - x) / a) ∧ S ((p.y - y) / b) ∧ S ((p.z - z) / c) := by
    intro S p
    rw [inBox_iff _ _ _ _ _ _ g1 g2 g3 (by simp [dot]) (by simp [dot]) (by simp [dot])]
    have d1 : dot (p.sub ⟨x, y, z⟩) ⟨a, 0, 0⟩ / dot (⟨a, 0, 0⟩ : Point K) ⟨a, 0, 0⟩ = (p.x - x) / a := by
      simp only [dot, Point.sub]; have := ha.ne'; field_simp; ring
    have d2 : dot (p.sub ⟨x, y, z⟩) ⟨0, b, 0⟩ / dot (⟨0, b, 0⟩ : Point K) ⟨0, b, 0⟩ = (p.y - y) / b := by
      simp only [dot, Point.sub]; have := hb.ne'; field_simp; ring
    have d3 : dot (p.sub ⟨x, y, z⟩) ⟨0, 0, c⟩ / dot (⟨0, 0, c⟩ : Point K) ⟨0, 0, c⟩ = (p.z - z) / c := by
      simp only [dot, Point.sub]; have := hc.ne'; field_simp; ring
    rw [d1, d2, d3]
  have o : ∀ {a u w : K}, 0 < a → ((w < u ∧ u < w + a) ↔ (0 < (u - w) / a ∧ (u - w) / a < 1)) := by
    intro a u w ha
    rw [div_pos_iff_of_pos_right ha, div_lt_one ha, sub_pos, sub_lt_iff_lt_add']
  have cl : ∀ {a u w : K}, 0 < a → ((w ≤ u ∧ u ≤ w + a) ↔ (0 ≤ (u - w) / a ∧ (u - w) / a ≤ 1)) := by
    intro a u w ha
    rw [le_div_iff₀ ha, div_le_one ha, zero_mul, sub_nonneg, sub_le_iff_le_add']
  have mul : ∀ {a u : K}, 0 < a → (0 < a * u ↔ 0 < u) ∧ (a * u < 0 ↔ u < 0) := fun ha => ⟨mul_pos_iff_of_pos_left ha, by rw [mul_neg_iff]; simp [ha, ha.not_gt]⟩
  have fac : ∀ k (q : Point K), (∃ t v, 0 < t ∧ facetValue s.type s.coeffs k q = some v ∧ facetValue .macroBOX e.values k q = some (t * v)) ∨
      facetValue s.type s.coeffs k q = none ∧ facetValue .macroBOX e.values k q = none := by
    intro k q
    rw [ht, hs, hv]
    simp only [facetValue]
    rcases hk : k - 1 with _ | _ | _ | _ | _ | _ | n
    · exact .inl ⟨a, _, ha, rfl, by simp [dot, Point.sub]; ring⟩
    · exact .inl ⟨a, _, ha, rfl, by simp [dot, Point.sub]; ring⟩
    · exact .inl ⟨b, _, hb, rfl, by simp [dot, Point.sub]; ring⟩
    · exact .inl ⟨b, _, hb, rfl, by simp [dot, Point.sub]; ring⟩
    · exact .inl ⟨c, _, hc, rfl, by simp [dot, Point.sub]; ring⟩
    · exact .inl ⟨c, _, hc, rfl, by simp [dot, Point.sub]; ring⟩
    · exact .inr ⟨by simp, by simp⟩
  refine ⟨h1, h2, fun q d => ?_, fun k q => ?_, fun k q => ?_⟩
  · unfold OnSide OnCardSide
    rw [hty, hv, show s.isMacrobody = true by unfold Surface.isMacrobody; rw [ht]; rfl, ht, hs]
    cases d
    · simp only [if_true, Inside, box, ← o ha, ← o hb, ← o hc, Bool.false_eq_true, if_false]
    · simp only [if_true, Outside, box, ← cl ha, ← cl hb, ← cl hc]
  · rw [hty]
    rcases fac k q with ⟨t, v, ht, e1, e2⟩ | ⟨e1, e2⟩
    · simp [e1, e2, (mul ht).1]
    · simp [e1, e2]
  · rw [hty]
    rcases fac k q with ⟨t, v, ht, e1, e2⟩ | ⟨e1, e2⟩
    · simp [e1, e2, (mul ht).2]
    · simp [e1, e2]

/-- How the surface of a card is stored. -/
structure StoredAs (e : SurfaceEntry K) (s : Surface K) : Prop where
  plain : bodyType e.mn = none → s.isMacrobody = false ∧ WellFormed s
  quadric : ∀ m : Mn, e.mn = m.word → (mcnpValue m e.values ⟨0, 0, 0⟩).isSome = true → IsQuadric s.type ∧ TwoSheet s ∧ ∀ p, value s.type s.coeffs p = mcnpValue m e.values p
  torus : e.mn ∈ [c!"tx", c!"ty", c!"tz"] → s.type.isTorus = true ∧ s.coeffs = e.values
  body : ∀ ty, bodyType e.mn = some ty → s.isMacrobody = true ∧ (s.type = ty ∧ s.coeffs = e.values ∨ ty = .macroBOX ∧ s.type = .macroRPP ∧ s.coeffs.length = 6)

theorem word_inj {m m' : Mn} (h : m.word = m'.word) : m = m' := by
  have := find_word m
  rw [h, find_word] at this
  exact (Option.some.inj this).symm

theorem word_no_torus (m : Mn) : m.word ∉ [c!"tx", c!"ty", c!"tz"] := by cases m <;> decide

theorem stored_body {e : SurfaceEntry K} {s : Surface K} {ty : SType} (hm : bodyType e.mn = some ty) (hs : s.isMacrobody = true)
    (h : s.type = ty ∧ s.coeffs = e.values ∨ ty = .macroBOX ∧ s.type = .macroRPP ∧ s.coeffs.length = 6) : StoredAs e s where
  plain := fun h => by rw [hm] at h; cases h
  quadric := fun m h => by rw [h, bodyType_word] at hm; cases hm
  torus := fun h => by
    simp only [List.mem_cons, List.not_mem_nil, or_false] at h
    rcases h with h | h | h <;> rw [h] at hm <;> cases hm
  body := fun ty' h' => by
    rw [hm] at h'
    cases h'
    exact ⟨hs, h⟩

/-- A surface stored with the equation of a mnemonic. -/
theorem stored_value {sqrt : K → K} {e : SurfaceEntry K} {s : Surface K} (h1 : s.id = e.number) (h2 : s.transform = e.tr.map natStr) {m : Mn} (hm : e.mn = m.word) (hv : (mcnpValue m e.values ⟨0, 0, 0⟩).isSome = true)
    (hwf : WellFormed s) (hq : IsQuadric s.type) (h2s : TwoSheet s) (hval : ∀ p, value s.type s.coeffs p = mcnpValue m e.values p) : SurfaceAgrees sqrt e s ∧ StoredAs e s := by
  refine ⟨agrees_plain h1 h2 (quadric_plain hq) (by rw [hm]; exact bodyType_word m) fun q => ?_, fun _ => ⟨quadric_plain hq, hwf⟩, fun m' h' _ => ?_, fun h' => absurd (hm ▸ h') (word_no_torus m), fun ty h' => ?_⟩
  · rw [side_eq_sideOf sqrt s hwf hq h2s, hval, hm, cardSide_word, mcnpValue_cone hv]
  · obtain rfl := word_inj (hm.symm.trans h')
    exact ⟨hq, h2s, hval⟩
  · rw [hm, bodyType_word] at h'
    cases h'

/-- Two scaled planes with proportional coefficients are the same. -/
theorem scalePlane_unique {A B C D c0 c1 c2 c3 : K} (hsc : D = 1 ∨ D = 0 ∧ (C = 1 ∨ C = 0 ∧ (B = 1 ∨ B = 0 ∧ A = 1))) (hne : ¬ (c0 = 0 ∧ c1 = 0 ∧ c2 = 0)) (h01 : A * c1 = B * c0) (h02 : A * c2 = C * c0)
    (h12 : B * c2 = C * c1) (h03 : A * c3 = D * c0) (h13 : B * c3 = D * c1) (h23 : C * c3 = D * c2) : scalePlane c0 c1 c2 c3 = [A, B, C, D] := by
  rcases hsc with rfl | ⟨rfl, rfl | ⟨rfl, rfl | ⟨rfl, rfl⟩⟩⟩
  · have h3 : c3 ≠ 0 := fun h => hne ⟨by simpa [h] using h03.symm, by simpa [h] using h13.symm, by simpa [h] using h23.symm⟩
    simp [scalePlane, scaleStep, h3]
    exact ⟨by field_simp; linear_combination -h03, by field_simp; linear_combination -h13, by field_simp; linear_combination -h23⟩
  · have h3 : c3 = 0 := by linear_combination h23
    have h2 : c2 ≠ 0 := fun h => hne ⟨by simpa [h] using h02.symm, by simpa [h] using h12.symm, h⟩
    simp [scalePlane, scaleStep, h3, h2]
    exact ⟨by field_simp; linear_combination -h02, by field_simp; linear_combination -h12⟩
  · have h3 : c3 = 0 := by linear_combination h13
    have h2 : c2 = 0 := by linear_combination h12
    have h1 : c1 ≠ 0 := fun h => hne ⟨by simpa [h] using h01.symm, h, h2⟩
    simp [scalePlane, scaleStep, h3, h2, h1]
    field_simp
    linear_combination -h01
  · have h3 : c3 = 0 := by linear_combination h03
    have h2 : c2 = 0 := by linear_combination h02
    have h1 : c1 = 0 := by linear_combination h01
    have h0 : c0 ≠ 0 := fun h => hne ⟨h, h1, h2⟩
    simp [scalePlane, scaleStep, h3, h2, h1, h0]

theorem slope {a₁ r₁ a₂ r₂ k : K} (ha : a₁ ≠ a₂) (hk : k ≠ 0) (hr : r₂ = r₁ + k * (a₂ - a₁)) :
    r₁ ≠ r₂ ∧ a₂ - (a₂ - a₁) / (r₂ - r₁) * r₂ = a₁ - r₁ / k ∧ (-1 / ((a₂ - a₁) / (r₂ - r₁))) ^ 2 = k ^ 2 ∧ (if (a₂ - a₁) / (r₂ - r₁) < 0 then -1 else 1 : K) = if 0 < k then 1 else -1 := by
  have h1 : a₂ - a₁ ≠ 0 := sub_ne_zero.2 (Ne.symm ha)
  have h2 : r₂ - r₁ = k * (a₂ - a₁) := by rw [hr]; ring
  have h3 : (a₂ - a₁) / (r₂ - r₁) = 1 / k := by rw [h2]; field_simp
  rw [h3, hr]
  refine ⟨fun h => mul_ne_zero hk h1 (by linear_combination -h), by field_simp; ring, by field_simp, ?_⟩
  by_cases h : 0 < k
  · rw [if_pos h, if_neg (not_lt.2 (one_div_pos.2 h).le)]
  · rw [if_neg h, if_pos (one_div_neg.2 (lt_of_le_of_ne (not_lt.1 h) hk))]

theorem classify_says_points (sqrt : K → K) (io : NumIO K) {text : Str} {e : SurfaceEntry K} {mn : Str} {ws : List Str} {vs : List K} (hc : IsCard io text e.number (e.tr.map natStr) mn ws) (hr : Reads io ws vs)
    (h : ByPoints mn vs e.mn e.values) : ∃ s, classify io text = .ok s ∧ SurfaceAgrees sqrt e s ∧ StoredAs e s := by
  have hcl := classify_isCard io text _ _ _ ws hc
  rw [ofWords_eq io ws _ hr] at hcl
  rw [hcl]
  obtain ⟨n, tr, em, ev⟩ := e
  simp only at h ⊢
  cases h with
  | plane hcol hon hsc =>
    rename_i a b c A B C D
    obtain ⟨ax, ay, az⟩ := a
    obtain ⟨bx, by', bz⟩ := b
    obtain ⟨cx, cy, cz⟩ := c
    refine ⟨{ (Surface.blank : Surface K) with type := .planeGeneral, id := n, transform := tr.map natStr, coeffs := [A, B, C, D] }, ?_, ?_⟩
    · run_classify
      simp only [classifyGeneralPlanes, Coeffs.ofValues, List.length_cons, List.length_nil, Coeffs.first, pyGet, bind, Except.bind, planeDets, List.getElem?_cons_zero, List.getElem?_cons_succ, List.nil_append,
        List.cons_append, Nat.reduceAdd, if_true]
      have := hon _ (List.mem_cons_self ..)
      have h2 := hon _ (List.mem_cons_of_mem _ (List.mem_cons_self ..))
      have h3 := hon _ (List.mem_cons_of_mem _ (List.mem_cons_of_mem _ (List.mem_cons_self ..)))
      simp only at this h2 h3
      rw [scalePlane_unique hsc (A := A) (B := B) (C := C) (D := D)]
      · rfl
      · exact fun ⟨e0, e1, e2⟩ => hcol ⟨by simp only; linear_combination e0, by simp only; linear_combination e1, by simp only; linear_combination e2⟩
      · linear_combination (cz - bz) * this + (az - cz) * h2 + (bz - az) * h3
      · linear_combination (by' - cy) * this + (cy - ay) * h2 + (ay - by') * h3
      · linear_combination (cx - bx) * this + (ax - cx) * h2 + (bx - ax) * h3
      · linear_combination (by' * cz - cy * bz) * this + (cy * az - ay * cz) * h2 + (ay * bz - by' * az) * h3
      · linear_combination (bz * cx - bx * cz) * this + (cz * ax - cx * az) * h2 + (az * bx - ax * bz) * h3
      · linear_combination (bx * cy - by' * cx) * this + (cx * ay - cy * ax) * h2 + (ax * by' - ay * bx) * h3
    · exact stored_value rfl rfl (m := .p) rfl rfl rfl (by trivial) (by trivial) fun p => rfl
  | levelY =>
    rename_i a r₁ r₂
    refine ⟨{ (Surface.blank : Surface K) with type := .planeY, id := n, transform := tr.map natStr, coeffs := [0, 1, 0, a] }, ?_, ?_⟩
    · run_classify
      simp [classifyEdp, edp2, classifyXyzPlanes, Coeffs.ofValues, pyGet, bind, Except.bind, Surface.setFrom, Surface.setType, Surface.blank]
    · exact stored_value rfl rfl (m := .py) rfl rfl rfl (by trivial) (by trivial) fun p => by simp [value, mcnpValue]
  | levelZ =>
    rename_i a r₁ r₂
    refine ⟨{ (Surface.blank : Surface K) with type := .planeZ, id := n, transform := tr.map natStr, coeffs := [0, 0, 1, a] }, ?_, ?_⟩
    · run_classify
      simp [classifyEdp, edp2, classifyXyzPlanes, Coeffs.ofValues, pyGet, bind, Except.bind, Surface.setFrom, Surface.setType, Surface.blank]
    · exact stored_value rfl rfl (m := .pz) rfl rfl rfl (by trivial) (by trivial) fun p => by simp [value, mcnpValue]
  | cylinderY ha =>
    rename_i a₁ a₂ r
    refine ⟨{ (Surface.blank : Surface K) with type := .cylinderY, id := n, transform := tr.map natStr, coeffs := [0, 0, r] }, ?_, ?_⟩
    · run_classify
      simp [classifyEdp, edp2, classifyCylinderOnAxis, Coeffs.ofValues, pyGet, bind, Except.bind, Surface.setFrom, Surface.setType, Surface.blank, ha]
    · exact stored_value rfl rfl (m := .cy) rfl rfl rfl (by trivial) (by trivial) fun p => by simp [value, mcnpValue]
  | cylinderZ ha =>
    rename_i a₁ a₂ r
    refine ⟨{ (Surface.blank : Surface K) with type := .cylinderZ, id := n, transform := tr.map natStr, coeffs := [0, 0, r] }, ?_, ?_⟩
    · run_classify
      simp [classifyEdp, edp2, classifyCylinderOnAxis, Coeffs.ofValues, pyGet, bind, Except.bind, Surface.setFrom, Surface.setType, Surface.blank, ha]
    · exact stored_value rfl rfl (m := .cz) rfl rfl rfl (by trivial) (by trivial) fun p => by simp [value, mcnpValue]
  | coneY ha hk hrr =>
    rename_i a₁ r₁ a₂ r₂ k
    obtain ⟨e1, e2, e3, e4⟩ := slope ha hk hrr
    refine ⟨{ (Surface.blank : Surface K) with type := .coneY, id := n, transform := tr.map natStr, coeffs := [0, a₁ - r₁ / k, 0, k ^ 2, if 0 < k then 1 else -1] }, ?_, agrees_plain rfl rfl rfl rfl fun q => ?_, fun _ => ⟨rfl, rfl⟩, fun m h h' => ?_, ?_, ?_⟩
    · run_classify
      simp [classifyEdp, edp2, classifyConeOnAxis, Coeffs.ofValues, pyGet, bind, Except.bind, Surface.setFrom, Surface.setType, Surface.blank, ha, e1, e2, e3, e4]
    · have hw : (if 0 < k then 1 else -1 : K) ≠ 0 := by split <;> norm_num
      show _ = cardSide sqrt (Mn.ky).word _ q
      rw [cardSide_word]
      simp [side, torusValue, value, sheet, mcnpCone, hw]
    · obtain rfl := word_inj (m := .ky) h
      cases h'
    · exact fun h => absurd h (word_no_torus .ky)
    · exact fun ty h => by cases h
  | coneZ ha hk hrr =>
    rename_i a₁ r₁ a₂ r₂ k
    obtain ⟨e1, e2, e3, e4⟩ := slope ha hk hrr
    refine ⟨{ (Surface.blank : Surface K) with type := .coneZ, id := n, transform := tr.map natStr, coeffs := [0, 0, a₁ - r₁ / k, k ^ 2, if 0 < k then 1 else -1] }, ?_, agrees_plain rfl rfl rfl rfl fun q => ?_, fun _ => ⟨rfl, rfl⟩, fun m h h' => ?_, ?_, ?_⟩
    · run_classify
      simp [classifyEdp, edp2, classifyConeOnAxis, Coeffs.ofValues, pyGet, bind, Except.bind, Surface.setFrom, Surface.setType, Surface.blank, ha, e1, e2, e3, e4]
    · have hw : (if 0 < k then 1 else -1 : K) ≠ 0 := by split <;> norm_num
      show _ = cardSide sqrt (Mn.kz).word _ q
      rw [cardSide_word]
      simp [side, torusValue, value, sheet, mcnpCone, hw]
    · obtain rfl := word_inj (m := .kz) h
      cases h'
    · exact fun h => absurd h (word_no_torus .kz)
    · exact fun ty h => by cases h

theorem classify_says (sqrt : K → K) (io : NumIO K) {text : Str} {e : SurfaceEntry K} (h : SurfaceSays io text e) : ∃ s, classify io text = .ok s ∧ SurfaceAgrees sqrt e s ∧ StoredAs e s := by
  obtain ⟨ws, hc, hr, h⟩ | ⟨mn, ws, vs, hc, hr, h⟩ := h
  swap
  · exact classify_says_points sqrt io hc hr h
  have hcl := classify_isCard io text _ _ _ ws hc
  rw [ofWords_eq io ws _ hr] at hcl
  rw [hcl]
  rcases h with ⟨m, hm, hv⟩ | ⟨m, hm, a, b, c, w, hv, hw⟩ | ⟨hm, hv⟩ | ⟨hm, hv⟩ | ⟨hm, hv⟩ | ⟨hm, x, y, z, a1, b1, c1, a2, b2, c2, a3, b3, c3, hv, hpos⟩
  · rw [hm]
    obtain ⟨s, hs, h1, h2, hwf, hq, h2s, hval⟩ := classifyFields_value e.number (e.tr.map natStr) m e.values hv
    refine ⟨s, hs, agrees_plain h1 h2 (quadric_plain hq) (by rw [hm]; exact bodyType_word m) fun q => ?_, fun _ => ⟨quadric_plain hq, hwf⟩, fun m' h' _ => ?_, fun h' => absurd (hm ▸ h') (word_no_torus m), fun ty h' => ?_⟩
    rotate_left
    · obtain rfl := word_inj (hm.symm.trans h')
      exact ⟨hq, h2s, hval⟩
    · rw [hm, bodyType_word] at h'
      cases h'
    rw [side_eq_sideOf sqrt s hwf hq h2s, hval, hm, cardSide_word, mcnpValue_cone hv]
  · rw [hm]
    obtain ⟨s, hs, h1, h2, hwf, hq, hval⟩ := classifyFields_cone e.number (e.tr.map natStr) m e.values (by rw [hv]; rfl)
    refine ⟨s, hs, agrees_plain h1 h2 (quadric_plain hq) (by rw [hm]; exact bodyType_word m) fun q => ?_, fun _ => ⟨quadric_plain hq, hwf⟩, fun m' h' h'' => ?_, fun h' => absurd (hm ▸ h') (word_no_torus m), fun ty h' => ?_⟩
    rotate_left
    · obtain rfl := word_inj (hm.symm.trans h')
      rw [mcnpValue_cone h''] at hv
      cases hv
    · rw [hm, bodyType_word] at h'
      cases h'
    rw [hm, cardSide_word]
    obtain ⟨⟨a', b', c', w'⟩, hq'⟩ := Option.isSome_iff_exists.1 (show (mcnpCone m e.values q).isSome = true by rw [mcnpCone_isSome m e.values q ⟨0, 0, 0⟩, hv]; rfl)
    have hw' : w' ≠ 0 := mcnpCone_selector hv hq' ▸ hw
    obtain ⟨k1, k2⟩ := hval q _ _ _ _ hq'
    rw [hq']
    simp only [side, torusValue_none hq, k1, k2, if_neg hw']
  · obtain ⟨n, tr, mn, vs⟩ := e
    match vs, hv with
    | [a, b, c, d, f, g], _ =>
      simp only [List.mem_cons, List.not_mem_nil, or_false] at hm
      rcases hm with rfl | rfl | rfl
      all_goals
        simp only
        refine ⟨_, by run_classify; run_card; rfl, ?_⟩
        refine ⟨agrees_plain rfl rfl rfl rfl fun q => ?_, fun _ => ⟨rfl, rfl⟩, fun m h => absurd (show _ ∈ [c!"tx", c!"ty", c!"tz"] by simp) (h ▸ word_no_torus m), fun _ => ⟨rfl, rfl⟩, fun ty h => by cases h⟩
        simp [side, cardSide, torusValue]
  · obtain ⟨n, tr, mn, vs⟩ := e
    match vs, hv with
    | [a, b, c, d, f, g], _ =>
      simp only at hm
      subst hm
      simp only
      refine ⟨_, by run_classify; run_card; rfl, ?_⟩
      exact ⟨agrees_body rfl rfl rfl rfl rfl, stored_body rfl rfl (.inl ⟨rfl, rfl⟩)⟩
  · obtain ⟨n, tr, mn, vs⟩ := e
    match vs, hv with
    | [a, b, c, d, f, g, h], _ =>
      simp only at hm
      subst hm
      simp only
      refine ⟨_, by run_classify; run_card; rfl, ?_⟩
      exact ⟨agrees_body rfl rfl rfl rfl rfl, stored_body rfl rfl (.inl ⟨rfl, rfl⟩)⟩
  · rw [hm, hv]
    run_classify
    rw [if_pos (show hasInfix c!"box" c!"box" = true from by decide)]
    simp only [classifyBox, Coeffs.ofValues, pyGet, bind, Except.bind, List.getElem?_cons_zero, List.getElem?_cons_succ]
    by_cases h : b1 = 0 ∧ c1 = 0 ∧ a2 = 0 ∧ c2 = 0 ∧ a3 = 0 ∧ b3 = 0
    · rw [if_pos h]
      obtain ⟨rfl, rfl, rfl, rfl, rfl, rfl⟩ := h
      obtain ⟨p1, p2, p3⟩ := hpos rfl rfl rfl rfl rfl rfl
      exact ⟨_, rfl, agrees_box rfl rfl p1 p2 p3 hm hv rfl rfl, stored_body (by rw [hm]; rfl) rfl (.inr ⟨rfl, rfl, rfl⟩)⟩
    · rw [if_neg h]
      exact ⟨_, rfl, agrees_body rfl rfl rfl (by rw [hm]; rfl) hv.symm, stored_body (by rw [hm]; rfl) rfl (.inl ⟨rfl, hv.symm⟩)⟩

end

end Csg
