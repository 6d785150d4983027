import Verif.Lemmas.McnpCellLower
import Verif.Lemmas.MaterialText
import Verif.Lemmas.Outputs
import Verif.Props.RoundTrip
import Verif.Props.Blocks
import Verif.Spec.CellBack

/-!
# The blocks of a written MCNP file
-/

set_option linter.unusedSectionVars false

namespace Csg

open Spec

/-- The lines of a card in a file that has been lowered: the first line begins with a character that is neither blank nor `c`, the others continue it, and there is no comment. -/
def FileCard (g : List Str) : Prop :=
  ∃ ch t more, g = (ch :: t) :: more ∧ isSpace ch = false ∧ ch ≠ 'c' ∧ (∀ l ∈ more, Continuation l) ∧ ∀ l ∈ g, '$' ∉ l

theorem dropComments_keep {ls : List Str} (h : ∀ l ∈ ls, ∃ ch t, l = ch :: t ∧ ch ≠ 'c') : dropComments ls = .ok ls := by
  induction ls with
  | nil => rfl
  | cons l ls ih =>
    obtain ⟨ch, t, rfl, hc⟩ := h l (by simp)
    rw [dropComments, ih fun l hl => h l (List.mem_cons_of_mem _ hl)]
    simp only [bind, Except.bind, if_neg hc]

theorem FileCard.starts {g : List Str} (h : FileCard g) : ∀ l ∈ g, ∃ ch t, l = ch :: t ∧ ch ≠ 'c' := by
  obtain ⟨ch, t, more, rfl, -, hc, hm, -⟩ := h
  intro l hl
  rcases List.mem_cons.1 hl with rfl | hl
  · exact ⟨ch, t, rfl, hc⟩
  · obtain ⟨-, r, rfl⟩ := hm l hl
    exact ⟨' ', _, rfl, by decide⟩

theorem dropComments_cards {gs : List (List Str)} (h : ∀ g ∈ gs, FileCard g) : dropComments gs.flatten = .ok gs.flatten := by
  apply dropComments_keep
  intro l hl
  obtain ⟨g, hg, hl⟩ := List.mem_flatten.1 hl
  exact (h g hg).starts l hl

/-- A block of such cards is read card by card up to the blank line. -/
theorem block_cards {α : Type} {clean : Str → Str} {parse : Str → Py α} (hclean : ∀ l, '$' ∉ l → clean l = l) {gs : List (List Str)} (h : ∀ g ∈ gs, FileCard g)
    {ys : List α} (hy : (gs.map List.flatten).mapM parse = .ok ys) (rest : List Str) : block clean parse (gs.flatten ++ c!"\n" :: rest) = .ok (ys, rest) := by
  refine (C38_block clean parse _ ys rest).2 ⟨gs.flatten, c!"\n", gs, rfl, ?_, ?_, ⟨?_, ?_⟩, hy⟩
  · rw [hclean _ (by decide)]
    exact ⟨by simp, by decide⟩
  · conv_rhs => rw [← List.map_id' gs.flatten]
    apply List.map_congr_left
    intro l hl
    obtain ⟨g, hg, hl⟩ := List.mem_flatten.1 hl
    obtain ⟨ch, t, more, e, -, -, -, hd⟩ := h g hg
    exact hclean l (hd l hl)
  · intro g hg
    obtain ⟨ch, t, more, e, hs, -, hm, -⟩ := h g hg
    refine ⟨_, _, e, ?_, hm⟩
    rintro ⟨-, hb⟩
    exact absurd (hb ch (by simp)) (by simp [hs])
  · intro g hg l hl hcont
    obtain ⟨ch, t, more, rfl, hs, -, -, -⟩ := h g (List.mem_of_mem_tail hg)
    simp only [List.head?_cons, Option.some.injEq] at hl
    subst hl
    obtain ⟨-, r, e⟩ := hcont
    have : ch = ' ' := (List.cons.inj e).1
    subst this
    exact absurd hs (by decide)

theorem flatten_map_lower (ls : List Str) : (ls.map lower).flatten = lower ls.flatten := by
  induction ls with
  | nil => rfl
  | cons l ls ih => rw [List.map_cons, List.flatten_cons, List.flatten_cons, ih, lower_append]

theorem toLower_dollar {c : Char} (h : c.toLower = '$') : c = '$' := by
  unfold Char.toLower at h
  split at h
  · rename_i h1
    exfalso
    have h2 := congrArg Char.val h
    simp only at h2
    have h3 : c.val.toNat ≥ 65 := UInt32.le_iff_toNat_le.1 h1.1
    have h4 : c.val.toNat ≤ 90 := UInt32.le_iff_toNat_le.1 h1.2
    have h5 := congrArg UInt32.toNat h2
    rw [UInt32.toNat_add] at h5
    have h6 : ('a'.val - 'A'.val).toNat = 32 := by decide
    have h7 : ('$' : Char).val.toNat = 36 := by decide
    rw [h6, h7] at h5
    omega
  · exact h

theorem lower_no_dollar {s : Str} (h : '$' ∉ s) : '$' ∉ lower s := by
  intro hd
  obtain ⟨c, hc, e⟩ := List.mem_map.1 hd
  exact h (toLower_dollar e ▸ hc)

/-- The lines of a wrapped card, lowered. -/
theorem physical_card {l : Str} {ls : List Str} {ch : Char} {t : Str} (hl : l = ch :: t) (hs : isSpace ch = false) (hc : ch.toLower ≠ 'c')
    (h : ∀ l' ∈ l :: ls, '\n' ∉ l' ∧ ∃ ch ∈ l', isSpace ch = false) (hd : '$' ∉ (physical (l :: ls)).flatten) :
    FileCard ((physical (l :: ls)).map lower) ∧ ∀ x ∈ physical (l :: ls), ∃ t, '\n' ∉ t ∧ x = t ++ ['\n'] := by
  constructor
  · refine ⟨ch.toLower, lower (t ++ c!"\n"), (ls.map fun l => c!"     " ++ l ++ c!"\n").map lower, by rw [hl]; rfl, by rw [isSpace_toLower]; exact hs, hc, ?_, ?_⟩
    · intro x hx
      obtain ⟨y, hy, rfl⟩ := List.mem_map.1 hx
      obtain ⟨z, hz, rfl⟩ := List.mem_map.1 hy
      refine ⟨?_, lower (z ++ c!"\n"), by rw [List.append_assoc, lower_append]; rfl⟩
      rintro ⟨-, hb⟩
      obtain ⟨w, hw, hws⟩ := (h z (List.mem_cons_of_mem _ hz)).2
      have := hb w.toLower (List.mem_map.2 ⟨w, by simp [hw], rfl⟩)
      rw [isSpace_toLower, hws] at this
      cases this
    · intro x hx
      obtain ⟨y, hy, rfl⟩ := List.mem_map.1 hx
      exact lower_no_dollar fun hh => hd (List.mem_flatten.2 ⟨y, hy, hh⟩)
  · intro x hx
    rcases List.mem_cons.1 hx with rfl | hx
    · exact ⟨l, (h l (by simp)).1, rfl⟩
    · obtain ⟨y, hy, rfl⟩ := List.mem_map.1 hx
      exact ⟨c!"     " ++ y, by simp [(h y (List.mem_cons_of_mem _ hy)).1], rfl⟩

theorem gap_joinLine {ws : List Str} (h : ∀ w ∈ ws, w ≠ [] ∧ NoSpace w) (hne : ws ≠ []) :
    ∃ t, joinLine ws = t ++ c!"\n" ∧ (∀ c ∈ t, c = ' ' ∨ ∃ w ∈ ws, c ∈ w) ∧ (∀ k ≤ 2, gapOk k t) ∧ ∃ r, t = ws.head hne ++ r := by
  induction ws with
  | nil => exact absurd rfl hne
  | cons w ws ih =>
    have hb : ' ' ∉ w := fun hh => absurd ((h w (by simp)).2 ' ' hh) (by decide)
    cases ws with
    | nil =>
      refine ⟨w, rfl, fun c hc => Or.inr ⟨w, by simp, hc⟩, fun k hk => ?_, [], by simp⟩
      have := gap_word hb (h w (by simp)).1 (r := []) (show gapOk 0 [] by simp [gapOk]) hk
      simpa using this
    | cons v vs =>
      obtain ⟨t, e, hc, hg, -⟩ := ih (fun w hw => h w (List.mem_cons_of_mem _ hw)) (by simp)
      refine ⟨w ++ ' ' :: t, by rw [joinLine, e] <;> simp, ?_, ?_, _, rfl⟩
      · intro c hcm
        rcases List.mem_append.1 hcm with hh | hh
        · exact Or.inr ⟨w, by simp, hh⟩
        · rcases List.mem_cons.1 hh with hh | hh
          · exact Or.inl hh
          · rcases hc c hh with hh | ⟨x, hx, hh⟩
            · exact Or.inl hh
            · exact Or.inr ⟨x, List.mem_cons_of_mem _ hx, hh⟩
      · intro k hk
        apply gap_word hb (h w (by simp)).1 _ hk
        have : gapOk 0 (' ' :: t) = gapOk 1 t := by rw [gapOk]; simp
        rw [this]
        exact hg 1 (by omega)

section
variable {K : Type} [Field K] [LinearOrder K]

/-- The lines of a written surface, and that their text in lower case is read as the surface. -/
theorem mcnpSurface_back (io : NumIO K) (s : Surface K) (he : Expressible s) (hb : s.bc ≠ .periodic) (hid : 0 ≤ s.id)
    (hlen : (intStr s.id).length ≤ 60) (hgood : ∀ x ∈ s.coeffs, io.Good x) (hmn : ∀ mn ∈ printedMnemonics, io.parse mn = none) :
    ∃ l ls, (∃ fuel₀, ∀ fuel ≥ fuel₀, writeMcnpSurface fuel io s = .ok (some (physical (l :: ls)).flatten)) ∧
      (∃ ch t, l = ch :: t ∧ (isDigit ch = true ∨ ch ∈ ['-', '*', '+'])) ∧ (∀ l' ∈ l :: ls, '\n' ∉ l' ∧ ∃ ch ∈ l', isSpace ch = false) ∧
      '$' ∉ (physical (l :: ls)).flatten ∧
      ∃ r, classify io (lower (physical (l :: ls)).flatten) = .ok r ∧ SameSurface s r := by
  obtain ⟨ws, hline, hwords, ⟨ch, t0, ws', hws, hch⟩, hread⟩ := surface_words io s he hb hid hlen hgood hmn
  have hne : ws ≠ [] := by rw [hws]; simp
  obtain ⟨t, ht, htc, htg, r, htr⟩ := gap_joinLine (fun w hw => ⟨(hwords w hw).1, (hwords w hw).2.1⟩) hne
  have hhead : ws.head hne = ch :: t0 := by subst hws; rfl
  rw [hhead] at htr
  have hnsp : isSpace ch = false := (hwords (ch :: t0) (by rw [hws]; simp)).2.1 ch (by simp)
  obtain ⟨l, ls, ⟨f0, hf⟩, ⟨b, hlb⟩, hlines, hsplit⟩ := lineFormatter_lines t
    (by rw [← ht]; exact maxRun_joinLine ws (by norm_num) fun w hw => (hwords w hw).2.2.1)
    (by
      intro c hc hs
      rcases htc c hc with rfl | ⟨w, hw, hcw⟩
      · rfl
      · rw [(hwords w hw).2.1 c hcw] at hs; cases hs) (htg 0 (by omega)) ⟨ch, by rw [htr]; simp, hnsp⟩
  have hsp : split (physical (l :: ls)).flatten = ws := by
    rw [hsplit]
    have := split_joinLine ws fun w hw => ⟨(hwords w hw).1, (hwords w hw).2.1⟩
    rw [ht] at this
    rw [← this]
    rw [split_append_space t [] '\n' (by decide), split_nil, List.append_nil]
  refine ⟨l, ls, ⟨f0, fun fuel hfu => ?_⟩, ?_, hlines, ?_, ?_⟩
  · have := hf fuel hfu
    rw [← ht] at this
    simp [writeMcnpSurface, hline, bind, Except.bind, this]
  · obtain ⟨c, q, hlq⟩ : ∃ c q, l = c :: q := by
      obtain ⟨x, hx, -⟩ := (hlines l (by simp)).2
      cases l with
      | nil => cases hx
      | cons c q => exact ⟨c, q, rfl⟩
    have : c = ch := by
      have := htr.symm.trans hlb
      rw [hlq] at this
      exact (List.cons.inj this).1.symm
    exact ⟨c, q, hlq, this ▸ hch⟩
  · intro hd
    obtain ⟨w, hw, hc⟩ := split_mem _ '$' (by decide) hd
    rw [hsp] at hw
    exact (hwords w hw).2.2.2.1 hc
  · apply hread
    rw [split_lower, hsp]
    conv_rhs => rw [← List.map_id' ws]
    exact List.map_congr_left fun w hw => lower_quiet (hwords w hw).2.2.2.2

end

end Csg
