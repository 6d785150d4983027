import Verif.Lemmas.InputFile
import Verif.Lemmas.Outputs
import Verif.Lemmas.ParamGroups
import Verif.Spec.Message

/-!
# Lemmas for C106
-/

set_option linter.unusedSectionVars false

namespace Csg

open Spec

theorem lower_letter {ch : Char} (h : ch.isLower = true) {x : Char} (hx : x.isLower = false) : ch ≠ x := by
  rintro rfl
  rw [h] at hx
  cases hx

theorem letter_space {ch : Char} (h : ch.isLower = true) : isSpace ch = false := by
  have n := fun {x : Char} (hx : x.isLower = false) => lower_letter h hx
  simp [isSpace, n (x := ' ') (by decide), n (x := '\n') (by decide), n (x := '\t') (by decide), n (x := '\r') (by decide), n (x := '\x0b') (by decide), n (x := '\x0c') (by decide)]

theorem letter_digit {ch : Char} (h : ch.isLower = true) : isDigit ch = false := by
  have n := fun {x : Char} (hx : x.isLower = false) => lower_letter h hx
  simp [isDigit, n (x := '0') (by decide), n (x := '1') (by decide), n (x := '2') (by decide), n (x := '3') (by decide), n (x := '4') (by decide), n (x := '5') (by decide),
    n (x := '6') (by decide), n (x := '7') (by decide), n (x := '8') (by decide), n (x := '9') (by decide)]

theorem letter_int {ch : Char} (h : ch.isLower = true) (w : Str) : pyInt (ch :: w) = .error .valueError := by
  have hp : parseInt (ch :: w) = none := by
    unfold parseInt
    split
    · rename_i e; cases e; exact absurd h (by decide)
    · rename_i e; cases e; exact absurd h (by decide)
    · simp [parseNat, letter_digit h]
  unfold pyInt
  rw [hp]

/-- The first word begins with the letter. -/
theorem letter_word {b : Str} (hb : ∀ x ∈ b, isSpace x = true) {ch : Char} (h : ch.isLower = true) (t : Str) : ∃ w ws, split (b ++ ch :: t) = (ch :: w) :: ws := by
  rw [split_spaces_append b _ (by simpa [List.all_eq_true] using hb)]
  have hf := split_flatten (ch :: t)
  rw [List.filter_cons, if_pos (by simp [letter_space h])] at hf
  cases hs : split (ch :: t) with
  | nil => rw [hs] at hf; cases hf
  | cons v vs =>
    rw [hs] at hf
    cases v with
    | nil => exact absurd rfl (split_words (ch :: t) [] (by rw [hs]; simp)).1
    | cons y w =>
      have : y = ch := by simpa using (List.cons.inj hf).1
      exact ⟨w, vs, by rw [this]⟩

/-- A beginning of a text with a letter first has nothing but blanks or begins in the same way. -/
theorem letter_prefix {b : Str} {ch : Char} {t : Str} (n : Nat) : (∃ k, (b ++ ch :: t).take n = b.take k) ∨ ∃ t', (b ++ ch :: t).take n = b ++ ch :: t' := by
  by_cases hn : n ≤ b.length
  · exact .inl ⟨n, by rw [List.take_append_of_le_length hn]⟩
  · refine .inr ⟨t.take (n - b.length - 1), ?_⟩
    rw [List.take_append, List.take_of_length_le (by omega)]
    obtain ⟨k, hk⟩ : ∃ k, n - b.length = k + 1 := ⟨n - b.length - 1, by omega⟩
    rw [hk]
    simp

private theorem expand_blank : ∀ {b : Str}, (∀ x ∈ b, isSpace x = true) → ∀ s, expandText (b ++ s) = b ++ expandText s
  | [], _, s => rfl
  | x :: b, hb, s => by
    have ih := expand_blank (fun y hy => hb y (by simp [hy])) s (b := b)
    have hx := hb x (by simp)
    have n : ∀ {y : Char}, isSpace y = false → x ≠ y := by
      rintro y hy rfl
      rw [hx] at hy
      cases hy
    have : expandText (x :: (b ++ s)) = x :: expandText (b ++ s) := by
      simp [expandText, replaceChar, n (y := '(') (by decide), n (y := ')') (by decide), n (y := ':') (by decide), n (y := '+') (by decide)]
    rw [List.cons_append, this, ih]
    rfl

private theorem expand_letter {ch : Char} (h : ch.isLower = true) (s : Str) : expandText (ch :: s) = ch :: expandText s := by
  have n := fun {x : Char} (hx : x.isLower = false) => lower_letter h hx
  simp [expandText, replaceChar, n (x := '(') (by decide), n (x := ')') (by decide), n (x := ':') (by decide), n (x := '+') (by decide)]

theorem code_letter {s : Str} (hs : LetterFirst s) : LetterFirst (codeOf s) := by
  obtain ⟨b, ch, t, rfl, hb, hc⟩ := hs
  refine ⟨b, ch, codeOf t, ?_, hb, hc⟩
  unfold codeOf
  rw [List.takeWhile_append_of_pos, List.takeWhile_cons, if_pos]
  · have := lower_letter hc (x := '$') (by decide)
    simpa using this
  · intro x hx
    have : x ≠ '$' := by
      rintro rfl
      exact absurd (hb _ hx) (by decide)
    simpa using this

theorem letter_append {s : Str} (hs : LetterFirst s) (u : Str) : LetterFirst (s ++ u) := by
  obtain ⟨b, ch, t, rfl, hb, hc⟩ := hs
  exact ⟨b, ch, t ++ u, by simp, hb, hc⟩

section
variable {K : Type} [Field K] [LinearOrder K]

private theorem slice_prefix (s : Str) (i : Int) : ∃ n, sliceTo s i = s.take n := by
  cases i with
  | ofNat n => exact ⟨n, rfl⟩
  | negSucc n => exact ⟨_, rfl⟩

private theorem detect_prefix (io : NumIO K) (cosDeg : K → K) {c c' : Cell K} {s s' : Str} (h : detectKeywords io cosDeg c s = .ok (c', s')) : ∃ n, s' = s.take n := by
  unfold detectKeywords at h
  split at h
  · cases h
    exact ⟨s.length, by simp⟩
  · simp only at h
    have hp : ∃ n, (if findChar '$' s ≠ -1 then sliceTo s (findChar '$' s) else s) = s.take n := by
      split
      · exact slice_prefix _ _
      · exact ⟨s.length, by simp⟩
    obtain ⟨n, hn⟩ := hp
    rw [hn] at h
    generalize (if decide (findStr c!"*fill" (s.take n) ≠ -1) = true then findStr c!"fill" (s.take n) - 1 else findStr c!"fill" (s.take n)) = posf at h
    split at h
    · cases h
      exact ⟨n, rfl⟩
    · split at h
      · cases h
      · obtain ⟨c1, -, h2⟩ := bind_ok h
        cases h2
        obtain ⟨k, hk⟩ := slice_prefix (s.take n) ‹Int›
        exact ⟨min k n, by rw [hk, List.take_take]⟩

/-- A text that begins with a letter is no cell card. -/
theorem readCell_letter (io : NumIO K) (cosDeg : K → K) {s : Str} (hs : LetterFirst s) (c : Cell K) : readCell io cosDeg s ≠ .ok c := by
  obtain ⟨b, ch, t, rfl, hb, hc⟩ := hs
  intro h
  unfold readCell interpret at h
  obtain ⟨⟨c1, p⟩, h1, h2⟩ := bind_ok h
  obtain ⟨n, rfl⟩ := detect_prefix io cosDeg h1
  simp only at h2
  obtain ⟨t0, h3, h4⟩ := bind_ok h2
  rcases letter_prefix (b := b) (ch := ch) (t := t) n with ⟨k, e⟩ | ⟨t', e⟩
  · have hbk : ∀ x ∈ b.take k, isSpace x = true := fun x hx => hb x (List.mem_of_mem_take hx)
    have : split (expandText ((b ++ ch :: t).take n)) = [] := by
      rw [e, ← List.append_nil (b.take k), expand_blank hbk, show expandText [] = [] from rfl, List.append_nil]
      exact split_all_space _ (by simpa [List.all_eq_true] using hbk)
    rw [this] at h3
    cases h3
  · obtain ⟨w, ws, hw⟩ := letter_word hb hc (expandText t')
    rw [e, expand_blank hb, expand_letter hc, hw] at h3
    cases h3
    obtain ⟨id, h5, -⟩ := bind_ok h4
    rw [letter_int hc] at h5
    cases h5

/-- A text that begins with a letter is no surface card. -/
theorem classify_letter (io : NumIO K) {s : Str} (hs : LetterFirst s) (r : Surface K) : classify io s ≠ .ok r := by
  intro h
  unfold classify at h
  obtain ⟨f, h1, -⟩ := bind_ok h
  rw [stripDollar_code] at h1
  obtain ⟨b, ch, t, e, hb, hc⟩ := code_letter hs
  obtain ⟨w, ws, hw⟩ := letter_word hb hc t
  rw [e, hw] at h1
  unfold readFields at h1
  obtain ⟨t0, h3, h4⟩ := bind_ok h1
  cases h3
  obtain ⟨id, h5, -⟩ := bind_ok h4
  split at h5
  · rw [List.filter_cons, if_pos (by have := lower_letter hc (x := '*') (by decide); simpa using this), letter_int hc] at h5
    cases h5
  · rw [letter_int hc] at h5
    cases h5

end

/-- A block whose first line begins with a letter cannot be read. -/
theorem block_letter {α : Type} {clean : Str → Str} {parse : Str → Py α} (hclean : ∀ l, clean l = codeOf l) (hparse : ∀ s, LetterFirst s → ∀ a, parse s ≠ .ok a) {l : Str} (hl : LetterFirst l) (ls : List Str)
    (r : List α × List Str) : block clean parse (l :: ls) ≠ .ok r := by
  have go : ∀ (ls : List Str) (card : Str), LetterFirst card → ∀ r, blockGo clean parse card ls ≠ .ok r := by
    intro ls
    induction ls with
    | nil => intro card _ r h; cases h
    | cons x ls ih =>
      intro card hc r h
      unfold blockGo at h
      split at h
      · exact ih _ (letter_append hc _) r h
      · obtain ⟨a, h1, -⟩ := bind_ok h
        exact hparse card hc a h1
  intro h
  change (if isspace (clean l) = true then .ok ([], ls) else blockGo clean parse (clean l) ls) = _ at h
  have hcl : LetterFirst (clean l) := by rw [hclean]; exact code_letter hl
  split at h
  · rename_i hsp
    obtain ⟨b, ch, t, e, -, hc⟩ := hcl
    rw [e] at hsp
    simp [isspace, letter_space hc] at hsp
  · exact go ls _ hcl r h

end Csg
