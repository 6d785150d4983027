import Verif.Lemmas.OutputText
import Verif.Lemmas.SconeText
import Verif.Lemmas.FormatF
import Verif.Spec.SconeFile

/-!
# Lemmas about SCONE files
-/

namespace Csg

open Spec

/-! ## Words -/

theorem sconeWordsGo_space (a b acc : Str) (c : Char) (hc : isSpace c = true) : sconeWordsGo acc (a ++ c :: b) = sconeWordsGo acc a ++ sconeWordsGo [] b := by
  induction a generalizing acc with
  | nil => simp [sconeWordsGo, hc]
  | cons d a ih =>
    rw [List.cons_append, sconeWordsGo, sconeWordsGo]
    by_cases hd : isSpace d = true
    · rw [if_pos hd, if_pos hd, ih, List.append_assoc]
    · rw [if_neg hd, if_neg hd]
      split
      · rw [ih, List.append_assoc]; rfl
      · exact ih _

theorem sconeWords_split (s : Str) : sconeWords s = (split s).flatMap sconeWords :=
  lex_split sconeWords rfl (fun a c b hc => sconeWordsGo_space a b [] c hc) s

theorem sconeWords_complete {a : Str} (h : Complete a) (b : Str) : sconeWords (a ++ b) = sconeWords a ++ sconeWords b := by
  rw [sconeWords_split, split_complete h, List.flatMap_append, ← sconeWords_split, ← sconeWords_split]

theorem sconeWords_one {w : Str} (h : SconeWord w) : sconeWords w = [w] := by
  unfold sconeWords
  have := sconeWordsGo_plain w [] h.2 []
  rw [List.append_nil] at this
  rw [this]
  simp [sconeWordsGo, h.1]

theorem sconeWords_words {ws : List Str} (h : ∀ w ∈ ws, SconeWord w) : ws.flatMap sconeWords = ws := by
  induction ws with
  | nil => rfl
  | cons w ws ih => rw [List.flatMap_cons, sconeWords_one (h w (by simp)), ih fun w' hw => h w' (by simp [hw])]; rfl

theorem sconeWords_semi {w : Str} (h : SconeWord w) : sconeWords (w ++ c!";") = [w, c!";"] := by
  rw [sconeWords_mark h ';' rfl rfl]
  rfl

theorem sconeWordsGo_mem (s : Str) : ∀ (acc : Str) (c : Char), isSpace c = false → (c ∈ acc ∨ c ∈ s) → ∃ w ∈ sconeWordsGo acc s, c ∈ w := by
  induction s with
  | nil =>
    intro acc c _ h
    have h := h.resolve_right (by simp)
    refine ⟨acc, ?_, h⟩
    rw [sconeWordsGo, if_neg (fun e => by rw [e] at h; cases h)]
    simp
  | cons d s ih =>
    intro acc c hc h
    have acc' : c ∈ acc → ∃ w ∈ (if acc = [] then [] else [acc]), c ∈ w := fun h => ⟨acc, by rw [if_neg (fun e => by rw [e] at h; cases h)]; simp, h⟩
    rw [sconeWordsGo]
    split
    · rename_i hd
      rcases h with h | h
      · obtain ⟨w, hw, hcw⟩ := acc' h
        exact ⟨w, List.mem_append_left _ hw, hcw⟩
      · rcases List.mem_cons.1 h with rfl | h
        · rw [hc] at hd; cases hd
        · obtain ⟨w, hw, hcw⟩ := ih [] c hc (.inr h)
          exact ⟨w, List.mem_append_right _ hw, hcw⟩
    · split
      · rcases h with h | h
        · obtain ⟨w, hw, hcw⟩ := acc' h
          exact ⟨w, List.mem_append_left _ hw, hcw⟩
        · rcases List.mem_cons.1 h with rfl | h
          · exact ⟨[c], by simp, by simp⟩
          · obtain ⟨w, hw, hcw⟩ := ih [] c hc (.inr h)
            exact ⟨w, List.mem_append_right _ (List.mem_cons_of_mem _ hw), hcw⟩
      · refine ih _ c hc ?_
        rcases h with h | h
        · exact .inl (by simp [h])
        · rcases List.mem_cons.1 h with rfl | h
          · exact .inl (by simp)
          · exact .inr h

theorem sconeWords_mem {s : Str} {c : Char} (hc : isSpace c = false) (h : c ∈ s) : ∃ w ∈ sconeWords s, c ∈ w := sconeWordsGo_mem s [] c hc (.inr h)

theorem Spec.SconeOrdinary.word {w : Str} (h : SconeOrdinary w) : SconeWord w := ⟨h.1, fun c hc => ⟨(h.2 c hc).1, (h.2 c hc).2.1⟩⟩

theorem Spec.SconeOrdinary.bang {w : Str} (h : SconeOrdinary w) : '!' ∉ w := fun hm => (h.2 '!' hm).2.2 rfl

theorem intStr_bang (z : Int) : '!' ∉ intStr z := fun h => by
  rcases intStr_chars z '!' h with h | h
  · exact absurd h (by decide)
  · exact absurd h (by decide)

/-! ## Texts -/

/-- SCONE reads the text as the words, whatever follows. -/
def Lexes (text : Str) (ws : List Str) : Prop := ∀ b, sconeWords (uncomment '!' false (text ++ b)) = ws ++ sconeWords (uncomment '!' false b)

theorem lexes_append {s t : Str} {a b : List Str} (h : Lexes s a) (h' : Lexes t b) : Lexes (s ++ t) (a ++ b) := by
  intro r
  rw [List.append_assoc, h, h', List.append_assoc]

theorem lexes_flatten {ts : List Str} {wss : List (List Str)} (h : List.Forall₂ Lexes ts wss) : Lexes ts.flatten wss.flatten := by
  induction h with
  | nil => intro b; rfl
  | cons h _ ih => exact lexes_append h ih

theorem lexes_plain {s : Str} (hc : Complete s) (hb : '!' ∉ s) : Lexes s (sconeWords s) := by
  intro b
  rw [uncomment_plain hb, sconeWords_complete hc]

theorem lexes_comment {a : Str} (h : '\n' ∉ a) : Lexes ('!' :: a ++ c!"\n") [] := by
  intro b
  have : '!' :: a ++ c!"\n" ++ b = '!' :: a ++ '\n' :: b := by simp
  rw [this, uncomment_line h, sconeWords_blank _ (by decide)]
  rfl

theorem lexes_read {s : Str} {ws : List Str} (h : Lexes s ws) : sconeRead s = sconeParse [] [] [] ws := by
  have := h []
  unfold sconeRead
  rw [List.append_nil] at this
  rw [this]
  simp [uncomment, sconeWords, sconeWordsGo]

/-! ## Entries -/

/-- The words are the entries. -/
def Feeds (ws : List Str) (es : List SconeItem) : Prop := ∀ stack cur rest, sconeParse stack cur [] (ws ++ rest) = sconeParse stack (cur ++ es) [] rest

theorem feeds_nil : Feeds [] [] := by intro stack cur rest; simp

theorem feeds_append {a b : List Str} {es fs : List SconeItem} (h : Feeds a es) (h' : Feeds b fs) : Feeds (a ++ b) (es ++ fs) := by
  intro stack cur rest
  rw [List.append_assoc, h, h', List.append_assoc]

theorem feeds_flatten {wss : List (List Str)} {es : List SconeItem} (h : List.Forall₂ (fun ws e => Feeds ws [e]) wss es) : Feeds wss.flatten es := by
  induction h with
  | nil => exact feeds_nil
  | cons h _ ih => exact feeds_append h ih

theorem sconeParse_open (stack : List (Str × List SconeItem)) (cur : List SconeItem) (name : Str) (ts : List Str) :
    sconeParse stack cur [name] (c!"{" :: ts) = sconeParse ((name, cur) :: stack) [] [] ts := by
  rw [sconeParse]
  rfl

theorem sconeParse_close (stack : List (Str × List SconeItem)) (before cur : List SconeItem) (name : Str) (ts : List Str) :
    sconeParse ((name, before) :: stack) cur [] (c!"}" :: ts) = sconeParse stack (before ++ [.dict name cur]) [] ts := by
  rw [sconeParse]
  rfl

theorem sconeParse_semi (stack : List (Str × List SconeItem)) (cur : List SconeItem) {words : List Str} (h : 2 ≤ words.length) (ts : List Str) :
    sconeParse stack cur words (c!";" :: ts) = sconeParse stack (cur ++ [.value words]) [] ts := by
  match words, h with
  | a :: b :: l, _ =>
    rw [sconeParse.eq_def]
    simp only
    rw [if_neg (by decide), if_neg (by decide), if_pos trivial, if_neg (by simp)]

theorem sconeParse_word (stack : List (Str × List SconeItem)) (cur : List SconeItem) (words : List Str) {t : Str} (h : t ≠ c!";" ∧ t ≠ c!"}" ∧ t ≠ c!"{") (ts : List Str) :
    sconeParse stack cur words (t :: ts) = sconeParse stack cur (words ++ [t]) ts := by
  rw [sconeParse.eq_def]
  simp only
  rw [if_neg h.2.2, if_neg h.2.1, if_neg h.1]

theorem sconeParse_words {ws : List Str} (h : Chunk ws) (stack : List (Str × List SconeItem)) (cur : List SconeItem) (rest : List Str) :
    ∀ pre, sconeParse stack cur pre (ws ++ rest) = sconeParse stack cur (pre ++ ws) rest := by
  induction ws with
  | nil => simp
  | cons w ws ih =>
    intro pre
    rw [List.cons_append, sconeParse_word _ _ _ (h w (by simp)), ih fun v hv => h v (by simp [hv])]
    simp

theorem feeds_value {ws : List Str} (h : Chunk ws) (hl : 2 ≤ ws.length) : Feeds (ws ++ [c!";"]) [.value ws] := by
  intro stack cur rest
  rw [List.append_assoc, sconeParse_words h, List.nil_append, List.singleton_append, sconeParse_semi _ _ hl]

theorem feeds_dict {name : Str} {ws : List Str} {es : List SconeItem} (hn : SconeWord name) (h : Feeds ws es) : Feeds (name :: c!"{" :: (ws ++ [c!"}"])) [.dict name es] := by
  intro stack cur rest
  rw [List.cons_append, List.cons_append, sconeParse_word _ _ _ hn.chunk, List.nil_append, sconeParse_open, List.append_assoc, h, List.singleton_append, sconeParse_close, List.nil_append]

/-- Entries that `sconeChunks` finds. -/
theorem feeds_chunks {name : Str} {ts : List Str} {es : List (List Str)} (hn : SconeWord name) (h : sconeChunks [] ts = some es) (hl : ∀ e ∈ es, 2 ≤ e.length) :
    Feeds (name :: c!"{" :: ts) [.dict name (es.map .value)] := by
  have key : ∀ (ts : List Str) (pre : List Str) (es : List (List Str)) (stack : List (Str × List SconeItem)) (before cur : List SconeItem) (rest : List Str), sconeChunks pre ts = some es →
      (∀ e ∈ es, 2 ≤ e.length) →
      sconeParse ((name, before) :: stack) cur pre (ts ++ rest) = sconeParse stack (before ++ [.dict name (cur ++ es.map .value)]) [] rest := by
    intro ts
    induction ts with
    | nil => intro pre es stack before cur rest h; cases h
    | cons t ts ih =>
      intro pre es stack before cur rest h hl
      rw [sconeChunks] at h
      rw [List.cons_append]
      split at h
      · cases h
      rename_i h3
      split at h
      · rename_i h2
        split at h
        · rename_i hh
          obtain ⟨rfl, rfl⟩ := hh
          cases h
          rw [h2, sconeParse_close]
          simp
        · cases h
      rename_i h2
      split at h
      · rename_i h1
        obtain ⟨es', he, rfl⟩ := Option.map_eq_some_iff.1 h
        rw [h1, sconeParse_semi _ _ (hl pre (by simp)), ih [] es' stack before _ rest he fun e hh => hl e (by simp [hh])]
        simp
      · rename_i h1
        rw [sconeParse_word _ _ _ ⟨h1, h2, h3⟩, ih _ es stack before cur rest h hl]
  intro stack cur rest
  rw [List.cons_append, List.cons_append, sconeParse_word _ _ _ hn.chunk, List.nil_append, sconeParse_open, key ts [] es stack cur [] rest h hl]
  simp

/-! ## Lengths of numbers -/

theorem natVal_lt (t : Str) (h : ∀ c ∈ t, isDigit c = true) : natVal t < 10 ^ t.length := by
  have key : ∀ (t : Str) (n k : Nat), (∀ c ∈ t, isDigit c = true) → n < 10 ^ k → t.foldl (fun n c => 10 * n + digitVal c) n < 10 ^ (k + t.length) := by
    intro t
    induction t with
    | nil => intro n k _ h; simpa using h
    | cons c t ih =>
      intro n k hd hn
      rw [List.foldl_cons, List.length_cons]
      have hc : digitVal c < 10 := by
        have := hd c (by simp)
        simp only [isDigit, Bool.or_eq_true, beq_iff_eq] at this
        rcases this with ((((((((rfl | rfl) | rfl) | rfl) | rfl) | rfl) | rfl) | rfl) | rfl) | rfl <;> decide
      have := ih (10 * n + digitVal c) (k + 1) (fun d hd' => hd d (by simp [hd'])) (by rw [pow_succ]; omega)
      rw [show k + (t.length + 1) = k + 1 + t.length by omega]
      exact this
  have := key t 0 0 h (by norm_num)
  unfold natVal
  simpa using this

theorem intStr_length {z : Int} {k : Nat} (h : |z| < 10 ^ (k + 1)) : (intStr z).length ≤ k + 2 := by
  have hn : z.natAbs < 10 ^ (k + 1) := by
    have : ((z.natAbs : Nat) : Int) < ((10 ^ (k + 1) : Nat) : Int) := by rw [Int.natCast_natAbs]; push_cast; exact h
    exact_mod_cast this
  have := natStr_length hn
  cases z with
  | ofNat n =>
    have h' : (natStr n).length ≤ k + 1 := this
    show (natStr n).length ≤ _
    omega
  | negSucc n =>
    have h' : (natStr (n + 1)).length ≤ k + 1 := this
    show ('-' :: natStr (n + 1)).length ≤ _
    rw [List.length_cons]
    omega

theorem parseInt_bound {w : Str} {z : Int} (h : parseInt w = some z) : |z| < 10 ^ w.length := by
  have nat : ∀ (t : Str) (n : Nat), parseNat t = some n → (n : Int) < 10 ^ t.length := by
    intro t n h
    unfold parseNat at h
    split at h
    · rename_i hd
      cases h
      have := natVal_lt t (List.all_eq_true.1 hd.2)
      exact_mod_cast this
    · cases h
  have up : ∀ t : Str, (10 : Int) ^ t.length ≤ 10 ^ (t.length + 1) := fun t => pow_le_pow_right₀ (by norm_num) (by omega)
  unfold parseInt at h
  split at h
  · rename_i t
    cases hn : parseNat t with
    | none => rw [hn] at h; cases h
    | some n =>
      rw [hn] at h
      cases h
      rw [abs_neg, List.length_cons]
      have := nat t n hn
      rw [Nat.abs_cast]
      exact lt_of_lt_of_le this (up t)
  · rename_i t
    cases hn : parseNat t with
    | none => rw [hn] at h; cases h
    | some n =>
      rw [hn] at h
      cases h
      rw [List.length_cons]
      have := nat t n hn
      show |(n : Int)| < _
      rw [Nat.abs_cast]
      exact lt_of_lt_of_le this (up t)
  · cases hn : parseNat w with
    | none => rw [hn] at h; cases h
    | some n =>
      rw [hn] at h
      cases h
      have := nat w n hn
      show |(n : Int)| < _
      rwa [Nat.abs_cast]

end Csg
