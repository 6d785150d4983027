import Verif.Lemmas.SurfaceText
import Verif.Lemmas.Flatten

/-!
# Reading SCONE dictionaries
-/

namespace Csg

open Spec

/-- A word without white space and marks. -/
def SconeWord (w : Str) : Prop := w ≠ [] ∧ ∀ c ∈ w, isSpace c = false ∧ isSconeMark c = false

theorem sconeWordsGo_plain (w rest : Str) (h : ∀ c ∈ w, isSpace c = false ∧ isSconeMark c = false) :
    ∀ acc, sconeWordsGo acc (w ++ rest) = sconeWordsGo (acc ++ w) rest := by
  induction w with
  | nil => simp
  | cons c w ih =>
    intro acc
    have hc := h c (by simp)
    rw [List.cons_append, sconeWordsGo]
    simp only [hc.1, hc.2, Bool.false_eq_true, if_false]
    rw [ih fun d hd => h d (List.mem_cons_of_mem _ hd)]
    simp

/-- A word followed by a blank. -/
theorem sconeWords_word {w t : Str} (h : SconeWord w) : sconeWords (w ++ ' ' :: t) = w :: sconeWords t := by
  unfold sconeWords
  rw [sconeWordsGo_plain _ _ h.2, sconeWordsGo]
  simp [isSpace, h.1]

/-- A word followed by a mark. -/
theorem sconeWords_mark {w t : Str} (h : SconeWord w) (m : Char) (hm : isSconeMark m = true) (hs : isSpace m = false) :
    sconeWords (w ++ m :: t) = w :: [m] :: sconeWords t := by
  unfold sconeWords
  rw [sconeWordsGo_plain _ _ h.2, sconeWordsGo]
  simp [hm, hs, h.1]

/-- A mark. -/
theorem sconeWords_cons_mark {t : Str} (m : Char) (hm : isSconeMark m = true) (hs : isSpace m = false) : sconeWords (m :: t) = [m] :: sconeWords t := by
  unfold sconeWords
  rw [sconeWordsGo]
  simp [hm, hs]

theorem sconeWords_blank {t : Str} (c : Char) (hs : isSpace c = true) : sconeWords (c :: t) = sconeWords t := by
  unfold sconeWords
  rw [sconeWordsGo]
  simp [hs]

theorem sconeWord_intStr (n : Int) : SconeWord (intStr n) := by
  refine ⟨intStr_ne_nil n, fun c hc => ?_⟩
  rcases intStr_chars n c hc with h | h
  · refine ⟨isSpace_of_isDigit h, ?_⟩
    by_contra hm
    have hm : isSconeMark c = true := by simpa using hm
    simp only [isSconeMark, Bool.or_eq_true, beq_iff_eq] at hm
    rcases hm with (((rfl | rfl) | rfl) | rfl) | rfl <;> simp [isDigit] at h
  · subst h; decide

theorem Spec.Prints.sconeWord {K : Type} {read : Str → Option K} {print : K → Str} {x : K} (h : Prints read print x) : SconeWord (print x) := by
  refine ⟨h.ne_nil, fun c hc => ?_⟩
  rcases h.chars c hc with h | h | h | h | h
  · refine ⟨isSpace_of_isDigit h, ?_⟩
    by_contra hm
    have hm : isSconeMark c = true := by simpa using hm
    simp only [isSconeMark, Bool.or_eq_true, beq_iff_eq] at hm
    rcases hm with (((rfl | rfl) | rfl) | rfl) | rfl <;> simp [isDigit] at h
  all_goals subst h; decide

/-- A chunk: words none of which is a semicolon or a brace. -/
def Chunk (ws : List Str) : Prop := ∀ w ∈ ws, w ≠ c!";" ∧ w ≠ c!"}" ∧ w ≠ c!"{"

theorem SconeWord.chunk {w : Str} (h : SconeWord w) : w ≠ c!";" ∧ w ≠ c!"}" ∧ w ≠ c!"{" := by
  refine ⟨?_, ?_, ?_⟩ <;> rintro rfl
  · exact absurd (h.2 ';' (by simp)).2 (by decide)
  · exact absurd (h.2 '}' (by simp)).2 (by decide)
  · exact absurd (h.2 '{' (by simp)).2 (by decide)

theorem sconeChunks_append {ws : List Str} (h : Chunk ws) (rest : List Str) : ∀ cur, sconeChunks cur (ws ++ rest) = sconeChunks (cur ++ ws) rest := by
  induction ws with
  | nil => simp
  | cons w ws ih =>
    intro cur
    have hw := h w (by simp)
    rw [List.cons_append, sconeChunks, if_neg hw.2.2, if_neg hw.2.1, if_neg hw.1, ih fun v hv => h v (List.mem_cons_of_mem _ hv)]
    simp

/-- The entries of a dictionary. -/
theorem sconeChunks_entries (es : List (List Str)) (h : ∀ e ∈ es, Chunk e) : sconeChunks [] (es.flatMap (fun e => e ++ [c!";"]) ++ [c!"}"]) = some es := by
  induction es with
  | nil => rfl
  | cons e es ih =>
    rw [List.flatMap_cons, List.append_assoc, List.append_assoc, sconeChunks_append (h e (by simp))]
    show sconeChunks ([] ++ e) (c!";" :: (es.flatMap (fun e => e ++ [c!";"]) ++ [c!"}"])) = _
    rw [List.nil_append, sconeChunks, if_neg (by decide), if_neg (by decide), if_pos rfl, ih fun v hv => h v (List.mem_cons_of_mem _ hv)]
    rfl

/-- Reading a dictionary from its words. -/
theorem sconeDictionary_of_words {text name : Str} {es : List (List Str)} {ds : List (Str × List Str)} (h : ∀ e ∈ es, Chunk e)
    (hw : sconeWords text = name :: c!"{" :: (es.flatMap (fun e => e ++ [c!";"]) ++ [c!"}"])) (hd : es.mapM sconeEntry = some ds) :
    sconeDictionary text = some (name, ds) := by
  unfold sconeDictionary
  rw [hw]
  simp [sconeChunks_entries es h, hd]

end Csg
