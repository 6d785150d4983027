import Verif.Lemmas.Words
import Verif.Lemmas.Describe
import Verif.Model.CellWriters
import Verif.Spec.Codes

/-!
# Lemmas on written cells
-/

namespace Csg

open Spec

/-! ## Runs without blanks -/

/-- No run of characters other than blanks is longer than `n`, when `k` such characters precede the text. -/
def runOk (n : Nat) : Nat → Str → Prop
  | k, [] => k ≤ n
  | k, c :: cs => if c = ' ' then k ≤ n ∧ runOk n 0 cs else runOk n (k + 1) cs

theorem runOk_le {n k : Nat} {s : Str} (h : runOk n k s) : k ≤ n := by
  induction s generalizing k with
  | nil => exact h
  | cons c cs ih =>
    unfold runOk at h
    split at h
    · exact h.1
    · have := ih h; omega

theorem runOk_mono {n k k' : Nat} {s : Str} (h : runOk n k s) (hk : k' ≤ k) : runOk n k' s := by
  induction s generalizing k k' with
  | nil => exact Nat.le_trans hk h
  | cons c cs ih =>
    unfold runOk at h ⊢
    split
    · rename_i hc; rw [if_pos hc] at h; exact ⟨Nat.le_trans hk h.1, h.2⟩
    · rename_i hc; rw [if_neg hc] at h; exact ih h (by omega)

theorem runOk_word {n k : Nat} {w s : Str} (hw : ' ' ∉ w) : runOk n k (w ++ s) ↔ runOk n (k + w.length) s := by
  induction w generalizing k with
  | nil => simp
  | cons c w ih =>
    have hc : c ≠ ' ' := fun h => hw (by simp [h])
    rw [List.cons_append]
    conv_lhs => unfold runOk
    rw [if_neg hc, ih fun h => hw (List.mem_cons_of_mem _ h)]
    rw [List.length_cons, show k + 1 + w.length = k + (w.length + 1) by omega]

theorem maxRun_of_runOk {n : Nat} {s : Str} (h : runOk n 0 s) : MaxRun n s := by
  intro a w b e hw
  subst e
  have key : ∀ (a : Str) (k : Nat), runOk n k (a ++ (w ++ b)) → w.length ≤ n := by
    intro a
    induction a with
    | nil =>
      intro k hk
      have := runOk_le ((runOk_word hw).1 hk)
      omega
    | cons c a ih =>
      intro k hk
      rw [List.cons_append] at hk
      unfold runOk at hk
      split at hk
      · exact ih _ hk.2
      · exact ih _ hk
  exact key a 0 (by simpa using h)

theorem runOk_squeeze {n : Nat} {s : Str} : ∀ {k : Nat}, runOk n k s → runOk n k (squeeze s) := by
  induction s with
  | nil => exact fun h => h
  | cons c s ih =>
    intro k h
    unfold squeeze
    unfold runOk at h
    by_cases hc : c = ' '
    · rw [if_pos hc] at h
      by_cases hh : s.head? = some ' '
      · rw [if_pos ⟨hc, hh⟩]
        cases s with
        | nil => simp at hh
        | cons d s =>
          simp only [List.head?_cons, Option.some.injEq] at hh
          apply ih
          have h2 := h.2
          unfold runOk at h2 ⊢
          rw [if_pos hh] at h2 ⊢
          exact ⟨h.1, h2.2⟩
      · rw [if_neg (fun e => hh e.2)]
        unfold runOk
        rw [if_pos hc]
        exact ⟨h.1, ih h.2⟩
    · rw [if_neg hc] at h
      rw [if_neg (fun e => hc e.1)]
      unfold runOk
      rw [if_neg hc]
      exact ih h

theorem mem_squeeze {s : Str} {c : Char} (h : c ∈ squeeze s) : c ∈ s := by
  induction s with
  | nil => exact h
  | cons d s ih =>
    unfold squeeze at h
    split at h
    · exact List.mem_cons_of_mem _ (ih h)
    · rcases List.mem_cons.1 h with rfl | h
      · simp
      · exact List.mem_cons_of_mem _ (ih h)

theorem split_squeeze (s : Str) : split (squeeze s) = split s := by
  have key : ∀ (s acc : Str), splitGo acc (squeeze s) = splitGo acc s := by
    intro s
    induction s with
    | nil => intro acc; rfl
    | cons c s ih =>
      intro acc
      unfold squeeze
      by_cases h : c = ' ' ∧ s.head? = some ' '
      · rw [if_pos h, ih]
        obtain ⟨rfl, hh⟩ := h
        cases s with
        | nil => simp at hh
        | cons d s =>
          simp only [List.head?_cons, Option.some.injEq] at hh
          subst hh
          simp [splitGo, isSpace, flush]
      · rw [if_neg h]
        simp only [splitGo, ih]
  exact key s []

/-! ## strip -/

theorem strip_spec (s : Str) : ∃ a b, s = a ++ strip s ++ b ∧ a.all isSpace = true ∧ b.all isSpace = true := by
  refine ⟨s.takeWhile isSpace, ((s.dropWhile isSpace).reverse.takeWhile isSpace).reverse, ?_, ?_, ?_⟩
  · unfold strip
    rw [List.append_assoc, ← List.reverse_append, List.takeWhile_append_dropWhile, List.reverse_reverse, List.takeWhile_append_dropWhile]
  · simp [List.all_takeWhile]
  · simp [List.all_takeWhile]

theorem split_strip (s : Str) : split (strip s) = split s := by
  obtain ⟨a, b, h, ha, hb⟩ := strip_spec s
  conv_rhs => rw [h]
  rw [split_append_spaces _ _ hb, split_spaces_append _ _ ha]

theorem runOk_infix {n : Nat} {a s b : Str} {k : Nat} (h : runOk n k (a ++ s ++ b)) : runOk n 0 s := by
  have left : ∀ (a : Str) (k : Nat), runOk n k (a ++ (s ++ b)) → runOk n 0 (s ++ b) := by
    intro a
    induction a with
    | nil => intro k h; exact runOk_mono h (Nat.zero_le _)
    | cons c a ih =>
      intro k h
      rw [List.cons_append] at h
      unfold runOk at h
      split at h
      · exact ih _ h.2
      · exact ih _ h
  have right : ∀ (s : Str) (k : Nat), runOk n k (s ++ b) → runOk n k s := by
    intro s
    induction s with
    | nil => intro k h; exact runOk_le h
    | cons c s ih =>
      intro k h
      rw [List.cons_append] at h
      unfold runOk at h ⊢
      split at h
      · rename_i hc; rw [if_pos hc]; exact ⟨h.1, ih _ h.2⟩
      · rename_i hc; rw [if_neg hc]; exact ih _ h
  exact right _ _ (left a k (by simpa using h))

theorem runOk_strip {n : Nat} {s : Str} (h : runOk n 0 s) : runOk n 0 (strip s) := by
  obtain ⟨a, b, e, -, -⟩ := strip_spec s
  rw [e] at h
  exact runOk_infix h

theorem mem_strip {s : Str} {c : Char} (h : c ∈ strip s) : c ∈ s := by
  obtain ⟨a, b, e, -, -⟩ := strip_spec s
  rw [e]; simp [h]

theorem runOk_append_blank {n k : Nat} {a b : Str} (ha : runOk n k a) (hb : runOk n 0 b) : runOk n k (a ++ ' ' :: b) := by
  induction a generalizing k with
  | nil =>
    show runOk n k (' ' :: b)
    unfold runOk
    rw [if_pos rfl]
    exact ⟨ha, hb⟩
  | cons c a ih =>
    rw [List.cons_append]
    unfold runOk at ha ⊢
    split
    · rename_i hc; rw [if_pos hc] at ha; exact ⟨ha.1, ih ha.2⟩
    · rename_i hc; rw [if_neg hc] at ha; exact ih ha

/-! ## The items -/

/-- The head of a list is a surface word. -/
def AtomHead (is : List Item) : Prop := ∃ s, is.head? = some (.str s) ∧ ¬ IsParen s

theorem spaced_tail {i : Item} {is : List Item} (h : Spaced (i :: is)) : Spaced is := List.IsChain.of_cons h

theorem spaced_head {i : Item} {is : List Item} (h : Spaced (i :: is)) (ha : AtomHead is) : i = .op .and ∨ i = .str c!"(" := by
  obtain ⟨s, hs, hp⟩ := ha
  cases is with
  | nil => simp at hs
  | cons j is =>
    simp at hs
    subst hs
    exact (List.isChain_cons_cons.1 h).1.1 s rfl hp

theorem items_run (wr : Item → Str) (is : List Item) (tail : Str) (hsp : Spaced is) (hw : WordsAre (fun s => ' ' ∉ s) is)
    (hand : ∀ k ≤ 61, ∀ rest, runOk 62 0 rest → runOk 62 k (wr (.op .and) ++ rest))
    (hlp : ∀ k ≤ 61, ∀ rest, runOk 62 0 rest → runOk 62 k (wr (.str c!"(") ++ rest))
    (hrp : ∀ k ≤ 61, ∀ rest, runOk 62 0 rest → runOk 62 k (wr (.str c!")") ++ rest))
    (hno : ∀ k ≤ 61, ∀ rest, runOk 62 1 rest → runOk 62 k (wr (.op .not) ++ rest))
    (hun : ∀ k ≤ 60, ∀ rest, runOk 62 (k + 1) rest → runOk 62 k (wr (.op .union) ++ rest))
    (hstr : ∀ s, ¬ IsParen s → wr (.str s) = s) (htail : ∀ k ≤ 61, runOk 62 k tail) :
    ∀ k ≤ 61, (AtomHead is → k = 0) → (is.head? = some (.op .union) → k ≤ 60) → runOk 62 k (is.flatMap wr ++ tail) := by
  induction is with
  | nil => intro k hk _ _; simpa using htail k hk
  | cons i is ih =>
    have ih := ih (spaced_tail hsp) fun s hs => hw s (List.mem_cons_of_mem _ hs)
    intro k hk h1 h2
    rw [List.flatMap_cons, List.append_assoc]
    have z : runOk 62 0 (is.flatMap wr ++ tail) := ih 0 (by omega) (fun _ => rfl) (fun _ => by omega)
    match i, hsp, hw, h1, h2 with
    | .op .and, _, _, _, _ => exact hand k hk _ z
    | .op .not, hsp, _, _, _ =>
      refine hno k hk _ (ih 1 (by omega) (fun ha => ?_) (fun _ => by omega))
      rcases spaced_head hsp ha with h | h <;> simp at h
    | .op .union, hsp, _, _, h2 =>
      have hk2 := h2 rfl
      refine hun k hk2 _ (ih (k + 1) (by omega) (fun ha => ?_) (fun hu => ?_))
      · rcases spaced_head hsp ha with h | h <;> simp at h
      · cases is with
        | nil => simp at hu
        | cons j is =>
          simp at hu
          exact absurd ⟨rfl, hu⟩ (List.isChain_cons_cons.1 hsp).1.2
    | .str s, hsp, hw, h1, _ =>
      by_cases hp : IsParen s
      · rcases hp with rfl | rfl
        · exact hlp k hk _ z
        · exact hrp k hk _ z
      · obtain ⟨hb, hl⟩ := hw s (by simp) hp
        have := h1 ⟨s, rfl, hp⟩
        subst this
        rw [hstr s hp, runOk_word hb]
        refine ih _ (by omega) (fun ha => ?_) (fun _ => by omega)
        rcases spaced_head hsp ha with h | h
        · simp at h
        · simp at h; subst h; exact absurd (Or.inl rfl) hp

theorem items_lex (lx : Str → Str → List (Sym Str)) (pend : Str → List (Sym Str)) (wr : Item → Str) (P : Str → Prop) (is : List Item)
    (tail : Str) (T : List (Sym Str)) (hsp : Spaced is) (hw : WordsAre P is) (hpend : pend [] = [])
    (hand : ∀ acc rest, lx acc (wr (.op .and) ++ rest) = pend acc ++ lx [] rest)
    (hlp : ∀ acc rest, lx acc (wr (.str c!"(") ++ rest) = pend acc ++ .lp :: lx [] rest)
    (hrp : ∀ acc rest, lx acc (wr (.str c!")") ++ rest) = pend acc ++ .rp :: lx [] rest)
    (hun : ∀ acc rest, lx acc (wr (.op .union) ++ rest) = pend acc ++ .un :: lx [] rest)
    (hno : ∀ acc rest X, (∀ acc, lx acc rest = pend acc ++ X) → lx acc (wr (.op .not) ++ rest) = pend acc ++ .no :: X)
    (hstr : ∀ s, ¬ IsParen s → P s → (∀ rest, lx [] (wr (.str s) ++ rest) = lx s rest) ∧ pend s = [.atom s])
    (htail : ∀ acc, lx acc tail = pend acc ++ T) :
    ∀ acc, (AtomHead is → acc = []) → lx acc (is.flatMap wr ++ tail) = pend acc ++ (itemSyms is ++ T) := by
  induction is with
  | nil => intro acc _; simpa [itemSyms] using htail acc
  | cons i is ih =>
    have ih := ih (spaced_tail hsp) fun s hs => hw s (List.mem_cons_of_mem _ hs)
    intro acc h1
    rw [List.flatMap_cons, List.append_assoc]
    have z : lx [] (is.flatMap wr ++ tail) = itemSyms is ++ T := by rw [ih [] (fun _ => rfl), hpend]; rfl
    match i, hsp, hw, h1 with
    | .op .and, _, _, _ => rw [hand, z]; rfl
    | .op .not, hsp, _, _ =>
      rw [hno acc _ (itemSyms is ++ T) fun acc => ih acc fun ha => ?_]
      · rfl
      · rcases spaced_head hsp ha with h | h <;> simp at h
    | .op .union, _, _, _ => rw [hun, z]; rfl
    | .str s, hsp, hw, h1 =>
      by_cases hp : IsParen s
      · rcases hp with rfl | rfl
        · rw [hlp, z]; rfl
        · rw [hrp, z]; rfl
      · have := h1 ⟨s, rfl, hp⟩
        subst this
        obtain ⟨h2, h3⟩ := hstr s hp (hw s (by simp) hp).1
        rw [h2, ih s fun ha => ?_, h3, hpend]
        · have e1 : ¬ s = c!"(" := fun h => hp (Or.inl h)
          have e2 : ¬ s = c!")" := fun h => hp (Or.inr h)
          simp [itemSyms, e1, e2]
        · rcases spaced_head hsp ha with h | h
          · simp at h
          · simp at h; subst h; exact absurd (Or.inl rfl) hp

/-! ## Reading word by word -/

/-- A reader for which white space separates reads the words one by one. -/
theorem lex_split {α : Type} (lx : Str → List α) (hnil : lx [] = [])
    (h : ∀ a c b, isSpace c = true → lx (a ++ c :: b) = lx a ++ lx b) (s : Str) : lx s = (split s).flatMap lx := by
  have key : ∀ (s w : Str), lx (w ++ s) = (splitGo w s).flatMap lx := by
    intro s
    induction s with
    | nil =>
      intro w
      by_cases hw : w = []
      · subst hw; simp [splitGo, flush, hnil]
      · simp [splitGo, flush, hw]
    | cons c s ih =>
      intro w
      by_cases hc : isSpace c = true
      · rw [h _ _ _ hc]
        have := ih []
        rw [List.nil_append] at this
        rw [this]
        by_cases hw : w = []
        · subst hw; simp [splitGo, flush, hnil, hc]
        · simp [splitGo, flush, hw, hc]
      · have := ih (w ++ [c])
        rw [List.append_assoc] at this
        simp only [splitGo, hc]
        exact this
  exact key s []

theorem lexCharsGo_cons (sp : Char → Option (Sym Str)) (acc cs : Str) (c : Char) : lexCharsGo sp acc (c :: cs) =
    if isSpace c then pending acc ++ lexCharsGo sp [] cs
    else match sp c with
      | some s => pending acc ++ s :: lexCharsGo sp [] cs
      | none => lexCharsGo sp (acc ++ [c]) cs := rfl

theorem lexGo_cons (acc cs : Str) (c : Char) : lexGo acc (c :: cs) =
    if isSpace c then endWord acc ++ lexGo [] cs
    else if c = '(' then endWord acc ++ .lp :: lexGo [] cs
    else if c = ')' then endWord acc ++ .rp :: lexGo [] cs
    else if c = ':' then endWord acc ++ .un :: lexGo [] cs
    else if c = '+' then lexGo acc cs
    else lexGo (acc ++ [c]) cs := rfl

theorem lexCharsGo_space (sp : Char → Option (Sym Str)) (a b acc : Str) (c : Char) (hc : isSpace c = true) :
    lexCharsGo sp acc (a ++ c :: b) = lexCharsGo sp acc a ++ lexCharsGo sp [] b := by
  induction a generalizing acc with
  | nil => simp [lexCharsGo, hc]
  | cons d a ih =>
    rw [List.cons_append, lexCharsGo_cons, lexCharsGo_cons]
    by_cases hd : isSpace d = true
    · rw [if_pos hd, if_pos hd, ih, List.append_assoc]
    · rw [if_neg hd, if_neg hd]
      cases sp d with
      | some s => simp [ih]
      | none => exact ih _

theorem lexChars_split (sp : Char → Option (Sym Str)) (s : Str) : lexCharsGo sp [] s = (split s).flatMap (lexCharsGo sp []) :=
  lex_split _ rfl (fun a c b hc => lexCharsGo_space sp a b [] c hc) s

theorem lexGo_blank (a b acc : Str) (c : Char) (hc : isSpace c = true) : lexGo acc (a ++ c :: b) = lexGo acc a ++ lexGo [] b := by
  induction a generalizing acc with
  | nil => simp [lexGo, hc]
  | cons d a ih =>
    rw [List.cons_append, lexGo_cons, lexGo_cons]
    by_cases h1 : isSpace d = true
    · rw [if_pos h1, if_pos h1, ih, List.append_assoc]
    · rw [if_neg h1, if_neg h1]
      by_cases h2 : d = '('
      · rw [if_pos h2, if_pos h2, ih]; simp
      · rw [if_neg h2, if_neg h2]
        by_cases h3 : d = ')'
        · rw [if_pos h3, if_pos h3, ih]; simp
        · rw [if_neg h3, if_neg h3]
          by_cases h4 : d = ':'
          · rw [if_pos h4, if_pos h4, ih]; simp
          · rw [if_neg h4, if_neg h4]
            by_cases h5 : d = '+'
            · rw [if_pos h5, if_pos h5, ih]
            · rw [if_neg h5, if_neg h5, ih]

theorem lexGeometry_split (s : Str) : lexGeometry s = (split s).flatMap lexGeometry :=
  lex_split _ rfl (fun a c b hc => lexGo_blank a b [] c hc) s

theorem lexCharsGo_word (sp : Char → Option (Sym Str)) (w : Str) (hw : ∀ c ∈ w, isSpace c = false ∧ sp c = none) :
    ∀ acc rest, lexCharsGo sp acc (w ++ rest) = lexCharsGo sp (acc ++ w) rest := by
  induction w with
  | nil => intro acc rest; simp
  | cons c w ih =>
    intro acc rest
    obtain ⟨h1, h2⟩ := hw c (by simp)
    rw [List.cons_append]
    conv_lhs => unfold lexCharsGo
    rw [if_neg (by simp [h1]), h2]
    show lexCharsGo sp (acc ++ [c]) (w ++ rest) = _
    rw [ih fun d hd => hw d (List.mem_cons_of_mem _ hd)]
    simp

theorem wordsAre_imp {P Q : Str → Prop} {is : List Item} (h : WordsAre P is) (hPQ : ∀ s, P s → Q s) : WordsAre Q is :=
  fun s hs hp => ⟨hPQ s (h s hs hp).1, (h s hs hp).2⟩

end Csg
