import Verif.Lemmas.Flatten
import Verif.Lemmas.OtherCells
import Verif.Lemmas.Spaced

/-!
# Lemmas on FLUKA cells
-/

namespace Csg

open Spec

/-- The reading of FLUKA text before `- +` is replaced. -/
def lexSigned (acc : Str) : Str → Option (List (Sym Str))
  | [] => some (pending acc)
  | c :: cs =>
    if isSpace c then (lexSigned [] cs).map (pending acc ++ ·)
    else if c = '(' then (lexSigned [] cs).map (pending acc ++ .lp :: ·)
    else if c = ')' then (lexSigned [] cs).map (pending acc ++ .rp :: ·)
    else if c = '|' then (lexSigned [] cs).map (pending acc ++ .un :: ·)
    else if c = '+' then if signOk cs then (lexSigned [] cs).map (pending acc ++ ·) else none
    else if c = '-' then
      match cs with
      | ' ' :: '+' :: r => if signOk r then (lexSigned [] r).map (pending acc ++ .no :: ·) else none
      | cs => if signOk cs then (lexSigned [] cs).map (pending acc ++ .no :: ·) else none
    else lexSigned (acc ++ [c]) cs
termination_by s => s.length
decreasing_by all_goals simp_wf <;> omega

theorem flukaSigns_nil : flukaSigns [] = [] := rfl

theorem flukaSigns_signed (s : Str) : flukaSigns ('-' :: ' ' :: '+' :: s) = ' ' :: '-' :: flukaSigns s := rfl

theorem flukaSigns_other (c : Char) (s : Str) (h : ¬ ∃ r, c = '-' ∧ s = ' ' :: '+' :: r) : flukaSigns (c :: s) = c :: flukaSigns s := by
  rw [flukaSigns.eq_2]
  rintro r rfl rfl
  exact h ⟨r, rfl, rfl⟩

theorem signOk_flukaSigns (s : Str) : signOk (flukaSigns s) = signOk s := by
  match s with
  | [] => rfl
  | c :: s =>
    by_cases h : ∃ r, c = '-' ∧ s = ' ' :: '+' :: r
    · obtain ⟨r, rfl, rfl⟩ := h
      rfl
    · rw [flukaSigns_other c s h]; rfl

theorem lexSigned_signs (acc s : Str) : lexFlukaGo acc (flukaSigns s) = lexSigned acc s := by
  induction hn : s.length using Nat.strong_induction_on generalizing acc s with
  | _ n ih =>
    subst hn
    match s with
    | [] => unfold lexSigned; rfl
    | c :: cs =>
      by_cases h : ∃ r, c = '-' ∧ cs = ' ' :: '+' :: r
      · obtain ⟨r, rfl, rfl⟩ := h
        rw [flukaSigns_signed]
        unfold lexFlukaGo lexSigned
        simp only [isSpace]
        unfold lexFlukaGo
        simp [isSpace, signOk_flukaSigns, ih r.length (by simp; omega) [] r rfl, pending]
        split <;> split <;> simp [Function.comp_def]
      · rw [flukaSigns_other c cs h]
        unfold lexFlukaGo lexSigned
        rw [signOk_flukaSigns, ih cs.length (by simp) [] cs rfl, ih cs.length (by simp) (acc ++ [c]) cs rfl]
        by_cases hc : c = '-'
        · subst hc
          have hm : ∀ r, cs ≠ ' ' :: '+' :: r := fun r e => h ⟨r, rfl, e⟩
          simp only [isSpace]
        · simp only [if_neg hc]

theorem squeezePairs_cons_ne {c : Char} (h : c ≠ ' ') (s : Str) : squeezePairs ' ' (c :: s) = c :: squeezePairs ' ' s := by
  match s with
  | [] => rfl
  | b :: s => rw [squeezePairs.eq_3, if_neg (fun e => h e.1)]

theorem squeezePairs_blank_ne {c : Char} (h : c ≠ ' ') (s : Str) : squeezePairs ' ' (' ' :: c :: s) = ' ' :: squeezePairs ' ' (c :: s) := by
  rw [squeezePairs.eq_3, if_neg (fun e => h e.2)]

theorem signOk_squeezePairs {s : Str} (h : signOk s = true) : signOk (squeezePairs ' ' s) = true := by
  match s with
  | [] => exact h
  | c :: s =>
    have : c ≠ ' ' := by rintro rfl; simp [signOk] at h
    rw [squeezePairs_cons_ne this]
    exact h

theorem lexSigned_squeeze (acc s : Str) (out : List (Sym Str)) (h : lexSigned acc s = some out) : lexSigned acc (squeezePairs ' ' s) = some out := by
  induction hn : s.length using Nat.strong_induction_on generalizing acc s out with
  | _ n ih =>
    subst hn
    match s with
    | [] => exact h
    | c :: cs =>
      by_cases hb : c = ' '
      · subst hb
        unfold lexSigned at h
        simp only [show isSpace ' ' = true from rfl, if_true, Option.map_eq_some_iff] at h
        obtain ⟨o, ho, rfl⟩ := h
        by_cases h2 : ∃ r, cs = ' ' :: r
        · obtain ⟨r, rfl⟩ := h2
          rw [squeezePairs.eq_3, if_pos ⟨rfl, rfl⟩]
          unfold lexSigned at ho ⊢
          simp only [show isSpace ' ' = true from rfl, if_true, Option.map_eq_some_iff] at ho ⊢
          obtain ⟨o', ho', rfl⟩ := ho
          exact ⟨o', ih _ (by simp; omega) [] r o' ho' rfl, by simp [pending]⟩
        · have e : squeezePairs ' ' (' ' :: cs) = ' ' :: squeezePairs ' ' cs := by
            match cs with
            | [] => rfl
            | b :: s => exact squeezePairs_blank_ne (fun e => h2 ⟨s, by rw [e]⟩) s
          rw [e]
          unfold lexSigned
          simp only [show isSpace ' ' = true from rfl, if_true, Option.map_eq_some_iff]
          exact ⟨o, ih _ (by simp) [] cs o ho rfl, rfl⟩
      · rw [squeezePairs_cons_ne hb]
        have step : ∀ (f : List (Sym Str) → List (Sym Str)), (lexSigned [] cs).map f = some out → (lexSigned [] (squeezePairs ' ' cs)).map f = some out := by
          intro f hf
          obtain ⟨o, ho, rfl⟩ := Option.map_eq_some_iff.1 hf
          rw [ih _ (by simp) [] cs o ho rfl]
          rfl
        unfold lexSigned at h ⊢
        by_cases h1 : isSpace c = true
        · rw [if_pos h1] at h ⊢; exact step _ h
        rw [if_neg h1] at h ⊢
        by_cases h2 : c = '('
        · rw [if_pos h2] at h ⊢; exact step _ h
        rw [if_neg h2] at h ⊢
        by_cases h3 : c = ')'
        · rw [if_pos h3] at h ⊢; exact step _ h
        rw [if_neg h3] at h ⊢
        by_cases h4 : c = '|'
        · rw [if_pos h4] at h ⊢; exact step _ h
        rw [if_neg h4] at h ⊢
        by_cases h5 : c = '+'
        · rw [if_pos h5] at h ⊢
          by_cases hs : signOk cs = true
          · rw [if_pos hs] at h
            rw [if_pos (signOk_squeezePairs hs)]
            exact step _ h
          · rw [if_neg hs] at h; cases h
        rw [if_neg h5] at h ⊢
        by_cases h6 : c = '-'
        · rw [if_pos h6] at h ⊢
          by_cases hr : ∃ r, cs = ' ' :: '+' :: r
          · obtain ⟨r, rfl⟩ := hr
            rw [squeezePairs_blank_ne (by decide), squeezePairs_cons_ne (by decide)]
            simp only at h ⊢
            by_cases hs : signOk r = true
            · rw [if_pos hs] at h
              rw [if_pos (signOk_squeezePairs hs)]
              obtain ⟨o, ho, rfl⟩ := Option.map_eq_some_iff.1 h
              rw [ih _ (by simp; omega) [] r o ho rfl]
              rfl
            · rw [if_neg hs] at h; cases h
          · split at h
            · exact absurd ⟨_, rfl⟩ hr
            · by_cases hs : signOk cs = true
              · rw [if_pos hs] at h
                have hs' := signOk_squeezePairs hs
                split
                · rename_i e; rw [e] at hs'; revert hs'; simp [signOk]
                · rw [if_pos hs']; exact step _ h
              · rw [if_neg hs] at h; cases h
        rw [if_neg h6] at h ⊢
        exact ih _ (by simp) _ cs out h rfl

/-- Every complement sign stands directly before an opening parenthesis. -/
def Spec.NotsOpen (is : List Item) : Prop := ∀ a b, is = a ++ .op .not :: b → b.head? = some (.str c!"(")

/-- The FLUKA literal of a surface word: the body of the surface, whose inside is the negative side. -/
def Spec.flukaLiteral (w : Str) : List (Sym Str) :=
  match parseInt w with
  | some z => if z < 0 then [.atom ('S' :: natStr z.natAbs)] else [.no, .atom ('S' :: natStr z.natAbs)]
  | none => []

theorem notsOpen_tail {i : Item} {is : List Item} (h : NotsOpen (i :: is)) : NotsOpen is := fun a b e => h (i :: a) b (by rw [e]; rfl)

theorem lexSigned_plain {w : Str} (hw : ∀ c ∈ w, isDigit c = true) (acc rest : Str) : lexSigned acc (w ++ rest) = lexSigned (acc ++ w) rest := by
  induction w generalizing acc with
  | nil => simp
  | cons c w ih =>
    have hc : c ∈ c!"0123456789-" := by
      have := digitOrMinus (Or.inl (hw c (by simp)))
      simp; tauto
    have key : ∀ c ∈ c!"0123456789-", c ≠ '-' → isSpace c = false ∧ c ≠ '(' ∧ c ≠ ')' ∧ c ≠ '|' ∧ c ≠ '+' := by decide
    have hm : c ≠ '-' := by rintro rfl; have := hw '-' (by simp); revert this; decide
    obtain ⟨k1, k2, k3, k4, k5⟩ := key c hc hm
    have := ih (fun c hc => hw c (by simp [hc])) (acc ++ [c])
    rw [List.cons_append]
    conv_lhs => unfold lexSigned
    rw [if_neg (by simp [k1]), if_neg k2, if_neg k3, if_neg k4, if_neg k5, if_neg hm, this]
    simp

theorem lexSigned_body (n : Nat) (rest : Str) : lexSigned [] ('S' :: (natStr n ++ rest)) = lexSigned ('S' :: natStr n) rest := by
  conv_lhs => unfold lexSigned
  rw [if_neg (by decide), if_neg (by decide), if_neg (by decide), if_neg (by decide), if_neg (by decide), if_neg (by decide)]
  exact lexSigned_plain (natStr_digits n) [ 'S' ] rest

theorem lexSigned_space (acc rest : Str) : lexSigned acc (' ' :: rest) = (lexSigned [] rest).map (pending acc ++ ·) := by
  conv_lhs => unfold lexSigned
  rfl

theorem lexSigned_lp (acc rest : Str) : lexSigned acc ('(' :: rest) = (lexSigned [] rest).map (pending acc ++ .lp :: ·) := by
  conv_lhs => unfold lexSigned
  rfl

theorem lexSigned_rp (acc rest : Str) : lexSigned acc (')' :: rest) = (lexSigned [] rest).map (pending acc ++ .rp :: ·) := by
  conv_lhs => unfold lexSigned
  rfl

theorem lexSigned_bar (acc rest : Str) : lexSigned acc ('|' :: rest) = (lexSigned [] rest).map (pending acc ++ .un :: ·) := by
  conv_lhs => unfold lexSigned
  rfl

theorem lexSigned_plus (acc rest : Str) : lexSigned acc ('+' :: rest) = if signOk rest then (lexSigned [] rest).map (pending acc ++ ·) else none := by
  conv_lhs => unfold lexSigned
  rfl

theorem lexSigned_minus_plus (acc rest : Str) : lexSigned acc ('-' :: ' ' :: '+' :: rest) =
    if signOk rest then (lexSigned [] rest).map (pending acc ++ .no :: ·) else none := by
  conv_lhs => unfold lexSigned
  rfl

theorem lexSigned_minus (acc rest : Str) : lexSigned acc ('-' :: 'S' :: rest) = (lexSigned [] ('S' :: rest)).map (pending acc ++ .no :: ·) := by
  conv_lhs => unfold lexSigned
  rfl

theorem fluka_items_lex (is : List Item) (hn : NotsOpen is) (hw : ∀ s, .str s ∈ is → ¬ IsParen s → ∃ z, z ≠ 0 ∧ pyInt s = .ok z) :
    ∃ ws, is.mapM flukaItem = .ok ws ∧ ∀ (tail : Str) (T : List (Sym Str)), (∀ acc, lexSigned acc tail = some (pending acc ++ T)) →
      ∀ acc, lexSigned acc (ws.flatten ++ tail) = some (pending acc ++ (substSyms flukaLiteral (itemSyms is) ++ T)) := by
  induction hl : is.length using Nat.strong_induction_on generalizing is with
  | _ n ih =>
    subst hl
    match is with
    | [] => exact ⟨[], rfl, fun tail T ht acc => by simpa [itemSyms, substSyms] using ht acc⟩
    | i :: is =>
      obtain ⟨ws, h1, h2⟩ := ih is.length (by simp) is (notsOpen_tail hn) (fun s hs => hw s (by simp [hs])) rfl
      have mk : ∀ w, flukaItem i = .ok w → (i :: is).mapM flukaItem = .ok (w :: ws) := by
        intro w h
        rw [List.mapM_cons, h, h1]; rfl
      cases i with
      | op o =>
        cases o with
        | and =>
          refine ⟨_, mk _ rfl, fun tail T ht acc => ?_⟩
          have := h2 tail T ht []
          show lexSigned acc (' ' :: ' ' :: (ws.flatten ++ tail)) = _
          rw [lexSigned_space, lexSigned_space, this]
          simp [itemSyms, pending]
        | union =>
          refine ⟨_, mk _ rfl, fun tail T ht acc => ?_⟩
          have := h2 tail T ht []
          show lexSigned acc (' ' :: '|' :: ' ' :: (ws.flatten ++ tail)) = _
          rw [lexSigned_space, lexSigned_bar, lexSigned_space, this]
          simp [itemSyms, substSyms, pending]
        | not =>
          have h3 := hn [] is rfl
          obtain ⟨r, rfl⟩ : ∃ r, is = .str c!"(" :: r := by
            cases is with
            | nil => simp at h3
            | cons j r => simp at h3; exact ⟨r, by rw [h3]⟩
          obtain ⟨vs, g1, g2⟩ := ih r.length (by simp; omega) r (notsOpen_tail (notsOpen_tail hn)) (fun s hs => hw s (by simp [hs])) rfl
          refine ⟨c!" -" :: c!" +( " :: vs, by rw [List.mapM_cons, List.mapM_cons, g1]; simp [flukaItem, bind, Except.bind, pure, Except.pure], fun tail T ht acc => ?_⟩
          have := g2 tail T ht []
          show lexSigned acc (' ' :: '-' :: ' ' :: '+' :: '(' :: ' ' :: (vs.flatten ++ tail)) = _
          rw [lexSigned_space, lexSigned_minus_plus, if_pos (show signOk ('(' :: _) = true from rfl), lexSigned_lp, lexSigned_space, this]
          simp [itemSyms, substSyms, pending]
      | str s =>
        by_cases hp : IsParen s
        · rcases hp with rfl | rfl
          · refine ⟨_, mk _ rfl, fun tail T ht acc => ?_⟩
            have := h2 tail T ht []
            show lexSigned acc (' ' :: '+' :: '(' :: ' ' :: (ws.flatten ++ tail)) = _
            rw [lexSigned_space, lexSigned_plus, if_pos (show signOk ('(' :: _) = true from rfl), lexSigned_lp, lexSigned_space, this]
            simp [itemSyms, substSyms, pending]
          · refine ⟨_, mk _ rfl, fun tail T ht acc => ?_⟩
            have := h2 tail T ht []
            show lexSigned acc (' ' :: ')' :: ' ' :: (ws.flatten ++ tail)) = _
            rw [lexSigned_space, lexSigned_rp, lexSigned_space, this]
            simp [itemSyms, substSyms, pending]
        · obtain ⟨z, hz, hzs⟩ := hw s (by simp) hp
          have hparse := pyInt_ok.1 hzs
          have hsyms : substSyms flukaLiteral (itemSyms (.str s :: is)) = flukaLiteral s ++ substSyms flukaLiteral (itemSyms is) := by
            have e1 : s ≠ c!"(" := fun h => hp (Or.inl h)
            have e2 : s ≠ c!")" := fun h => hp (Or.inr h)
            simp [itemSyms, e1, e2, substSyms]
          rw [hsyms]
          have hfi : flukaItem (.str s) = (do
              let z ← pyInt s
              if z < 0 then .ok (c!" +S" ++ natStr z.natAbs)
              else if 0 < z then .ok (c!" -S" ++ intStr z)
              else .ok s) := by
            show (if s = c!"(" then _ else if s = c!")" then _ else _) = _
            rw [if_neg fun h => hp (Or.inl h), if_neg fun h => hp (Or.inr h)]
          rw [hzs] at hfi
          by_cases hneg : z < 0
          · have : flukaItem (.str s) = .ok (c!" +S" ++ natStr z.natAbs) := by rw [hfi]; exact if_pos hneg
            refine ⟨_, mk _ this, fun tail T ht acc => ?_⟩
            have h := h2 tail T ht ('S' :: natStr z.natAbs)
            rw [List.flatten_cons, List.append_assoc]
            show lexSigned acc (' ' :: '+' :: 'S' :: (natStr z.natAbs ++ (ws.flatten ++ tail))) = _
            rw [lexSigned_space, lexSigned_plus, if_pos (show signOk ('S' :: _) = true from rfl), lexSigned_body, h]
            simp [pending, flukaLiteral, hparse, hneg]
          · have hpos : 0 < z := by omega
            have : flukaItem (.str s) = .ok (c!" -S" ++ intStr z) := by rw [hfi]; exact (if_neg hneg).trans (if_pos hpos)
            refine ⟨_, mk _ this, fun tail T ht acc => ?_⟩
            have h := h2 tail T ht ('S' :: natStr z.natAbs)
            rw [List.flatten_cons, List.append_assoc, intStr_of_pos hpos]
            show lexSigned acc (' ' :: '-' :: 'S' :: (natStr z.natAbs ++ (ws.flatten ++ tail))) = _
            rw [lexSigned_space, lexSigned_minus, lexSigned_body, h]
            simp [pending, flukaLiteral, hparse, hneg]

theorem atom_of_itemSyms {a : Str} {is : List Item} (h : Sym.atom a ∈ itemSyms is) : .str a ∈ is ∧ ¬ IsParen a := by
  induction is with
  | nil => simp [itemSyms] at h
  | cons i is ih =>
    cases i with
    | op o => cases o <;> simp [itemSyms] at h <;> exact ⟨List.mem_cons_of_mem _ (ih h).1, (ih h).2⟩
    | str s =>
      rw [itemSyms, List.mem_cons] at h
      rcases h with h | h
      · by_cases h1 : s = c!"("
        · rw [if_pos h1] at h; cases h
        · rw [if_neg h1] at h
          by_cases h2 : s = c!")"
          · rw [if_pos h2] at h; cases h
          · rw [if_neg h2] at h
            cases h
            exact ⟨by simp, fun hp => hp.elim h1 h2⟩
      · exact ⟨List.mem_cons_of_mem _ (ih h).1, (ih h).2⟩

/-! ## The heading -/

theorem squeezePairs_word {w : Str} (hw : ' ' ∉ w) {d : Char} (hd : d ≠ ' ') (s : Str) :
    squeezePairs ' ' (w ++ ' ' :: d :: s) = w ++ ' ' :: squeezePairs ' ' (d :: s) := by
  induction w with
  | nil => exact squeezePairs_blank_ne hd s
  | cons c w ih =>
    simp only [List.mem_cons, not_or] at hw
    rw [List.cons_append, squeezePairs_cons_ne (fun h => hw.1 h.symm), ih hw.2]
    rfl

theorem flukaSigns_word {w : Str} (hw : ' ' ∉ w) {d : Char} (hd : d ≠ '+') (s : Str) :
    flukaSigns (w ++ ' ' :: d :: s) = w ++ ' ' :: flukaSigns (d :: s) := by
  induction w with
  | nil => exact flukaSigns_other ' ' (d :: s) (by rintro ⟨r, h, -⟩; revert h; decide)
  | cons c w ih =>
    simp only [List.mem_cons, not_or] at hw
    rw [List.cons_append, flukaSigns_other, ih hw.2]
    · rfl
    · rintro ⟨r, rfl, h⟩
      cases w with
      | nil =>
        rw [List.nil_append, List.cons.injEq, List.cons.injEq] at h
        exact hd h.2.1
      | cons x w =>
        rw [List.cons_append, List.cons.injEq] at h
        exact hw.2 (by simp [h.1])

/-! ## Where the signs come from -/

theorem notsOpen_append {a b : List Item} (ha : NotsOpen a) (hb : NotsOpen b) : NotsOpen (a ++ b) := by
  intro p r e
  rcases List.append_eq_append_iff.1 e with ⟨c, h1, h2⟩ | ⟨c, h1, h2⟩
  · exact hb c r h2
  · cases c with
    | nil => exact hb [] r h2.symm
    | cons x c =>
      rw [List.cons_append, List.cons.injEq] at h2
      obtain ⟨rfl, rfl⟩ := h2
      have := ha p c h1
      cases c with
      | nil => simp at this
      | cons y c => simpa using this

theorem notsOpen_cons {i : Item} {is : List Item} (hi : i ≠ .op .not) (h : NotsOpen is) : NotsOpen (i :: is) := by
  intro p r e
  cases p with
  | nil => rw [List.nil_append, List.cons.injEq] at e; exact absurd e.1 hi
  | cons x p => rw [List.cons_append, List.cons.injEq] at e; exact h p r e.2

theorem generaliseGo_notsOpen (toks : List Str) : ∀ (prev : Item) (is : List Item) (ns : List Int), generaliseGo prev toks = .ok (is, ns) →
    (∀ a b, toks = a ++ c!"#" :: b → b.head? = some c!"(") → NotsOpen is ∧ (toks.head? = some c!"(" → is.head? = some (.str c!"(")) := by
  induction toks with
  | nil => intro prev is ns h; cases h
  | cons s rest ih =>
    intro prev is ns h hd
    have hd' : ∀ a b, rest = a ++ c!"#" :: b → b.head? = some c!"(" := fun a b e => hd (s :: a) b (by rw [e]; rfl)
    unfold generaliseGo at h
    by_cases h1 : s = c!":"
    · rw [if_pos h1] at h
      obtain ⟨⟨is', ns'⟩, h', h⟩ := bind_ok h
      cases h
      refine ⟨notsOpen_cons (by simp) (ih _ _ _ h' hd').1, fun e => ?_⟩
      simp [h1] at e
    · rw [if_neg h1] at h
      by_cases h2 : s = c!"#"
      · rw [if_pos h2] at h
        obtain ⟨⟨is', ns'⟩, h', h⟩ := bind_ok h
        cases h
        obtain ⟨g1, g2⟩ := ih _ _ _ h' hd'
        have g3 := g2 (hd [] rest (by rw [h2]; rfl))
        refine ⟨?_, fun e => by simp [h2] at e⟩
        intro p r e
        cases p with
        | nil => rw [List.nil_append, List.cons.injEq] at e; rw [← e.2]; exact g3
        | cons x p => rw [List.cons_append, List.cons.injEq] at e; exact g1 p r e.2
      · rw [if_neg h2] at h
        by_cases h3 : s = c!"("
        · rw [if_pos h3] at h
          obtain ⟨⟨is', ns'⟩, h', h⟩ := bind_ok h
          cases h
          exact ⟨notsOpen_cons (by simp) (ih _ _ _ h' hd').1, fun _ => by simp [h3]⟩
        · rw [if_neg h3] at h
          have key : ∀ put : List Item × List Int, (put.1 = [.op .and, .str s] ∨ put.1 = [.str s]) →
              (if rest = [] then (.ok put : Py (List Item × List Int))
                else do
                  let (is, ns) ← generaliseGo (.str s) rest
                  .ok (put.1 ++ is, put.2 ++ ns)) = .ok (is, ns) → NotsOpen is := by
            intro put hput hh
            have hno : ∀ js, NotsOpen js → NotsOpen (put.1 ++ js) := by
              intro js hj
              rcases hput with e | e <;> rw [e]
              · exact notsOpen_cons (by simp) (notsOpen_cons (by simp) hj)
              · exact notsOpen_cons (by simp) hj
            by_cases hr : rest = []
            · rw [if_pos hr] at hh
              cases hh
              have := hno [] (by intro a b e; cases a <;> simp at e)
              simpa using this
            · rw [if_neg hr] at hh
              obtain ⟨⟨is', ns'⟩, h', hh⟩ := bind_ok hh
              cases hh
              exact hno _ (ih _ _ _ h' hd').1
          refine ⟨key _ ?_ h, fun e => by simp at e; exact absurd e h3⟩
          split
          · exact Or.inl rfl
          · exact Or.inr rfl

theorem splitNots_notsOpen {K : Type} {cells : List (Cell K)} {is is' : List Item} (h : splitNots cells is = .ok is') (hs : NotsOpen is)
    (hc : ∀ c ∈ cells, NotsOpen c.interpreted) : NotsOpen is' := by
  unfold splitNots at h
  split at h
  · cases h; exact hs
  · rename_i a s b hf
    obtain ⟨e, hm⟩ := findHash_eq hf
    split at h
    · cases h; exact hs
    · split at h
      · cases h
      · rename_i d hd
        cases h
        have hb : NotsOpen b := fun p r e' => hs (a ++ .str s :: p) r (by rw [e, e']; simp)
        have ha : NotsOpen a := by
          intro p r e'
          have := hs p (r ++ .str s :: b) (by rw [e, e']; simp)
          cases r with
          | nil =>
            simp at this
            subst this
            revert hm
            decide
          | cons x r => simpa using this
        have hd' := hc d (List.mem_of_find?_eq_some hd)
        have h1 : NotsOpen (.str c!"(" :: d.interpreted ++ [.str c!")"]) := notsOpen_cons (by simp)
          (notsOpen_append hd' (notsOpen_cons (by simp) (by intro a b e; cases a <;> simp at e)))
        have h2 : NotsOpen (.op .not :: .str c!"(" :: d.interpreted ++ [.str c!")"]) := by
          intro p r e
          cases p with
          | nil =>
            simp only [List.cons_append, List.nil_append, List.cons.injEq] at e
            rw [← e.2]; rfl
          | cons x p =>
            simp only [List.cons_append, List.cons.injEq] at e
            exact h1 p r (by rw [← e.2]; rfl)
        exact notsOpen_append (notsOpen_append ha h2) hb

theorem notsOpen_sameKind {is js : List Item} (h : List.Forall₂ SameKind is js) (hs : NotsOpen is) : NotsOpen js := by
  induction h with
  | nil => exact hs
  | @cons i j is js hij ht ih =>
    intro p r e
    cases p with
    | nil =>
      rw [List.nil_append, List.cons.injEq] at e
      obtain ⟨rfl, rfl⟩ := e
      rcases hij with rfl | ⟨s, t, -, h, -⟩
      · have := hs [] is rfl
        cases ht with
        | nil => simp at this
        | @cons x y xs ys hxy _ =>
          simp at this
          subst this
          rcases hxy with rfl | ⟨s, t, h, -, hp, -⟩
          · rfl
          · cases h; exact absurd (Or.inl rfl) hp
      · cases h
    | cons x p =>
      rw [List.cons_append, List.cons.injEq] at e
      exact ih (notsOpen_tail hs) p r e.2

end Csg
