import Verif.Lemmas.Nested

/-!
# C98: the material at a point of nested universes

For each code with universes: going down the universes of the written file from the root leads to the cell of the input file to which the rules of MCNP lead, with the same material and density.
-/

set_option linter.unusedSectionVars false

namespace Csg

open Spec

section
variable {K : Type} [Field K] [LinearOrder K] [IsStrictOrderedRing K]

private theorem forall₂_map_right {α β γ : Type} {R : α → γ → Prop} {f : β → γ} {l : List α} {l' : List β} (h : List.Forall₂ R l (l'.map f)) : List.Forall₂ (fun a b => R a (f b)) l l' := by
  induction l' generalizing l with
  | nil => cases h; exact .nil
  | cons b l' ih => cases h with | cons h1 h2 => exact .cons h1 (ih h2)

theorem still_moves {io : NumIO K} {d : Deck K} {c : Cell K} (h1 : c.trId = c!"0") (h2 : c.offset = none) (h3 : c.rotation = none) {p q : Point K} : DeckMoves io d c p q ↔ q = p := by
  have e : pullback (K := K) { shift := ⟨0, 0, 0⟩, v1 := ⟨1, 0, 0⟩, v2 := ⟨0, 1, 0⟩, v3 := ⟨0, 0, 1⟩ } p = p := by
    simp [pullback]
  unfold DeckMoves deckTransform fillTransform
  rw [if_pos h1, h2, h3]
  constructor
  · rintro ⟨t, ht, rfl⟩
    cases ht
    exact e
  · rintro rfl
    exact ⟨_, rfl, e.symm⟩

/-- The card for the transform of a filled cell. -/
private def transCards (offs rots : Cell K → List Str) (c : Cell K) : List (List Str) :=
  if c.fill = none ∨ (c.offset = none ∧ c.rotation = none) then []
  else [[c!"trans", c!"f", intStr c.id] ++ (if c.offset = none then [c!"0", c!"0", c!"0"] else offs c) ++
    (if c.rotation = none then [c!"1", c!"0", c!"0", c!"0", c!"1", c!"0", c!"0", c!"0", c!"1"] else rots c) ++ [c!"1"]]

private theorem trans_filter {offs rots : Cell K → List Str} {c : Cell K} {n : Str} :
    (transCards offs rots c).filter (fun t => decide (t.take 3 = [c!"trans", c!"f", n])) = if intStr c.id = n then transCards offs rots c else [] := by
  unfold transCards
  split
  · simp
  · by_cases h : intStr c.id = n
    · rw [if_pos h, List.filter_cons_of_pos (by simp [h])]
      rfl
    · rw [if_neg h, List.filter_cons_of_neg (by simp [h])]
      rfl

/-- The cell cards of a Serpent file: universe and fill, and the transforms. -/
private theorem serpent_universes {cells : List (Cell K)} {offs rots : Cell K → List Str} {scs mcs : List (List Str)} {ccs : List (List (List Str))}
    (hs : ∀ c ∈ scs, c.head? = some c!"surf") (hm : ∀ c ∈ mcs, c.head? = some c!"mat") (hc : List.Forall₂ (fun c => SerpentCellSays c (offs c) (rots c)) cells ccs)
    (hn : ∀ c ∈ cells, c.material.text ∉ [c!"fill", c!"void", c!"outside"]) (hid : (cells.map Cell.id).Nodup) :
    List.Forall₂ (fun c card => card[1]? = some (intStr c.id) ∧ card[2]? = some (c.uni.getD c!"0") ∧ serpentFill card = c.fill) cells (serpentCells (scs ++ ccs.flatten ++ mcs)) ∧
      ∀ c ∈ cells, (scs ++ ccs.flatten ++ mcs).filter (fun t => decide (t.take 3 = [c!"trans", c!"f", intStr c.id])) = transCards offs rots c := by
  have f1 : scs.filter (fun c => decide (c.head? = some c!"cell")) = [] := List.filter_eq_nil_iff.2 fun c hc => by simp [hs c hc]
  have f2 : mcs.filter (fun c => decide (c.head? = some c!"cell")) = [] := List.filter_eq_nil_iff.2 fun c hc => by simp [hm c hc]
  have nope : ∀ w : Str, w ≠ c!"trans" → ∀ l : List (List Str), (∀ c ∈ l, c.head? = some w) → ∀ n, l.filter (fun t => decide (t.take 3 = [c!"trans", c!"f", n])) = [] := by
    intro w hw l hl n
    refine List.filter_eq_nil_iff.2 fun c hc h3 => ?_
    have h1 := hl c hc
    cases c with
    | nil => simp at h1
    | cons v c =>
      simp only [List.head?_cons, Option.some.injEq] at h1
      subst h1
      simp at h3
      exact hw h3.1
  have key : List.Forall₂ (fun c card => card[1]? = some (intStr c.id) ∧ card[2]? = some (c.uni.getD c!"0") ∧ serpentFill card = c.fill) cells (ccs.flatten.filter fun c => decide (c.head? = some c!"cell")) ∧
      ∀ n, ccs.flatten.filter (fun t => decide (t.take 3 = [c!"trans", c!"f", n])) = cells.flatMap fun c => if intStr c.id = n then transCards offs rots c else [] := by
    clear hid
    induction hc with
    | nil => exact ⟨.nil, by simp⟩
    | cons k _ ih =>
      rename_i c cs cells ccs _
      obtain ⟨i1, i2⟩ := ih (fun c hc => hn c (List.mem_cons_of_mem _ hc))
      obtain ⟨g, trans, rfl, -, ht⟩ := k
      have ht : trans = transCards offs rots c := ht
      have hnot : trans.filter (fun c => decide (c.head? = some c!"cell")) = [] := by
        rw [ht]
        unfold transCards
        split
        · rfl
        · simp
      refine ⟨?_, fun n => ?_⟩
      · rw [List.flatten_cons, List.filter_append, List.filter_cons_of_pos (by simp), hnot]
        refine .cons ⟨rfl, rfl, ?_⟩ i1
        have h0 := hn c (List.mem_cons_self ..)
        unfold serpentFill serpentContent
        cases c.fill with
        | some f => simp
        | none =>
          by_cases h1 : c.material = .int 0
          · simp [h1]
          · simp only [List.mem_cons, List.not_mem_nil, or_false, not_or] at h0
            simp [h1, h0.1]
      · rw [List.flatten_cons, List.filter_append, List.filter_cons_of_neg (by simp), i2 n, ht, trans_filter, List.flatMap_cons]
  refine ⟨?_, fun c hcm => ?_⟩
  · unfold serpentCells
    rw [List.filter_append, List.filter_append, f1, f2]
    simpa using key.1
  · rw [List.filter_append, List.filter_append, nope c!"surf" (by decide) scs hs, nope c!"mat" (by decide) mcs hm, key.2, List.nil_append, List.append_nil]
    clear key hn hc
    induction cells with
    | nil => cases hcm
    | cons a cells ih =>
      rw [List.map_cons, List.nodup_cons] at hid
      rw [List.flatMap_cons]
      rcases List.mem_cons.1 hcm with rfl | hcm
      · rw [if_pos rfl, List.flatMap_eq_nil_iff.2 fun b hb => ?_, List.append_nil]
        rw [if_neg fun e => hid.1 ?_]
        rw [← intStr_injective e]
        exact List.mem_map_of_mem hb
      · rw [if_neg fun e => hid.1 ?_, List.nil_append, ih hid.2 hcm]
        rw [intStr_injective e]
        exact List.mem_map_of_mem hcm

private theorem float_value {io : NumIO K} {e : Entry K} {x : K} (h : e.float io = .ok x) : entryValue io e = some x := by
  cases e with
  | num y =>
    rw [Entry.float] at h
    cases h
    rfl
  | txt w =>
    rw [Entry.float, NumIO.float] at h
    rw [entryValue]
    cases hw : io.parse w with
    | none => rw [hw] at h; cases h
    | some y => rw [hw] at h; cases h; rfl

private def offsetValues (io : NumIO K) (c : Cell K) : Option (List K) := match c.offset with | none => some [0, 0, 0] | some l => l.mapM (entryValue io)

private def rotationValues (io : NumIO K) (c : Cell K) : Option (List K) := match c.rotation with | none => some noRotation | some l => l.mapM (entryValue io)

private theorem fillTransform_values {io : NumIO K} {c : Cell K} : fillTransform io c = (offsetValues io c).bind fun o => (rotationValues io c).bind fun r => transformOf o r := rfl

/-- A transform that only displaces. -/
private theorem pure_shift {t : Transform K} {x y z : K} (h : ∀ p : Point K, pullback t p = ⟨p.x - x, p.y - y, p.z - z⟩) :
    t = { shift := ⟨x, y, z⟩, v1 := ⟨1, 0, 0⟩, v2 := ⟨0, 1, 0⟩, v3 := ⟨0, 0, 1⟩ } := by
  obtain ⟨⟨s1, s2, s3⟩, ⟨a1, a2, a3⟩, ⟨b1, b2, b3⟩, ⟨c1, c2, c3⟩⟩ := t
  have h0 := h ⟨s1, s2, s3⟩
  have h1 := h ⟨s1 + 1, s2, s3⟩
  have h2 := h ⟨s1, s2 + 1, s3⟩
  have h3 := h ⟨s1, s2, s3 + 1⟩
  simp only [pullback, sub_self, mul_zero, add_zero, Point.mk.injEq, add_sub_cancel_left, mul_one, zero_add] at h0 h1 h2 h3
  obtain ⟨h01, h02, h03⟩ := h0
  obtain ⟨h11, h12, h13⟩ := h1
  obtain ⟨h21, h22, h23⟩ := h2
  obtain ⟨h31, h32, h33⟩ := h3
  have e1 : s1 = x := by linear_combination -h01
  have e2 : s2 = y := by linear_combination -h02
  have e3 : s3 = z := by linear_combination -h03
  subst e1 e2 e3
  rw [h11, h12, h13, h21, h22, h23, h31, h32, h33, sub_self, sub_self, sub_self, add_sub_cancel_left, add_sub_cancel_left, add_sub_cancel_left]

/-- The values of the words on the transform card. -/
private theorem trans_values {io : NumIO K} (hio : Exact io) (hone : io.parse c!"1" = some 1) {c : Cell K} {offs rots : List Str} (hp : WritableParams io c offs rots) {t : Transform K} (ht : fillTransform io c = some t) :
    ∃ o r, (if c.offset = none then [c!"0", c!"0", c!"0"] else offs).mapM io.parse = some o ∧
      (if c.rotation = none then [c!"1", c!"0", c!"0", c!"0", c!"1", c!"0", c!"0", c!"0", c!"1"] else rots).mapM io.parse = some r ∧ transformOf o r = some t ∧
      (if c.offset = none then [c!"0", c!"0", c!"0"] else offs).length = 3 ∧ (if c.rotation = none then [c!"1", c!"0", c!"0", c!"0", c!"1", c!"0", c!"0", c!"0", c!"1"] else rots).length = 9 := by
  rw [fillTransform_values] at ht
  obtain ⟨o, ho, ht⟩ := Option.bind_eq_some_iff.1 ht
  obtain ⟨r, hr, ht⟩ := Option.bind_eq_some_iff.1 ht
  have key : ∀ {l : List (Entry K)} {ws : List Str} {v : List K}, List.Forall₂ (fun e w => entryValue io e = io.parse w) l ws → l.mapM (entryValue io) = some v → ws.mapM io.parse = some v := by
    intro l ws v h hl
    induction h generalizing v with
    | nil => exact hl
    | cons k _ ih =>
      rw [List.mapM_cons] at hl ⊢
      rw [k] at hl
      obtain ⟨x, hx, hl⟩ := Option.bind_eq_some_iff.1 hl
      obtain ⟨xs, hxs, hl⟩ := Option.bind_eq_some_iff.1 hl
      rw [hx]
      exact Option.bind_eq_some_iff.2 ⟨x, rfl, Option.bind_eq_some_iff.2 ⟨xs, ih hxs, hl⟩⟩
  refine ⟨o, r, ?_, ?_, ht, ?_, ?_⟩
  · unfold offsetValues at ho
    cases hoff : c.offset with
    | none =>
      rw [hoff] at ho
      cases ho
      simp [hio.zero]
    | some l =>
      rw [hoff] at ho
      rw [if_neg (by simp)]
      refine key (forall₂_imp (fun e w k => ?_) (hp.offset l hoff).2) ho
      rcases k.2 with rfl | ⟨x, rfl, rfl⟩
      · rfl
      · exact (hio.reads x).symm
  · unfold rotationValues at hr
    cases hrot : c.rotation with
    | none =>
      rw [hrot] at hr
      cases hr
      simp [hio.zero, hone, noRotation]
    | some l =>
      rw [hrot] at hr
      rw [if_neg (by simp)]
      refine key (forall₂_imp (fun e w k => ?_) (hp.rotation l hrot).2) hr
      obtain ⟨x, -, rfl, rfl | ⟨t, rfl, k⟩⟩ := k
      · exact (hio.reads x).symm
      · exact k.trans (hio.reads x).symm
  · cases hoff : c.offset with
    | none => simp
    | some l =>
      rw [if_neg (by simp), ← (hp.offset l hoff).2.length_eq, (hp.offset l hoff).1]
  · cases hrot : c.rotation with
    | none => simp
    | some l =>
      rw [if_neg (by simp), ← (hp.rotation l hrot).2.length_eq, (hp.rotation l hrot).1]

/-- Fills that stay in place are not rotated. -/
theorem StillFills.unrotated {io : NumIO K} {d : Deck K} (h : StillFills d) : UnrotatedFills io d := by
  intro c hc hn
  obtain ⟨j1, j2, j3⟩ := h c hc hn
  exact ⟨0, 0, 0, fun p q => by rw [still_moves j1 j2 j3, sub_zero, sub_zero, sub_zero]⟩

/-- **C98** for Serpent. Partial: the conditions of C96; fills are not rotated, and universes are written without leading zeros. -/
theorem C98_serpent_partial (e : Env K) (hio : Exact e.io) (cosDeg : K → K) (quick : Bool) (read : Str → Option K) (approx : K → K) (rank : Int → Nat) (text : Str) (d : Deck K)
    (hsci : ∀ x, FloatText (e.sci x) ∧ e.io.parse (e.sci x) = some (approx x))
    (hr : readDeck e.io cosDeg (readText text) = .ok d) (hd : Convertible e.io e.sqrt rank d) (hc : CardInput e.io d)
    (hk : ∀ s ∈ d.surfaces, IsCone s.type ∨ IsTorus s.type → ∀ x ∈ s.coeffs, Prints read e.fixed x)
    (hs : ShortCells e.io d) (hread : ∀ fuel d', finishDeck fuel e.io cosDeg e.sqrt quick d = some (.ok d') → PrintedSurfaces read e.io d')
    (hu : PlainUniverses d) (hone : e.io.parse c!"1" = some 1) (hrot : UnrotatedFills e.io d) :
    ∃ fuel₀, ∀ fuel ≥ fuel₀, ∃ out cards, Converts { e with fuel := fuel } cosDeg quick text .serpent (.text out) ∧ serpentCards out = ([], cards) ∧
      Agree (DeckFinds e.io e.sqrt d) (SerpentFinds e.io e.sqrt read cards) fun c card => card[1]? = some (intStr c.id) ∧ MadeOf d c (serpentFilling card = some (intStr c.id, c!"void"))
        fun density comp => ∃ name, name ≠ c!"void" ∧ name ≠ c!"outside" ∧ serpentFilling card = some (intStr c.id, name) ∧ SerpentHas e.io approx cards name density comp := by
  obtain ⟨f, d', h⟩ := convertible_finishes (quick := quick) hio hr hd
  have hw := serpent_ready hio hsci hr hd hc hk h (short_out hio hr hd h hs) (hread _ _ h)
  obtain ⟨f1, h1⟩ := C96_serpent_partial e hio cosDeg quick read approx rank text d hsci hr hd hc hk hs hread
  obtain ⟨out, ⟨f2, hout⟩, scs, ccs, mcs, hcards, hsc, hcc, hmc⟩ := C86_file_partial { e with fuel := f } read approx _ _ d'.cells d'.surfaces d'.materials hw
  refine ⟨max f1 (max f2 f), fun fuel hf => ?_⟩
  obtain ⟨out', cards, a1, a2, a3, a4⟩ := h1 fuel (le_trans (le_max_left _ _) hf)
  have b1 : Converts { e with fuel := fuel } cosDeg quick text .serpent (.text out) := by
    refine converts_of (d := d) (d' := d') (e := { e with fuel := fuel }) hr (finishDeck_mono (le_trans (le_trans (le_max_right _ _) (le_max_right _ _)) hf) h) (s := ⟨d'.cells, d'.surfaces, d'.materials, []⟩) ?_
    rw [writeCode, returns_bind]
    exact ⟨out, hout fuel (le_trans (le_trans (le_max_left _ _) (le_max_right _ _)) hf), by rw [returns_pure]⟩
  cases converts_unique a1 b1
  rw [hcards] at a2
  simp only [Prod.mk.injEq, true_and] at a2
  subst a2
  have hp := nested_processed hio hd.proper (.inr hd.sheets) h
  have hid : (d'.cells.map Cell.id).Nodup := by
    rw [forall₂_map_eq (fun _ _ k => k.1) hp]
    exact hd.proper.complements.ids
  obtain ⟨g1, g2⟩ := serpent_universes (fun c hc => by obtain ⟨s, -, kw, ws, ns, rfl, -⟩ := forall₂_right hsc c hc; rfl)
    (fun c hc => by obtain ⟨s, -, d, fs, rfl, -⟩ := forall₂_right hmc c hc; rfl) hcc hw.contents hid
  set cards := scs ++ ccs.flatten ++ mcs with hdef
  have hall := forall₂_both (forall₂_both (forall₂_map_right a3) (forall₂_map_right a4)) (forall₂_trans (T := fun (c : Cell K) card => card[1]? = some (intStr c.id) ∧
    card[2]? = some (c.uni.getD c!"0") ∧ serpentFill card = c.fill ∧ ∃ c' ∈ d'.cells, c'.id = c.id ∧ c'.fill = c.fill ∧ ∀ p q, DeckMoves e.io d c p q ↔ ∃ t, fillTransform e.io c' = some t ∧ q = pullback t p)
    (fun c c' card x y => ⟨by rw [y.2.2.1, x.1], by rw [y.2.2.2.1, x.2.2.1], by rw [y.2.2.2.2, x.2.1], c', y.1, x.1, x.2.1, x.2.2.2.2⟩) hp (forall₂_mem g1))
  refine ⟨out, cards, b1, hcards, agree_imp (agree_text hu hall (fun c card u k => ?_) (fun c card k => k.2.2.2.1) ?_ ?_) fun c card k => ⟨k.2.1, k.1.2⟩⟩
  · rw [k.2.2.1, Option.some.injEq, eq_comm]
  · rintro c hc card p ⟨⟨⟨g, k1, k2⟩, -⟩, -⟩
    constructor
    · exact fun h => ⟨_, g, k1, (k2 p).2 h⟩
    · rintro ⟨name, g', k3, k4⟩
      rw [k1] at k3
      cases k3
      exact (k2 p).1 k4
  · rintro c hc card p q ⟨-, k1, -, -, c', hc', k2, k3, k4⟩ hn
    have hn' : c'.fill ≠ none := by rw [k3]; exact hn
    have hfil := g2 c' hc'
    rw [k2] at hfil
    unfold serpentMoves
    simp only [k1, Option.some.injEq, exists_eq_left']
    rw [hfil]
    obtain ⟨x, y, z, hm⟩ := hrot c hc hn
    obtain ⟨t, ht, -⟩ := (k4 p _).1 ((hm p _).2 rfl)
    have hsh : ∀ p : Point K, pullback t p = ⟨p.x - x, p.y - y, p.z - z⟩ := fun p => (hm p _).1 ((k4 p _).2 ⟨t, ht, rfl⟩)
    have hsh' := pure_shift hsh
    rw [hm p q]
    unfold transCards
    by_cases hno : c'.offset = none ∧ c'.rotation = none
    · rw [if_pos (.inr hno)]
      have : t = { shift := ⟨0, 0, 0⟩, v1 := ⟨1, 0, 0⟩, v2 := ⟨0, 1, 0⟩, v3 := ⟨0, 0, 1⟩ } := by
        unfold fillTransform at ht
        rw [hno.1, hno.2] at ht
        exact (Option.some.inj ht).symm
      rw [hsh'] at this
      simp only [Transform.mk.injEq, Vec3.mk.injEq, and_true] at this
      obtain ⟨rfl, rfl, rfl⟩ := this
      rw [sub_zero, sub_zero, sub_zero]
    · rw [if_neg (by simp [hn', hno])]
      obtain ⟨o, r, v1, v2, v3, l1, l2⟩ := trans_values hio hone (hw.cells c' hc').2 ht
      set O := (if c'.offset = none then [c!"0", c!"0", c!"0"] else _ : List Str)
      set R := (if c'.rotation = none then [c!"1", c!"0", c!"0", c!"0", c!"1", c!"0", c!"0", c!"0", c!"1"] else _ : List Str)
      have w1 : (([c!"trans", c!"f", intStr c'.id] ++ O ++ R ++ [c!"1"]).drop 3).take 3 = O := by
        simp only [List.append_assoc]
        rw [List.drop_append_of_le_length (by simp)]
        simp [l1]
      have w2 : (([c!"trans", c!"f", intStr c'.id] ++ O ++ R ++ [c!"1"]).drop 6).take 9 = R := by
        rw [show [c!"trans", c!"f", intStr c'.id] ++ O ++ R ++ [c!"1"] = ([c!"trans", c!"f", intStr c'.id] ++ O) ++ (R ++ [c!"1"]) by simp, List.drop_append_of_le_length (by simp [l1]),
          List.drop_eq_nil_of_le (by simp [l1]), List.nil_append, List.take_append_of_le_length (by omega), List.take_of_length_le (by omega)]
      simp only
      rw [w1, w2, v1, v2]
      have : o = [x, y, z] ∧ r = noRotation := by
        unfold transformOf at v3
        split at v3
        · rw [hsh'] at v3
          simp only [Option.some.injEq, Transform.mk.injEq, Vec3.mk.injEq] at v3
          obtain ⟨⟨rfl, rfl, rfl⟩, ⟨rfl, rfl, rfl⟩, ⟨rfl, rfl, rfl⟩, rfl, rfl, rfl⟩ := v3
          exact ⟨rfl, rfl⟩
        · cases v3
      obtain ⟨rfl, rfl⟩ := this
      constructor
      · exact fun h => ⟨x, y, z, rfl, rfl, h⟩
      · rintro ⟨x', y', z', e1, -, h⟩
        simp only [Option.some.injEq, List.cons.injEq, and_true] at e1
        obtain ⟨rfl, rfl, rfl⟩ := e1
        exact h

/-- Written and read again a fill has the same transform. -/
theorem same_transform {io : NumIO K} (hio : Exact io) {c r : Cell K} (h : SameCell io c r) (hf : c.fill ≠ none) : fillTransform io r = fillTransform io c := by
  have htext : ∀ x : Entry K, entryValue io (.txt (x.text io)) = entryValue io x := by
    intro x
    cases x with
    | num x => exact hio.reads x
    | txt w => rfl
  have hoff : offsetValues io r = offsetValues io c := by
    unfold offsetValues
    cases ho : c.offset with
    | some l =>
      rw [h.offset hf l ho]
      simp only
      exact mapM_eq_of_map (by simp [htext])
    | none =>
      by_cases hr : c.rotation = none
      · rw [(h.still (.inr ⟨ho, hr⟩)).1]
      · rw [h.unshifted hf ho hr]
        simp [entryValue, hio.zero]
  have hrot : rotationValues io r = rotationValues io c := by
    unfold rotationValues
    cases hr : c.rotation with
    | none => rw [h.unrotated hf hr]
    | some l =>
      obtain ⟨l', e1, e2⟩ := h.rotation hf l hr
      rw [e1]
      simp only
      refine mapM_eq_of_map ?_
      clear e1 hr
      induction e2 with
      | nil => rfl
      | cons k _ ih =>
        obtain ⟨x, k1, k2⟩ := k
        rw [List.map_cons, List.map_cons, ih, float_value k1, float_value k2]
  rw [fillTransform_values, fillTransform_values, hoff, hrot]

/-- **C98** for MCNP. Partial: the conditions of C96. -/
theorem C98_mcnp_partial (e : Env K) (hio : Exact e.io) (cosDeg : K → K) (quick : Bool) (rank : Int → Nat) (text : Str) (d : Deck K)
    (hmn : ∀ mn ∈ printedMnemonics, e.io.parse mn = none)
    (hr : readDeck e.io cosDeg (readText text) = .ok d) (hd : Convertible e.io e.sqrt rank d) (hc : CardInput e.io d)
    (hs : ShortCells e.io d) (hi : ∀ (i : Nat) c x, d.cells[i]? = some c → ImportanceIs e.io d i c x → PlainNumber (e.io.render x))
    (hss : ∀ fuel d', finishDeck fuel e.io cosDeg e.sqrt quick d = some (.ok d') → ShortSurfaces e.io d') :
    ∃ fuel₀, ∀ fuel ≥ fuel₀, ∃ out d2, Converts { e with fuel := fuel } cosDeg quick text .mcnp (.text out) ∧ readDeck e.io cosDeg (readText out) = .ok d2 ∧
      Agree (DeckFinds e.io e.sqrt d) (DeckFinds e.io e.sqrt d2) fun c c2 => c2.id = c.id ∧ MadeOf d c (c2.material.text = c!"0")
        fun density comp => c2.material.text ≠ c!"0" ∧ c2.density = density ∧ ∃ m2, d2.materials.lookup c2.material.text = some m2 ∧ m2.composition = comp := by
  obtain ⟨f, d', h⟩ := convertible_finishes (quick := quick) hio hr hd
  have hw := mcnp_ready hio hr hd hc h (short_out hio hr hd h hs) (importance_out hio hd.proper hd.sheets h hi)
  have hw' := card_surfaces hio hr hd h (hss _ _ h)
  obtain ⟨hl, hm⟩ := card_materials hio hr hd h
  have hn : (d'.materials.map fun m => m.2.number).Nodup := by
    rw [show d'.materials.map (fun m => m.2.number) = d'.materials.map Prod.fst from List.map_congr_left fun m hm => hl.2 m hm]
    exact hl.1
  obtain ⟨f1, h1⟩ := C96_mcnp_partial e hio cosDeg quick rank text d hmn hr hd hc hs hi hss
  obtain ⟨out, ⟨f2, hout⟩, d2, hd2, hcells, -⟩ := C83_file_partial { e with fuel := f } cosDeg d'.cells d'.surfaces d'.materials hw hw' hmn hm hn
  refine ⟨max f1 (max f2 f), fun fuel hf => ?_⟩
  obtain ⟨out', d2', a1, a2, a3⟩ := h1 fuel (le_trans (le_max_left _ _) hf)
  have b1 : Converts { e with fuel := fuel } cosDeg quick text .mcnp (.text out) := by
    refine converts_of (d := d) (d' := d') (e := { e with fuel := fuel }) hr (finishDeck_mono (le_trans (le_trans (le_max_right _ _) (le_max_right _ _)) hf) h) (s := ⟨d'.cells, d'.surfaces, d'.materials, []⟩) ?_
    rw [writeCode, returns_bind]
    exact ⟨out, hout fuel (le_trans (le_trans (le_max_left _ _) (le_max_right _ _)) hf), by rw [returns_pure]⟩
  cases converts_unique a1 b1
  rw [show readDeck e.io cosDeg (readText out) = .ok d2 from hd2] at a2
  cases a2
  have hp := nested_processed hio hd.proper (.inr hd.sheets) h
  have hall := forall₂_both a3 (forall₂_trans (T := fun (c c2 : Cell K) => c2.fill = c.fill ∧ c2.uni = c.uni ∧ (c.fill ≠ none → ∀ p q, DeckMoves e.io d c p q ↔ DeckMoves e.io d2 c2 p q))
    (fun c c' c2 x y => ⟨by rw [y.fill, x.2.1], by rw [y.uni, x.2.2.1], fun hf p q => by
      rw [x.2.2.2.2 p q, DeckMoves, deckTransform, if_pos y.trId, same_transform hio y (by rw [x.2.1]; exact hf)]⟩) hp hcells)
  refine ⟨out, d2, b1, hd2, agree_imp (agree_deck (V := fun u u' => u' = u) (io := e.io) (moves' := DeckMoves e.io d2) (uni' := fun c u => deckUniverse c = some u) (fill' := deckFill)
    (inside' := fun c => InDeckCell e.sqrt d2 c.id) hall ?_ ?_ ?_ ?_ ?_ rfl) fun c c2 k => ⟨k.1.1, k.1.2.2⟩⟩
  · rintro c hc c2 u u' ⟨-, -, k, -⟩ rfl
    rw [deckUniverse, deckUniverse, k]
  · rintro c hc c2 p ⟨⟨-, k, -⟩, -⟩
    exact (k p).symm
  · rintro c hc c2 ⟨-, k, -⟩
    rw [deckFill, deckFill, k]
  · rintro c hc c2 v v' ⟨-, k, -⟩ hv hv'
    rw [deckFill, k, ← deckFill, hv] at hv'
    cases hv'
    rfl
  · rintro c hc c2 p q ⟨-, -, -, k⟩ hf
    exact k (fun h => hf (deckFill_none h)) p q

private theorem dropWhile_words {g p : List Str} (hg : ∀ w ∈ g, ∀ ch ∈ w, ch.isAlpha = false) (hp : ∀ w, p.head? = some w → ∃ ch t, w = ch :: t ∧ ch.isAlpha = true) :
    (g ++ p).dropWhile (fun w => !((w.head?.map Char.isAlpha).getD false)) = p := by
  induction g with
  | nil =>
    cases p with
    | nil => rfl
    | cons w p =>
      obtain ⟨ch, t, rfl, h⟩ := hp w rfl
      simp [h]
  | cons w g ih =>
    rw [List.cons_append, List.dropWhile_cons_of_pos, ih fun w hw => hg w (List.mem_cons_of_mem _ hw)]
    cases w with
    | nil => rfl
    | cons ch t => simp [hg _ (List.mem_cons_self ..) ch (List.mem_cons_self ..)]

private theorem phits_params {io : NumIO K} {c : Cell K} {card : List Str} (h : PhitsCellSays io c card) (hv : c.material.text = c!"0" → c.material = .int 0) :
    ∃ offs rots, WritableParams io c offs rots ∧ phitsParams card = paramSyms io c offs rots false := by
  obtain ⟨dd, g, ps, offs, rots, rfl, -, hg, hps, -, -, hw, hp⟩ := h
  refine ⟨offs, rots, hw, ?_⟩
  rw [← hp]
  by_cases h0 : c.material = .int 0
  · have : c.material.text = c!"0" := by rw [h0]; rfl
    simp only [phitsParams, h0, if_true, List.cons_append, List.nil_append]
    rw [← h0, if_pos this, dropWhile_words hg hps]
  · have : c.material.text ≠ c!"0" := fun e => h0 (hv e)
    simp only [phitsParams, h0, if_false, List.cons_append, List.nil_append]
    rw [if_neg this, List.drop_one, List.tail_cons, dropWhile_words hg hps]

private theorem bare_close {l : List Str} : bareWords true (l.map .atom ++ [.rp]) = [] := by
  induction l with
  | nil => rfl
  | cons w l ih => exact ih

private theorem upTo_close {l : List Str} : upToClose (l.map .atom ++ [.rp]) = l := by
  induction l with
  | nil => rfl
  | cons w l ih => rw [List.map_cons, List.cons_append, upToClose, ih]

/-- The words that give the transform of a fill. -/
private def moveWords (c : Cell K) (offs rots : List Str) : List Str :=
  if c.offset = none ∧ c.rotation = none then [] else (if c.offset = none then [c!"0", c!"0", c!"0"] else offs) ++ (if c.rotation = none then [] else rots)

private theorem param_words {io : NumIO K} {c : Cell K} {offs rots : List Str} :
    paramUniverse (paramSyms io c offs rots false) = c.uni.getD c!"0" ∧ paramFill (paramSyms io c offs rots false) = c.fill.map fun f => (f, moveWords c offs rots) := by
  unfold paramSyms fillSyms moveWords
  have key : ∀ f : Str, paramUniverse ((.atom (c!"fill=" ++ f) ::
      (if c.offset = none ∧ c.rotation = none then []
      else .lp :: ((if c.offset = none then [c!"0", c!"0", c!"0"] else offs) ++ (if c.rotation = none then [] else rots)).map .atom ++ [.rp])) ++ []) = c!"0" := by
    intro f
    split
    · rfl
    · unfold paramUniverse
      rw [List.append_nil]
      show wordsUniverse ((c!"fill=" ++ f) :: bareWords true (_ ++ _)) = _
      rw [bare_close]
      rfl
  have key' : ∀ f : Str, paramFill ((.atom (c!"fill=" ++ f) ::
      (if c.offset = none ∧ c.rotation = none then []
      else .lp :: ((if c.offset = none then [c!"0", c!"0", c!"0"] else offs) ++ (if c.rotation = none then [] else rots)).map .atom ++ [.rp])) ++ []) = some (f,
        if c.offset = none ∧ c.rotation = none then [] else (if c.offset = none then [c!"0", c!"0", c!"0"] else offs) ++ (if c.rotation = none then [] else rots)) := by
    intro f
    split
    · rfl
    · rw [List.append_nil]
      show some (f, upToClose (_ ++ _)) = _
      rw [upTo_close]
  cases c.uni with
  | none =>
    cases c.fill with
    | none => exact ⟨rfl, rfl⟩
    | some f => exact ⟨key f, key' f⟩
  | some u =>
    cases c.fill with
    | none => exact ⟨rfl, rfl⟩
    | some f => exact ⟨rfl, key' f⟩

private theorem mapM_length {α β : Type} {f : α → Option β} {l : List α} {ys : List β} (h : l.mapM f = some ys) : ys.length = l.length := by
  induction l generalizing ys with
  | nil => cases h; rfl
  | cons a l ih =>
    rw [List.mapM_cons] at h
    cases ha : f a with
    | none => rw [ha] at h; cases h
    | some b =>
      cases hl : l.mapM f with
      | none => rw [ha, hl] at h; cases h
      | some zs => rw [ha, hl] at h; cases h; rw [List.length_cons, List.length_cons, ih hl]

private theorem words_transform {io : NumIO K} (hio : Exact io) {c : Cell K} {offs rots : List Str} (hw : WritableParams io c offs rots) :
    wordsTransform io (moveWords c offs rots) = fillTransform io c := by
  have hoff : (if c.offset = none then [c!"0", c!"0", c!"0"] else offs).mapM io.parse = offsetValues io c := by
    unfold offsetValues
    cases ho : c.offset with
    | none => simp [hio.zero]
    | some l =>
      simp only [reduceCtorEq, if_false]
      refine (mapM_eq_of_map ?_).symm
      have := (hw.offset l ho).2
      clear ho hw
      induction this with
      | nil => rfl
      | cons k _ ih =>
        rw [List.map_cons, List.map_cons, ih]
        obtain ⟨-, rfl | ⟨x, rfl, rfl⟩⟩ := k
        · rfl
        · rw [entryValue, hio.reads]
  have hrot : ∀ l, c.rotation = some l → rots.mapM io.parse = rotationValues io c := by
    intro l hl
    unfold rotationValues
    rw [hl]
    simp only
    refine (mapM_eq_of_map ?_).symm
    have := (hw.rotation l hl).2
    clear hl hw
    induction this with
    | nil => rfl
    | cons k _ ih =>
      rw [List.map_cons, List.map_cons, ih]
      obtain ⟨x, -, rfl, rfl | ⟨t, rfl, k⟩⟩ := k
      · rw [entryValue, hio.reads]
      · rw [entryValue, hio.reads, k]
  have hlen : ∀ ns, offsetValues io c = some ns → ns.length = 3 := by
    intro ns hns
    unfold offsetValues at hns
    cases ho : c.offset with
    | none => rw [ho] at hns; cases hns; rfl
    | some l =>
      rw [ho] at hns
      simp only at hns
      rw [mapM_length hns]
      exact (hw.offset l ho).1
  have hlen' : ∀ l ns, c.rotation = some l → rotationValues io c = some ns → ns.length = 9 := by
    intro l ns hl hns
    unfold rotationValues at hns
    rw [hl] at hns
    simp only at hns
    rw [mapM_length hns]
    exact (hw.rotation l hl).1
  rw [fillTransform_values]
  by_cases h0 : c.offset = none ∧ c.rotation = none
  · unfold wordsTransform moveWords offsetValues rotationValues
    rw [if_pos h0, h0.1, h0.2]
    simp
  · unfold wordsTransform moveWords
    rw [if_neg h0, List.mapM_append, hoff]
    cases ho : offsetValues io c with
    | none => rfl
    | some os =>
      have h3 := hlen os ho
      cases hr : c.rotation with
      | none =>
        have : os ≠ [] := by rintro rfl; simp at h3
        have h3' : os.take 3 = os := List.take_of_length_le (le_of_eq h3)
        simp [this, h3, h3', rotationValues, hr]
      | some l =>
        simp only [reduceCtorEq, if_false]
        rw [hrot l hr]
        cases hv : rotationValues io c with
        | none => rfl
        | some rs =>
          have h9 := hlen' l rs hr hv
          have h1 : rs ≠ [] := by rintro rfl; simp at h9
          simp [h3, h1]

/-- **C98** for PHITS. Partial: the conditions of C96, and universes are written without leading zeros. -/
theorem C98_phits_partial (e : Env K) (hio : Exact e.io) (cosDeg : K → K) (quick : Bool) (rank : Int → Nat) (text : Str) (d : Deck K)
    (hr : readDeck e.io cosDeg (readText text) = .ok d) (hd : Convertible e.io e.sqrt rank d) (hc : CardInput e.io d) (hx : ∀ m ∈ d.materials, PrintableXs m.2)
    (hs : ShortCells e.io d) (hss : ∀ fuel d', finishDeck fuel e.io cosDeg e.sqrt quick d = some (.ok d') → ShortSurfaces e.io d') (hu : PlainUniverses d) :
    ∃ fuel₀, ∀ fuel ≥ fuel₀, ∃ out secs sl cl ml scards ccards mcards, Converts { e with fuel := fuel } cosDeg quick text .phits (.text out) ∧ phitsSections (readlines out) = ([], secs) ∧
      secs.lookup c!"surface" = some sl ∧ secs.lookup c!"cell" = some cl ∧ secs.lookup c!"material" = some ml ∧ phitsCards sl = ([], scards) ∧ phitsCards cl = ([], ccards) ∧ phitsCards ml = ([], mcards) ∧
      Agree (DeckFinds e.io e.sqrt d) (PhitsFinds e.sqrt e.io scards ccards) fun c card => card.head? = some (intStr c.id) ∧ MadeOf d c (phitsFilling card = some (intStr c.id, c!"0", none))
        fun density comp => ∃ name dw, name ≠ c!"0" ∧ phitsFilling card = some (intStr c.id, name, some dw) ∧ e.io.parse dw = some density ∧ PhitsHas e.io mcards name comp := by
  obtain ⟨f, d', h⟩ := convertible_finishes (quick := quick) hio hr hd
  have hw := phits_ready hio hr hd hc hx h (short_out hio hr hd h hs) (hss _ _ h)
  obtain ⟨f1, h1⟩ := C96_phits_partial e hio cosDeg quick rank text d hr hd hc hx hs hss
  obtain ⟨out, ⟨f2, hout⟩, tl, pl, sl, cl, il, ml, hsec, -, -, ⟨ccards, hcl, hcc⟩, -⟩ := C89_file_partial { e with fuel := f } e.sqrt d'.cells d'.surfaces d'.materials hw
  refine ⟨max f1 (max f2 f), fun fuel hf => ?_⟩
  obtain ⟨out', secs, sl', cl', ml', scards, ccards', mcards, a1, a2, a3, a4, a5, a6, a7, a8, a9, a10⟩ := h1 fuel (le_trans (le_max_left _ _) hf)
  have b1 : Converts { e with fuel := fuel } cosDeg quick text .phits (.text out) := by
    refine converts_of (d := d) (d' := d') (e := { e with fuel := fuel }) hr (finishDeck_mono (le_trans (le_trans (le_max_right _ _) (le_max_right _ _)) hf) h) (s := ⟨d'.cells, d'.surfaces, d'.materials, []⟩) ?_
    rw [writeCode, returns_bind]
    exact ⟨out, hout fuel (le_trans (le_trans (le_max_left _ _) (le_max_right _ _)) hf), by rw [returns_pure]⟩
  cases converts_unique a1 b1
  rw [hsec] at a2
  cases a2
  have a4' := Option.some.inj (show some cl = some cl' from a4)
  subst a4'
  rw [hcl] at a7
  cases a7
  have hp := nested_processed hio hd.proper (.inr hd.sheets) h
  have hall := forall₂_both (forall₂_both a9 a10) (forall₂_trans (T := fun (c : Cell K) card => paramUniverse (phitsParams card) = c.uni.getD c!"0" ∧
    (paramFill (phitsParams card)).map Prod.fst = c.fill ∧ (c.fill ≠ none → ∀ p q, DeckMoves e.io d c p q ↔ phitsMoves e.io card p q)) (fun c c' card x y => by
      obtain ⟨y0, -, y⟩ := y
      obtain ⟨offs, rots, k1, k2⟩ := phits_params y (hw.void c' y0)
      obtain ⟨k3, k4⟩ := param_words (io := e.io) (c := c') (offs := offs) (rots := rots)
      rw [k2, k3, k4]
      refine ⟨by rw [x.2.2.1], by rw [Option.map_map, x.2.1]; cases c.fill <;> rfl, fun hn p q => ?_⟩
      rw [x.2.2.2.2 p q, phitsMoves, k2, k4, x.2.1]
      cases hf : c.fill with
      | none => exact absurd hf hn
      | some u =>
        rw [← words_transform hio k1]
        constructor
        · rintro ⟨t, j1, j2⟩
          exact ⟨u, _, t, rfl, j1, j2⟩
        · rintro ⟨_, _, t, j0, j1, j2⟩
          cases j0
          exact ⟨t, j1, j2⟩) hp (forall₂_mem hcc))
  refine ⟨out, _, sl', cl, ml', scards, ccards, mcards, b1, hsec, a3, rfl, a5, a6, hcl, a8, agree_imp (agree_text hu hall (fun c card u k => ?_) (fun c card k => k.2.2.1) ?_ ?_) fun c card k => ⟨?_, k.1.2⟩⟩
  · rw [k.2.1, eq_comm]
  · rintro c hc card p ⟨⟨⟨g, k1, k2⟩, -⟩, -⟩
    constructor
    · exact fun h => ⟨_, g, k1, (k2 p).2 h⟩
    · rintro ⟨name, g', k3, k4⟩
      rw [k1] at k3
      cases k3
      exact (k2 p).1 k4
  · exact fun c hc card p q k hn => k.2.2.2 hn p q
  · obtain ⟨⟨⟨g, k1, -⟩, -⟩, -⟩ := k
    match card, k1 with
    | _ :: _ :: _, k1 => cases k1; rfl

/-- A cell of the input as an element of the geometry. -/
private structure OpenmcCell (io : NumIO K) (d : Deck K) (c : Cell K) (x : OpenMCCellElem) : Prop where
  mem : c ∈ d.cells
  geometry : InGeometry d.cells c
  id : x.id = intStr c.id
  uni : openmcUniverse x = parseInt (c.uni.getD c!"0")
  empty : c.fill = none → x.filled = none
  filled : ∀ f, c.fill = some f → ∃ rotation translation t, x.filled = some (f, rotation, translation) ∧ openmcTransform io rotation translation = some t ∧
    ∀ p q, DeckMoves io d c p q ↔ q = pullback t p

/-- The root of an OpenMC file is universe 0. -/
private theorem openmc_root {io : NumIO K} {d : Deck K} {es : List OpenMCCellElem} (ho : OpenmcInput io d) (hl : ∀ c ∈ d.cells, InGeometry d.cells c → ∃ x ∈ es, OpenmcCell io d c x)
    (hr : ∀ x ∈ es, ∃ c, OpenmcCell io d c x) (u : Int) : OpenmcRoot es u ↔ u = 0 := by
  have hfill : ∀ c x s, OpenmcCell io d c x → c.fill = some s → openmcFill x = parseInt s := by
    intro c x s k hs
    obtain ⟨r, t, _, k1, -⟩ := k.filled s hs
    rw [openmcFill, k1]
    rfl
  constructor
  · rintro ⟨⟨x, hx, hu⟩, hno⟩
    obtain ⟨c, k⟩ := hr x hx
    rw [k.uni] at hu
    obtain ⟨v, hv, hd⟩ := k.geometry
    rw [hu] at hv
    cases hv
    cases hd with
    | root => rfl
    | fill h1 h2 h3 h4 h5 =>
      obtain ⟨x0, hx0, k0⟩ := hl _ h1 ⟨_, h2, h3⟩
      exact absurd (by rw [hfill _ _ _ k0 h4, h5]) (hno x0 hx0)
  · rintro rfl
    obtain ⟨c, hc, hu⟩ := ho.universes.2.1
    obtain ⟨x, hx, k⟩ := hl c hc ⟨0, hu, .root⟩
    refine ⟨⟨x, hx, by rw [k.uni, hu]⟩, fun x hx h => ?_⟩
    obtain ⟨c, k⟩ := hr x hx
    cases hf : c.fill with
    | none =>
      rw [openmcFill, k.empty hf] at h
      cases h
    | some s =>
      obtain ⟨f, hf', hn⟩ := (ho.universes.1 c k.mem).2 s hf
      rw [hfill c x s k hf, hf'] at h
      cases h
      exact hn rfl

/-- **C98** for OpenMC. Partial: the conditions of C96, and universes are written without a sign. -/
theorem C98_openmc_partial (e : Env K) (hio : Exact e.io) (cosDeg : K → K) (quick : Bool) (rank : Int → Nat) (text : Str) (d : Deck K)
    (hr : readDeck e.io cosDeg (readText text) = .ok d) (hd : Convertible e.io e.sqrt rank d) (ho : OpenmcInput e.io d) (hu : UnsignedUniverses d) :
    ∃ fuel₀, ∀ fuel ≥ fuel₀, ∃ g m xs es ys, Converts { e with fuel := fuel } cosDeg quick text .openmc (.xml g m) ∧ openmcGeometry g = some (xs, es) ∧ openmcMaterials m = some ys ∧
      Agree (DeckFinds e.io e.sqrt d) (OpenmcFinds e.sqrt e.io xs es) fun c x => x.id = intStr c.id ∧
        MadeOf d c (x.material = some c!"void") fun density comp => x.material ≠ some c!"void" ∧ OpenmcHas e.io ys x density comp := by
  obtain ⟨f, d', h⟩ := convertible_finishes (quick := quick) hio hr hd
  have hw := openmc_ready hio hr hd ho h
  obtain ⟨f1, h1⟩ := C96_openmc_partial e hio cosDeg quick rank text d hr hd ho
  refine ⟨max f1 (max d'.cells.length f), fun fuel hf => ?_⟩
  obtain ⟨g, m, xs, es, ys, a1, a2, a3, a4, a5⟩ := h1 fuel (le_trans (le_max_left _ _) hf)
  obtain ⟨g', m', xs', es', ys', kept, hout, b2, -, -, -, b3, -, b4⟩ := C91_files_partial { e with fuel := fuel } nucsOf d'.cells d'.surfaces d'.materials hw
    (le_trans (le_trans (le_max_left _ _) (le_max_right _ _)) hf)
  have b1 : Converts { e with fuel := fuel } cosDeg quick text .openmc (.xml g' m') := by
    refine converts_of (d := d) (d' := d') (e := { e with fuel := fuel }) hr (finishDeck_mono (le_trans (le_trans (le_max_right _ _) (le_max_right _ _)) hf) h) (s := ⟨d'.cells, d'.surfaces, d'.materials, []⟩) ?_
    rw [writeCode, returns_bind]
    exact ⟨_, hout, by rw [returns_pure]⟩
  cases converts_unique a1 b1
  rw [a2] at b2
  cases b2
  have hp := nested_processed hio hd.proper (.inr hd.sheets) h
  have hsame : ∀ c ∈ d.cells, ∀ c2 ∈ d.cells, c2.id = c.id → c2 = c := fun c hc c2 hc2 e => List.inj_on_of_nodup_map hd.proper.complements.ids hc2 hc e
  have hright : ∀ x ∈ es, ∃ c, OpenmcCell e.io d c x ∧ (∀ p, InOpenmc e.sqrt e.io xs x p ↔ InDeckCell e.sqrt d c.id p) ∧
      MadeOf d c (x.material = some c!"void") fun density comp => x.material ≠ some c!"void" ∧ OpenmcHas e.io ys x density comp := by
    intro x hx
    obtain ⟨c, hc, k1, k2, k3, k4⟩ := a5 x hx
    obtain ⟨c', hc', j1, j2, -, -, j3⟩ := forall₂_right b4 x hx
    obtain ⟨c2, hc2, i1, i2, i3, -, i4⟩ := forall₂_right hp c' (b3.subset hc')
    cases hsame c hc c2 hc2 (by rw [← i1]; exact intStr_injective (by rw [← j1, k2]))
    refine ⟨c, ⟨hc, k1, k2, by rw [openmcUniverse, j2, i3], fun hn => ?_, fun s hs => ?_⟩, k3, k4⟩
    · rw [i2, hn] at j3
      exact j3.1
    · rw [i2, hs] at j3
      obtain ⟨-, r, tr, t, l1, l2, l3⟩ := j3
      refine ⟨r, tr, t, l1, l2, fun p q => ?_⟩
      rw [i4 p q, l3]
      exact ⟨fun ⟨t', h1, h2⟩ => by cases h1; exact h2, fun h => ⟨t, rfl, h⟩⟩
  have hleft : ∀ c ∈ d.cells, InGeometry d.cells c → ∃ x ∈ es, OpenmcCell e.io d c x ∧ (∀ p, InOpenmc e.sqrt e.io xs x p ↔ InDeckCell e.sqrt d c.id p) ∧
      MadeOf d c (x.material = some c!"void") fun density comp => x.material ≠ some c!"void" ∧ OpenmcHas e.io ys x density comp := by
    intro c hc hg
    obtain ⟨x, hx, k1⟩ := a4 c hc hg
    obtain ⟨c2, k2, k3⟩ := hright x hx
    cases hsame c hc c2 k2.mem (intStr_injective (by rw [← k2.id, k1]))
    exact ⟨x, hx, k2, k3⟩
  have hroot := openmc_root ho (fun c hc hg => (hleft c hc hg).imp fun x k => ⟨k.1, k.2.1⟩) (fun x hx => (hright x hx).imp fun c k => k.1)
  have hfill : ∀ c x, OpenmcCell e.io d c x → (deckFill c).map Int.ofNat = openmcFill x := by
    intro c x k
    cases hf : c.fill with
    | none => rw [deckFill_none hf, openmcFill, k.empty hf]; rfl
    | some s =>
      obtain ⟨r, t, _, k1, -⟩ := k.filled s hf
      obtain ⟨v, hv, -⟩ := (ho.universes.1 c k.mem).2 s hf
      have h0 := (hu c k.mem).2 s v hf hv
      rw [deckFill, openmcFill, k1, hf, Option.bind_some, Option.bind_some, hv]
      exact congrArg some (Int.natAbs_of_nonneg h0)
  have main := fun p => finds_both (cells := d.cells) (cells' := es) (S := fun c x => OpenmcCell e.io d c x ∧ (∀ p, InOpenmc e.sqrt e.io xs x p ↔ InDeckCell e.sqrt d c.id p) ∧
      MadeOf d c (x.material = some c!"void") fun density comp => x.material ≠ some c!"void" ∧ OpenmcHas e.io ys x density comp)
    (V := fun (u : Nat) (u' : Int) => u' = u ∧ DeckUniverse d.cells u') (ok := fun _ => True) (moves := DeckMoves e.io d) (moves' := openmcMoves e.io)
    (uni := fun c u => deckUniverse c = some u) (uni' := fun x u => openmcUniverse x = some u) (fill := deckFill) (fill' := openmcFill)
    (inside := fun c => InDeckCell e.sqrt d c.id) (inside' := InOpenmc e.sqrt e.io xs) (u := 0) (u' := 0) (p := p) ?_ ?_ ?_ ?_ ?_ ?_ ?_ (fun _ _ _ _ _ _ _ _ => trivial) ⟨rfl, .root⟩ trivial
  · refine ⟨g, m, xs, es, ys, a1, a2, a3, fun p c hc => ?_, fun p x hx => ?_⟩
    · obtain ⟨x, k1, k2⟩ := (main p).1 c hc
      exact ⟨x, ⟨k1.1.id, k1.2.2⟩, 0, (hroot 0).2 rfl, k2⟩
    · obtain ⟨root, k1, k2⟩ := hx
      cases (hroot root).1 k1
      obtain ⟨c, k3, k4⟩ := (main p).2 x k2
      exact ⟨c, ⟨k3.1.id, k3.2.2⟩, k4⟩
  · rintro c hc u u' h1 ⟨rfl, h2⟩
    obtain ⟨v, hv⟩ := (ho.universes.1 c hc).1
    have h0 := (hu c hc).1 v hv
    rw [deckUniverse, hv] at h1
    cases h1
    rw [Int.natAbs_of_nonneg h0] at h2
    exact hleft c hc ⟨v, hv, h2⟩
  · exact fun x hx => (hright x hx).imp fun c k => ⟨k.1.mem, k⟩
  · rintro c x u u' ⟨k, -⟩ ⟨rfl, -⟩
    obtain ⟨v, hv⟩ := (ho.universes.1 c k.mem).1
    have h0 := (hu c k.mem).1 v hv
    rw [deckUniverse, k.uni, hv, Option.map_some, Option.some.injEq, Option.some.injEq]
    omega
  · exact fun c x p k _ => (k.2.1 p).symm
  · rintro c x ⟨k, -⟩
    rw [← hfill c x k]
    cases deckFill c <;> simp
  · rintro c x u u' v v' hc ⟨k, -⟩ ⟨rfl, h2⟩ h3 h4 h5
    have e1 := hfill c x k
    rw [h4, h5] at e1
    cases e1
    refine ⟨rfl, ?_⟩
    obtain ⟨w, hw⟩ := (ho.universes.1 c hc).1
    have h0 := (hu c hc).1 w hw
    rw [deckUniverse, hw] at h3
    cases h3
    rw [Int.natAbs_of_nonneg h0] at h2
    cases hf : c.fill with
    | none => rw [deckFill_none hf] at h4; cases h4
    | some s =>
      obtain ⟨r, t, _, k1, -⟩ := k.filled s hf
      rw [openmcFill, k1] at h5
      exact .fill hc hw h2 hf h5
  · rintro c x p q ⟨k, -⟩ hn -
    cases hf : c.fill with
    | none => exact absurd (deckFill_none hf) hn
    | some s =>
      obtain ⟨r, tr, t, k1, k2, k3⟩ := k.filled s hf
      rw [k3 p q]
      constructor
      · exact fun h => ⟨s, r, tr, t, k1, k2, h⟩
      · rintro ⟨s', r', tr', t', j1, j2, j3⟩
        rw [k1] at j1
        cases j1
        rw [k2] at j2
        cases j2
        exact j3

/-- A cell is in a universe of a SCONE file if the universe lists it. -/
private theorem scone_in {us : List (UniverseCard K)} {ues : List SconeItem} (h : List.Forall₂ SconeUniverseSays us ues) {x : SconeItem} {id : Int} (hx : sconeNumber x = some (intStr id)) (v : Int) :
    sconeIn ues x (intStr (v + 1)) ↔ ∃ w ∈ us, w.isRoot = false ∧ w.id = v ∧ id ∈ w.cells := by
  have hroot : ∀ (w : UniverseCard K) i, SconeUniverseSays w i → w.isRoot = true → sconeListed i = none := by
    intro w i k hr
    rw [SconeUniverseSays, if_pos hr] at k
    obtain ⟨new, -, rfl⟩ := k
    rfl
  have hplain : ∀ (w : UniverseCard K) i, SconeUniverseSays w i → w.isRoot = false → sconeNumber i = some (intStr (w.id + 1)) ∧ sconeListed i = some (w.cells.map intStr) := by
    intro w i k hr
    rw [SconeUniverseSays, if_neg (by rw [hr]; decide)] at k
    subst k
    refine ⟨rfl, ?_⟩
    simp [sconeListed, sconeValue]
  constructor
  · rintro ⟨i, hi, ws, n, h1, h2, h3, h4⟩
    obtain ⟨w, hw, k⟩ := forall₂_right h i hi
    cases hr : w.isRoot with
    | true => rw [hroot w i k hr] at h2; cases h2
    | false =>
      obtain ⟨k1, k2⟩ := hplain w i k hr
      rw [k1] at h1
      rw [k2] at h2
      rw [hx] at h3
      cases h2
      cases h3
      obtain ⟨id', k3, k4⟩ := List.mem_map.1 h4
      cases intStr_injective k4
      exact ⟨w, hw, hr, by have := intStr_injective (Option.some.inj h1); omega, k3⟩
  · rintro ⟨w, hw, hr, rfl, h4⟩
    obtain ⟨i, hi, k⟩ := forall₂_left_mem h hw
    obtain ⟨k1, k2⟩ := hplain w i k hr
    exact ⟨i, hi, _, _, k1, k2, hx, List.mem_map.2 ⟨id, h4, rfl⟩⟩

/-- The universes of a SCONE file and of the deck. -/
private theorem scone_uni {cells : List (Cell K)} {us : List (UniverseCard K)} {ids : List Int} {new : Int} (hn : (cells.map Cell.id).Nodup)
    (hnew : 0 ∈ ids → ∀ u ∈ ids, u < new)
    (hp : List.Perm (us.map fun w => (w.id, w.isRoot, w.cells, w.fill))
      ((ids.filter (· ≠ 0)).map (fun u => (u, false, (cells.filter fun c => decide (parseInt (c.uni.getD c!"0") = some u)).map Cell.id, none)) ++
        (if 0 ∈ ids then [(0, true, [], some new), (new, false, (cells.filter fun c => decide (parseInt (c.uni.getD c!"0") = some 0)).map Cell.id, none)] else [])))
    {c : Cell K} (hc : c ∈ cells) :
    (∀ v ∈ ids, v ≠ 0 → ((∃ w ∈ us, w.isRoot = false ∧ w.id = v ∧ c.id ∈ w.cells) ↔ parseInt (c.uni.getD c!"0") = some v)) ∧
      (0 ∈ ids → ((∃ w ∈ us, w.isRoot = false ∧ w.id = new ∧ c.id ∈ w.cells) ↔ parseInt (c.uni.getD c!"0") = some 0)) := by
  have hlist : ∀ v, c.id ∈ (cells.filter fun c => decide (parseInt (c.uni.getD c!"0") = some v)).map Cell.id ↔ parseInt (c.uni.getD c!"0") = some v := by
    intro v
    constructor
    · intro h
      obtain ⟨c2, h1, h2⟩ := List.mem_map.1 h
      obtain ⟨h3, h4⟩ := List.mem_filter.1 h1
      cases List.inj_on_of_nodup_map hn h3 hc h2
      exact of_decide_eq_true h4
    · exact fun h => List.mem_map.2 ⟨c, List.mem_filter.2 ⟨hc, decide_eq_true h⟩, rfl⟩
  have hmem : ∀ v, (∃ w ∈ us, w.isRoot = false ∧ w.id = v ∧ c.id ∈ w.cells) ↔ (v ∈ ids ∧ v ≠ 0 ∧ parseInt (c.uni.getD c!"0") = some v) ∨ (0 ∈ ids ∧ v = new ∧ parseInt (c.uni.getD c!"0") = some 0) := by
    intro v
    constructor
    · rintro ⟨w, hw, h1, rfl, h3⟩
      have := hp.subset (List.mem_map_of_mem (f := fun w : UniverseCard K => (w.id, w.isRoot, w.cells, w.fill)) hw)
      rcases List.mem_append.1 this with h | h
      · obtain ⟨u, h4, h5⟩ := List.mem_map.1 h
        obtain ⟨h6, h7⟩ := List.mem_filter.1 h4
        simp only [Prod.mk.injEq] at h5
        rw [← h5.2.2.1, hlist u] at h3
        rw [← h5.1]
        exact .inl ⟨h6, of_decide_eq_true h7, h3⟩
      · by_cases h0 : 0 ∈ ids
        · rw [if_pos h0] at h
          simp only [List.mem_cons, Prod.mk.injEq, List.not_mem_nil, or_false, h1, Bool.false_eq_true, false_and, and_false, false_or] at h
          rw [h.2.2.1, hlist 0] at h3
          exact .inr ⟨h0, h.1, h3⟩
        · rw [if_neg h0] at h
          exact absurd h (List.not_mem_nil)
    · intro h
      have back : ∀ t, t ∈ us.map (fun w => (w.id, w.isRoot, w.cells, w.fill)) → t.2.1 = false → c.id ∈ t.2.2.1 → ∃ w ∈ us, w.isRoot = false ∧ w.id = t.1 ∧ c.id ∈ w.cells := by
        intro t ht h1 h2
        obtain ⟨w, hw, rfl⟩ := List.mem_map.1 ht
        exact ⟨w, hw, h1, rfl, h2⟩
      rcases h with ⟨h1, h2, h3⟩ | ⟨h1, rfl, h3⟩
      · exact back (v, false, (cells.filter fun c => decide (parseInt (c.uni.getD c!"0") = some v)).map Cell.id, none)
          (hp.symm.subset (List.mem_append_left _ (List.mem_map.2 ⟨v, List.mem_filter.2 ⟨h1, decide_eq_true h2⟩, rfl⟩))) rfl ((hlist v).2 h3)
      · refine back (v, false, (cells.filter fun c => decide (parseInt (c.uni.getD c!"0") = some 0)).map Cell.id, none) (hp.symm.subset (List.mem_append_right _ ?_)) rfl ((hlist 0).2 h3)
        rw [if_pos h1]
        simp
  refine ⟨fun v hv hv0 => ?_, fun h0 => ?_⟩
  · rw [hmem v]
    constructor
    · rintro (h | ⟨h1, h2, -⟩)
      · exact h.2.2
      · exact absurd (hnew h1 v hv) (by omega)
    · exact fun h => .inl ⟨hv, hv0, h⟩
  · rw [hmem new]
    constructor
    · rintro (⟨h1, -⟩ | h)
      · exact absurd (hnew h0 new h1) (lt_irrefl _)
      · exact h.2.2
    · exact fun h => .inr ⟨h0, rfl, h⟩

/-- The root of a SCONE file. -/
private theorem scone_root {us : List (UniverseCard K)} {ues : List SconeItem} (h : List.Forall₂ SconeUniverseSays us ues) (u : Str) :
    (∃ i ∈ ues, sconeRoot i = some u) ↔ ∃ w ∈ us, w.isRoot = true ∧ ∃ new, w.fill = some new ∧ u = intStr (new + 1) := by
  have key : ∀ (w : UniverseCard K) i, SconeUniverseSays w i → (sconeRoot i = some u ↔ w.isRoot = true ∧ ∃ new, w.fill = some new ∧ u = intStr (new + 1)) := by
    intro w i k
    cases hr : w.isRoot with
    | true =>
      rw [SconeUniverseSays, if_pos hr] at k
      obtain ⟨new, k1, rfl⟩ := k
      have : sconeRoot (.dict c!"root" [.value [c!"type", c!"rootUniverse"], .value [c!"border", intStr w.border], .value [c!"fill", c!"u<" ++ intStr (new + 1) ++ c!">"], .value [c!"id", intStr (w.id + 1)]]) =
          some (intStr (new + 1)) := by
        simp [sconeRoot, sconeValue]
      rw [this, k1]
      constructor
      · intro h
        cases h
        exact ⟨rfl, new, rfl, rfl⟩
      · rintro ⟨-, new', h1, rfl⟩
        cases h1
        rfl
    | false =>
      rw [SconeUniverseSays, if_neg (by rw [hr]; decide)] at k
      subst k
      constructor
      · intro h
        cases h
      · rintro ⟨h, -⟩
        cases h
  constructor
  · rintro ⟨i, hi, h1⟩
    obtain ⟨w, hw, k⟩ := forall₂_right h i hi
    exact ⟨w, hw, (key w i k).1 h1⟩
  · rintro ⟨w, hw, h1⟩
    obtain ⟨i, hi, k⟩ := forall₂_left_mem h hw
    exact ⟨i, hi, (key w i k).2 h1⟩

private theorem scone_cell {c : Cell K} {x : SconeItem} (h : SconeCellSays c x) :
    sconeNumber x = some (intStr c.id) ∧ sconeFill x = c.fill.map fun f => intStr ((parseInt f).getD 0 + 1) := by
  obtain ⟨g, rfl, -⟩ := h
  refine ⟨rfl, ?_⟩
  unfold sconeFilling
  cases c.fill with
  | none => rfl
  | some f => rfl

/-- **C98** for SCONE. Partial: the conditions of C96; fills are not displaced or rotated, and universes that fill cells exist. Inside the border of the root. -/
theorem C98_scone_partial (e : Env K) (hio : Exact e.io) (hsci : ∀ x, SconeOrdinary (e.sci x)) (ho : ∀ l, (e.orderInt l).Perm l) (cosDeg tanSq : K → K) (quick : Bool) (read : Str → Option K)
    (hlit : ∀ w x, Literal w x → read w = some x) (rank : Int → Nat) (text : Str) (d : Deck K)
    (hr : readDeck e.io cosDeg (readText text) = .ok d) (hd : Convertible e.io e.sqrt rank d) (hs : SconeSource e.io e.sqrt e.degAtan tanSq read e.fixed d)
    (hread : ∀ fuel d', finishDeck fuel e.io cosDeg e.sqrt quick d = some (.ok d') → PrintedSurfaces read e.io d') (hu : UnsignedUniverses d) (hdef : DefinedFills d) (hstill : StillFills d) :
    ∃ fuel₀ d', ∀ fuel ≥ fuel₀, finishDeck fuel e.io cosDeg e.sqrt quick d = some (.ok d') ∧
      ∃ out gs ns ses ces ues mes, Converts { e with fuel := fuel } cosDeg quick text .scone (.text out) ∧ sconeRead out = some [.dict c!"geometry" gs, .dict c!"nuclearData" ns] ∧
        .dict c!"surfaces" ses ∈ gs ∧ .dict c!"cells" ces ∈ gs ∧ .dict c!"universes" ues ∈ gs ∧ .dict c!"materials" mes ∈ ns ∧
        ∀ near : Point K → Prop, (∀ p, near p → ∀ s ∈ d'.surfaces, ∀ u, coneOffset s.type s.coeffs p = some u → |u| < 10 ^ 10) →
          Agree (fun p c => near p ∧ DeckFinds e.io e.sqrt d p c) (fun p x => near p ∧ SconeFinds tanSq read ses ces ues p x) fun c x => sconeNumber x = some (intStr c.id) ∧
            MadeOf d c (sconeMaterialOf x = some (intStr c.id, c!"void"))
              fun density comp => ∃ name, name ≠ c!"void" ∧ sconeMaterialOf x = some (intStr c.id, name) ∧ SconeHas e.sci mes name density comp := by
  obtain ⟨f1, d', h1⟩ := C96_scone_partial e hio hsci ho cosDeg tanSq quick read hlit rank text d hr hd hs hread
  have h := (h1 f1 le_rfl).1
  have hw := scone_ready hio hsci hlit hr hd hs h (hread _ _ h)
  obtain ⟨out, us, ⟨f2, hout⟩, ⟨ids, new, -, hids, hnew, hperm, -⟩, ses, ces, ues, mes, hrd, -, hcc, huc, -⟩ := C87_file_partial { e with fuel := f1 } tanSq read nucsOf d'.cells d'.surfaces d'.materials hw ho
  refine ⟨max f1 f2, d', fun fuel hf => ⟨(h1 fuel (le_trans (le_max_left _ _) hf)).1, ?_⟩⟩
  obtain ⟨-, out', gs, ns, ses', ces', mes', a1, a2, a3, a4, a5, a6, a7⟩ := h1 fuel (le_trans (le_max_left _ _) hf)
  have b1 : Converts { e with fuel := fuel } cosDeg quick text .scone (.text out) := by
    refine converts_of (d := d) (d' := d') (e := { e with fuel := fuel }) hr (finishDeck_mono (le_trans (le_max_left _ _) hf) h) (s := ⟨d'.cells, d'.surfaces, d'.materials, us⟩) ?_
    rw [writeCode, returns_bind]
    exact ⟨_, hout fuel (le_trans (le_max_right _ _) hf), by rw [returns_pure]⟩
  cases converts_unique a1 b1
  rw [hrd] at a2
  cases a2
  obtain rfl : ces' = ces := by simpa using a4
  have hp := nested_processed hio hd.proper (.inr hd.sheets) h
  have hidd : (d'.cells.map Cell.id).Nodup := by
    rw [forall₂_map_eq (f := Cell.id) (g := Cell.id) (fun c c' k => k.1) hp]
    exact hd.proper.complements.ids
  have hsame : ∀ u, u ∈ ids ↔ ∃ c ∈ d.cells, parseInt (c.uni.getD c!"0") = some u := by
    intro u
    rw [hids u]
    constructor
    · rintro ⟨c', hc', k⟩
      obtain ⟨c, hc, j⟩ := forall₂_right hp c' hc'
      exact ⟨c, hc, by rw [← j.2.2.1]; exact k⟩
    · rintro ⟨c, hc, k⟩
      obtain ⟨c', hc', j⟩ := forall₂_left_mem hp hc
      exact ⟨c', hc', by rw [j.2.2.1]; exact k⟩
  have huni : ∀ c ∈ d.cells, ∀ n : Nat, deckUniverse c = some n ↔ parseInt (c.uni.getD c!"0") = some (n : Int) := by
    intro c hc n
    obtain ⟨v, hv, -⟩ := (hs.universes c hc).1
    have h0 := (hu c hc).1 v hv
    rw [deckUniverse, hv, Option.map_some, Option.some.injEq, Option.some.injEq]
    omega
  have hfill : ∀ c ∈ d.cells, ∀ f, c.fill = some f → ∃ n : Nat, deckFill c = some n ∧ parseInt f = some (n : Int) := by
    intro c hc f hf
    obtain ⟨v, hv, -⟩ := (hs.universes c hc).2 f hf
    have h0 := (hu c hc).2 f v hf hv
    refine ⟨v.natAbs, by rw [deckFill, hf, Option.bind_some, hv]; rfl, ?_⟩
    rw [hv, Int.natAbs_of_nonneg h0]
  refine ⟨out, _, _, ses', ces', ues, mes', b1, hrd, a3, by simp, by simp, a5, fun near hnear => ?_⟩
  have hall := forall₂_mem (forall₂_both (forall₂_both a6 a7) (forall₂_trans (T := fun (c : Cell K) x => ∃ c' ∈ d'.cells, c'.id = c.id ∧ c'.fill = c.fill ∧ c'.uni = c.uni ∧ SconeCellSays c' x)
    (fun c c' x y z => ⟨c', z.1, y.1, y.2.1, y.2.2.1, z.2.2⟩) hp (forall₂_mem hcc)))
  have main := fun (h0 : (0 : Int) ∈ ids) p (hp : near p) => finds_both (cells := d.cells) (cells' := ces') (S := fun c x => c ∈ d.cells ∧ (sconeNumber x = some (intStr c.id) ∧
      (∃ g, sconeRegion x = some (intStr c.id, g) ∧
          ∀ p, (∀ s ∈ d'.surfaces, ∀ u, coneOffset s.type s.coeffs p = some u → |u| < 10 ^ 10) → (InScone tanSq read ses' g p ↔ InDeckCell e.sqrt d c.id p)) ∧
      MadeOf d c (sconeMaterialOf x = some (intStr c.id, c!"void"))
          fun density comp => ∃ name, name ≠ c!"void" ∧ sconeMaterialOf x = some (intStr c.id, name) ∧ SconeHas e.sci mes' name density comp) ∧
      ∃ c' ∈ d'.cells, c'.id = c.id ∧ c'.fill = c.fill ∧ c'.uni = c.uni ∧ SconeCellSays c' x)
    (V := fun (u : Nat) (u' : Str) => (u = 0 ∧ u' = intStr (new + 1)) ∨ (u ≠ 0 ∧ (u : Int) ∈ ids ∧ u' = intStr (u + 1))) (ok := near) (moves := DeckMoves e.io d) (moves' := fun _ p q => q = p)
    (uni := fun c u => deckUniverse c = some u) (uni' := sconeIn ues) (fill := deckFill) (fill' := sconeFill)
    (inside := fun c => InDeckCell e.sqrt d c.id) (inside' := sconeInside tanSq read ses') (u := 0) (u' := intStr (new + 1)) (p := p)
    (fun c hc u u' _ _ => by
      obtain ⟨x, hx, -, -, ⟨k1, k2⟩, c', k3, k4, k5, k6, k7⟩ := forall₂_left_mem hall hc
      exact ⟨x, hx, hc, ⟨by rw [(scone_cell k7).1, k4], k1, k2⟩, c', k3, k4, k5, k6, k7⟩)
    (fun x hx => by
      obtain ⟨c, hc, -, -, ⟨k1, k2⟩, c', k3, k4, k5, k6, k7⟩ := forall₂_right hall x hx
      exact ⟨c, hc, hc, ⟨by rw [(scone_cell k7).1, k4], k1, k2⟩, c', k3, k4, k5, k6, k7⟩)
    (by
      rintro c x u u' ⟨hc, ⟨k0, -⟩, c', k3, k4, k5, k6, k7⟩ hv
      obtain ⟨j1, j2⟩ := scone_uni hidd hnew hperm k3
      rw [k4, k6] at j1 j2
      rw [huni c hc]
      rcases hv with ⟨rfl, rfl⟩ | ⟨hu0, hui, rfl⟩
      · rw [scone_in huc k0, j2 h0]; rfl
      · rw [scone_in huc k0, j1 _ hui (by exact_mod_cast hu0)])
    (by
      rintro c x p ⟨-, ⟨-, ⟨g, k1, k2⟩, -⟩, -⟩ hn
      constructor
      · exact fun h => ⟨_, g, k1, (k2 p (hnear p hn)).2 h⟩
      · rintro ⟨name, g', k3, k4⟩
        rw [k1] at k3
        cases k3
        exact (k2 p (hnear p hn)).1 k4)
    (by
      rintro c x ⟨hc, -, c', k3, k4, k5, k6, k7⟩
      rw [(scone_cell k7).2, k5]
      cases hf : c.fill with
      | none => simp [deckFill_none hf]
      | some f =>
        obtain ⟨n, k, -⟩ := hfill c hc f hf
        simp [k])
    (by
      rintro c x u u' v v' - ⟨hc, -, c', k3, k4, k5, k6, k7⟩ - - hv hv'
      obtain ⟨hv0, y, hy, hyv⟩ := hdef c hc v hv
      rw [(scone_cell k7).2, k5] at hv'
      cases hf : c.fill with
      | none => rw [hf] at hv'; cases hv'
      | some f =>
        obtain ⟨n, j1, j2⟩ := hfill c hc f hf
        rw [hv] at j1
        cases j1
        rw [hf, Option.map_some, j2] at hv'
        cases hv'
        exact .inr ⟨hv0, (hsame _).2 ⟨y, hy, (huni y hy v).1 hyv⟩, rfl⟩)
    (by
      rintro c x p q ⟨hc, -⟩ hn -
      obtain ⟨j1, j2, j3⟩ := hstill c hc fun h => hn (deckFill_none h)
      exact still_moves j1 j2 j3)
    (by
      rintro c x p q ⟨hc, -⟩ hn hp hm
      obtain ⟨j1, j2, j3⟩ := hstill c hc fun h => hn (deckFill_none h)
      rw [(still_moves j1 j2 j3).1 hm]
      exact hp)
    (.inl ⟨rfl, rfl⟩) hp
  have hroot : ∀ u, (∃ i ∈ ues, sconeRoot i = some u) ↔ 0 ∈ ids ∧ u = intStr (new + 1) := by
    intro u
    rw [scone_root huc]
    constructor
    · rintro ⟨w, hw, k1, n, k2, rfl⟩
      have := hperm.subset (List.mem_map_of_mem (f := fun w : UniverseCard K => (w.id, w.isRoot, w.cells, w.fill)) hw)
      rcases List.mem_append.1 this with k | k
      · obtain ⟨u, -, k⟩ := List.mem_map.1 k
        simp [k1] at k
      · by_cases h0 : 0 ∈ ids
        · rw [if_pos h0] at k
          simp [k1, k2] at k
          exact ⟨h0, by rw [k.2.2]⟩
        · rw [if_neg h0] at k
          exact absurd k List.not_mem_nil
    · rintro ⟨h0, rfl⟩
      have : (0, true, [], some new) ∈ us.map fun w => (w.id, w.isRoot, w.cells, w.fill) := by
        refine hperm.symm.subset (List.mem_append_right _ ?_)
        rw [if_pos h0]
        simp
      obtain ⟨w, hw, k⟩ := List.mem_map.1 this
      simp only [Prod.mk.injEq] at k
      exact ⟨w, hw, k.2.1, new, k.2.2.2, rfl⟩
  refine ⟨fun p c hc => ?_, fun p x hx => ?_⟩
  · have h0 : (0 : Int) ∈ ids := by
      have : ∃ c ∈ d.cells, deckUniverse c = some 0 := by
        cases hc.2 with
        | here k1 k2 => exact ⟨_, k1, k2⟩
        | down k1 k2 => exact ⟨_, k1, k2⟩
      obtain ⟨c, hc, k⟩ := this
      exact (hsame 0).2 ⟨c, hc, (huni c hc 0).1 k⟩
    obtain ⟨x, k1, k2⟩ := (main h0 p hc.1).1 c hc.2
    obtain ⟨i, hi, k3⟩ := (hroot (intStr (new + 1))).2 ⟨h0, rfl⟩
    exact ⟨x, ⟨k1.2.1.1, k1.2.1.2.2⟩, hc.1, i, hi, _, k3, k2⟩
  · obtain ⟨hn, i, hi, root, k1, k2⟩ := hx
    obtain ⟨h0, rfl⟩ := (hroot root).1 ⟨i, hi, k1⟩
    obtain ⟨c, k3, k4⟩ := (main h0 p hn).2 x k2
    exact ⟨c, ⟨k3.2.1.1, k3.2.1.2.2⟩, hn, k4⟩

/-- If fills are not moved, a point lies in the cell that is found for it. -/
theorem finds_still {io : NumIO K} {sqrt : K → K} {d : Deck K} (hstill : StillFills d) {p : Point K} {x : Cell K} (hx : DeckFinds io sqrt d p x) :
    x ∈ d.cells ∧ deckFill x = none ∧ InDeckCell sqrt d x.id p := by
  unfold DeckFinds at hx
  generalize (0 : Nat) = u at hx
  induction hx with
  | here k1 _ k2 k3 => exact ⟨k1, k3, k2⟩
  | down k1 _ _ k2 k3 _ ih =>
    obtain ⟨j1, j2, j3⟩ := hstill _ k1 fun h => by rw [deckFill_none h] at k2; cases k2
    rw [(still_moves j1 j2 j3).1 k3] at ih
    exact ih

/-- **C98** is false for FLUKA: the regions of a FLUKA file have no universes, so whatever lies in a filled cell lies in two regions at once. Fills are taken without displacement here, with a displacement the regions are also
in the wrong places. -/
theorem C98_refuted_fluka (e : Env K) (hio : Exact e.io) (hz : e.io.parse c!"0." = some 0) (hz' : e.io.parse c!"0.0" = some 0) (hzero : (e.io.render 0).length ≤ 10)
    (h3 : ∀ x, x = 0 ∨ 1 / 10 ^ 99 ≤ x → x ≤ 10 ^ 9 → (e.sci3 x).length = 10 ∧ '\n' ∉ e.sci3 x)
    (h4 : ∀ x, 1 / 10 ^ 99 ≤ x → x ≤ 100000 → (e.sci4 x).length ≤ 10 ∧ ' ' ∉ e.sci4 x ∧ '\n' ∉ e.sci4 x) (ho : ∀ l, (e.orderStr l).Perm l)
    (cosDeg : K → K) (quick : Bool) (rank : Int → Nat) (text : Str) (d : Deck K)
    (hr : readDeck e.io cosDeg (readText text) = .ok d) (hd : Convertible e.io e.sqrt rank d) (hf : FlukaSource e.io e.sqrt d) (hstill : StillFills d) :
    ∃ fuel₀ d', ∀ fuel ≥ fuel₀, finishDeck fuel e.io cosDeg e.sqrt quick d = some (.ok d') ∧ ∃ out input, Converts { e with fuel := fuel } cosDeg quick text .fluka (.text out) ∧ flukaRead out = some input ∧
      ∀ p, (∀ s ∈ d'.surfaces, side e.sqrt s.type s.coeffs p ≠ some .on) → ∀ c ∈ d.cells, deckFill c ≠ none → InDeckCell e.sqrt d c.id p → ∀ x, DeckFinds e.io e.sqrt d p x →
        ∃ r₁ ∈ input.regions, ∃ r₂ ∈ input.regions, r₁.1 = c!"C" ++ intStr c.id ∧ r₂.1 = c!"C" ++ intStr x.id ∧ r₁.1 ≠ r₂.1 ∧ InFluka e.io input.bodies r₁.2 p ∧ InFluka e.io input.bodies r₂.2 p := by
  obtain ⟨f, d', h⟩ := C96_fluka_partial e hio hz hz' hzero h3 h4 ho cosDeg quick rank text d hr hd hf
  refine ⟨f, d', fun fuel hfuel => ?_⟩
  obtain ⟨a1, out, input, a2, a3, a4, -⟩ := h fuel hfuel
  refine ⟨a1, out, input, a2, a3, fun p hp c hc hfill hin x hx => ?_⟩
  have hx' := finds_still hstill hx
  obtain ⟨r₁, m1, n1, i1⟩ := forall₂_left_mem a4 hc
  obtain ⟨r₂, m2, n2, i2⟩ := forall₂_left_mem a4 hx'.1
  refine ⟨r₁, m1, r₂, m2, n1, n2, fun k => ?_, (i1 p hp).2 hin, (i2 p hp).2 hx'.2.2⟩
  rw [n1, n2] at k
  have := intStr_injective (List.append_cancel_left k)
  have := List.inj_on_of_nodup_map hd.proper.complements.ids hc hx'.1 this
  subst this
  exact hfill hx'.2.1

end

end Csg
