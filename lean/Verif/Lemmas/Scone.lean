import Mathlib.Data.List.Perm.Basic
import Mathlib.Data.List.Dedup
import Verif.Lemmas.CellText
import Verif.Lemmas.Merge
import Verif.Model.Scone
import Verif.Spec.Universes

/-!
# Universes for SCONE
-/

namespace Csg

section
variable {K : Type}

/-- The cells of a universe. -/
def cellsOf (cells : List (Cell K)) (uni : Int) : List Int := (cells.filter fun c => decide (parseInt (optText c.uni) = some uni)).map Cell.id

theorem buildStep_ok {uni : Int} {u : UniverseCard K} {c : Cell K} {cu : Int} (hu : parseInt (optText c.uni) = some cu) (hs : ∃ l, halfspaces c.text = .ok l) :
    ∃ u', buildStep uni u c = .ok u' ∧ u'.id = u.id ∧ u'.isRoot = u.isRoot ∧ u'.fill = u.fill ∧ u'.cells = u.cells ++ (if cu = uni then [c.id] else []) ∧
      (u'.offset = u.offset ∨ c.fill = none ∧ uni = 0 ∧ c.offset ≠ none) ∧ (u'.rotation = u.rotation ∨ c.fill = none ∧ uni = 0 ∧ c.rotation ≠ none) := by
  obtain ⟨hs, hh⟩ := hs
  unfold buildStep
  rw [pyInt_ok.2 hu]
  have hok : ∀ {α β : Type} (a : α) (k : α → Py β), ((.ok a : Py α) >>= k) = k a := fun _ _ => rfl
  simp only [hok]
  by_cases h : cu = uni
  · rw [if_pos h, hh]
    simp only [hok]
    by_cases h0 : c.fill = none ∧ uni = 0
    · rw [if_pos h0]
      refine ⟨_, rfl, rfl, rfl, rfl, by simp [h], ?_, ?_⟩
      · by_cases ho : c.offset = none
        · left; simp [ho]
        · right; exact ⟨h0.1, h0.2, ho⟩
      · by_cases ho : c.rotation = none
        · left; simp [ho]
        · right; exact ⟨h0.1, h0.2, ho⟩
    · rw [if_neg h0]
      exact ⟨_, rfl, rfl, rfl, rfl, by simp [h], Or.inl rfl, Or.inl rfl⟩
  · rw [if_neg h]
    simp only [hok]
    by_cases h0 : c.fill = none ∧ uni = 0
    · rw [if_pos h0]
      refine ⟨_, rfl, rfl, rfl, rfl, by simp [h], ?_, ?_⟩
      · by_cases ho : c.offset = none
        · left; simp [ho]
        · right; exact ⟨h0.1, h0.2, ho⟩
      · by_cases ho : c.rotation = none
        · left; simp [ho]
        · right; exact ⟨h0.1, h0.2, ho⟩
    · rw [if_neg h0]
      exact ⟨_, rfl, rfl, rfl, rfl, by simp [h], Or.inl rfl, Or.inl rfl⟩

/-- Universes and halfspaces of all cells can be read. -/
def Readable (cells : List (Cell K)) : Prop := ∀ c ∈ cells, (∃ u, parseInt (optText c.uni) = some u) ∧ ∃ l, halfspaces c.text = .ok l

theorem buildUniverse_ok {cells : List (Cell K)} (h : Readable cells) (uni : Int) :
    ∃ u, buildUniverse cells uni = .ok u ∧ u.id = uni ∧ u.isRoot = decide (uni = 0) ∧ u.fill = none ∧ u.cells = cellsOf cells uni ∧
      ((∀ c ∈ cells, c.fill = none → c.offset = none) → u.offset = none) ∧ ((∀ c ∈ cells, c.fill = none → c.rotation = none) → u.rotation = none) := by
  have gen : ∀ (cells : List (Cell K)) (u : UniverseCard K), Readable cells → ∃ u', cells.foldlM (buildStep uni) u = .ok u' ∧ u'.id = u.id ∧ u'.isRoot = u.isRoot ∧ u'.fill = u.fill ∧
      u'.cells = u.cells ++ cellsOf cells uni ∧
      ((∀ c ∈ cells, c.fill = none → c.offset = none) → u'.offset = u.offset) ∧ ((∀ c ∈ cells, c.fill = none → c.rotation = none) → u'.rotation = u.rotation) := by
    intro cells
    induction cells with
    | nil => intro u _; exact ⟨u, rfl, rfl, rfl, rfl, by simp [cellsOf], fun _ => rfl, fun _ => rfl⟩
    | cons c cells ih =>
      intro u h
      obtain ⟨⟨cu, hcu⟩, hs⟩ := h c (by simp)
      obtain ⟨u1, e1, a1, a2, a3, a4, a5, a6⟩ := buildStep_ok (uni := uni) (u := u) hcu hs
      obtain ⟨u2, e2, b1, b2, b3, b4, b5, b6⟩ := ih u1 fun x hx => h x (by simp [hx])
      refine ⟨u2, ?_, b1.trans a1, b2.trans a2, b3.trans a3, ?_, fun hc => ?_, fun hc => ?_⟩
      · rw [List.foldlM_cons, e1]; exact e2
      · rw [b4, a4, List.append_assoc]
        congr 1
        unfold cellsOf
        rw [List.filter_cons, hcu]
        by_cases hh : cu = uni <;> simp [hh]
      · rw [b5 fun x hx => hc x (by simp [hx])]
        rcases a5 with h | ⟨h1, _, h2⟩
        · exact h
        · exact absurd (hc c (by simp) h1) h2
      · rw [b6 fun x hx => hc x (by simp [hx])]
        rcases a6 with h | ⟨h1, _, h2⟩
        · exact h
        · exact absurd (hc c (by simp) h1) h2
  obtain ⟨u, h1, h2, h3, h4, h5, h6, h7⟩ := gen cells (.start uni) h
  exact ⟨u, h1, h2, h3, h4, by rw [h5]; rfl, h6, h7⟩

theorem mapM_ok_of_forall {α β : Type} {f : α → Py β} {g : α → β} : ∀ {l : List α}, (∀ a ∈ l, f a = .ok (g a)) → l.mapM f = .ok (l.map g)
  | [], _ => rfl
  | a :: l, h => by
    rw [List.mapM_cons, h a (by simp), mapM_ok_of_forall fun x hx => h x (by simp [hx])]
    rfl

/-- What is known of a universe: number, root, cells, fill. -/
def UniverseCard.summary (u : UniverseCard K) : Int × Bool × List Int × Option Int := (u.id, u.isRoot, u.cells, u.fill)

/-- The universes made of the cells. -/
theorem createUniverses_ok {cells : List (Cell K)} (h : Readable cells) {order : List Int} (hnd : order.Nodup)
    (ho : ∀ u, u ∈ order ↔ ∃ c ∈ cells, parseInt (optText c.uni) = some u) :
    ∃ us, createUniverses order [] cells = .ok us ∧
      (∃ new : Int, (0 ∈ order → (∃ m ∈ order, new = m + 1) ∧ ∀ u ∈ order, u < new) ∧
        List.Perm (us.map UniverseCard.summary) ((order.filter (· ≠ 0)).map (fun u => (u, false, cellsOf cells u, none)) ++
          (if 0 ∈ order then [(0, true, [], some new), (new, false, cellsOf cells 0, none)] else []))) ∧
      ((∀ c ∈ cells, c.fill = none → c.offset = none) → ∀ u ∈ us, u.offset = none) ∧ ((∀ c ∈ cells, c.fill = none → c.rotation = none) → ∀ u ∈ us, u.rotation = none) := by
  obtain ⟨F, hF⟩ := Classical.axiomOfChoice (fun uni => buildUniverse_ok h uni)
  have hmap : order.mapM (buildUniverse cells) = .ok (order.map F) := mapM_ok_of_forall fun u _ => (hF u).1
  have hcells : ∀ u ∈ order, (F u).cells ≠ [] := by
    intro u hu
    obtain ⟨c, hc, hcu⟩ := (ho u).1 hu
    rw [(hF u).2.2.2.2.1]
    intro e
    have : c.id ∈ cellsOf cells u := List.mem_map.2 ⟨c, List.mem_filter.2 ⟨hc, by simp [hcu]⟩, rfl⟩
    rw [e] at this
    cases this
  have hsum : ∀ u, (F u).summary = (u, decide (u = 0), cellsOf cells u, none) := by
    intro u
    obtain ⟨_, h1, h2, h3, h4, _⟩ := hF u
    simp [UniverseCard.summary, h1, h2, h3, h4]
  have hok : ∀ {α β : Type} (a : α) (k : α → Py β), ((.ok a : Py α) >>= k) = k a := fun _ _ => rfl
  unfold createUniverses
  rw [hmap]
  simp only [hok, List.nil_append]
  by_cases h0 : (0 : Int) ∈ order
  · have hany : ((order.map F).any fun u => decide (u.isRoot ∧ u.cells ≠ [])) = true := by
      rw [List.any_eq_true]
      refine ⟨F 0, List.mem_map.2 ⟨0, h0, rfl⟩, ?_⟩
      rw [decide_eq_true_eq]
      exact ⟨by rw [(hF 0).2.2.1]; rfl, hcells 0 h0⟩
    rw [if_pos hany]
    obtain ⟨m, hm⟩ : ∃ m, order.max? = some m := by
      cases hmx : order.max? with
      | none => rw [List.max?_eq_none_iff] at hmx; rw [hmx] at h0; cases h0
      | some m => exact ⟨m, rfl⟩
    have hmax := List.max?_eq_some_iff.1 hm
    rw [hm]
    refine ⟨_, rfl, ⟨m + 1, fun _ => ⟨⟨m, hmax.1, rfl⟩, fun u hu => ?_⟩, ?_⟩, ?_, ?_⟩
    · have := hmax.2 _ hu; omega
    · -- the splitting
      rw [if_pos h0]
      obtain ⟨rest, hperm⟩ : ∃ rest, order.Perm (0 :: rest) := ⟨order.erase 0, List.perm_cons_erase h0⟩
      have hnd' := hperm.nodup_iff.1 hnd
      have h0r : (0 : Int) ∉ rest := (List.nodup_cons.1 hnd').1
      have hfil : (order.filter (· ≠ 0)).Perm rest := by
        refine (hperm.filter _).trans ?_
        rw [List.filter_cons_of_neg (by simp), List.filter_eq_self.2 fun x hx => by
          simp only [ne_eq, decide_not, Bool.not_eq_eq_eq_not, Bool.not_true, decide_eq_false_iff_not]
          rintro rfl; exact h0r hx]
      have hsp : ∀ u ∈ rest, splitRoot (m + 1) (F u) = (F u, none) := by
        intro u hu
        unfold splitRoot
        rw [if_neg]
        rintro ⟨hr, _⟩
        rw [(hF u).2.2.1, decide_eq_true_eq] at hr
        subst hr
        exact h0r hu
      have hsp0 : splitRoot (m + 1) (F 0) = ({ F 0 with cells := [], fill := some (m + 1) }, some { F 0 with id := m + 1, isRoot := false, border := 0 }) := by
        unfold splitRoot
        rw [if_pos ⟨by rw [(hF 0).2.2.1]; rfl, hcells 0 h0⟩]
      have hp := (hperm.map F).map (splitRoot (m + 1))
      refine ((((hp.map Prod.fst).append (hp.filterMap Prod.snd)).map UniverseCard.summary)).trans ?_
      simp only [List.map_cons, List.filterMap_cons, hsp0, List.map_append, List.map_map]
      have e1 : rest.map (UniverseCard.summary ∘ Prod.fst ∘ splitRoot (m + 1) ∘ F) = rest.map fun u => (u, false, cellsOf cells u, none) := by
        refine List.map_congr_left fun u hu => ?_
        simp only [Function.comp, hsp u hu, hsum]
        have : decide (u = 0) = false := decide_eq_false fun e => h0r (e ▸ hu)
        rw [this]
      have e2 : (rest.map (splitRoot (m + 1) ∘ F)).filterMap Prod.snd = [] := by
        rw [List.filterMap_map, List.filterMap_eq_nil_iff]
        intro u hu
        simp [hsp u hu]
      rw [e1, e2]
      have s0 : UniverseCard.summary ({ F 0 with cells := [], fill := some (m + 1) } : UniverseCard K) = (0, true, [], some (m + 1)) := by
        obtain ⟨_, h1, h2, h3, h4, _⟩ := hF 0
        simp [UniverseCard.summary, h1, h2]
      have s1 : UniverseCard.summary ({ F 0 with id := m + 1, isRoot := false, border := 0 } : UniverseCard K) = (m + 1, false, cellsOf cells 0, none) := by
        obtain ⟨_, h1, h2, h3, h4, _⟩ := hF 0
        simp [UniverseCard.summary, h3, h4]
      simp only [List.map_nil, s0, s1]
      refine List.Perm.trans ?_ ((hfil.map _).symm.append_right _)
      rw [List.cons_append]
      exact (List.perm_middle (l₁ := rest.map fun u => ((u, false, cellsOf cells u, none) : Int × Bool × List Int × Option Int))
        (l₂ := [(m + 1, false, cellsOf cells 0, none)])).symm
    · intro hc u hu
      rcases List.mem_append.1 hu with hu | hu
      · obtain ⟨p, hp, rfl⟩ := List.mem_map.1 hu
        obtain ⟨w, hw, rfl⟩ := List.mem_map.1 hp
        obtain ⟨x, _, rfl⟩ := List.mem_map.1 hw
        have := (hF x).2.2.2.2.2.1 hc
        unfold splitRoot
        split <;> exact this
      · obtain ⟨p, hp, hpu⟩ := List.mem_filterMap.1 hu
        obtain ⟨w, hw, rfl⟩ := List.mem_map.1 hp
        obtain ⟨x, _, rfl⟩ := List.mem_map.1 hw
        have := (hF x).2.2.2.2.2.1 hc
        unfold splitRoot at hpu
        split at hpu
        · cases hpu; exact this
        · cases hpu
    · intro hc u hu
      rcases List.mem_append.1 hu with hu | hu
      · obtain ⟨p, hp, rfl⟩ := List.mem_map.1 hu
        obtain ⟨w, hw, rfl⟩ := List.mem_map.1 hp
        obtain ⟨x, _, rfl⟩ := List.mem_map.1 hw
        have := (hF x).2.2.2.2.2.2 hc
        unfold splitRoot
        split <;> exact this
      · obtain ⟨p, hp, hpu⟩ := List.mem_filterMap.1 hu
        obtain ⟨w, hw, rfl⟩ := List.mem_map.1 hp
        obtain ⟨x, _, rfl⟩ := List.mem_map.1 hw
        have := (hF x).2.2.2.2.2.2 hc
        unfold splitRoot at hpu
        split at hpu
        · cases hpu; exact this
        · cases hpu
  · have hany : ¬ ((order.map F).any fun u => decide (u.isRoot ∧ u.cells ≠ [])) = true := by
      rw [List.any_eq_true]
      rintro ⟨w, hw, h⟩
      obtain ⟨x, hx, rfl⟩ := List.mem_map.1 hw
      rw [decide_eq_true_eq, (hF x).2.2.1, decide_eq_true_eq] at h
      exact h0 (h.1 ▸ hx)
    rw [if_neg hany]
    refine ⟨_, rfl, ⟨1, fun h => absurd h h0, ?_⟩, ?_, ?_⟩
    · rw [if_neg h0, List.append_nil, List.map_map]
      have : order.filter (· ≠ 0) = order := List.filter_eq_self.2 fun x hx => by
          simp only [ne_eq, decide_not, Bool.not_eq_eq_eq_not, Bool.not_true, decide_eq_false_iff_not]
          rintro rfl; exact h0 hx
      rw [this]
      refine List.Perm.of_eq (List.map_congr_left fun u hu => ?_)
      simp only [Function.comp, hsum]
      have : decide (u = 0) = false := decide_eq_false fun e => h0 (e ▸ hu)
      rw [this]
    · intro hc u hu
      obtain ⟨x, _, rfl⟩ := List.mem_map.1 hu
      exact (hF x).2.2.2.2.2.1 hc
    · intro hc u hu
      obtain ⟨x, _, rfl⟩ := List.mem_map.1 hu
      exact (hF x).2.2.2.2.2.2 hc

/-! ## The border -/

theorem halfspaces_numbers {text : List Str} {l : List Int} (h : halfspaces text = .ok l) : l = Spec.descriptionNumbers text := by
  unfold halfspaces at h
  unfold Spec.descriptionNumbers
  induction text generalizing l with
  | nil => cases h; rfl
  | cons w text ih =>
    rw [List.filter_cons] at h
    split at h
    · rename_i hw
      rw [List.mapM_cons] at h
      obtain ⟨z, hz, h⟩ := bind_ok h
      obtain ⟨r, hr, h⟩ := bind_ok h
      cases h
      simp only [Bool.and_eq_true, decide_eq_true_eq, List.all_eq_true] at hw
      have hp : '+' ∉ w := by
        intro hp
        have hdrop : ∀ v : Str, '+' ∈ v → '+' ∈ v.dropWhile (· = '-') := by
          intro v
          induction v with
          | nil => intro h; cases h
          | cons c v ih =>
            intro hm
            by_cases hc : c = '-'
            · rw [List.dropWhile_cons_of_pos (by simpa using hc)]
              subst hc
              exact ih ((List.mem_cons.1 hm).resolve_left (by decide))
            · rw [List.dropWhile_cons_of_neg (by simpa using hc)]
              exact hm
        have := hw.2 '+' (hdrop w hp)
        exact absurd this (by decide)
      rw [List.filterMap_cons, if_neg hp, pyInt_ok.1 hz]
      simp only
      rw [ih hr]
    · rename_i hw
      rw [ih h, List.filterMap_cons]
      have hn : (if '+' ∈ w then none else parseInt w) = none := by
        split
        · rfl
        · rename_i hp
          by_contra hne
          obtain ⟨z, hz⟩ := Option.ne_none_iff_exists'.1 hne
          apply hw
          have nat : ∀ t : Str, ∀ n, parseNat t = some n → t ≠ [] ∧ t.all isDigit = true := by
            intro t n h
            unfold parseNat at h
            split at h
            · rename_i h'; exact h'
            · cases h
          have drop : ∀ t : Str, t ≠ [] ∧ t.all isDigit = true → t.dropWhile (· = '-') = t := by
            intro t ht
            cases t with
            | nil => rfl
            | cons c t =>
              refine List.dropWhile_cons_of_neg ?_
              have := List.all_eq_true.1 ht.2 c (by simp)
              intro hc
              simp only [decide_eq_true_eq] at hc
              subst hc
              exact absurd this (by decide)
          have done : ∀ t : Str, w.dropWhile (· = '-') = t → t ≠ [] ∧ t.all isDigit = true → (decide (w.dropWhile (· = '-') ≠ []) && (w.dropWhile (· = '-')).all isDigit) = true := by
            intro t e ht
            rw [e]
            simp only [ht.2, Bool.and_true, decide_eq_true_eq]
            exact ht.1
          unfold parseInt at hz
          split at hz
          · rename_i t
            obtain ⟨n, hn⟩ : ∃ n, parseNat t = some n := by
              cases hn : parseNat t with
              | none => rw [hn] at hz; cases hz
              | some n => exact ⟨n, rfl⟩
            refine done t ?_ (nat t n hn)
            rw [List.dropWhile_cons_of_pos (by simp), drop t (nat t n hn)]
          · rename_i t
            exact absurd (by simp) hp
          · obtain ⟨n, hn⟩ : ∃ n, parseNat w = some n := by
              cases hn : parseNat w with
              | none => rw [hn] at hz; cases hz
              | some n => exact ⟨n, rfl⟩
            exact done w (drop w (nat w n hn)) (nat w n hn)
      rw [hn]

theorem buildUniverse_border {cells : List (Cell K)} {uni : Int} {u : UniverseCard K} (h : buildUniverse cells uni = .ok u) :
    u.border = if uni = 0 then ((cells.filterMap Spec.outerSide).getLast?).getD 0 else 0 := by
  have gen : ∀ (cells : List (Cell K)) (u u' : UniverseCard K), cells.foldlM (buildStep uni) u = .ok u' →
      u'.border = if uni = 0 then ((cells.filterMap Spec.outerSide).getLast?).getD u.border else u.border := by
    intro cells
    induction cells with
    | nil => intro u u' h; cases h; simp
    | cons c cells ih =>
      intro u u' h
      rw [List.foldlM_cons] at h
      obtain ⟨v, hv, h⟩ := bind_ok h
      rw [ih v u' h]
      have hb : v.border = if uni = 0 then (Spec.outerSide c).getD u.border else u.border := by
        unfold buildStep at hv
        obtain ⟨cu, hcu, hv⟩ := bind_ok hv
        obtain ⟨w, hw, hv⟩ := bind_ok hv
        have hvw : v.border = w.border := by
          split at hv <;> cases hv <;> rfl
        rw [hvw]
        have hcu' : parseInt (c.uni.getD c!"0") = some cu := pyInt_ok.1 hcu
        split at hw
        · rename_i he
          subst he
          obtain ⟨hs, hh, hw⟩ := bind_ok hw
          cases hw
          rw [halfspaces_numbers hh]
          unfold Spec.outerSide
          rw [hcu']
          by_cases h0 : cu = 0
          · subst h0
            simp only [if_true]
            split
            · rename_i s hs'
              rw [hs']
              by_cases hp : 0 < s <;> simp [hp]
            · rename_i hne
              split
              · rename_i s hs'
                exact absurd hs' (hne s)
              · rfl
          · simp only [if_neg h0]
            split
            · rw [if_neg (by simp [h0])]
            · rfl
        · rename_i he
          cases hw
          unfold Spec.outerSide
          by_cases h0 : uni = 0
          · subst h0
            rw [if_pos rfl, hcu', if_neg (by simpa using he)]
            rfl
          · rw [if_neg h0]
      by_cases h0 : uni = 0
      · simp only [if_pos h0] at hb ⊢
        rw [List.filterMap_cons]
        cases ho : Spec.outerSide c with
        | none => rw [hb, ho]; rfl
        | some s =>
          rw [hb, ho]
          simp only [Option.getD_some]
          cases hl : cells.filterMap Spec.outerSide with
          | nil => rfl
          | cons a l => rw [List.getLast?_cons_cons]; simp [List.getLast?_cons]
      · simp only [if_neg h0] at hb ⊢
        exact hb
  exact gen cells (.start uni) u h

/-- The border of the universes. -/
theorem createUniverses_border {cells : List (Cell K)} {order : List Int} {us : List (UniverseCard K)} (h : createUniverses order [] cells = .ok us) :
    ∀ u ∈ us, u.border = if u.isRoot then ((cells.filterMap Spec.outerSide).getLast?).getD 0 else 0 := by
  unfold createUniverses at h
  obtain ⟨bs, hbs, h⟩ := bind_ok h
  have hb : ∀ u ∈ bs, u.border = if u.isRoot then ((cells.filterMap Spec.outerSide).getLast?).getD 0 else 0 := by
    intro u hu
    have mem : ∀ (l : List Int) (bs : List (UniverseCard K)), l.mapM (buildUniverse cells) = .ok bs → ∀ u ∈ bs, ∃ x, buildUniverse cells x = .ok u := by
      intro l
      induction l with
      | nil => intro bs h u hu; cases h; cases hu
      | cons x l ih =>
        intro bs h u hu
        rw [List.mapM_cons] at h
        obtain ⟨b, hb, h⟩ := bind_ok h
        obtain ⟨r, hr, h⟩ := bind_ok h
        cases h
        rcases List.mem_cons.1 hu with rfl | hu
        · exact ⟨x, hb⟩
        · exact ih r hr u hu
    obtain ⟨x, hx⟩ := mem order bs hbs u hu
    have hr : u.isRoot = decide (x = 0) := by
      have gen : ∀ (cells : List (Cell K)) (v v' : UniverseCard K), cells.foldlM (buildStep x) v = .ok v' → v'.isRoot = v.isRoot := by
        intro cells
        induction cells with
        | nil => intro v v' h; cases h; rfl
        | cons c cells ih =>
          intro v v' h
          rw [List.foldlM_cons] at h
          obtain ⟨w, hw, h⟩ := bind_ok h
          rw [ih w v' h]
          unfold buildStep at hw
          obtain ⟨cu, -, hw⟩ := bind_ok hw
          obtain ⟨y, hy, hw⟩ := bind_ok hw
          have e1 : w.isRoot = y.isRoot := by split at hw <;> cases hw <;> rfl
          rw [e1]
          split at hy
          · obtain ⟨hs, -, hy⟩ := bind_ok hy
            cases hy; rfl
          · cases hy; rfl
      exact gen cells _ _ hx
    rw [buildUniverse_border hx]
    rw [hr]
    simp only [decide_eq_true_eq]
  simp only [List.nil_append] at h
  split at h
  · split at h
    · cases h
    · cases h
      intro u hu
      rcases List.mem_append.1 hu with hu | hu
      · obtain ⟨p, hp, rfl⟩ := List.mem_map.1 hu
        obtain ⟨w, hw, rfl⟩ := List.mem_map.1 hp
        have := hb w hw
        unfold splitRoot
        split <;> exact this
      · obtain ⟨p, hp, hpu⟩ := List.mem_filterMap.1 hu
        obtain ⟨w, hw, rfl⟩ := List.mem_map.1 hp
        unfold splitRoot at hpu
        split at hpu
        · cases hpu; rfl
        · cases hpu
  · cases h
    exact hb

end

end Csg
