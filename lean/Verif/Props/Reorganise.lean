import Verif.Lemmas.Reorganise
import Verif.Lemmas.Explode
import Verif.Spec.Sample

/-!
# Materials and densities: C48, C49
-/

set_option linter.unusedSectionVars false

namespace Csg

open Spec

section
variable {K : Type} [Field K] [LinearOrder K]

/-- The composition of `m'` is that of `m` after normalising (C43) and expansion of the elements (C44 to C47). -/
def Spec.Prepared (m m' : Material K) : Prop := ∃ n e, m.normalise = .ok n ∧ n.explode = .ok e ∧ m'.composition = e.composition

/-- Every material in use is on the list. -/
def Spec.Defined (mats : List (Str × Material K)) (cells : List (Cell K)) : Prop :=
  ∀ c ∈ cells, ∃ z, c.material = .int z ∧ (z ≠ 0 → intStr z ∈ mats.map Prod.fst)

/-- What normalising and expanding give for a material. -/
private def prepare (m : Material K) : Py (Material K) := do
  let m ← m.normalise
  m.explode

private theorem normalise_congr {m m' n : Material K} (hc : m'.composition = m.composition) (h : m.normalise = .ok n) :
    ∃ n', m'.normalise = .ok n' ∧ n'.composition = n.composition ∧ n'.density = m'.density ∧ n'.number = m'.number := by
  unfold Material.normalise at h ⊢
  rw [hc]
  simp only at h ⊢
  split at h
  · cases h
  · rename_i hh
    rw [if_neg hh]
    cases h
    exact ⟨_, rfl, rfl, rfl, rfl⟩

private theorem explode_congr {m m' n : Material K} (hc : m'.composition = m.composition) (h : m.explode = .ok n) :
    ∃ n', m'.explode = .ok n' ∧ n'.composition = n.composition ∧ n'.density = m'.density ∧ n'.number = m'.number := by
  unfold Material.explode at h ⊢
  rw [hc]
  rcases he : explodeAll ([] : List Str) ([] : List (Str × K)) m.composition with e | ⟨keys, new⟩
  · rw [he] at h; cases h
  · rw [he] at h
    cases h
    exact ⟨_, rfl, rfl, rfl, rfl⟩

private theorem prepare_congr {m m' n e : Material K} (hc : m'.composition = m.composition) (h1 : m.normalise = .ok n) (h2 : n.explode = .ok e) :
    ∃ p, prepare m' = .ok p ∧ p.composition = e.composition ∧ p.density = m'.density ∧ p.number = m'.number := by
  obtain ⟨n', a1, a2, a3, a4⟩ := normalise_congr hc h1
  obtain ⟨e', b1, b2, b3, b4⟩ := explode_congr a2 h2
  refine ⟨e', ?_, b2, b3.trans a3, b4.trans a4⟩
  unfold prepare
  rw [a1]
  exact b1

/-- The loop in lines 377-381 on the list. -/
private theorem prepare_list : ∀ mats : List (Str × Material K), (∀ e ∈ mats, ∃ p, prepare e.2 = .ok p) →
    ∃ mats', (mats.mapM fun e => do
        let m ← e.2.normalise
        let m ← m.explode
        .ok (e.1, m) : Py (List (Str × Material K))) = .ok mats' ∧ mats'.map Prod.fst = mats.map Prod.fst ∧
      ∀ k m, mats.lookup k = some m → ∃ p, prepare m = .ok p ∧ mats'.lookup k = some p := by
  intro mats
  induction mats with
  | nil => intro _; exact ⟨[], rfl, rfl, by simp⟩
  | cons e mats ih =>
    intro h
    obtain ⟨mats', h1, h2, h3⟩ := ih fun e he => h e (by simp [he])
    obtain ⟨k, m⟩ := e
    obtain ⟨p, hp⟩ := h (k, m) (by simp)
    refine ⟨(k, p) :: mats', ?_, by simp [h2], ?_⟩
    · rw [List.mapM_cons, h1]
      have hp' := hp
      unfold prepare at hp'
      rcases hn : m.normalise with e | n
      · rw [hn] at hp'; cases hp'
      · rw [hn] at hp'
        simp only [bind, Except.bind] at hp' ⊢
        rw [hp']
        rfl
    · intro k' m' hl
      rw [List.lookup_cons] at hl ⊢
      by_cases e : k' = k
      · subst e
        rw [beq_self_eq_true] at hl ⊢
        cases hl
        exact ⟨p, hp, rfl⟩
      · rw [beq_false_of_ne e] at hl ⊢
        exact h3 k' m' hl

/-- All that the next two theorems need. -/
private theorem reorganise_spec (io : NumIO K) (mats : List (Str × Material K)) (cells : List (Cell K)) (hkeys : (mats.map Prod.fst).Nodup) (hdef : Defined mats cells)
    (hprep : ∀ e ∈ mats, ∃ m', Prepared e.2 m') :
    ∃ mats' f, reorganiseMaterials io mats cells = .ok (mats', cells.map (renCell f)) ∧
      (∀ d, f 0 d = none) ∧
      (∀ z d z' d' k, f z d = some k → f z' d' = some k → z = z' ∧ d = d') ∧
      (∀ z d k, f z d = some k → k ∉ mats.map Prod.fst ∧ k ≠ intStr 0) ∧
      (∀ c ∈ cells, ∀ z, c.material = .int z → z ≠ 0 → ∃ m m', mats.lookup (intStr z) = some m ∧ mats'.lookup ((f z c.density).getD (intStr z)) = some m' ∧
        m'.density = c.density ∧ Prepared m m' ∧ (m.number = intStr z → m'.number = (f z c.density).getD (intStr z))) ∧
      (∀ c ∈ cells, ∀ c' ∈ cells, ∀ z, c.material = .int z → c'.material = .int z → z ≠ 0 → f z c.density = none → f z c'.density = none → c.density = c'.density) := by
  obtain ⟨md, h1, h2⟩ := materialDensity_spec cells (fun c hc => (hdef c hc).imp fun _ h => h.1) ([] : List (Int × List K)) (fun _ _ => False) ⟨by simp, by simp, by simp⟩
  have hmem := h2.mem
  simp only [false_or] at hmem
  unfold reorganiseMaterials
  rw [h1]
  simp only [bind, Except.bind]
  generalize hmd : md.filter (fun e => decide (e.1 ≠ 0)) = md'
  have hin : ∀ z ds, (z, ds) ∈ md' ↔ (z, ds) ∈ md ∧ z ≠ 0 := by
    intro z ds; rw [← hmd, List.mem_filter]; simp
  by_cases hnil : md' = []
  · rw [if_pos hnil]
    have hvoid : ∀ c ∈ cells, ∀ z, c.material = .int z → z = 0 := by
      intro c hc z hz
      by_contra hne
      obtain ⟨ds, hds, -⟩ := (hmem z c.density).2 ⟨c, hc, hz, rfl⟩
      have := (hin z ds).2 ⟨hds, hne⟩
      rw [hnil] at this
      cases this
    refine ⟨mats, fun _ _ => none, ?_, by simp, by simp, by simp, ?_, ?_⟩
    · have : cells.map (renCell fun _ _ => none) = cells := by
        conv_rhs => rw [← List.map_id cells]
        apply List.map_congr_left
        intro c hc
        obtain ⟨z, hz, -⟩ := hdef c hc
        unfold renCell
        rw [hz]
        rfl
      rw [this]
    · intro c hc z hz hne; exact absurd (hvoid c hc z hz) hne
    · intro c hc _ _ z hz _ hne; exact absurd (hvoid c hc z hz) hne
  · rw [if_neg hnil]
    have hperm : (md'.insertionSort fun a b => a.1 ≤ b.1).Perm md' := List.perm_insertionSort _ _
    have hnd' : ((md'.insertionSort fun a b => a.1 ≤ b.1).map Prod.fst).Nodup := by
      rw [(hperm.map Prod.fst).nodup_iff, ← hmd]
      exact (List.Sublist.map _ List.filter_sublist).nodup h2.nodup
    have hinv0 : CopyInv mats mats (fun (_ : Int) (_ : K) => none) :=
      ⟨hkeys, by simp, by simp, by simp, by simp, fun k m0 h => ⟨m0, h, rfl, rfl⟩, fun k h => Or.inl h⟩
    have hid : cells.map (renCell fun _ _ => none) = cells := by
      conv_rhs => rw [← List.map_id cells]
      apply List.map_congr_left
      intro c hc
      obtain ⟨z, hz, -⟩ := hdef c hc
      unfold renCell
      rw [hz]
      rfl
    obtain ⟨mats1, f, g1, g2, g3, g4, -⟩ := assignDensities_spec io mats cells (md'.insertionSort fun a b => a.1 ≤ b.1) mats (fun _ _ => none) hnd' (by
      intro z ds h
      have h := (hin z ds).1 (hperm.mem_iff.1 h)
      obtain ⟨a1, a2⟩ := h2.good z ds h.1
      refine ⟨a1, a2, ?_, by simp⟩
      obtain ⟨x, hx⟩ := List.exists_mem_of_ne_nil _ a2
      obtain ⟨c, hc, hz, -⟩ := (hmem z x).1 ⟨ds, h.1, hx⟩
      obtain ⟨z', hz', hk⟩ := hdef c hc
      rw [hz] at hz'
      cases hz'
      exact hk h.2) hinv0
    rw [hid] at g1
    rw [g1]
    simp only
    have hp1 : ∀ e ∈ mats1, ∃ p, prepare e.2 = .ok p := by
      rintro ⟨k, m⟩ he
      have hl := (lookup_iff_mem g2.nodup).2 he
      have base : ∀ k0 m0, mats.lookup k0 = some m0 → m.composition = m0.composition → ∃ p, prepare m = .ok p := by
        intro k0 m0 hm0 hc
        obtain ⟨-, n, e, a1, a2, -⟩ := hprep (k0, m0) ((lookup_iff_mem hkeys).1 hm0)
        obtain ⟨p, hp, -⟩ := prepare_congr hc a1 a2
        exact ⟨p, hp⟩
      rcases g2.only k (List.mem_map.2 ⟨_, he, rfl⟩) with h | ⟨z, d, h⟩
      · rcases hm0 : mats.lookup k with _ | m0
        · exact absurd h (lookup_none_iff.1 hm0)
        · obtain ⟨m', a1, a2, -⟩ := g2.orig _ _ hm0
          rw [hl] at a1
          cases a1
          exact base k m0 hm0 a2
      · obtain ⟨m0, m', a1, a2, a3, -⟩ := g2.copy _ _ _ h
        rw [hl] at a2
        cases a2
        exact base _ m0 a1 a3
    obtain ⟨mats', p1, -, p3⟩ := prepare_list mats1 hp1
    simp only [bind, Except.bind] at p1
    rw [p1]
    have hsame : ∀ c ∈ cells, ∀ z, c.material = .int z → z ≠ 0 → ∃ d0 m, f z d0 = none ∧ mats1.lookup (intStr z) = some m ∧ m.density = d0 ∧
        (f z c.density = none → c.density = d0) := by
      intro c hc z hz hne
      obtain ⟨ds, hds, hx⟩ := (hmem z c.density).2 ⟨c, hc, hz, rfl⟩
      obtain ⟨d0, m, b1, b2, b3, b4, b5⟩ := g3 z ds (hperm.mem_iff.2 ((hin z ds).2 ⟨hds, hne⟩))
      refine ⟨d0, m, b2, b3, b4, fun hn => ?_⟩
      by_contra hd
      exact b5 _ hx hd hn
    refine ⟨mats', f, rfl, ?_, g2.inj, ?_, ?_, ?_⟩
    · intro d
      refine g4 0 d ?_
      intro h
      obtain ⟨⟨z, ds⟩, h, e⟩ := List.mem_map.1 h
      exact ((hin z ds).1 (hperm.mem_iff.1 h)).2 e
    · intro z d k h
      refine ⟨g2.fresh _ _ _ h, ?_⟩
      obtain ⟨n, hn, rfl⟩ := g2.pos _ _ _ h
      intro e
      have := natStr_injective (show natStr n = natStr 0 from e)
      omega
    · intro c hc z hz hne
      have prep : ∀ m0 m p, mats.lookup (intStr z) = some m0 → m.composition = m0.composition → prepare m = .ok p → Prepared m0 p ∧ p.density = m.density ∧ p.number = m.number := by
        intro m0 m p hm0 hcomp hp
        obtain ⟨-, n, e, a1, a2, -⟩ := hprep (_, m0) ((lookup_iff_mem hkeys).1 hm0)
        obtain ⟨p', hp', b1, b2, b3⟩ := prepare_congr hcomp a1 a2
        rw [hp] at hp'
        cases hp'
        exact ⟨⟨n, e, a1, a2, b1⟩, b2, b3⟩
      rcases hf : f z c.density with _ | k
      · obtain ⟨d0, m, b2, b3, b4, b5⟩ := hsame c hc z hz hne
        obtain ⟨z', hz', hk⟩ := hdef c hc
        rw [hz] at hz'
        cases hz'
        rcases hm0 : mats.lookup (intStr z) with _ | m0
        · exact absurd (hk hne) (lookup_none_iff.1 hm0)
        · obtain ⟨m1, c1, c2, c3⟩ := g2.orig _ _ hm0
          rw [b3] at c1
          cases c1
          obtain ⟨p, q1, q2⟩ := p3 _ _ b3
          obtain ⟨r1, r2, r3⟩ := prep m0 m p hm0 c2 q1
          exact ⟨m0, p, rfl, q2, by rw [r2, b4, b5 hf], r1, fun h => by rw [r3, c3, h]; rfl⟩
      · obtain ⟨m0, m, c1, c2, c3, c4, c5⟩ := g2.copy _ _ _ hf
        obtain ⟨p, q1, q2⟩ := p3 _ _ c2
        obtain ⟨r1, r2, r3⟩ := prep m0 m p c1 c3 q1
        exact ⟨m0, p, c1, q2, by rw [r2, c4], r1, fun _ => by rw [r3, c5]; rfl⟩
    · intro c hc c' hc' z hz hz' hne hf hf'
      obtain ⟨d0, m, -, b3, b4, b5⟩ := hsame c hc z hz hne
      obtain ⟨d0', m', -, b3', b4', b5'⟩ := hsame c' hc' z hz' hne
      rw [b3] at b3'
      cases b3'
      rw [b5 hf, b5' hf', ← b4, ← b4']

private theorem renCell_text (f : Int → K → Option Str) (c : Cell K) (z : Int) (hz : c.material = .int z) :
    (renCell f c).material.text = (f z c.density).getD (intStr z) := by
  unfold renCell
  rw [hz]
  simp only
  split
  · rename_i k hk; rw [hk]; rfl
  · rename_i hk; rw [hk, hz]; rfl

/-- C48. The cells keep everything but the material number; a void cell stays void; any other cell does not become void, and the list has, under the number that the cell now carries, a material with the
density of the cell and the composition of the material on the card. -/
theorem C48_density (io : NumIO K) (mats : List (Str × Material K)) (cells : List (Cell K)) (hkeys : (mats.map Prod.fst).Nodup) (hdef : Defined mats cells)
    (hprep : ∀ e ∈ mats, ∃ m', Prepared e.2 m') :
    ∃ mats' cells', reorganiseMaterials io mats cells = .ok (mats', cells') ∧
      List.Forall₂ (fun c c' => c' = { c with material := c'.material } ∧ (c.material = .int 0 → c'.material = .int 0) ∧
        ∀ z, c.material = .int z → z ≠ 0 → c'.material.text ≠ c!"0" ∧ ∃ m m', mats.lookup (intStr z) = some m ∧ mats'.lookup c'.material.text = some m' ∧ m'.density = c.density ∧
          Prepared m m' ∧ (m.number = intStr z → m'.number = c'.material.text)) cells cells' := by
  obtain ⟨mats', f, h1, h2, -, h4, h5, -⟩ := reorganise_spec io mats cells hkeys hdef hprep
  refine ⟨mats', _, h1, ?_⟩
  rw [List.forall₂_map_right_iff]
  refine List.forall₂_same.2 fun c hc => ⟨?_, ?_, ?_⟩
  · unfold renCell
    rcases hm : c.material with z | s
    · simp only
      split
      · rfl
      · rfl
    · rfl
  · intro hz
    unfold renCell
    rw [hz]
    simp only
    rw [h2]
    exact hz
  · intro z hz hne
    rw [renCell_text f c z hz]
    refine ⟨?_, h5 c hc z hz hne⟩
    rcases hf : f z c.density with _ | k
    · intro e
      have := congrArg parseInt (show intStr z = intStr 0 from e)
      rw [parseInt_intStr, parseInt_intStr] at this
      exact hne (Option.some.inj this)
    · exact (h4 _ _ _ hf).2

/-- C49 for decks in which every material in use is defined. Missing: other decks (`C49_refuted`). -/
theorem C49_sharing_partial (io : NumIO K) (mats : List (Str × Material K)) (cells : List (Cell K)) (hkeys : (mats.map Prod.fst).Nodup) (hdef : Defined mats cells)
    (hprep : ∀ e ∈ mats, ∃ m', Prepared e.2 m') :
    ∃ mats' cells', reorganiseMaterials io mats cells = .ok (mats', cells') ∧ cells'.length = cells.length ∧
      (∀ (i j : Nat) c d c' d' y z, cells[i]? = some c → cells[j]? = some d → cells'[i]? = some c' → cells'[j]? = some d' → c.material = .int y → d.material = .int z → y ≠ 0 → z ≠ 0 →
        (c'.material.text = d'.material.text ↔ y = z ∧ c.density = d.density)) ∧
      (∀ (i : Nat) c c', cells[i]? = some c → cells'[i]? = some c' → c'.material = c.material ∨
        c'.material.text ∉ mats.map Prod.fst ∧ ∀ d ∈ cells, ∀ z, d.material = .int z → c'.material.text ≠ intStr z) := by
  obtain ⟨mats', f, h1, h2, h3, h4, h5, h6⟩ := reorganise_spec io mats cells hkeys hdef hprep
  have hfz : ∀ z d k, f z d = some k → ∀ d' ∈ cells, ∀ z', d'.material = .int z' → k ≠ intStr z' := by
    intro z d k h d' hd' z' hz' e
    obtain ⟨z'', hz'', hk⟩ := hdef d' hd'
    rw [hz'] at hz''
    cases hz''
    by_cases h0 : z' = 0
    · exact (h4 _ _ _ h).2 (h0 ▸ e)
    · exact (h4 _ _ _ h).1 (e ▸ hk h0)
  refine ⟨mats', _, h1, by simp, ?_, ?_⟩
  · intro i j c d c' d' y z hi hj hi' hj' hy hz hy0 hz0
    rw [List.getElem?_map, hi] at hi'
    rw [List.getElem?_map, hj] at hj'
    cases hi'
    cases hj'
    have hc := List.mem_of_getElem? hi
    have hd := List.mem_of_getElem? hj
    rw [renCell_text f c y hy, renCell_text f d z hz]
    rcases hf : f y c.density with _ | k <;> rcases hf' : f z d.density with _ | k'
    · simp only [Option.getD_none]
      constructor
      · intro e
        have := intStr_injective e
        subst this
        exact ⟨rfl, h6 c hc d hd y hy hz hy0 hf hf'⟩
      · rintro ⟨rfl, -⟩; rfl
    · simp only [Option.getD_none, Option.getD_some]
      constructor
      · intro e; exact absurd e.symm (hfz _ _ _ hf' c hc y hy)
      · rintro ⟨rfl, e⟩; rw [e, hf'] at hf; cases hf
    · simp only [Option.getD_none, Option.getD_some]
      constructor
      · intro e; exact absurd e (hfz _ _ _ hf d hd z hz)
      · rintro ⟨rfl, e⟩; rw [e, hf'] at hf; cases hf
    · simp only [Option.getD_some]
      constructor
      · rintro rfl; exact h3 _ _ _ _ _ hf hf'
      · rintro ⟨rfl, e⟩; rw [e, hf'] at hf; exact (Option.some.inj hf).symm
  · intro i c c' hi hi'
    rw [List.getElem?_map, hi] at hi'
    cases hi'
    have hc := List.mem_of_getElem? hi
    obtain ⟨y, hy, -⟩ := hdef c hc
    rcases hf : f y c.density with _ | k
    · left
      unfold renCell
      rw [hy]
      simp only
      rw [hf]
      exact hy
    · right
      rw [renCell_text f c y hy, hf]
      exact ⟨(h4 _ _ _ hf).1, hfz _ _ _ hf⟩

end

/-- C49 is false if a material is not defined: the cell with the undefined material 2 gets the copy that is made of material 1 for another density. -/
theorem C49_refuted : ∃ (mats : List (Str × Material ℚ)) (cells : List (Cell ℚ)) (mats' : List (Str × Material ℚ)) (cells' : List (Cell ℚ)),
    mats.map Prod.fst = [c!"1"] ∧ cells.map Cell.material = [.int 1, .int 1, .int 2] ∧ reorganiseMaterials sampleIO mats cells = .ok (mats', cells') ∧
      cells'.map (fun c => c.material.text) = [c!"1", c!"2", c!"2"] := by
  refine ⟨[(c!"1", { name := [], number := c!"1", composition := [(c!"1001", 1)], xsid := [], density := 0 })],
    [{ (Cell.blank : Cell ℚ) with id := 1, material := .int 1, density := -1 }, { (Cell.blank : Cell ℚ) with id := 2, material := .int 1, density := -2 },
      { (Cell.blank : Cell ℚ) with id := 3, material := .int 2, density := -5 }],
    [(c!"1", { name := [], number := c!"1", composition := [(c!"1001", 1)], xsid := [], density := -1 }),
      (c!"2", { name := c!"Copy of Material 1 with density " ++ sampleIO.render (-2), number := c!"2", composition := [(c!"1001", 1)], xsid := [], density := -5 })],
    [{ (Cell.blank : Cell ℚ) with id := 1, material := .int 1, density := -1 }, { (Cell.blank : Cell ℚ) with id := 2, material := .str c!"2", density := -2 },
      { (Cell.blank : Cell ℚ) with id := 3, material := .int 2, density := -5 }], rfl, rfl, by decide +kernel, by decide +kernel⟩

/-! ## Cases that meet the hypotheses -/

/-- Two materials, four cells: material 1 with two densities, material 3, a void. -/
example : Defined [(c!"1", ({ name := [], number := c!"1", composition := [(c!"1001", 1)], xsid := [], density := 0 } : Material ℚ)),
      (c!"3", { name := [], number := c!"3", composition := [(c!"8016", 2)], xsid := [], density := 0 })]
    [{ (Cell.blank : Cell ℚ) with id := 1, material := .int 1, density := -1 }, { (Cell.blank : Cell ℚ) with id := 2, material := .int 1, density := -2 },
      { (Cell.blank : Cell ℚ) with id := 3, material := .int 3, density := -5 }, { (Cell.blank : Cell ℚ) with id := 4 }] := by
  intro c hc
  simp only [List.mem_cons, List.not_mem_nil, or_false] at hc
  rcases hc with rfl | rfl | rfl | rfl
  · exact ⟨1, rfl, fun _ => by decide +kernel⟩
  · exact ⟨1, rfl, fun _ => by decide +kernel⟩
  · exact ⟨3, rfl, fun _ => by decide +kernel⟩
  · exact ⟨0, rfl, fun h => absurd rfl h⟩

example : Prepared ({ name := [], number := c!"3", composition := [(c!"8016", 2)], xsid := [], density := 0 } : Material ℚ)
    { name := [], number := c!"3", composition := [(c!"8016", 1)], xsid := [], density := 0 } :=
  ⟨{ name := [], number := c!"3", composition := [(c!"8016", 1)], xsid := [], density := 0 },
    { name := [], number := c!"3", composition := [(c!"8016", 1)], xsid := [], density := 0 }, by decide +kernel, by decide +kernel, rfl⟩

example : ((reorganiseMaterials sampleIO [(c!"1", { name := [], number := c!"1", composition := [(c!"1001", 1)], xsid := [], density := 0 }),
      (c!"3", { name := [], number := c!"3", composition := [(c!"8016", 2)], xsid := [], density := 0 })]
    [{ (Cell.blank : Cell ℚ) with id := 1, material := .int 1, density := -1 }, { (Cell.blank : Cell ℚ) with id := 2, material := .int 1, density := -2 },
      { (Cell.blank : Cell ℚ) with id := 3, material := .int 3, density := -5 }, { (Cell.blank : Cell ℚ) with id := 4 }]).map
      fun x => x.2.map fun c => c.material.text) = .ok [c!"1", c!"2", c!"3", c!"0"] := by decide +kernel

end Csg
