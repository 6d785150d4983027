import Verif.Lemmas.Whole
import Verif.Spec.FlukaFile

/-!
# From conditions on the input to those on the processed deck: FLUKA
-/

set_option linter.unusedSectionVars false

namespace Csg

open Spec

section
variable {K : Type} [Field K] [LinearOrder K] [IsStrictOrderedRing K]
variable {fuel : Nat} {io : NumIO K} {cosDeg sqrt : K → K} {quick : Bool} {rank : Int → Nat} {lines : List Str} {d d' : Deck K}

/-- Faces that are general planes have a normal. -/
theorem faces_normal {ty : SType} {cs : List K} (hp : ProperBody ty cs) (hr : Roots sqrt ty cs) : ∀ f ∈ faces sqrt ty cs, f.1 = .planeGeneral →
    ∀ a b c k, f.2 = [a, b, c, k] → ¬ (a = 0 ∧ b = 0 ∧ c = 0) := by
  have key : ∀ a b c : K, a ^ 2 + b ^ 2 + c ^ 2 ≠ 0 → RootAt sqrt (a ^ 2 + b ^ 2 + c ^ 2) →
      ¬ (a / sqrt (a ^ 2 + b ^ 2 + c ^ 2) = 0 ∧ b / sqrt (a ^ 2 + b ^ 2 + c ^ 2) = 0 ∧ c / sqrt (a ^ 2 + b ^ 2 + c ^ 2) = 0) := by
    rintro a b c h0 ⟨-, hn⟩ ⟨h1, h2, h3⟩
    have hs : sqrt (a ^ 2 + b ^ 2 + c ^ 2) ≠ 0 := by
      intro e
      rw [e] at hn
      exact h0 (by rw [← hn]; ring)
    rw [div_eq_zero_iff] at h1 h2 h3
    rw [h1.resolve_right hs, h2.resolve_right hs, h3.resolve_right hs] at h0
    exact h0 (by ring)
  intro f hf ht a b c k e
  unfold faces at hf
  split at hf
  · simp only [List.mem_cons, List.not_mem_nil, or_false] at hf
    rcases hf with rfl | rfl | rfl | rfl | rfl | rfl <;> simp only [reduceCtorEq] at ht
    all_goals
      simp only [List.cons.injEq, and_true] at e
      obtain ⟨rfl, rfl, rfl, -⟩ := e
      simp
  · rename_i a0 b0 c0 _
    have hk := key a0 b0 c0 hp hr
    simp only [List.mem_cons, List.not_mem_nil, or_false] at hf
    rcases hf with rfl | rfl | rfl <;> simp only [reduceCtorEq] at ht
    all_goals
      simp only [List.cons.injEq, and_true] at e
      obtain ⟨rfl, rfl, rfl, -⟩ := e
      simpa using hk
  · rename_i a1 b1 c1 a2 b2 c2 a3 b3 c3
    obtain ⟨p1, p2, p3, -⟩ := hp
    obtain ⟨r1, r2, r3⟩ := hr
    have e1 : ∀ a b c : K, dot (⟨a, b, c⟩ : Point K) ⟨a, b, c⟩ = a ^ 2 + b ^ 2 + c ^ 2 := by
      intro a b c
      simp only [dot]
      ring
    rw [e1] at p1 p2 p3
    have k1 := key a1 b1 c1 p1 r1
    have k2 := key a2 b2 c2 p2 r2
    have k3 := key a3 b3 c3 p3 r3
    simp only [edgeFaces, List.cons_append, List.nil_append, List.mem_cons, List.not_mem_nil, or_false] at hf
    rcases hf with rfl | rfl | rfl | rfl | rfl | rfl
    all_goals
      simp only [List.cons.injEq, and_true] at e
      obtain ⟨rfl, rfl, rfl, -⟩ := e
      first | simpa using k1 | simpa using k2 | simpa using k3
  · cases hf

/-- General planes of the processed deck have a normal. -/
theorem fluka_planes (hio : Exact io) (hd : ProperDeck sqrt rank d) (h : finishDeck fuel io cosDeg sqrt quick d = some (.ok d')) (hf : FlukaSource io sqrt d) :
    ∀ s ∈ d'.surfaces, s.type = .planeGeneral → ∀ a b c k, s.coeffs = [a, b, c, k] → ¬ (a = 0 ∧ b = 0 ∧ c = 0) := by
  obtain ⟨cells1, cells2, cells3, cells4, cells5, surfs1, surfs2, surfs3, surfs4, r⟩ := finishDeck_run h
  intro s hs ht a b c k hc
  obtain ⟨s2, hs2, e⟩ := forall₂_right r.surfFrame s (r.left.subset hs)
  obtain ⟨s1, hs1, e1, hpl⟩ := forall₂_right (forall₂_both (mapM_ok_forall₂ r.move) (r.surfs hio hd).1) s2 hs2
  unfold SurfFrame at e
  have et : s.type = s2.type := by rw [e]
  have ec : s.coeffs = s2.coeffs := by rw [e]
  rw [et] at ht
  rw [ec] at hc
  have hfl := r.flat
  unfold flatten at hfl
  obtain ⟨⟨c1, more, l1⟩, h1, hfl⟩ := bind_ok hfl
  have hfaces := flattenGo_faces io hio cosDeg d.surfaces d.last d.cells (fun s hs hm => (hd.bodies s hs hm).1.shape) h1
  cases hfl
  obtain ⟨hs1, hm1⟩ := List.mem_filter.1 hs1
  rcases List.mem_append.1 hs1 with hm | hm
  · obtain ⟨p, q, b', k1, k2⟩ := (hf.surfaces s1 hm).2.2.2 (by simpa using hm1)
    rintro ⟨rfl, rfl, rfl⟩
    obtain ⟨-, -, hside, -⟩ := hpl
    rw [hside] at k1 k2
    apply k2
    unfold OnSide at k1 ⊢
    unfold Surface.isMacrobody at k1 ⊢
    rw [ht, hc] at k1 ⊢
    simpa [side, torusValue, value, sheet] using k1
  · obtain ⟨b0, hb0, hbm, f, hff, e0⟩ := hfaces s1 hm
    have htr : s1.transform = none := by
      rw [e0]
      exact (hf.surfaces b0 hb0).2.2.1 hbm
    have es : s2 = s1 := by
      unfold Surface.applyTransformCard at e1
      rw [htr] at e1
      cases e1
      rfl
    rw [es, e0] at ht hc
    exact faces_normal (hd.bodies b0 hb0 hbm).1 (hd.bodies b0 hb0 hbm).2 f hff ht a b c k hc

/-- The compositions as numbers. -/
def compsOf (ms : List (Str × Material K)) : List (List (Nat × K)) := ms.map fun m => m.2.composition.map fun e => (((parseInt e.1).getD 0).toNat, e.2)

private theorem sum_filter_le (l : List (Nat × K)) (hp : ∀ p ∈ l, 0 ≤ p.2) (P : Nat × K → Bool) : 0 ≤ ((l.filter P).map Prod.snd).sum ∧ ((l.filter P).map Prod.snd).sum ≤ (l.map Prod.snd).sum := by
  induction l with
  | nil => simp
  | cons a l ih =>
    obtain ⟨h1, h2⟩ := ih fun p hp' => hp p (by simp [hp'])
    have := hp a (by simp)
    rw [List.filter_cons]
    split
    · simp only [List.map_cons, List.sum_cons]
      exact ⟨by linarith, by linarith⟩
    · simp only [List.map_cons, List.sum_cons]
      exact ⟨h1, by linarith⟩

private theorem sum_filter_bound (l : List (Nat × K)) (hp : ∀ p ∈ l, p.2 = 0 ∨ 1 / 10 ^ 99 ≤ p.2) (P : Nat × K → Bool) :
    ((l.filter P).map Prod.snd).sum = 0 ∨ 1 / 10 ^ 99 ≤ ((l.filter P).map Prod.snd).sum := by
  induction l with
  | nil => simp
  | cons a l ih =>
    have h1 := ih fun p hp' => hp p (by simp [hp'])
    have h2 := hp a (by simp)
    have h0 : (0 : K) ≤ 1 / 10 ^ 99 := by positivity
    rw [List.filter_cons]
    split
    · simp only [List.map_cons, List.sum_cons]
      rcases h2 with h2 | h2
      · rw [h2, zero_add]
        exact h1
      · refine .inr ?_
        rcases h1 with h1 | h1
        · rw [h1, add_zero]
          exact h2
        · exact le_trans h2 (le_add_of_nonneg_right (le_trans h0 h1))
    · exact h1

private theorem abundance_large : ∀ n ∈ materialData, (1 / 10 ^ 6 : ℚ) ≤ n.abundance := by decide +kernel

/-- If FLUKA knows an element it knows the natural nuclides. -/
private theorem natural_known {z : Nat} (h : (properName (1000 * z)).isSome = true) {n : NuclideData} (hn : n ∈ natural z) : (properName (n.nucid / 10000)).isSome = true := by
  obtain ⟨h1, h2⟩ := natural_mem hn
  unfold properName at h ⊢
  have e1 : n.nucid / 10000 / 1000 = z := by omega
  have e2 : 1000 * z / 1000 = z := by omega
  have e3 : flukaIsotopes.lookup (1000 * z) = none := by
    rw [lookup_none_iff]
    intro hk
    have := (by decide : ∀ k ∈ flukaIsotopes.map Prod.fst, k % 1000 ≠ 0) _ hk
    omega
  rw [e3, e2] at h
  split
  · rfl
  · rw [e1]
    exact h

/-- A deck for FLUKA, from the conditions on the input. -/
theorem fluka_ready {e : Env K} (hio : Exact e.io) (hr : readDeck e.io cosDeg lines = .ok d) (hd : Convertible e.io e.sqrt rank d) (hf : FlukaSource e.io e.sqrt d)
    (h3 : ∀ x, x = 0 ∨ 1 / 10 ^ 99 ≤ x → x ≤ 10 ^ 9 → (e.sci3 x).length = 10 ∧ '\n' ∉ e.sci3 x)
    (h4 : ∀ x, 1 / 10 ^ 99 ≤ x → x ≤ 100000 → (e.sci4 x).length ≤ 10 ∧ ' ' ∉ e.sci4 x ∧ '\n' ∉ e.sci4 x) (hzero : (e.io.render 0).length ≤ 10) (ho : ∀ l, (e.orderStr l).Perm l)
    (h : finishDeck fuel e.io cosDeg e.sqrt quick d = some (.ok d')) (hfuel : ∀ m ∈ d'.materials, m.2.composition.length ≤ e.fuel) :
    FlukaDeck e d'.cells d'.surfaces d'.materials (compsOf d'.materials) := by
  obtain ⟨hid, hpos, hcells⟩ := processed_cells hio hd.proper (.inr hd.sheets) h
  have hsurf := C93_surfaces_partial fuel e.io hio cosDeg e.sqrt quick rank lines d d' hr hd.proper h
  obtain ⟨hl, hlist⟩ := whole_list hio hr hd h
  have hnot := C93_complements_partial fuel e.io hio cosDeg e.sqrt quick rank lines d d' hr hd.proper hf.hashes h
  have himp := importance_out hio hd.proper hd.sheets h hf.importances
  have hspecial := special_surfaces hio hd.proper h
  have hnuc := whole_nuclides (P := fun z a => (properName (1000 * z + a)).isSome = true) (by
    intro z hz n hn
    rw [Nat.div_add_mod]
    exact natural_known hz hn) hio hr hd h (fun m hm e he => by
      obtain ⟨n, k1, k2⟩ := hf.nuclides m hm e he
      exact ⟨n / 1000, n % 1000, by rw [Nat.div_add_mod, k1], Nat.mod_lt _ (by norm_num), by rw [Nat.div_add_mod]; exact k2⟩)
  have hent : ∀ m ∈ d'.materials, ∀ x ∈ m.2.composition, natStr ((parseInt x.1).getD 0).toNat = x.1 ∧ (properName ((parseInt x.1).getD 0).toNat).isSome = true ∧ 0 ≤ x.2 := by
    intro m hm x hx
    rw [(hnuc m hm).1] at hx
    obtain ⟨p, hp, rfl⟩ := List.mem_map.1 hx
    obtain ⟨-, k2, k3, -⟩ := (hnuc m hm).2 p hp
    simp only [parseInt_natStr, Option.getD_some, Int.toNat_natCast]
    exact ⟨trivial, k2, k3⟩
  refine ⟨fun x => ⟨(exact_prints hio x).ne_nil, fun c hc => (numberChar_plain ((exact_prints hio x).chars c hc)).1⟩, h4, ?_, ho, ?_, ?_, ?_, ?_, hfuel⟩
  · intro l hl name
    obtain ⟨m, hm, rfl⟩ := List.mem_map.1 hl
    obtain ⟨-, -, -, -, e0, he0, ⟨s, hs, hs1, hfrom⟩, -, -, ht⟩ := hlist m hm
    have hs9 : s ≤ 10 ^ 9 := by
      rcases hs1 with rfl | rfl
      · norm_num
      · exact hf.totals e0 he0
    have hbound : ∀ x ∈ m.2.composition, x.2 = 0 ∨ 1 / 10 ^ 99 ≤ x.2 := by
      intro x hx
      have hdiv : ∀ y : K, 1 / 10 ^ 70 ≤ y → 1 / 10 ^ 99 ≤ y / s := by
        intro y hy
        rw [le_div_iff₀ hs]
        calc (1 / 10 ^ 99 : K) * s ≤ 1 / 10 ^ 99 * 10 ^ 9 := mul_le_mul_of_nonneg_left hs9 (by positivity)
          _ ≤ 1 / 10 ^ 70 := by norm_num
          _ ≤ y := hy
      obtain ⟨e1, he1, rfl | ⟨z, hz, n, hnn, rfl⟩⟩ := hfrom x hx
      · rcases hf.fractions e0 he0 e1 he1 with h0 | h0
        · exact .inl (by simp [h0])
        · exact .inr (hdiv _ (le_trans (by norm_num) h0))
      · rcases hf.fractions e0 he0 e1 he1 with h0 | h0
        · exact .inl (by simp [h0])
        · refine .inr (hdiv _ ?_)
          have hab : (1 / 10 ^ 8 : K) ≤ (n.abundance : K) / 100 := by
            have : ((1 / 10 ^ 6 : ℚ) : K) ≤ (n.abundance : K) := by exact_mod_cast abundance_large n (natural_mem hnn).1
            rw [le_div_iff₀ (by norm_num)]
            push_cast at this
            linarith
          calc (1 / 10 ^ 70 : K) ≤ 1 / 10 ^ 60 * (1 / 10 ^ 8) := by norm_num
            _ ≤ e1.2 * ((n.abundance : K) / 100) := mul_le_mul h0 hab (by positivity) (le_trans (by positivity) h0)
    have htot : total m.2.composition ≤ 10 ^ 9 := by
      rcases ht with ⟨ht, -⟩ | ⟨ht, -⟩
      · rw [ht]
        exact hf.totals e0 he0
      · rw [ht]
        norm_num
    obtain ⟨k1, k2⟩ := sum_filter_le (m.2.composition.map fun e => (((parseInt e.1).getD 0).toNat, e.2)) (by
      intro p hp
      obtain ⟨x, hx, rfl⟩ := List.mem_map.1 hp
      exact (hent m hm x hx).2.2) (fun p => properName p.1 = some name)
    refine h3 _ (sum_filter_bound _ (by
      intro p hp
      obtain ⟨x, hx, rfl⟩ := List.mem_map.1 hp
      exact hbound x hx) _) (le_trans k2 ?_)
    rw [List.map_map]
    exact htot
  · intro s hs
    obtain ⟨k1, k2, -⟩ := hsurf s hs
    have hnc : ¬ (IsCone s.type ∨ IsTorus s.type) := by
      intro hk
      obtain ⟨s0, hs0, et, -⟩ := hspecial s hs hk
      rw [← et] at hk
      exact hk.elim (hf.surfaces s0 hs0).1 (hf.surfaces s0 hs0).2.1
    have hq : IsQuadric s.type := by
      rcases k2 with k2 | k2
      · exact k2
      · exact absurd (.inr (torus_type k2.1)) hnc
    refine ⟨k1, ?_, fun hk => absurd (.inl hk) hnc⟩
    have hplane := fluka_planes hio hd.proper h hf s hs
    unfold FlukaReady
    split
    · rename_i ht hc
      exact hplane ht _ _ _ _ hc
    all_goals first
      | exact hq
      | (rename_i ht _ _; exact absurd (.inl (by rw [ht]; simp [IsCone])) hnc)
      | (rename_i ht; exact absurd (.inl (by rw [ht]; simp [IsCone])) hnc)
      | (rename_i ht _; exact absurd (.inl (by rw [ht]; simp [IsCone])) hnc)
      | skip
  · intro c' hc'
    obtain ⟨c, hcm, ⟨e1, -⟩, -⟩ := forall₂_right hcells c' hc'
    obtain ⟨-, -, w3, w4⟩ := whole_words hio hr hd h c' hc'
    refine ⟨hnot c' hc', fun w hw hp => ?_, w3, by rw [e1]; exact hf.ids c hcm, himp c' hc', ?_⟩
    · obtain ⟨z, hz, rfl⟩ := w4 w hw hp
      exact ⟨z, hz, by unfold pyInt; rw [parseInt_intStr]⟩
    · rcases whole_material hio hr hd h c' hc' with e | ⟨k, -, e, m', hm'⟩
      · rw [e]
        decide
      · obtain ⟨⟨k', -, hk', ek⟩, -⟩ := hlist _ hm'
        have ek : natStr k = natStr k' := ek
        rw [e, ek]
        refine ⟨natStr_length (k := 8) hk', fun hh => ?_, fun hh => ?_⟩
        · exact absurd (natStr_digits k' _ hh) (by decide)
        · exact absurd (natStr_digits k' _ hh) (by decide)
  · unfold compsOf
    rw [List.forall₂_map_right_iff, List.forall₂_same]
    intro m hm
    have key := hent m hm
    refine ⟨?_, ?_, ?_⟩
    · rw [List.map_map]
      conv_lhs => rw [← List.map_id m.2.composition]
      exact List.map_congr_left fun x hx => Prod.ext (key x hx).1.symm rfl
    · rw [List.map_map]
      refine List.Nodup.of_map natStr ?_
      rw [List.map_map, List.map_congr_left (f := natStr ∘ Prod.fst ∘ fun e : Str × K => (((parseInt e.1).getD 0).toNat, e.2)) (g := Prod.fst) fun x hx => (key x hx).1]
      exact (hlist m hm).2.2.2.1
    · intro p hp
      obtain ⟨x, hx, rfl⟩ := List.mem_map.1 hp
      exact (key x hx).2.1
  · intro m hm
    obtain ⟨⟨k', -, hk', ek⟩, -, -, -, e0, he0, -, -, hden, -⟩ := hlist m hm
    rw [hl.2 m hm, ek]
    refine ⟨natStr_length (k := 8) hk', fun hh => ?_, fun hh => ?_, ?_⟩
    · exact absurd (natStr_digits k' _ hh) (by decide)
    · exact absurd (natStr_digits k' _ hh) (by decide)
    · rcases hden with e | ⟨c, hc, e⟩
      · rw [e, readDeck_densities hr e0 he0, abs_zero]
        exact hzero
      · rw [e]
        exact hf.densities c hc

end

end Csg
