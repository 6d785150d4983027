import Verif.Lemmas.Describe

/-!
# Truth values of the words of a macrobody description
-/

set_option linter.unusedSectionVars false

namespace Csg

open Spec

theorem intStr_neg {n : Int} (h : 0 < n) : intStr (-n) = '-' :: intStr n := by
  obtain ⟨m, rfl⟩ : ∃ m : Nat, n = (m + 1 : Nat) := ⟨n.natAbs - 1, by omega⟩
  rfl

theorem intStr_pos {n : Int} (h : 0 ≤ n) : ∃ m : Nat, n = m ∧ intStr n = natStr m := by
  obtain ⟨m, rfl⟩ := Int.eq_ofNat_of_zero_le h
  exact ⟨m, rfl, rfl⟩

theorem dot_mem_facetWord (neg : Bool) (n : Int) (k : Nat) : '.' ∈ facetWord neg n k := by simp [facetWord]

theorem dot_not_mem_intStr (z : Int) : '.' ∉ intStr z := intStr_not_mem z (by decide) (by decide)

section
variable {K : Type} [Field K] [LinearOrder K]
variable (sqrt : K → K) (place : Option Str → Point K → Point K)

/-- No two surfaces have the same number. -/
def UniqueIds (surfs : List (Surface K)) : Prop := ∀ s ∈ surfs, ∀ t ∈ surfs, s.id = t.id → s = t

theorem pointSense_int (surfs : List (Surface K)) (p : Point K) (z : Int) :
    pointSense sqrt place surfs p (intStr z) ↔ surfaceSense sqrt place surfs p z := by
  unfold pointSense wordSense facetSense
  constructor
  · rintro (⟨y, hy, h⟩ | ⟨s, -, neg, k, v, hw, -⟩)
    · rw [parseInt_intStr] at hy; cases hy; exact h
    · exact absurd (hw ▸ dot_mem_facetWord neg s.id k) (dot_not_mem_intStr z)
  · exact fun h => Or.inl ⟨z, parseInt_intStr z, h⟩

theorem pointSense_pos {surfs : List (Surface K)} (hu : UniqueIds surfs) {s : Surface K} (hs : s ∈ surfs) (hpos : 0 < s.id) (p : Point K) :
    pointSense sqrt place surfs p (intStr s.id) ↔ OnSide sqrt s (place s.transform p) true := by
  rw [pointSense_int]
  constructor
  · rintro ⟨t, ht, hid, h⟩
    have : t = s := hu t ht s hs (by omega)
    subst this
    simpa [hpos] using h
  · intro h
    exact ⟨s, hs, by omega, by simpa [hpos] using h⟩

theorem pointSense_neg {surfs : List (Surface K)} (hu : UniqueIds surfs) {s : Surface K} (hs : s ∈ surfs) (hpos : 0 < s.id) (p : Point K) :
    pointSense sqrt place surfs p ('-' :: intStr s.id) ↔ OnSide sqrt s (place s.transform p) false := by
  rw [← intStr_neg hpos, pointSense_int]
  constructor
  · rintro ⟨t, ht, hid, h⟩
    have : t = s := hu t ht s hs (by omega)
    subst this
    simpa [not_lt.2 hpos.le, show ¬ t.id < 0 by omega] using h
  · intro h
    exact ⟨s, hs, by omega, by simpa [show ¬ s.id < 0 by omega] using h⟩

variable [IsStrictOrderedRing K]

theorem sideOf_neg {v : K} : some (sideOf v) = some Side.neg ↔ v < 0 := by
  unfold sideOf
  split
  · simp_all
  · split <;> simp_all

theorem sideOf_pos {v : K} : some (sideOf v) = some Side.pos ↔ 0 < v := by
  unfold sideOf
  split
  · rename_i h; simp [h.le]
  · split
    · rename_i h; simp [h]
    · rename_i h1 h2
      simp only [true_iff]
      exact lt_of_le_of_ne (not_lt.1 h1) (Ne.symm h2)

/-- The surfaces of a body with the transformation of the body. -/
def placed (t : Option Str) (l : List (Surface K)) : List (Surface K) := l.map fun n => { n with transform := t }

theorem faces_plain {ty : SType} {cs : List K} : ∀ f ∈ faces sqrt ty cs,
    f.1 = .planeGeneral ∨ f.1 = .planeX ∨ f.1 = .planeY ∨ f.1 = .planeZ ∨ f.1 = .generalQuadratic := by
  unfold faces
  split <;> simp [edgeFaces]

theorem mem_newSurfaces {last : Int} {s n : Surface K} (h : n ∈ newSurfaces sqrt last s) :
    ∃ (i : Nat) (f : SType × List K), (faces sqrt s.type s.coeffs)[i]? = some f ∧ n = plainCard (last + 1 + i) f.1 f.2 := by
  unfold newSurfaces at h
  obtain ⟨i, hi, rfl⟩ := List.mem_mapIdx.1 h
  exact ⟨i, _, List.getElem?_eq_getElem hi, rfl⟩

theorem newSurfaces_get (last : Int) (s : Surface K) (i : Nat) :
    (newSurfaces sqrt last s)[i]? = ((faces sqrt s.type s.coeffs)[i]?).map fun f => plainCard (last + 1 + i) f.1 f.2 := by
  unfold newSurfaces
  rw [List.getElem?_mapIdx]

theorem onSide_face {sqrt : K → K} {ty : SType} {cs : List K} {f : SType × List K} (hf : f ∈ faces sqrt ty cs) (n : Int) (t : Option Str)
    (p : Point K) (b : Bool) :
    OnSide sqrt { plainCard n f.1 f.2 with transform := t } p b ↔ side sqrt f.1 f.2 p = some (if b then .pos else .neg) := by
  have : ({ plainCard n f.1 f.2 with transform := t } : Surface K).isMacrobody = false := by
    rcases faces_plain sqrt f hf with h | h | h | h | h <;> simp [Surface.isMacrobody, plainCard, h]
  unfold OnSide
  rw [this]
  simp [plainCard]

/-- The value of a face in position `i`. -/
theorem face_side {ty : SType} {cs : List K} {i : Nat} {f : SType × List K} (hf : (faces sqrt ty cs)[i]? = some f) (p : Point K) :
    ∃ v, (faceValues sqrt p ty cs)[i]? = some v ∧ side sqrt f.1 f.2 p = some (sideOf v) := by
  have h := congrArg (fun l => l[i]?) (faces_side sqrt ty cs p)
  simp only [List.getElem?_map, hf, Option.map_some] at h
  cases hv : (faceValues sqrt p ty cs)[i]? with
  | none => rw [hv] at h; simp at h
  | some v =>
    rw [hv] at h
    simp only [Option.map_some, Option.some.injEq] at h
    exact ⟨v, rfl, h⟩

/-- A new surface with sign, as a word. -/
theorem sense_face {surfs : List (Surface K)} (hu : UniqueIds surfs) {last : Int} (hl : 0 ≤ last) {s : Surface K} {t : Option Str}
    (hs : ∀ n ∈ placed t (newSurfaces sqrt last s), n ∈ surfs) (p : Point K) {i : Nat} {f : SType × List K}
    (hf : (faces sqrt s.type s.coeffs)[i]? = some f) :
    ∃ v, (faceValues sqrt (place t p) s.type s.coeffs)[i]? = some v ∧
      (pointSense sqrt place surfs p (intStr (last + 1 + i)) ↔ 0 < v) ∧
      (pointSense sqrt place surfs p ('-' :: intStr (last + 1 + i)) ↔ v < 0) := by
  obtain ⟨v, h1, h2⟩ := face_side sqrt hf (place t p)
  refine ⟨v, h1, ?_, ?_⟩
  all_goals
    have hmem : ({ plainCard (last + 1 + i) f.1 f.2 with transform := t } : Surface K) ∈ surfs := by
      apply hs
      refine List.mem_map.2 ⟨plainCard (last + 1 + i) f.1 f.2, ?_, rfl⟩
      exact List.mem_iff_getElem?.2 ⟨i, by rw [newSurfaces_get, hf]; rfl⟩
    have hfm : f ∈ faces sqrt s.type s.coeffs := List.mem_iff_getElem?.2 ⟨i, hf⟩
  · have := pointSense_pos sqrt place hu hmem (by simp [plainCard]; omega) p
    simp only [plainCard] at this
    rw [this]
    have h3 := onSide_face hfm (last + 1 + i) t (place t p) true
    simp only [plainCard] at h3
    rw [h3, h2, if_pos trivial, sideOf_pos]
  · have := pointSense_neg sqrt place hu hmem (by simp [plainCard]; omega) p
    simp only [plainCard] at this
    rw [this]
    have h3 := onSide_face hfm (last + 1 + i) t (place t p) false
    simp only [plainCard] at h3
    rw [h3, h2, if_neg (by simp), sideOf_neg]

theorem newSurfaces_ids (last : Int) (s : Surface K) :
    (newSurfaces sqrt last s).map Surface.id = (faces sqrt s.type s.coeffs).mapIdx fun i _ => last + 1 + i := by
  unfold newSurfaces
  apply List.ext_getElem?
  intro i
  simp only [List.getElem?_map, List.getElem?_mapIdx, Option.map_map]
  rfl

theorem faces_ne_nil {ty : SType} {cs : List K} (hp : ProperBody ty cs) : faces sqrt ty cs ≠ [] := by
  unfold ProperBody at hp
  split at hp
  · simp [faces]
  · simp [faces, edgeFaces]
  · simp [faces]
  · exact hp.elim

theorem faceValues_length (ty : SType) (cs : List K) (p : Point K) : (faceValues sqrt p ty cs).length = (faces sqrt ty cs).length := by
  have := congrArg List.length (faces_side sqrt ty cs p)
  simpa using this.symm

/-- The inside description of a body is true at the points inside. -/
theorem inside_sense {surfs : List (Surface K)} (hu : UniqueIds surfs) {last : Int} (hl : 0 ≤ last) {s : Surface K} {t : Option Str}
    (hs : ∀ n ∈ placed t (newSurfaces sqrt last s), n ∈ surfs) (hp : ProperBody s.type s.coeffs) (hr : Roots sqrt s.type s.coeffs) (p : Point K) :
    (∀ i ∈ (newSurfaces sqrt last s).map Surface.id, pointSense sqrt place surfs p ('-' :: intStr i)) ↔ Inside s.type s.coeffs (place t p) := by
  rw [← faces_inside hp hr]
  constructor
  · intro h v hv
    obtain ⟨i, hi⟩ := List.mem_iff_getElem?.1 hv
    have hlen : i < (faces sqrt s.type s.coeffs).length := by
      rw [← faceValues_length sqrt s.type s.coeffs (place t p)]
      exact (List.getElem?_eq_some_iff.1 hi).1
    obtain ⟨w, hw, -, h2⟩ := sense_face sqrt place hu hl hs p (List.getElem?_eq_getElem hlen)
    rw [hi] at hw
    cases hw
    refine h2.1 (h _ ?_)
    rw [newSurfaces_ids]
    exact List.mem_mapIdx.2 ⟨i, hlen, rfl⟩
  · intro h i hi
    rw [newSurfaces_ids] at hi
    obtain ⟨j, hj, rfl⟩ := List.mem_mapIdx.1 hi
    obtain ⟨w, hw, -, h2⟩ := sense_face sqrt place hu hl hs p (List.getElem?_eq_getElem hj)
    exact h2.2 (h w (List.mem_iff_getElem?.2 ⟨j, hw⟩))

/-- The outside description of a body is true at the points outside. -/
theorem outside_sense {surfs : List (Surface K)} (hu : UniqueIds surfs) {last : Int} (hl : 0 ≤ last) {s : Surface K} {t : Option Str}
    (hs : ∀ n ∈ placed t (newSurfaces sqrt last s), n ∈ surfs) (hp : ProperBody s.type s.coeffs) (hr : Roots sqrt s.type s.coeffs) (p : Point K) :
    (∃ i ∈ (newSurfaces sqrt last s).map Surface.id, pointSense sqrt place surfs p (intStr i)) ↔ Outside s.type s.coeffs (place t p) := by
  rw [← faces_outside hp hr]
  constructor
  · rintro ⟨i, hi, h⟩
    rw [newSurfaces_ids] at hi
    obtain ⟨j, hj, rfl⟩ := List.mem_mapIdx.1 hi
    obtain ⟨w, hw, h2, -⟩ := sense_face sqrt place hu hl hs p (List.getElem?_eq_getElem hj)
    exact ⟨w, List.mem_iff_getElem?.2 ⟨j, hw⟩, h2.1 h⟩
  · rintro ⟨v, hv, h⟩
    obtain ⟨i, hi⟩ := List.mem_iff_getElem?.1 hv
    have hlen : i < (faces sqrt s.type s.coeffs).length := by
      rw [← faceValues_length sqrt s.type s.coeffs (place t p)]
      exact (List.getElem?_eq_some_iff.1 hi).1
    obtain ⟨w, hw, h2, -⟩ := sense_face sqrt place hu hl hs p (List.getElem?_eq_getElem hlen)
    rw [hi] at hw
    cases hw
    refine ⟨last + 1 + i, ?_, h2.2 h⟩
    rw [newSurfaces_ids]
    exact List.mem_mapIdx.2 ⟨i, hlen, rfl⟩

theorem closeText_or (ty : SType) : closeText ty = c!" )" ∨ closeText ty = c!")" := by unfold closeText; split <;> simp

theorem openText_or (ty : SType) : openText ty = c!"( " ∨ openText ty = c!"(" := by unfold openText; split <;> simp

theorem sepText_or (ty : SType) : sepText ty = c!" : " ∨ sepText ty = c!":" := by unfold sepText; split <;> simp

theorem newSurfaces_ne_nil {last : Int} {s : Surface K} (hp : ProperBody s.type s.coeffs) : (newSurfaces sqrt last s).map Surface.id ≠ [] := by
  intro h
  rw [List.map_eq_nil_iff] at h
  unfold newSurfaces at h
  simp only [List.mapIdx_eq_nil_iff] at h
  exact faces_ne_nil sqrt hp h

/-- The surfaces of one body have different numbers. -/
theorem newSurfaces_unique (last : Int) (s : Surface K) (t : Option Str) : UniqueIds (placed t (newSurfaces sqrt last s)) := by
  intro a ha b hb h
  obtain ⟨a', ha', rfl⟩ := List.mem_map.1 ha
  obtain ⟨b', hb', rfl⟩ := List.mem_map.1 hb
  obtain ⟨i, f, hf, rfl⟩ := mem_newSurfaces sqrt ha'
  obtain ⟨j, g, hg, rfl⟩ := mem_newSurfaces sqrt hb'
  simp only [plainCard] at h
  have : i = j := by omega
  subst this
  rw [hf] at hg
  cases hg
  rfl

theorem placed_none (last : Int) (s : Surface K) : placed none (newSurfaces sqrt last s) = newSurfaces sqrt last s := by
  unfold placed
  conv_rhs => rw [← List.map_id (newSurfaces sqrt last s)]
  apply List.map_congr_left
  intro n hn
  obtain ⟨i, f, -, rfl⟩ := mem_newSurfaces sqrt hn
  rfl

end

end Csg
