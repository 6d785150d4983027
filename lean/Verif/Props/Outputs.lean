import Verif.Lemmas.Outputs
import Verif.Spec.Sample

/-!
# Selection of outputs (C64) and their independence (C58)
-/

namespace Csg

open Spec

/-! ## C64 -/

private theorem codesOf_name : ∀ c : Code, codesOf (codeName c) = [c] := by
  intro c
  cases c <;> decide +kernel

/-- C64, first half: without `-o` and with the word `all` the six codes are written, each once, in the fixed order. -/
theorem C64_all (o : Option (List Str)) (h : ∀ ws, o = some ws → c!"all" ∈ ws) : selectCodes o = allCodes := by
  have e : [c!"mcnp", c!"serpent", c!"openmc", c!"phits", c!"fluka", c!"scone"].flatMap codesOf = allCodes := by decide +kernel
  cases o with
  | none => exact e
  | some ws => rw [selectCodes, if_pos (h ws rfl)]; exact e

example : selectCodes (some [c!"mcnp", c!"all"]) = allCodes := C64_all _ (by simp)

/-- C64, second half, for lists in which each word is the name of a code or contains no name of a code at all: exactly the named codes are written, as often and in the order as they are listed. So
each is written once if no name is repeated, and the order is the fixed one if the names are listed in this order. Missing from the full property: names listed in another order or several times, and
unknown words that contain the name of a code (see the refutations). -/
theorem C64_listed_partial (ws : List Str) (hall : c!"all" ∉ ws) (hw : ∀ w ∈ ws, (∃ c, w = codeName c) ∨ ∀ c, ¬ codeName c <:+: w) :
    (selectCodes (some ws)).map codeName = ws.filter (fun w => allCodes.any fun c => decide (w = codeName c)) ∧
      (((allCodes.map codeName).filter (· ∈ ws)).Sublist ws → ws.Nodup → selectCodes (some ws) = wanted (some ws)) := by
  have key : (selectCodes (some ws)).map codeName = ws.filter (fun w => allCodes.any fun c => decide (w = codeName c)) := by
    rw [selectCodes, if_neg hall]
    clear hall
    induction ws with
    | nil => rfl
    | cons w ws ih =>
      rw [List.flatMap_cons, List.map_append, ih fun x hx => hw x (by simp [hx])]
      rcases hw w (by simp) with ⟨c, rfl⟩ | h
      · rw [codesOf_name, List.filter_cons_of_pos]
        · rfl
        · cases c <;> simp [allCodes]
      · have h0 : ∀ c, hasInfix (codeName c) w = false := by
          intro c
          rw [Bool.eq_false_iff]
          intro e
          obtain ⟨a, b, rfl⟩ := (hasInfix_iff _ _).1 e
          exact h c ⟨a, b, rfl⟩
        have e : codesOf w = [] := by
          have h1 := h0 .serpent
          have h2 := h0 .mcnp
          have h3 := h0 .openmc
          have h4 := h0 .phits
          have h5 := h0 .fluka
          have h6 := h0 .scone
          simp only [codeName] at h1 h2 h3 h4 h5 h6
          simp [codesOf, h1, h2, h3, h4, h5, h6]
        rw [e, List.filter_cons_of_neg]
        · rfl
        · rw [List.any_eq_true]
          rintro ⟨c, -, hc⟩
          exact h c (by rw [of_decide_eq_true hc]; exact List.infix_rfl)
  refine ⟨key, fun hsub hnd => ?_⟩
  have hinj : Function.Injective codeName := by
    intro a b h
    cases a <;> cases b <;> first | rfl | (exact absurd h (by decide))
  apply List.map_injective_iff.2 hinj
  rw [key]
  have hwant : wanted (some ws) = allCodes.filter fun c => codeName c ∈ ws := if_neg hall
  have e1 : (wanted (some ws)).map codeName = (allCodes.map codeName).filter (· ∈ ws) := by
    rw [hwant, List.filter_map]
    rfl
  rw [e1]
  refine (List.Sublist.eq_of_length ?_ ?_).symm
  · have h := hsub.filter (fun w => allCodes.any fun c => decide (w = codeName c))
    rwa [List.filter_eq_self.2] at h
    intro w hw'
    obtain ⟨c, hc, rfl⟩ := List.mem_map.1 (List.mem_filter.1 hw').1
    rw [List.any_eq_true]
    exact ⟨c, hc, by simp⟩
  · apply List.Perm.length_eq
    rw [List.perm_ext_iff_of_nodup]
    · intro w
      simp only [List.mem_filter, List.mem_map, List.any_eq_true, decide_eq_true_eq]
      constructor
      · rintro ⟨⟨c, hc, rfl⟩, h⟩
        exact ⟨h, c, hc, rfl⟩
      · rintro ⟨h, c, hc, rfl⟩
        exact ⟨⟨c, hc, rfl⟩, h⟩
    · exact List.Nodup.filter _ (by decide +kernel)
    · exact hnd.filter _

example : selectCodes (some [c!"serpent", c!"mcnpx"]) = [.serpent, .mcnp] ∧ selectCodes (some [c!"mcnp", c!"geant", c!"fluka"]) = [.mcnp, .fluka] := by decide +kernel

example : (∀ w ∈ [c!"mcnp", c!"geant", c!"fluka"], (∃ c, w = codeName c) ∨ ∀ c, ¬ codeName c <:+: w) ∧
    ((allCodes.map codeName).filter (· ∈ [c!"mcnp", c!"geant", c!"fluka"])).Sublist [c!"mcnp", c!"geant", c!"fluka"] := by
  constructor
  · intro w hw
    simp only [List.mem_cons, List.not_mem_nil, or_false] at hw
    rcases hw with rfl | rfl | rfl
    · exact .inl ⟨.mcnp, rfl⟩
    · refine .inr fun c => ?_
      cases c <;> decide +kernel
    · exact .inl ⟨.fluka, rfl⟩
  · decide +kernel

/-- C64 fails: the files are written in the order of the list, a repeated name is written again, and an unknown word writes a file if it contains the name of a code. -/
theorem C64_refuted :
    selectCodes (some [c!"scone", c!"mcnp"]) ≠ wanted (some [c!"scone", c!"mcnp"]) ∧ selectCodes (some [c!"mcnp", c!"mcnp"]) ≠ wanted (some [c!"mcnp", c!"mcnp"]) ∧
      selectCodes (some [c!"mcnp6"]) ≠ wanted (some [c!"mcnp6"]) := by decide +kernel

section
variable {K : Type} [Field K] [LinearOrder K]

/-- C64: the files of a run that ends are those of the selected codes, in this order. -/
theorem C64_written (e : Env K) (o : Option (List Str)) (d : Deck K) (fs : List (Code × OutFile)) (h : Returns (mainWrite e o d) fs) : fs.map Prod.fst = selectCodes o :=
  writeCodes_names h

/-! ## C58 -/

/-- C58 for the codes before which no FLUKA file was written, and no SCONE file in case of SCONE: the file is that of the code written alone. Missing from the full property: files after a FLUKA file and
a second SCONE file (see the refutations). -/
theorem C58_independent_partial (e : Env K) (pre post : List Code) (c : Code) (s : Shared K) (fs : List (Code × OutFile)) (h : Returns (writeCodes e (pre ++ c :: post) s) fs)
    (hf : .fluka ∉ pre) (hs : c = .scone → .scone ∉ pre) : ∃ t s', Returns (writeCode e c s) (t, s') ∧ fs[pre.length]? = some (c, t) := by
  suffices H : ∀ (pre : List Code) (s' : Shared K) (fs : List (Code × OutFile)), Returns (writeCodes e (pre ++ c :: post) s') fs → .fluka ∉ pre → (c = .scone → .scone ∉ pre) →
      s.cells = s'.cells → s.surfaces = s'.surfaces → s.materials = s'.materials → (c = .scone → s.universes = s'.universes) →
      ∃ t r, Returns (writeCode e c s) (t, r) ∧ fs[pre.length]? = some (c, t) from H pre s fs h hf hs rfl rfl rfl fun _ => rfl
  intro pre
  induction pre with
  | nil =>
    intro s' fs h _ _ hc hsf hm hu
    obtain ⟨t, r, ts, h1, -, rfl⟩ := writeCodes_cons.1 h
    obtain ⟨r', hr⟩ := writeCode_congr h1 hc hsf hm hu
    exact ⟨t, r', hr, rfl⟩
  | cons a pre ih =>
    intro s' fs h hf hs hc hsf hm hu
    obtain ⟨t, r, ts, h1, h2, rfl⟩ := writeCodes_cons.1 h
    obtain ⟨g1, g2, g3⟩ := writeCode_shared h1
    have ha : a ≠ .fluka := fun e => hf (by simp [e])
    obtain ⟨t', r', hr, hi⟩ := ih r ts h2 (fun e => hf (by simp [e])) (fun e => fun e' => hs e (by simp [e'])) (by rw [hc, g1]) (by rw [hsf, (g2 ha).1])
      (by rw [hm, (g2 ha).2]) fun e => by
        rw [hu e, g3 fun e' => hs e (by simp [e'])]
    exact ⟨t', r', hr, by simpa using hi⟩

/-- C58 fails in the default run: if a material has a density of at most 0, that is a mass density, and has a nuclide that FLUKA knows, the SCONE writer raises an exception after the FLUKA writer has
replaced the nuclides by names, so that the run never ends properly. -/
theorem C58_all_fails (e : Env K) (he : ∀ l, List.Perm (e.orderStr l) l) (d : Deck K) (k : Str) (m : Material K) (hm : (k, m) ∈ d.materials) (hd : m.density ≤ 0) (n : Nat) (x : K) (name : Str)
    (hn : (natStr n, x) ∈ m.composition) (hname : properName n = some name) (fs : List (Code × OutFile)) : ¬ Returns (mainWrite e none d) fs := by
  intro h
  unfold mainWrite at h
  rw [C64_all none (by simp)] at h
  obtain ⟨_, s1, _, h1, h, -⟩ := writeCodes_cons.1 h
  obtain ⟨_, s2, _, h2, h, -⟩ := writeCodes_cons.1 h
  obtain ⟨_, s3, _, h3, h, -⟩ := writeCodes_cons.1 h
  obtain ⟨_, s4, _, h4, h, -⟩ := writeCodes_cons.1 h
  obtain ⟨_, s5, _, h5, h, -⟩ := writeCodes_cons.1 h
  obtain ⟨_, s6, _, h6, h, -⟩ := writeCodes_cons.1 h
  have e4 : s4.materials = d.materials := by
    rw [((writeCode_shared h4).2.1 (by decide)).2, ((writeCode_shared h3).2.1 (by decide)).2, ((writeCode_shared h2).2.1 (by decide)).2, ((writeCode_shared h1).2.1 (by decide)).2]
  rw [writeCode, returns_bind] at h5
  obtain ⟨⟨t5, ss, ms⟩, h5, e5⟩ := h5
  rw [returns_pure] at e5
  cases e5
  unfold flukaFile at h5
  rw [returns_bind] at h5
  obtain ⟨_, -, h5⟩ := h5
  rw [returns_bind] at h5
  obtain ⟨_, -, h5⟩ := h5
  rw [returns_bind] at h5
  obtain ⟨⟨t5', ms'⟩, h5, e5⟩ := h5
  rw [returns_pure] at e5
  cases e5
  rw [returns_mk, e4] at h5
  unfold writeFlukaMaterials at h5
  cases hmap : collapsedMap (e.orderStr (d.materials.flatMap fun m => m.2.composition.map Prod.fst).dedup) with
  | error x => rw [hmap] at h5; cases h5
  | ok map =>
    rw [hmap] at h5
    simp only [bind, Except.bind] at h5
    cases hel : elementLines [] map with
    | error x => rw [hel] at h5; cases h5
    | ok els =>
      rw [hel] at h5
      simp only [Except.ok.injEq, Option.bind_eq_some_iff, Option.some.injEq, Prod.mk.injEq] at h5
      obtain ⟨_, -, -, hms⟩ := h5
      obtain ⟨g1, g2⟩ := collapsedMap_mem hmap
      have hin : natStr n ∈ e.orderStr (d.materials.flatMap fun m => m.2.composition.map Prod.fst).dedup := by
        rw [(he _).mem_iff, List.mem_dedup, List.mem_flatMap]
        exact ⟨(k, m), hm, List.mem_map.2 ⟨_, hn, rfl⟩⟩
      have hmem := g2 _ hin name (flukaName_natStr hname)
      have hex : ∃ p ∈ nameDict m.composition [] map, parseInt p.1 = none := by
        have hx : ∃ y, m.composition.lookup (natStr n) = some y := by
          cases hl : m.composition.lookup (natStr n) with
          | some y => exact ⟨y, rfl⟩
          | none =>
            have := List.lookup_eq_none_iff.1 hl _ hn
            simp at this
        obtain ⟨y, hy⟩ := hx
        have hk := ((nameDict_spec m.composition map [] (by simp)).2.2 name).2 (.inr (List.mem_map.2 ⟨(name, y), List.mem_filterMap.2 ⟨_, hmem, by rw [hy]; rfl⟩, rfl⟩))
        obtain ⟨p, hp, hpn⟩ := List.mem_map.1 hk
        obtain ⟨z, hz⟩ := flukaName_table (flukaName_natStr hname)
        exact ⟨p, hp, by rw [hpn]; exact fluka_no_int _ hz⟩
      rw [writeCode, returns_bind] at h6
      obtain ⟨⟨t6, us⟩, h6, -⟩ := h6
      unfold sconeFile at h6
      iterate 5 (rw [returns_bind] at h6; obtain ⟨_, -, h6⟩ := h6)
      rw [returns_bind] at h6
      obtain ⟨_, h6, -⟩ := h6
      rw [returns_cards'] at h6
      obtain ⟨ts, h6, -⟩ := h6
      have hm' : (k, ({ m with composition := nameDict m.composition [] map } : Material K)) ∈ ms := by
        rw [← hms]
        exact List.mem_map.2 ⟨(k, m), hm, rfl⟩
      obtain ⟨y, hy⟩ := forall₂_left h6 hm'
      simp only [writeSconeMaterial, sconeDensity, if_neg (not_lt.2 hd), sconeMolarMass] at hy
      cases hf : List.foldlM (fun s e => do let z ← pyInt e.1; .ok (s + e.2 * ((z % 1000 : Int) : K))) 0 (nameDict m.composition [] map) with
      | error x => rw [hf] at hy; cases hy
      | ok r => exact molarMass_fails hex r hf

end

private def sampleEnv : Env ℚ :=
  { fuel := 100, io := sampleIO, fixed := sampleIO.render, sci := sampleIO.render, sci4 := sampleIO.render, sci3 := formatE, sqrt := id, degAtan := id, orderStr := id, orderInt := id }

private def sampleCell : Cell ℚ := { Cell.blank with id := 1, material := .int 1, density := -1, interpreted := [.str c!"-1"] }

private def sampleCone : Surface ℚ := { Surface.blank with id := 1, type := .coneX, coeffs := [1, 0, 0, 2, 0] }

private def sampleMaterial : Material ℚ := { name := c!"M1", number := c!"1", composition := [(c!"1001", 1)], xsid := [(c!"1001", [])], density := -1 }

private def sampleShared (ss : List (Surface ℚ)) (ms : List (Str × Material ℚ)) : Shared ℚ := { cells := [sampleCell], surfaces := ss, materials := ms, universes := [] }

/-- Whether both runs end and the file at place `i` of the first differs from that of the code alone. -/
private def differ (e : Env ℚ) (cs : List Code) (i : Nat) (c : Code) (s : Shared ℚ) : Bool :=
  match (writeCodes e cs s).run, (writeCode e c s).run with
  | .ok (some fs), .ok (some r) => decide (fs[i]? ≠ some (c, r.1))
  | _, _ => false

private theorem differ_iff {e : Env ℚ} {cs : List Code} {i : Nat} {c : Code} {s : Shared ℚ} (h : differ e cs i c s = true) :
    ∃ fs t s', Returns (writeCodes e cs s) fs ∧ Returns (writeCode e c s) (t, s') ∧ fs[i]? ≠ some (c, t) := by
  unfold differ at h
  split at h
  · rename_i fs r h1 h2
    exact ⟨fs, r.1, r.2, h1, h2, of_decide_eq_true h⟩
  · cases h

/-- C58 fails for FLUKA before MCNP: a cone of two sheets is written with other coefficients. -/
theorem C58_refuted_cone : ∃ (e : Env ℚ) (s : Shared ℚ) (fs : List (Code × OutFile)) (t : OutFile) (s' : Shared ℚ), Returns (writeCodes e [.fluka, .mcnp] s) fs ∧
    Returns (writeCode e .mcnp s) (t, s') ∧ fs[1]? ≠ some (.mcnp, t) :=
  ⟨sampleEnv, sampleShared [sampleCone] [], differ_iff (by decide +kernel)⟩

/-- C58 fails for FLUKA before Serpent: a material is written with names in place of nuclides. -/
theorem C58_refuted_material : ∃ (e : Env ℚ) (s : Shared ℚ) (fs : List (Code × OutFile)) (t : OutFile) (s' : Shared ℚ), Returns (writeCodes e [.fluka, .serpent] s) fs ∧
    Returns (writeCode e .serpent s) (t, s') ∧ fs[1]? ≠ some (.serpent, t) :=
  ⟨sampleEnv, sampleShared [] [(c!"1", sampleMaterial)], differ_iff (by decide +kernel)⟩

/-- C58 fails for SCONE listed twice: the second file has the universes twice. -/
theorem C58_refuted_twice : ∃ (e : Env ℚ) (s : Shared ℚ) (fs : List (Code × OutFile)) (t : OutFile) (s' : Shared ℚ), Returns (writeCodes e [.scone, .scone] s) fs ∧
    Returns (writeCode e .scone s) (t, s') ∧ fs[1]? ≠ some (.scone, t) :=
  ⟨sampleEnv, sampleShared [] [], differ_iff (by decide +kernel)⟩

example : ∃ fs, Returns (writeCodes sampleEnv [.mcnp, .openmc, .scone, .serpent, .phits, .fluka] (sampleShared [sampleCone] [(c!"1", sampleMaterial)])) fs := by
  have h : (match (writeCodes sampleEnv [.mcnp, .openmc, .scone, .serpent, .phits, .fluka] (sampleShared [sampleCone] [(c!"1", sampleMaterial)])).run with
    | .ok (some _) => true | _ => false) = true := by decide +kernel
  split at h
  · rename_i fs hfs
    exact ⟨fs, hfs⟩
  · cases h

example : ¬ ∃ fs, Returns (mainWrite sampleEnv none ⟨[], [sampleCell], [], 0, [], [], [(c!"1", sampleMaterial)], []⟩) fs := by
  rintro ⟨fs, h⟩
  exact C58_all_fails sampleEnv (fun _ => .refl _) _ c!"1" sampleMaterial (by simp) (by decide +kernel) 1001 1 c!"HYDROG-1" (by simp [sampleMaterial, show natStr 1001 = c!"1001" by decide +kernel]) (by decide +kernel) fs h

end Csg
