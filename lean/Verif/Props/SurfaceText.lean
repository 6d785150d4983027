import Verif.Lemmas.SurfaceText
import Verif.Spec.Parameters
import Verif.Lemmas.Flatten
import Verif.Lemmas.FormatF
import Verif.Spec.Sample

/-!
# Written surfaces: C67 (Serpent), C68 (OpenMC)
-/

namespace Csg

open Spec

section
variable {K : Type}

private theorem serpent_split (n : Int) (kw T : Str) (hk : kw ≠ []) (hs : NoSpace kw) :
    split (c!"surf " ++ intStr n ++ (c!" " ++ kw ++ c!" " ++ T)) = c!"surf" :: intStr n :: kw :: split T := by
  have : c!"surf " ++ intStr n ++ (c!" " ++ kw ++ c!" " ++ T) = c!"surf" ++ ' ' :: (intStr n ++ ' ' :: (kw ++ ' ' :: T)) := by simp
  rw [this, split_head (by decide) (by unfold NoSpace; decide), split_head (intStr_ne_nil n) (intStr_noSpace n), split_head hk hs]

private theorem reads_map {read : Str → Option K} {print : K → Str} {xs : List K} (h : ∀ x ∈ xs, Prints read print x) :
    (xs.map print).map read = xs.map some := by
  rw [List.map_map]
  exact List.map_congr_left fun x hx => (h x hx).reads

private theorem reads_words {read : Str → Option K} {print : K → Str} {xs : List K} (h : ∀ x ∈ xs, Prints read print x) :
    (xs.map print).map read = xs.map some ∧ ∀ w ∈ xs.map print, ∀ ch ∈ w, NumberChar ch := by
  refine ⟨reads_map h, fun w hw => ?_⟩
  obtain ⟨x, hx, rfl⟩ := List.mem_map.1 hw
  exact (h x hx).chars

private theorem prints_words {read : Str → Option K} {print : K → Str} {xs : List K} (h : ∀ x ∈ xs, Prints read print x) :
    ∀ x ∈ xs, print x ≠ [] ∧ NoSpace (print x) := fun x hx => ⟨(h x hx).ne_nil, (h x hx).noSpace⟩

private theorem serpent_joined {read : Str → Option K} {print : K → Str} (n : Int) (kw : Str) (xs : List K) (hk : kw ≠ [] ∧ NoSpace kw)
    (h : ∀ x ∈ xs, Prints read print x) :
    split (c!"surf " ++ intStr n ++ (c!" " ++ kw ++ c!" " ++ join c!" " (xs.map print) ++ c!"\n")) = c!"surf" :: intStr n :: kw :: xs.map print := by
  rw [List.append_assoc (c!" " ++ kw ++ c!" "), serpent_split _ _ _ hk.1 hk.2, split_joined]
  intro w hw
  obtain ⟨x, hx, rfl⟩ := List.mem_map.1 hw
  exact prints_words h x hx

private theorem serpent_trailing {read : Str → Option K} {print : K → Str} (n : Int) (kw : Str) (xs : List K) (hk : kw ≠ [] ∧ NoSpace kw)
    (h : ∀ x ∈ xs, Prints read print x) :
    split (c!"surf " ++ intStr n ++ (c!" " ++ kw ++ c!" " ++ xs.flatMap (fun x => print x ++ c!" ") ++ c!"\n")) = c!"surf" :: intStr n :: kw :: xs.map print := by
  rw [List.append_assoc (c!" " ++ kw ++ c!" "), serpent_split _ _ _ hk.1 hk.2, split_trailing _ _ (prints_words h)]

private theorem serpent_quadratic {read : Str → Option K} {print : K → Str} (n : Int) (xs : List K) (h : ∀ x ∈ xs, Prints read print x) :
    split (c!"surf " ++ intStr n ++ (c!" quadratic " ++ xs.flatMap (fun x => c!" " ++ print x ++ c!" ") ++ c!"\n")) =
      c!"surf" :: intStr n :: c!"quadratic" :: xs.map print := by
  have := serpent_split n c!"quadratic" (xs.flatMap (fun x => c!" " ++ print x ++ c!" ") ++ c!"\n") (by decide) (by unfold NoSpace; decide)
  rw [split_spaced _ _ (prints_words h)] at this
  exact this

private theorem serpent_formatted {read : Str → Option K} {print : K → Str} (n : Int) (kw : Str) (xs : List K) (hk : kw ≠ [] ∧ NoSpace kw)
    (h : ∀ x ∈ xs, Prints read print x) :
    split (c!"surf " ++ intStr n ++ (c!" " ++ kw ++ xs.flatMap (fun x => c!" " ++ print x) ++ c!"\n")) = c!"surf" :: intStr n :: kw :: xs.map print := by
  have : c!"surf " ++ intStr n ++ (c!" " ++ kw ++ xs.flatMap (fun x => c!" " ++ print x) ++ c!"\n") =
      c!"surf" ++ ' ' :: (intStr n ++ ' ' :: (kw ++ (xs.flatMap (fun x => c!" " ++ print x) ++ c!"\n"))) := by simp
  rw [this, split_head (by decide) (by unfold NoSpace; decide), split_head (intStr_ne_nil n) (intStr_noSpace n),
    split_leading _ _ (prints_words h) _ hk.1 hk.2]

variable [Field K] [LinearOrder K]

/-- **C67.** The words of the Serpent card of a surface are `surf`, the number, a keyword, and numbers, which Serpent reads as the same half-spaces. `str` has to print the coefficients
such that Serpent reads them; for cones and tori the format with six decimals has to do so, too (see `C67_rounding` and `C67_refuted`). -/
theorem C67_surface_partial (sqrt : K → K) (read : Str → Option K) (io : NumIO K) (fixed : K → Str) (s : Surface K) (hw : WellFormed s)
    (hs : IsQuadric s.type ∨ IsTorus s.type) (hr : ∀ x ∈ s.coeffs, Prints read io.render x)
    (hf : IsCone s.type ∨ IsTorus s.type → ∀ x ∈ s.coeffs, Prints read fixed x) :
    ∃ text kw ws ns, serpentSurface io fixed s = .ok text ∧ split text = c!"surf" :: intStr s.id :: kw :: ws ∧
      (ws.map read = ns.map some ∧ ∀ w ∈ ws, ∀ ch ∈ w, NumberChar ch) ∧ ∀ p, ∃ d, serpentSide sqrt kw ns p = some d ∧ side sqrt s.type s.coeffs p = some d := by
  obtain ⟨ty, n, tr, cs, bc, bb⟩ := s
  have nk : ∀ kw ∈ [c!"plane", c!"px", c!"py", c!"pz", c!"cylx", c!"cyly", c!"cylz", c!"sph", c!"ckx", c!"cky", c!"ckz", c!"torx", c!"tory", c!"torz"],
      kw ≠ [] ∧ NoSpace kw := by unfold NoSpace; decide
  cases ty
  case planeGeneral =>
    match cs, hw with
    | [a, b, c, d], _ =>
      exact ⟨_, c!"plane", _, [a, b, c, d], rfl, serpent_joined n c!"plane" [a, b, c, d] (nk _ (by simp)) hr, reads_words hr, fun p => ⟨_, rfl, rfl⟩⟩
  case planeX =>
    match cs, hw with
    | [a, b, c, d], _ =>
      have hr : ∀ x ∈ [d], Prints read io.render x := fun x hx => hr x (by simp at hx; simp [hx])
      exact ⟨_, c!"px", _, [d], rfl, serpent_joined n c!"px" [d] (nk _ (by simp)) hr, reads_words hr, fun p => ⟨_, rfl, rfl⟩⟩
  case planeY =>
    match cs, hw with
    | [a, b, c, d], _ =>
      have hr : ∀ x ∈ [d], Prints read io.render x := fun x hx => hr x (by simp at hx; simp [hx])
      exact ⟨_, c!"py", _, [d], rfl, serpent_joined n c!"py" [d] (nk _ (by simp)) hr, reads_words hr, fun p => ⟨_, rfl, rfl⟩⟩
  case planeZ =>
    match cs, hw with
    | [a, b, c, d], _ =>
      have hr : ∀ x ∈ [d], Prints read io.render x := fun x hx => hr x (by simp at hx; simp [hx])
      exact ⟨_, c!"pz", _, [d], rfl, serpent_joined n c!"pz" [d] (nk _ (by simp)) hr, reads_words hr, fun p => ⟨_, rfl, rfl⟩⟩
  case sphereGeneral =>
    match cs, hw with
    | [a, b, c, d], _ =>
      exact ⟨_, c!"sph", _, [a, b, c, d], rfl, serpent_joined n c!"sph" [a, b, c, d] (nk _ (by simp)) hr, reads_words hr, fun p => ⟨_, rfl, rfl⟩⟩
  case cylinderX =>
    match cs, hw with
    | [a, b, c], _ =>
      exact ⟨_, c!"cylx", _, [a, b, c], rfl, serpent_trailing n c!"cylx" [a, b, c] (nk _ (by simp)) hr, reads_words hr, fun p => ⟨_, rfl, rfl⟩⟩
  case cylinderY =>
    match cs, hw with
    | [a, b, c], _ =>
      exact ⟨_, c!"cyly", _, [a, b, c], rfl, serpent_trailing n c!"cyly" [a, b, c] (nk _ (by simp)) hr, reads_words hr, fun p => ⟨_, rfl, rfl⟩⟩
  case cylinderZ =>
    match cs, hw with
    | [a, b, c], _ =>
      exact ⟨_, c!"cylz", _, [a, b, c], rfl, serpent_trailing n c!"cylz" [a, b, c] (nk _ (by simp)) hr, reads_words hr, fun p => ⟨_, rfl, rfl⟩⟩
  case generalQuadratic =>
    match cs, hw with
    | [a, b, c, d, e, f, g, h, j, k], _ =>
      exact ⟨_, c!"quadratic", _, _, rfl, serpent_quadratic n _ hr, reads_words hr, fun p => ⟨_, rfl, rfl⟩⟩
  case coneX =>
    match cs, hw with
    | [x, y, z, t, w], _ =>
      have hf := hf (Or.inl (Or.inl rfl))
      refine ⟨_, c!"ckx", _, _, rfl, serpent_formatted n c!"ckx" [x, y, z, t, w] (nk _ (by simp)) hf, reads_words hf, fun p => ⟨_, rfl, ?_⟩⟩
      by_cases h : w = 0 <;> simp [side, torusValue, value, sheet, coneSide, h]
  case coneY =>
    match cs, hw with
    | [x, y, z, t, w], _ =>
      have hf := hf (Or.inl (Or.inr (Or.inl rfl)))
      refine ⟨_, c!"cky", _, _, rfl, serpent_formatted n c!"cky" [x, y, z, t, w] (nk _ (by simp)) hf, reads_words hf, fun p => ⟨_, rfl, ?_⟩⟩
      by_cases h : w = 0 <;> simp [side, torusValue, value, sheet, coneSide, h]
  case coneZ =>
    match cs, hw with
    | [x, y, z, t, w], _ =>
      have hf := hf (Or.inl (Or.inr (Or.inr rfl)))
      refine ⟨_, c!"ckz", _, _, rfl, serpent_formatted n c!"ckz" [x, y, z, t, w] (nk _ (by simp)) hf, reads_words hf, fun p => ⟨_, rfl, ?_⟩⟩
      by_cases h : w = 0 <;> simp [side, torusValue, value, sheet, coneSide, h]
  case torusX =>
    match cs, hw with
    | [x, y, z, a, b, c], _ =>
      have hf := hf (Or.inr (Or.inl rfl))
      exact ⟨_, c!"torx", _, _, rfl, serpent_formatted n c!"torx" [x, y, z, a, b, c] (nk _ (by simp)) hf, reads_words hf, fun p => ⟨_, rfl, rfl⟩⟩
  case torusY =>
    match cs, hw with
    | [x, y, z, a, b, c], _ =>
      have hf := hf (Or.inr (Or.inr (Or.inl rfl)))
      exact ⟨_, c!"tory", _, _, rfl, serpent_formatted n c!"tory" [x, y, z, a, b, c] (nk _ (by simp)) hf, reads_words hf, fun p => ⟨_, rfl, rfl⟩⟩
  case torusZ =>
    match cs, hw with
    | [x, y, z, a, b, c], _ =>
      have hf := hf (Or.inr (Or.inr (Or.inr rfl)))
      exact ⟨_, c!"torz", _, _, rfl, serpent_formatted n c!"torz" [x, y, z, a, b, c] (nk _ (by simp)) hf, reads_words hf, fun p => ⟨_, rfl, rfl⟩⟩
  all_goals rcases hs with h | h | h | h <;> cases h

omit [Field K] [LinearOrder K] in
private theorem split_join_all {read : Str → Option K} {print : K → Str} {xs : List K} (h : ∀ x ∈ xs, Prints read print x) :
    split (join c!" " (xs.map print)) = xs.map print := by
  have hw : ∀ w ∈ xs.map print, w ≠ [] ∧ NoSpace w := by
    intro w hw
    obtain ⟨x, hx, rfl⟩ := List.mem_map.1 hw
    exact prints_words h x hx
  have := split_joined _ hw
  rwa [split_append_spaces _ c!"\n" (by decide)] at this

omit [Field K] [LinearOrder K] in
private theorem openmc_all {read : Str → Option K} {print : K → Str} {xs : List K} (h : ∀ x ∈ xs, Prints read print x) :
    (split (join c!" " (xs.map print))).map read = xs.map some := by rw [split_join_all h, reads_map h]

/-- **C68.** The OpenMC element of a surface that is no one-sheet cone denotes the same half-spaces and carries the same boundary condition. Missing are one-sheet cones
(`C68_refuted`) and white and periodic boundaries (`C68_white`, `C68_periodic`). -/
theorem C68_surface_partial (sqrt : K → K) (read : Str → Option K) (io : NumIO K) (s : Surface K) (hw : WellFormed s)
    (hs : IsQuadric s.type ∨ IsTorus s.type) (ht : TwoSheet s) (hb : s.bc = .transmission ∨ s.bc = .vacuum ∨ s.bc = .reflecting)
    (hr : ∀ x ∈ s.coeffs, Prints read io.render x) :
    ∃ e ns, openmcSurface io s = .ok e ∧ e.id = intStr s.id ∧ openmcBoundaryMeaning.lookup e.boundary = some s.bc ∧
      (split e.coeffs).map read = ns.map some ∧ ∀ p, ∃ d, openmcSide sqrt e.type ns p = some d ∧ side sqrt s.type s.coeffs p = some d := by
  obtain ⟨b, hb1, hb2⟩ : ∃ b, openmcBoundary s.bc = .ok b ∧ openmcBoundaryMeaning.lookup b = some s.bc := by
    rcases hb with h | h | h <;> rw [h] <;> exact ⟨_, rfl, by decide⟩
  suffices h : ∃ ty cs ns, openmcInfo io s = .ok (ty, cs) ∧ (split cs).map read = ns.map some ∧
      ∀ p, ∃ d, openmcSide sqrt ty ns p = some d ∧ side sqrt s.type s.coeffs p = some d by
    obtain ⟨ty, cs, ns, h1, h2, h3⟩ := h
    exact ⟨⟨intStr s.id, ty, cs, b⟩, ns, by simp [openmcSurface, h1, hb1, bind, Except.bind], rfl, hb2, h2, h3⟩
  clear hb1 hb2 hb
  obtain ⟨ty, n, tr, cs, bc, bb⟩ := s
  have one : ∀ d : K, (∀ x ∈ [d], Prints read io.render x) → (split (io.render d)).map read = [d].map some := fun d h => by
    rw [split_word _ (h d (by simp)).noSpace (h d (by simp)).ne_nil]; simp [(h d (by simp)).reads]
  cases ty
  case planeGeneral =>
    match cs, hw with
    | [a, b, c, d], _ => exact ⟨_, _, [a, b, c, d], rfl, openmc_all hr, fun p => ⟨_, rfl, rfl⟩⟩
  case sphereGeneral =>
    match cs, hw with
    | [a, b, c, d], _ => exact ⟨_, _, [a, b, c, d], rfl, openmc_all hr, fun p => ⟨_, rfl, rfl⟩⟩
  case cylinderX =>
    match cs, hw with
    | [a, b, c], _ => exact ⟨_, _, [a, b, c], rfl, openmc_all hr, fun p => ⟨_, rfl, rfl⟩⟩
  case cylinderY =>
    match cs, hw with
    | [a, b, c], _ => exact ⟨_, _, [a, b, c], rfl, openmc_all hr, fun p => ⟨_, rfl, rfl⟩⟩
  case cylinderZ =>
    match cs, hw with
    | [a, b, c], _ => exact ⟨_, _, [a, b, c], rfl, openmc_all hr, fun p => ⟨_, rfl, rfl⟩⟩
  case generalQuadratic =>
    match cs, hw with
    | [a, b, c, d, e, f, g, h, j, k], _ => exact ⟨_, _, [a, b, c, d, e, f, g, h, j, k], rfl, openmc_all hr, fun p => ⟨_, rfl, rfl⟩⟩
  case torusX =>
    match cs, hw with
    | [a, b, c, d, e, f], _ => exact ⟨_, _, [a, b, c, d, e, f], rfl, openmc_all hr, fun p => ⟨_, rfl, rfl⟩⟩
  case torusY =>
    match cs, hw with
    | [a, b, c, d, e, f], _ => exact ⟨_, _, [a, b, c, d, e, f], rfl, openmc_all hr, fun p => ⟨_, rfl, rfl⟩⟩
  case torusZ =>
    match cs, hw with
    | [a, b, c, d, e, f], _ => exact ⟨_, _, [a, b, c, d, e, f], rfl, openmc_all hr, fun p => ⟨_, rfl, rfl⟩⟩
  case planeX =>
    match cs, hw with
    | [a, b, c, d], _ => exact ⟨_, _, [d], rfl, one d fun x hx => hr x (by simp at hx; simp [hx]), fun p => ⟨_, rfl, rfl⟩⟩
  case planeY =>
    match cs, hw with
    | [a, b, c, d], _ => exact ⟨_, _, [d], rfl, one d fun x hx => hr x (by simp at hx; simp [hx]), fun p => ⟨_, rfl, rfl⟩⟩
  case planeZ =>
    match cs, hw with
    | [a, b, c, d], _ => exact ⟨_, _, [d], rfl, one d fun x hx => hr x (by simp at hx; simp [hx]), fun p => ⟨_, rfl, rfl⟩⟩
  case coneX =>
    match cs, hw, ht with
    | [x, y, z, t, w], _, ht =>
      have ht : w = 0 := ht
      refine ⟨_, _, [x, y, z, t], rfl, openmc_all fun v hv => hr v (by simp at hv ⊢; tauto), fun p => ⟨_, rfl, ?_⟩⟩
      simp [side, torusValue, value, sheet, ht]
  case coneY =>
    match cs, hw, ht with
    | [x, y, z, t, w], _, ht =>
      have ht : w = 0 := ht
      refine ⟨_, _, [x, y, z, t], rfl, openmc_all fun v hv => hr v (by simp at hv ⊢; tauto), fun p => ⟨_, rfl, ?_⟩⟩
      simp [side, torusValue, value, sheet, ht]
  case coneZ =>
    match cs, hw, ht with
    | [x, y, z, t, w], _, ht =>
      have ht : w = 0 := ht
      refine ⟨_, _, [x, y, z, t], rfl, openmc_all fun v hv => hr v (by simp at hv ⊢; tauto), fun p => ⟨_, rfl, ?_⟩⟩
      simp [side, torusValue, value, sheet, ht]
  all_goals rcases hs with h | h | h | h <;> cases h

omit [Field K] [LinearOrder K] in
/-- The selector of a cone is not written. -/
theorem C68_sheet_dropped (io : NumIO K) (s : Surface K) (hty : IsCone s.type) (x y z t v w : K) :
    openmcSurface io { s with coeffs := [x, y, z, t, v] } = openmcSurface io { s with coeffs := [x, y, z, t, w] } := by
  rcases hty with h | h | h <;> simp [openmcSurface, openmcInfo, h]

omit [Field K] [LinearOrder K] in
/-- A white boundary becomes a vacuum boundary. -/
theorem C68_white (io : NumIO K) (s : Surface K) (e : OpenmcSurface) (hs : s.bc = .white) (h : openmcSurface io s = .ok e) :
    openmcBoundaryMeaning.lookup e.boundary = some .vacuum := by
  unfold openmcSurface at h
  obtain ⟨⟨ty, cs⟩, -, h⟩ := bind_ok h
  rw [hs] at h
  cases h
  rfl

omit [Field K] [LinearOrder K] in
/-- A periodic boundary stops the program. -/
theorem C68_periodic (io : NumIO K) (s : Surface K) (hs : s.bc = .periodic) : ¬ ∃ e, openmcSurface io s = .ok e := by
  rintro ⟨e, h⟩
  unfold openmcSurface at h
  obtain ⟨⟨ty, cs⟩, -, h⟩ := bind_ok h
  rw [hs] at h
  cases h

end

/-- The numbers of cones and tori are off by at most half a millionth, and exact for whole numbers of millionths. -/
theorem C67_rounding (q : ℚ) : (∃ v, decimal (formatF q) = some v ∧ |v - q| ≤ 1 / (2 * 10 ^ 6)) ∧
    ∀ z : Int, Prints decimal formatF ((z : ℚ) / 10 ^ 6) :=
  ⟨formatF_near q, fun z => ⟨formatF_ne_nil _, formatF_chars _, formatF_exact z⟩⟩

/-- C68 is false for one-sheet cones: two cones that open in opposite directions get elements that differ in the number only. -/
theorem C68_refuted : ¬ ∀ (s : Surface ℚ) (e : OpenmcSurface) (ns : List ℚ), WellFormed s → IsQuadric s.type → openmcSurface sampleIO s = .ok e →
    (split e.coeffs).map decimal = ns.map some → ∀ p, openmcSide id e.type ns p = side id s.type s.coeffs p := by
  intro h
  have := h { (Surface.blank : Surface ℚ) with type := .coneX, id := 7, coeffs := [1, -2, 3, 4, 1] } ⟨c!"7", c!"x-cone", c!"1.0 -2.0 3.0 4.0", c!"transmission"⟩ [1, -2, 3, 4]
    rfl trivial (by decide +kernel) (by decide +kernel) ⟨0, -2, 3⟩
  exact absurd this (by decide +kernel)

/-- C67 is false without the assumption on the six decimals: the cone with the squared tangent 4e-7 is written with the tangent 0. -/
theorem C67_refuted : ¬ ∀ (s : Surface ℚ) (text : Str) (kw : Str) (ws : List Str) (ns : List ℚ), WellFormed s → IsQuadric s.type →
    serpentSurface sampleIO formatF s = .ok text → split text = c!"surf" :: intStr s.id :: kw :: ws → ws.map decimal = ns.map some →
    ∀ p, serpentSide id kw ns p = side id s.type s.coeffs p := by
  intro h
  have := h { (Surface.blank : Surface ℚ) with type := .coneX, id := 7, coeffs := [0, 0, 0, 1 / 2500000, 0] }
    c!"surf 7 ckx 0.000000 0.000000 0.000000 0.000000 0.000000\n" c!"ckx" (List.replicate 5 c!"0.000000") [0, 0, 0, 0, 0]
    rfl trivial (by decide +kernel) (by decide +kernel) (by decide +kernel) ⟨1, 0, 0⟩
  exact absurd this (by decide +kernel)

/-- A one-sheet cone and a torus. -/
def writtenCone : Surface ℚ := { (Surface.blank : Surface ℚ) with type := .coneY, id := 12, coeffs := [1, -2, 3, 4, -1] }
def writtenTorus : Surface ℚ := { (Surface.blank : Surface ℚ) with type := .torusZ, id := 13, coeffs := [1, -2, 3, 7, 2, 1], bc := .reflecting }

theorem sample_prints (n : Int) (h : decimal (sampleIO.render (n : ℚ)) = some (n : ℚ)) : Prints decimal sampleIO.render (n : ℚ) := by
  have e : sampleIO.render (n : ℚ) = intStr n ++ c!".0" := by simp [sampleIO]
  refine ⟨by rw [e]; simp, ?_, h⟩
  intro c hc
  rw [e] at hc
  rcases List.mem_append.1 hc with hc | hc
  · rcases intStr_chars n c hc with h | h
    · exact Or.inl h
    · exact Or.inr (Or.inr (Or.inl h))
  · simp at hc
    rcases hc with rfl | rfl
    · simp
    · exact Or.inl (by decide)

theorem fixed_prints (n : Int) : Prints decimal formatF (n : ℚ) := by
  have := (C67_rounding 0).2 (n * 10 ^ 6)
  have e : ((n * 10 ^ 6 : Int) : ℚ) / 10 ^ 6 = n := by push_cast; ring
  rwa [e] at this

/-- The hypotheses of C67 are met. -/
example : WellFormed writtenCone ∧ (IsQuadric writtenCone.type ∨ IsTorus writtenCone.type) ∧ (∀ x ∈ writtenCone.coeffs, Prints decimal sampleIO.render x) ∧
    (∀ x ∈ writtenCone.coeffs, Prints decimal formatF x) ∧
    serpentSurface sampleIO formatF writtenCone = .ok c!"surf 12 cky 1.000000 -2.000000 3.000000 4.000000 -1.000000\n" := by
  refine ⟨rfl, Or.inl trivial, ?_, ?_, by decide +kernel⟩
  · intro x hx
    simp only [writtenCone, List.mem_cons, List.not_mem_nil, or_false] at hx
    rcases hx with rfl | rfl | rfl | rfl | rfl
    · exact_mod_cast sample_prints 1 (by decide +kernel)
    · exact_mod_cast sample_prints (-2) (by decide +kernel)
    · exact_mod_cast sample_prints 3 (by decide +kernel)
    · exact_mod_cast sample_prints 4 (by decide +kernel)
    · exact_mod_cast sample_prints (-1) (by decide +kernel)
  · intro x hx
    simp only [writtenCone, List.mem_cons, List.not_mem_nil, or_false] at hx
    rcases hx with rfl | rfl | rfl | rfl | rfl
    · exact_mod_cast fixed_prints 1
    · exact_mod_cast fixed_prints (-2)
    · exact_mod_cast fixed_prints 3
    · exact_mod_cast fixed_prints 4
    · exact_mod_cast fixed_prints (-1)

/-- The hypotheses of C68 are met. -/
example : WellFormed writtenTorus ∧ (IsQuadric writtenTorus.type ∨ IsTorus writtenTorus.type) ∧ TwoSheet writtenTorus ∧ writtenTorus.bc = .reflecting ∧
    (∀ x ∈ writtenTorus.coeffs, Prints decimal sampleIO.render x) ∧
    openmcSurface sampleIO writtenTorus = .ok ⟨c!"13", c!"z-torus", c!"1.0 -2.0 3.0 7.0 2.0 1.0", c!"reflecting"⟩ := by
  refine ⟨rfl, Or.inr (Or.inr (Or.inr rfl)), trivial, rfl, ?_, by decide +kernel⟩
  intro x hx
  simp only [writtenTorus, List.mem_cons, List.not_mem_nil, or_false] at hx
  rcases hx with rfl | rfl | rfl | rfl | rfl | rfl
  · exact_mod_cast sample_prints 1 (by decide +kernel)
  · exact_mod_cast sample_prints (-2) (by decide +kernel)
  · exact_mod_cast sample_prints 3 (by decide +kernel)
  · exact_mod_cast sample_prints 7 (by decide +kernel)
  · exact_mod_cast sample_prints 2 (by decide +kernel)
  · exact_mod_cast sample_prints 1 (by decide +kernel)

end Csg
