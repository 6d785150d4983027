import Verif.Props.McnpFileBack
import Verif.Props.OpenmcFile
import Verif.Props.PhitsFile
import Verif.Props.SconeFile
import Verif.Props.SerpentFile
import Verif.Props.SerpentMaterials
import Verif.Spec.SerpentRun

/-!
# C101: runs with a Serpent file as input
-/

namespace Csg

open Spec

section
variable {K : Type} [Field K] [LinearOrder K]

/-! ## What is read -/

private theorem zip_materials (ms : List (SerpentCard K)) : ∀ (mats : List (Str × Material K)) (n : Nat), mats.map Prod.fst = (List.range' n ms.length).map natStr →
    List.Forall₂ (fun (m : SerpentCard K) (p : Str × Material K) => p.2.name = m.name ∧ p.2.number = p.1 ∧ p.2.density = m.density ∧ p.2.composition = m.nuclides ∧
      p.2.xsid = (m.nuclides.map Prod.fst).zip m.libraries) ms mats →
    mats = (ms.zipIdx n).map fun p => (natStr p.2, cardMaterial p.1 p.2) := by
  induction ms with
  | nil => intro mats n _ h; cases h; rfl
  | cons m ms ih =>
    intro mats n hk h
    cases h with
    | cons h1 h2 =>
      rename_i p mats
      rw [List.map_cons, List.length_cons, List.range'_succ, List.map_cons, List.cons.injEq] at hk
      rw [List.zipIdx_cons, List.map_cons, ← ih mats (n + 1) hk.2 h2]
      congr 1
      obtain ⟨k, ⟨a, b, c, d, e⟩⟩ := p
      obtain ⟨g1, g2, g3, g4, g5⟩ := h1
      simp only at g1 g2 g3 g4 g5 hk
      unfold cardMaterial
      rw [← hk.1, ← g2, g1, g3, g4, g5]

/-- The materials of a Serpent file. -/
private theorem read_cards {io : NumIO K} {text : Str} {ms : List (SerpentCard K)} (h : SerpentText io text ms) : processSerpent io (readText text) = .ok (cardMaterials ms) := by
  obtain ⟨before, gs, h1, h2, h3⟩ := h
  obtain ⟨mats, k1, k2, k3⟩ := C77_materials_partial io before gs ms h2 h3
  rw [h1, k1, zip_materials ms mats 1 k2 k3]
  rfl

private theorem run_iff {e : Env K} {text : Str} {mats : List (Str × Material K)} (h : processSerpent e.io (readText text) = .ok mats) (cosDeg : K → K) (quick : Bool) (output : Option (List Str))
    (files : List (Code × OutFile)) :
    Returns (runMain e cosDeg quick .serpent output text) files ↔ List.Forall₂ (fun c (f : Code × OutFile) => f.1 = c ∧ Returns (serpentWrite e mats c) f.2) (selectCodes output) files := by
  show Returns (convertSerpent e output text) files ↔ _
  unfold convertSerpent
  rw [returns_bind]
  have : (fun (c : Code) (f : Code × OutFile) => f.1 = c ∧ Returns (serpentWrite e mats c) f.2) = fun c f => Returns (do let t ← serpentWrite e mats c; pure (c, t)) f := by
    funext c f
    rw [returns_bind]
    apply propext
    constructor
    · rintro ⟨rfl, h⟩
      exact ⟨f.2, h, (returns_pure _ _).2 rfl⟩
    · rintro ⟨t, h, k⟩
      rw [returns_pure] at k
      subst k
      exact ⟨rfl, h⟩
  rw [this, ← returns_mapM]
  constructor
  · rintro ⟨a, h1, h2⟩
    rw [returns_lift, h] at h1
    cases h1
    exact h2
  · exact fun h1 => ⟨mats, (returns_lift _ _).2 h, h1⟩

private theorem select_one (c : Code) : selectCodes (some [codeName c]) = [c] := by cases c <;> decide +kernel

private theorem mem_forall₂ {R : Code → Code × OutFile → Prop} {cs : List Code} {fs : List (Code × OutFile)} (h : List.Forall₂ R cs fs) {f : Code × OutFile} (hf : f ∈ fs) : ∃ c ∈ cs, R c f := by
  induction h with
  | nil => cases hf
  | cons h _ ih =>
    rcases List.mem_cons.1 hf with rfl | hf
    · exact ⟨_, by simp, h⟩
    · obtain ⟨c, hc, h⟩ := ih hf
      exact ⟨c, by simp [hc], h⟩

/-- A file is written exactly if the writer returns it. -/
private theorem converts_iff {e : Env K} {text : Str} {mats : List (Str × Material K)} (h : processSerpent e.io (readText text) = .ok mats) (c : Code) (f : OutFile) :
    ConvertsSerpent e text c f ↔ Returns (serpentWrite e mats c) f := by
  constructor
  · intro hc
    have := (hc (fun x => x) false).1
    rw [run_iff h, select_one] at this
    cases this with
    | cons h1 _ => exact h1.2
  · intro hw cosDeg quick
    refine ⟨?_, fun output files t hr ht => ?_⟩
    · rw [run_iff h, select_one]
      exact .cons ⟨rfl, hw⟩ .nil
    · rw [run_iff h] at hr
      obtain ⟨c', -, h1, h2⟩ := mem_forall₂ hr ht
      simp only at h1 h2
      rw [← h1] at h2
      exact returns_unique h2 hw

/-! ## What does not work -/

/-- C101, refuted: files of the other codes are not read at all. -/
theorem C101_refuted_formats (e : Env K) (cosDeg : K → K) (quick : Bool) (format : Code) (h : format ≠ .mcnp ∧ format ≠ .serpent) (output : Option (List Str)) (text : Str) (files : List (Code × OutFile)) :
    ¬ Returns (runMain e cosDeg quick format output text) files := by
  intro hr
  cases format <;> first | exact absurd rfl h.1 | exact absurd rfl h.2 | (rw [runMain] at hr <;> first | (rw [returns_lift] at hr; cases hr) | simp)

private theorem fluka_fails (e : Env K) {mats : List (Str × Material K)} (hne : mats ≠ []) (f : OutFile) : ¬ Returns (serpentWrite e mats .fluka) f := by
  intro h
  unfold serpentWrite at h
  rw [returns_bind] at h
  obtain ⟨t, h, -⟩ := h
  unfold serpentFluka at h
  rw [returns_bind] at h
  obtain ⟨m, -, h⟩ := h
  rw [returns_bind] at h
  obtain ⟨l, -, h⟩ := h
  rw [if_neg (by simpa using hne), returns_lift] at h
  cases h

/-- C101, refuted: if a Serpent file has a material, no run that writes for FLUKA finishes. -/
theorem C101_refuted_fluka (e : Env K) (cosDeg : K → K) (quick : Bool) (text : Str) (ms : List (SerpentCard K)) (ht : SerpentText e.io text ms) (hne : ms ≠ []) (output : Option (List Str))
    (ho : output = none ∨ ∃ ws, output = some ws ∧ (c!"all" ∈ ws ∨ c!"fluka" ∈ ws)) (files : List (Code × OutFile)) : ¬ Returns (runMain e cosDeg quick .serpent output text) files := by
  rw [run_iff (read_cards ht)]
  intro h
  have hf : Code.fluka ∈ selectCodes output := by
    rcases ho with rfl | ⟨ws, rfl, h | h⟩
    · decide +kernel
    · simp only [selectCodes]
      rw [if_pos h]
      decide +kernel
    · simp only [selectCodes]
      split
      · decide +kernel
      · exact List.mem_flatMap.2 ⟨_, h, by decide +kernel⟩
  have key : ∀ {cs : List Code} {fs : List (Code × OutFile)}, List.Forall₂ (fun c (f : Code × OutFile) => f.1 = c ∧ Returns (serpentWrite e (cardMaterials ms) c) f.2) cs fs → Code.fluka ∈ cs → False := by
    intro cs fs h
    induction h with
    | nil => intro h; cases h
    | cons h _ ih =>
      intro hc
      rcases List.mem_cons.1 hc with rfl | hc
      · refine fluka_fails e ?_ _ h.2
        cases ms with
        | nil => exact absurd rfl hne
        | cons m ms => simp [cardMaterials, List.zipIdx_cons]
      · exact ih hc
  exact key h hf

/-- C101, refuted: what stands before the materials, such as surfaces and cells, has no effect on any file. -/
theorem C101_refuted_geometry (e : Env K) (text text' : Str) (ms : List (SerpentCard K)) (h : SerpentText e.io text ms) (h' : SerpentText e.io text' ms) (cosDeg : K → K) (quick : Bool)
    (output : Option (List Str)) (files : List (Code × OutFile)) :
    Returns (runMain e cosDeg quick .serpent output text) files ↔ Returns (runMain e cosDeg quick .serpent output text') files := by
  rw [run_iff (read_cards h), run_iff (read_cards h')]

/-- C101, refuted: the files for MCNP and PHITS do not depend on the densities of the materials. -/
theorem C101_refuted_density (e : Env K) (text text' : Str) (ms : List (SerpentCard K)) (density : SerpentCard K → K) (h : SerpentText e.io text ms)
    (h' : SerpentText e.io text' (ms.map fun m => { m with density := density m })) (c : Code) (hc : c = .mcnp ∨ c = .phits) (f : OutFile) : ConvertsSerpent e text c f ↔ ConvertsSerpent e text' c f := by
  rw [converts_iff (read_cards h), converts_iff (read_cards h')]
  have key : ∀ (a b : Bool), cards' (fun m => writeMcnpMaterial e.io a b m.2) (cardMaterials (ms.map fun m => { m with density := density m })) = cards' (fun m => writeMcnpMaterial e.io a b m.2) (cardMaterials ms) := by
    intro a b
    unfold cardMaterials cards' cards
    rw [List.zipIdx_map, List.map_map]
    congr 1
    rw [List.mapM_map, List.mapM_map]
    rfl
  rcases hc with rfl | rfl
  · unfold serpentWrite serpentMcnp
    rw [key]
  · unfold serpentWrite phitsFile
    rw [key]

/-- C101, refuted: Serpent allows the word `sum` for the density, which then follows from the fractions. With this or any other density that is not a number no run finishes, here in the first material. -/
theorem C101_refuted_sum (e : Env K) (cosDeg : K → K) (quick : Bool) (text : Str) (before : List Str) (k : Nat) (t name d : Str) (words : List Str) (rest : List Str)
    (ht : readText text = before ++ (List.replicate k ' ' ++ c!"mat " ++ t) :: rest) (hb : ∀ l ∈ before, (split l).head? ≠ some c!"mat")
    (hs : split (List.replicate k ' ' ++ c!"mat " ++ t) = c!"mat" :: name :: d :: words) (hd : e.io.parse d = none) (output : Option (List Str)) (files : List (Code × OutFile)) :
    ¬ Returns (runMain e cosDeg quick .serpent output text) files := by
  have : processSerpent e.io (readText text) = .error .valueError := by
    have h1 : processSerpent e.io (readText text) = getSerpentMaterials e.io 1 ((readText text).filter serpentKeep) := rfl
    rw [h1, ht, List.filter_append, serpentMaterials_skip e.io 1 (fun l hl => hb l (List.mem_filter.1 hl).1), List.filter_cons_of_pos (serpentKeep_mat k t), getSerpentMaterials,
      if_pos (isSerpentMaterial_mat k t)]
    have h2 : pyGet (split (List.replicate k ' ' ++ c!"mat " ++ t)) 1 = .ok name := by rw [hs]; rfl
    have h3 : pyGet (split (List.replicate k ' ' ++ c!"mat " ++ t)) 2 = .ok d := by rw [hs]; rfl
    have h4 : e.io.float d = .error .valueError := by unfold NumIO.float; rw [hd]
    unfold getSerpentMaterial
    simp only [h2, h3, h4, bind, Except.bind]
  intro h
  change Returns (convertSerpent e output text) files at h
  unfold convertSerpent at h
  rw [returns_bind] at h
  obtain ⟨m, hm, -⟩ := h
  rw [returns_lift, this] at hm
  cases hm

/-! ## What is written -/

private theorem card_mem {ms : List (SerpentCard K)} {p : Str × Material K} (hp : p ∈ cardMaterials ms) : ∃ m ∈ ms, ∃ i, p = (natStr i, cardMaterial m i) := by
  obtain ⟨⟨m, i⟩, h, rfl⟩ := List.mem_map.1 hp
  exact ⟨m, (List.mem_zipIdx h).2.2 ▸ List.getElem_mem _, i, rfl⟩

private theorem card_numbers (ms : List (SerpentCard K)) : ((cardMaterials ms).map fun m => m.2.number).Nodup := by
  have : (cardMaterials ms).map (fun m => m.2.number) = (List.range' 1 ms.length).map natStr := by
    unfold cardMaterials
    rw [List.map_map, ← List.zipIdx_map_snd 1 ms, List.map_map]
    rfl
  rw [this]
  exact List.Nodup.map (fun _ _ => natStr_injective) List.nodup_range'

private theorem card_line {io : NumIO K} {text : Str} {ms : List (SerpentCard K)} (h : SerpentText io text ms) {m : SerpentCard K} (hm : m ∈ ms) : (m.nuclides.map Prod.fst).Nodup ∧ '\n' ∉ m.name ∧
    m.libraries.length = m.nuclides.length := by
  obtain ⟨before, gs, -, -, h3⟩ := h
  have : ∀ {gs : List (List Str)} {ms : List (SerpentCard K)}, List.Forall₂ (SerpentLines io) gs ms → m ∈ ms → ∃ g, SerpentLines io g m := by
    intro gs ms h
    induction h with
    | nil => intro h; cases h
    | cons h _ ih =>
      intro hm
      rcases List.mem_cons.1 hm with rfl | hm
      · exact ⟨_, h⟩
      · exact ih hm
  obtain ⟨g, k, t, first, more, d, rest, entries, rfl, hf, hs, hd, hmore, hw, hn, he, hl⟩ := this h3 hm
  refine ⟨hn, fun hh => ?_, by rw [hl, List.length_map, he.length_eq]⟩
  have := split_words first m.name (by rw [hs]; simp)
  exact absurd (this.2 _ hh) (by decide)

private theorem write_serpent {e : Env K} {mats : List (Str × Material K)} {fuel : Nat} {t : Str} (h : Returns (serpentFile { e with fuel := fuel } [] [] mats) t) :
    Returns (serpentWrite e mats .serpent) (.text t) := by
  have hfuel : serpentFile { e with fuel := fuel } [] [] mats = serpentFile e [] [] mats := by simp only [serpentFile, cards, List.mapM_nil]
  rw [hfuel] at h
  rw [serpentWrite, returns_bind]
  exact ⟨t, h, by rw [returns_pure]⟩

private theorem write_scone {e : Env K} {mats : List (Str × Material K)} {fuel : Nat} {t : Str} (h : Returns (sconeFile { e with fuel := fuel } [] [] mats []) (t, [])) :
    Returns (serpentWrite e mats .scone) (.text t) := by
  rw [serpentWrite, returns_bind]
  refine ⟨(t, []), ?_, by rw [returns_pure]⟩
  unfold sconeFile at h ⊢
  simp only [returns_bind] at h ⊢
  obtain ⟨ss, h1, cs, h2, ids, h3, us, h4, ut, h5, mt, h6, h7⟩ := h
  rw [returns_pure] at h7
  obtain ⟨h7, rfl⟩ := Prod.mk.inj h7
  refine ⟨ss, h1, cs, h2, ids, h3, [], h4, ut, h5, mt, h6, ?_⟩
  rw [returns_pure, ← h7]

/-- C101, partial: the Serpent file has one card for each material of the input and nothing else. The material is named by its number, the name is lost in a comment; the density and the nuclides are those
of the input, fractions as printed. Missing: other cards than materials, see `C101_refuted_geometry`. -/
theorem C101_serpent_partial (e : Env K) (approx : K → K) (text : Str) (ms : List (SerpentCard K)) (ht : SerpentText e.io text ms) (hn : ∀ m ∈ ms, DecimalCard m) (hd : ∀ m ∈ ms, PrintsFloat e.io m.density)
    (hf : ∀ m ∈ ms, ∀ x ∈ m.nuclides, FloatText (e.sci x.2) ∧ e.io.parse (e.sci x.2) = some (approx x.2)) :
    ∃ out mcs, ConvertsSerpent e text .serpent (.text out) ∧ serpentCards out = ([], mcs) ∧ List.Forall₂ (fun m => SerpentMaterialSays e.io approx m.2) (cardMaterials ms) mcs := by
  obtain ⟨out, ⟨fuel, h1⟩, scs, ccs, mcs, h2, h3, h4, h5⟩ := C86_file_partial e e.io.parse approx (fun _ => []) (fun _ => []) [] [] (cardMaterials ms) ⟨by simp, by simp, by simp, by simp, fun p hp => by
    obtain ⟨m, hm, i, rfl⟩ := card_mem hp
    exact ⟨⟨natStr_ne_nil i, natStr_digits i⟩, (card_line ht hm).2.1, hd m hm, (card_line ht hm).1, hn m hm, hf m hm⟩⟩
  cases h3
  cases h4
  exact ⟨out, mcs, (converts_iff (read_cards ht) _ _).2 (write_serpent (h1 fuel le_rfl)), by simpa using h2, h5⟩

/-- C101, partial: the PHITS file has one card for each material of the input and nothing else, with the nuclides, their libraries and the fractions of the input. Missing: the densities, see `C101_refuted_density`, and other
cards than materials, see `C101_refuted_geometry`; there must be nuclides. -/
theorem C101_phits_partial (e : Env K) (text : Str) (ms : List (SerpentCard K)) (ht : SerpentText e.io text ms) (hn : ∀ m ∈ ms, DecimalCard m) (hne : ∀ m ∈ ms, m.nuclides ≠ [])
    (hf : ∀ m ∈ ms, ∀ x ∈ m.nuclides, PrintsFloat e.io x.2) (hl : ∀ m ∈ ms, ∀ x ∈ m.libraries, ∀ c ∈ x, isDigit c = true ∨ c.isLower = true) :
    ∃ out, ConvertsSerpent e text .phits (.text out) ∧ ∃ tl pl sl cl il ml cards, phitsSections (readlines out) =
        ([], [(c!"title", tl), (c!"parameters", pl), (c!"surface", sl), (c!"cell", cl), (c!"importance", il), (c!"material", ml)]) ∧
      phitsCards sl = ([], []) ∧ phitsCards cl = ([], []) ∧ phitsCards ml = ([], cards) ∧ List.Forall₂ (fun m => PhitsMaterialSays e.io m.2) (cardMaterials ms) cards := by
  obtain ⟨out, ⟨fuel, h1⟩, tl, pl, sl, cl, il, ml, h2, -, ⟨sc, h3, h3'⟩, ⟨cc, h4, h4'⟩, -, mc, h5, h6⟩ := C89_file_partial e e.sqrt [] [] (cardMaterials ms) ⟨by simp, by simp, by simp, by simp, fun p hp => by
    obtain ⟨m, hm, i, rfl⟩ := card_mem hp
    refine ⟨⟨⟨natStr_ne_nil i, natStr_digits i⟩, (card_line ht hm).2.1, hne m hm, (card_line ht hm).1, hn m hm, hf m hm⟩, fun x hx => ?_⟩
    have hlen := (card_line ht hm).2.2
    have hz : ((m.nuclides.map Prod.fst).zip m.libraries).map Prod.fst = m.nuclides.map Prod.fst := List.map_fst_zip (by rw [List.length_map, hlen])
    have hx' : x.1 ∈ m.nuclides.map Prod.fst := List.mem_map_of_mem hx
    obtain ⟨y, hy, hyx⟩ : ∃ y ∈ (m.nuclides.map Prod.fst).zip m.libraries, y.1 = x.1 := by rw [← hz] at hx'; exact List.mem_map.1 hx'
    refine ⟨y.2, (lookup_iff_mem (by show (((m.nuclides.map Prod.fst).zip m.libraries).map Prod.fst).Nodup; rw [hz]; exact (card_line ht hm).1)).2 (by rw [← hyx]; exact hy), hl m hm y.2 (List.of_mem_zip hy).2⟩⟩
  cases h3'
  cases h4'
  have h1 := h1 fuel le_rfl
  have hfuel : phitsFile { e with fuel := fuel } [] [] (cardMaterials ms) = phitsFile e [] [] (cardMaterials ms) := rfl
  rw [hfuel] at h1
  exact ⟨out, (converts_iff (read_cards ht) _ _).2 ((returns_bind _ _ _).2 ⟨out, h1, (returns_pure _ _).2 rfl⟩), tl, pl, sl, cl, il, ml, mc, h2, h3, h4, h5, h6⟩

/-- Keys in increasing order. -/
private def keyed (n : Nat) : List (Str × Material K) → List (Str × Material K)
  | [] => []
  | m :: ms => (List.replicate n 'a', m.2) :: keyed (n + 1) ms

private theorem keyed_sorted : ∀ (mats : List (Str × Material K)) (n : Nat), (keyed n mats).Pairwise (fun a b => a.1 < b.1) ∧ ∀ p ∈ keyed n mats, ∃ k ≥ n, p.1 = List.replicate k 'a' := by
  intro mats
  induction mats with
  | nil => intro n; exact ⟨.nil, by simp [keyed]⟩
  | cons m mats ih =>
    intro n
    refine ⟨List.pairwise_cons.2 ⟨fun p hp => ?_, (ih (n + 1)).1⟩, fun p hp => ?_⟩
    · obtain ⟨k, hk, h⟩ := (ih (n + 1)).2 p hp
      simp only
      rw [h]
      clear hp h ih
      induction n generalizing k with
      | zero =>
        obtain ⟨k, rfl⟩ : ∃ j, k = j + 1 := ⟨k - 1, by omega⟩
        exact List.Lex.nil
      | succ n ih =>
        obtain ⟨k, rfl⟩ : ∃ j, k = j + 1 := ⟨k - 1, by omega⟩
        exact List.Lex.cons (ih k (by omega))
    · rcases List.mem_cons.1 hp with rfl | hp
      · exact ⟨n, le_rfl, rfl⟩
      · obtain ⟨k, hk, h⟩ := (ih (n + 1)).2 p hp
        exact ⟨k, by omega, h⟩

private theorem keyed_snd : ∀ (mats : List (Str × Material K)) (n : Nat), (keyed n mats).map Prod.snd = mats.map Prod.snd := by
  intro mats
  induction mats with
  | nil => intro n; rfl
  | cons m mats ih => intro n; simp [keyed, ih]

/-- C101, partial: reading the MCNP file again gives the materials of the input in their order, with the same nuclides and fractions, and no cells or surfaces. Missing: the densities, see `C101_refuted_density`, and
other cards than materials, see `C101_refuted_geometry`; there must be nuclides. -/
theorem C101_mcnp_partial (e : Env K) (cosDeg : K → K) (text : Str) (ms : List (SerpentCard K)) (ht : SerpentText e.io text ms) (hn : ∀ m ∈ ms, DecimalCard m) (hne : ∀ m ∈ ms, m.nuclides ≠ [])
    (hf : ∀ m ∈ ms, ∀ x ∈ m.nuclides, PrintsFloat e.io x.2) (hmn : ∀ mn ∈ printedMnemonics, e.io.parse mn = none) :
    ∃ out d, ConvertsSerpent e text .mcnp (.text out) ∧ readDeck e.io cosDeg (readText out) = .ok d ∧ d.cells = [] ∧ d.surfaces = [] ∧
      List.Forall₂ (fun m p => p.1 = m.2.number ∧ SameComposition (fun _ => []) m.2 p.2) (cardMaterials ms) d.materials := by
  have hk := keyed_snd (cardMaterials ms) 0
  have hnum : (keyed 0 (cardMaterials ms)).map (fun m => m.2.number) = (cardMaterials ms).map fun m => m.2.number := by
    have := congrArg (List.map Material.number) hk
    rwa [List.map_map, List.map_map] at this
  have hmem : ∀ p ∈ keyed 0 (cardMaterials ms), ∃ m ∈ ms, ∃ i, p.2 = cardMaterial m i := by
    intro p hp
    have : p.2 ∈ (cardMaterials ms).map Prod.snd := hk ▸ List.mem_map_of_mem hp
    obtain ⟨q, hq, h⟩ := List.mem_map.1 this
    obtain ⟨m, hm, i, rfl⟩ := card_mem hq
    exact ⟨m, hm, i, h.symm⟩
  obtain ⟨out, ⟨fuel, h1⟩, d, h2, h3, h4, ⟨sorted, p1, p2, p3⟩, -, -⟩ := C83_file_partial e cosDeg [] [] (keyed 0 (cardMaterials ms)) (by simp) (by simp) hmn (fun p hp => by
    obtain ⟨m, hm, i, h⟩ := hmem p hp
    rw [h]
    exact ⟨⟨natStr_ne_nil i, natStr_digits i⟩, (card_line ht hm).2.1, hne m hm, (card_line ht hm).1, hn m hm, hf m hm⟩) (by rw [hnum]; exact card_numbers ms)
  have hsort := (keyed_sorted (cardMaterials ms) 0).1
  have hle : (keyed 0 (cardMaterials ms)).Pairwise (fun a b => a.1 ≤ b.1) := hsort.imp fun h => List.le_of_lt h
  have hs : (keyed 0 (cardMaterials ms)).insertionSort (fun a b => a.1 ≤ b.1) = keyed 0 (cardMaterials ms) := hle.insertionSort_eq
  have hfst : ∀ a ∈ keyed 0 (cardMaterials ms), ∀ b ∈ keyed 0 (cardMaterials ms), a.1 = b.1 → a = b := by
    have : ((keyed 0 (cardMaterials ms)).map Prod.fst).Nodup := by
      rw [List.Nodup, List.pairwise_map]
      exact hsort.imp fun {a b} (h : a.1 < b.1) (e : a.1 = b.1) => List.lt_irrefl b.1 (e ▸ h)
    intro a ha b hb h
    exact List.inj_on_of_nodup_map this ha hb h
  have he : sorted = keyed 0 (cardMaterials ms) := p1.eq_of_pairwise (fun a b ha hb h1 h2 => hfst a (p1.mem_iff.1 ha) b hb (List.le_antisymm h1 h2)) p2 hle
  subst he
  refine ⟨out, d, (converts_iff (read_cards ht) _ _).2 ?_, h2, List.forall₂_nil_left_iff.1 h3, List.forall₂_nil_left_iff.1 h4, ?_⟩
  · refine (returns_bind _ _ _).2 ⟨out, ?_, (returns_pure _ _).2 rfl⟩
    have h1 := h1 fuel le_rfl
    unfold mcnpFile at h1
    rw [hs] at h1
    unfold serpentMcnp
    have hc : cards' (fun m => writeMcnpMaterial e.io false true m.2) (keyed 0 (cardMaterials ms)) = cards' (fun m => writeMcnpMaterial e.io false true m.2) (cardMaterials ms) := by
      have : ∀ l : List (Str × Material K), cards' (fun m => writeMcnpMaterial e.io false true m.2) l = cards' (writeMcnpMaterial e.io false true) (l.map Prod.snd) := by
        intro l
        unfold cards' cards
        rw [List.mapM_map]
        rfl
      rw [this, this, hk]
    rw [hc] at h1
    exact h1
  · have : List.Forall₂ (fun (a : Material K) (p : Str × Material K) => p.1 = a.number ∧ SameComposition (fun _ => []) a p.2) ((keyed 0 (cardMaterials ms)).map Prod.snd) d.materials :=
      List.forall₂_map_left_iff.2 p3
    rw [hk] at this
    exact List.forall₂_map_left_iff.1 this

variable [IsStrictOrderedRing K]

/-- C101, partial: the OpenMC files have one material for each material of the input, with its name, density, nuclides and fractions, and an empty geometry. Missing: other cards than materials, see
`C101_refuted_geometry`; nuclides must be those of real elements. -/
theorem C101_openmc_partial (e : Env K) (text : Str) (ms : List (SerpentCard K)) (ht : SerpentText e.io text ms)
    (hc : ∀ m ∈ ms, ∃ l, m.nuclides = compositionOf l ∧ ∀ p ∈ l, 0 < p.1 ∧ p.1 ≤ 118 ∧ p.2.1 < 1000 ∧ (p.1 < 10 → p.2.1 < 100) ∧ Prints e.io.parse e.io.render |p.2.2|)
    (hd : ∀ m ∈ ms, Prints e.io.parse e.io.render |m.density|) (ha : ∀ m ∈ ms, AttrText m.name) :
    ∃ g x ys, ConvertsSerpent e text .openmc (.xml g x) ∧ openmcGeometry g = some ([], []) ∧ openmcMaterials x = some ys ∧
      List.Forall₂ (fun m => OpenmcMaterialSays e.io m.2) (cardMaterials ms) ys := by
  classical
  let P : List (Str × K) → List (Nuc K) → Prop := fun c l => c = compositionOf l ∧ ∀ p ∈ l, 0 < p.1 ∧ p.1 ≤ 118 ∧ p.2.1 < 1000 ∧ (p.1 < 10 → p.2.1 < 100) ∧ Prints e.io.parse e.io.render |p.2.2|
  let nucs : Material K → List (Nuc K) := fun m => if h : ∃ l, P m.composition l then h.choose else []
  obtain ⟨g, x, ys, h1, h2, h3, h4⟩ := C91_materials_partial e nucs (cardMaterials ms) (card_numbers ms) fun p hp => by
    obtain ⟨m, hm, i, rfl⟩ := card_mem hp
    have h : ∃ l, P (cardMaterial m i).composition l := hc m hm
    have hn : nucs (cardMaterial m i) = h.choose := dif_pos h
    refine ⟨hn ▸ h.choose_spec.1, fun p hp => h.choose_spec.2 p (hn ▸ hp), hd m hm, ⟨i, parseInt_intStr i⟩, ha m hm⟩
  exact ⟨g, x, ys, (converts_iff (read_cards ht) _ _).2 h1, h2, h3, h4⟩

/-- C101, partial: the SCONE file has one material for each material of the input, and no surfaces, cells and universes. The numbers of the nuclides have the ratios of the input, and for a density of mass the right
total. Missing: densities of atoms, unless the fractions have the sum 1, see `C101_refuted_fractions`, fractions of mass, see C79, and other cards than materials, see `C101_refuted_geometry`. -/
theorem C101_scone_partial (e : Env K) (text : Str) (ms : List (SerpentCard K)) (ht : SerpentText e.io text ms)
    (hc : ∀ m ∈ ms, ∃ l : List (Nuc K), m.nuclides = compositionOf l ∧ (∀ p ∈ l, p.2.1 < 1000 ∧ 0 < p.2.1 ∧ 0 < p.2.2) ∧ l ≠ [])
    (ho : ∀ l, (e.orderInt l).Perm l) (hs : ∀ x, SconeOrdinary (e.sci x)) (read : Str → Option K) (hr : ∀ w x, Literal w x → read w = some x) :
    ∃ out geometry handles mes, ConvertsSerpent e text .scone (.text out) ∧ sconeRead out = some [.dict c!"geometry" (geometry ++ [.dict c!"surfaces" [], .dict c!"cells" [], .dict c!"universes" []]),
        .dict c!"nuclearData" [handles, .dict c!"materials" mes]] ∧
      List.Forall₂ (fun m item => ∃ l, m.2.composition = compositionOf l ∧ SconeMaterialSays e.sci m.2 l item) (cardMaterials ms) mes := by
  classical
  let P : List (Str × K) → List (Nuc K) → Prop := fun c l => c = compositionOf l ∧ (∀ p ∈ l, p.2.1 < 1000 ∧ 0 < p.2.1 ∧ 0 < p.2.2) ∧ l ≠ []
  let nucs : Material K → List (Nuc K) := fun m => if h : ∃ l, P m.composition l then h.choose else []
  have hn : ∀ p ∈ cardMaterials ms, P p.2.composition (nucs p.2) := by
    intro p hp
    obtain ⟨m, hm, i, rfl⟩ := card_mem hp
    have h : ∃ l, P (cardMaterial m i).composition l := hc m hm
    have hn : nucs (cardMaterial m i) = h.choose := dif_pos h
    show P (cardMaterial m i).composition (nucs (cardMaterial m i))
    rw [hn]
    exact h.choose_spec
  obtain ⟨out, us, ⟨fuel, h1⟩, ⟨ids, new, -, hi, -, hp, -⟩, ses, ces, ues, mes, h2, h3, h4, h5, h6⟩ := C87_file_partial e (fun x => x) read nucs [] [] (cardMaterials ms)
    ⟨by simp, by simp, by simp, by simp, fun p hp => by
      obtain ⟨m, hm, i, rfl⟩ := card_mem hp
      exact ⟨(hn _ hp).1, (hn _ hp).2.1, (hn _ hp).2.2, natStr_digits i, (card_line ht hm).2.1⟩, hs, hr⟩ ho
  have hids : ids = [] := List.eq_nil_iff_forall_not_mem.2 fun u hu => by simpa using (hi u).1 hu
  subst hids
  have hus : us = [] := by simpa using hp
  subst hus
  cases h3
  cases h4
  cases h5
  refine ⟨out, [_, _, _], _, mes, (converts_iff (read_cards ht) _ _).2 (write_scone (h1 fuel le_rfl)), h2, ?_⟩
  exact forall₂_imp (fun m item h => ⟨_, (hn m h.1).1, h.2.2⟩) (forall₂_mem h6)

end

/-! ## A case that meets the hypotheses -/

private def runEnv : Env ℚ :=
  { fuel := 100, io := sampleIO, fixed := sampleIO.render, sci := sampleIO.render, sci4 := sampleIO.render, sci3 := sampleIO.render, sqrt := id, degAtan := id, orderStr := id, orderInt := id }

private def waterText : Str := c!"surf 1 sph 0 0 0 5\ncell 1 0 water -1\nmat water 3\n1001.09c 2 % light\n8016.09c 1\n"

/-- Three units of atoms, two of them hydrogen to one of oxygen. -/
private def waterCard : SerpentCard ℚ := ⟨c!"water", 3, [(c!"1001", 2), (c!"8016", 1)], [c!"09c", c!"09c"]⟩

private theorem water_lines : SerpentLines sampleIO [c!"mat water 3\n", c!"1001.09c 2 % light\n", c!"8016.09c 1\n"] waterCard := by
  refine ⟨0, c!"water 3\n", _, _, c!"3", [], [(c!"1001.09c", c!"2"), (c!"8016.09c", c!"1")], rfl, rfl, by decide +kernel, by decide +kernel, ?_, by decide +kernel, by decide +kernel,
    .cons ⟨by decide +kernel, by decide +kernel⟩ (.cons ⟨by decide +kernel, by decide +kernel⟩ .nil), by decide +kernel⟩
  have sep : ∀ l : Str, (∀ i, i < l.length → l[i + 1]? = some '%' → (l[i]?.map isSpace) = some true) → Separated l := by
    intro l h a c b e _
    have := h a.length (by rw [e]; simp) (by rw [e]; simp)
    rw [e] at this
    simpa using this
  intro l hl
  simp only [List.mem_cons, List.not_mem_nil, or_false] at hl
  rcases hl with rfl | rfl
  · exact ⟨by decide +kernel, ⟨c!"1001.09c 2 % light", rfl⟩, sep _ (by decide)⟩
  · exact ⟨by decide +kernel, ⟨c!"8016.09c 1", rfl⟩, sep _ (by decide)⟩

private theorem water_text : SerpentText sampleIO waterText [waterCard] := by
  refine ⟨[c!"surf 1 sph 0 0 0 5\n", c!"cell 1 0 water -1\n"], [_], by decide +kernel, ?_, .cons water_lines .nil⟩
  decide +kernel

private theorem water_alone : SerpentText sampleIO c!"mat water 3\n1001.09c 2 % light\n8016.09c 1\n" [waterCard] :=
  ⟨[], [_], by decide +kernel, by simp, .cons water_lines .nil⟩

/-- The conditions of all the theorems above. -/
example : DecimalCard waterCard ∧ waterCard.nuclides ≠ [] ∧ (∀ x ∈ waterCard.libraries, ∀ c ∈ x, isDigit c = true ∨ c.isLower = true) ∧ PrintsFloat sampleIO waterCard.density ∧
    (∀ x ∈ waterCard.nuclides, PrintsFloat sampleIO x.2) ∧ waterCard.nuclides = compositionOf [(1, 1, 2), (8, 16, 1)] := by
  have f : ∀ (x : ℚ) (d : Str), sampleIO.render x = d ++ c!".0" → d ≠ [] → (∀ c ∈ d, isDigit c = true) → sampleIO.parse (sampleIO.render x) = some x → PrintsFloat sampleIO x := fun x d h1 h2 h3 h4 =>
    ⟨⟨[], d, c!".0", [], by simpa using h1, .inl rfl, h2, h3, .inr ⟨c!"0", rfl, by decide⟩, .inl rfl⟩, h4⟩
  refine ⟨?_, by decide, by decide, f _ c!"3" (by decide +kernel) (by decide) (by decide) (by decide +kernel), ?_, by decide +kernel⟩
  · unfold DecimalCard
    decide
  · intro x hx
    simp only [waterCard, List.mem_cons, List.not_mem_nil, or_false] at hx
    rcases hx with rfl | rfl
    · exact f _ c!"2" (by decide +kernel) (by decide) (by decide) (by decide +kernel)
    · exact f _ c!"1" (by decide +kernel) (by decide) (by decide) (by decide +kernel)

/-- The sphere and the cell leave no trace, and the density is not written. -/
example : ConvertsSerpent runEnv waterText .mcnp (.text c!"C cell definitions\n\nC surface definitions\n\nC material definitions\nC Material water\nM1     1001 2.0\n     8016 1.0\n") :=
  (converts_iff (read_cards water_text) _ _).2 (by unfold Returns; decide +kernel)

set_option maxRecDepth 100000 in
/-- C101, refuted: the fractions of a Serpent file need not add up to 1, and they are not normalised. Water with 3 atoms per barn and cm becomes water with 6 atoms of hydrogen and 3 of oxygen in SCONE. -/
theorem C101_refuted_fractions : ∃ (text out : Str) (m : SerpentCard ℚ) (geometry handles : SconeItem), SerpentText sampleIO text [m] ∧ m.density = 3 ∧ m.nuclides = [(c!"1001", 2), (c!"8016", 1)] ∧
    ConvertsSerpent runEnv text .scone (.text out) ∧
    sconeRead out = some [geometry, .dict c!"nuclearData" [handles, .dict c!"materials" [.dict c!"m1" [.dict c!"composition" [.value [c!"1001.03", c!"6.0"], .value [c!"8016.03", c!"3.0"]]]]]] :=
  ⟨waterText, c!"geometry { \ntype geometryStd; \nboundary (0 0 0 0 0 0); \ngraph {type shrunk;} \n! --- surface definitions --- !\nsurfaces { \n} \n! --- cell definitions --- !\ncells { \n} \n! --- universe definitions --- !\nuniverses { \n} \n} \nnuclearData { \nhandles { \nce {type aceNeutronDatabase; aceLibrary $SCONE_ACE; ures 0;} \n} \n! --- material definitions --- !\nmaterials { \n! water \nm1 { \ncomposition { \n1001.03 6.0; \n8016.03 3.0; \n} \n} \n} \n} \n",
    waterCard, _, _, water_text, rfl, rfl, (converts_iff (read_cards water_text) _ _).2 (by unfold Returns; decide +kernel), rfl⟩

/-- The hypotheses of `C101_refuted_sum`. -/
example : readText c!"mat fuel sum\n92235 0.01\n" = [] ++ (List.replicate 0 ' ' ++ c!"mat " ++ c!"fuel sum\n") :: [c!"92235 0.01\n"] ∧
    split (List.replicate 0 ' ' ++ c!"mat " ++ c!"fuel sum\n") = [c!"mat", c!"fuel", c!"sum"] ∧ sampleIO.parse c!"sum" = none := by decide +kernel

/-- The hypotheses of `C101_refuted_geometry` and `C101_refuted_density` with different texts. -/
example : SerpentText sampleIO waterText [waterCard] ∧ SerpentText sampleIO c!"mat water 3\n1001.09c 2 % light\n8016.09c 1\n" [waterCard] := ⟨water_text, water_alone⟩

end Csg
