import Verif.Lemmas.Reorder
import Verif.Props.Outputs
import Verif.Props.SerpentRun
import Verif.Lemmas.MixedIO
import Verif.Spec.Reproducible

/-!
# The same file in every run (C107)
-/

namespace Csg

open Spec

section
variable {K : Type} [Field K] [LinearOrder K]

private theorem writeCode_other {e : Env K} {order : List Str → List Str} {c : Code} (h : c ≠ .fluka) (s : Shared K) : writeCode { e with orderStr := order } c s = writeCode e c s := by
  cases c <;> first | rfl | exact absurd rfl h

private theorem writeCodes_other {e : Env K} {order : List Str → List Str} : ∀ (cs : List Code) (s : Shared K), .fluka ∉ cs → writeCodes { e with orderStr := order } cs s = writeCodes e cs s := by
  intro cs
  induction cs with
  | nil => intro s _; rfl
  | cons c cs ih =>
    intro s h
    rw [List.mem_cons, not_or] at h
    rw [writeCodes, writeCodes, writeCode_other (fun e => h.1 e.symm)]
    congr 1
    funext r
    obtain ⟨t, s'⟩ := r
    simp only [ih s' h.2]

/-- **C107.** Without FLUKA among the codes a run depends on nothing that changes from run to run: the same files, or the same failure. -/
theorem C107_same (e e' : Env K) (h : OtherRun e e') (cosDeg : K → K) (quick : Bool) (output : Option (List Str)) (text : Str) (hf : .fluka ∉ selectCodes output) :
    convert e' cosDeg quick output text = convert e cosDeg quick output text := by
  obtain ⟨⟨order, rfl⟩, -⟩ := h
  unfold convert mainWrite
  congr 1
  funext d
  exact writeCodes_other _ _ hf


/-- The same material with the constituents in another order. -/
private def Moved (m m' : Str × Material K) : Prop := m'.1 = m.1 ∧ m'.2 = { m.2 with composition := m'.2.composition } ∧ m.2.composition.Perm m'.2.composition

private def Fits (fuel : Nat) (sci : K → Str) (m : Material K) : Prop :=
  m.number.length ≤ 9 ∧ ' ' ∉ m.number ∧ '\n' ∉ m.number ∧ m.composition.length ≤ fuel ∧ ∀ p ∈ m.composition, (sci p.2).length = 10 ∧ '\n' ∉ sci p.2

private theorem sum_perm {α : Type} (f : α → Str) {l l' : List α} (h : l.Perm l') : (l.flatMap f).length = (l'.flatMap f).length := (h.flatMap_right f).length_eq

omit [Field K] [LinearOrder K] in
private theorem compound_other {fuel : Nat} {sci : K → Str} {m m' : Str × Material K} (h : Moved m m') {ls : List Str} (hl : compoundLines fuel sci m.2 = some ls) :
    ∃ ls', compoundLines fuel sci m'.2 = some ls' ∧ (Fits fuel sci m.2 → (∀ p ∈ m.2.composition, p.1.length ≤ 10 ∧ p.1 ≠ [] ∧ ' ' ∉ p.1 ∧ '\n' ∉ p.1) →
      (ls.flatMap compoundPairs).Perm (ls'.flatMap compoundPairs)) := by
  obtain ⟨-, h2, h3⟩ := h
  have hn : m'.2.number = m.2.number := by rw [h2]
  have hs : (compoundLines fuel sci m'.2).isSome := by
    have : (compoundLines fuel sci m.2).isSome := by rw [hl]; rfl
    rw [← this]
    unfold compoundLines
    rw [hn]
    exact (compoundGo_length _ _ _ _ (sum_perm _ h3)).symm
  obtain ⟨ls', hl'⟩ := Option.isSome_iff_exists.1 hs
  refine ⟨ls', hl', fun ⟨f1, f2, f3, f4, f5⟩ hnames => ?_⟩
  obtain ⟨x, x1, -, x3⟩ := C60_compound_partial sci m.2 f5 hnames f1 ⟨f2, f3⟩ fuel f4
  obtain ⟨y, y1, -, y3⟩ := C60_compound_partial sci m'.2 (fun p hp => f5 p (h3.mem_iff.2 hp)) (fun p hp => hnames p (h3.mem_iff.2 hp)) (by rw [hn]; exact f1) (by rw [hn]; exact ⟨f2, f3⟩) fuel
    (by rw [← h3.length_eq]; exact f4)
  rw [hl] at x1
  rw [hl'] at y1
  cases x1
  cases y1
  refine (((List.reverse_perm ls).symm.flatMap_right _).trans ?_).trans ((List.reverse_perm ls').flatMap_right _)
  rw [x3, y3]
  exact h3.map _

private theorem blocks_other {fuel : Nat} {io : NumIO K} {sci : K → Str} {l l' : List (Str × Material K)} (h : List.Forall₂ Moved l l') : ∀ bs : List Str,
    (l.mapM fun e => do
      let ls ← compoundLines fuel sci e.2
      some (flukaMaterialLine io e.2 ++ ls.flatten)) = some bs → ∃ bs', (l'.mapM fun e => do
        let ls ← compoundLines fuel sci e.2
        some (flukaMaterialLine io e.2 ++ ls.flatten)) = some bs' ∧ ∃ blocks blocks' : List (List Str), bs.flatten = blocks.flatten.flatten ∧ bs'.flatten = blocks'.flatten.flatten ∧
          ((∀ m ∈ l, Fits fuel sci m.2 ∧ ∀ p ∈ m.2.composition, p.1.length ≤ 10 ∧ p.1 ≠ [] ∧ ' ' ∉ p.1 ∧ '\n' ∉ p.1) → List.Forall₂ SameCompound blocks blocks') := by
  induction h with
  | nil => intro bs hb; cases hb; exact ⟨[], rfl, [], [], rfl, rfl, fun _ => .nil⟩
  | @cons m m' l l' hm _ ih =>
    intro bs hb
    rw [List.mapM_cons] at hb
    simp only [Option.bind_eq_bind, Option.bind_eq_some_iff, Option.pure_def, Option.some.injEq] at hb
    obtain ⟨b, ⟨ls, hls, rfl⟩, bs1, hbs, rfl⟩ := hb
    obtain ⟨ls', hls', hc⟩ := compound_other hm hls
    obtain ⟨bs', hbs', blocks, blocks', e1, e2, hall⟩ := ih bs1 hbs
    have hline : flukaMaterialLine io m'.2 = flukaMaterialLine io m.2 := by rw [hm.2.1]; rfl
    refine ⟨(flukaMaterialLine io m'.2 ++ ls'.flatten) :: bs', ?_, (flukaMaterialLine io m.2 :: ls) :: blocks, (flukaMaterialLine io m.2 :: ls') :: blocks', ?_, ?_, fun hf => ?_⟩
    · rw [List.mapM_cons, hbs', hls']; rfl
    · rw [List.flatten_cons, e1, List.flatten_cons, List.flatten_append, List.flatten_cons]
    · rw [List.flatten_cons, e2, List.flatten_cons, List.flatten_append, List.flatten_cons, hline]
    · exact .cons ⟨_, _, _, rfl, rfl, hc (hf m (by simp)).1 (hf m (by simp)).2⟩ (hall fun x hx => hf x (by simp [hx]))

private theorem wrap {t t' : Str} (a b c : Str) (h : SameButOrder t t') : SameButOrder (a ++ t ++ b ++ c) (a ++ t' ++ b ++ c) := by
  obtain ⟨p, q, es, es', bs, bs', rfl, rfl, h1, h2⟩ := h
  exact ⟨a ++ p, q ++ (b ++ c), es, es', bs, bs', by simp only [List.append_assoc], by simp only [List.append_assoc], h1, h2⟩

private theorem materials_other {fuel : Nat} {io : NumIO K} {sci : K → Str} {nucs nucs' : List Str} (h : nucs.Perm nucs') {mats : List (Str × Material K)} {text : Str} {mats' : List (Str × Material K)}
    (hw : writeFlukaMaterials fuel io sci nucs mats = .ok (some (text, mats'))) :
    ∃ text' mats'', writeFlukaMaterials fuel io sci nucs' mats = .ok (some (text', mats'')) ∧ List.Forall₂ Moved mats' mats'' ∧ ((∀ m ∈ mats', Fits fuel sci m.2) → SameButOrder text text') := by
  unfold writeFlukaMaterials at hw ⊢
  obtain ⟨map, hmap, hw⟩ := bind_ok hw
  obtain ⟨elems, helems, hw⟩ := bind_ok hw
  obtain ⟨map', hmap', hperm⟩ := collapsedMap_perm h map hmap
  have hnames := (collapsedMap_mem hmap).1
  obtain ⟨ls, ls', e1, e2, e3⟩ := elementLines_perm hperm hnames
  rw [e1] at helems
  cases helems
  have hmoved : List.Forall₂ Moved (mats.map fun e => (e.1, { e.2 with composition := nameDict e.2.composition [] map })) (mats.map fun e => (e.1, { e.2 with composition := nameDict e.2.composition [] map' })) := by
    rw [List.forall₂_map_left_iff, List.forall₂_map_right_iff, List.forall₂_same]
    exact fun m _ => ⟨rfl, rfl, nameDict_perm _ hperm⟩
  have hw' := Except.ok.inj hw
  simp only [Option.bind_eq_bind, Option.bind_eq_some_iff, Option.some.injEq, Prod.mk.injEq] at hw'
  obtain ⟨bs, hbs, rfl, rfl⟩ := hw'
  obtain ⟨bs', hbs', blocks, blocks', b1, b2, b3⟩ := blocks_other (io := io) hmoved bs hbs
  refine ⟨c!"* --- material definitions --- *\n" ++ flukaRuler ++ ls'.flatten ++ bs'.flatten, _, ?_, hmoved, fun hf =>
    ⟨c!"* --- material definitions --- *\n" ++ flukaRuler, [], elems, ls', blocks, blocks', by rw [b1, List.append_nil], by rw [b2, List.append_nil], e3, b3 fun m hm => ⟨hf m hm, fun p hp => ?_⟩⟩⟩
  · rw [hmap', show ∀ f : List (Str × Str) → Py (Option (Str × List (Str × Material K))), ((Except.ok map' : Py _) >>= f) = f map' from fun _ => rfl, e2,
      show ∀ f : List Str → Py (Option (Str × List (Str × Material K))), ((Except.ok ls' : Py _) >>= f) = f ls' from fun _ => rfl]
    exact congrArg Except.ok (Option.bind_eq_some_iff.2 ⟨bs', hbs', rfl⟩)
  · obtain ⟨m0, -, rfl⟩ := List.mem_map.1 hm
    refine nameDict_names (P := fun n => n.length ≤ 10 ∧ n ≠ [] ∧ ' ' ∉ n ∧ '\n' ∉ n) _ (fun q hq => ?_) [] (by simp) p hp
    obtain ⟨_, k, -, hk, -⟩ := flukaName_spec (hnames q hq)
    exact zz_names.2 _ hk

private theorem fluka_other {e e' : Env K} (h : OtherRun e e') {cs : List (Cell K)} {ss : List (Surface K)} {ms : List (Str × Material K)} {t : Str} {ss' : List (Surface K)} {ms' : List (Str × Material K)}
    (hr : Returns (flukaFile e cs ss ms) (t, ss', ms')) :
    ∃ t' ms'', Returns (flukaFile e' cs ss ms) (t', ss', ms'') ∧ ((∀ m ∈ ms', Fits e.fuel e.sci3 m.2) → SameButOrder t t') ∧ List.Forall₂ Moved ms' ms'' := by
  obtain ⟨⟨order, rfl⟩, hp⟩ := h
  unfold flukaFile at hr ⊢
  rw [returns_bind] at hr
  obtain ⟨sf, h1, hr⟩ := hr
  rw [returns_bind] at hr
  obtain ⟨cf, h2, hr⟩ := hr
  rw [returns_bind] at hr
  obtain ⟨⟨mt, mm⟩, h3, hr⟩ := hr
  rw [returns_pure] at hr
  rw [returns_mk] at h3
  obtain ⟨mt', mm', k1, k2, k3⟩ := materials_other ((hp _).1.trans (hp _).2.symm) h3
  simp only [Prod.mk.injEq] at hr
  obtain ⟨rfl, rfl, rfl⟩ := hr
  exact ⟨_, mm', (returns_bind _ _ _).2 ⟨sf, h1, (returns_bind _ _ _).2 ⟨cf, h2, (returns_bind _ _ _).2 ⟨(_, mm'), (returns_mk _ _).2 k1, (returns_pure _ _).2 rfl⟩⟩⟩, fun hf => wrap _ _ _ (k3 hf), k2⟩

/-- **C107.** FLUKA: if one run writes a file, so does every other run; both leave the same surfaces, and the materials differ only in the order of their constituents. The files have the same cards for elements
in another order and the same rest, and the constituents of each material, with the same fractions, in another order. The numbers of materials and the texts of fractions must fit in their fields. Missing: the texts are
not the same, see `C107_refuted`. Fractions are added exactly (see `nameDict`); with floating-point numbers their sum may depend on the order, too. -/
theorem C107_fluka_partial (e e' : Env K) (h : OtherRun e e') (cs : List (Cell K)) (ss : List (Surface K)) (ms : List (Str × Material K)) (t : Str) (ss' : List (Surface K)) (ms' : List (Str × Material K))
    (hr : Returns (flukaFile e cs ss ms) (t, ss', ms'))
    (hfit : ∀ m ∈ ms', m.2.number.length ≤ 9 ∧ ' ' ∉ m.2.number ∧ '\n' ∉ m.2.number ∧ m.2.composition.length ≤ e.fuel ∧ ∀ p ∈ m.2.composition, (e.sci3 p.2).length = 10 ∧ '\n' ∉ e.sci3 p.2) :
    ∃ t' ms'', Returns (flukaFile e' cs ss ms) (t', ss', ms'') ∧ SameButOrder t t' ∧
      List.Forall₂ (fun m m' => m'.1 = m.1 ∧ m'.2 = { m.2 with composition := m'.2.composition } ∧ m.2.composition.Perm m'.2.composition) ms' ms'' := by
  obtain ⟨t', ms'', h1, h2, h3⟩ := fluka_other h hr
  exact ⟨t', ms'', h1, h2 hfit, h3⟩

omit [LinearOrder K] in
private theorem molar_perm {l l' : List (Str × K)} (h : l.Perm l') : ∀ s r, l.foldlM (fun s e => do let z ← pyInt e.1; .ok (s + e.2 * ((z % 1000 : Int) : K))) s = (.ok r : Py K) →
    l'.foldlM (fun s e => do let z ← pyInt e.1; .ok (s + e.2 * ((z % 1000 : Int) : K))) s = (.ok r : Py K) := by
  induction h with
  | nil => intro s r h; exact h
  | cons a _ ih =>
    intro s r h
    rw [List.foldlM_cons] at h ⊢
    obtain ⟨x, h1, h2⟩ := bind_ok h
    rw [h1]
    exact ih x r h2
  | swap a b l =>
    intro s r h
    have step : ∀ (x : Str × K) (l : List (Str × K)) (s : K) (z : Int), pyInt x.1 = .ok z →
        (x :: l).foldlM (fun s (e : Str × K) => (do let z ← pyInt e.1; .ok (s + e.2 * ((z % 1000 : Int) : K)) : Py K)) s =
          l.foldlM (fun s (e : Str × K) => (do let z ← pyInt e.1; .ok (s + e.2 * ((z % 1000 : Int) : K)) : Py K)) (s + x.2 * ((z % 1000 : Int) : K)) := by
      intro x l s z hz
      rw [List.foldlM_cons, hz]
      rfl
    rw [List.foldlM_cons] at h
    obtain ⟨x, h1, h2⟩ := bind_ok h
    rw [List.foldlM_cons] at h2
    obtain ⟨y, h3, h4⟩ := bind_ok h2
    obtain ⟨z, h5, h6⟩ := bind_ok h1
    obtain ⟨z', h7, h8⟩ := bind_ok h3
    cases h6
    cases h8
    rw [step _ _ _ _ h7, step _ _ _ _ h5, add_right_comm]
    exact h4
  | trans _ _ ih1 ih2 => intro s r h; exact ih2 s r (ih1 s r h)

private theorem scone_block {sci : K → Str} {m m' : Str × Material K} (h : Moved m m') {b : Str} (hb : writeSconeMaterial sci m.2 = .ok b) :
    ∃ b', writeSconeMaterial sci m'.2 = .ok b' ∧ ∃ (first last : Str) (lines lines' : List Str), b = first ++ lines.flatten ++ last ∧ b' = first ++ lines'.flatten ++ last ∧ lines.Perm lines' := by
  obtain ⟨-, h2, h3⟩ := h
  unfold writeSconeMaterial at hb ⊢
  obtain ⟨a, ha, hb⟩ := bind_ok hb
  cases hb
  have ha' : sconeDensity m'.2 = .ok a := by
    have hd : m'.2.density = m.2.density := by rw [h2]
    unfold sconeDensity at ha ⊢
    rw [hd]
    split at ha
    · rename_i hp; rw [if_pos hp]; exact ha
    · rename_i hp
      rw [if_neg hp]
      obtain ⟨x, h4, h5⟩ := bind_ok ha
      have h6 : sconeMolarMass m'.2.composition = .ok x := molar_perm h3 0 x h4
      rw [h6]
      exact h5
  rw [ha']
  refine ⟨_, rfl, c!"! " ++ m.2.name ++ c!" \n" ++ c!"m" ++ m.2.number ++ c!" { \n" ++ c!"composition { \n", c!"} \n" ++ c!"} \n", m.2.composition.map fun e => e.1 ++ c!".03 " ++ sci (e.2 * a) ++ c!"; \n",
    m'.2.composition.map fun e => e.1 ++ c!".03 " ++ sci (e.2 * a) ++ c!"; \n", ?_, ?_, h3.map _⟩
  · rw [← List.flatMap_def]; simp only [List.append_assoc]
  · rw [← List.flatMap_def, show m'.2.name = m.2.name by rw [h2], show m'.2.number = m.2.number by rw [h2]]; simp only [List.append_assoc]

private theorem scone_blocks {sci : K → Str} {l l' : List (Str × Material K)} (h : List.Forall₂ Moved l l') : ∀ bs, List.Forall₂ (fun x y => writeSconeMaterial sci x.2 = .ok y) l bs →
    ∃ bs', List.Forall₂ (fun x y => writeSconeMaterial sci x.2 = .ok y) l' bs' ∧
      List.Forall₂ (fun b b' => ∃ (first last : Str) (lines lines' : List Str), b = first ++ lines.flatten ++ last ∧ b' = first ++ lines'.flatten ++ last ∧ lines.Perm lines') bs bs' := by
  induction h with
  | nil => intro bs hb; cases hb; exact ⟨[], .nil, .nil⟩
  | cons hm _ ih =>
    intro bs hb
    cases hb with
    | cons hb hbs =>
      obtain ⟨b', k1, k2⟩ := scone_block hm hb
      obtain ⟨bs', k3, k4⟩ := ih _ hbs
      exact ⟨b' :: bs', .cons k1 k3, .cons k2 k4⟩

private theorem sconeWrap (a b c : Str) {bs bs' : List Str}
    (h : List.Forall₂ (fun b b' => ∃ (first last : Str) (lines lines' : List Str), b = first ++ lines.flatten ++ last ∧ b' = first ++ lines'.flatten ++ last ∧ lines.Perm lines') bs bs') :
    SameScone (a ++ bs.flatten ++ b ++ c) (a ++ bs'.flatten ++ b ++ c) :=
  ⟨a, b ++ c, bs, bs', by rw [List.append_assoc _ b c], by rw [List.append_assoc _ b c], h⟩

private theorem sconeFile_other {e e' : Env K} (h : OtherRun e e') {cs : List (Cell K)} {ss : List (Surface K)} {ms ms' : List (Str × Material K)} {us us' : List (UniverseCard K)} {t : Str}
    (hm : List.Forall₂ Moved ms ms') (hr : Returns (sconeFile e cs ss ms us) (t, us')) : ∃ t', Returns (sconeFile e' cs ss ms' us) (t', us') ∧ SameScone t t' := by
  obtain ⟨⟨order, rfl⟩, -⟩ := h
  unfold sconeFile at hr ⊢
  rw [returns_bind] at hr
  obtain ⟨a1, h1, hr⟩ := hr
  rw [returns_bind] at hr
  obtain ⟨a2, h2, hr⟩ := hr
  rw [returns_bind] at hr
  obtain ⟨a3, h3, hr⟩ := hr
  rw [returns_bind] at hr
  obtain ⟨a4, h4, hr⟩ := hr
  rw [returns_bind] at hr
  obtain ⟨a5, h5, hr⟩ := hr
  rw [returns_bind] at hr
  obtain ⟨a6, h6, hr⟩ := hr
  rw [returns_pure] at hr
  rw [returns_cards'] at h6
  obtain ⟨bs, h6, rfl⟩ := h6
  obtain ⟨bs', k1, k2⟩ := scone_blocks hm bs h6
  simp only [Prod.mk.injEq] at hr
  obtain ⟨rfl, rfl⟩ := hr
  exact ⟨_, (returns_bind _ _ _).2 ⟨a1, h1, (returns_bind _ _ _).2 ⟨a2, h2, (returns_bind _ _ _).2 ⟨a3, h3, (returns_bind _ _ _).2 ⟨a4, h4, (returns_bind _ _ _).2 ⟨a5, h5,
    (returns_bind _ _ _).2 ⟨bs'.flatten, (returns_cards' _ _ _).2 ⟨bs', k1, rfl⟩, (returns_pure _ _).2 rfl⟩⟩⟩⟩⟩⟩, sconeWrap _ _ _ k2⟩

private theorem scone_other {e e' : Env K} (h : OtherRun e e') {s s' : Shared K} (hc : s'.cells = s.cells) (hs : s'.surfaces = s.surfaces) (hu : s'.universes = s.universes)
    (hm : List.Forall₂ Moved s.materials s'.materials) {t : OutFile} {r : Shared K} (hr : Returns (writeCode e .scone s) (t, r)) :
    ∃ x x' r', t = .text x ∧ Returns (writeCode e' .scone s') (.text x', r') ∧ SameScone x x' ∧ r'.cells = r.cells ∧ r'.surfaces = r.surfaces ∧ r'.universes = r.universes ∧
      List.Forall₂ Moved r.materials r'.materials := by
  simp only [writeCode] at hr ⊢
  rw [returns_bind] at hr
  obtain ⟨⟨x, us⟩, hx, hr⟩ := hr
  rw [returns_pure] at hr
  simp only [Prod.mk.injEq] at hr
  obtain ⟨rfl, rfl⟩ := hr
  obtain ⟨x', k1, k2⟩ := sconeFile_other h hm hx
  exact ⟨x, x', { s' with universes := us }, rfl, (returns_bind _ _ _).2 ⟨(x', us), by rw [hc, hs, hu]; exact k1, (returns_pure _ _).2 rfl⟩, k2, hc, hs, rfl, hm⟩

private theorem scones_other {e e' : Env K} (h : OtherRun e e') : ∀ (post : List Code) (s s' : Shared K), (∀ c ∈ post, c = .scone) → s'.cells = s.cells → s'.surfaces = s.surfaces → s'.universes = s.universes →
    List.Forall₂ Moved s.materials s'.materials → ∀ fs, Returns (writeCodes e post s) fs →
    ∃ fs', Returns (writeCodes e' post s') fs' ∧ List.Forall₂ (fun f f' => ∃ x x', f = (Code.scone, OutFile.text x) ∧ f' = (Code.scone, OutFile.text x') ∧ SameScone x x') fs fs' := by
  intro post
  induction post with
  | nil =>
    intro s s' _ _ _ _ _ fs hr
    rw [writeCodes, returns_pure] at hr
    subst hr
    exact ⟨[], (returns_pure _ _).2 rfl, .nil⟩
  | cons c post ih =>
    intro s s' hp hc hs hu hm fs hr
    obtain rfl := hp c (by simp)
    obtain ⟨t, r, ts, h1, h2, rfl⟩ := writeCodes_cons.1 hr
    obtain ⟨x, x', r', rfl, k1, k2, k3, k4, k5, k6⟩ := scone_other h hc hs hu hm h1
    obtain ⟨fs', k7, k8⟩ := ih r r' (fun c hc => hp c (by simp [hc])) k3 k4 k5 k6 ts h2
    exact ⟨_, writeCodes_cons.2 ⟨_, _, _, k1, k7, rfl⟩, .cons ⟨x, x', rfl, rfl, k2⟩ k8⟩

/-- **C107.** A whole run with FLUKA, as `-o all` is, where only SCONE files follow: if one run writes its files, every other run writes the same files up to FLUKA; the FLUKA file and the SCONE files are the
same but for the order in which elements and constituents are listed. Missing: as in `C107_fluka_partial`. -/
theorem C107_run_partial (e e' : Env K) (h : OtherRun e e') (output : Option (List Str)) (d : Deck K) (pre post : List Code) (ho : selectCodes output = pre ++ .fluka :: post)
    (hpre : .fluka ∉ pre) (hpost : ∀ c ∈ post, c = .scone)
    (hfit : ∀ t ss ms, Returns (flukaFile e d.cells d.surfaces d.materials) (t, ss, ms) → ∀ m ∈ ms, m.2.number.length ≤ 9 ∧ ' ' ∉ m.2.number ∧ '\n' ∉ m.2.number ∧ m.2.composition.length ≤ e.fuel ∧
      ∀ p ∈ m.2.composition, (e.sci3 p.2).length = 10 ∧ '\n' ∉ e.sci3 p.2)
    (fs : List (Code × OutFile)) (hr : Returns (mainWrite e output d) fs) :
    ∃ fs' before t t' after after', Returns (mainWrite e' output d) fs' ∧ fs = before ++ (.fluka, .text t) :: after ∧ fs' = before ++ (.fluka, .text t') :: after' ∧ before.map Prod.fst = pre ∧ SameButOrder t t' ∧
      List.Forall₂ (fun f f' => ∃ x x', f = (Code.scone, OutFile.text x) ∧ f' = (Code.scone, OutFile.text x') ∧ SameScone x x') after after' := by
  unfold mainWrite at hr ⊢
  rw [ho] at hr ⊢
  clear ho
  suffices H : ∀ (pre : List Code) (s : Shared K) fs, .fluka ∉ pre → s.cells = d.cells → s.surfaces = d.surfaces → s.materials = d.materials → Returns (writeCodes e (pre ++ .fluka :: post) s) fs →
      ∃ fs' before t t' after after', Returns (writeCodes e' (pre ++ .fluka :: post) s) fs' ∧ fs = before ++ (.fluka, .text t) :: after ∧ fs' = before ++ (.fluka, .text t') :: after' ∧ before.map Prod.fst = pre ∧
        SameButOrder t t' ∧ List.Forall₂ (fun f f' => ∃ x x', f = (Code.scone, OutFile.text x) ∧ f' = (Code.scone, OutFile.text x') ∧ SameScone x x') after after' from H pre _ fs hpre rfl rfl rfl hr
  intro pre
  induction pre with
  | nil =>
    intro s fs _ hc hs hm hr
    obtain ⟨t, r, ts, h1, h2, rfl⟩ := writeCodes_cons.1 hr
    simp only [writeCode] at h1
    rw [returns_bind] at h1
    obtain ⟨⟨x, ss, ms⟩, hx, h1⟩ := h1
    rw [returns_pure] at h1
    cases h1
    rw [hc, hs, hm] at hx
    obtain ⟨x', ms', k1, k2, k3⟩ := fluka_other h hx
    obtain ⟨fs', k4, k5⟩ := scones_other h post { s with surfaces := ss, materials := ms } { s with surfaces := ss, materials := ms' } hpost rfl rfl rfl k3 ts h2
    refine ⟨_, [], x, x', ts, fs', writeCodes_cons.2 ⟨.text x', { s with surfaces := ss, materials := ms' }, fs', ?_, k4, rfl⟩, rfl, rfl, rfl, k2 (hfit _ _ _ hx), k5⟩
    simp only [writeCode]
    exact (returns_bind _ _ _).2 ⟨(x', ss, ms'), by rw [hc, hs, hm]; exact k1, (returns_pure _ _).2 rfl⟩
  | cons c pre ih =>
    intro s fs hf hc hs hm hr
    rw [List.mem_cons, not_or] at hf
    obtain ⟨t, r, ts, h1, h2, rfl⟩ := writeCodes_cons.1 hr
    obtain ⟨g1, g2, -⟩ := writeCode_shared h1
    have g2 := g2 fun e => hf.1 e.symm
    obtain ⟨fs', before, x, x', after, after', k1, rfl, rfl, rfl, k5, k6⟩ := ih r ts hf.2 (g1.trans hc) (g2.1.trans hs) (g2.2.trans hm) h2
    refine ⟨_, (c, t) :: before, x, x', after, after', writeCodes_cons.2 ⟨t, r, _, ?_, k1, rfl⟩, rfl, rfl, rfl, k5, k6⟩
    obtain ⟨⟨order, rfl⟩, -⟩ := h
    rw [writeCode_other fun e => hf.1 e.symm]
    exact h1

/-- **C107.** From a Serpent file every run writes the same files. -/
theorem C107_serpent (e e' : Env K) (h : OtherRun e e') (output : Option (List Str)) (text : Str) (fs : List (Code × OutFile)) :
    Returns (convertSerpent e' output text) fs ↔ Returns (convertSerpent e output text) fs := by
  obtain ⟨⟨order, rfl⟩, hp⟩ := h
  have hw : ∀ (mats : List (Str × Material K)) c t, Returns (serpentWrite { e with orderStr := order } mats c) t ↔ Returns (serpentWrite e mats c) t := by
    intro mats c t
    cases c <;> try rfl
    cases mats with
    | nil =>
      have h0 : order [] = e.orderStr [] := by
        rw [(hp []).1.eq_nil]
        exact (hp []).2.eq_nil
      have h2 : flukaFile { e with orderStr := order } [] [] [] = flukaFile e [] [] [] := by
        unfold flukaFile
        simp only [List.flatMap_nil, List.dedup_nil, h0]
      simp only [serpentWrite, serpentFluka, List.flatMap_nil, List.dedup_nil, h0, h2]
    | cons m mats =>
      have hno : ∀ e : Env K, ¬ Returns (serpentWrite e (m :: mats) .fluka) t := by
        intro e hr
        simp only [serpentWrite, serpentFluka] at hr
        simp only [returns_bind] at hr
        obtain ⟨_, ⟨_, _, _, _, hr⟩, _⟩ := hr
        rw [if_neg (by simp), returns_lift] at hr
        cases hr
      exact ⟨fun h => absurd h (hno _), fun h => absurd h (hno _)⟩
  unfold convertSerpent
  simp only [returns_bind]
  refine exists_congr fun mats => and_congr Iff.rfl ?_
  rw [returns_mapM, returns_mapM]
  have : ∀ c f, Returns (do let t ← serpentWrite { e with orderStr := order } mats c; pure (c, t)) f ↔ Returns (do let t ← serpentWrite e mats c; pure (c, t)) f := by
    intro c f
    simp only [returns_bind, hw]
  simp only [this]

end

private def sampleEnv (order : List Str → List Str) : Env ℚ :=
  { fuel := 100, io := mixedIO, fixed := sampleIO.render, sci := sampleIO.render, sci4 := sampleIO.render, sci3 := formatE, sqrt := id, degAtan := id, orderStr := order, orderInt := id }

private def sampleSteel : Material ℚ :=
  { name := c!"steel", number := c!"2", composition := [(c!"24052", 1), (c!"24053", 2), (c!"26056", 3), (c!"25055", 4)], xsid := [(c!"24052", []), (c!"24053", []), (c!"26056", []), (c!"25055", [])],
    density := 7 }

private def sampleDeck : Deck ℚ := { title := [], cells := [], surfaces := [], last := 0, importances := [], transforms := [], materials := [(c!"2", sampleSteel)], bounding := [] }

private theorem sample_runs : OtherRun (sampleEnv id) (sampleEnv List.reverse) := ⟨⟨_, rfl⟩, fun l => ⟨.refl l, List.reverse_perm l⟩⟩

/-- The material cards of two runs. -/
example : (writeFlukaMaterials 100 sampleIO formatE [c!"24052", c!"24053", c!"26056", c!"25055"] [(c!"2", sampleSteel)]).map (·.map Prod.fst) = .ok (some (c!"* --- material definitions --- *\n" ++ flukaRuler ++
    c!"MATERIAL        24.0                 1.0                                CHROMIUM\n" ++ c!"MATERIAL        25.0                 1.0                                MANGANES\n" ++
    c!"MATERIAL                             7.0                                      M2\n" ++ c!"COMPOUND   3.000e+00  CHROMIUM 3.000e+00      IRON 4.000e+00  MANGANES        M2\n")) ∧
    (writeFlukaMaterials 100 sampleIO formatE [c!"25055", c!"26056", c!"24053", c!"24052"] [(c!"2", sampleSteel)]).map (·.map Prod.fst) = .ok (some (c!"* --- material definitions --- *\n" ++ flukaRuler ++
    c!"MATERIAL        25.0                 1.0                                MANGANES\n" ++ c!"MATERIAL        24.0                 1.0                                CHROMIUM\n" ++
    c!"MATERIAL                             7.0                                      M2\n" ++ c!"COMPOUND   4.000e+00  MANGANES 3.000e+00      IRON 3.000e+00  CHROMIUM        M2\n")) := by
  decide +kernel

private def both (output : Option (List Str)) : Bool :=
  match (mainWrite (sampleEnv id) output sampleDeck).run, (mainWrite (sampleEnv List.reverse) output sampleDeck).run with
  | .ok (some a), .ok (some b) => decide (a ≠ b)
  | _, _ => false

private theorem both_iff {output : Option (List Str)} (h : both output = true) :
    ∃ fs fs', Returns (mainWrite (sampleEnv id) output sampleDeck) fs ∧ Returns (mainWrite (sampleEnv List.reverse) output sampleDeck) fs' ∧ fs ≠ fs' := by
  unfold both at h
  split at h
  · rename_i a b h1 h2
    exact ⟨a, b, h1, h2, of_decide_eq_true h⟩
  · cases h

private def sampleText : Str := c!"title\n1 1 -7 -1 imp:n=1\n2 0 1 imp:n=0\n\n1 so 3\n\nm1 24052 1.0 25055 2.0\n"

private def bothText : Bool :=
  match (convert (sampleEnv id) id true (some [c!"fluka"]) sampleText).run, (convert (sampleEnv List.reverse) id true (some [c!"fluka"]) sampleText).run with
  | .ok (some a), .ok (some b) => decide (a ≠ b)
  | _, _ => false

/-- C107 is false for FLUKA: two runs on the same MCNP file write different files. -/
theorem C107_refuted : ¬ ∀ (e e' : Env ℚ) (output : Option (List Str)) (text : Str) fs fs', OtherRun e e' → Returns (convert e id true output text) fs → Returns (convert e' id true output text) fs' → fs = fs' := by
  intro h
  have hb : bothText = true := by decide +kernel
  unfold bothText at hb
  split at hb
  · rename_i a b h1 h2
    exact of_decide_eq_true hb (h _ _ _ _ _ _ sample_runs h1 h2)
  · cases hb

/-- The deck meets the hypotheses of `C107_run_partial`, with all codes. -/
example : selectCodes none = [.mcnp, .serpent, .openmc, .phits] ++ .fluka :: [.scone] ∧ (∃ fs, Returns (mainWrite (sampleEnv id) none sampleDeck) fs) ∧
    ∀ t ss ms, Returns (flukaFile (sampleEnv id) sampleDeck.cells sampleDeck.surfaces sampleDeck.materials) (t, ss, ms) → ∀ m ∈ ms,
      m.2.number.length ≤ 9 ∧ ' ' ∉ m.2.number ∧ '\n' ∉ m.2.number ∧ m.2.composition.length ≤ 100 ∧ ∀ p ∈ m.2.composition, (formatE p.2).length = 10 ∧ '\n' ∉ formatE p.2 := by
  refine ⟨by decide +kernel, ?_, fun t ss ms h => ?_⟩
  · obtain ⟨fs, _, h, _⟩ := both_iff (output := none) (by decide +kernel)
    exact ⟨fs, h⟩
  · have hm : (flukaFile (sampleEnv id) sampleDeck.cells sampleDeck.surfaces sampleDeck.materials).run.map (·.map fun r => r.2.2) =
        .ok (some [(c!"2", { sampleSteel with composition := [(c!"CHROMIUM", 3), (c!"IRON", 3), (c!"MANGANES", 4)] })]) := by decide +kernel
    rw [h] at hm
    obtain rfl : ms = _ := Option.some.inj (Except.ok.inj hm)
    decide +kernel

/-- Codes as in `C107_same`. -/
example : Code.fluka ∉ selectCodes (some [c!"mcnp", c!"scone"]) := by decide +kernel

end Csg
