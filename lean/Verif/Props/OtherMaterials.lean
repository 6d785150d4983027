import Verif.Lemmas.Material
import Verif.Lemmas.Scone
import Verif.Lemmas.SconeText
import Verif.Props.OpenMCNames
import Verif.Spec.OtherMaterials
import Verif.Spec.Sample
import Mathlib.Tactic.FieldSimp
import Mathlib.Tactic.Linarith
import Mathlib.Tactic.NormNum
import Mathlib.Tactic.Ring

/-!
# C78 and C79: materials for OpenMC and SCONE
-/

namespace Csg

open Spec

section
variable {K : Type} [Field K] [LinearOrder K] [IsStrictOrderedRing K]

/-! ## C78: OpenMC -/

/-- C78: the element written for a material has its number and name, its density in the right unit, and an element for each nuclide, in order, with the name OpenMC uses and the fraction of its kind.
Partial: light nuclides with mass numbers above 99 are misnamed, see C50. A density of zero is written as atoms per barn and cm. -/
theorem C78_material_partial (io : NumIO K) (m : Material K) (l : List (Nuc K)) (hc : m.composition = compositionOf l)
    (hl : ∀ p ∈ l, 0 < p.1 ∧ p.1 ≤ 118 ∧ p.2.1 < 1000 ∧ (p.1 < 10 → p.2.1 < 100)) (hf : ∀ p ∈ l, io.parse (io.render |p.2.2|) = some |p.2.2|)
    (hd : io.parse (io.render |m.density|) = some |m.density|) :
    ∃ e, writeOpenmcMaterial io m = .ok e ∧ e.id = m.number ∧ e.name = m.name ∧ DensityMeans io m.density e ∧ List.Forall₂ (NuclideMeans io) l e.nuclides := by
  let g : Nuc K → OpenmcNuclide := fun p => { name := symbol p.1 ++ natStr p.2.1, mass := decide (p.2.2 < 0), frac := io.render |p.2.2| }
  have hmap : ∀ l : List (Nuc K), (∀ p ∈ l, 0 < p.1 ∧ p.1 ≤ 118 ∧ p.2.1 < 1000 ∧ (p.1 < 10 → p.2.1 < 100)) → (compositionOf l).mapM (fun (e : Str × K) => (do
      let n ← zaidToName e.1
      .ok { name := n, mass := decide (e.2 < (0 : K)), frac := io.render |e.2| } : Py OpenmcNuclide)) = .ok (l.map g) := by
    intro l
    induction l with
    | nil => intro _; rfl
    | cons p l ih =>
      intro h
      obtain ⟨h1, h2, h3, h4⟩ := h p (by simp)
      unfold compositionOf at ih ⊢
      rw [List.map_cons, List.mapM_cons, ih fun q hq => h q (by simp [hq]), C50_name_partial p.1 p.2.1 h1 h2 h3 h4]
      rfl
  refine ⟨{ id := m.number, name := m.name, density := io.render |m.density|, units := if m.density < 0 then c!"g/cc" else c!"atom/b-cm", nuclides := l.map g }, ?_, rfl, rfl, ?_, ?_⟩
  · unfold writeOpenmcMaterial
    rw [hc, hmap l hl]
    rfl
  · refine ⟨_, hd, abs_nonneg _, ?_⟩
    by_cases h : m.density < 0
    · exact .inl ⟨if_pos h, by rw [abs_of_neg h, neg_neg]⟩
    · exact .inr ⟨if_neg h, (abs_of_nonneg (not_lt.1 h)).symm⟩
  · have : ∀ q : List (Nuc K), (∀ p ∈ q, p ∈ l) → List.Forall₂ (NuclideMeans io) q (q.map g) := by
      intro q
      induction q with
      | nil => intro _; exact .nil
      | cons p q ih =>
        intro h
        refine .cons ⟨rfl, _, hf p (h p (by simp)), abs_nonneg _, ?_⟩ (ih fun p' hp' => h p' (by simp [hp']))
        by_cases h : p.2.2 < 0
        · simp [g, h, abs_of_neg h]
        · simp [g, h, abs_of_nonneg (not_lt.1 h)]
    exact this l fun _ h => h

/-! ## C79: SCONE -/

omit [LinearOrder K] [IsStrictOrderedRing K] in
private theorem molar_eq : ∀ (l : List (Nuc K)) (s : K), (∀ p ∈ l, p.2.1 < 1000) → (compositionOf l).foldlM (fun s e => do let z ← pyInt e.1; (.ok (s + e.2 * ((z % 1000 : Int) : K)) : Py K)) s =
    .ok (s + (l.map fun p => p.2.2 * (p.2.1 : K)).sum) := by
  intro l
  induction l with
  | nil => intro s _; simp [compositionOf]; rfl
  | cons p l ih =>
    intro s h
    have hp : pyInt (natStr (1000 * p.1 + p.2.1)) = .ok ((1000 * p.1 + p.2.1 : Nat) : Int) := pyInt_intStr ((1000 * p.1 + p.2.1 : Nat) : Int)
    have hmod : (((1000 * p.1 + p.2.1 : Nat) : Int) % 1000) = (p.2.1 : Int) := by have := h p (by simp); omega
    unfold compositionOf at ih ⊢
    rw [List.map_cons, List.foldlM_cons]
    simp only [hp, bind, Except.bind, hmod]
    have := ih (s + p.2.2 * ((p.2.1 : Int) : K)) fun q hq => h q (by simp [hq])
    simp only [bind, Except.bind] at this
    rw [this]
    simp only [Int.cast_natCast, List.map_cons, List.sum_cons]
    rw [add_assoc]

private theorem sum_pos' : ∀ l : List K, (∀ x ∈ l, 0 < x) → l ≠ [] → 0 < l.sum := by
  intro l
  induction l with
  | nil => intro _ h; exact absurd rfl h
  | cons x l ih =>
    intro h _
    rw [List.sum_cons]
    by_cases hl : l = []
    · subst hl
      simpa using h x (by simp)
    · exact add_pos (h x (by simp)) (ih (fun y hy => h y (by simp [hy])) hl)

omit [LinearOrder K] [IsStrictOrderedRing K] in
private theorem sum_mul_right' {α : Type} (f : α → K) (a : K) : ∀ l : List α, (l.map fun p => f p * a).sum = (l.map f).sum * a := by
  intro l
  induction l with
  | nil => simp
  | cons x l ih => simp [ih, add_mul]

/-- The words of the text after the name. -/
private theorem scone_words (number : Str) (hnum : ∀ c ∈ number, isDigit c = true) (es : List (Str × Str)) (he : ∀ e ∈ es, SconeWord (e.1 ++ c!".03") ∧ SconeWord e.2) :
    sconeWords (c!"m" ++ number ++ c!" { \n" ++ c!"composition { \n" ++ es.flatMap (fun e => e.1 ++ c!".03 " ++ e.2 ++ c!"; \n") ++ c!"} \n" ++ c!"} \n") = sconeMaterialWords number es := by
  have hn : SconeWord (c!"m" ++ number) := by
    refine ⟨by simp, fun c hc => ?_⟩
    rcases List.mem_append.1 hc with hc | hc
    · simp only [List.mem_singleton] at hc
      subst hc
      decide
    · have := hnum c hc
      simp only [isDigit, Bool.or_eq_true, beq_iff_eq] at this
      rcases this with ((((((((rfl | rfl) | rfl) | rfl) | rfl) | rfl) | rfl) | rfl) | rfl) | rfl <;> decide
  have hcomp : SconeWord c!"composition" := ⟨by decide, by decide⟩
  have hes : ∀ es : List (Str × Str), (∀ e ∈ es, SconeWord (e.1 ++ c!".03") ∧ SconeWord e.2) → sconeWords (es.flatMap (fun e => e.1 ++ c!".03 " ++ e.2 ++ c!"; \n") ++ (c!"} \n" ++ c!"} \n")) =
      es.flatMap (fun e => [e.1 ++ c!".03", e.2, c!";"]) ++ [c!"}", c!"}"] := by
    intro es
    induction es with
    | nil => intro _; rfl
    | cons e es ih =>
      intro h
      obtain ⟨h1, h2⟩ := h e (by simp)
      rw [List.flatMap_cons, List.flatMap_cons]
      have e1 : e.1 ++ c!".03 " ++ e.2 ++ c!"; \n" ++ es.flatMap (fun e => e.1 ++ c!".03 " ++ e.2 ++ c!"; \n") ++ (c!"} \n" ++ c!"} \n") =
          (e.1 ++ c!".03") ++ ' ' :: (e.2 ++ ';' :: ' ' :: '\n' :: (es.flatMap (fun e => e.1 ++ c!".03 " ++ e.2 ++ c!"; \n") ++ (c!"} \n" ++ c!"} \n"))) := by simp
      rw [e1, sconeWords_word h1, sconeWords_mark h2 ';' (by decide) (by decide), sconeWords_blank _ (by decide), sconeWords_blank _ (by decide), ih fun e' he' => h e' (by simp [he'])]
      rfl
  have e1 : c!"m" ++ number ++ c!" { \n" ++ c!"composition { \n" ++ es.flatMap (fun e => e.1 ++ c!".03 " ++ e.2 ++ c!"; \n") ++ c!"} \n" ++ c!"} \n" =
      (c!"m" ++ number) ++ ' ' :: '{' :: ' ' :: '\n' :: (c!"composition" ++ ' ' :: '{' :: ' ' :: '\n' :: (es.flatMap (fun e => e.1 ++ c!".03 " ++ e.2 ++ c!"; \n") ++ (c!"} \n" ++ c!"} \n"))) := by simp
  rw [e1, sconeWords_word hn, sconeWords_cons_mark _ (by decide) (by decide), sconeWords_blank _ (by decide), sconeWords_blank _ (by decide), sconeWords_word hcomp,
    sconeWords_cons_mark _ (by decide) (by decide), sconeWords_blank _ (by decide), sconeWords_blank _ (by decide), hes es he]
  unfold sconeMaterialWords
  simp

/-- C79: the text for a material with atom fractions is a dictionary named by its number that gives every nuclide a density. The densities have the ratios of the fractions; if the density of the material counts atoms,
they add up to it, given that the fractions add up to 1; if it is one of mass, the mass of the nuclides adds up to it (in g/cm³, with mass numbers for the masses, and 0.602214 atoms per barn and cm for one mole per cm³).
Partial: mass fractions are treated as if they were atom fractions, see `C79_refuted_mass`, and with an atom density they give negative numbers, see `C79_refuted_negative`. -/
theorem C79_densities_partial (sci : K → Str) (m : Material K) (l : List (Nuc K)) (hc : m.composition = compositionOf l) (hl : ∀ p ∈ l, p.2.1 < 1000 ∧ 0 < p.2.1 ∧ 0 < p.2.2) (hne : l ≠ [])
    (hnum : ∀ c ∈ m.number, isDigit c = true) (hsci : ∀ x, SconeWord (sci x)) :
    ∃ (text : Str) (N : Nuc K → K), writeSconeMaterial sci m = .ok (c!"! " ++ m.name ++ c!" \n" ++ text) ∧
      sconeWords text = sconeMaterialWords m.number (l.map fun p => (natStr (1000 * p.1 + p.2.1), sci (N p))) ∧
      (∀ p ∈ l, ∀ q ∈ l, N p * q.2.2 = N q * p.2.2) ∧
      (0 < m.density → (l.map fun p => p.2.2).sum = 1 → (l.map N).sum = m.density) ∧
      (m.density ≤ 0 → (l.map fun p => N p * (p.2.1 : K)).sum = -m.density * (602214 / 1000000)) := by
  let mass : K := (l.map fun p => p.2.2 * (p.2.1 : K)).sum
  have hmass : 0 < mass := by
    have hp : ∀ x ∈ l.map fun p => p.2.2 * (p.2.1 : K), 0 < x := by
      intro x hx
      obtain ⟨p, hp, rfl⟩ := List.mem_map.1 hx
      obtain ⟨-, h1, h2⟩ := hl p hp
      exact mul_pos h2 (by exact_mod_cast h1)
    exact sum_pos' _ hp (by simpa using hne)
  let a : K := if 0 < m.density then m.density else -m.density * (602214 / 1000000) / mass
  have ha : sconeDensity m = .ok a := by
    unfold sconeDensity
    by_cases h : 0 < m.density
    · simp only [a, if_pos h]
    · have hm : sconeMolarMass m.composition = .ok mass := by
        unfold sconeMolarMass
        rw [hc]
        have := molar_eq l 0 fun p hp => (hl p hp).1
        rw [zero_add] at this
        exact this
      simp only [a, if_neg h, hm, bind, Except.bind, if_neg hmass.ne']
  have hdig : ∀ n : Nat, SconeWord (natStr n ++ c!".03") := by
    intro n
    obtain ⟨-, h2⟩ : SconeWord (natStr n) := sconeWord_intStr (n : Int)
    refine ⟨by simp, fun c hc => ?_⟩
    rcases List.mem_append.1 hc with hc | hc
    · exact h2 c hc
    · simp only [List.mem_cons, List.not_mem_nil, or_false] at hc
      rcases hc with rfl | rfl | rfl <;> decide
  refine ⟨_, fun p => p.2.2 * a, ?_, scone_words m.number hnum (l.map fun p => (natStr (1000 * p.1 + p.2.1), sci (p.2.2 * a))) ?_, ?_, ?_, ?_⟩
  · unfold writeSconeMaterial
    rw [ha, hc]
    simp only [bind, Except.bind, compositionOf, List.flatMap_map]
    simp
  · intro e he
    obtain ⟨p, -, rfl⟩ := List.mem_map.1 he
    exact ⟨hdig _, hsci _⟩
  · intro p _ q _
    ring
  · intro h hs
    have : a = m.density := if_pos h
    rw [sum_mul_right', hs, this, one_mul]
  · intro h
    have hh : a = -m.density * (602214 / 1000000) / mass := if_neg (not_lt.2 h)
    have : (fun p : Nuc K => p.2.2 * a * (p.2.1 : K)) = fun p => p.2.2 * (p.2.1 : K) * a := by funext p; ring
    rw [this, sum_mul_right', hh]
    show mass * _ = _
    field_simp

end

/-- Water with atom fractions, and uranium with a positive density. -/
example : writeOpenmcMaterial sampleIO { name := c!"water", number := c!"3", composition := compositionOf [(1, 1, (2 : ℚ)), (8, 16, 1)], xsid := [], density := -1 } =
    .ok ⟨c!"3", c!"water", c!"1.0", c!"g/cc", [⟨c!"H1", false, c!"2.0"⟩, ⟨c!"O16", false, c!"1.0"⟩]⟩ ∧
  writeOpenmcMaterial sampleIO { name := c!"U", number := c!"4", composition := compositionOf [(92, 235, (-3 : ℚ)), (92, 238, -97)], xsid := [], density := 2 } =
    .ok ⟨c!"4", c!"U", c!"2.0", c!"atom/b-cm", [⟨c!"U235", true, c!"3.0"⟩, ⟨c!"U238", true, c!"97.0"⟩]⟩ := ⟨by decide +kernel, by decide +kernel⟩

/-- The text for SCONE. -/
example : writeSconeMaterial (fun q : ℚ => intStr (q * 1000000).num ++ c!"e-6") { name := c!"water", number := c!"3", composition := compositionOf [(1, 1, 2 / 3), (8, 16, 1 / 3)], xsid := [], density := -3 } =
    .ok c!"! water \nm3 { \ncomposition { \n1001.03 200738e-6; \n8016.03 100369e-6; \n} \n} \n" := by decide +kernel

/-- Water given by mass, 1/9 hydrogen and 8/9 oxygen. The densities should be as 2 to 1, but they are as 1 to 8. -/
theorem C79_refuted_mass : ∃ (m : Material ℚ) (a : ℚ), m.composition = [(c!"1001", -1 / 9), (c!"8016", -8 / 9)] ∧ m.density = -1 ∧ sconeDensity m = .ok a ∧
    (-1 / 9) / 1 = 2 * ((-8 / 9) / 16 : ℚ) ∧ 8 * (-1 / 9 * a) = -8 / 9 * a ∧ -1 / 9 * a ≠ 2 * (-8 / 9 * a) :=
  ⟨{ name := c!"water", number := c!"3", composition := [(c!"1001", -1 / 9), (c!"8016", -8 / 9)], xsid := [], density := -1 }, 602214 / 1000000 / (-129 / 9), rfl, rfl, by decide +kernel, by norm_num, by norm_num, by norm_num⟩

/-- Mass fractions with an atom density: all the numbers are negative. -/
theorem C79_refuted_negative : ∃ m : Material ℚ, m.composition = [(c!"1001", -1 / 9), (c!"8016", -8 / 9)] ∧ m.density = 1 / 10 ∧ sconeDensity m = .ok (1 / 10) :=
  ⟨{ name := c!"water", number := c!"3", composition := [(c!"1001", -1 / 9), (c!"8016", -8 / 9)], xsid := [], density := 1 / 10 }, rfl, rfl, by decide +kernel⟩

end Csg
