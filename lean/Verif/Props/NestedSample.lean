import Verif.Props.Nested
import Verif.Props.NestedFile
import Verif.Props.InputFile
import Verif.Lemmas.MixedIO
import Verif.Spec.Again

/-!
# C98 and C103: input files that meet the hypotheses, and input files that are not converted correctly

A sphere that is filled with a universe. The universe has gas where x is less than 2 and is empty elsewhere.
-/

namespace Csg

open Spec

private def env : Env ℚ :=
  { fuel := 100, io := mixedIO, fixed := formatF, sci := formatF, sci4 := fun x => (mixedIO.render x).take 10, sci3 := formatE, sqrt := id, degAtan := (45 * ·), orderStr := id, orderInt := id }

/-- The input file. The cells in the universe are marked with `u`, and `move` stands behind the fill. -/
private def text (u move : Str) : Str :=
  c!"title\n1 0 -1 fill=3 " ++ move ++ c!" imp:n=1\n2 1 -7 -2 u=" ++ u ++ c!" imp:n=1\n3 0 2 u=" ++ u ++ c!" imp:n=1\n4 0 1 imp:n=0\n\n1 so 9\n2 px 2\n\nm1 1001 1.0\n"

private def gas : Material ℚ := { name := c!"M1", number := c!"1", composition := [(c!"1001", 1)], xsid := [(c!"1001", [])], density := 0 }

private def ball : Surface ℚ := { Surface.blank with id := 1, type := .sphereGeneral, coeffs := [0, 0, 0, 9] }
private def cut : Surface ℚ := { Surface.blank with id := 2, type := .planeX, coeffs := [1, 0, 0, 2] }

private def filled (off : Option (List (Entry ℚ))) : Cell ℚ :=
  { (Cell.blank : Cell ℚ) with id := 1, text := [c!"-1"], interpreted := [.op .and, .str c!"-1"], surfaces := [1], fill := some c!"3", offset := off }
private def left (u : Str) : Cell ℚ :=
  { (Cell.blank : Cell ℚ) with id := 2, density := -7, material := .int 1, text := [c!"-2"], interpreted := [.op .and, .str c!"-2"], surfaces := [2], uni := some u }
private def right (u : Str) : Cell ℚ := { (Cell.blank : Cell ℚ) with id := 3, text := [c!"2"], interpreted := [.op .and, .str c!"2"], surfaces := [2], uni := some u }
private def outer : Cell ℚ := { (Cell.blank : Cell ℚ) with id := 4, importance := 0, text := [c!"1"], interpreted := [.op .and, .str c!"1"], surfaces := [1] }

/-- The deck as read. -/
private def deck (u : Str) (off : Option (List (Entry ℚ))) : Deck ℚ :=
  { title := c!"title\n", cells := [filled off, left u, right u, outer], surfaces := [ball, cut], last := 2, importances := [], transforms := [], materials := [(c!"1", gas)], bounding := [0, 0, 0, 0, 0, 0] }


private def shift : List (Entry ℚ) := [.txt c!"1", .txt c!"0", .txt c!"0"]

private theorem reads_still : readDeck env.io id (readText (text c!"3" [])) = .ok (deck c!"3" none) := by decide +kernel
private theorem reads_moved : readDeck env.io id (readText (text c!"3" c!"(1 0 0)")) = .ok (deck c!"3" (some shift)) := by decide +kernel
private theorem reads_zeros : readDeck env.io id (readText (text c!"03" [])) = .ok (deck c!"03" none) := by decide +kernel
private theorem reads_minus : readDeck env.io id (readText (text c!"-3" [])) = .ok (deck c!"-3" none) := by decide +kernel

/-! ## Points -/

private theorem cases_cells {u : Str} {off : Option (List (Entry ℚ))} {P : Cell ℚ → Prop} (h1 : P (filled off)) (h2 : P (left u)) (h3 : P (right u)) (h4 : P outer) : ∀ c ∈ (deck u off).cells, P c := by
  intro c hc
  simp only [deck, List.mem_cons, List.not_mem_nil, or_false] at hc
  rcases hc with rfl | rfl | rfl | rfl
  exacts [h1, h2, h3, h4]

private theorem cases_surfaces {u : Str} {off : Option (List (Entry ℚ))} {P : Surface ℚ → Prop} (h1 : P ball) (h2 : P cut) : ∀ s ∈ (deck u off).surfaces, P s := by
  intro s hs
  simp only [deck, List.mem_cons, List.not_mem_nil, or_false] at hs
  rcases hs with rfl | rfl
  exacts [h1, h2]

private theorem in_cell {u : Str} {off : Option (List (Entry ℚ))} {c : Cell ℚ} (hc : c ∈ (deck u off).cells) (w : Str) (z : Int) (he : itemSyms c.interpreted = [.atom w]) (hz : parseInt w = some z)
    (p : Point ℚ) : InDeckCell id (deck u off) c.id p ↔ surfaceSense id (fun _ q => q) [ball, cut] p z := by
  rw [inDeckCell_plain (by simp [deck, filled, left, right, outer]) ?_ ?_ hc p, InCell, he]
  · rw [holds_iff (.one (.single (.atom w)))]
    constructor
    · rintro ⟨z', h1, h2⟩
      rw [hz] at h1
      cases h1
      exact h2
    · exact fun h => ⟨z, hz, h⟩
  · exact cases_surfaces ⟨rfl, rfl⟩ ⟨rfl, rfl⟩
  · refine cases_cells ?_ ?_ ?_ ?_
    all_goals intro w hw
    · rw [show itemSyms (filled off).interpreted = [.atom c!"-1"] from rfl, List.mem_singleton] at hw; cases hw; exact ⟨-1, by decide⟩
    · rw [show itemSyms (left u).interpreted = [.atom c!"-2"] from rfl, List.mem_singleton] at hw; cases hw; exact ⟨-2, by decide⟩
    · rw [show itemSyms (right u).interpreted = [.atom c!"2"] from rfl, List.mem_singleton] at hw; cases hw; exact ⟨2, by decide⟩
    · rw [show itemSyms outer.interpreted = [.atom c!"1"] from rfl, List.mem_singleton] at hw; cases hw; exact ⟨1, by decide⟩

private theorem sense_ball {p : Point ℚ} {z : Int} (hz : z.natAbs = 1) : surfaceSense id (fun _ q => q) [ball, cut] p z ↔ side id ball.type ball.coeffs p = some (if 0 < z then .pos else .neg) := by
  unfold surfaceSense
  rw [hz]
  simp only [List.mem_cons, List.not_mem_nil, or_false, exists_eq_or_imp, exists_eq_left]
  have h1 : ball.id = ((1 : ℕ) : ℤ) := rfl
  have h2 : ¬ cut.id = ((1 : ℕ) : ℤ) := by decide
  simp only [h1, h2, true_and, false_and, or_false]
  show (if ball.isMacrobody then _ else _) ↔ _
  rw [if_neg (by decide)]
  simp

private theorem sense_cut {p : Point ℚ} {z : Int} (hz : z.natAbs = 2) : surfaceSense id (fun _ q => q) [ball, cut] p z ↔ side id cut.type cut.coeffs p = some (if 0 < z then .pos else .neg) := by
  unfold surfaceSense
  rw [hz]
  simp only [List.mem_cons, List.not_mem_nil, or_false, exists_eq_or_imp, exists_eq_left]
  have h1 : cut.id = ((2 : ℕ) : ℤ) := rfl
  have h2 : ¬ ball.id = ((2 : ℕ) : ℤ) := by decide
  simp only [h1, h2, true_and, false_and, false_or]
  show (if cut.isMacrobody then _ else _) ↔ _
  rw [if_neg (by decide)]
  simp

private theorem in_filled {u : Str} {off : Option (List (Entry ℚ))} (p : Point ℚ) : InDeckCell id (deck u off) 1 p ↔ side id ball.type ball.coeffs p = some .neg := by
  have := in_cell (u := u) (off := off) (c := filled off) (by simp [deck]) c!"-1" (-1) rfl (by decide) p
  rw [sense_ball (by decide)] at this
  exact this

private theorem in_left {u : Str} {off : Option (List (Entry ℚ))} (p : Point ℚ) : InDeckCell id (deck u off) 2 p ↔ side id cut.type cut.coeffs p = some .neg := by
  have := in_cell (u := u) (off := off) (c := left u) (by simp [deck]) c!"-2" (-2) rfl (by decide) p
  rw [sense_cut (by decide)] at this
  exact this

private theorem in_right {u : Str} {off : Option (List (Entry ℚ))} (p : Point ℚ) : InDeckCell id (deck u off) 3 p ↔ side id cut.type cut.coeffs p = some .pos := by
  have := in_cell (u := u) (off := off) (c := right u) (by simp [deck]) c!"2" 2 rfl (by decide) p
  rw [sense_cut (by decide)] at this
  exact this

/-- A point of the sphere. -/
private def spot : Point ℚ := ⟨5 / 2, 0, 0⟩

/-- Without displacement, the point is in the empty cell. -/
private theorem finds_right : DeckFinds env.io id (deck c!"3" none) spot (right c!"3") := by
  refine .down (c := filled none) (v := 3) (q := spot) (by simp [deck]) (by decide) ((in_filled spot).2 (by decide +kernel)) (by decide) ⟨⟨⟨0, 0, 0⟩, ⟨1, 0, 0⟩, ⟨0, 1, 0⟩, ⟨0, 0, 1⟩⟩, by decide +kernel, by decide +kernel⟩ ?_
  exact .here (by simp [deck]) (by decide) ((in_right spot).2 (by decide +kernel)) (by decide)

/-- With displacement, it is in the gas. -/
private theorem finds_left : DeckFinds env.io id (deck c!"3" (some shift)) spot (left c!"3") := by
  refine .down (c := filled (some shift)) (v := 3) (q := ⟨3 / 2, 0, 0⟩) (by simp [deck]) (by decide) ((in_filled spot).2 (by decide +kernel)) (by decide)
    ⟨⟨⟨1, 0, 0⟩, ⟨1, 0, 0⟩, ⟨0, 1, 0⟩, ⟨0, 0, 1⟩⟩, by decide +kernel, by decide +kernel⟩ ?_
  exact .here (by simp [deck]) (by decide) ((in_left _).2 (by decide +kernel)) (by decide)

/-! ## The hypotheses -/

private theorem atoms_known {surfs : List (Surface ℚ)} {ws : List Str} (h : ∀ t ∈ ws, tokenSym t = .atom t → KnownWord surfs t) :
    ∀ w, Sym.atom w ∈ tokenSyms ws → KnownWord surfs w := by
  intro w hw
  obtain ⟨t, ht, e⟩ := List.mem_map.1 hw
  obtain rfl := tokenSym_eq_atom e
  exact h t ht e

private theorem proper (u : Str) (off : Option (List (Entry ℚ))) : ProperDeck env.sqrt Int.toNat (deck u off) ∧ ∀ s ∈ (deck u off).surfaces, TwoSheet s := by
  have l : ∀ w, tokenSyms [w] = [.atom w] → Legal (tokenSyms [w]) := fun w h => by rw [h]; exact ⟨_, .one (.single (.atom _))⟩
  have h1 : ball ∈ (deck u off).surfaces := List.mem_cons_self ..
  have h2 : cut ∈ (deck u off).surfaces := List.mem_cons_of_mem _ (List.mem_cons_self ..)
  have nohash : ∀ c ∈ (deck u off).cells, ∀ w ∈ words c.interpreted, '#' ∉ w := by
    refine cases_cells ?_ ?_ ?_ ?_
    all_goals intro w hw ht
    · rw [show words (filled off).interpreted = [c!"-1"] from rfl, List.mem_singleton] at hw; rw [hw] at ht; exact absurd ht (by decide)
    · rw [show words (left u).interpreted = [c!"-2"] from rfl, List.mem_singleton] at hw; rw [hw] at ht; exact absurd ht (by decide)
    · rw [show words (right u).interpreted = [c!"2"] from rfl, List.mem_singleton] at hw; rw [hw] at ht; exact absurd ht (by decide)
    · rw [show words outer.interpreted = [c!"1"] from rfl, List.mem_singleton] at hw; rw [hw] at ht; exact absurd ht (by decide)
  refine ⟨⟨by simp [deck, ball, cut], cases_surfaces ⟨by decide, by simp [deck, ball, cut]⟩ ⟨by decide, by simp [deck, ball, cut]⟩, by simp [deck], cases_surfaces (fun h => by cases h) (fun h => by cases h), cases_surfaces (fun _ => ⟨rfl, .inl trivial⟩) (fun _ => ⟨rfl, .inl trivial⟩),
    cases_surfaces (fun n h => by cases h) (fun n h => by cases h), ?_, by simp [deck, filled, left, right, outer], ?_, ?_⟩, cases_surfaces trivial trivial⟩
  · refine cases_cells ?_ ?_ ?_ ?_
    · refine ⟨⟨⟨0, rfl, le_refl _, fun _ => rfl⟩, l _ rfl, rfl⟩, atoms_known ?_⟩
      intro t ht _
      rw [List.mem_singleton.1 ht]
      exact .inr (.inl ⟨_, h1, .inr (by decide)⟩)
    · refine ⟨⟨⟨1, rfl, by decide, fun h => by cases h⟩, l _ rfl, rfl⟩, atoms_known ?_⟩
      intro t ht _
      rw [List.mem_singleton.1 ht]
      exact .inr (.inl ⟨_, h2, .inr (by decide)⟩)
    · refine ⟨⟨⟨0, rfl, le_refl _, fun _ => rfl⟩, l _ rfl, rfl⟩, atoms_known ?_⟩
      intro t ht _
      rw [List.mem_singleton.1 ht]
      exact .inr (.inl ⟨_, h2, .inl (by decide)⟩)
    · refine ⟨⟨⟨0, rfl, le_refl _, fun _ => rfl⟩, l _ rfl, rfl⟩, atoms_known ?_⟩
      intro t ht _
      rw [List.mem_singleton.1 ht]
      exact .inr (.inl ⟨_, h1, .inl (by decide)⟩)
  · exact cases_cells (l _ rfl) (l _ rfl) (l _ rfl) (l _ rfl)
  · exact fun c hc w hw hh => absurd hh (nohash c hc w hw)

private theorem materials_atoms : AtomFractions gas.composition := by
  have hz : ∀ z, natStr (1000 * z) ∉ gas.composition.map Prod.fst := by
    intro z h
    simp only [gas, List.map_cons, List.map_nil, List.mem_singleton] at h
    have := natStr_injective (h.trans (by decide +kernel : c!"1001" = natStr 1001))
    omega
  refine ⟨⟨by decide, ?_⟩, fun z h => absurd h (hz z), by decide, by decide +kernel, fun z h => absurd h (hz z)⟩
  intro e he
  simp only [gas, List.mem_singleton] at he
  subst he
  exact ⟨1001, by decide +kernel⟩

private theorem importance_of {u : Str} {off : Option (List (Entry ℚ))} {i : Nat} {c : Cell ℚ} {x : ℚ} (hc : (deck u off).cells[i]? = some c) (h : ImportanceIs env.io (deck u off) i c x) :
    x = 1 ∨ x = 0 ∧ c = outer := by
  have e : c.importance = x := by
    rcases h with ⟨-, h⟩ | ⟨t, ht, -⟩
    · exact h
    · cases ht
  have hm := List.mem_of_getElem? hc
  simp only [deck, List.mem_cons, List.not_mem_nil, or_false] at hm
  rcases hm with rfl | rfl | rfl | rfl
  exacts [.inl e.symm, .inl e.symm, .inl e.symm, .inr ⟨e.symm, rfl⟩]

private theorem convertible (u : Str) (off : Option (List (Entry ℚ))) : Convertible env.io env.sqrt Int.toNat (deck u off) := by
  refine ⟨(proper u off).1, (proper u off).2, by simp [deck], ?_, ?_, by simp [deck], ?_, ?_, .inl rfl, ?_⟩
  · exact cases_cells ⟨0, rfl, fun h => absurd rfl h⟩ ⟨1, rfl, fun _ => List.mem_singleton.2 (by decide +kernel)⟩ ⟨0, rfl, fun h => absurd rfl h⟩ ⟨0, rfl, fun h => absurd rfl h⟩
  · intro m hm
    simp only [deck, List.mem_singleton] at hm
    subst hm
    exact ⟨1, by decide, by decide, by decide +kernel⟩
  · intro m hm
    simp only [deck, List.mem_singleton] at hm
    subst hm
    exact materials_atoms
  · exact cases_cells (fun h => absurd rfl h) (fun h => absurd rfl h) (fun h => absurd rfl h) (fun h => absurd rfl h)
  · intro i c hc hz w hw z hzw
    rcases importance_of hc hz with h | ⟨-, rfl⟩
    · exact absurd h (by norm_num)
    · rw [show outer.text = [c!"1"] from rfl, List.mem_singleton] at hw
      subst hw
      rw [show parseInt c!"1" = some 1 by decide] at hzw
      cases hzw
      exact ⟨ball, by simp [deck], rfl, rfl⟩

/-- The processed deck. -/
private def done (u : Str) (off : Option (List (Entry ℚ))) : Deck ℚ :=
  match finishDeck env.fuel env.io id env.sqrt false (deck u off) with
  | some (.ok d) => d
  | _ => deck u off

private theorem done_still : finishDeck env.fuel env.io id env.sqrt false (deck c!"3" none) = some (.ok (done c!"3" none)) := by decide +kernel
private theorem done_moved : finishDeck env.fuel env.io id env.sqrt false (deck c!"3" (some shift)) = some (.ok (done c!"3" (some shift))) := by decide +kernel
private theorem done_zeros : finishDeck env.fuel env.io id env.sqrt false (deck c!"03" none) = some (.ok (done c!"03" none)) := by decide +kernel
private theorem done_minus : finishDeck env.fuel env.io id env.sqrt false (deck c!"-3" none) = some (.ok (done c!"-3" none)) := by decide +kernel

private theorem numbers : ∀ z ∈ [(0 : Int), 1, 2, 9], mixedIO.Good (z : ℚ) ∧ Prints decimal mixedIO.render (z : ℚ) := by
  intro z hz
  obtain ⟨a, b, -⟩ := mixed_good z (by revert z; decide)
  exact ⟨a, b⟩

private theorem surfaces_printed {off : Option (List (Entry ℚ))} (ho : off = none ∨ off = some shift) (fuel : Nat) (d : Deck ℚ)
    (h : finishDeck fuel env.io id env.sqrt false (deck c!"3" off) = some (.ok d)) : ShortSurfaces env.io d ∧ PrintedSurfaces decimal env.io d := by
  have key : finishDeck env.fuel env.io id env.sqrt false (deck c!"3" off) = some (.ok (done c!"3" off)) ∧
      ∀ s ∈ (done c!"3" off).surfaces, ∀ x ∈ s.coeffs, ∃ z ∈ [(0 : Int), 1, 2, 9], x = (z : ℚ) := by
    rcases ho with rfl | rfl
    · exact ⟨done_still, by decide +kernel⟩
    · exact ⟨done_moved, by decide +kernel⟩
  obtain ⟨h2, hk⟩ := key
  have h1 := finishDeck_mono (le_max_left fuel env.fuel) h
  have h2 := finishDeck_mono (le_max_right fuel env.fuel) h2
  rw [h1] at h2
  cases h2
  have hn : ∀ s ∈ (done c!"3" off).surfaces, ∀ x ∈ s.coeffs, mixedIO.Good x ∧ Prints decimal mixedIO.render x := by
    intro s hs x hx
    obtain ⟨z, hz, rfl⟩ := hk s hs x hx
    exact numbers z hz
  exact ⟨fun s hs x hx => (hn s hs x hx).1.len, fun s hs x hx => (hn s hs x hx).2⟩

private theorem card_input (u : Str) (hu : PlainNumber u ∧ u.length ≤ 60) {off : Option (List (Entry ℚ))} (ho : off = none ∨ off = some shift) : CardInput env.io (deck u off) := by
  have h3 : PlainNumber c!"3" := .whole [] c!"3" (by decide) (by decide) (by decide)
  refine ⟨cases_cells (show |(1 : Int)| < 10 ^ 58 by decide) (show |(2 : Int)| < 10 ^ 58 by decide) (show |(3 : Int)| < 10 ^ 58 by decide) (show |(4 : Int)| < 10 ^ 58 by decide), ?_, ?_⟩
  · refine cases_cells ⟨fun v h => (by cases h), fun f h => ?_⟩ ⟨fun v h => ?_, fun f h => (by cases h)⟩ ⟨fun v h => ?_, fun f h => (by cases h)⟩ ⟨fun v h => (by cases h), fun f h => (by cases h)⟩
    · cases h; exact ⟨h3, by decide⟩
    · cases h; exact hu
    · cases h; exact hu
  · refine cases_cells (fun _ => ⟨fun l h => ?_, fun l h => (by cases h)⟩) ?_ ?_ ?_
    · rcases ho with rfl | rfl
      · cases h
      · cases h
        refine ⟨rfl, fun e he => ?_⟩
        unfold NumberChar
        revert e
        decide
    all_goals exact fun _ => ⟨fun l h => (by cases h), fun l h => (by cases h)⟩

private theorem short_cells (u : Str) {off : Option (List (Entry ℚ))} (ho : off = none ∨ off = some shift) : ShortCells env.io (deck u off) := by
  have zero : (env.io.render 0).length ≤ 24 := by decide +kernel
  refine ⟨cases_cells zero (show (env.io.render (-7)).length ≤ 24 by decide +kernel) zero zero, ?_, ?_, fun t ht => (by cases ht)⟩
  · intro i c x hc h
    rcases importance_of hc h with rfl | ⟨rfl, -⟩ <;> decide +kernel
  · refine cases_cells ?_ ?_ ?_ ?_
    · rintro l (h | h)
      · rcases ho with rfl | rfl
        · cases h
        · cases h
          intro e he x hx
          have key : ∀ e ∈ shift, ∃ x, entryValue env.io e = some x ∧ (env.io.render x).length ≤ 24 := by
            intro e he
            simp only [shift, List.mem_cons, List.not_mem_nil, or_false] at he
            rcases he with rfl | rfl | rfl
            exacts [⟨1, by decide +kernel, by decide +kernel⟩, ⟨0, by decide +kernel, by decide +kernel⟩, ⟨0, by decide +kernel, by decide +kernel⟩]
          obtain ⟨y, k1, k2⟩ := key e he
          rw [hx] at k1
          cases k1
          exact k2
      · cases h
    all_goals rintro l (h | h) <;> cases h

private theorem universes_plain (off : Option (List (Entry ℚ))) : PlainUniverses (deck c!"3" off) := by
  have h0 : c!"0" = natStr 0 := by decide +kernel
  have h3 : c!"3" = natStr 3 := by decide +kernel
  exact cases_cells ⟨⟨0, h0⟩, fun f h => by cases h; exact ⟨3, h3⟩⟩ ⟨⟨3, h3⟩, fun f h => by cases h⟩ ⟨⟨3, h3⟩, fun f h => by cases h⟩ ⟨⟨0, h0⟩, fun f h => by cases h⟩

private theorem universes_unsigned (off : Option (List (Entry ℚ))) : UnsignedUniverses (deck c!"3" off) := by
  have h0 : parseInt c!"0" = some 0 := by decide
  have h3 : parseInt c!"3" = some 3 := by decide
  have k0 : ∀ u, parseInt c!"0" = some u → 0 ≤ u := fun u h => by rw [h0] at h; cases h; decide
  have k3 : ∀ u, parseInt c!"3" = some u → 0 ≤ u := fun u h => by rw [h3] at h; cases h; decide
  exact cases_cells ⟨k0, fun f v h => by cases h; exact k3 v⟩ ⟨k3, fun f v h => by cases h⟩ ⟨k3, fun f v h => by cases h⟩ ⟨k0, fun f v h => by cases h⟩

private theorem fills_still (u : Str) : StillFills (deck u none) :=
  cases_cells (fun _ => ⟨rfl, rfl, rfl⟩) (fun h => absurd rfl h) (fun h => absurd rfl h) (fun h => absurd rfl h)

private theorem fills_unrotated : UnrotatedFills env.io (deck c!"3" (some shift)) := by
  refine cases_cells (fun _ => ⟨1, 0, 0, fun p q => ?_⟩) (fun h => absurd rfl h) (fun h => absurd rfl h) (fun h => absurd rfl h)
  have ht : deckTransform env.io (deck c!"3" (some shift)) (filled (some shift)) = some ⟨⟨1, 0, 0⟩, ⟨1, 0, 0⟩, ⟨0, 1, 0⟩, ⟨0, 0, 1⟩⟩ := by decide +kernel
  unfold DeckMoves
  rw [ht]
  simp [pullback]

private theorem fills_defined : DefinedFills (deck c!"3" none) := by
  refine cases_cells (fun v h => ?_) (fun v h => by cases h) (fun v h => by cases h) (fun v h => by cases h)
  rw [show deckFill (filled none) = some 3 by decide] at h
  cases h
  exact ⟨by decide, left c!"3", by simp [deck], by decide⟩

private theorem scone_source {off : Option (List (Entry ℚ))} : SconeSource env.io env.sqrt env.degAtan (fun d => (d / 45) ^ 2) decimal env.fixed (deck c!"3" off) := by
  have h0 : ∃ u, parseInt c!"0" = some u ∧ |u| < 10 ^ 40 := ⟨0, by decide, by decide⟩
  have h3 : ∃ u, parseInt c!"3" = some u ∧ |u| < 10 ^ 40 := ⟨3, by decide, by decide⟩
  have zero : (env.io.render 0).length ≤ 24 := by decide +kernel
  refine ⟨by simp [deck], ?_, cases_cells (show |(1 : Int)| < 10 ^ 48 by decide) (show |(2 : Int)| < 10 ^ 48 by decide) (show |(3 : Int)| < 10 ^ 48 by decide) (show |(4 : Int)| < 10 ^ 48 by decide),
    cases_cells zero (show (env.io.render (-7)).length ≤ 24 by decide +kernel) zero zero, ?_, ?_, ?_, .inr ⟨left c!"3", by simp [deck], by decide⟩⟩
  · exact cases_surfaces ⟨by unfold IsTorus; decide, fun h => absurd h (by unfold IsCone; decide)⟩ ⟨by unfold IsTorus; decide, fun h => absurd h (by unfold IsCone; decide)⟩
  · refine cases_cells ?_ ?_ ?_ ?_ <;> intro w hw <;> rw [List.mem_singleton.1 hw] <;> decide
  · exact cases_cells ⟨h0, fun f h => by cases h; exact h3⟩ ⟨h3, fun f h => by cases h⟩ ⟨h3, fun f h => by cases h⟩ ⟨h0, fun f h => by cases h⟩
  · intro m hm e he
    simp only [deck, List.mem_singleton] at hm
    subst hm
    rw [List.mem_singleton.1 he]
    decide +kernel

private theorem openmc_input {u : Str} (hu : ∃ z, parseInt u = some z ∧ z ≠ 0) {off : Option (List (Entry ℚ))} (ho : off = none ∨ off = some shift) : OpenmcInput env.io (deck u off) := by
  obtain ⟨z, hz, hz0⟩ := hu
  have h0 : parseInt c!"0" = some 0 := by decide
  have h3 : parseInt c!"3" = some 3 := by decide
  refine ⟨by decide +kernel, ?_, ?_, ?_, ⟨outer, by simp [deck], h0⟩, fun v => if v = 0 then 1 else 0, ?_⟩
  · intro m hm e he
    simp only [deck, List.mem_singleton] at hm
    subst hm
    simp only [gas, List.mem_singleton] at he
    subst he
    exact ⟨1, 1, by decide +kernel, by decide, by decide, by decide, by decide⟩
  · refine cases_cells (fun _ => ⟨fun l h => ?_, fun l h => (by cases h)⟩) ?_ ?_ ?_
    · rcases ho with rfl | rfl
      · cases h
      · cases h
        refine ⟨rfl, fun e he => ?_⟩
        simp only [shift, List.mem_cons, List.not_mem_nil, or_false] at he
        unfold EntryPrints AttrText
        rcases he with rfl | rfl | rfl
        exacts [⟨by decide, by decide, by decide, 1, by decide +kernel, by decide +kernel⟩, ⟨by decide, by decide, by decide, 0, by decide +kernel, by decide +kernel⟩,
          ⟨by decide, by decide, by decide, 0, by decide +kernel, by decide +kernel⟩]
    all_goals exact fun _ => ⟨fun l h => (by cases h), fun l h => (by cases h)⟩
  · exact cases_cells ⟨⟨0, h0⟩, fun f h => by cases h; exact ⟨3, h3, by decide⟩⟩ ⟨⟨z, hz⟩, fun f h => by cases h⟩ ⟨⟨z, hz⟩, fun f h => by cases h⟩ ⟨⟨0, h0⟩, fun f h => by cases h⟩
  · refine cases_cells (fun v s f hv hs hf => ?_) (fun v s f _ h => by cases h) (fun v s f _ h => by cases h) (fun v s f _ h => by cases h)
    cases hs
    rw [h3] at hf
    cases hf
    have hv : parseInt c!"0" = some v := hv
    rw [h0] at hv
    cases hv
    decide

private theorem three : PlainNumber c!"3" ∧ (c!"3" : Str).length ≤ 60 := ⟨.whole [] c!"3" (by decide) (by decide) (by decide), by decide⟩

/-- The hypotheses of `C98_serpent_partial`, with a displacement, and the point that is found. -/
example : readDeck env.io id (readText (text c!"3" c!"(1 0 0)")) = .ok (deck c!"3" (some shift)) ∧ Convertible env.io env.sqrt Int.toNat (deck c!"3" (some shift)) ∧ CardInput env.io (deck c!"3" (some shift)) ∧
    (∀ s ∈ (deck c!"3" (some shift)).surfaces, IsCone s.type ∨ IsTorus s.type → ∀ x ∈ s.coeffs, Prints decimal env.fixed x) ∧ ShortCells env.io (deck c!"3" (some shift)) ∧
    (∀ fuel d', finishDeck fuel env.io id env.sqrt false (deck c!"3" (some shift)) = some (.ok d') → PrintedSurfaces decimal env.io d') ∧ PlainUniverses (deck c!"3" (some shift)) ∧ env.io.parse c!"1" = some 1 ∧ UnrotatedFills env.io (deck c!"3" (some shift)) ∧
    (∀ x, FloatText (env.sci x) ∧ ∃ y, env.io.parse (env.sci x) = some y) ∧ DeckFinds env.io id (deck c!"3" (some shift)) spot (left c!"3") := by
  refine ⟨reads_moved, convertible _ _, card_input _ three (.inr rfl), cases_surfaces ?_ ?_, short_cells _ (.inr rfl), fun fuel d h => (surfaces_printed (.inr rfl) fuel d h).2, universes_plain _, by decide +kernel, fills_unrotated, mixed_formatF, finds_left⟩
  all_goals intro h; exact absurd h (by unfold IsCone IsTorus; decide)

/-- The hypotheses of `C98_mcnp_partial` and `C98_phits_partial`, with a displacement. -/
example : readDeck env.io id (readText (text c!"3" c!"(1 0 0)")) = .ok (deck c!"3" (some shift)) ∧ Convertible env.io env.sqrt Int.toNat (deck c!"3" (some shift)) ∧ CardInput env.io (deck c!"3" (some shift)) ∧
    (∀ m ∈ (deck c!"3" (some shift)).materials, PrintableXs m.2) ∧ ShortCells env.io (deck c!"3" (some shift)) ∧
    (∀ (i : Nat) c x, (deck c!"3" (some shift)).cells[i]? = some c → ImportanceIs env.io (deck c!"3" (some shift)) i c x → PlainNumber (env.io.render x)) ∧
    (∀ fuel d', finishDeck fuel env.io id env.sqrt false (deck c!"3" (some shift)) = some (.ok d') → ShortSurfaces env.io d') ∧ PlainUniverses (deck c!"3" (some shift)) ∧
    (∀ mn ∈ printedMnemonics, env.io.parse mn = none) ∧ DeckFinds env.io id (deck c!"3" (some shift)) spot (left c!"3") := by
  refine ⟨reads_moved, convertible _ _, card_input _ three (.inr rfl), ?_, short_cells _ (.inr rfl), ?_, fun fuel d h => (surfaces_printed (.inr rfl) fuel d h).1, universes_plain _, by decide +kernel, finds_left⟩
  · intro m hm e he
    simp only [deck, List.mem_singleton] at hm
    subst hm
    simp only [gas, List.mem_singleton] at he
    subst he
    exact ⟨[], by decide +kernel, by simp⟩
  · intro i c x hc h
    have one : PlainNumber (mixedIO.render 1) := .point [] c!"1" c!"0" (by decide) (by decide) (by decide) (by decide) (by decide)
    have zero : PlainNumber (mixedIO.render 0) := .point [] c!"0" c!"0" (by decide) (by decide) (by decide) (by decide) (by decide)
    rcases importance_of hc h with rfl | ⟨rfl, -⟩
    exacts [one, zero]

/-- The hypotheses of `C98_openmc_partial`. -/
example : OpenmcInput env.io (deck c!"3" (some shift)) ∧ UnsignedUniverses (deck c!"3" (some shift)) := ⟨openmc_input ⟨3, by decide, by decide⟩ (.inr rfl), universes_unsigned _⟩

/-- The hypotheses of `C98_scone_partial`. -/
example : SconeSource env.io env.sqrt env.degAtan (fun d => (d / 45) ^ 2) decimal env.fixed (deck c!"3" none) ∧ UnsignedUniverses (deck c!"3" none) ∧ DefinedFills (deck c!"3" none) ∧ StillFills (deck c!"3" none) ∧
    (∀ w x, Literal w x → decimal w = some (x : ℚ)) ∧
    ∀ fuel d', finishDeck fuel env.io id env.sqrt false (deck c!"3" none) = some (.ok d') → PrintedSurfaces decimal env.io d' :=
  ⟨scone_source, universes_unsigned _, fills_defined, fills_still _, fun w x h => decimal_literal h, fun fuel d h => (surfaces_printed (.inl rfl) fuel d h).2⟩

/-- The hypotheses of `C98_refuted_fluka`: a point that is in a filled cell. -/
example : FlukaSource env.io env.sqrt (deck c!"3" none) ∧ StillFills (deck c!"3" none) ∧ deckFill (filled none) ≠ none ∧ InDeckCell id (deck c!"3" none) (filled none).id spot ∧
    ∀ s ∈ (done c!"3" none).surfaces, side env.sqrt s.type s.coeffs spot ≠ some .on := by
  refine ⟨⟨?_, ?_, cases_cells (by decide) (by decide) (by decide) (by decide), ?_, ?_, by decide +kernel, by decide +kernel, by decide +kernel⟩, fills_still _, by decide, (in_filled spot).2 (by decide +kernel), by decide +kernel⟩
  · refine cases_surfaces ?_ ?_
    · refine ⟨by unfold IsCone; decide, by unfold IsTorus; decide, fun h => (by cases h), fun _ => ⟨⟨0, 0, 0⟩, ⟨10, 0, 0⟩, false, ?_, ?_⟩⟩
      · show side env.sqrt ball.type ball.coeffs (placeBy [] ball.transform ⟨0, 0, 0⟩) = some .neg
        decide +kernel
      · show ¬ side env.sqrt ball.type ball.coeffs (placeBy [] ball.transform ⟨10, 0, 0⟩) = some .neg
        decide +kernel
    · refine ⟨by unfold IsCone; decide, by unfold IsTorus; decide, fun h => (by cases h), fun _ => ⟨⟨0, 0, 0⟩, ⟨10, 0, 0⟩, false, ?_, ?_⟩⟩
      · show side env.sqrt cut.type cut.coeffs (placeBy [] cut.transform ⟨0, 0, 0⟩) = some .neg
        decide +kernel
      · show ¬ side env.sqrt cut.type cut.coeffs (placeBy [] cut.transform ⟨10, 0, 0⟩) = some .neg
        decide +kernel
  · have no : ∀ c ∈ (deck c!"3" none).cells, c!"#" ∉ c.text := by decide
    intro c hc a b e
    exact absurd (by rw [e]; simp) (no c hc)
  · intro i c x hc h
    rcases importance_of hc h with rfl | ⟨rfl, -⟩
    · exact .inr (by norm_num)
    · exact .inl rfl
  · intro m hm e he
    simp only [deck, List.mem_singleton] at hm
    subst hm
    simp only [gas, List.mem_singleton] at he
    subst he
    exact ⟨1001, by decide +kernel, by decide +kernel⟩

/-! ## Files that are not converted correctly -/

private def written (c : Code) (d : Deck ℚ) : OutFile :=
  match (writeCode env c { cells := d.cells, surfaces := d.surfaces, materials := d.materials, universes := [] }).run with
  | .ok (some (f, _)) => f
  | _ => .text []

private def succeeds (c : Code) (d : Deck ℚ) : Bool :=
  match (writeCode env c { cells := d.cells, surfaces := d.surfaces, materials := d.materials, universes := [] }).run with
  | .ok (some _) => true
  | _ => false

private theorem converts_written {t : Str} {u : Str} {off : Option (List (Entry ℚ))} {c : Code} (hr : readDeck env.io id (readText t) = .ok (deck u off))
    (hf : finishDeck env.fuel env.io id env.sqrt false (deck u off) = some (.ok (done u off))) (h : succeeds c (done u off) = true) : Converts env id false t c (written c (done u off)) := by
  have : ∃ s', Returns (writeCode env c { cells := (done u off).cells, surfaces := (done u off).surfaces, materials := (done u off).materials, universes := [] }) (written c (done u off), s') := by
    unfold Returns written
    unfold succeeds at h
    split at h
    · rename_i a e
      obtain ⟨f, s'⟩ := a
      refine ⟨s', ?_⟩
      rw [e]
    · cases h
  obtain ⟨s', h⟩ := this
  exact converts_of hr hf h

private theorem finds_zeros : DeckFinds env.io id (deck c!"03" none) spot (right c!"03") := by
  refine .down (c := filled none) (v := 3) (q := spot) (by simp [deck]) (by decide) ((in_filled spot).2 (by decide +kernel)) (by decide) ⟨⟨⟨0, 0, 0⟩, ⟨1, 0, 0⟩, ⟨0, 1, 0⟩, ⟨0, 0, 1⟩⟩, by decide +kernel, by decide +kernel⟩ ?_
  exact .here (by simp [deck]) (by decide) ((in_right spot).2 (by decide +kernel)) (by decide)

private theorem finds_minus : DeckFinds env.io id (deck c!"-3" none) spot (right c!"-3") := by
  refine .down (c := filled none) (v := 3) (q := spot) (by simp [deck]) (by decide) ((in_filled spot).2 (by decide +kernel)) (by decide) ⟨⟨⟨0, 0, 0⟩, ⟨1, 0, 0⟩, ⟨0, 1, 0⟩, ⟨0, 0, 1⟩⟩, by decide +kernel, by decide +kernel⟩ ?_
  exact .here (by simp [deck]) (by decide) ((in_right spot).2 (by decide +kernel)) (by decide)

private def outText : OutFile → Str
  | .text o => o
  | _ => []

private def serpentOut : Str := outText (written .serpent (done c!"03" none))

/-- **C98** is false for Serpent without the condition on the universes: in a file with `u=03` and `fill=3` the cells in the universe are not found. Serpent takes the universes as names. -/
theorem C98_refuted_serpent : ∃ (e : Env ℚ) (text : Str) (d : Deck ℚ) (rank : Int → Nat) (out : Str) (cards : List (List Str)) (p : Point ℚ) (c : Cell ℚ), Exact e.io ∧ readDeck e.io id (readText text) = .ok d ∧
    Convertible e.io e.sqrt rank d ∧ CardInput e.io d ∧ ShortCells e.io d ∧ StillFills d ∧ Converts e id false text .serpent (.text out) ∧ serpentCards out = ([], cards) ∧
    DeckFinds e.io e.sqrt d p c ∧ ∀ card, SerpentFinds e.io e.sqrt decimal cards p card → card[1]? ≠ some (intStr c.id) := by
  have h := converts_written (c := .serpent) reads_zeros done_zeros (by decide +kernel)
  have ho : written .serpent (done c!"03" none) = .text serpentOut := by decide +kernel
  rw [ho] at h
  have hu : PlainNumber c!"03" ∧ (c!"03" : Str).length ≤ 60 := ⟨.whole [] c!"03" (by decide) (by decide) (by decide), by decide⟩
  refine ⟨env, _, _, Int.toNat, serpentOut, (serpentCards serpentOut).2, spot, right c!"03", mixed_exact, reads_zeros, convertible _ _, card_input _ hu (.inl rfl), short_cells _ (.inl rfl), fills_still _, h, by decide +kernel,
    finds_zeros, fun card hf => ?_⟩
  have key : ∀ x ∈ serpentCells (serpentCards serpentOut).2, x[2]? = some c!"0" → (serpentFill x = none → x[1]? ≠ some c!"3") ∧ (serpentFill x = none ∨ serpentFill x = some c!"3") := by decide +kernel
  have none_there : ∀ x ∈ serpentCells (serpentCards serpentOut).2, x[2]? ≠ some c!"3" := by decide +kernel
  cases hf with
  | here k1 k2 k3 k4 => exact (key _ k1 k2).1 k4
  | down k1 k2 k3 k4 k5 k6 =>
    rcases (key _ k1 k2).2 with h | h
    · rw [h] at k4; cases k4
    · rw [h] at k4
      cases k4
      cases k6 with
      | here j1 j2 => exact absurd j2 (none_there _ j1)
      | down j1 j2 => exact absurd j2 (none_there _ j1)

private def openmcOut : Str × Str :=
  match written .openmc (done c!"-3" none) with
  | .xml g m => (g, m)
  | _ => ([], [])

private def openmcRead : List OpenmcSurface × List OpenMCCellElem := (openmcGeometry openmcOut.1).getD ([], [])

/-- **C98** is false for OpenMC without the condition on the universes: the cells with `u=-3` are not written, though the cell that they fill is. -/
theorem C98_refuted_openmc : ∃ (e : Env ℚ) (text : Str) (d : Deck ℚ) (rank : Int → Nat) (g m : Str) (xs : List OpenmcSurface) (es : List OpenMCCellElem) (p : Point ℚ) (c : Cell ℚ), Exact e.io ∧
    readDeck e.io id (readText text) = .ok d ∧ Convertible e.io e.sqrt rank d ∧ OpenmcInput e.io d ∧ Converts e id false text .openmc (.xml g m) ∧ openmcGeometry g = some (xs, es) ∧
    DeckFinds e.io e.sqrt d p c ∧ ∀ x ∈ es, x.id ≠ intStr c.id := by
  have h := converts_written (c := .openmc) reads_minus done_minus (by decide +kernel)
  have ho : written .openmc (done c!"-3" none) = .xml openmcOut.1 openmcOut.2 := by decide +kernel
  rw [ho] at h
  exact ⟨env, _, _, Int.toNat, openmcOut.1, openmcOut.2, openmcRead.1, openmcRead.2, spot, right c!"-3", mixed_exact, reads_minus, convertible _ _, openmc_input ⟨-3, by decide, by decide⟩ (.inl rfl), h,
    by decide +kernel, finds_minus, by decide +kernel⟩

/-- In the file without displacement the point is not in the gas. -/
private theorem finds_only {c : Cell ℚ} (h : DeckFinds env.io id (deck c!"3" none) spot c) : c.id ≠ 2 := by
  intro hid
  have hc : InDeckCell id (deck c!"3" none) 2 spot := by
    have := (finds_still (fills_still _) h).2.2
    rw [hid] at this
    exact this
  rw [in_left] at hc
  exact absurd hc (by decide +kernel)

private def sconeOut : Str := outText (written .scone (done c!"3" none))

/-- **C98** is false for SCONE without the condition on the fills: a file with `fill=3` and one with `fill=3 (1 0 0)` are converted to the same. -/
theorem C98_refuted_scone : ∃ (e : Env ℚ) (text₁ text₂ : Str) (d₁ d₂ : Deck ℚ) (rank : Int → Nat) (out : Str) (p : Point ℚ) (c₁ c₂ : Cell ℚ), Exact e.io ∧
    readDeck e.io id (readText text₁) = .ok d₁ ∧ readDeck e.io id (readText text₂) = .ok d₂ ∧ Convertible e.io e.sqrt rank d₁ ∧ Convertible e.io e.sqrt rank d₂ ∧
    SconeSource e.io e.sqrt e.degAtan (fun d => (d / 45) ^ 2) decimal e.fixed d₁ ∧ SconeSource e.io e.sqrt e.degAtan (fun d => (d / 45) ^ 2) decimal e.fixed d₂ ∧
    Converts e id false text₁ .scone (.text out) ∧ Converts e id false text₂ .scone (.text out) ∧
    DeckFinds e.io e.sqrt d₁ p c₁ ∧ DeckFinds e.io e.sqrt d₂ p c₂ ∧ (∀ c, DeckFinds e.io e.sqrt d₁ p c → c.id ≠ c₂.id) ∧ c₁.material = .int 0 ∧ c₂.material = .int 1 := by
  have h1 := converts_written (c := .scone) reads_still done_still (by decide +kernel)
  have h2 := converts_written (c := .scone) reads_moved done_moved (by decide +kernel)
  have e1 : written .scone (done c!"3" none) = .text sconeOut := by decide +kernel
  have e2 : written .scone (done c!"3" (some shift)) = .text sconeOut := by decide +kernel
  rw [e1] at h1
  rw [e2] at h2
  exact ⟨env, _, _, _, _, Int.toNat, sconeOut, spot, right c!"3", left c!"3", mixed_exact, reads_still, reads_moved, convertible _ _, convertible _ _, scone_source, scone_source, h1, h2, finds_right, finds_left,
    fun _ => finds_only, rfl, rfl⟩

/-! ## C103 -/

private def move : Bool → Str
  | true => c!"(1 0 0)"
  | false => []
private def moveOff : Bool → Option (List (Entry ℚ))
  | true => some shift
  | false => none
private def moveParam : Bool → Param × Str × Str
  | true => (.fill false c!"3" (some c!"1 0 0"), c!"fill=3 (1 0 0)", c!" ")
  | false => (.fill false c!"3" none, c!"fill=3", c!"  ")

/-- What the text says, with and without displacement. -/
private def said (m : Bool) : InputFile ℚ :=
  { cells := [⟨1, none, c!"-1 ", [(moveParam m).1, .importance c!"1"]⟩, ⟨2, some (1, -7), c!"-2 ", [.uni c!"3", .importance c!"1"]⟩, ⟨3, none, c!"2 ", [.uni c!"3", .importance c!"1"]⟩,
      ⟨4, none, c!"1 ", [.importance c!"0"]⟩]
    surfaces := [⟨1, none, c!"so", [9]⟩, ⟨2, none, c!"px", [2]⟩]
    data := [.material 1 [(c!"1001", c!"1.0")] [1]] }

private def saidCells (m : Bool) : List (List Str) := [[c!"1 0 -1 fill=3 " ++ move m ++ c!" imp:n=1\n"], [c!"2 1 -7 -2 u=3 imp:n=1\n"], [c!"3 0 2 u=3 imp:n=1\n"], [c!"4 0 1 imp:n=0\n"]]
private def saidSurfaces : List (List Str) := [[c!"1 so 9\n"], [c!"2 px 2\n"]]
private def saidData : List (List Str) := [[c!"m1 1001 1.0\n"]]

private theorem said_layout (m : Bool) : Layout (text c!"3" (move m)) c!"title\n" (saidCells m) saidSurfaces saidData where
  lines := ⟨[c!"1 0 -1 fill=3 " ++ move m ++ c!" imp:n=1\n", c!"2 1 -7 -2 u=3 imp:n=1\n", c!"3 0 2 u=3 imp:n=1\n", c!"4 0 1 imp:n=0\n", c!"\n", c!"1 so 9\n", c!"2 px 2\n", c!"\n", c!"m1 1001 1.0\n"], c!"\n", c!"\n",
    by cases m <;> decide +kernel, fun l hl => line_of (by revert l; cases m <;> decide +kernel), fun l hl => comment_iff (by revert l; cases m <;> decide +kernel) (by revert l; cases m <;> decide +kernel), by cases m <;> decide +kernel,
    by unfold BlankLine; decide, by unfold BlankLine; decide⟩
  noMessage := fun a b e => by
    have := (hasInfix_iff _ _).2 ⟨a, b, e⟩
    revert this
    decide +kernel
  cards := by
    intro g hg
    simp only [saidCells, saidSurfaces, List.cons_append, List.nil_append, List.mem_cons, List.not_mem_nil, or_false] at hg
    rcases hg with rfl | rfl | rfl | rfl | rfl | rfl <;> exact ⟨_, _, rfl, not_five (by cases m <;> decide), fun l hl => five (by revert l; decide), by cases m <;> decide +kernel⟩
  dataCards := by
    intro g hg
    simp only [saidData, List.mem_cons, List.not_mem_nil, or_false] at hg
    subst hg
    exact ⟨_, _, rfl, not_five (by decide), fun l hl => five (by revert l; decide), fun l hl => (line_of (l := l) (by revert l; decide)).imp fun _ h => ⟨h.1, .inr h.2⟩⟩

private theorem lex_one {w : Str} (h : lexGeometry (w ++ c!" ") = [.atom w]) : Legal (lexGeometry (w ++ c!" ")) := by rw [h]; exact ⟨_, .one (.single (.atom _))⟩

private theorem lex1 : lexGeometry c!"-1 " = [.atom c!"-1"] := by decide +kernel
private theorem lex2 : lexGeometry c!"-2 " = [.atom c!"-2"] := by decide +kernel
private theorem lex3 : lexGeometry c!"2 " = [.atom c!"2"] := by decide +kernel
private theorem lex4 : lexGeometry c!"1 " = [.atom c!"1"] := by decide +kernel

private theorem imp_text (v : Str) (h : v = c!"0" ∨ v = c!"1") : ParamText (.importance v) (c!"imp:n=" ++ v) := by
  rcases h with rfl | rfl
  · exact .importance c!"0" c!"=" (by unfold EqualsSign; decide) (.whole [] c!"0" (by decide) (by decide) (by decide))
  · exact .importance c!"1" c!"=" (by unfold EqualsSign; decide) (.whole [] c!"1" (by decide) (by decide) (by decide))

private theorem float_imp {v : Str} (h : v = c!"0" ∨ v = c!"1") : ∃ x, env.io.float v = .ok x := by
  rcases h with rfl | rfl
  · exact ⟨0, by decide +kernel⟩
  · exact ⟨1, by decide +kernel⟩

private theorem is_said (m : Bool) : FileSays env.io (text c!"3" (move m)) (said m) where
  layout := by
    refine ⟨_, _, _, _, said_layout m, .cons ?_ (.cons ?_ (.cons ?_ (.cons ?_ .nil))), .cons ?_ (.cons ?_ .nil), .cons ?_ .nil⟩
    · refine ⟨⟨c!"1 0", c!"1", c!"0", none, [moveParam m, (.importance c!"1", c!"imp:n=1", c!"\n")], by cases m <;> decide, .inr ⟨?_, by cases m <;> decide, by cases m <;> decide, by simp⟩, rfl, by cases m <;> decide +kernel, by cases m <;> decide +kernel,
        ⟨by decide +kernel, rfl⟩, by cases m <;> decide, by cases m <;> decide⟩, lex_one (w := c!"-1") lex1, ?_, ?_⟩
      · intro e he
        simp only [List.mem_cons, List.not_mem_nil, or_false] at he
        rcases he with rfl | rfl
        · cases m
          · exact ⟨.fill false c!"3" c!"=" (by unfold EqualsSign; decide) three.1, by decide⟩
          · exact ⟨.filled false c!"3" c!"=" c!" " c!"1 0 0" (by unfold EqualsSign; decide) three.1 (by decide) (by unfold NumberChar; decide), by decide⟩
        · exact ⟨imp_text c!"1" (.inr rfl), by decide⟩
      · intro v hv
        have : v = c!"1" := by cases m <;> simpa [moveParam] using hv
        exact float_imp (.inr this)
      · intro v t hv
        cases m <;> simp [moveParam] at hv
    · refine ⟨⟨c!"2 1 -7", c!"2", c!"1", some c!"-7", [(.uni c!"3", c!"u=3", c!" "), (.importance c!"1", c!"imp:n=1", c!"\n")], by decide, .inr ⟨?_, by decide, by decide, by decide⟩, rfl, by decide +kernel, by decide +kernel,
        ⟨by decide +kernel, by decide, c!"-7", rfl, by decide +kernel⟩, by decide, by decide⟩, lex_one (w := c!"-2") lex2, ?_, ?_⟩
      · intro e he
        simp only [List.mem_cons, List.not_mem_nil, or_false] at he
        rcases he with rfl | rfl
        · exact ⟨.uni c!"3" c!"=" (by unfold EqualsSign; decide) three.1, by decide⟩
        · exact ⟨imp_text c!"1" (.inr rfl), by decide⟩
      · intro v hv
        exact float_imp (.inr (by simpa using hv))
      · intro v t hv
        simp at hv
    · refine ⟨⟨c!"3 0", c!"3", c!"0", none, [(.uni c!"3", c!"u=3", c!" "), (.importance c!"1", c!"imp:n=1", c!"\n")], by decide, .inr ⟨?_, by decide, by decide, by decide⟩, rfl, by decide +kernel, by decide +kernel,
        ⟨by decide +kernel, rfl⟩, by decide, by decide⟩, lex_one (w := c!"2") lex3, ?_, ?_⟩
      · intro e he
        simp only [List.mem_cons, List.not_mem_nil, or_false] at he
        rcases he with rfl | rfl
        · exact ⟨.uni c!"3" c!"=" (by unfold EqualsSign; decide) three.1, by decide⟩
        · exact ⟨imp_text c!"1" (.inr rfl), by decide⟩
      · intro v hv
        exact float_imp (.inr (by simpa using hv))
      · intro v t hv
        simp at hv
    · refine ⟨⟨c!"4 0", c!"4", c!"0", none, [(.importance c!"0", c!"imp:n=0", c!"\n")], by decide, .inr ⟨?_, by decide, by decide, by decide⟩, rfl, by decide +kernel, by decide +kernel,
        ⟨by decide +kernel, rfl⟩, by decide, by decide⟩, lex_one (w := c!"1") lex4, ?_, ?_⟩
      · intro e he
        obtain rfl := List.mem_singleton.1 he
        exact ⟨imp_text c!"0" (.inl rfl), by decide⟩
      · intro v hv
        exact float_imp (.inl (by simpa using hv))
      · intro v t hv
        simp at hv
    · exact .inl ⟨[c!"9"], ⟨c!"1", by decide +kernel, by decide, ⟨c!"1 so 9\n", [], .inl (by decide +kernel), by decide, by decide +kernel⟩, by decide +kernel⟩, by unfold Reads; decide +kernel, .inl ⟨.so, by decide, by decide +kernel⟩⟩
    · exact .inl ⟨[c!"2"], ⟨c!"2", by decide +kernel, by decide, ⟨c!"2 px 2\n", [], .inl (by decide +kernel), by decide, by decide +kernel⟩, by decide +kernel⟩, by unfold Reads; decide +kernel, .inl ⟨.px, by decide, by decide +kernel⟩⟩
    · refine ⟨⟨⟨_, _, rfl, by decide, by decide, 0, c!" 1001 1.0\n", by decide, by decide⟩, by decide +kernel, .cons (by decide +kernel) .nil⟩, ?_, ?_⟩
      · intro l hl
        cases hl
      · intro _ l hl
        exact not_imp (by revert l; decide +kernel)
  materials := by cases m <;> decide
  transforms := by cases m <;> decide
  importances := by cases m <;> decide
  last := ⟨[], _, rfl, by intro n d v; simp, by intro v; simp⟩

private theorem said_cells {m : Bool} {P : CellEntry ℚ → Prop} (h1 : P ⟨1, none, c!"-1 ", [(moveParam m).1, .importance c!"1"]⟩) (h2 : P ⟨2, some (1, -7), c!"-2 ", [.uni c!"3", .importance c!"1"]⟩)
    (h3 : P ⟨3, none, c!"2 ", [.uni c!"3", .importance c!"1"]⟩) (h4 : P ⟨4, none, c!"1 ", [.importance c!"0"]⟩) : ∀ c ∈ (said m).cells, P c := by
  intro c hc
  simp only [said, List.mem_cons, List.not_mem_nil, or_false] at hc
  rcases hc with rfl | rfl | rfl | rfl
  exacts [h1, h2, h3, h4]

private theorem said_importance {m : Bool} {i : Nat} {c : CellEntry ℚ} {x : ℚ} (hc : (said m).cells[i]? = some c) (h : FileImportance env.io (said m) i c x) : x = 1 ∨ x = 0 ∧ c = ⟨4, none, c!"1 ", [.importance c!"0"]⟩ := by
  rcases h with ⟨vs, hv, -⟩ | ⟨-, h⟩
  · cases hv
  · have h1 : env.io.float c!"1" = .ok 1 := by decide +kernel
    have h0 : env.io.float c!"0" = .ok 0 := by decide +kernel
    have key : ∀ c ∈ (said m).cells, ((∃ v, Param.importance v ∈ c.params ∧ env.io.float v = .ok x) ∨ (∀ v, Param.importance v ∉ c.params) ∧ x = 1) → x = 1 ∨ x = 0 ∧ c = ⟨4, none, c!"1 ", [.importance c!"0"]⟩ := by
      refine said_cells ?_ ?_ ?_ ?_
      all_goals refine Or.rec ?_ fun h => .inl h.2
      all_goals rintro ⟨v, hv, h⟩
      · have : v = c!"1" := by cases m <;> simpa [moveParam] using hv
        rw [this, h1] at h; cases h; exact .inl rfl
      · have : v = c!"1" := by simpa using hv
        rw [this, h1] at h; cases h; exact .inl rfl
      · have : v = c!"1" := by simpa using hv
        rw [this, h1] at h; cases h; exact .inl rfl
      · have : v = c!"0" := by simpa using hv
        rw [this, h0] at h; cases h; exact .inr ⟨rfl, rfl⟩
    exact key c (List.mem_of_getElem? hc) h

private theorem said_composition {comp : List (Str × ℚ)} (h : CompositionOf [(c!"1001", c!"1.0")] [1] comp) : comp = [(c!"1001", 1)] := by
  have hn : nuclideOf c!"1001" = c!"1001" := by decide +kernel
  have key : ∀ e ∈ comp, e = (c!"1001", 1) := by
    intro e he
    obtain ⟨x, hx, e1⟩ := (h.nuclides e.1).1 (List.mem_map.2 ⟨e, he, rfl⟩)
    obtain rfl := List.mem_singleton.1 hx
    have e2 := h.fractions e.1 e.2 he
    rw [← e1, hn, show given c!"1001" [(c!"1001", c!"1.0")] [(1 : ℚ)] = 1 by decide +kernel] at e2
    exact Prod.ext (by rw [← e1, hn]) e2
  obtain ⟨e, he, -⟩ := List.mem_map.1 ((h.nuclides c!"1001").2 ⟨_, List.mem_singleton.2 rfl, hn⟩)
  match comp, key, he, h.once with
  | [a], key, _, _ => rw [key a (by simp)]
  | a :: b :: l, key, _, h => rw [key a (by simp), key b (by simp)] at h; simp at h

private theorem said_words {m : Bool} : ∀ c ∈ (said m).cells, ∀ w, Sym.atom w ∈ lexGeometry c.geometry → w ∈ [c!"-1", c!"-2", c!"2", c!"1"] := by
  refine said_cells ?_ ?_ ?_ ?_
  all_goals intro w hw
  · simp only [lex1, List.mem_singleton, Sym.atom.injEq] at hw; simp [hw]
  · simp only [lex2, List.mem_singleton, Sym.atom.injEq] at hw; simp [hw]
  · simp only [lex3, List.mem_singleton, Sym.atom.injEq] at hw; simp [hw]
  · simp only [lex4, List.mem_singleton, Sym.atom.injEq] at hw; simp [hw]

private theorem said_moves (m : Bool) : ∀ c ∈ (said m).cells, c.moves = none ∨ c.moves = some (false, [c!"1", c!"0", c!"0"]) := by cases m <;> decide +kernel

private theorem said_convertible (m : Bool) : ConvertibleFile env.io id env.sqrt Int.toNat (said m) := by
  have h1 : (⟨1, none, c!"so", [9]⟩ : SurfaceEntry ℚ) ∈ (said m).surfaces := by simp [said]
  have h2 : (⟨2, none, c!"px", [2]⟩ : SurfaceEntry ℚ) ∈ (said m).surfaces := by simp [said]
  refine ⟨⟨by simp [said], by simp [said]⟩, ?_, ?_, ⟨by simp [said], by cases m <;> decide +kernel⟩, ?_, ?_, ?_, ?_, ?_, ?_, ?_⟩
  · intro s hs
    simp only [said, List.mem_cons, List.not_mem_nil, or_false] at hs
    rcases hs with rfl | rfl
    · exact .inl ⟨.so, by decide, by decide +kernel⟩
    · exact .inl ⟨.px, by decide, by decide +kernel⟩
  · intro s hs n hn
    simp only [said, List.mem_cons, List.not_mem_nil, or_false] at hs
    rcases hs with rfl | rfl <;> cases hn
  · intro c hc w hw
    have := said_words c hc w hw
    simp only [List.mem_cons, List.not_mem_nil, or_false] at this
    rcases this with rfl | rfl | rfl | rfl
    · exact .inr (.inl ⟨_, h1, .inr (by decide)⟩)
    · exact .inr (.inl ⟨_, h2, .inr (by decide)⟩)
    · exact .inr (.inl ⟨_, h2, .inl (by decide)⟩)
    · exact .inr (.inl ⟨_, h1, .inl (by decide)⟩)
  · intro c hc w hw hh
    have := said_words c hc w hw
    simp only [List.mem_cons, List.not_mem_nil, or_false] at this
    rcases this with rfl | rfl | rfl | rfl <;> exact absurd hh (by decide)
  · refine said_cells ?_ ?_ ?_ ?_
    all_goals intro n x hx
    all_goals cases hx
    exact ⟨1, by cases m <;> decide, rfl⟩
  · intro c hm
    obtain rfl := List.mem_singleton.1 (show c ∈ [(1, [(c!"1001", c!"1.0")], [(1 : ℚ)])] from hm)
    have hn : nuclideOf c!"1001" = natStr 1001 := by decide +kernel
    refine ⟨by decide, by decide, ?_, ?_, by decide, by decide⟩
    · intro e he
      obtain rfl := List.mem_singleton.1 he
      exact ⟨1001, hn⟩
    · rintro z ⟨e, he, h⟩
      obtain rfl := List.mem_singleton.1 he
      have := natStr_injective (hn.symm.trans h)
      omega
  · intro c hc d ws h
    rcases said_moves m c hc with e | e <;> rw [e] at h <;> cases h
    refine .inr ⟨.inl rfl, fun w hw => ?_⟩
    simp only [List.mem_cons, List.not_mem_nil, or_false] at hw
    rcases hw with rfl | rfl | rfl
    · exact ⟨by unfold NumberChar; decide, 1, by decide +kernel⟩
    all_goals exact ⟨by unfold NumberChar; decide, 0, by decide +kernel⟩
  · intro vs hv
    cases hv
  · intro i c hc h w z hw hz
    rcases said_importance hc h with h | ⟨-, rfl⟩
    · cases h
    · simp only [lex4, List.mem_singleton, Sym.atom.injEq] at hw
      subst hw
      rw [show parseInt c!"1" = some 1 by decide +kernel] at hz
      cases hz
      exact ⟨_, h1, by decide, rfl⟩

private theorem said_universes (m : Bool) : ∀ c ∈ (said m).cells, (c.uni = none ∨ c.uni = some c!"3") ∧ (c.fill = none ∨ c.fill = some c!"3" ∧ c.uni = none) := by cases m <;> decide +kernel

private theorem said_reads (m : Bool) : readDeck env.io id (readText (text c!"3" (move m))) = .ok (deck c!"3" (moveOff m)) := by
  cases m
  exacts [reads_still, reads_moved]

private theorem off_cases (m : Bool) : moveOff m = none ∨ moveOff m = some shift := by cases m <;> simp [moveOff]

/-- The hypotheses of all theorems of C103. -/
private theorem said_all (m : Bool) : FileSays env.io (text c!"3" (move m)) (said m) ∧ ConvertibleFile env.io id env.sqrt Int.toNat (said m) ∧ NumberedTransforms (said m) ∧ UnsignedFile (said m) ∧ PlainFile (said m) ∧ DefinedFile (said m) := by
  refine ⟨is_said m, said_convertible m, fun t ht => (by cases ht), fun c hc => ?_, fun c hc => ?_, ?_⟩
  · obtain ⟨h1, h2⟩ := said_universes m c hc
    have h0 : parseInt c!"0" = some 0 := by decide +kernel
    have h3 : parseInt c!"3" = some 3 := by decide +kernel
    constructor
    · intro u hu
      rcases h1 with h1 | h1 <;> rw [h1] at hu
      · exact Int.le_of_eq (Option.some.inj (h0.symm.trans hu))
      · obtain rfl := Option.some.inj (h3.symm.trans hu)
        decide
    · intro v n hv hn
      rcases h2 with h2 | ⟨h2, -⟩ <;> rw [h2] at hv <;> cases hv
      obtain rfl := Option.some.inj (h3.symm.trans hn)
      decide
  · obtain ⟨h1, h2⟩ := said_universes m c hc
    constructor
    · rcases h1 with h1 | h1 <;> rw [h1]
      exacts [⟨0, by decide +kernel⟩, ⟨3, by decide +kernel⟩]
    · intro v hv
      rcases h2 with h2 | ⟨h2, -⟩ <;> rw [h2] at hv <;> cases hv
      exact ⟨3, by decide +kernel⟩
  · have h3 : fileUniverse (⟨3, none, c!"2 ", [.uni c!"3", .importance c!"1"]⟩ : CellEntry ℚ) = some 3 := by decide +kernel
    intro c hc v hv
    obtain ⟨-, h2⟩ := said_universes m c hc
    rw [fileFill] at hv
    rcases h2 with h2 | ⟨h2, -⟩ <;> rw [h2] at hv
    · cases hv
    · obtain rfl : 3 = v := by
        rw [Option.bind_some, show parseInt c!"3" = some 3 by decide +kernel] at hv
        exact Option.some.inj hv
      exact ⟨by decide, _, by simp [said], h3⟩

/-- `C103_scone_partial`: nothing is displaced, and a point is found in the empty cell of the universe. -/
example : StillFile (said false) ∧ ∃ e, e.number = 3 ∧ FileFinds env.io id id (said false) spot e := by
  refine ⟨by unfold StillFile; decide +kernel, ?_⟩
  obtain ⟨d, hr, ha, -⟩ := read_file env.io id id _ _ (is_said false)
  rw [said_reads false] at hr
  cases hr
  obtain ⟨e, h1, h2⟩ := (agree_file (is_said false) (said_all false).2.2.1 ha (said_convertible false)).2 spot _ finds_right
  exact ⟨e, h1.2.number.symm, h2⟩

/-- `C103_openmc_partial`, `C103_phits_partial`, `C103_mcnp_partial` and `C103_serpent_partial`: with the displacement the point is found in the gas. -/
example : ∃ e, e.number = 2 ∧ e.content = some (1, -7) ∧ FileFinds env.io id id (said true) spot e := by
  obtain ⟨d, hr, ha, -⟩ := read_file env.io id id _ _ (is_said true)
  rw [said_reads true] at hr
  cases hr
  obtain ⟨e, h1, h2⟩ := (agree_file (is_said true) (said_all true).2.2.1 ha (said_convertible true)).2 spot _ finds_left
  have hn : e.number = 2 := h1.2.number.symm
  have : ∀ c ∈ (said true).cells, c.number = 2 → c.content = some (1, -7) := by decide +kernel
  exact ⟨e, hn, this e h1.1 hn, h2⟩

/-- The fill of the file with a displacement is not rotated. -/
example : UnrotatedFile env.io id (said true) := by
  have hm : ∀ c ∈ (said true).cells, c.fill ≠ none → c.moves = some (false, [c!"1", c!"0", c!"0"]) := by decide +kernel
  have p1 : env.io.parse c!"1" = some 1 := by decide +kernel
  have p0 : env.io.parse c!"0" = some 0 := by decide +kernel
  intro c hc hn
  refine ⟨1, 0, 0, fun p q => ?_⟩
  unfold FileMoves
  rw [hm c hc hn]
  constructor
  · rintro ⟨values, h, -, rfl⟩
    cases h with
    | cons k1 h => cases h with
      | cons k2 h => cases h with
        | cons k3 h =>
          cases h
          rw [p1] at k1
          rw [p0] at k2 k3
          cases k1
          cases k2
          cases k3
          simp [trPoint]
  · rintro rfl
    exact ⟨[1, 0, 0], .cons p1 (.cons p0 (.cons p0 .nil)), .inl rfl, by simp [trPoint]⟩

/-- The conditions of the codes. -/
example (m : Bool) : OpenmcFile (said m) ∧ CardFile (said m) ∧ SconeFile env.io (said m) ∧
    (∀ (i : Nat) c x, (said m).cells[i]? = some c → FileImportance env.io (said m) i c x → PlainNumber (env.io.render x)) ∧
    ∀ d fuel d', readDeck env.io id (readText (text c!"3" (move m))) = .ok d → finishDeck fuel env.io id env.sqrt false d = some (.ok d') →
      ShortCells env.io d ∧ ShortSurfaces env.io d' ∧ PrintedSurfaces decimal env.io d' ∧ (∀ m ∈ d.materials, PrintableXs m.2) ∧ ∀ s ∈ d.surfaces, ¬ IsCone s.type ∧ ¬ IsTorus s.type := by
  have h0 : parseInt c!"0" = some 0 := by decide +kernel
  have h3 : parseInt c!"3" = some 3 := by decide +kernel
  refine ⟨⟨?_, ?_, ⟨⟨4, none, c!"1 ", [.importance c!"0"]⟩, by simp [said], by decide⟩, fun u => if u = 0 then 1 else 0, ?_⟩, ⟨by cases m <;> decide +kernel, ?_, ?_⟩,
    ⟨by cases m <;> decide +kernel, by cases m <;> decide +kernel, ⟨by decide +kernel, ?_⟩, ?_, ?_, ?_, .inr ⟨⟨2, some (1, -7), c!"-2 ", [.uni c!"3", .importance c!"1"]⟩, by simp [said], by simp⟩⟩, ?_, ?_⟩
  · intro c hm e he
    obtain rfl := List.mem_singleton.1 (show c ∈ [(1, [(c!"1001", c!"1.0")], [(1 : ℚ)])] from hm)
    obtain rfl := List.mem_singleton.1 he
    exact ⟨1, 1, by decide +kernel, by decide, by decide, by decide, by decide⟩
  · intro c hc
    obtain ⟨k1, k2⟩ := said_universes m c hc
    constructor
    · rcases k1 with k1 | k1 <;> rw [k1]
      exacts [⟨0, h0⟩, ⟨3, h3⟩]
    · intro v hv
      rcases k2 with k2 | ⟨k2, -⟩ <;> rw [k2] at hv <;> cases hv
      exact ⟨3, h3, by decide⟩
  · intro c hc u s v hu hs hv
    obtain ⟨-, k2⟩ := said_universes m c hc
    rcases k2 with k2 | ⟨k2, k3⟩ <;> rw [k2] at hs <;> cases hs
    rw [k3] at hu
    obtain rfl := Option.some.inj (h0.symm.trans hu)
    obtain rfl := Option.some.inj (h3.symm.trans hv)
    decide
  · intro c hc
    obtain ⟨k1, k2⟩ := said_universes m c hc
    constructor
    · intro u hu
      rcases k1 with k1 | k1 <;> rw [k1] at hu <;> cases hu
      exact three
    · intro v hv
      rcases k2 with k2 | ⟨k2, -⟩ <;> rw [k2] at hv <;> cases hv
      exact three
  · intro c hc d ws h
    rcases said_moves m c hc with e | e <;> rw [e] at h <;> cases h
    decide
  · refine said_cells ?_ ?_ ?_ ?_
    all_goals intro n x hx
    all_goals cases hx
    decide +kernel
  · intro c hc w hw
    have := said_words c hc w hw
    simp only [List.mem_cons, List.not_mem_nil, or_false] at this
    rcases this with rfl | rfl | rfl | rfl <;> decide
  · intro c hc
    obtain ⟨k1, k2⟩ := said_universes m c hc
    constructor
    · rcases k1 with k1 | k1 <;> rw [k1]
      exacts [⟨0, h0, by decide⟩, ⟨3, h3, by decide⟩]
    · intro v hv
      rcases k2 with k2 | ⟨k2, -⟩ <;> rw [k2] at hv <;> cases hv
      exact ⟨3, h3, by decide⟩
  · intro c hm comp h
    obtain rfl := List.mem_singleton.1 (show c ∈ [(1, [(c!"1001", c!"1.0")], [(1 : ℚ)])] from hm)
    rw [said_composition h]
    decide +kernel
  · intro i c x hc h
    have one : PlainNumber (mixedIO.render 1) := .point [] c!"1" c!"0" (by decide) (by decide) (by decide) (by decide) (by decide)
    have zero : PlainNumber (mixedIO.render 0) := .point [] c!"0" c!"0" (by decide) (by decide) (by decide) (by decide) (by decide)
    rcases said_importance hc h with rfl | ⟨rfl, -⟩
    exacts [one, zero]
  · intro d fuel d' hr h
    rw [said_reads m] at hr
    cases hr
    refine ⟨short_cells _ (off_cases m), (surfaces_printed (off_cases m) fuel d' h).1, (surfaces_printed (off_cases m) fuel d' h).2, ?_, cases_surfaces ?_ ?_⟩
    · intro x hx e he
      simp only [deck, List.mem_singleton] at hx
      subst hx
      simp only [gas, List.mem_singleton] at he
      subst he
      exact ⟨[], by decide +kernel, by simp⟩
    · unfold IsCone IsTorus; decide
    · unfold IsCone IsTorus; decide

/-- `C105_file_partial`. -/
example (m : Bool) : RoomyFile (said m) ∧ (env.io.render 0).length ≤ 24 := by
  refine ⟨⟨?_, ?_⟩, by decide +kernel⟩
  all_goals cases m <;> decide +kernel

/-- `C105_deck_partial` and `C105_size_partial`, with the conditions of C98. -/
example : 7 * ((deck c!"3" (some shift)).last + 6 * (deck c!"3" (some shift)).surfaces.length) < 10 ^ 58 ∧ 2 * ((deck c!"3" (some shift)).materials.length + (deck c!"3" (some shift)).cells.length) < 10 ^ 9 := by
  decide +kernel

end Csg
