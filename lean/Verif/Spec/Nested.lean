import Verif.Spec.ConvertedMaterials

/-!
# Points in nested universes

A cell may be filled with a universe. The cell that a point lies in is found by going down: a cell of the universe at hand holds the point; if it is filled, the search goes on in the universe that fills it, with
the point in the coordinates of that universe. For each code, the search is described by what the code reads.
-/

namespace Csg.Spec

/-- The search for the cell of a point from a universe on. `uni` says which cells are in a universe, `fill` is the universe that fills a cell, `inside` are its points, and `moves` gives the coordinates of a point in the
universe that fills the cell. -/
inductive Finds {C U P : Type} (cells : List C) (uni : C → U → Prop) (fill : C → Option U) (inside : C → P → Prop) (moves : C → P → P → Prop) : U → P → C → Prop
  | here {u : U} {p : P} {c : C} : c ∈ cells → uni c u → inside c p → fill c = none → Finds cells uni fill inside moves u p c
  | down {u v : U} {p q : P} {c x : C} : c ∈ cells → uni c u → inside c p → fill c = some v → moves c p q → Finds cells uni fill inside moves v q x →
      Finds cells uni fill inside moves u p x

/-- Two searches lead to the same: whatever cell one of them finds for a point, the other finds a cell that is the same. -/
def Agree {C C' P : Type} (found : P → C → Prop) (found' : P → C' → Prop) (same : C → C' → Prop) : Prop :=
  (∀ p c, found p c → ∃ c', same c c' ∧ found' p c') ∧ ∀ p c', found' p c' → ∃ c, same c c' ∧ found p c

section
variable {K : Type} [Field K] [LinearOrder K]

/-! ## The MCNP deck -/

/-- The universe of a cell. A negative number has the same meaning as a positive one, the sign tells that the cell is not cut by the cell it is in. -/
def deckUniverse (c : Cell K) : Option Nat := (parseInt (c.uni.getD c!"0")).map Int.natAbs

/-- The universe that fills a cell. -/
def deckFill (c : Cell K) : Option Nat := c.fill.bind fun f => (parseInt f).map Int.natAbs

/-- The transform of a fill: a TR card or numbers on the cell card. -/
def deckTransform (io : NumIO K) (d : Deck K) (c : Cell K) : Option (Transform K) := if c.trId = c!"0" then fillTransform io c else d.transforms.lookup c.trId

/-- The coordinates of a point in the universe that fills the cell. -/
def DeckMoves (io : NumIO K) (d : Deck K) (c : Cell K) (p q : Point K) : Prop := ∃ t, deckTransform io d c = some t ∧ q = pullback t p

/-- The point lies in this cell of the MCNP deck as read, which is not filled. -/
def DeckFinds (io : NumIO K) (sqrt : K → K) (d : Deck K) (p : Point K) (c : Cell K) : Prop :=
  Finds d.cells (fun c u => deckUniverse c = some u) deckFill (fun c => InDeckCell sqrt d c.id) (DeckMoves io d) 0 p c

/-- Universes are numbers without sign and without leading zeros. -/
def PlainUniverses (d : Deck K) : Prop := ∀ c ∈ d.cells, (∃ n, c.uni.getD c!"0" = natStr n) ∧ ∀ f, c.fill = some f → ∃ n, f = natStr n

/-- Universes are numbers without sign. -/
def UnsignedUniverses (d : Deck K) : Prop := ∀ c ∈ d.cells, (∀ u, parseInt (c.uni.getD c!"0") = some u → 0 ≤ u) ∧ ∀ f v, c.fill = some f → parseInt f = some v → 0 ≤ v

/-- The universes that fill cells have cells, and are not universe 0. -/
def DefinedFills (d : Deck K) : Prop := ∀ c ∈ d.cells, ∀ v, deckFill c = some v → v ≠ 0 ∧ ∃ x ∈ d.cells, deckUniverse x = some v

/-- No fill is displaced or rotated. -/
def StillFills (d : Deck K) : Prop := ∀ c ∈ d.cells, c.fill ≠ none → c.trId = c!"0" ∧ c.offset = none ∧ c.rotation = none

/-- No fill is rotated: the coordinates in the universe are those of the cell but for a displacement. -/
def UnrotatedFills (io : NumIO K) (d : Deck K) : Prop := ∀ c ∈ d.cells, c.fill ≠ none → ∃ x y z, ∀ p q, DeckMoves io d c p q ↔ q = ⟨p.x - x, p.y - y, p.z - z⟩

/-! ## Serpent -/

/-- The cell cards. -/
def serpentCells (cards : List (List Str)) : List (List Str) := cards.filter fun c => decide (c.head? = some c!"cell")

/-- The universe that fills a cell. -/
def serpentFill (card : List Str) : Option Str := if card[3]? = some c!"fill" then card[4]? else none

/-- The point lies in the cell. -/
def serpentInside (sqrt : K → K) (read : Str → Option K) (cards : List (List Str)) (card : List Str) (p : Point K) : Prop :=
  ∃ name g, serpentRegion card = some (name, g) ∧ InSerpent sqrt read cards g p

/-- A fill without a card `trans` for it has the coordinates of the cell. With one card, the displacement is subtracted. Fills with a rotation, or with several cards, are not treated. -/
def serpentMoves (io : NumIO K) (cards : List (List Str)) (card : List Str) (p q : Point K) : Prop :=
  ∃ name, card[1]? = some name ∧
    match cards.filter (fun t => decide (t.take 3 = [c!"trans", c!"f", name])) with
    | [] => q = p
    | [t] => ∃ x y z, ((t.drop 3).take 3).mapM io.parse = some [x, y, z] ∧ ((t.drop 6).take 9).mapM io.parse = some noRotation ∧ q = ⟨p.x - x, p.y - y, p.z - z⟩
    | _ => False

/-- The point lies in this cell of the Serpent file. The root is universe 0. -/
def SerpentFinds (io : NumIO K) (sqrt : K → K) (read : Str → Option K) (cards : List (List Str)) (p : Point K) (card : List Str) : Prop :=
  Finds (serpentCells cards) (fun c u => c[2]? = some u) serpentFill (serpentInside sqrt read cards) (serpentMoves io cards) c!"0" p card

/-! ## OpenMC -/

/-- The universe of a cell. -/
def openmcUniverse (x : OpenMCCellElem) : Option Int := parseInt x.uni

/-- The universe that fills a cell. -/
def openmcFill (x : OpenMCCellElem) : Option Int := x.filled.bind fun f => parseInt f.1

/-- The coordinates of a point in the universe that fills the cell. -/
def openmcMoves (io : NumIO K) (x : OpenMCCellElem) (p q : Point K) : Prop :=
  ∃ f rotation translation t, x.filled = some (f, rotation, translation) ∧ openmcTransform io rotation translation = some t ∧ q = pullback t p

/-- The universe that fills no cell. -/
def OpenmcRoot (es : List OpenMCCellElem) (u : Int) : Prop := (∃ x ∈ es, openmcUniverse x = some u) ∧ ∀ x ∈ es, openmcFill x ≠ some u

/-- The point lies in this cell of the OpenMC file. -/
def OpenmcFinds (sqrt : K → K) (io : NumIO K) (ss : List OpenmcSurface) (es : List OpenMCCellElem) (p : Point K) (x : OpenMCCellElem) : Prop :=
  ∃ root, OpenmcRoot es root ∧ Finds es (fun x u => openmcUniverse x = some u) openmcFill (InOpenmc sqrt io ss) (openmcMoves io) root p x

/-! ## PHITS -/

/-- The parameters of a cell card: from the first word that begins with a letter on. -/
def phitsParams : List Str → List (Sym Str)
  | _ :: m :: ws => (((if m = c!"0" then ws else ws.drop 1).dropWhile fun w => !((w.head?.map Char.isAlpha).getD false))).flatMap lexParens
  | _ => []

/-- The words that are not in parentheses. -/
def bareWords : Bool → List (Sym Str) → List Str
  | _, [] => []
  | false, .atom w :: ps => w :: bareWords false ps
  | false, .lp :: ps => bareWords true ps
  | true, .rp :: ps => bareWords false ps
  | b, _ :: ps => bareWords b ps

/-- The universe among words: behind `u=`, otherwise 0. -/
def wordsUniverse : List Str → Str
  | [] => c!"0"
  | ('u' :: '=' :: u) :: _ => u
  | _ :: ws => wordsUniverse ws

/-- The universe among parameters. -/
def paramUniverse (ps : List (Sym Str)) : Str := wordsUniverse (bareWords false ps)

/-- The words up to a closing parenthesis. -/
def upToClose : List (Sym Str) → List Str
  | .atom w :: ps => w :: upToClose ps
  | _ => []

/-- The fill among parameters: behind `fill=`, with the words in parentheses that may follow. -/
def paramFill : List (Sym Str) → Option (Str × List Str)
  | [] => none
  | .atom ('f' :: 'i' :: 'l' :: 'l' :: '=' :: u) :: .lp :: ps => some (u, upToClose ps)
  | .atom ('f' :: 'i' :: 'l' :: 'l' :: '=' :: u) :: _ => some (u, [])
  | _ :: ps => paramFill ps

/-- The transform that is given by no number, by the three numbers of a displacement, or by these and the nine numbers of a rotation. -/
def wordsTransform (io : NumIO K) (ws : List Str) : Option (Transform K) := do
  let ns ← ws.mapM io.parse
  transformOf (if ns = [] then [0, 0, 0] else ns.take 3) (if ns.drop 3 = [] then noRotation else ns.drop 3)

/-- The point lies in the cell. -/
def phitsInside (sqrt : K → K) (io : NumIO K) (scards : List (List Str)) (card : List Str) (p : Point K) : Prop :=
  ∃ name g, phitsRegion card = some (name, g) ∧ InPhits sqrt io scards g p

/-- The coordinates of a point in the universe that fills the cell. -/
def phitsMoves (io : NumIO K) (card : List Str) (p q : Point K) : Prop := ∃ f ws t, paramFill (phitsParams card) = some (f, ws) ∧ wordsTransform io ws = some t ∧ q = pullback t p

/-- The point lies in this cell of the PHITS file. -/
def PhitsFinds (sqrt : K → K) (io : NumIO K) (scards ccards : List (List Str)) (p : Point K) (card : List Str) : Prop :=
  Finds ccards (fun c u => paramUniverse (phitsParams c) = u) (fun c => (paramFill (phitsParams c)).map Prod.fst) (phitsInside sqrt io scards) (phitsMoves io) c!"0" p card

/-! ## SCONE -/

/-- The number of an entry. -/
def sconeNumber : SconeItem → Option Str
  | .dict _ items => match sconeValue c!"id" items with
    | some [id] => some id
    | _ => none
  | _ => none

/-- The cells that the entry for a universe lists. Universes that are displaced or rotated are not treated. -/
def sconeListed : SconeItem → Option (List Str)
  | .dict _ items =>
    if sconeValue c!"type" items = some [c!"cellUniverse"] ∧ sconeValue c!"origin" items = none ∧ sconeValue c!"rotation" items = none then
      match sconeValue c!"cells" items with
      | some (b :: ws) => if b = c!"(" ∧ ws.getLast? = some c!")" then some ws.dropLast else none
      | _ => none
    else none
  | _ => none

/-- The cell is in the universe: the entry for the universe lists it. -/
def sconeIn (ues : List SconeItem) (x : SconeItem) (u : Str) : Prop := ∃ i ∈ ues, ∃ ws n, sconeNumber i = some u ∧ sconeListed i = some ws ∧ sconeNumber x = some n ∧ n ∈ ws

/-- The universe that fills the root. -/
def sconeRoot : SconeItem → Option Str
  | .dict _ items =>
    if sconeValue c!"type" items = some [c!"rootUniverse"] then
      match sconeValue c!"fill" items with
      | some ['u' :: '<' :: u] => if u.getLast? = some '>' then some u.dropLast else none
      | _ => none
    else none
  | _ => none

/-- The universe that fills a cell. -/
def sconeFill : SconeItem → Option Str
  | .dict _ items =>
    match sconeValue c!"filltype" items, sconeValue c!"universe" items with
    | some [ty], some [u] => if ty = c!"uni" then some u else none
    | _, _ => none
  | _ => none

/-- The point lies in the cell. -/
def sconeInside (tanSq : K → K) (read : Str → Option K) (ses : List SconeItem) (x : SconeItem) (p : Point K) : Prop :=
  ∃ name g, sconeRegion x = some (name, g) ∧ InScone tanSq read ses g p

/-- The point lies in this cell of the SCONE file, if it lies inside the border of the root. -/
def SconeFinds (tanSq : K → K) (read : Str → Option K) (ses ces ues : List SconeItem) (p : Point K) (x : SconeItem) : Prop :=
  ∃ i ∈ ues, ∃ root, sconeRoot i = some root ∧ Finds ces (sconeIn ues) sconeFill (sconeInside tanSq read ses) (fun _ p q => q = p) root p x

end

end Csg.Spec
