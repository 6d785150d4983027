import Verif.Spec.Material
import Verif.Spec.Transform
import Verif.Model.Num
import Verif.Model.Cell

/-!
# Cards of the data block, as in the MCNP manual
-/

namespace Csg.Spec

/-- Five blanks at the start continue a card. -/
def FiveBlanks (l : Str) : Prop := ∃ t, l = c!"     " ++ t

/-- A line of text, with or without the newline at its end. -/
def Line (l : Str) : Prop := ∃ t, '\n' ∉ t ∧ (l = t ∨ l = t ++ c!"\n")

/-- Lines grouped into cards. -/
def DataCards (gs : List (List Str)) : Prop :=
  ∀ g ∈ gs, ∃ first more, g = first :: more ∧ ¬ FiveBlanks first ∧ (∀ l ∈ more, FiveBlanks l) ∧ ∀ l ∈ g, Line l

/-- The words of a card; a dollar begins a comment. -/
def cardWords (g : List Str) : List Str := g.flatMap fun l => split (l.takeWhile (· ≠ '$'))

/-- The line has the letter m and a digit after its blanks. -/
def LooksLikeMaterial (l : Str) : Prop := ∃ k d t, l = List.replicate k ' ' ++ 'm' :: d :: t ∧ isDigit d = true

/-- The first line of the card for material `n`. -/
def MaterialHead (l n : Str) : Prop :=
  n ≠ [] ∧ (∀ c ∈ n, isDigit c = true) ∧ ∃ k t, l = List.replicate k ' ' ++ 'm' :: n ++ t ∧ ∀ c, t.head? = some c → isSpace c = true

/-- A card for material `n`. -/
def IsMaterialCard (g : List Str) (n : Str) : Prop := ∃ first more, g = first :: more ∧ MaterialHead first n

/-- A card for transform `n`, beginning in the first column, without comment. -/
def IsTransformCard (g : List Str) (degrees : Bool) (n : Str) : Prop :=
  '*' ∉ n ∧ NoBlank n ∧ (∀ l ∈ g, '$' ∉ l) ∧ ∃ t more, g = (trName degrees n ++ t) :: more ∧ ∀ c, t.head? = some c → isSpace c = true
where NoBlank (n : Str) : Prop := ∀ c ∈ n, isSpace c = false

section
variable {K : Type} [Field K]

/-- A card for material `n` with nuclides and fractions as given; words with an equals sign are keywords. -/
def MaterialCardReads (io : NumIO K) (g : List Str) (n : Str) (entries : List (Str × Str)) (fracs : List K) : Prop :=
  IsMaterialCard g n ∧ ((cardWords g).drop 1).filter (fun w => '=' ∉ w) = entryWords entries ∧ List.Forall₂ (fun e x => fortranNumber io e.2 = .ok x) entries fracs

/-- A material with the entries of a card: each nuclide of the card, with the sum of its fractions. -/
def MaterialOf (n : Str) (entries : List (Str × Str)) (fracs : List K) (m : Material K) : Prop :=
  m.number = n ∧ (m.composition.map Prod.fst).Nodup ∧ (∀ nuc, nuc ∈ m.composition.map Prod.fst ↔ ∃ e ∈ entries, nuclideOf e.1 = nuc) ∧
    ∀ nuc x, (nuc, x) ∈ m.composition → x = given nuc entries fracs

/-- The transform given by 3, 9 or 12 numbers. The third row is left open for 9 numbers, see C41. -/
inductive TransformOf (cosDeg : K → K) (degrees : Bool) : List K → Transform K → Prop
  | three (x y z : K) : TransformOf cosDeg degrees [x, y, z] ⟨⟨x, y, z⟩, ⟨1, 0, 0⟩, ⟨0, 1, 0⟩, ⟨0, 0, 1⟩⟩
  | nine (x y z a1 a2 a3 b1 b2 b3 : K) (v3 : Vec3 K) :
      TransformOf cosDeg degrees [x, y, z, a1, a2, a3, b1, b2, b3] ⟨⟨x, y, z⟩, trRow cosDeg degrees a1 a2 a3, trRow cosDeg degrees b1 b2 b3, v3⟩
  | twelve (x y z a1 a2 a3 b1 b2 b3 c1 c2 c3 : K) :
      TransformOf cosDeg degrees [x, y, z, a1, a2, a3, b1, b2, b3, c1, c2, c3]
        ⟨⟨x, y, z⟩, trRow cosDeg degrees a1 a2 a3, trRow cosDeg degrees b1 b2 b3, trRow cosDeg degrees c1 c2 c3⟩

/-- A card for transform `n` with the given numbers. -/
def TransformCardReads (io : NumIO K) (g : List Str) (degrees : Bool) (n : Str) (values : List K) : Prop :=
  IsTransformCard g degrees n ∧ (values.length = 3 ∨ values.length = 9 ∨ values.length = 12) ∧
    List.Forall₂ (fun w v => io.float w = .ok v) ((cardWords g).drop 1) values

/-- The number an entry of a fill transform stands for. -/
def entryValue (io : NumIO K) : Entry K → Option K
  | .num x => some x
  | .txt s => io.parse s

/-- A point `p` of a filled cell is the point `q` of the universe: by the MCNP manual subtract the displacement, then take the products with the rotation rows. -/
def FillPoint (io : NumIO K) (c : Cell K) (p q : Point K) : Prop :=
  ∃ offset rotation t, c.offset = some offset ∧ c.rotation = some rotation ∧
    offset.map (entryValue io) = [some t.shift.x, some t.shift.y, some t.shift.z] ∧
    rotation.map (entryValue io) = [some t.v1.x, some t.v1.y, some t.v1.z, some t.v2.x, some t.v2.y, some t.v2.z, some t.v3.x, some t.v3.y, some t.v3.z] ∧ q = pullback t p

end

end Csg.Spec
