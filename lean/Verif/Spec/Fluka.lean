import Mathlib.Algebra.Order.Field.Rat
import Verif.Model.Py

/-!
# FLUKA cards and materials, as in the FLUKA manual

A card has eight fields of ten columns: the keyword, six values, and a name.
-/

namespace Csg.Spec

/-- The text in a field of a card, without blanks. -/
def field (l : Str) (i : Nat) : Str := ((l.drop (10 * i)).take 10).filter (· ≠ ' ')

/-- The pairs of fraction and material of a COMPOUND card. -/
def compoundPairs (l : Str) : List (Str × Str) := ([1, 3, 5].map fun i => (field l i, field l (i + 1))).filter (· ≠ ([], []))

/-- The number of a decimal digit. -/
def digit (c : Char) : ℚ := (c.toNat - '0'.toNat : Nat)

/-- The value of a text with a sign or blank, one digit, a point, three digits, `e`, a sign and two digits. -/
def sciValue (s : Str) : Option ℚ :=
  match s with
  | [sg, a, '.', b, c, d, 'e', es, x, y] =>
    let m := digit a + digit b / 10 + digit c / 100 + digit d / 1000
    let e := 10 ^ ((x.toNat - '0'.toNat) * 10 + (y.toNat - '0'.toNat))
    some ((if sg = '-' then -1 else 1) * (if es = '-' then m / e else m * e))
  | _ => none

/-- Materials that are single isotopes, with mass number plus 1000 times the atomic number. -/
def flukaIsotopes : List (Nat × Str) :=
  [
    (1001, c!"HYDROG-1"), (1002, c!"DEUTERIU"), (1003, c!"TRITIUM"), (2003, c!"HELIUM-3"), (2004, c!"HELIUM-4"), (3006, c!"LITHIU-6"),
    (3007, c!"LITHIU-7"), (5010, c!"BORON-10"), (5011, c!"BORON-11"), (18040, c!"ARGON-40"), (38090, c!"90-SR"), (43099, c!"99-TC"),
    (53129, c!"129-I"), (54124, c!"124-XE"), (54126, c!"126-XE"), (54128, c!"128-XE"), (54129, c!"129-XE"), (54130, c!"130-XE"), (54131, c!"131-XE"),
    (54132, c!"132-XE"), (54134, c!"134-XE"), (54135, c!"135-XE"), (54136, c!"136-XE"), (55135, c!"135-CS"), (55137, c!"137-CS"),
    (90230, c!"230-TH"), (90232, c!"232-TH"), (92233, c!"233-U"), (92234, c!"234-U"), (92235, c!"235-U"), (92238, c!"238-U"), (94239, c!"239-PU"),
    (95241, c!"241-AM")]

/-- Materials that are elements of natural composition, with the atomic number. -/
def flukaElements : List (Nat × Str) :=
  [
    (1, c!"HYDROGEN"), (2, c!"HELIUM"), (3, c!"LITHIUM"), (4, c!"BERYLLIU"), (5, c!"BORON"), (6, c!"CARBON"), (7, c!"NITROGEN"), (8, c!"OXYGEN"),
    (9, c!"FLUORINE"), (10, c!"NEON"), (11, c!"SODIUM"), (12, c!"MAGNESIU"), (13, c!"ALUMINUM"), (14, c!"SILICON"), (15, c!"PHOSPHO"),
    (16, c!"SULFUR"), (17, c!"CHLORINE"), (18, c!"ARGON"), (19, c!"POTASSIU"), (20, c!"CALCIUM"), (21, c!"SCANDIUM"), (22, c!"TITANIUM"),
    (23, c!"VANADIUM"), (24, c!"CHROMIUM"), (25, c!"MANGANES"), (26, c!"IRON"), (27, c!"COBALT"), (28, c!"NICKEL"), (29, c!"COPPER"), (30, c!"ZINC"),
    (31, c!"GALLIUM"), (32, c!"GERMANIU"), (33, c!"ARSENIC"), (35, c!"BROMINE"), (36, c!"KRYPTON"), (38, c!"STRONTIU"), (40, c!"ZIRCONIU"),
    (41, c!"NIOBIUM"), (42, c!"MOLYBDEN"), (46, c!"PALLADIU"), (47, c!"SILVER"), (48, c!"CADMIUM"), (49, c!"INDIUM"), (50, c!"TIN"),
    (51, c!"ANTIMONY"), (53, c!"IODINE"), (54, c!"XENON"), (55, c!"CESIUM"), (56, c!"BARIUM"), (57, c!"LANTHANU"), (58, c!"CERIUM"),
    (60, c!"NEODYMIU"), (62, c!"SAMARIUM"), (64, c!"GADOLINI"), (65, c!"TERBIUM"), (71, c!"LUTETIUM"), (72, c!"HAFNIUM"), (73, c!"TANTALUM"),
    (74, c!"TUNGSTEN"), (75, c!"RHENIUM"), (77, c!"IRIDIUM"), (78, c!"PLATINUM"), (79, c!"GOLD"), (80, c!"MERCURY"), (82, c!"LEAD"),
    (83, c!"BISMUTH"), (98, c!"CALIFORN")]

/-- The material for a nuclide: its own name if it has one, otherwise that of its element. -/
def properName (n : Nat) : Option Str :=
  match flukaIsotopes.lookup n with
  | some s => some s
  | none => flukaElements.lookup (n / 1000)

/-- The materials that FLUKA defines itself. -/
def flukaPredefined : List Str :=
  [c!"BLCKHOLE", c!"VACUUM", c!"HYDROGEN", c!"HELIUM", c!"BERYLLIU", c!"CARBON", c!"NITROGEN", c!"OXYGEN", c!"MAGNESIU", c!"ALUMINUM", c!"IRON", c!"COPPER", c!"SILVER", c!"SILICON",
    c!"GOLD", c!"MERCURY", c!"LEAD", c!"TANTALUM", c!"SODIUM", c!"ARGON", c!"CALCIUM", c!"TIN", c!"TUNGSTEN", c!"TITANIUM", c!"NICKEL"]

end Csg.Spec
