# Formal model of csg2csg: design and trusted base

csg2csg reads an MCNP deck, brings it to a code-neutral form (cells, surfaces, materials) and
writes decks for MCNP, Serpent, OpenMC, PHITS, FLUKA and SCONE. The model follows the Python
source in `/repo/csg2csg` function by function. Properties are listed in `properties.jsonl`,
the outcome per property in `MANIFEST.json`.

## Layout

* `lean/Verif/Model/*.lean` – the model. Each definition cites the file and lines it follows and
  says where it simplifies.
* `lean/Verif/Spec/*.lean` – small specifications that do not mention model helpers (meaning of a
  region expression, MCNP surface equations, solids of macrobodies, FLUKA reading rules, ...).
* `lean/Verif/Lemmas/*.lean` – helper lemmas.
* `lean/Verif/Props/*.lean` – the property theorems, one file per topic, each theorem followed by a
  concrete `example` that meets its hypotheses.

## How things are modelled

* **Text.** A Python `str` is a `List Char`. `split`, `find`, `rfind`, `replace`, slices, `strip`, `isspace`
  are defined on lists. White space is the ASCII white space of `str.split()`.
* **Numbers.** A float is an element of an arbitrary linearly ordered field `K`. Rounding, NaN, infinities
  and signed zero are *not* modelled. Square roots enter as a function with the law of a square root on
  non-negative numbers. `float(text)`/`str(float)` enter as a pair of functions; theorems that need it
  assume `float(str(x)) = x` and that `str(x)` is a non-empty token, both of which Python guarantees.
  Decimal literals have a concrete value (`Model/Num.lean`).
* **Exceptions** are values of `Except PyErr`. `sys.exit` is an exception too.
* **Loops that may not end** (`while` in the line formatter, complement expansion, compound cards) take fuel and
  return `none` when it is used up. Termination: some fuel suffices. Divergence: no fuel does.
* **Mutation.** Functions that change objects return the new object. Aliasing matters in one place: decks made by
  `from_input` share cell, surface and material objects. The run of several writers therefore threads one shared state.
* **Regions.** `Spec/Region.lean` has region expressions, their truth value for an assignment of senses to atoms and the
  grammar. `Model` items are parsed by a stack machine that is proved sound and complete for the grammar.
* **Point senses.** A surface has a sense (negative, on, positive) at each point, given by the sign of its polynomial;
  one-sheet cones and tori are given separately.

## Plan per property

| id | model | proof |
|---|---|---|
| C01 | `generalise` on coefficient lists with index errors | polynomial identity (`ring`) per type |
| C02 | `transform`: the 4x4 products entry by entry, then `simplify` | polynomial identity; counterexample for the xz-only quadric |
| C03 | `simplify` | refute (slice `[0:5]` misses the xz term); partial: xz coefficient zero |
| C04 | `classify` from tokens, all mnemonics | case per mnemonic against `Spec` equation |
| C05 | `sq` branch | `ring` |
| C06 | three-point plane | incidence by `ring`; sense by cases on the first nonzero of D, C, B, A |
| C07 | `edp` branch | refute for `x` (wired to y); partial for y, z |
| C08 | cone sheet coefficient in generalise, dedupe, writers | refute with two opposite nappes; partial: Serpent keeps it |
| C09 | `diff`, `reverse` | case split |
| C10, C11 | `bounding_box`, fold over surfaces | squares in an ordered field; induction on the list |
| C12–C14 | `explode_macrobody` with text of the new cards | half-space algebra; C13 refuted for negative aligned edges |
| C15 | facet replacement | RPP, BOX true; RCC refuted (end planes swapped) |
| C16 | `flatten` on the surface list with the counter | invariant by induction |
| C17 | token replacement | refuted for numbers that are suffixes; partial otherwise |
| C18 | cell `generalise` with in-place insertion | induction on the remaining tokens, region semantics |
| C19 | recorded surface set | refuted (token after a parenthesis is skipped); partial |
| C20 | `replace_surface` | induction |
| C21, C22 | `explode_nots` with fuel | well-founded induction on reference depth; divergence by an invariant |
| C23–C25 | `remove_duplicate_surfaces` with dictionaries as association lists | invariant: every removed surface maps to the last one of its class |
| C26, C27 | `classify`, `apply_boundary_conditions`, `update` | refute with concrete cards; partials |
| C28–C32 | text writers and lexers of the target codes | lexing the text gives back the symbols |
| C33, C34 | `mcnp_line_formatter` with fuel | induction on length; divergence witness |
| C35, C36 | decimal reader, `+` purge | value of digit strings; refute C36 |
| C37, C38 | block reader on lines | induction; refute C37 |
| C39, C40 | importances | refute C39 (n-1 copies); partial; induction |
| C41 | TR card | algebra; refute right-handedness (cross product) |
| C42–C47 | material cards, whole abundance table | induction on entries; kernel evaluation over the whole table; refutations |
| C48, C49 | `reorganise_materials` | invariant over the two loops, freshness by pigeonhole |
| C50 | `zaid_to_name` | decimal digit lemmas |
| C51, C53 | tables | whole finite table, `Int.emod` |
| C52 | writer and reader of material cards | text round trip |
| C54 | unused-universe loop | well-founded on number of cells, reachability induction |
| C55–C57 | universe construction, SCONE numbers | list induction; refute C57 |
| C58 | shared state run | refute with FLUKA before SCONE; partial for the other writers |
| C59–C62 | FLUKA writers | cases, induction, algebra; refutations for three-digit exponents, missing table entries, two-sheet cones |
| C63 | surface writer and reader | text round trip; refuted for sheets |
| C64 | argument handling | list induction |
| C65 | `mcnpTorus`, `updateSurface`, the box | algebra, square roots as a law |
| C66 | Serpent cell text with `trans` | lexing; point-by-point displacement |
| C67–C69 | surface writers of Serpent, OpenMC and SCONE | readers of the target codes per body (`Spec/SurfaceCodes`), rounding bound; refutations |
| C70 | cell parameters, `__interpret` and `__detect_keyword` | list lemmas on words, frame conditions; refutations |
| C71 | comment removal | induction on lines; refuted for indented comments |
| C72, C73 | `__get_material_cards`, `__get_transform_cards` | induction on lines; refutations |
| C74 | `__apply_fill_transformations` | induction on cells, point by point |
| C75 | FLUKA importances | arithmetic; refutations |
| C76, C77 | Serpent material writer and reader | text round trip; refutations |
| C78–C80 | OpenMC, SCONE, FLUKA, PHITS materials | per writer, atom counting as spec; refutations |
| C81 | `mcnp_line_formatter`, blank lines | invariant of the loop; refuted |
| C82 | `write_mcnp_cell` then `MCNPCellCard` | composition of C18, C28, C33, C70, C81 |
| C83 | `MCNPInput.write` then `MCNPInput.read` | composition of C63, C71, C72, C81, C82 |
| C84 | second half of `process`: regions | composition of C02, C16, C17, C21, C23, C24 with frames for the other steps |
| C85 | second half of `process`: everything else | composition of C11, C24, C27, C48, C74 |
| C86 | `SerpentInput.write_serpent` against Serpent's rules for comments and cards | texts of complete lines split independently; C29, C67, C77 for the cards |
| C87 | `SCONEInput.write_scone` against SCONE's dictionaries | words of complete lines feed a parser with a stack; C31, C55, C69, C79 for the entries |
| C88 | border of the root universe | fold over the cells; counterexamples |
| C89 | PHITS file: sections and cards | lines of wrapped cards; reading a section line by line |
| C90 | FLUKA file: bodies, regions, cards | C32, C59, C60, C61, C62, C75 line by line; reading free format and columns |
| C91 | OpenMC files: xml elements | mutual induction over trees: written, indented, and read back; C30, C54, C68, C78 |
| C92 | from the input text to each written text: points of cells | C84 composed with C83, C86, C87, C89, C90, C91 |
| C93 | processed decks are as the writers need them | invariants of reading composed with C17, C84, C85 |
| C94 | decks in which everything is there are processed; a macrobody in the outside cell is fatal | every step of `finishDeck` succeeds: C17, C21, C48, C27, C11, C23 |
| C95 | from the input text to each written text: materials and densities of cells | C44, C48, C85 composed with C83, C86, C87, C89, C90, C91 |
| C96 | conditions on the deck as read, for each code | C94 for the run, C93 for the processed deck, then C92 and C95; invariants of processing for names, fills, fractions and words |
| C97 | a surface card becomes a surface or raises; refuted | cases of `classify`; mnemonics that are parts of supported ones are finitely many |
| C98 | the search through nested universes finds the same cell and material in the MCNP file and in each written file; refuted for FLUKA | C96 for single cells and materials, and for each code the fields for universe, fill and transform of the cards it reads (C83, C86, C87, C89, C91); simulation between two searches by induction. A Serpent card `trans f` is read as subtracting its displacement |
| C99 | a text laid out as an MCNP file is read into a deck that has what its cards say, and cells have the same points | specification of a file from text to points (Spec/InputFile.lean), joined from C37, C40, C70, C72, C73 and the theorems on single surface cards (C01-C14). Planes through three points and surfaces around the y and z axes given by points are entries with the coefficients that `ByPoints` gives |
| C100 | a text that says what `f` says, where `f` meets conditions stated on `f` alone, is converted for each code, and cells have the points and the substances of `f` | joins C99 with C96: the conditions of C96 follow from conditions on what the cards say (Spec/ConvertibleFile.lean) |
| C101 | for a Serpent file as input, each file that is written has the materials of its cards in their order and nothing else | materials are read by C77; then C83, C86, C87, C89 and C91 without cells; refutations for FLUKA, geometry, densities and fractions (Model/SerpentRun.lean, Spec/SerpentRun.lean) |
| C102 | importances and the outside world, from the text of the input file to the files for MCNP, PHITS, FLUKA and OpenMC | C100 with C19 and C85 (which surfaces a cell lists and which become vacuum boundaries), then C83, C89, C90, C91; refutations for Serpent, complements, duplicates and FLUKA (Spec/Outside.lean) |
| C103 | points of nested universes, from the text of the input file to the written files | C98 composed with C100: the search in what the cards say (Spec/NestedFile.lean) agrees with the search in the deck that is read |
| C104 | importances change nothing but importances and boundaries | noninterference between two runs: every step of the processing and every writer maps decks that differ in importances and boundaries to results that do (Lemmas/Indifferent.lean) |
| C105 | the written MCNP file can be converted again any number of times | induction on the number of runs: the conditions on the input hold for the file that is read back (Lemmas/Again.lean), and the relation between the decks is transitive, for substances because a prepared material is not changed when it is prepared again |
| C106 | titles and message blocks change nothing | the run is a function of the lines after the title; a text that begins with a letter is neither a cell card nor a surface card (Lemmas/Message.lean), so that the title behind a message block cannot be read |
| C107 | two runs on the same input write the same files | only `__write_fluka_materials` visits a set of texts; its loops are shown to give permutations for permuted sets: names belong to one atomic number (whole table), `nameDict` has the same sums for the same names, and the COMPOUND loop depends on the length of the text only |
| C108 | surface cards with a wrong number of entries are refused | each classifier needs its first entries and nothing else; the table of the manual is compared with the classifiers mnemonic by mnemonic, for an arbitrary list of words |
| C109 | TR cards are read completely or refused | equivalence for an arbitrary list of words; two cards that agree in the used words are read alike |
| C110 | the order of the cards does not change what is described | permutations preserve the meaning of a file and the conditions of C100; then C100 for both files |
| C111 | upper and lower case do not matter | lower case commutes with the splitting into lines |
| C112 | other data cards change nothing | induction on the lines before the inserted ones, for each of the three searches; the blocks before do not depend on what follows |
| C113 | nothing is read after the blank line that ends the data block | C112 for a blank line and what follows it |
| C114 | the numbers of surfaces, cells and materials do not matter | truth values of words before and after agree, hence of geometries; C100 for both files |
| C115 | references to missing cards are refused | fields that flattening and complements keep; the sorted loop over materials; words `#n` stay until the exception |
| C116 | a TR card on all surfaces moves the model | the sense of a surface at a moved point; C100 for both files, matched cell by cell |
| C117 | how a geometry is written changes nothing | equivalent expressions have the same least solution; C100 for both files, matched cell by cell |
| C118 | only the ratios of the fractions of a material matter | proportional compositions are kept by reading, copying and assigning densities, and become equal when normalised |
| C119 | how a material card is written changes nothing | both cards give the same words without keywords; the cards before and after are read as before |
| C120 | how a TR card is written changes nothing | both cards are read to the same transform; the cards before and after are read as before |
| C121 | how a surface card is written changes nothing | a block of cards is read as the list of the texts of its cards; the surface read from a text depends on its first words and on the values of the others |
| C122 | how a cell card is written changes nothing | a cell is read from the words before the parameters, the value of the density and the set of the parameters |
| C123 | how the importances in the data block are written changes nothing | the words of the card are used only for the importances of the cells, and there only their values; the lines are skipped when TR cards and materials are read |
| C124 | a TR card that nothing refers to changes nothing | the transforms read agree but for its number; the surfaces of macrobodies keep the number of the macrobody, so no lookup asks for it |

## Trusted base

* Lean 4.33.0 kernel and the Mathlib definitions used in statements.
* Axioms: every theorem depends on at most `propext`, `Classical.choice`, `Quot.sound` (the gate replays every declaration and lists
  the axioms). No axiom of our own, no `sorry`, no `native_decide`, no `bv_decide`. Concrete witnesses use `decide +kernel`, which is
  kernel evaluation.
* That the model follows the Python. It was written by reading the source as text; the source was never run. Every definition cites
  its lines.
* The readings of the target formats written down in `Spec` (MCNP, FLUKA, OpenMC, Serpent, SCONE, PHITS manuals). They are specifications,
  not derived from anything.

### Assumptions that occur as hypotheses

| name | meaning | holds for Python floats? |
|---|---|---|
| `NumIO.Good io x` | `float(str(x)) = x`, the text is one word of at most 24 characters of a number | yes, for finite floats |
| `Spec.PrintsFloat` | the text of `x` has the shape of Python's `repr`, and the number is read from it | yes, for finite floats |
| `Spec.Exact` | printing and reading is exact for all numbers of the field | an idealisation: rounding is not modelled |
| `Spec.ReadsLiterals` | decimal literals have their exact value | up to rounding |
| square root laws | `sqrt x * sqrt x = x`, `sqrt x ≥ 0` for `x ≥ 0` | up to rounding |
| `Spec.Token`, `Spaced` | words of at most 60 characters, numbers of cells and surfaces of at most 50, separated by blanks | always in practice; the wrapping theorems show what happens otherwise (C33, C34, C81) |

Each assumption is met by a concrete instance (`Spec/Sample.lean`, or the `example` beside the theorem).

## Disagreements between the code and the properties

Each line is a theorem with a concrete witness, or a general statement of failure. The theorem with suffix `_partial` of the same
property says how far the claim holds.

| id | what the code does | theorem |
|---|---|---|
| C02 | a quadric with only the x-z term collapses to a plane of zeros after a TR; a torus with TR raises `IndexError` | `C02_refuted`, `C02_torus_fails` |
| C03 | `simplify` tests the slice `[0:5]`, so the x-z coefficient is not looked at | `C03_refuted` |
| C07 | point-defined `x` surfaces are put around the y axis; a card with one pair is dropped | `C07_refuted`, `C07_one_pair_dropped` |
| C08 | the sheet selector of a cone is ignored by generalise, comparison and the MCNP writer | `C08_refuted` |
| C13 | a BOX with edges along the axes in negative direction becomes empty | `C13_refuted` |
| C15 | facets 2 and 3 of an RCC are exchanged | `C15_refuted` |
| C17 | with macrobodies 5 and 15, the facet `15.1` becomes a facet of body 5 | `C17_refuted` |
| C19 | the surface directly after `(` is not recorded | `C19_refuted` |
| C22 | cells that are complements of each other make the reader loop for ever | `C22_refuted`, `C22_cycle_diverges` |
| C23 | upper and lower sheet of one cone are merged | `C23_refuted` |
| C25 | the reflecting one of two equal planes may be removed | `C25_refuted` |
| C26 | no card is ever read as reflecting, white or periodic | `C26_refuted` |
| C27 | vacuum boundaries missed after `(`; a graveyard made from a macrobody stops the program | `C27_refuted`, `C27_fails` |
| C32 | FLUKA: complement of a single surface gives a sign before a blank | `C32_refuted` |
| C34 | wrapping never ends for a blank followed by 71 characters | `C34_wrapping_diverges` |
| C36 | `1.0+2` is read as 1.02 | `C36_refuted` |
| C37 | a line that begins with `$` becomes a card | `C37_refuted` |
| C39 | `nR` makes n-1 copies; none if a card of another particle comes first | `C39_refuted`, `C39_order_refuted` |
| C41 | third axis of a two-vector TR has the wrong hand | `C41_refuted` |
| C44 | natural carbon is lost beside carbon 12 | `C44_refuted` |
| C45 | expanded fractions do not sum to the original, for every element | `C45_refuted` |
| C47 | elements without natural nuclides vanish | `C47_refuted` |
| C49 | a cell with an undefined material gets the copy of another one | `C49_refuted` |
| C50 | OpenMC names lose the hundreds of the mass number up to fluorine | `C50_refuted` |
| C52 | a material without nuclides swallows the next card | `C52_refuted_empty` |
| C54 | without a cell in universe 0 one unused universe is left | `C54_refuted` |
| C56, C57 | SCONE: `u=-3` has no universe; a fill is never displaced | `C56_refuted`, `C57_refuted` |
| C58 | writers change the shared deck; the default run fails for every deck with a mass density and a nuclide FLUKA knows | `C58_all_fails`, `C58_refuted_cone`, `C58_refuted_material`, `C58_refuted_twice` |
| C60 | a fraction with a three-digit exponent makes the FLUKA writer loop | `C60_refuted` |
| C61 | selenium dropped, U-236 stops the program, Tc-98 becomes Tc-99 | `C61_refuted` |
| C62 | every two-sheet cone becomes a single point in FLUKA and is overwritten in the deck | `C62_refuted`, `C62_two_sheets`, `C62_cone_overwritten` |
| C63 | a one-sheet cone comes back as a double cone | `C63_refuted` |
| C64 | order of the list instead of fixed order, repeated names twice, substrings accepted | `C64_refuted` |
| C67 | Serpent: six decimals destroy a narrow cone | `C67_refuted` |
| C68 | OpenMC: the sheet selector is dropped | `C68_refuted` |
| C69 | SCONE: tori have no dictionary; cones are cut at 10^10 | `C69_torus`, `C69_refuted` |
| C70 | `imp:n=1e-3` is read as 1; `imp:p` and two blanks before `=` stop the program; a letter u in a parameter name is a universe | `C70_refuted`, `C70_refuted_failures`, `C70_refuted_letter` |
| C71 | an indented comment is a cell card | `C71_refuted` |
| C72 | the second line of a tally comment that looks like `m2` is a material | `C72_refuted` |
| C73 | TR cards with a comment, not in the first column, or at the end of the file | `C73_refuted_comment`, `C73_refuted_column`, `C73_refuted_end` |
| C75 | FLUKA: importance 0 becomes importance 1; values below 10^-4 | `C75_refuted_zero`, `C75_refuted_range` |
| C76 | Serpent: the number of a material becomes its name | `C76_refuted_number` |
| C77 | Serpent reader: what follows a material becomes nuclides, lines are glued, repeated nuclides lost | `C77_refuted_following`, `C77_refuted_glued`, `C77_refuted_repeated` |
| C79 | SCONE: mass fractions written as atom densities | `C79_refuted_mass`, `C79_refuted_negative` |
| C81 | wrapping may leave a line of blanks, which ends the block | `C81_refuted_blank_line` |
| C82 | an importance with exponent comes back as 1 | `C82_refuted_exponent` |
| C83 | boundary conditions never come back | `C83_refuted_boundary` |
| C87, C88 | SCONE: a torus makes the file unreadable; the border is surface 0, a cell number or another surface if the outside is not one positive surface | `C87_refuted_torus`, `C88_refuted_box`, `C88_refuted_complement`, `C88_refuted_material` |
| C89 | PHITS: one-sheet cones become double cones; a material without nuclides runs into the next card, so that neither is defined. Not a theorem: PHITS wants material -1 for the outside world, which is never written | `C89_refuted_cone`, `C89_refuted_material` |
| C90 | FLUKA: no body is written for a torus; a density with more than ten characters moves the material name out of its field; the unit of the density is lost | `C90_refuted_torus`, `C90_refuted_density`, `C90_refuted_units` |
| C91 | OpenMC: a white boundary is written as vacuum, see also C54 and C68 | `C91_refuted_white` |
| C94 | an outside cell that names a macrobody (`2 0 1 imp:n=0` with `1 rcc ...`) always ends in an exception: the list of the cell keeps the number of the macrobody (MCNPInput.py 1156-1161) | `C94_refuted_graveyard` |
| C97 | cards with an unknown mnemonic, among them the macrobodies rhp, hex, rec, trc, ell, wed and arb, and `x`, `y`, `z` cards with two or six numbers leave a surface without number and type (MCNPSurfaceCard.py 879-888, 1021-1022). The written files refer to missing surfaces, and in the MCNP and PHITS files the next surface stands on the same line | `C97_refuted_unknown`, `C97_refuted_macrobodies`, `C97_refuted_points`, `C97_refuted_serpent`, `C97_refuted_mcnp` |
| C98 | FLUKA files have no universes: everything in a filled cell lies in two regions (FLUKACellCard.py). SCONE files leave out displacements and rotations of fills (SCONECellCard.py 51-52). Cells with `u=-3` are missing in OpenMC files, and `u=03` with `fill=3` gives two different universes in Serpent files | `C98_refuted_fluka`, `C98_refuted_scone`, `C98_refuted_openmc`, `C98_refuted_serpent` |
| C99 | a surface card with a part of the name of a macrobody as its mnemonic (`rp`, `bo`, `cc`) stops the program with a NameError, since MCNPSurfaceCard.py 984 uses `sys` without importing it | `classifyMacrobodyTypes` (Model/SurfaceCard.lean) |
| C101 | with a Serpent file as input, writing for FLUKA stops with a TypeError as soon as there is a material, since FLUKAMaterialCard.py 60 adds the integer number of the material to a string; the default of writing for all codes therefore never finishes | `serpentFluka` (Model/SerpentRun.lean) |
| C101 | surfaces and cells of a Serpent file are not read, and no error is raised; files for MCNP and PHITS have no densities, as these stand on cell cards only | `convertSerpent` (Model/SerpentRun.lean) |
| C101 | fractions of a Serpent file are not normalised, and the SCONE writer multiplies a density of atoms by them, so that the total density is wrong by the sum of the fractions | `sconeDensity`, `writeSconeMaterial` |
| C101 | a Serpent material with the density `sum` stops the program with a ValueError | `getSerpentMaterial` (Model/MaterialWriters.lean) |
| C102 | the Serpent file of a deck does not depend on the importances: the outside world is written as an ordinary void cell | `writeSerpentCell`, `C102_refuted_serpent` |
| C102 | if the outside world is written as the complement of other cells (`#1`), no surface of the OpenMC file is a vacuum boundary | `applyBoundaryConditions`, `C102_refuted_complement` |
| C102 | of two equal surfaces the later one is kept with its own boundary; if only the earlier one bounds the outside world the vacuum boundary is lost (in runs without `--quick`) | `dedupe`, `C102_refuted_duplicate` |
| C102 | FLUKA: a cell with importance zero that has a material is not made a black hole | `flukaMat`, `C102_refuted_fluka` |
| C103 | the TR number `0` after a fill means `no transformation` to the code, also if there is a TR card with this number | `applyUniverseTransformations`; excluded by `NumberedTransforms` |
| C104 | an importance decides whether the run finishes: a cell around a macrobody can be converted with importance one but not with importance zero | `C104_refuted_success`; the cell still lists the number of the macrobody after it was replaced (`C27_fails`) |
| C105 | the text of the MCNP file is not a fixed point of the program: the comment that names a copied material is lost with the second run | `C105_refuted_text`; geometry and substances stay (`C105_deck_partial`) |
| C106 | a message block ended by a blank line, as the MCNP manual has it, makes the program read the title as a card; unless the title begins with c, the run ends with an exception | `C106_refuted_message`, `C106_message_fails` |
| C106 | a title that contains the word `message` makes the program drop the line after it, the first cell, without an exception | `C106_refuted_title`, `C106_line_lost` |
| C107 | the FLUKA file lists elements and constituents in an order that differs from run to run, as does a SCONE file written after it | `C107_refuted`; the meaning is the same, `C107_run_partial` |
| C108 | entries after those that a mnemonic takes are not looked at: `px 3 abc` is the plane x = 3; an entry after the selector of a cone makes it a cone with two sheets | `C108_refuted`, `C108_refuted_sheet`, and `C108_extra` in general |
| C109 | a TR card with a number of entries other than 3, 9, 12 and 13 (MCNP allows 5 and 6 too) is taken for a displacement with a warning, and the thirteenth entry, which reverses the displacement, is ignored | `C109_lost`, `C109_last`, `C109_refuted`, `C109_refuted_last` |
| C110 | a TR card that is the last card of the file raises an IndexError, in another order the same cards are converted | `C110_refuted` |
| C112 | the letters `imp` anywhere in the data block, as in the word `simple` of a comment for a tally, are taken for an importance card; an IndexError follows | `C112_refuted` |
| C113 | the blank line that ends the data block is passed over: a material after it replaces the one before it | `C113_read_on`, `C113_refuted` |
| C114 | with another number of a macrobody a cell becomes empty: facet 15.1 is replaced as a facet of body 5 | `C114_refuted` |
| C115 | a missing material takes the composition of another if this is used with two densities: its copy gets the missing number, and the density of the cell with the missing material | `C115_refuted_material` |
| C115 | missing surfaces, universes and TR cards of surfaces are accepted | `C115_refuted_surface`, `C115_refuted_universe`, `C115_refuted_transform` |
| C116 | a moved surface `gq` whose only term of second degree is `xz` becomes a plane | `C116_refuted` |
| C117 | with parentheses around the geometry of the outside, OpenMC gets no vacuum boundary | `C117_refuted` |
| C118 | if all cells are void, fractions are not normalised | `C118_refuted` |
| C119 | `nlib 70c` and `nlib = 70c` on a material card raise an exception | `C119_refuted` |
| C120 | a comment on a TR card with twelve numbers removes the rotation | `C120_refuted` |
| C121 | a surface card continued with `&`, or with a number such as `3d0`, ends the run with an exception | `C121_refuted` |
| C122 | an importance 10 written as `1e1` becomes 1 | `C122_refuted` |
| C123 | importances `5 2r 0` are read as 5, 5, 0, and the outside world keeps the importance 1 | `C123_refuted` |
| C124 | a TR card that nothing refers to, as the last card of the file, ends the run with IndexError | `C124_refuted` |

## Parts that are modelled

All code that can be reached from `__main__.main`: reading MCNP and Serpent decks, all passes over the deck, all six writers, and the
loop over the output codes in `__main__` (`Model/Process.lean` and `Model/Outputs.lean` put the parts together).

Simplifications (also said at the definitions):

* `lower` acts on the letters A to Z only; `readlines` ends lines at the line feed only.
* For a zero vector NumPy goes on with `nan`; the model raises an error.
* `int(float(nuc) / 1000)` is exact division.
* The loop over `$` comments in `__interpret` is left out: the callers have removed them.
* A density that was never assigned counts as zero.
* A file is the text that a writer that returns has written. Files left half written by an exception are not modelled.
* The serialisation in `xml.etree` (escapes, order of attributes as given) is modelled after the Python library, versions 3.8 and later, which is not part of the repository. A carriage return in an attribute is excluded.

## Parts that are not modelled

* Floating-point rounding, NaN, infinities, signed zero.
* File system access (`mkdir`, `open`), `argparse` itself, logging and printed warnings, `__str__` methods.
* Code that is never called: `is_cell_card`, `is_surface_card`, `angle_from_rotmatrix`, `rotmatrix_from_angle`, `__simplify_cone`,
  `__simplify_cones`, `__macro_rcc_cylinder`, the first `__get_transform_cards` (MCNPInput.py 151-162, overridden by the second),
  `__make_transform_card`, `__get_weight_windows` (does nothing), `Vector.add`, `Vector.subtract`, `get_cell_with_id`, `set_shift`,
  `__is_sanitised`.

## Mutation testing

`seeded/LOG.jsonl` has one line per attempt. In a copy of the project one definition of the model is edited as a realistic mistake (a
sign, an index, a missing branch, an exchanged order, an off-by-one) and everything is rebuilt. The line lists the theorems that no
longer prove. When an edit made a claim false but nothing failed, the theorem was tightened or a new one was added, and the edit was
tried again; the line then names the tightened theorems. Edits that do not change the behaviour are marked as such.
