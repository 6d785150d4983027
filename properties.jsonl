{"id": "C01", "title": "Rewriting a surface as a general quadric keeps every half-space", "statement": "Calling generalise() on a plane, sphere, axis-parallel cylinder, two-sheet cone or general quadric yields a GENERAL_QUADRATIC card whose polynomial takes, at every point of space, exactly the value of the defining function of the original card. The sense (positive, negative, on) of every point is therefore unchanged.", "quantifier": "for every coefficient list of the card's type and every point of space", "why_tests_cant": "Coefficients and points range over infinite sets; a sampled point cannot exclude a wrong cross term.", "anchors": ["csg2csg/SurfaceCard.py:SurfaceCard.generalise"]}
{"id": "C02", "title": "A TR card moves a surface rigidly and keeps its sense", "statement": "After transform(tr) on a non-torus surface, a point p has a given sense with respect to the new card exactly when the point obtained by undoing the displacement and applying the rotation rows of the TR card has that sense with respect to the original card.", "quantifier": "for every non-torus surface, every TR card (any shift, any three rotation vectors), every point", "why_tests_cant": "Six-term matrix products over the reals; tests pick a handful of rotations and surfaces.", "anchors": ["csg2csg/MCNPSurfaceCard.py:MCNPSurfaceCard.transform", "csg2csg/SurfaceCard.py:SurfaceCard.simplify"]}
{"id": "C03", "title": "Simplifying a quadric to a plane keeps the half-spaces", "statement": "simplify() replaces a general quadric by a plane only if the quadric is that plane: the sense of every point is the same before and after.", "quantifier": "for every quadric and every point", "why_tests_cant": "Only quadrics with a particular zero pattern are affected; example decks do not contain them.", "anchors": ["csg2csg/SurfaceCard.py:SurfaceCard.simplify"]}
{"id": "C04", "title": "Standard surface mnemonics denote the MCNP equations", "statement": "Reading a surface card with mnemonic p(4 values), px, py, pz, so, s, sx, sy, sz, sph, cx, cy, cz, c/x, c/y, c/z, kx, ky, kz, k/x, k/y, k/z (two-sheet), gq, and sq gives a card whose polynomial is the one the MCNP manual assigns to the mnemonic.", "quantifier": "for every mnemonic of the list, all coefficient values, every point", "why_tests_cant": "Each mnemonic covers infinitely many coefficient tuples; a permuted coefficient only shows on asymmetric data.", "anchors": ["csg2csg/MCNPSurfaceCard.py:MCNPSurfaceCard.classify", "csg2csg/MCNPSurfaceCard.py:MCNPSurfaceCard.__classify_general_planes", "csg2csg/MCNPSurfaceCard.py:MCNPSurfaceCard.__classify_xyz_planes"]}
{"id": "C05", "title": "The SQ special quadric expands to the right general quadric", "statement": "Reading an sq card with coefficients A..G and centre (x,y,z) gives a general quadric equal at every point to A(X-x)^2+B(Y-y)^2+C(Z-z)^2+2D(X-x)+2E(Y-y)+2F(Z-z)+G.", "quantifier": "for all ten coefficients and every point", "why_tests_cant": "An algebraic identity in 13 real variables.", "anchors": ["csg2csg/MCNPSurfaceCard.py:MCNPSurfaceCard.__classify_gq"]}
{"id": "C06", "title": "The plane through three points contains them and has MCNP's sense", "statement": "Reading p with nine values gives a plane that contains the three points. If the points are not collinear the plane is non-degenerate and has MCNP's sense: the origin is on the negative side; if the plane passes through the origin then the leading nonzero coefficient among z, y, x (in that order) is positive.", "quantifier": "for every triple of points", "why_tests_cant": "Orientation depends on which of D, C, B, A vanish; all degenerate combinations must be covered for all reals.", "anchors": ["csg2csg/MCNPSurfaceCard.py:MCNPSurfaceCard.__classify_general_planes"]}
{"id": "C07", "title": "X, Y, Z point-defined surfaces pass through their points around the named axis", "statement": "Reading x, y or z with two coordinate pairs (a1 r1 a2 r2) gives a plane, cylinder or cone symmetric about the named axis that contains the circles of radius ri at axial position ai.", "quantifier": "for every pair of coordinate pairs and each of the three mnemonics", "why_tests_cant": "One mnemonic can be wired to another axis while the other two work.", "anchors": ["csg2csg/MCNPSurfaceCard.py:MCNPSurfaceCard.__classify_edp", "csg2csg/MCNPSurfaceCard.py:MCNPSurfaceCard.__define_edp_2coord"]}
{"id": "C08", "title": "One-sheet cones keep their sheet", "statement": "A kx/ky/kz/k/x/k/y/k/z card with a sheet selector (+1 or -1) denotes one nappe. Generalising, de-duplicating or writing the card for a code that has sheets keeps the selected nappe: two cards selecting opposite nappes are never identified.", "quantifier": "for every cone card with a sheet selector", "why_tests_cant": "The sheet selector matters only at points on the other nappe.", "anchors": ["csg2csg/SurfaceCard.py:SurfaceCard.generalise", "csg2csg/MCNPInput.py:MCNPInput.__remove_duplicate_surfaces", "csg2csg/MCNPSurfaceCard.py:mcnp_cone_x"]}
{"id": "C09", "title": "diff() answers same/inverse exactly", "statement": "For two generalised quadrics, diff reports (True, False) only if the senses of all points agree and (True, True) only if the senses of all points are opposite; it reports (False, False) only if the coefficient lists are neither equal nor opposite. Neither card is changed by the comparison.", "quantifier": "for every pair of quadrics and every point", "why_tests_cant": "Pairs of quadrics are infinite; a temporary in-place reversal must be undone on every branch.", "anchors": ["csg2csg/SurfaceCard.py:SurfaceCard.diff", "csg2csg/SurfaceCard.py:SurfaceCard.reverse"]}
{"id": "C10", "title": "Surface bounding boxes contain the surface", "statement": "For an axis-normal plane, a sphere or an axis-parallel cylinder with non-negative radius, every point of the surface lies inside the extent reported by bounding_box() along each axis in which the surface is bounded.", "quantifier": "for all coefficients and all points on the surface", "why_tests_cant": "Containment is a statement about all points of a continuous surface.", "anchors": ["csg2csg/SurfaceCard.py:SurfaceCard.bounding_box"]}
{"id": "C11", "title": "The problem box contains the origin and every surface box", "statement": "The bounding coordinates computed for a deck contain (0,0,0) and the box of every surface in the deck, and are no larger than the smallest such box.", "quantifier": "for every surface list", "why_tests_cant": "A fold over a list of any length.", "anchors": ["csg2csg/MCNPInput.py:MCNPInput.__generate_bounding_coordinates"]}
{"id": "C12", "title": "RPP macrobodies explode to the same solid", "statement": "The cell description that replaces -n for an RPP macrobody n holds exactly at points strictly inside the box, the description that replaces n holds exactly at points strictly outside.", "quantifier": "for all six bounds and every point", "why_tests_cant": "Six half-spaces with alternating senses; a swapped sense only shows for some points.", "anchors": ["csg2csg/MCNPInput.py:MCNPInput.explode_macrobody"]}
{"id": "C13", "title": "BOX macrobodies explode to the same solid", "statement": "For a BOX with three mutually orthogonal edge vectors the replacement of -n holds exactly at the points v + s1 a1 + s2 a2 + s3 a3 with all 0 < si < 1, and the replacement of n exactly where some si is < 0 or > 1.", "quantifier": "for every corner, every orthogonal edge triple (aligned with the axes or not), every point", "why_tests_cant": "The axis-aligned shortcut and the general path must both be right for all signs of the edges.", "anchors": ["csg2csg/MCNPInput.py:MCNPInput.explode_macrobody", "csg2csg/MCNPSurfaceCard.py:MCNPSurfaceCard.__classify_box"]}
{"id": "C14", "title": "RCC macrobodies explode to the same solid", "statement": "The replacement of -n for an RCC holds exactly at the points whose distance from the axis is below the radius and whose projection lies strictly between the end planes; the replacement of n exactly at the points strictly outside.", "quantifier": "for every base point, every nonzero axis vector, every radius, every point", "why_tests_cant": "Ten quadric coefficients depending on nine reals through a normalised direction.", "anchors": ["csg2csg/MCNPInput.py:MCNPInput.__macro_rcc_cylinder_arbitrary", "csg2csg/MCNPInput.py:MCNPInput.explode_macrobody"]}
{"id": "C15", "title": "Macrobody facet numbers select MCNP's facets", "statement": "A reference n.k to facet k of an RPP, BOX or RCC is replaced by the half-space bounded by the facet with that number in the MCNP manual, and the negative side of the facet is the side of the body.", "quantifier": "for every macrobody of the three kinds and every legal facet number", "why_tests_cant": "A swapped pair of facets is invisible unless that pair is referenced asymmetrically.", "anchors": ["csg2csg/MCNPInput.py:MCNPInput.explode_macrobody", "csg2csg/MCNPInput.py:MCNPInput.__flatten_macrobodies"]}
{"id": "C16", "title": "Flattening introduces only fresh surface numbers", "statement": "After macrobody flattening no macrobody is left in the surface list, all surface numbers that were distinct stay distinct, ordinary surfaces keep number and definition, and every new surface has a number larger than any number in the deck.", "quantifier": "for every surface list with distinct numbers, any number and order of macrobodies", "why_tests_cant": "Number allocation is a history property over arbitrarily many explosions.", "anchors": ["csg2csg/MCNPInput.py:MCNPInput.__flatten_macrobodies", "csg2csg/MCNPInput.py:MCNPInput.__make_new_plane"]}
{"id": "C17", "title": "Flattening keeps every cell's region", "statement": "After macrobody flattening each cell holds at exactly the points at which it held before, a reference to a macrobody or to one of its facets meaning the solid or the facet half-space.", "quantifier": "for every deck with macrobodies and every point", "why_tests_cant": "References are found by text matching; numbers that are suffixes of one another must not be confused.", "anchors": ["csg2csg/MCNPInput.py:MCNPInput.__flatten_macrobodies"]}
{"id": "C18", "title": "The interpreted cell denotes the region on the card", "statement": "Interpreting the geometry tokens of a cell card (inserting AND, translating : and #) gives a description with the same truth value as the card at every point. Interpretation fails only if the token list is empty or ends with ':', '#' or '('.", "quantifier": "for every token list and every assignment of senses to surfaces", "why_tests_cant": "Token lists are unbounded and the insertion runs inside a list being modified.", "anchors": ["csg2csg/MCNPCellCard.py:MCNPCellCard.generalise"]}
{"id": "C19", "title": "A cell's surface set lists every surface it refers to", "statement": "After a cell card is read, cell_surface_list contains the number of every surface that occurs in the geometry description.", "quantifier": "for every geometry token list", "why_tests_cant": "Which tokens are recorded depends on neighbouring tokens.", "anchors": ["csg2csg/MCNPCellCard.py:MCNPCellCard.generalise"]}
{"id": "C20", "title": "Renaming a surface in a cell changes only that surface", "statement": "replace_surface(new, old, reverse) replaces every occurrence of the number old by new, with the sign kept (or flipped when reverse is given), leaves all other entries alone, and so the cell holds at a point exactly if it held before with the sense of old read from new.", "quantifier": "for every description, every pair of numbers, both values of reverse", "why_tests_cant": "Sign and substring errors depend on values of numbers and positions.", "anchors": ["csg2csg/CellCard.py:CellCard.replace_surface"]}
{"id": "C21", "title": "#n complements expand to the complement of cell n", "statement": "If cell complement references are acyclic and refer to existing cells, expansion terminates, leaves no #n reference, and every cell then holds exactly at the points at which it held when #n was read as the complement of cell n.", "quantifier": "for every set of cells with acyclic references of any depth", "why_tests_cant": "Termination and correctness over all reference graphs.", "anchors": ["csg2csg/MCNPInput.py:MCNPInput.__explode_nots", "csg2csg/MCNPInput.py:MCNPInput.__split_nots"]}
{"id": "C22", "title": "Cell complement expansion always terminates", "statement": "Expansion of #n references ends (with a result or an error) for every deck, including decks in which complements refer to each other in a cycle.", "quantifier": "for every set of cells", "why_tests_cant": "Divergence cannot be observed by a finite run.", "anchors": ["csg2csg/MCNPInput.py:MCNPInput.__explode_nots"]}
{"id": "C23", "title": "Duplicate removal keeps every cell's region", "statement": "After removal of duplicate surfaces each cell holds at exactly the points at which it held before.", "quantifier": "for every deck with distinct surface numbers, every chain of duplicates, and every point", "why_tests_cant": "Chains of duplicates and inverted duplicates combine; each deck exercises one combination.", "anchors": ["csg2csg/MCNPInput.py:MCNPInput.__remove_duplicate_surfaces"]}
{"id": "C24", "title": "Duplicate removal leaves no dangling reference and no duplicate", "statement": "After removal of duplicate surfaces every number used in a cell that named a surface before names a surface in the list, no number is new, and no two remaining surfaces are duplicates.", "quantifier": "for every deck", "why_tests_cant": "Chains of replacements of any length.", "anchors": ["csg2csg/MCNPInput.py:MCNPInput.__remove_duplicate_surfaces"]}
{"id": "C25", "title": "Duplicate removal keeps boundary conditions", "statement": "If a removed surface carried a boundary condition then the surface that replaces it carries that condition.", "quantifier": "for every deck and every pair of duplicates", "why_tests_cant": "Needs a duplicate pair in which only one has the condition.", "anchors": ["csg2csg/MCNPInput.py:MCNPInput.__remove_duplicate_surfaces", "csg2csg/MCNPInput.py:MCNPInput.process"]}
{"id": "C26", "title": "Reflecting surfaces stay reflecting", "statement": "A surface card whose number is prefixed with '*' is read as a reflecting surface and written as one.", "quantifier": "for every surface card with the prefix", "why_tests_cant": "Every mnemonic and number shares the path; the condition is visible only in the written boundary.", "anchors": ["csg2csg/MCNPSurfaceCard.py:MCNPSurfaceCard.classify"]}
{"id": "C27", "title": "Zero-importance cells get vacuum boundaries", "statement": "Every surface that occurs in the description of a cell with zero neutron importance has the vacuum boundary condition after the deck is read, and reading the deck does not fail.", "quantifier": "for every deck", "why_tests_cant": "Depends on the position of parentheses and on macrobody expansion history.", "anchors": ["csg2csg/MCNPInput.py:MCNPInput.__apply_boundary_conditions", "csg2csg/MCNPCellCard.py:MCNPCellCard.update"]}
{"id": "C28", "title": "MCNP/PHITS cell text denotes the same region", "statement": "The geometry text written for a cell by the MCNP and PHITS writers, read by MCNP's rules, is the same token sequence as the cell description, so it holds at the same points.", "quantifier": "for every interpreted description", "why_tests_cant": "Concatenated text without separators can merge tokens for some neighbour pairs only.", "anchors": ["csg2csg/MCNPCellCard.py:write_mcnp_cell", "csg2csg/MCNPCellCard.py:mcnp_op_from_generic", "csg2csg/PhitsInput.py:PhitsInput.__write_phits_cells"]}
{"id": "C29", "title": "Serpent cell text denotes the same region", "statement": "The geometry text written for a cell by the Serpent writer, read by Serpent's rules, holds at the same points as the cell description.", "quantifier": "for every interpreted description", "why_tests_cant": "As above; operators are written without surrounding blanks.", "anchors": ["csg2csg/SerpentCellCard.py:write_serpent_cell"]}
{"id": "C30", "title": "OpenMC region text denotes the same region", "statement": "The region attribute written by the OpenMC writer, read by OpenMC's rules (~, |, blank, parentheses), holds at the same points as the cell description.", "quantifier": "for every interpreted description", "why_tests_cant": "As above.", "anchors": ["csg2csg/OpenMCCell.py:write_openmc_cell", "csg2csg/OpenMCCell.py:openmc_op_from_generic"]}
{"id": "C31", "title": "SCONE cell text denotes the same region", "statement": "The surface text written by the SCONE writer, read by its rules, holds at the same points as the cell description.", "quantifier": "for every interpreted description", "why_tests_cant": "As above.", "anchors": ["csg2csg/SCONECellCard.py:write_scone_cell"]}
{"id": "C32", "title": "FLUKA region text denotes the same region", "statement": "The region text written by the FLUKA writer, read by FLUKA's rules (+body inside, -body outside, | union, blank intersection), holds at the same points as the cell description.", "quantifier": "for every interpreted description", "why_tests_cant": "Sense is inverted relative to MCNP and text is post-processed with substitutions.", "anchors": ["csg2csg/FLUKACellCard.py:write_fluka_cell", "csg2csg/FLUKACellCard.py:fluka_op_from_generic"]}
{"id": "C33", "title": "Line wrapping keeps the tokens, the width and the continuation rule", "statement": "If no token is longer than 70 characters, mcnp_line_formatter returns a text with the same token sequence in which no line exceeds 80 columns and every line after the first begins with at least five blanks.", "quantifier": "for every input line", "why_tests_cant": "Line lengths and blank positions are unbounded.", "anchors": ["csg2csg/MCNPFormatter.py:mcnp_line_formatter"]}
{"id": "C34", "title": "Line wrapping always terminates", "statement": "mcnp_line_formatter returns for every input string.", "quantifier": "for every string", "why_tests_cant": "Divergence cannot be observed by a finite run and needs a long token after a wrap.", "anchors": ["csg2csg/MCNPFormatter.py:mcnp_line_formatter"]}
{"id": "C35", "title": "Fortran style reals are read with the right value", "statement": "get_fortran_formatted_number reads m.d, m.dEe, m.d+e and m.d-e (with or without sign, fraction or integer digits) as the number m.d times ten to the e.", "quantifier": "for all digit strings and both exponent signs", "why_tests_cant": "Unbounded digit strings and notation variants.", "anchors": ["csg2csg/MCNPFormatter.py:get_fortran_formatted_number"]}
{"id": "C36", "title": "The density on a cell card is read with its value", "statement": "The density stored for a cell is the value of the density token on the card, including the exponent notation m.d+e.", "quantifier": "for every cell card", "why_tests_cant": "Only one exponent notation is affected.", "anchors": ["csg2csg/MCNPCellCard.py:MCNPCellCard.__interpret"]}
{"id": "C37", "title": "A $ comment never changes the deck", "statement": "Adding or removing text from a $ sign to the end of a line of the cell block does not change the list of cell cards that is read.", "quantifier": "for every deck and every line", "why_tests_cant": "Depends on the rest of the line and position in the block.", "anchors": ["csg2csg/MCNPInput.py:MCNPInput.__get_cell_cards", "csg2csg/MCNPFormatter.py:strip_dollar_comments"]}
{"id": "C38", "title": "Continuation lines join the card they continue", "statement": "In the cell block each line that does not start with five blanks begins a new card, every following line with five leading blanks is appended to it in order, and the block ends at the first blank line; no text of the block is lost or duplicated.", "quantifier": "for every cell block", "why_tests_cant": "Blocks and cards of any length.", "anchors": ["csg2csg/MCNPInput.py:MCNPInput.__get_cell_cards", "csg2csg/MCNPInput.py:MCNPInput.__get_surface_cards"]}
{"id": "C39", "title": "nR in an importance card repeats the previous entry n more times", "statement": "In imp data cards an entry nr stands for n further copies of the preceding entry, as in MCNP.", "quantifier": "for every list of entries and every n", "why_tests_cant": "Repetition counts and lists are unbounded; off by one only shows against the manual.", "anchors": ["csg2csg/MCNPInput.py:MCNPInput.__process_importances"]}
{"id": "C40", "title": "Importances go to the cells in card order", "statement": "When the importance card has as many entries as there are cells, the i-th cell read gets the i-th entry as its importance for that particle and other particles are unaffected.", "quantifier": "for every number of cells and every list of entries", "why_tests_cant": "Lists of any length.", "anchors": ["csg2csg/MCNPInput.py:MCNPInput.__get_importances"]}
{"id": "C41", "title": "TR cards are read as shift and rotation", "statement": "A TR card with 3, or 12 values gives the shift and the rotation rows as written, and with 9 rotation-and-shift values (two rotation vectors) the third row completes them to a right-handed orthonormal triad.", "quantifier": "for every TR card of these lengths", "why_tests_cant": "The third row is a vector product of real vectors.", "anchors": ["csg2csg/MCNPDataCard.py:MCNPTransformCard", "csg2csg/Vector.py:cross"]}
{"id": "C42", "title": "A material card is read without losing fractions", "statement": "The composition read from a material card maps each nuclide to the sum of the fractions given for it on the card and contains no other nuclide.", "quantifier": "for every even-length list of entries with repeated nuclides in any order", "why_tests_cant": "Repetition patterns are unbounded.", "anchors": ["csg2csg/MCNPMaterialCard.py:MCNPMaterialCard.__process_string"]}
{"id": "C43", "title": "Normalising a composition gives unit total and keeps ratios", "statement": "If the fractions do not sum to zero then after normalise() they sum to 1 or -1 with the original sign, ratios and signs of entries are unchanged, and normalising again changes nothing.", "quantifier": "for every composition", "why_tests_cant": "All real fraction lists.", "anchors": ["csg2csg/MaterialCard.py:MaterialCard.normalise"]}
{"id": "C44", "title": "Exploding elements conserves atom fractions", "statement": "Replacing natural elements by isotopes keeps the total atom fraction of every element.", "quantifier": "for every composition with non-negative fractions", "why_tests_cant": "Depends on which isotopes are already present and on every entry of the abundance table.", "anchors": ["csg2csg/MaterialCard.py:MaterialCard.explode_elements", "csg2csg/MaterialData.py:MaterialData.natural_abund_map"]}
{"id": "C45", "title": "Exploding elements conserves mass fractions", "statement": "Replacing natural elements given by mass fraction by isotopes keeps the total mass fraction of the element.", "quantifier": "for every composition with negative (mass) fractions", "why_tests_cant": "Depends on the formula for every element of the table.", "anchors": ["csg2csg/MaterialCard.py:MaterialCard.explode_elements"]}
{"id": "C46", "title": "The isotopes of an element are exactly its naturally occurring ones", "statement": "get_nucs(Z000) returns exactly the nuclides of the abundance table with atomic number Z, for every Z, and their abundances add up to 100 percent. The number of a nuclide splits into atomic and nucleon number, and only nuclides of the table have an abundance.", "quantifier": "for every atomic number in the table", "why_tests_cant": "The selection is by a numeric window on identifiers and must not leak into neighbours.", "anchors": ["csg2csg/MaterialData.py:MaterialData.get_nucs", "csg2csg/MaterialData.py:MaterialData.get_zz", "csg2csg/MaterialData.py:MaterialData.get_aa"]}
{"id": "C47", "title": "No element is lost when elements are exploded", "statement": "Every element present in a composition before explode_elements is still present (as at least one isotope) afterwards.", "quantifier": "for every composition", "why_tests_cant": "Only elements without natural isotopes are affected.", "anchors": ["csg2csg/MaterialCard.py:MaterialCard.explode_elements"]}
{"id": "C48", "title": "Every cell's material has the cell's density", "statement": "After the deck is read, each non-void cell names a material in the material list whose density is the density on the cell card and whose composition is that of the material number on the card.", "quantifier": "for every deck in which each used material is defined", "why_tests_cant": "Any number of cells, densities and materials in any order.", "anchors": ["csg2csg/MCNPInput.py:MCNPInput.__reorganise_materials"]}
{"id": "C49", "title": "Cells share a material exactly if number and density agree", "statement": "After the deck is read two non-void cells name the same material exactly if their cards had the same material number and the same density; void cells stay void; new material numbers differ from every number in the deck.", "quantifier": "for every deck", "why_tests_cant": "Freshness over arbitrary sets of numbers.", "anchors": ["csg2csg/MCNPInput.py:MCNPInput.__reorganise_materials", "csg2csg/MCNPInput.py:MCNPInput.__next_free_int"]}
{"id": "C50", "title": "OpenMC nuclide names agree with the ZAID", "statement": "The OpenMC nuclide name for ZAID 1000 Z + A is the chemical symbol of Z followed by A in decimal.", "quantifier": "for every Z from 1 to 118 and every A the notation admits", "why_tests_cant": "String slicing by length; wrong slices only show for some digit counts.", "anchors": ["csg2csg/OpenMCMaterial.py:zaid_to_name"]}
{"id": "C51", "title": "Particle names translate back and forth", "statement": "Translating an MCNP particle symbol to the generic name and back returns the symbol, and no two symbols share a generic name.", "quantifier": "for every supported particle", "why_tests_cant": "Two tables maintained by hand must be inverse everywhere.", "anchors": ["csg2csg/MCNPParticleNames.py", "csg2csg/ParticleNames.py"]}
{"id": "C52", "title": "A written MCNP material reads back as itself", "statement": "Reading the material card text written by the MCNP writer gives the same composition.", "quantifier": "for every composition", "why_tests_cant": "Unbounded compositions; text layout must survive the reader.", "anchors": ["csg2csg/MCNPMaterialCard.py:write_mcnp_material"]}
{"id": "C53", "title": "Material colours are always defined", "statement": "get_material_colour returns one of the RGB strings for every integer index.", "quantifier": "for every integer index", "why_tests_cant": "Unbounded index.", "anchors": ["csg2csg/MaterialCard.py:get_material_colour"]}
{"id": "C54", "title": "OpenMC output keeps every reachable universe and drops unreachable ones", "statement": "Removal of unused universes before writing OpenMC terminates, keeps all cells of universe 0 and of every universe reachable from it through fills, and leaves no nonzero universe that no remaining cell is filled with.", "quantifier": "for every set of cells and fill relation", "why_tests_cant": "A fixpoint over arbitrary fill graphs.", "anchors": ["csg2csg/OpenMCInput.py:OpenMCInput.__check_unused_universes", "csg2csg/OpenMCInput.py:OpenMCInput.__get_unused_fills"]}
{"id": "C55", "title": "SCONE universes partition the cells", "statement": "Building the SCONE universe list assigns every cell to exactly one universe that is not the new root, keeps the cell's own universe number, and the new root is filled with a universe holding precisely the cells of universe 0.", "quantifier": "for every cell list", "why_tests_cant": "Cell lists of any size.", "anchors": ["csg2csg/Input.py:InputDeck.create_universes_from_cells", "csg2csg/UniverseCard.py:UniverseCard.build_from_cell_list"]}
{"id": "C56", "title": "SCONE fills refer to written universes", "statement": "Every universe number that a SCONE cell is filled with is the number of a universe in the SCONE output, provided the MCNP universe has at least one cell.", "quantifier": "for every deck", "why_tests_cant": "Numbers are shifted in several places that must agree for all values.", "anchors": ["csg2csg/SCONEInput.py:SCONEInput.__write_scone_universes", "csg2csg/SCONECellCard.py:write_scone_cell", "csg2csg/SCONEUniverseCard.py:write_scone_universe"]}
{"id": "C57", "title": "SCONE output applies fill transformations", "statement": "If a cell is filled with a universe under a displacement then the universe written for SCONE carries that displacement.", "quantifier": "for every deck with a displaced fill", "why_tests_cant": "Depends on comparing a fill with a universe number of another type.", "anchors": ["csg2csg/UniverseCard.py:UniverseCard.build_from_cell_list"]}
{"id": "C58", "title": "One output does not influence another", "statement": "The text written for a code does not depend on which other codes were written before it in the same run.", "quantifier": "for every selection and order of output codes and every deck", "why_tests_cant": "History property over shared mutable state.", "anchors": ["csg2csg/__main__.py:main", "csg2csg/Input.py:InputDeck.from_input", "csg2csg/FLUKAInput.py:FLUKAInput.__write_fluka_materials", "csg2csg/FLUKASurfaceCard.py:fluka_cone_x"]}
{"id": "C59", "title": "FLUKA assigns every region one material", "statement": "Every cell gets exactly one ASSIGNMA card: its material if it has one, BLCKHOLE if it is void with zero importance, VACUUM if it is void otherwise.", "quantifier": "for every cell list", "why_tests_cant": "All combinations of material and importance over lists of any length.", "anchors": ["csg2csg/FLUKAInput.py:FLUKAInput.__write_fluka_assignmats"]}
{"id": "C60", "title": "FLUKA COMPOUND cards carry every constituent once", "statement": "The COMPOUND lines written for a material hold each constituent and its fraction exactly once, at most three per line, in fixed columns; writing terminates.", "quantifier": "for every number of constituents", "why_tests_cant": "Grouping is by arithmetic on text length for any length.", "anchors": ["csg2csg/FLUKAMaterialCard.py:write_fluka_compound"]}
{"id": "C61", "title": "Collapsing nuclides to FLUKA materials conserves fractions", "statement": "The fraction written for each FLUKA material name is the sum of the fractions of the nuclides that belong to it and no nuclide is dropped.", "quantifier": "for every composition", "why_tests_cant": "All combinations of nuclides; table gaps show only for some.", "anchors": ["csg2csg/FLUKAInput.py:FLUKAInput.__write_fluka_materials"]}
{"id": "C62", "title": "FLUKA bodies have the half-spaces of the surfaces", "statement": "The body written for a plane, sphere, cylinder, quadric or cone, read by FLUKA's rules, has as its interior exactly the negative side of the surface.", "quantifier": "for all coefficients and every point", "why_tests_cant": "Real coefficients; FLUKA's parameter orders differ per body.", "anchors": ["csg2csg/FLUKASurfaceCard.py:write_fluka_surface"]}
{"id": "C63", "title": "A written MCNP surface reads back as itself", "statement": "Reading the surface card written by the MCNP writer gives a card with the same number, type and coefficients.", "quantifier": "for every surface of a supported type", "why_tests_cant": "All coefficient values and all types.", "anchors": ["csg2csg/MCNPSurfaceCard.py:write_mcnp_surface", "csg2csg/MCNPSurfaceCard.py:MCNPSurfaceCard.classify"]}
{"id": "C64", "title": "Requested output codes are written, and only those", "statement": "With -o all (the default) all six codes are written; with a list of codes exactly the listed known codes are written, in the fixed order, each once.", "quantifier": "for every argument list", "why_tests_cant": "All subsets and orders of arguments.", "anchors": ["csg2csg/__main__.py:main"]}
{"id": "C65", "title": "Written MCNP and PHITS cell cards carry universe, fill and importance", "statement": "After the geometry the card written for a cell holds, in this order, u= with the universe if there is one, fill= with the filling universe and in parentheses its offset (0 0 0 if absent) and rotation if there is a transform, and for MCNP the importance.", "quantifier": "for every cell with printable parameters", "why_tests_cant": "All combinations of parameters and all values, wrapped over any number of lines.", "anchors": ["csg2csg/MCNPCellCard.py:write_mcnp_cell"]}
{"id": "C66", "title": "Serpent trans card carries the transform of a filled cell", "statement": "For a filled cell with an offset or a rotation the trans card names the cell and holds its offset (0 0 0 if absent) and rotation matrix (identity if absent); without a transform or a fill no trans card is written.", "quantifier": "for every cell with printable parameters", "why_tests_cant": "All combinations of parameters and all values.", "anchors": ["csg2csg/SerpentCellCard.py:write_serpent_cell"]}
{"id": "C67", "title": "Serpent surface cards have the half-spaces of the surfaces", "statement": "The words of the surf card written for a surface are its number, a keyword and numbers which, read by Serpent's rules, give every point the sense it has with respect to the surface.", "quantifier": "for every well-formed surface of a supported type and every point", "why_tests_cant": "Real coefficients; parameter orders differ per keyword; six-decimal formats lose digits only for some values.", "anchors": ["csg2csg/SerpentSurfaceCard.py:write_serpent_surface"]}
{"id": "C68", "title": "OpenMC surface elements have the half-spaces and boundary conditions of the surfaces", "statement": "The surface element written for a surface has its number, a type and coefficients which, read by OpenMC's rules, give every point the sense it has with respect to the surface, and its boundary_type says what the boundary condition of the surface means.", "quantifier": "for every well-formed surface of a supported type, every boundary condition and every point", "why_tests_cant": "Real coefficients; all types and all boundary conditions.", "anchors": ["csg2csg/OpenMCSurface.py:write_openmc_surface", "csg2csg/OpenMCSurface.py:openmc_surface_info"]}
{"id": "C69", "title": "SCONE surface dictionaries have the half-spaces of the surfaces", "statement": "The dictionary written for a surface is named by its number and holds it as id, and its type and numbers, read by SCONE's rules, give every point the sense it has with respect to the surface.", "quantifier": "for every well-formed surface of a supported type and every point", "why_tests_cant": "Real coefficients; nested punctuation that only a parser for all values can check.", "anchors": ["csg2csg/SCONESurfaceCard.py:write_scone_surface"]}
{"id": "C70", "title": "Cell parameters are read with their values", "statement": "Parameters written after the region of a cell card leave number, material, density and region of the cell as they are, and the cell gets exactly the universe, filling universe, fill transform and importance they give; what is not given keeps its default.", "quantifier": "for every cell description and every list of parameters in any order", "why_tests_cant": "Any number and order of parameters, any values and any blanks between them.", "anchors": ["csg2csg/MCNPCellCard.py:MCNPCellCard.__detect_keywords", "csg2csg/MCNPCellCard.py:MCNPCellCard.__get_keyword_value", "csg2csg/MCNPCellCard.py:MCNPCellCard.__set_universe_transform"]}
{"id": "C71", "title": "Comment lines never change the deck", "statement": "Inserting or removing a comment line (the letter c in one of the first five columns, followed by a blank) anywhere after the title does not change what is read from the file.", "quantifier": "for every file and every position", "why_tests_cant": "Depends on the lines before and after it, in all blocks.", "anchors": ["csg2csg/MCNPInput.py:MCNPInput.process"]}
{"id": "C72", "title": "Material cards of the data block are all found", "statement": "Reading the data block gives one material for each material number that has a card, with the nuclides and fractions of the last card of that number, including its continuation lines and without the text after a dollar; no other card gives a material.", "quantifier": "all data blocks, any number and order of cards and continuation lines, all comments", "why_tests_cant": "a test has a few cards in one layout; which lines belong to a card depends on all the lines around it", "anchors": ["csg2csg/MCNPInput.py:MCNPInput.__get_material_card", "csg2csg/MCNPInput.py:MCNPInput.__get_material_cards"]}
{"id": "C73", "title": "TR cards of the data block are all found", "statement": "Reading the data block gives one transform for each transform number that has a card, with the numbers of the last card of that number, including its continuation lines; no other card gives a transform.", "quantifier": "all data blocks, any number and order of cards and continuation lines", "why_tests_cant": "a test has a few cards in one layout; comments, column and place in the file change what is read", "anchors": ["csg2csg/MCNPInput.py:MCNPInput.__get_transform_cards", "csg2csg/MCNPDataCard.py:MCNPTransformCard.__process_string"]}
{"id": "C74", "title": "A fill that names a TR card uses that card", "statement": "After the deck is read, a filled cell that names a TR card carries the displacement and rotation of that card: a point of the cell is looked up in the universe at the point the TR card assigns to it. Cells without a TR card keep their own transform, and a missing TR card is reported as an error.", "quantifier": "all decks, transforms and points", "why_tests_cant": "a test compares twelve numbers of one transform", "anchors": ["csg2csg/MCNPInput.py:MCNPInput.__apply_universe_transformations", "csg2csg/MCNPCellCard.py:MCNPCellCard.apply_universe_transform"]}
{"id": "C75", "title": "FLUKA biasing keeps the ratios of importances", "statement": "There is one BIASING card for each cell with a value between 1e-4 and 1e5, the range FLUKA allows; positive importances keep their ratios, and a cell of importance zero gets less than every cell of positive importance.", "quantifier": "all lists of cells and all importances", "why_tests_cant": "the scale depends on the smallest and largest importance of the whole problem", "anchors": ["csg2csg/FLUKAInput.py:FLUKAInput.__write_fluka_importances"]}
{"id": "C76", "title": "A written Serpent material reads back as itself", "statement": "Reading the materials that the Serpent writer has written gives the same materials: number, density, nuclides and fractions.", "quantifier": "all lists of materials, after any other lines of the file", "why_tests_cant": "unbounded compositions; the lines before and between the materials must not disturb the reader", "anchors": ["csg2csg/SerpentMaterialCard.py:write_serpent_material", "csg2csg/SerpentInput.py:SerpentInput.process"]}
{"id": "C77", "title": "Serpent materials are read from their own lines", "statement": "Reading a Serpent input gives one material for each mat card with the name, density, nuclides and fractions of that card; comments, blank lines and other cards are not part of it.", "quantifier": "all inputs, any number and order of cards", "why_tests_cant": "what belongs to a card depends on all the lines after it", "anchors": ["csg2csg/SerpentInput.py:SerpentInput.__get_material_card", "csg2csg/SerpentInput.py:SerpentInput.__get_material_cards", "csg2csg/SerpentMaterialCard.py:SerpentMaterialCard.__process_string"]}
{"id": "C78", "title": "OpenMC material elements mean the materials", "statement": "The element written for a material has its number and name, its density in the unit its sign stands for, and one nuclide for each entry of the composition with the name OpenMC uses, and the fraction as atom or mass fraction according to its sign.", "quantifier": "all materials and densities", "why_tests_cant": "all nuclides and signs", "anchors": ["csg2csg/OpenMCMaterial.py:write_openmc_material"]}
{"id": "C79", "title": "SCONE atom densities add up to the density of the material", "statement": "The text for a material gives every nuclide an atom density; together they have the composition and the density of the material, whether it is given by mass or by atoms.", "quantifier": "all materials", "why_tests_cant": "real fractions and densities; all signs", "anchors": ["csg2csg/SCONEMaterialCard.py:write_scone_material"]}
{"id": "C80", "title": "The PHITS importance section lists every cell", "statement": "The importance section has exactly one line for each cell, with the number of the cell and its importance.", "quantifier": "all lists of cells", "why_tests_cant": "unbounded lists, all numbers", "anchors": ["csg2csg/PhitsInput.py:PhitsInput.__write_phits_importances"]}
{"id": "C81", "title": "Wrapping a card leaves no blank line", "statement": "The lines into which a long card is cut all contain something, so that no reader takes the card for the end of a block, and all lines after the first continue the card.", "quantifier": "all cards", "why_tests_cant": "the cuts depend on the lengths of all words and gaps", "anchors": ["csg2csg/MCNPFormatter.py:mcnp_line_formatter"]}
{"id": "C82", "title": "A written MCNP cell reads back as itself", "statement": "Reading the card that the MCNP writer has written for a cell gives the same cell: number, material, density, region, universe, fill with its transform, and importance.", "quantifier": "all cells", "why_tests_cant": "unbounded descriptions, all numbers, all combinations of parameters, all positions of the line breaks", "anchors": ["csg2csg/MCNPCellCard.py:write_mcnp_cell", "csg2csg/MCNPCellCard.py:MCNPCellCard.__init__", "csg2csg/MCNPInput.py:MCNPInput.__get_cell_cards"]}
{"id": "C83", "title": "A written MCNP file reads back as itself", "statement": "Reading the MCNP file that was written for a deck gives the same cells and surfaces in the same order and the same materials; nothing is lost at the borders of the blocks.", "quantifier": "all decks: any number of cells, surfaces and materials", "why_tests_cant": "unbounded decks; cards of one block must not be taken for cards of another", "anchors": ["csg2csg/MCNPInput.py:MCNPInput.write_mcnp", "csg2csg/MCNPInput.py:MCNPInput.process"]}
{"id": "C84", "title": "Processing a deck keeps the regions of the cells", "statement": "After macrobodies are split, complements expanded, TR cards applied and duplicates removed, every cell consists of the same points as in the deck that was read, and its description uses only numbers of surfaces that exist.", "quantifier": "all decks, points, square root functions", "why_tests_cant": "unbounded decks and nested complements; every point of space", "anchors": ["csg2csg/MCNPInput.py:MCNPInput.process", "csg2csg/MCNPInput.py:MCNPInput.__apply_surface_transformations"]}
{"id": "C85", "title": "Processing sets everything else of a cell and surface as the cards say", "statement": "After processing fills have the transform of their TR card, importances are those of the data card in order, every material in use has the density of its cells, a surface is a vacuum boundary exactly if a cell of importance zero lists it, cones reach through the box of the problem, duplicates are gone unless told otherwise, and the rest is as read.", "quantifier": "all decks", "why_tests_cant": "unbounded decks; the steps work on the results of each other", "anchors": ["csg2csg/MCNPInput.py:MCNPInput.process", "csg2csg/MCNPInput.py:MCNPInput.__update_surfaces", "csg2csg/MCNPInput.py:MCNPInput.__get_surface_cards"]}
{"id": "C86", "title": "A Serpent file contains exactly the cards of the deck", "statement": "Serpent, reading the file that was written for a deck, finds one card per surface, then one per cell, then one per material, in the order of the deck and nothing else; each card says what its surface, cell or material is.", "quantifier": "all decks: any number of cells, surfaces and materials", "why_tests_cant": "unbounded decks; a card ends only where the next begins, so that each depends on its neighbours", "anchors": ["csg2csg/SerpentInput.py:SerpentInput.write_serpent", "csg2csg/SerpentInput.py:SerpentInput.__write_serpent_cells", "csg2csg/SerpentInput.py:SerpentInput.__write_serpent_surfaces", "csg2csg/SerpentInput.py:SerpentInput.__write_serpent_materials"]}
{"id": "C87", "title": "A SCONE file contains exactly the entries of the deck", "statement": "SCONE, reading the file that was written for a deck, finds a geometry with one surface per surface, one cell per cell and the universes of these cells, and nuclear data with one material per material, in the order of the deck and nothing else; each entry says what its surface, cell, universe or material is.", "quantifier": "all decks: any number of cells, surfaces, universes and materials; every order in which Python visits a set", "why_tests_cant": "unbounded decks; one unclosed brace or a comment sign changes how everything after it is read", "anchors": ["csg2csg/SCONEInput.py:SCONEInput.write_scone", "csg2csg/SCONEInput.py:SCONEInput.__write_scone_cells", "csg2csg/SCONEInput.py:SCONEInput.__write_scone_universes", "csg2csg/SCONEInput.py:SCONEInput.__write_scone_materials"]}
{"id": "C88", "title": "The border of the SCONE model is the surface around it", "statement": "The border of the root universe that is made for SCONE is a surface of the deck outside of which the outside world lies.", "quantifier": "all lists of cells", "why_tests_cant": "the outside world can be described in any way and anywhere in the deck", "anchors": ["csg2csg/UniverseCard.py:UniverseCard.build_from_cell_list", "csg2csg/Input.py:InputDeck.create_universes_from_cells"]}
{"id": "C89", "title": "A PHITS file contains exactly the cards of the deck", "statement": "PHITS, reading the file that was written for a deck, finds the sections title, parameters, surface, cell, importance and material; they hold one card per surface, cell and material and one importance per cell, in the order of the deck and nothing else; each card says what its surface, cell or material is.", "quantifier": "all decks: any number of cells, surfaces and materials", "why_tests_cant": "unbounded decks; a line in brackets ends a section and a line with five blanks in front belongs to the card before", "anchors": ["csg2csg/PhitsInput.py:PhitsInput.write_phits", "csg2csg/PhitsInput.py:PhitsInput.__write_phits_cells", "csg2csg/PhitsInput.py:PhitsInput.__write_phits_surfaces", "csg2csg/PhitsInput.py:PhitsInput.__write_phits_materials"]}
{"id": "C90", "title": "A FLUKA file contains exactly the cards of the deck", "statement": "FLUKA, reading the file that was written for a deck, finds the title, one body per surface and one region per cell in the order of the deck, one BIASING and one ASSIGNMA card per cell, MATERIAL cards for the elements and isotopes that it does not know, and the MATERIAL and COMPOUND cards of each material, and nothing else; each says what its surface, cell or material is. Writing leaves the surfaces as they were.", "quantifier": "all decks: any number of cells, surfaces and materials, in any order in which Python visits the set of nuclides", "why_tests_cant": "unbounded decks; the file mixes free format and columns, and a line is found by what stands before it", "anchors": ["csg2csg/FLUKAInput.py:FLUKAInput.write_fluka", "csg2csg/FLUKAInput.py:FLUKAInput.__write_fluka_surfaces", "csg2csg/FLUKAInput.py:FLUKAInput.__write_fluka_cells", "csg2csg/FLUKAInput.py:FLUKAInput.__write_fluka_materials"]}
{"id": "C91", "title": "The OpenMC files contain exactly the geometry and the materials of the deck", "statement": "OpenMC, reading geometry.xml and materials.xml, finds well-formed xml with one surface element per surface, one material element per material, and one cell element for each cell whose universe is part of the geometry, all in the order of the deck, and nothing else; each says what its surface, cell or material is. The transform of a fill maps points as in MCNP. Special characters in names are escaped.", "quantifier": "all decks: any number of cells, surfaces and materials, any nesting of universes", "why_tests_cant": "unbounded decks and trees; the text of an element depends on its depth and on what follows", "anchors": ["csg2csg/OpenMCInput.py:OpenMCInput.write_openmc", "csg2csg/OpenMCInput.py:OpenMCInput.__write_openmc_surfaces", "csg2csg/OpenMCInput.py:OpenMCInput.__write_openmc_cells", "csg2csg/OpenMCInput.py:OpenMCInput.__write_openmc_materials", "csg2csg/OpenMCInput.py:indent"]}
{"id": "C92", "title": "Each written file describes the same cells as the input file", "statement": "From the text of an MCNP file to the text of the file for each code: if the program reads the deck, processes it and writes it, then for each cell of the input there is exactly one cell in the written file, in the same order, and a point lies in the region which the code reads for the cell if and only if it lies in the cell of the input as MCNP reads it, with macrobodies, facets, complements of cells and transformed surfaces.", "quantifier": "all input texts, decks, points and formats of numbers that are exact; all six codes", "why_tests_cant": "the composition of reading, flattening, exploding, moving, deduplicating and writing over unbounded decks and all points of space", "anchors": ["csg2csg/__main__.py:main", "csg2csg/MCNPInput.py:MCNPInput.process", "csg2csg/MCNPInput.py:MCNPInput.write_mcnp", "csg2csg/SerpentInput.py:SerpentInput.write_serpent", "csg2csg/OpenMCInput.py:OpenMCInput.write_openmc", "csg2csg/PhitsInput.py:PhitsInput.write_phits", "csg2csg/FLUKAInput.py:FLUKAInput.write_fluka", "csg2csg/SCONEInput.py:SCONEInput.write_scone"]}
{"id": "C93", "title": "The processed deck is as the writers need it", "statement": "After a deck is read and processed, every word of the description of a cell is a parenthesis or the signed number of a surface that the deck has, the description is a well-formed expression, each complement stands before a parenthesis if it does in the input, and every surface is a quadric or torus with the right number of coefficients, a positive number, a transmission or vacuum boundary and a mnemonic in MCNP.", "quantifier": "all input texts that are read as decks as in C84, all settings of the processing", "why_tests_cant": "invariants of reading, flattening, exploding, moving and deduplicating over decks of any size", "anchors": ["csg2csg/MCNPInput.py:MCNPInput.process", "csg2csg/MCNPCellCard.py:MCNPCellCard.generalise", "csg2csg/MCNPSurfaceCard.py:MCNPSurfaceCard.__classify_general_planes", "csg2csg/MCNPInput.py:MCNPInput.__flatten_macrobodies"]}
{"id": "C94", "title": "Decks in which everything referred to is there are processed", "statement": "A deck as in C84 is processed without an exception and in finitely many steps if materials in use have cards that can be prepared, TR cards named by fills exist, the importance card for neutrons has numbers only and not more than there are cells, and cells with importance zero name no macrobody. Conversely, processing a deck as in C84 always ends in an exception if a cell with importance zero lists a macrobody.", "quantifier": "all decks, numbers of any exact format, with and without the removal of duplicates", "why_tests_cant": "tests run a few decks; total correctness is over decks of any size and any nesting of complements", "anchors": ["csg2csg/MCNPInput.py:MCNPInput.process", "csg2csg/MCNPInput.py:MCNPInput.__apply_boundary_conditions", "csg2csg/MCNPInput.py:MCNPInput.__flatten_macrobodies", "csg2csg/MCNPInput.py:MCNPInput.__reorganise_materials"]}
{"id": "C95", "title": "Converting keeps the material and the density of every cell", "statement": "Consider an input file whose deck is as in C92, in which all materials in use have cards with fractions of atoms. For each of the six codes, the written file, read by the rules of the code, gives every cell without a fill the substance of its material card (elements replaced by their natural nuclides, fractions scaled to the sum 1) and the density of its cell card; void cells stay void.", "quantifier": "all input texts, decks of any size, numbers of any exact format, with and without the removal of duplicates", "why_tests_cant": "tests compare a few written materials with stored files; nothing compares what the target code reads with the cell card of the input", "anchors": ["csg2csg/MCNPInput.py:MCNPInput.process", "csg2csg/MCNPInput.py:MCNPInput.__reorganise_materials", "csg2csg/MaterialCard.py:MaterialCard.explode_elements", "csg2csg/SerpentInput.py:SerpentInput.write_serpent", "csg2csg/OpenMCInput.py:OpenMCInput.write_openmc", "csg2csg/PhitsInput.py:PhitsInput.write_phits", "csg2csg/FLUKAInput.py:FLUKAInput.write_fluka", "csg2csg/SCONEInput.py:SCONEInput.write_scone"]}
{"id": "C96", "title": "Input that meets stated conditions is converted, completely and correctly", "statement": "There are conditions on the deck as it is read, before processing, under which the program writes a file for each of the six codes, and the file, read by the rules of the code, has exactly the cells of the input, with the same points, materials and densities.", "quantifier": "all input texts whose deck meets the conditions, decks of any size, with and without the removal of duplicates", "why_tests_cant": "tests convert a few decks and compare with stored files; they do not show which decks are converted", "anchors": ["csg2csg/MCNPInput.py:MCNPInput.process", "csg2csg/MCNPInput.py:MCNPInput.__reorganise_materials", "csg2csg/MCNPInput.py:MCNPInput.__flatten_macrobodies", "csg2csg/SerpentInput.py:SerpentInput.write_serpent", "csg2csg/OpenMCInput.py:OpenMCInput.write_openmc", "csg2csg/PhitsInput.py:PhitsInput.write_phits", "csg2csg/FLUKAInput.py:FLUKAInput.write_fluka", "csg2csg/SCONEInput.py:SCONEInput.write_scone"]}
{"id": "C97", "title": "Surface cards that the program cannot read stop the conversion", "statement": "Every surface card either becomes a surface with the number of the card or raises an exception; no card is passed over silently, so that no written cell refers to a surface that the file does not have.", "quantifier": "all surface cards, with any mnemonic and any number of entries", "why_tests_cant": "there are infinitely many mnemonics and entry counts; tests use supported ones", "anchors": ["csg2csg/MCNPSurfaceCard.py:MCNPSurfaceCard.classify", "csg2csg/MCNPSurfaceCard.py:MCNPSurfaceCard.__mcnp_type", "csg2csg/MCNPSurfaceCard.py:MCNPSurfaceCard.__classify_edp"]}
{"id": "C98", "title": "Universes: the cell and the material at a point are kept through every level of nesting", "statement": "When the file is converted, the cell that a point lies in, found by going down through filled cells with their displacements and rotations, is the same in the written file as in the MCNP file, and it has the same material and density.", "quantifier": "all input files, all points, any depth of nesting, for each code that is written", "why_tests_cant": "points, depths of nesting and transformations are unbounded, and no test reads a written file back and looks up points in it", "anchors": ["csg2csg/SerpentCellCard.py:write_serpent_cell", "csg2csg/MCNPCellCard.py:write_mcnp_cell", "csg2csg/PhitsInput.py:PhitsInput.__write_phits_cells", "csg2csg/OpenMCInput.py:OpenMCInput.__check_unused_universes", "csg2csg/SCONEInput.py:SCONEInput.__write_scone_universes", "csg2csg/OpenMCCell.py:write_openmc_cell", "csg2csg/SCONECellCard.py:write_scone_cell", "csg2csg/FLUKACellCard.py:write_fluka_cell"]}
{"id": "C99", "title": "Reading: the deck has what the text of the MCNP file says", "statement": "The text of an MCNP file is read into a deck with the cells, surfaces, materials, transformations and importances that its cards give; each cell has the same points as the MCNP manual says.", "quantifier": "all texts, with any layout: upper and lower case, continuation lines, comments, any number of cards, all points", "why_tests_cant": "texts are unbounded; the tests read single cards and one file with three spheres, and compare no points", "anchors": ["csg2csg/MCNPInput.py:MCNPInput.process", "csg2csg/Input.py:InputDeck.read", "csg2csg/MCNPInput.py:MCNPInput.__get_cell_cards", "csg2csg/MCNPInput.py:MCNPInput.__get_surface_cards", "csg2csg/MCNPInput.py:MCNPInput.__get_material_cards", "csg2csg/MCNPInput.py:MCNPInput.__get_transform_cards", "csg2csg/MCNPInput.py:MCNPInput.__get_importances", "csg2csg/MCNPInput.py:MCNPInput.__set_title", "csg2csg/MCNPCellCard.py:MCNPCellCard.__interpret", "csg2csg/MCNPSurfaceCard.py:MCNPSurfaceCard.classify"]}
{"id": "C100", "title": "From text to text: the file written for another code has the geometry and the materials that the text of the MCNP file describes", "statement": "If the text is an MCNP file and what it says meets stated conditions, then the program writes a file for each of the six codes; the cells of that file, read by the rules of the code, have exactly the points that the MCNP manual gives for the cells of the text, and the same substances and densities.", "quantifier": "all texts of MCNP files that meet the conditions, files of any size, all points, with and without the removal of duplicates", "why_tests_cant": "texts, files and points are unbounded; no test relates the text of the input to the text of the output by their meaning", "anchors": ["csg2csg/__main__.py:main", "csg2csg/MCNPInput.py:MCNPInput.process", "csg2csg/Input.py:InputDeck.read", "csg2csg/MCNPInput.py:MCNPInput.write_mcnp", "csg2csg/SerpentInput.py:SerpentInput.write_serpent", "csg2csg/OpenMCInput.py:OpenMCInput.write_openmc", "csg2csg/PhitsInput.py:PhitsInput.write_phits", "csg2csg/FLUKAInput.py:FLUKAInput.write_fluka", "csg2csg/SCONEInput.py:SCONEInput.write_scone"]}
{"id": "C101", "title": "Runs with a Serpent file as input keep what the file says", "statement": "If the input is a Serpent file, every requested output file says what the Serpent file says: its cells, surfaces and materials with names, densities and fractions; runs for all output codes finish.", "quantifier": "all texts of Serpent files with any number of material cards, all output selections, all number formats that meet the stated conditions", "why_tests_cant": "texts and numbers of cards are unbounded; there is no test of a run with a Serpent file; that the geometry and the densities are dropped and that FLUKA never finishes holds for all files", "anchors": ["csg2csg/__main__.py:main", "csg2csg/SerpentInput.py:SerpentInput.process", "csg2csg/SerpentMaterialCard.py:SerpentMaterialCard", "csg2csg/FLUKAMaterialCard.py:write_fluka_compound", "csg2csg/MCNPInput.py:MCNPInput.write_mcnp", "csg2csg/SCONEMaterialCard.py:write_scone_material"]}
{"id": "C102", "title": "Importances and the outside world are kept", "statement": "Each written file says with which importance particles are followed in each cell and where the outside world, the cells with importance zero, is: PHITS and MCNP files give every cell its importance, FLUKA files give importances in proportion and make the outside world a black hole, in OpenMC files the surfaces around the outside world are vacuum boundaries and no others are, and Serpent and SCONE files mark the outside world.", "quantifier": "all texts laid out as MCNP files that can be converted (C100), quick or not, all number formats that meet the stated conditions", "why_tests_cant": "the texts, the numbers of cells and the importances are unbounded; no test compares importances or boundaries of written files with the input; the outside world is lost only for certain ways of writing it", "anchors": ["csg2csg/MCNPInput.py:MCNPInput.__apply_boundary_conditions", "csg2csg/MCNPInput.py:MCNPInput.__get_importances", "csg2csg/FLUKAInput.py:FLUKAInput.__write_fluka_importances", "csg2csg/FLUKAInput.py:FLUKAInput.__write_fluka_assignmats", "csg2csg/MCNPCellCard.py:write_mcnp_cell", "csg2csg/SerpentCellCard.py:write_serpent_cell"]}
{"id": "C103", "title": "What the text of the input puts at a point of nested universes is at that point in the written file", "statement": "For a text laid out as an MCNP file: searching a point through the cells, fills, TR cards and displacements that the cards say ends in an unfilled cell with a number, a density and a composition; the same search in the written file, by the rules of the code it is for, ends in the cell with the same number with the same density and composition, and conversely.", "quantifier": "all texts laid out as MCNP files that can be converted (C100), all points, all depths of nesting, quick or not; fills with displacements and rotations for MCNP, OpenMC and PHITS, with displacements for Serpent", "why_tests_cant": "the texts, the points and the depth of nesting are unbounded; no test of the project follows a point of an input file into universes or compares it with the written file", "anchors": ["csg2csg/MCNPCellCard.py:MCNPCellCard.__interpret", "csg2csg/MCNPCellCard.py:MCNPCellCard.apply_universe_transform", "csg2csg/MCNPInput.py:MCNPInput.__apply_universe_transformations", "csg2csg/MCNPInput.py:MCNPInput.process", "csg2csg/OpenMCCell.py:write_openmc_cell", "csg2csg/PhitsInput.py:PhitsInput.__write_phits_cells", "csg2csg/SCONEInput.py:SCONEInput.write_scone"]}
{"id": "C104", "title": "Importances have no influence on the geometry and the materials of the written files", "statement": "If two inputs differ only in importances and both runs finish, they write files for the same codes in the same order. Serpent and SCONE files are equal; the others are equal except at the places that show importances or the boundary of the outside world: boundary attributes of surfaces in OpenMC files, the IMP:N entry at the end of each cell card in MCNP files, the numbers in the table of importances of PHITS files, and in FLUKA files the numbers on BIASING cards and the assignment of BLCKHOLE or VACUUM to cells without material.", "quantifier": "all pairs of inputs that are read as decks which differ only in importances, in particular all texts that differ in the importances among the parameters of cell cards; all options", "why_tests_cant": "a statement about two runs: it speaks of all pairs of inputs, and each test of the project looks at one run", "anchors": ["csg2csg/MCNPInput.py:MCNPInput.__apply_boundary_conditions", "csg2csg/MCNPInput.py:MCNPInput.process", "csg2csg/OpenMCSurface.py:boundary_condition", "csg2csg/PhitsInput.py:PhitsInput.__write_phits_importances", "csg2csg/FLUKAInput.py:FLUKAInput.__write_fluka_importances", "csg2csg/MCNPCellCard.py:write_mcnp_cell"]}
{"id": "C105", "title": "Converting the written MCNP file again changes nothing, however often it is done", "statement": "If the program is run on an MCNP input, then on the MCNP file that it wrote, and so on any number of times, every run finishes, and the file after each run has the cells of the first input in the same order, with the same universes, the same points, the same densities and the same substances; a point of nested universes is found in the same cell. After the first run, further runs add no surfaces and no materials. The text of the file need not stay the same.", "quantifier": "all numbers of runs; all inputs that meet the conditions of C96 (from the deck) or C103 (from the text) and whose numbers of surfaces and materials leave room for those that the first run adds", "why_tests_cant": "a statement about arbitrarily many runs in a row; the tests of the project run the program once", "anchors": ["csg2csg/MCNPInput.py:MCNPInput.process", "csg2csg/MCNPInput.py:MCNPInput.write_mcnp", "csg2csg/MCNPInput.py:MCNPInput.__flatten_macrobodies", "csg2csg/MCNPCellCard.py:write_mcnp_cell", "csg2csg/MCNPSurfaceCard.py:write_mcnp_surface", "csg2csg/MCNPMaterialCard.py:write_mcnp_material"]}
{"id": "C106", "title": "The title and a message block change nothing in the written files", "statement": "The title line of an MCNP input is text without meaning, and a file may begin with a message block, which begins with `message:` and is ended by a blank line. Two inputs that differ in the title only, or in a message block before the title, give the same files or the same exception.", "quantifier": "all titles, all message blocks, all texts after the title, all options", "why_tests_cant": "the tests of the project use files with one title and no message block; a statement about two runs with any two titles needs a proof", "anchors": ["csg2csg/MCNPInput.py:MCNPInput.__set_title", "csg2csg/MCNPInput.py:MCNPInput.process", "csg2csg/MCNPInput.py:MCNPInput.__get_cell_cards", "csg2csg/MCNPCellCard.py:MCNPCellCard.__interpret"]}
{"id": "C107", "title": "Two runs on the same input write the same files", "statement": "Python visits a set of texts in an order that is different in every run. Two runs of the program on the same input with the same options write the same files.", "quantifier": "all inputs and options, all orders in which Python visits the set of nuclides of a deck, all sets of output codes", "why_tests_cant": "a test compares with one run, and the order within one run is not under its control; that no order changes the meaning of a file is a statement about all permutations of all nuclide sets", "anchors": ["csg2csg/FLUKAInput.py:FLUKAInput.__write_fluka_materials", "csg2csg/FLUKAMaterialCard.py:write_fluka_compound", "csg2csg/FLUKAMaterialCard.py:write_fluka_material_element", "csg2csg/SCONEMaterialCard.py:write_scone_material", "csg2csg/__main__.py:main"]}
{"id": "C108", "title": "Surface cards with a wrong number of entries are refused", "statement": "A surface card is read only if it has exactly as many entries as the MCNP manual gives for its mnemonic, all of them numbers. Otherwise an exception is raised.", "quantifier": "all texts of cards, numbers, transformations, entries and all mnemonics of the manual that the program is made for, except those of surfaces given by points", "why_tests_cant": "a test tries a few malformed cards; that every card that is too short or has an unreadable entry is refused, for 30 mnemonics, is a statement about all lists of words", "anchors": ["csg2csg/MCNPSurfaceCard.py:MCNPSurfaceCard.classify", "csg2csg/MCNPSurfaceCard.py:MCNPSurfaceCard.__classify_general_planes", "csg2csg/MCNPSurfaceCard.py:MCNPSurfaceCard.__classify_cone_parallel", "csg2csg/MCNPSurfaceCard.py:MCNPSurfaceCard.__classify_cone_on_axis", "csg2csg/MCNPSurfaceCard.py:MCNPSurfaceCard.__classify_gq", "csg2csg/MCNPSurfaceCard.py:MCNPSurfaceCard.__classify_box"]}
{"id": "C109", "title": "TR cards are read completely or refused", "statement": "A TR card is read only if it has a number of entries for which all of them are used, all of them numbers. Otherwise an exception is raised.", "quantifier": "all texts of TR cards, all numbers of entries, all entries", "why_tests_cant": "a test tries a few malformed cards; which lists of words are read, and what is then ignored, is a statement about all lists of words", "anchors": ["csg2csg/MCNPDataCard.py:MCNPTransformCard.__process_string"]}
{"id": "C110", "title": "The order of the cards does not change what is described", "statement": "Two input files with the same cell cards, surface cards and data cards in different orders, without importances in the data block, are converted to files with the same cells: the same numbers, the same points, the same contents. One is converted exactly if the other is.", "quantifier": "all texts, all permutations of the cards of each block, all runs", "why_tests_cant": "a test reorders the cards of a few files; the claim is about all permutations of all files, and cells, surfaces and materials are numbered, sorted and deduplicated in an order that depends on the file", "anchors": ["csg2csg/MCNPInput.py:MCNPInput.__get_surface_cards", "csg2csg/MCNPInput.py:MCNPInput.__get_cell_cards", "csg2csg/MCNPInput.py:MCNPInput.__get_material_cards", "csg2csg/MCNPInput.py:MCNPInput.__get_transform_cards"]}
{"id": "C111", "title": "Upper and lower case do not matter", "statement": "Two input texts that agree up to upper and lower case of the letters give the same run: the same files or the same exception.", "quantifier": "all texts, all ways to write their letters in upper or lower case, all options", "why_tests_cant": "a test writes a few files in upper case; the claim is about every subset of the letters of every file", "anchors": ["csg2csg/Input.py:InputDeck.read"]}
{"id": "C112", "title": "Other data cards change nothing", "statement": "Cards of the data block that are no material, TR or importance cards have no influence on the written files.", "quantifier": "all texts, all positions between cards of the data block, all lines inserted there, all options", "why_tests_cant": "the data block is searched line by line for patterns, so whether some other card is mistaken depends on its text; a test inserts a few cards", "anchors": ["csg2csg/MCNPInput.py:MCNPInput.__get_importances", "csg2csg/MCNPInput.py:MCNPInput.__get_material_cards", "csg2csg/MCNPInput.py:MCNPInput.__get_transform_cards"]}
{"id": "C113", "title": "Nothing is read after the blank line that ends the data block", "statement": "What follows the blank line after the data block, where MCNP stops reading, has no influence on the written files.", "quantifier": "all texts, all lines after the blank line, all options", "why_tests_cant": "a test adds a few notes at the end of a file; the claim is about all texts that can stand there", "anchors": ["csg2csg/MCNPInput.py:MCNPInput.process", "csg2csg/MCNPInput.py:MCNPInput.__get_material_cards", "csg2csg/MCNPInput.py:MCNPInput.__get_transform_cards"]}
{"id": "C114", "title": "The numbers of surfaces, cells and materials do not matter", "statement": "If two input files differ only in the numbers of surfaces, cells and materials, the written files describe the same cells, with the same points and substances, up to these numbers.", "quantifier": "all pairs of texts, all one-to-one renumberings, all codes, all points", "why_tests_cant": "whether two numbers are confused depends on both as texts, as with 5 and 15; a test tries a few numbers", "anchors": ["csg2csg/MCNPInput.py:MCNPInput.__flatten_macrobodies", "csg2csg/MCNPInput.py:MCNPInput.__reorganise_materials", "csg2csg/MCNPInput.py:MCNPInput.__explode_nots", "csg2csg/MCNPCellCard.py:MCNPCellCard.update"]}
{"id": "C115", "title": "References to missing cards are refused", "statement": "If a cell, surface or fill names a material, cell, surface, TR card or universe that the file does not have, nothing is written.", "quantifier": "all texts, all codes, all options", "why_tests_cant": "a test tries one missing card; what happens depends on the other cards, as when a copy of a material takes the missing number", "anchors": ["csg2csg/MCNPInput.py:MCNPInput.__reorganise_materials", "csg2csg/MCNPInput.py:MCNPInput.__apply_universe_transformations", "csg2csg/MCNPInput.py:MCNPInput.__apply_surface_transformations", "csg2csg/MCNPInput.py:MCNPInput.__split_nots"]}
{"id": "C116", "title": "A TR card on all surfaces moves the model", "statement": "If all surfaces of a file get the number of the same TR card, each written file has the same cells with the same materials, moved as the TR card says.", "quantifier": "all pairs of texts that differ in this, all TR cards, all six codes, all options", "why_tests_cant": "a test compares one moved model at some points; the equations change their kind when they are moved", "anchors": ["csg2csg/MCNPInput.py:MCNPInput.__apply_surface_transformations", "csg2csg/MCNPSurfaceCard.py:MCNPSurfaceCard.transform", "csg2csg/MCNPInput.py:MCNPInput.process", "csg2csg/__main__.py:main"]}
{"id": "C117", "title": "How a geometry is written changes nothing", "statement": "If the expressions of cells are replaced by others that are true for the same senses, each written file has the same cells with the same materials, and the same boundary conditions.", "quantifier": "all pairs of texts that differ in this, all six codes, all options", "why_tests_cant": "a test tries one pair of expressions; there are infinitely many ways to write an expression", "anchors": ["csg2csg/MCNPInput.py:MCNPInput.process", "csg2csg/MCNPInput.py:MCNPInput.__flatten_macrobodies", "csg2csg/MCNPInput.py:MCNPInput.__apply_boundary_conditions", "csg2csg/__main__.py:main"]}
{"id": "C118", "title": "Only the ratios of the fractions of a material matter", "statement": "If all fractions on a material card are multiplied by the same positive number, the run is the same: the same files with the same text.", "quantifier": "all pairs of texts that differ in this, all factors, all six codes, all options", "why_tests_cant": "a test tries one card and one factor; materials are also copied for cells with other densities before they are normalised", "anchors": ["csg2csg/MaterialCard.py:MaterialCard.normalise", "csg2csg/MCNPInput.py:MCNPInput.__reorganise_materials", "csg2csg/MCNPInput.py:MCNPInput.__get_material_cards", "csg2csg/__main__.py:main"]}
{"id": "C119", "title": "How a material card is written changes nothing", "statement": "If a material card is replaced by one with the same nuclides and fractions, but other line breaks, comments, keywords or ways to write the numbers, the run is the same: the same files with the same text.", "quantifier": "all pairs of texts that differ in this, all six codes, all options", "why_tests_cant": "a test tries one pair of cards; a card can be written in infinitely many ways", "anchors": ["csg2csg/MCNPInput.py:MCNPInput.__get_material_card", "csg2csg/MCNPInput.py:MCNPInput.__get_material_cards", "csg2csg/MCNPMaterialCard.py:MCNPMaterialCard.__process_string", "csg2csg/__main__.py:main"]}
{"id": "C120", "title": "How a TR card is written changes nothing", "statement": "If a TR card is replaced by one with the same displacement and the same cosines, given as cosines or as angles and on any lines, the run is the same: the same files with the same text.", "quantifier": "all pairs of texts that differ in this, all six codes, all options", "why_tests_cant": "a test tries one pair of cards; there are infinitely many displacements and rotations, and three forms of the card", "anchors": ["csg2csg/MCNPDataCard.py:MCNPTransformCard.__process_string", "csg2csg/MCNPInput.py:MCNPInput.__get_transform_cards", "csg2csg/__main__.py:main"]}
{"id": "C121", "title": "How a surface card is written changes nothing", "statement": "If surface cards are replaced by others with the same surface number, TR number, mnemonic and values, the numbers written in any way and on any lines and with any comments, the run is the same: the same files with the same text.", "quantifier": "all pairs of texts that differ in this, with any number of surfaces, all six codes, all options", "why_tests_cant": "a test tries one pair of cards; there are infinitely many ways to write a number and to divide a card into lines, for every kind of surface", "anchors": ["csg2csg/MCNPInput.py:MCNPInput.__get_surface_cards", "csg2csg/MCNPSurfaceCard.py:MCNPSurfaceCard.classify", "csg2csg/__main__.py:main"]}
{"id": "C122", "title": "How a cell card is written changes nothing", "statement": "If cell cards are replaced by others with the same number, material, density and geometry and with parameters that say the same, with any blanks, in any order, on any lines and with any comments, the run is the same: the same files with the same text.", "quantifier": "all pairs of texts that differ in this, with any number of cells, all six codes, all options", "why_tests_cant": "a test tries one pair of cards; the orders of the parameters, the numbers in them and the lines of a card can be combined in infinitely many ways", "anchors": ["csg2csg/MCNPInput.py:MCNPInput.__get_cell_cards", "csg2csg/MCNPCellCard.py:MCNPCellCard.__detect_keywords", "csg2csg/MCNPCellCard.py:MCNPCellCard.__interpret", "csg2csg/__main__.py:main"]}
{"id": "C123", "title": "How the importances in the data block are written changes nothing", "statement": "If the card with the importances for neutrons is replaced by one with the same numbers, written in any way and on any lines, the run is the same: the same files with the same text.", "quantifier": "all pairs of texts that differ in this, with any number of cells, all six codes, all options", "why_tests_cant": "a test tries one pair of cards; there are infinitely many lists of importances and ways to write them", "anchors": ["csg2csg/MCNPInput.py:MCNPInput.__get_importances", "csg2csg/MCNPInput.py:MCNPInput.__process_importances", "csg2csg/MCNPInput.py:MCNPInput.__apply_boundary_conditions", "csg2csg/__main__.py:main"]}
{"id": "C124", "title": "A TR card that nothing refers to changes nothing", "statement": "If a TR card with a number that no surface card and no fill refers to is put into the data block, the files are the same, with the same text.", "quantifier": "all texts of legal inputs, all places in the data block, all TR cards with 3, 9 or 12 entries, with cosines or degrees, all six codes, all options", "why_tests_cant": "a test tries one card in one file; there are infinitely many cards and files", "anchors": ["csg2csg/MCNPInput.py:MCNPInput.__get_transform_cards", "csg2csg/MCNPInput.py:MCNPInput.__apply_surface_transformations", "csg2csg/MCNPInput.py:MCNPInput.__apply_universe_transformations", "csg2csg/__main__.py:main"]}
