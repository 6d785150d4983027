{
 "claims": [
  {"property": "C01", "status": "proved", "theorems": ["C01_generalise_value", "C01_generalise_side"], "note": "Value equality up to the documented factor for planes and equality of sides for one-sheet-free surfaces."},
  {"property": "C02", "status": "partial", "theorems": ["C02_transform_partial", "C02_transform_rigid_partial", "C02_refuted", "C02_torus_fails"], "note": "Holds for every TR and every non-torus surface apart from cones with a sheet selector and quadrics that simplify misreads; refuted in general by C02_refuted and C02_torus_fails."},
  {"property": "C03", "status": "partial", "theorems": ["C03_simplify_partial", "C03_simplify_other", "C03_refuted"], "note": "simplify tests one coefficient too few: refuted by C03_refuted; holds off the x-z-only quadrics."},
  {"property": "C04", "status": "proved", "theorems": ["C04_mnemonics", "C04_senses"], "note": "All mnemonics with their MCNP equations."},
  {"property": "C05", "status": "proved", "theorems": ["C05_sq"], "note": "SQ expands to the same quadric."},
  {"property": "C06", "status": "proved", "theorems": ["C06_three_points"], "note": "Three point planes contain the points with MCNP's sense rule."},
  {"property": "C07", "status": "partial", "theorems": ["C07_two_pairs_partial", "C07_one_pair_dropped", "C07_refuted"], "note": "Refuted for x (wired to the y axis); holds for y and z. A single pair is dropped."},
  {"property": "C08", "status": "partial", "theorems": ["C08_read_sheet_partial", "C08_sheets_identified", "C08_writer_drops_sheet", "C08_refuted"], "note": "Reading keeps the nappe. Refuted: generalise, diff and the MCNP writer ignore the selector."},
  {"property": "C09", "status": "proved", "theorems": ["C09_diff"], "note": "diff answers same/reversed soundly."},
  {"property": "C10", "status": "proved", "theorems": ["C10_bounding_box"], "note": "Bounding boxes contain the bodies."},
  {"property": "C11", "status": "proved", "theorems": ["C11_bounding_coordinates"], "note": "The problem box covers all the surface boxes."},
  {"property": "C12", "status": "proved", "theorems": ["C12_rpp"], "note": "From the text of an RPP card; numbers as an ordered field with exact text round trip."},
  {"property": "C13", "status": "partial", "theorems": ["C13_box_partial", "C13_refuted"], "note": "Proved for BOX cards with edges at right angles unless the edges lie along x, y, z in this order with a negative component. C13_refuted shows that such boxes get an empty inside."},
  {"property": "C14", "status": "proved", "theorems": ["C14_rcc"], "note": "From the text of an RCC card with an axis that is not zero."},
  {"property": "C15", "status": "partial", "theorems": ["C15_facet_partial", "C15_negative_side", "C15_refuted"], "note": "Proved for all facets of RPP and BOX and facet 1 of RCC. C15_refuted: facets 2 and 3 of an RCC are exchanged."},
  {"property": "C16", "status": "proved", "theorems": ["C16_flatten_surfaces"], "note": "For every run of flatten that returns, on decks with distinct numbers not above the counter and macrobodies with the right number of coefficients."},
  {"property": "C17", "status": "partial", "theorems": ["C17_flatten_regions_partial", "C17_cell_truth_partial", "C17_refuted"], "note": "Proved for numbers in usual notation, facets (not 2 and 3 of an RCC, see C15) and cell complements, when no macrobody number is a suffix of another one whose facet is used. C17_refuted: bodies 5 and 15."},
  {"property": "C18", "status": "proved", "theorems": ["C18_same_region", "C18_fails_iff", "C18_card"], "note": "Token level: same symbols, so same legality and truth value; exact failure condition. Card level: text of a whole card against a character-level reader of the geometry."},
  {"property": "C19", "status": "partial", "theorems": ["C19_recorded_partial", "C19_refuted"], "note": "Refuted by C19_refuted: the surface written directly after an opening parenthesis is not recorded. All others are, and nothing else is."},
  {"property": "C20", "status": "proved", "theorems": ["C20_entries", "C20_succeeds_iff", "C20_region"], "note": "Entry by entry, exact success condition, and truth value of the description."},
  {"property": "C21", "status": "proved", "theorems": ["C21_expansion", "C21_truth_exists_unique"], "note": "For every deck with a rank function on references: ends, no reference left, same truth values; the truth values exist and are unique."},
  {"property": "C22", "status": "partial", "theorems": ["C22_cycle_diverges", "C22_no_exception_partial", "C22_refuted"], "note": "Refuted by C22_refuted; C22_cycle_diverges gives divergence for every cycle with existing targets; C21_expansion gives termination without cycles."},
  {"property": "C23", "status": "partial", "theorems": ["C23_dedupe_regions_partial", "C23_refuted"], "note": "Proved for decks in which no one-sheet cone shares its equation with another surface; refuted for the two sheets of one double cone."},
  {"property": "C24", "status": "proved", "theorems": ["C24_dedupe_complete"], "note": ""},
  {"property": "C25", "status": "partial", "theorems": ["C25_dedupe_boundaries_partial", "C25_refuted"], "note": "Refuted when the removed surface alone carries the condition; proved when duplicates carry the same condition."},
  {"property": "C26", "status": "partial", "theorems": ["C26_never_reflecting", "C26_star_ignored", "C26_write_partial", "C26_refuted"], "note": "Refuted: no card is ever read as reflecting. The writer part holds."},
  {"property": "C27", "status": "partial", "theorems": ["C27_listed", "C27_vacuum_boundaries_partial", "C27_refuted", "C27_fails"], "note": "The vacuum rule is proved for the surfaces recorded in the cell text; C27_refuted and C27_fails show surfaces after an opening bracket are missed and macrobody cells crash."},
  {"property": "C28", "status": "proved", "theorems": ["C28_cell_text", "C28_spaced"], "note": ""},
  {"property": "C29", "status": "proved", "theorems": ["C29_cell_text"], "note": ""},
  {"property": "C30", "status": "proved", "theorems": ["C30_region"], "note": ""},
  {"property": "C31", "status": "proved", "theorems": ["C31_cell_text"], "note": ""},
  {"property": "C32", "status": "partial", "theorems": ["C32_region_partial", "C32_nots_open", "C32_refuted"], "note": "The region text is right when every complement sign stands before a parenthesis (the reader and the complement expansion establish this); for the complement of a single surface the text has a sign before a blank (C32_refuted)."},
  {"property": "C33", "status": "proved", "theorems": ["C33_wrapping", "C33_long_word_broken"], "note": "Also shows what happens to words longer than a line."},
  {"property": "C34", "status": "partial", "theorems": ["C34_wrapping_diverges", "C34_refuted", "C34_terminates_partial"], "note": "Refuted: an unbroken 80-character line never terminates. Holds when every word is short enough."},
  {"property": "C35", "status": "proved", "theorems": ["C35_literal", "C35_bare", "C35_no_point"], "note": ""},
  {"property": "C36", "status": "partial", "theorems": ["C36_density_partial", "C36_refuted"], "note": "Python literals and densities with a point and a negative bare exponent; refuted for a plus sign (1.0+2 is read as 1.02)"},
  {"property": "C37", "status": "partial", "theorems": ["C37_comment_text", "C37_comment_added_partial", "C37_refuted"], "note": "Proved for comments after the geometry and for cards without cell parameters; lines that begin with a dollar sign refute the general claim (C37_refuted)."},
  {"property": "C38", "status": "proved", "theorems": ["C38_block"], "note": ""},
  {"property": "C39", "status": "partial", "theorems": ["C39_repeats_partial", "C39_refuted", "C39_order_refuted"], "note": "The code makes n-1 copies for nR; the theorem states what it does, C39_refuted and C39_order_refuted show the difference from the manual."},
  {"property": "C40", "status": "proved", "theorems": ["C40_importances"], "note": "One neutron importance card with continuation lines and no repetition entries (repetitions are C39)."},
  {"property": "C41", "status": "partial", "theorems": ["C41_shift", "C41_full", "C41_two_vectors_partial", "C41_refuted"], "note": "Displacement-only and full cards are proved; the card with two axis vectors is characterised exactly and refuted for the handedness of the third axis"},
  {"property": "C42", "status": "proved", "theorems": ["C42_composition", "C42_odd"], "note": ""},
  {"property": "C43", "status": "proved", "theorems": ["C43_normalise", "C43_zero"], "note": ""},
  {"property": "C44", "status": "partial", "theorems": ["C44_atom_fractions_partial", "C44_refuted"], "note": "Holds when no natural nuclide of a listed element is listed too and the element has natural nuclides; refuted for 6000 with 6012"},
  {"property": "C45", "status": "partial", "theorems": ["C45_mass_fractions_partial", "C45_refuted"], "note": "The exact factor is proved; it is refuted for every element of the table"},
  {"property": "C46", "status": "proved", "theorems": ["C46_numbers", "C46_abundance", "C46_nuclides"], "note": ""},
  {"property": "C47", "status": "partial", "theorems": ["C47_present_partial", "C47_refuted"], "note": "Elements with natural nuclides stay; refuted for 43000"},
  {"property": "C48", "status": "proved", "theorems": ["C48_density"], "note": ""},
  {"property": "C49", "status": "partial", "theorems": ["C49_sharing_partial", "C49_refuted"], "note": "Proved for decks that define every material in use; refuted when a used material is undefined"},
  {"property": "C50", "status": "partial", "theorems": ["C50_name_partial", "C50_refuted"], "note": "Proved for all elements from neon on and for lighter ones with mass number below 100; refuted for 9117"},
  {"property": "C51", "status": "proved", "theorems": ["C51_inverse", "C51_symbols"], "note": ""},
  {"property": "C52", "status": "partial", "theorems": ["C52_roundtrip_partial", "C52_refuted_empty"], "note": "Holds for materials with numeric nuclides and at least one of them; a material without nuclides swallows the next card (C52_refuted_empty)."},
  {"property": "C53", "status": "proved", "theorems": ["C53_colour"], "note": ""},
  {"property": "C54", "status": "partial", "theorems": ["C54_keeps_geometry", "C54_drops_unused_partial", "C54_exactly_geometry_partial", "C54_refuted"], "note": "Cells of universes that are part of the geometry are kept, and exactly these remain when no universe contains itself, some cell is in universe 0 and none is filled with 0; refuted without a cell in universe 0."},
  {"property": "C55", "status": "proved", "theorems": ["C55_partition", "C55_root_text", "C55_universe_text"], "note": "The universes made for SCONE and their texts; every cell occurs once."},
  {"property": "C56", "status": "partial", "theorems": ["C56_fills_partial", "C56_refuted"], "note": "Fills refer to a written universe when cells carry positive universe numbers; u=-3 refutes the general claim."},
  {"property": "C57", "status": "partial", "theorems": ["C57_writer", "C57_rotation_fails", "C57_never_displaced", "C57_undisplaced_partial", "C57_refuted"], "note": "Refuted: no fill displacement is ever written; proved in general that no universe gets one."},
  {"property": "C58", "status": "partial", "theorems": ["C58_independent_partial", "C58_all_fails", "C58_refuted_cone", "C58_refuted_material", "C58_refuted_twice"], "note": "Independent of all earlier codes except FLUKA, and except an earlier SCONE for SCONE; four refutations, one of them for every deck with a mass density in the default run."},
  {"property": "C59", "status": "proved", "theorems": ["C59_assignments"], "note": "one ASSIGNMA card per cell with the right fields; cell and material numbers of at most nine characters"},
  {"property": "C60", "status": "partial", "theorems": ["C60_compound_partial", "C60_fraction_text", "C60_refuted"], "note": "lines, columns and constituents for fractions whose text has ten characters; C60_fraction_text gives those with an exponent below 99; C60_refuted: a three-digit exponent makes the loop endless"},
  {"property": "C61", "status": "partial", "theorems": ["C61_compositions_partial", "C61_refuted"], "note": "sums by FLUKA name, total and element cards for nuclides FLUKA has a material for; C61_refuted: selenium dropped, uranium 236 fails, technetium 98 written as 99"},
  {"property": "C62", "status": "partial", "theorems": ["C62_body_partial", "C62_refuted", "C62_cone_overwritten", "C62_two_sheets"], "note": "Read by the body rules of the FLUKA manual (Spec/SurfaceCodes), with exact square roots of the cone and a bounding box that holds the point. Every two-sheet cone is written as a single point (C62_two_sheets, C62_refuted) and its coefficients are overwritten (C62_cone_overwritten)."},
  {"property": "C63", "status": "partial", "theorems": ["C63_round_trip_partial", "C63_refuted"], "note": "Number, type and coefficients survive for all types without a sheet selector; refuted for one-sheet cones."},
  {"property": "C64", "status": "partial", "theorems": ["C64_all", "C64_listed_partial", "C64_refuted", "C64_written"], "note": "All six by default; listed names in the order listed. Refuted: fixed order, each once, unknown words that contain a name."},
  {"property": "C65", "status": "proved", "theorems": ["C65_parameters"], "note": ""},
  {"property": "C66", "status": "proved", "theorems": ["C66_trans"], "note": ""},
  {"property": "C67", "status": "partial", "theorems": ["C67_surface_partial", "C67_rounding", "C67_refuted"], "note": "Holds when the six-decimal format keeps the coefficients of cones and tori; the rounding is bounded by C67_rounding, and C67_refuted shows a cone that it destroys."},
  {"property": "C68", "status": "partial", "theorems": ["C68_surface_partial", "C68_sheet_dropped", "C68_white", "C68_periodic", "C68_refuted"], "note": "Two-sheet cones only: one-sheet cones lose the sheet (C68_sheet_dropped, C68_refuted). Boundary conditions white and periodic are covered separately."},
  {"property": "C69", "status": "partial", "theorems": ["C69_surface_partial", "C69_torus", "C69_refuted"], "note": "Tori are not written (C69_torus). Cones hold within 10^10 of the apex (C69_refuted) and if the apex survives six decimals and the angle the conversion to degrees and back."},
  {"property": "C70", "status": "partial", "theorems": ["C70_parameters_partial", "C70_refuted", "C70_refuted_failures", "C70_refuted_letter"], "note": "For numbers without exponent, at most one blank on either side of an equals sign and importances for neutrons, the parameters in any order leave the rest of the cell unchanged and give it exactly their values (C70_parameters_partial). Refuted in general: an exponent is cut off (C70_refuted), imp:p and double blanks fail (C70_refuted_failures), any parameter with a letter u is taken for a universe (C70_refuted_letter)."},
  {"property": "C71", "status": "partial", "theorems": ["C71_comment_line_partial", "C71_other_lines", "C71_refuted"], "note": "Proved for comment lines with c in the first column, at any place of any file; lines that do not begin with c all stay. Refuted for a comment that begins with a blank, which the manual allows (C71_refuted)."},
  {"property": "C72", "status": "partial", "theorems": ["C72_materials_partial", "C72_refuted"], "note": "Materials of the data block, with continuation lines and comments; refuted for continuation lines that look like a material card."},
  {"property": "C73", "status": "partial", "theorems": ["C73_transforms_partial", "C73_refuted_comment", "C73_refuted_column", "C73_refuted_end"], "note": "TR cards of the data block; refuted for cards with a comment, not in the first column, or at the end of the file."},
  {"property": "C74", "status": "proved", "theorems": ["C74_fill_transforms"], "note": "Fill transforms by TR card, point by point, and the error for a missing card."},
  {"property": "C75", "status": "partial", "theorems": ["C75_biasing_partial", "C75_refuted_zero", "C75_refuted_range"], "note": "Cards, ratios below the cap and order; refuted: importance zero gets the value of importance one, and values below 1e-4 occur."},
  {"property": "C76", "status": "partial", "theorems": ["C76_roundtrip_partial", "C76_refuted_number"], "note": "Density, nuclides and printed fractions; the number becomes the name (C76_refuted_number)."},
  {"property": "C77", "status": "partial", "theorems": ["C77_materials_partial", "C77_refuted_following", "C77_refuted_glued", "C77_refuted_repeated"], "note": "Only if nothing but materials follows the first material, comments are separated and nuclides differ; three refutations."},
  {"property": "C78", "status": "partial", "theorems": ["C78_material_partial"], "note": "All nuclides except light ones with mass numbers above 99 (C50)."},
  {"property": "C79", "status": "partial", "theorems": ["C79_densities_partial", "C79_refuted_mass", "C79_refuted_negative"], "note": "Atom fractions; refuted for mass fractions."},
  {"property": "C80", "status": "proved", "theorems": ["C80_importances"], "note": ""},
  {"property": "C81", "status": "partial", "theorems": ["C81_no_blank_line_partial", "C81_refuted_blank_line"], "note": "Proved for texts with words of at most 69 characters and no three blanks in a row; refuted in general: two blanks before a word of 70 characters give a blank line."},
  {"property": "C82", "status": "partial", "theorems": ["C82_card_partial", "C82_refuted_exponent"], "note": "Proved for cells whose material is 0 or a positive number and whose universe, fill and importance are printed without exponents; refuted for an importance printed with an exponent, which is read as 1."},
  {"property": "C83", "status": "partial", "theorems": ["C83_file_partial", "C83_refuted_boundary"], "note": "Proved for decks whose cells, surfaces and materials meet the hypotheses of C82, C63 and C52; boundary conditions never come back (C83_refuted_boundary), and one-sheet cones are excluded."},
  {"property": "C84", "status": "partial", "theorems": ["C84_regions_partial", "C84_ends_partial"], "note": "Decks of ProperDeck: no torus or one-sheet cone with a TR card, no equation of C03_refuted after it, no facet words that C15 and C17 leave out; one-sheet cones only with quick."},
  {"property": "C85", "status": "partial", "theorems": ["C85_cells_partial", "C85_materials_partial", "C85_boundaries_partial", "C85_limits_partial", "C85_surfaces_partial", "C85_read"], "note": "For decks of ProperDeck, as in C84."},
  {"property": "C86", "status": "partial", "theorems": ["C86_file_partial"], "note": "For decks of SerpentDeck: the surfaces, cells and materials for which C67, C29 and C77 hold, and names that are no Serpent keywords."},
  {"property": "C87", "status": "partial", "theorems": ["C87_file_partial", "C87_refuted_torus"], "note": "The written file parsed by SCONE rules is exactly the deck; without tori, for printable numbers and atom fractions; fills are never displaced (C57)."},
  {"property": "C88", "status": "partial", "theorems": ["C88_border_partial", "C88_refuted_box", "C88_refuted_complement", "C88_refuted_material"], "note": "Border is right if exactly the outside lies outside of one single surface; refuted for boxes, complements of cells and material cells of this form."},
  {"property": "C89", "status": "partial", "theorems": ["C89_file_partial", "C89_refuted_cone", "C89_refuted_material"], "note": "One-sheet cones, materials without nuclides and periodic boundaries are excluded, with refutations; words have bounded length."},
  {"property": "C90", "status": "partial", "theorems": ["C90_file_partial", "C90_refuted_torus", "C90_refuted_density", "C90_refuted_units"], "note": "Tori, two-sheet cones, unknown nuclides and texts wider than their field are excluded, with refutations; the unit of the density is lost; FLUKA's limit on the length of lines is not considered."},
  {"property": "C91", "status": "partial", "theorems": ["C91_files_partial", "C91_materials_partial", "C91_refuted_white"], "note": "One-sheet cones, white and periodic boundaries, decks without a cell in universe 0, and characters that xml does not allow are excluded; the text is modelled after Python's xml library."},
  {"property": "C92", "status": "partial", "theorems": ["C92_serpent_partial", "C92_openmc_partial", "C92_phits_partial", "C92_fluka_partial", "C92_scone_partial", "C92_mcnp_partial"], "note": "Decks as in C84 and the theorems on files; floating-point arithmetic is exact. FLUKA: points on no surface, and in the bounding box for cones. SCONE: points close to the apex of cones. OpenMC: cells in universes that are used. Files written after FLUKA in the same run are excluded."},
  {"property": "C93", "status": "partial", "theorems": ["C93_words_partial", "C93_complements_partial", "C93_surfaces_partial"], "note": "Decks as in C84; that numbers print well is left to the theorems on files."},
  {"property": "C94", "status": "partial", "theorems": ["C94_succeeds_partial", "C94_refuted_graveyard"], "note": "Decks as in C84. The condition on cells with importance zero is sufficient; the theorem on failure covers those that list a macrobody."},
  {"property": "C95", "status": "partial", "theorems": ["C95_serpent_partial", "C95_openmc_partial", "C95_phits_partial", "C95_fluka_partial", "C95_scone_partial", "C95_mcnp_partial"], "note": "Fractions of atoms only; the decks excluded by C92; FLUKA takes densities in g/cm3 and knows most elements as one material; the libraries of nuclides are not compared."},
  {"property": "C96", "status": "partial", "theorems": ["C96_openmc_partial", "C96_serpent_partial", "C96_phits_partial", "C96_mcnp_partial", "C96_fluka_partial", "C96_scone_partial"], "note": "The exclusions of C92 and C95. For Serpent, PHITS, MCNP and SCONE the texts of the numbers on the surfaces after processing are conditions too, since the processing computes new numbers."},
  {"property": "C97", "status": "partial", "theorems": ["C97_refuted_serpent", "C97_refuted_mcnp", "C97_taken_or_lost", "C97_supported_partial", "C97_refuted_unknown", "C97_refuted_macrobodies", "C97_refuted_points"], "note": "Refuted for mnemonics that the program does not have and for point-defined surfaces with two or six numbers; proved for the others."},
  {"property": "C98", "status": "partial", "theorems": ["C98_serpent_partial", "C98_mcnp_partial", "C98_phits_partial", "C98_openmc_partial", "C98_scone_partial", "C98_refuted_fluka", "C98_refuted_serpent", "C98_refuted_openmc", "C98_refuted_scone"], "note": "The conditions of C96. Universes are numbers without sign (OpenMC, SCONE), also without leading zeros (Serpent, PHITS). For Serpent fills are displaced but not rotated (the meaning of the order field of a rotated `trans` card is not in the repository, so it is left out); for SCONE fills are neither displaced nor rotated, the search starts inside the border of the root, and points far along the axis of a cone are left out. Refuted without these conditions for Serpent, OpenMC and SCONE, and refuted for FLUKA."},
  {"property": "C99", "status": "partial", "theorems": ["C99_read_partial"], "note": "Missing: message blocks (C106: they cannot be read), comment lines that do not begin in the first column (C71), lines with only a comment after a dollar (C37), comments on TR and importance cards, TR cards with nine numbers (C41), importances with repetitions (C39), surfaces given by points around the x axis or by one pair of numbers (C07), and cell parameters other than those of C70."},
  {"property": "C100", "status": "partial", "theorems": ["C100_openmc_partial", "C100_serpent_partial", "C100_phits_partial", "C100_mcnp_partial", "C100_fluka_partial", "C100_scone_partial"], "note": "Missing: what is missing in C99 and C96. For Serpent, PHITS, MCNP and SCONE the lengths and forms of the printed numbers are conditions on the result of reading and processing; FLUKA leaves out cones, tori, moved macrobodies and points on surfaces; SCONE leaves out tori and points far from the tip of a cone."},
  {"property": "C101", "status": "partial", "theorems": ["C101_refuted_formats", "C101_refuted_fluka", "C101_refuted_geometry", "C101_refuted_density", "C101_refuted_sum", "C101_serpent_partial", "C101_phits_partial", "C101_mcnp_partial", "C101_openmc_partial", "C101_scone_partial", "C101_refuted_fractions"], "note": "Refuted for geometry, FLUKA, densities for MCNP and PHITS, densities `sum`, and fractions for SCONE. Proved: the materials in the files for MCNP, Serpent, OpenMC, PHITS and SCONE, under the conditions on printed numbers of C83, C86, C87, C89 and C91."},
  {"property": "C102", "status": "partial", "theorems": ["C102_refuted_serpent", "C102_refuted_complement", "C102_refuted_duplicate", "C102_refuted_fluka", "C102_phits_partial", "C102_mcnp_partial", "C102_fluka_partial", "C102_openmc_partial"], "note": "Proved from the text of the input: importances in MCNP and PHITS files, proportions and black holes in FLUKA files, vacuum boundaries in OpenMC files for surfaces named by cells with importance zero. Refuted for Serpent, for the outside world as a complement, for coincident surfaces and for cells with importance zero and a material."},
  {"property": "C103", "status": "partial", "theorems": ["C103_openmc_partial", "C103_serpent_partial", "C103_phits_partial", "C103_mcnp_partial", "C103_scone_partial"], "note": "Proved from the text of the input for OpenMC, PHITS, MCNP, for Serpent with fills that are not rotated, and for SCONE with fills that are neither displaced nor rotated; the conditions of C98 and C100 remain."},
  {"property": "C104", "status": "partial", "theorems": ["C104_run", "C104_text", "C104_refuted_success"], "note": "Proved for all pairs of runs that finish, from decks (C104_run) and from texts (C104_text); that the second run finishes when the first does is false (C104_refuted_success)."},
  {"property": "C105", "status": "partial", "theorems": ["C105_refuted_text", "C105_deck_partial", "C105_size_partial", "C105_file_partial"], "note": "Proved for any number of runs from the deck (C105_deck_partial, C105_size_partial) and from the text (C105_file_partial) under the conditions of C96 and C103 and bounds on the numbers in use; equality of the text is false (C105_refuted_text)."},
  {"property": "C106", "status": "partial", "theorems": ["C106_title", "C106_line_lost", "C106_message_partial", "C106_message_fails", "C106_refuted_message", "C106_refuted_title"], "note": "Titles without the word `message`: the whole run is the same (C106_title). Message blocks: only those of one line before a title that begins with c (C106_message_partial); otherwise no file is written (C106_message_fails). A title with the word `message` loses the first line of the cells (C106_line_lost, C106_refuted_title)."},
  {"property": "C107", "status": "partial", "theorems": ["C107_same", "C107_fluka_partial", "C107_run_partial", "C107_serpent", "C107_refuted"], "note": "Without FLUKA among the codes, and from Serpent files, all runs do the same (C107_same, C107_serpent). With FLUKA the texts differ (C107_refuted), but only in the order of element cards and of constituents in the FLUKA file and in SCONE files after it (C107_fluka_partial, C107_run_partial); texts of fractions must have ten columns, and codes other than SCONE after FLUKA are left out. Exact arithmetic: with floating-point numbers, sums of fractions may differ, too."},
  {"property": "C108", "status": "partial", "theorems": ["C108_partial", "C108_short", "C108_extra", "C108_refuted", "C108_refuted_sheet"], "note": "Exactly the cards with enough numbers are read (C108_partial, an equivalence; C108_short). Too many entries are ignored, except on cards of general planes (C108_extra, C108_refuted, C108_refuted_sheet)."},
  {"property": "C109", "status": "partial", "theorems": ["C109_partial", "C109_lost", "C109_last", "C109_refuted", "C109_refuted_last"], "note": "Which cards are read is an equivalence (C109_partial). With other numbers of entries than 3, 9, 12, 13 the rotation is lost, and the thirteenth entry is never used (C109_lost, C109_last, C109_refuted, C109_refuted_last)."},
  {"property": "C110", "status": "partial", "theorems": ["C110_points", "C110_convertible", "C110_openmc_partial", "C110_serpent_partial", "C110_phits_partial", "C110_mcnp_partial", "C110_fluka_partial", "C110_scone_partial", "C110_refuted"], "note": "Under the conditions of C100, for all six codes (C110_points, C110_convertible, C110_openmc_partial, C110_serpent_partial, C110_phits_partial, C110_mcnp_partial, C110_fluka_partial, C110_scone_partial). Where the TR cards stand does matter (C110_refuted)."},
  {"property": "C111", "status": "proved", "theorems": ["C111_case"], "note": "For runs with an MCNP file and with a Serpent file (C111_case)."},
  {"property": "C112", "status": "partial", "theorems": ["C112_partial", "C112_refuted"], "note": "For lines that do not look like materials or TR cards and do not contain the letters imp (C112_partial). A comment card with the word simple stops the program (C112_refuted)."},
  {"property": "C113", "status": "partial", "theorems": ["C113_partial", "C113_read_on", "C113_refuted"], "note": "For lines that do not look like materials, TR cards and importances (C113_partial). Everything else is read as if the blank line were not there (C113_read_on, C113_refuted)."},
  {"property": "C114", "status": "partial", "theorems": ["C114_points", "C114_openmc_partial", "C114_serpent_partial", "C114_phits_partial", "C114_mcnp_partial", "C114_fluka_partial", "C114_scone_partial", "C114_refuted"], "note": "For pairs of files that can both be converted in the sense of C100, for all six codes (C114_points, C114_openmc_partial, C114_serpent_partial, C114_phits_partial, C114_mcnp_partial, C114_fluka_partial, C114_scone_partial). Whether a file can be converted depends on numbers: a body must not have a number that ends with that of another (C114_refuted). TR cards and universes keep their numbers."},
  {"property": "C115", "status": "partial", "theorems": ["C115_material_partial", "C115_fill_partial", "C115_complement", "C115_missing_cell", "C115_refuted_material", "C115_refuted_surface", "C115_refuted_transform", "C115_refuted_universe"], "note": "Refused: a missing material, if materials with smaller numbers have one density each (C115_material_partial); a missing TR card of a fill (C115_fill_partial); a missing cell in a complement, and cycles of complements (C115_complement, C115_missing_cell). Accepted: a missing material that gets the number of a copy (C115_refuted_material), missing surfaces, universes and TR cards of surfaces (C115_refuted_surface, C115_refuted_universe, C115_refuted_transform)."},
  {"property": "C116", "status": "partial", "theorems": ["C116_points", "C116_convertible", "C116_openmc_partial", "C116_serpent_partial", "C116_phits_partial", "C116_mcnp_partial", "C116_fluka_partial", "C116_scone_partial", "C116_refuted"], "note": "For files that can be converted in the sense of C100, if no surface is a torus and no moved equation has `xz` as its only term of second degree, for all six codes (C116_points, C116_convertible, C116_openmc_partial, C116_serpent_partial, C116_phits_partial, C116_mcnp_partial, C116_fluka_partial, C116_scone_partial). The condition on equations is needed (C116_refuted)."},
  {"property": "C117", "status": "partial", "theorems": ["C117_points", "C117_openmc_partial", "C117_serpent_partial", "C117_phits_partial", "C117_mcnp_partial", "C117_fluka_partial", "C117_scone_partial", "C117_refuted"], "note": "Regions, materials and densities, for pairs of files that can both be converted in the sense of C100, for all six codes (C117_points, C117_openmc_partial, C117_serpent_partial, C117_phits_partial, C117_mcnp_partial, C117_fluka_partial, C117_scone_partial). Boundary conditions do change (C117_refuted)."},
  {"property": "C118", "status": "partial", "theorems": ["C118_partial", "C118_refuted"], "note": "For files that can be read in the sense of C99, in which some cell has a material; exact numbers, no rounding (C118_partial). If all cells are void the fractions are written as given (C118_refuted)."},
  {"property": "C119", "status": "partial", "theorems": ["C119_partial", "C119_refuted"], "note": "For keywords written as one word with an equals sign, and cards whose lines do not contain `imp` (C119_partial). Keywords without an equals sign or with blanks around it are refused (C119_refuted)."},
  {"property": "C120", "status": "partial", "theorems": ["C120_partial", "C120_refuted"], "note": "For cards with 3, 9 or 12 numbers that begin in the first column and have no comment (C120_partial). The rotation is lost if there is a comment (C120_refuted)."},
  {"property": "C121", "status": "partial", "theorems": ["C121_partial", "C121_refuted"], "note": "For cards continued with five blanks and numbers that Python's float reads (C121_partial). Continuation with & and numbers with the letter d end the run with an exception (C121_refuted)."},
  {"property": "C122", "status": "partial", "theorems": ["C122_partial", "C122_refuted"], "note": "For parameters u, fill, *fill, imp:n, vol and tmp, numbers without exponent and at most one blank on either side of an equals sign (C122_partial). An importance with an exponent is cut at the exponent, and two blanks before an equals sign end the run with an exception (C122_refuted)."},
  {"property": "C123", "status": "partial", "theorems": ["C123_partial", "C123_refuted"], "note": "For a card without repetitions that is the only one with importances and is not the last card (C123_partial). With a repetition the importances are different (C123_refuted)."},
  {"property": "C124", "status": "partial", "theorems": ["C124_partial", "C124_refuted"], "note": "For a card before other cards of the data block (C124_partial). As the last card it ends the run with an exception (C124_refuted)."}
 ]
}
