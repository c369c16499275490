{"claims": [
{"property": "C01", "status": "proved", "theorems": ["Verif.Props.C01_solutions_up_to", "Verif.Props.C01_all_solutions"], "note": ""},
{"property": "C02", "status": "proved", "theorems": ["Verif.Props.C02_solutions_count_up_to"], "note": ""},
{"property": "C03", "status": "proved", "theorems": ["Verif.Props.C03_solutions_up_to_buffer"], "note": ""},
{"property": "C04", "status": "proved", "theorems": ["Verif.Props.C04_some_solution"], "note": ""},
{"property": "C05", "status": "proved", "theorems": ["Verif.Props.C05_is_uniquely_solvable"], "note": ""},
{"property": "C06", "status": "partial", "theorems": ["Verif.Props.C06_kept", "Verif.Props.C06_few_clues", "Verif.Props.C06_gap_partial", "Verif.Props.C06_solution_partial", "Verif.Props.C06_solution_of_seventeen"], "note": "The 17-clue shortcut is only correct by the McGuire-Tugemann-Civario computation; everything else, including the 8-digit shortcut, is proved. The gap is limited to 8 to 16 clues with eight digits, at most one empty row per band and at most one empty column per stack (C06_gap_partial)."},
{"property": "C07", "status": "proved", "theorems": ["Verif.Props.C07_solver_total"], "note": ""},
{"property": "C08", "status": "proved", "theorems": ["Verif.Props.C08_is_solved", "Verif.Props.solved_iff_exactly_once"], "note": ""},
{"property": "C09", "status": "proved", "theorems": ["Verif.Props.C09_cells"], "note": ""},
{"property": "C10", "status": "proved", "theorems": ["Verif.Props.C10_from_bytes", "Verif.Props.C10_from_bytes_slice"], "note": ""},
{"property": "C11", "status": "proved", "theorems": ["Verif.Props.C11_line_round_trip", "Verif.Props.C11_placeholders"], "note": ""},
{"property": "C12", "status": "proved", "theorems": ["Verif.Props.C12_from_str_line"], "note": ""},
{"property": "C13", "status": "proved", "theorems": ["Verif.Props.C13_from_str_line_error"], "note": ""},
{"property": "C14", "status": "proved", "theorems": ["Verif.Props.C14_fast_path"], "note": ""},
{"property": "C15", "status": "proved", "theorems": ["Verif.Props.C15_from_str_line_total"], "note": ""},
{"property": "C16", "status": "proved", "theorems": ["Verif.Props.C16_from_str_block", "Verif.Props.C16_lines_of_text"], "note": ""},
{"property": "C17", "status": "partial", "theorems": ["Verif.Props.C17_from_str_block_error_partial", "Verif.Props.C17_from_str_block_total", "Verif.Props.C17_error_fields", "Verif.Props.C17_not_enough_rows_documentation_false", "Verif.Props.C17_not_enough_rows"], "note": "Everything is proved except the documented meaning of NotEnoughRows, which is false of the code: the value is one more than the number of rows encountered (C17_not_enough_rows_documentation_false, C17_not_enough_rows)."},
{"property": "C18", "status": "proved", "theorems": ["Verif.Props.C18_from_str_block_permissive"], "note": ""},
{"property": "C19", "status": "proved", "theorems": ["Verif.Props.C19_block_round_trip"], "note": ""},
{"property": "C20", "status": "proved", "theorems": ["Verif.Props.C20_round_trip", "Verif.Props.C20_visitors"], "note": ""},
{"property": "C21", "status": "proved", "theorems": ["Verif.Props.C21_line_order", "Verif.Props.C21_lexicographic"], "note": ""},
{"property": "C22", "status": "proved", "theorems": ["Verif.Props.C22_shuffle"], "note": ""},
{"property": "C23", "status": "proved", "theorems": ["Verif.Props.C23_shuffle_bijective", "Verif.Props.C23_number_of_transformations", "Verif.Props.C23_transformations_differ", "Verif.Props.C23_random_digits"], "note": ""},
{"property": "C24", "status": "proved", "theorems": ["Verif.Props.C24_canonicalized"], "note": ""},
{"property": "C25", "status": "proved", "theorems": ["Verif.Props.C25_lexicographic_minimum"], "note": ""},
{"property": "C26", "status": "proved", "theorems": ["Verif.Props.C26_decides_equivalence", "Verif.Props.C26_idempotent"], "note": ""},
{"property": "C27", "status": "proved", "theorems": ["Verif.Props.C27_automorphisms"], "note": ""},
{"property": "C28", "status": "proved", "theorems": ["Verif.Props.C28_commutes_with_solving"], "note": ""},
{"property": "C29", "status": "partial", "theorems": ["Verif.Props.C29_unsolved_forms_differ", "Verif.Props.C29_equal_forms_partial", "Verif.Props.C29_rigid_partial"], "note": "The documented 'equal canonical forms iff equivalent' is false for puzzles whose solution has automorphisms (C29_unsolved_forms_differ). Proved: equal forms imply equivalence, and the equivalence in full when the reported automorphism count is 1."},
{"property": "C30", "status": "proved", "theorems": ["Verif.Props.C30_generate_from"], "note": ""},
{"property": "C31", "status": "proved", "theorems": ["Verif.Props.C31_minimal", "Verif.Props.C31_minimal_single"], "note": ""},
{"property": "C32", "status": "proved", "theorems": ["Verif.Props.C32_symmetric"], "note": ""},
{"property": "C33", "status": "partial", "theorems": ["Verif.Props.C33_not_uniquely_solvable_partial", "Verif.Props.C33_documentation_false"], "note": "Sudokus with several solutions are returned as is. The documented claim for invalid (unsolvable) sudokus is false of the code and refuted by C33_documentation_false; what happens for them instead is proved."},
{"property": "C34", "status": "proved", "theorems": ["Verif.Props.C34_corresponding_cells", "Verif.Props.C34_classes_partition"], "note": ""},
{"property": "C35", "status": "proved", "theorems": ["Verif.Props.C35_generate_solved", "Verif.Props.C35_terminates"], "note": ""},
{"property": "C36", "status": "proved", "theorems": ["Verif.Props.C36_generate_with_symmetry", "Verif.Props.C36_generate"], "note": ""},
{"property": "C37", "status": "proved", "theorems": ["Verif.Props.C37_cell", "Verif.Props.C37_from_coords", "Verif.Props.C37_cells", "Verif.Props.C37_unions", "Verif.Props.C37_houses", "Verif.Props.C37_cell_at", "Verif.Props.C37_neighbors", "Verif.Props.C37_tables_in_range", "Verif.Props.C37_miniline_cells", "Verif.Props.C37_miniline_neighbors", "Verif.Props.C37_chute_minilines", "Verif.Props.C37_cells_at"], "note": ""},
{"property": "C38", "status": "proved", "theorems": ["Verif.Props.C38_operations", "Verif.Props.C38_predicates", "Verif.Props.C38_from_bits", "Verif.Props.C38_iter", "Verif.Props.C38_unique", "Verif.Props.C38_one_possibility"], "note": ""},
{"property": "C39", "status": "proved", "theorems": ["Verif.Props.C39_sound", "Verif.Props.C39_from_sudoku"], "note": ""},
{"property": "C40", "status": "proved", "theorems": ["Verif.Props.C40_from_sudoku"], "note": ""},
{"property": "C41", "status": "proved", "theorems": ["Verif.Props.C41_constructors", "Verif.Props.C41_solve", "Verif.Props.C41_terminates", "Verif.Props.C41_unsolvable", "Verif.Props.C41_from_sudoku", "Verif.Props.C41_avoidable_rectangles"], "note": ""},
{"property": "C42", "status": "partial", "theorems": ["Verif.Props.C42_to_sudoku", "Verif.Props.C42_digits", "Verif.Props.C42_candidates_cover", "Verif.Props.C42_candidates_partial", "Verif.Props.C42_stale_candidates"], "note": "Everything is proved except that the candidates of a fresh solver are exact: that is false for sudokus with a visible contradiction (C42_stale_candidates); for those it is proved that no possible digit is missing (C42_candidates_cover)."},
{"property": "C43", "status": "proved", "theorems": ["Verif.Props.C43_generates_every_grid"], "note": ""},
{"property": "C44", "status": "proved", "theorems": ["Verif.Props.C44_insert_candidate"], "note": ""},
{"property": "C45", "status": "proved", "theorems": ["Verif.Props.C45_grid_state_round_trip"], "note": ""},
{"property": "C46", "status": "proved", "theorems": ["Verif.Props.C46_read_deductions"], "note": ""},
{"property": "C47", "status": "proved", "theorems": ["Verif.Props.C47_explained"], "note": ""},
{"property": "C48", "status": "proved", "theorems": ["Verif.Props.C48_accounted", "Verif.Props.C48_entered", "Verif.Props.C48_exact", "Verif.Props.C48_overwritten_false"], "note": "The condition on the history is needed: after cell_state was called on a contradictory sudoku a given digit can be replaced in the returned grid (C48_overwritten_false)."},
{"property": "C49", "status": "partial", "theorems": ["Verif.Props.C49_solved_partial", "Verif.Props.C49_looked_false", "Verif.Props.C49_excluded_false"], "note": "Proved for histories in which no excluded digit was inserted and cell_state was not called while a contradiction was visible; without these conditions the claim is false of the code (C49_looked_false, C49_excluded_false)."},
{"property": "C50", "status": "partial", "theorems": ["Verif.Props.C50_nothing_found_partial", "Verif.Props.C50_nothing_left_partial", "Verif.Props.C50_naked_singles_first_false"], "note": "Proved for sudokus with a solution: when solve gives up, none of the strategies after the first one, nor the first one unless it is NakedSingles or runs alone, finds anything in the candidates left (C50_nothing_found_partial); if the list also has the strategies that find the degenerate fish and wings, no pattern is left at all (C50_nothing_left_partial). False of the code when NakedSingles is the first strategy (C50_naked_singles_first_false). For a first strategy that runs alone see C88."},
{"property": "C51", "status": "proved", "theorems": ["Verif.Props.C51_entries_once"], "note": ""},
{"property": "C52", "status": "partial", "theorems": ["Verif.Props.C52_exclusions_once_partial", "Verif.Props.C52_repeated_false"], "note": "Proved for all lists that begin with NakedSingles or HiddenSingles, after any history; with another strategy in the first place, which then collects everything it finds in one pass, the claim is false of the code (C52_repeated_false)."},
{"property": "C53", "status": "partial", "theorems": ["Verif.Props.C53_position_checked", "Verif.Props.C53_position_new_partial", "Verif.Props.C53_release_false", "Verif.Props.C53_position_all", "Verif.Props.C53_digit_checked", "Verif.Props.C53_digit_new", "Verif.Props.C53_digit_index", "Verif.Props.C53_digit_all", "Verif.Props.C53_candidate_new"], "note": "Proved for all types, numbers and builds, except that new of the position types checks its argument only with debug assertions (C53_position_new_partial); in release builds the documented panic does not happen (C53_release_false)."},
{"property": "C54", "status": "proved", "theorems": ["Verif.Props.C54_cell", "Verif.Props.C54_distinct"], "note": ""},
{"property": "C55", "status": "proved", "theorems": ["Verif.Props.C55_to_string", "Verif.Props.C55_lines", "Verif.Props.C55_entries"], "note": ""},
{"property": "C56", "status": "partial", "theorems": ["Verif.Props.C56_shown_partial", "Verif.Props.C56_at_least", "Verif.Props.C56_looked_false"], "note": "The equivalence is proved for histories without cell_state; after cell_state digits that are ruled out by naked singles can be shown (C56_looked_false), for those histories inclusion is proved (C56_at_least)."},
{"property": "C57", "status": "proved", "theorems": ["Verif.Props.C57_read_back"], "note": "The same text is printed by the new solver if cell_state was not called on the old one; the solutions are the same in any case."},
{"property": "C58", "status": "proved", "theorems": ["Verif.Props.C58_is_solved", "Verif.Props.C58_looked", "Verif.Props.C58_new_false"], "note": "The first part holds for all histories, also contradictory ones (C58_is_solved); the second for all histories without excluded entries (C58_looked). Before anything is looked at or solved, is_solved is false even for a full grid (C58_new_false)."},
{"property": "C59", "status": "proved", "theorems": ["Verif.Props.C59_singles", "Verif.Props.C59_more"], "note": "With NakedSingles only as the first strategy the claim is false, see C50_naked_singles_first_false."},
{"property": "C60", "status": "partial", "theorems": ["Verif.Props.C60_entry", "Verif.Props.C60_line_messages", "Verif.Props.C60_block_messages", "Verif.Props.C60_bytes_messages", "Verif.Props.C60_numbers_partial", "Verif.Props.C60_line_length_false", "Verif.Props.C60_rows_false"], "note": "Proved, except for the numbers in two messages of from_str_block: InvalidLineLength prints the index of the row as the number of entries (C60_line_length_false), NotEnoughRows one row too many (C60_rows_false)."},
{"property": "C61", "status": "proved", "theorems": ["Verif.Props.C61_generate_from", "Verif.Props.C61_generate_with_symmetry", "Verif.Props.C61_generate"], "note": ""},
{"property": "C62", "status": "proved", "theorems": ["Verif.Props.C62_one_order", "Verif.Props.C62_prefix"], "note": ""},
{"property": "C63", "status": "proved", "theorems": ["Verif.Props.C63_same_solutions", "Verif.Props.C63_same_count", "Verif.Props.C63_agree", "Verif.Props.C63_not_unique"], "note": ""},
{"property": "C64", "status": "proved", "theorems": ["Verif.Props.C64_more", "Verif.Props.C64_order", "Verif.Props.C64_without_simpler_false"], "note": "The conditions on the lists are needed: without the simpler variants the order matters (C64_without_simpler_false), with NakedSingles only in the first place too (C50_naked_singles_first_false)."},
{"property": "C65", "status": "proved", "theorems": ["Verif.Props.C65_unfinished", "Verif.Props.C65_no_strategies_false"], "note": "Without strategies the claim is false of the code: a complete grid gives Err (C65_no_strategies_false)."},
{"property": "C66", "status": "proved", "theorems": ["Verif.Props.C66_nothing_new", "Verif.Props.C66_again"], "note": ""},
{"property": "C67", "status": "proved", "theorems": ["Verif.Props.C67_transformed", "Verif.Props.C67_shuffled"], "note": ""},
{"property": "C68", "status": "proved", "theorems": ["Verif.Props.C68_fixed", "Verif.Props.C68_again"], "note": ""},
{"property": "C69", "status": "proved", "theorems": ["Verif.Props.C69_few", "Verif.Props.C69_comment_false"], "note": ""},
{"property": "C70", "status": "proved", "theorems": ["Verif.Props.C70_subsets", "Verif.Props.C70_fish"], "note": ""},
{"property": "C71", "status": "proved", "theorems": ["Verif.Props.C71_easier_first"], "note": ""},
{"property": "C72", "status": "proved", "theorems": ["Verif.Props.C72_seen", "Verif.Props.C72_now", "Verif.Props.C72_removed_left", "Verif.Props.C72_same_search_false"], "note": "C72_same_search_false: for the exception, the pattern may be gone when the deduction is listed"},
{"property": "C73", "status": "proved", "theorems": ["Verif.Props.C73_begins", "Verif.Props.C73_digits", "Verif.Props.C73_solved"], "note": ""},
{"property": "C74", "status": "proved", "theorems": ["Verif.Props.C74_table", "Verif.Props.C74_read_back", "Verif.Props.C74_round_trip"], "note": ""},
{"property": "C75", "status": "proved", "theorems": ["Verif.Props.C75_found", "Verif.Props.C75_sound", "Verif.Props.C75_opposite", "Verif.Props.C75_without_uniqueness_false"], "note": ""},
{"property": "C76", "status": "proved", "theorems": ["Verif.Props.C76_lists", "Verif.Props.C76_one_missing", "Verif.Props.C76_panics"], "note": ""},
{"property": "C77", "status": "proved", "theorems": ["Verif.Props.C77_links", "Verif.Props.C77_sound", "Verif.Props.C77_both_directions_false"], "note": ""},
{"property": "C78", "status": "proved", "theorems": ["Verif.Props.C78_canonicalized", "Verif.Props.C78_same_form"], "note": ""},
{"property": "C79", "status": "proved", "theorems": ["Verif.Props.C79_outcomes", "Verif.Props.C79_fair", "Verif.Props.C79_class_size", "Verif.Props.C79_solved", "Verif.Props.C79_unsolved", "Verif.Props.C79_same_count"], "note": ""},
{"property": "C80", "status": "proved", "theorems": ["Verif.Props.C80_sound", "Verif.Props.C80_only", "Verif.Props.C80_entered", "Verif.Props.C80_left", "Verif.Props.C80_solved", "Verif.Props.C80_without_simpler_false"], "note": ""},
{"property": "C81", "status": "proved", "theorems": ["Verif.Props.C81_agree", "Verif.Props.C81_agree_bare", "Verif.Props.C81_misread_false", "Verif.Props.C81_printed", "Verif.Props.C81_example_false", "Verif.Props.C81_example_permissive"], "note": ""},
{"property": "C82", "status": "proved", "theorems": ["Verif.Props.C82_obtainable", "Verif.Props.C82_kept"], "note": ""},
{"property": "C83", "status": "proved", "theorems": ["Verif.Props.C83_split", "Verif.Props.C83_sum", "Verif.Props.C83_unique", "Verif.Props.C83_panics", "Verif.Props.C83_terminates"], "note": ""},
{"property": "C84", "status": "proved", "theorems": ["Verif.Props.C84_completed", "Verif.Props.C84_count", "Verif.Props.C84_unique", "Verif.Props.C84_outcomes", "Verif.Props.C84_attained", "Verif.Props.C84_empty"], "note": ""},
{"property": "C85", "status": "proved", "theorems": ["Verif.Props.C85_conversions", "Verif.Props.C85_cells", "Verif.Props.C85_cell_at", "Verif.Props.C85_neighbors", "Verif.Props.C85_coords_checked", "Verif.Props.C85_checked_in_range", "Verif.Props.C85_position_false", "Verif.Props.C85_release_false"], "note": ""},
{"property": "C86", "status": "proved", "theorems": ["Verif.Props.C86_line", "Verif.Props.C86_block", "Verif.Props.C86_permissive", "Verif.Props.C86_to_line"], "note": ""},
{"property": "C87", "status": "proved", "theorems": ["Verif.Props.C87_shuffle", "Verif.Props.C87_canonicalized"], "note": ""},
{"property": "C88", "status": "proved", "theorems": ["Verif.Props.C88_first_pass"], "note": ""}
]}
