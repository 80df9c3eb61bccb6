"""Writes MANIFEST.json from the table below. Run from anywhere: python3 /verif/tools/manifest.py"""
import json, os
P, Q = "proved", "partial"
M = {
"C01": (P, ["mul_is_composition"], ""),
"C02": (P, ["eq_iff_same_operation", "eq_equivalence", "mul_respects_eq", "add_respects_eq", "add_is_translation"], ""),
"C03": (P, ["mul_assoc_eq", "identity_neutral", "identity_inversion_meaning"], ""),
"C04": (P, ["mul_translation_reduced", "add_translation_reduced", "last_row_preserved"], ""),
"C05": (Q, ["try_inverse_partial", "try_inverse_hexagonal", "try_inverse_wrong", "try_inverse_none_iff", "det_exact"], "False for some hexagonal operations (double-precision truncation; witness): proved for the cubic cell, exact condition for the hexagonal cell."),
"C06": (Q, ["powi_laws_partial", "powi_exponent_laws", "powi_is_iteration", "powi_mul", "powi_minus_one_wrong", "powi_laws_hexagonal"], "Non-negative exponents for all operations; negative ones for the cubic cell; false for some hexagonal operations (witness), with the exact condition for the hexagonal cell."),
"C07": (Q, ["eq_hash_agree_partial", "eq_hash_exact", "eq_hash_disagree"], "False in general (witness eq_hash_disagree); holds for operations with translations in 0..12."),
"C08": (Q, ["cmp_eq_agree_partial", "eq_hash_exact", "cmp_eq_disagree"], "False in general (witness for every operation); one direction holds always, both on reduced operations."),
"C09": (Q, ["rotation_type_correct_partial", "rotation_type_correct", "equiv_num_total", "rotation_type_large_wrong", "cell_rotations_exact"], "False for entries of nine digits (f64 determinant; witness). Proved as computed for all finite-order matrices with entries up to 100000, and for all entries with the exact determinant (crystallographic restriction proved)."),
"C10": (Q, ["rotation_type_error_iff_partial", "rotation_type_ignores_translation", "rotation_type_error_iff", "rotation_type_singular", "equiv_num_of_shear", "rotation_type_large_wrong"], "False for entries of nine digits (same witness); proved as computed for entries up to 100000, and for all entries with the exact determinant."),
"C11": (Q, ["eigenvector_spec", "eigenvector_as_computed", "eigenvector_cubic_partial", "eigenvector_panics_hexagonal"], "False for four hexagonal operations (axis [210] and alike): panic. Proved for the cubic holohedry; exact panic condition proved."),
"C12": (Q, ["rotation_type_order_partial", "rotation_type_order_exact", "rotation_type_order_broken"], "False: cmp is neither antisymmetric nor transitive."),
"C13": (P, ["jones_faithful", "jones_denotes", "jones_injective"], ""),
"C14": (P, ["rotation_text_ignores_translation", "rotation_text_injective", "holohedry_small"], ""),
"C15": (P, ["parsing_terminates", "symbol_progress"], ""),
"C16": (P, ["rejected_iff"], ""),
"C17": (Q, ["written_parsed", "written_consumed_partial", "junk_ignored"], "False for arbitrary text (junk_ignored); for texts of the grammar everything is used."),
"C18": (Q, ["display_reparsed", "display_roundtrip_partial", "display_not_faithful"], "Re-reading always succeeds and uses the whole text; the notation comes back exactly when a stated condition holds."),
"C19": (Q, ["display_same_group_partial", "display_changes_group"], "Holds unless a second 2' or 2\" follows 2 or 4; false there."),
"C20": (P, ["default_axes"], ""),
"C21": (Q, ["explicit_axis_partial", "explicit_axis_overridden"], "False for a second 2-fold and a third 3-fold; proved elsewhere."),
"C22": (P, ["shift_read", "no_shift_read"], ""),
"C23": (Q, ["shift_normalised_partial", "shift_out_of_range"], "The documented range is left (12 stays 12); congruence and idempotence hold."),
"C24": (P, ["symbol_accepted_iff", "symbol_shape"], ""),
"C25": (P, ["symbol_rotation", "symbol_metric"], ""),
"C26": (Q, ["screw_translation_partial", "screw_power_partial", "screw_missing", "screw_body_diagonal_wrong"], "False for 2_1 (ignored), 4_2 and 6_3 (rejected), 3* (wrong direction)."),
"C27": (P, ["letters_add", "letters_reduced", "letters_order"], ""),
"C28": (P, ["minus_is_inversion", "minus_act"], ""),
"C29": (P, ["shifted_is_change_of_origin", "shifted_respects_eq", "shifted_mul"], ""),
"C30": (Q, ["shifted_group_partial", "shifted_group_iff", "shifted_positions_partial", "shift_ignores_inversion"], "False for lattices with a leading minus (the inversion is not moved); proved for the others."),
"C31": (P, ["positions_in_group"], ""),
"C32": (P, ["positions_distinct"], ""),
"C33": (P, ["positions_normalised"], ""),
"C34": (P, ["positions_complete", "positions_unique"], ""),
"C35": (P, ["positions_form_group", "rotations_are_point_group", "point_group_le_positions"], ""),
"C36": (Q, ["generators_listed_partial", "generator_lost"], "Proved for consistent symbols; false otherwise (P 1a)."),
"C37": (P, ["generation_stops_iff", "generation_stops_on_panic"], ""),
"C38": (Q, ["no_panic_partial", "parsed_symbols_panic"], "False: some parsed symbols panic; proved under the exact success condition of C57."),
"C39": (P, ["output_order"], ""),
"C40": (P, ["full_sets_shape", "full_sets_of_notation"], ""),
"C41": (P, ["text_listing", "pure_txt_texts", "text_listing_total"], ""),
"C42": (Q, ["minimal_translation_partial", "minimal_translation_undominated", "minimal_translation_not_shortest"], "Equivalence, range and comparison proved, and that no equivalent translation is both shorter and has no more zero components; the result is not always the shortest."),
"C43": (Q, ["positive_mod_value_partial", "positive_mod_twelve"], "Exact value proved for all integers: the remainder, except that negative multiples of 12 give 12 (witness)."),
"C44": (P, ["lattice_translations_group", "lattice_matrices", "letter_translations"], ""),
"C45": (P, ["inversion_listed"], ""),
"C47": (P, ["index_lookups"], ""),
"C48": (Q, ["hm_lookup_partial", "default_hm_ambiguous"], "Proved for the full table; false for the default table, whose HM symbols are cut at the first slash (witness)."),
"C49": (Q, ["hall_lookup_partial", "hall_lookup_ambiguous"], "Proved except for three rows of the full table that repeat an earlier Hall symbol (witness)."),
"C50": (P, ["tabulated_usable", "every_number"], ""),
"C51": (Q, ["variants_name_rows_partial", "variant_123"], "Proved for all variants but 123, whose row holds another group (witness)."),
"C52": (Q, ["tables_agree_partial", "origin_choice_ignored", "tables_differ_24"], "False for 24 origin-choice-1 codes (other origin) and for number 24 (other group); proved otherwise."),
"C53": (Q, ["type_iff_number_partial", "row_24_is_23", "wrong_type_24", "numbers_differ_partial", "numbers_differ_24", "wrong_row_24"], "Proved for all pairs of rows except the row I 2ac 2bc, listed under 24, which is of type 23 (witness)."),
"C54": (Q, ["tabulated_display_partial", "display_panics", "tabulated_display_text_partial"], "The listing never panics; Display panics exactly for 25 space-group numbers."),
"C58": (Q, ["type_iff_number_partial", "same_number_same_type_partial", "row_24_is_23", "wrong_type_24"], "Proved except for the row I 2ac 2bc of number 24 (witness: not of the type of I 2ac 2ab)."),
"C55": (P, ["debug_run_ends", "generation_diverges", "generation_stops_iff"], "Holds for a build with overflow checks; with exact integers P 6 4 never stops (the exact condition is C37)."),
"C62": (P, ["default_types_distinct"], ""),
"C63": (Q, ["HM.hm_names_row_partial", "HM.variant_names_partial", "HM.hm_90_wrong"], "False for one row: number 90 is listed as P 42 1 2. Proved for the 529 others."),
"C64": (Q, ["HM.default_hm_names_partial"], "False for 40 rows (names cut at '/', numbers 90 and 155); proved for the 190 others, negation proved for the 40."),
"C65": (Q, ["HM.hm_identifies_partial", "HM.hm_ambiguous"], "Proved except for the pairs 23/24 and 197/199, whose names list elements both groups have."),
"C66": (Q, ["HM.hm_lookups_agree_partial", "HM.hm_lookups_disagree"], "False for six symbols (P 4 is answered 75 and 83); exact characterisation."),
"C46": (P, ["no_overflow", "letters_overflow"], "letters_overflow: the limit on letters is sharp."),
"C59": (P, ["debug_answer_exact"], ""),
"C60": (P, ["debug_run_ends", "endless_run_overflows"], ""),
"C61": (P, ["operations_exact", "operations_no_overflow", "operations_can_overflow", "full_sets_no_overflow"], ""),
"C56": (Q, ["diagonal_second_partial", "diagonal_after_four"], "False after 4; proved after 3 and 6."),
"C57": (P, ["positions_exist_iff"], ""),
"C67": (P, ["release_agrees"], ""),
"C68": (P, ["release_run_ends"], ""),
"C69": (P, ["release_answer_exact", "release_positions_iff", "release_panics", "release_capacity_wraps", "release_letters_wrap"], "The last two show that the limits are needed."),
"C70": (P, ["release_operations_agree", "release_powi_mod", "release_powi_exact", "release_operations_exact", "release_full_sets", "release_eq_wrong"], "release_eq_wrong: beyond the limit == can answer wrongly."),
"C71": (P, ["build_returns_iff", "build_fails_iff", "build_any_order", "setters_like_builder"], ""),
"C72": (Q, ["same_group_iff_same_positions", "same_group_same_order", "same_group_same_positions_partial", "same_group_other_core"], "All but the last clause proved for all consistent symbols; identity of the core positions holds for primitive lattices and fails for centred ones (I 2 and I 2n)."),
"C73": (P, ["positions_eq_iff", "computed_positions_eq"], ""),
"C74": (Q, ["text_denotes_group_partial", "text_positions_partial", "reading_unique", "rotation_unique", "axes_exact", "wrong_axis_wrong_group"],
        "false of the code for axis marks outside AxesAsRead (exact condition: axes_exact; wrong_axis_wrong_group shows a wrong group) and for shifts of centrosymmetric symbols that move the inversion out of the group (C30)"),
"C75": (P, ["tabulated_text", "tabulated_printed"], ""),
"C76": (P, ["orbit_listed", "orbit_counts", "site_multiplicity", "general_point", "printed_orbit"], ""),
"C77": (P, ["enum_orders", "lattice_symbol_order", "origin_shift_order", "matrix_symbol_order", "notation_order", "positions_cmp_equal", "rotation_type_names"], ""),
"C78": (P, ["matrix_symbol_exact", "parse_exact", "component_roundtrip"], ""),
"C79": (P, ["sum_laws", "eq_iff_difference", "sum_not_operation", "set_translation_meaning", "unique_rotation_meaning", "fraction_meaning"], ""),
"C80": (P, ["text_read_exactly", "read_positions", "read_group_published"], ""),
"C81": (P, ["more_symbols_larger_group", "fewer_symbols_consistent", "more_symbols_list_more", "same_symbols_same_rotations"], ""),
"C82": (P, ["positions_divide_cell", "positions_count_values"], ""),
"C83": (P, ["leading_minus_group", "leading_minus_count"], ""),
"C84": (P, ["consistent_iff_visible", "closed_list_complete"], ""),
"C85": (P, ["proper_rotation_as_computed", "proper_rotation_meaning"], ""),
"C86": (P, ["passes_at_most_positions", "passes_at_most_48", "positions_bounded", "passes_bounded"], ""),
"C87": (P, ["relabel_group", "relabel_consistent", "relabel_positions", "relabel_exists"], ""),
"C88": (P, ["mirror_group", "mirror_consistent", "mirror_positions"], ""),
"C89": (P, ["lattice_letter_group", "lattice_letter_count"], ""),
"C90": (P, ["display_determines", "display_positions_determined", "display_box_aligned"], ""),
"C91": (P, ["display_settles"], ""),
"C92": (P, ["setting_named", "setting_axes", "setting_positions"], ""),
"C93": (P, ["origin_choices", "origin_choices_numbers", "origin_positions"], ""),
"C94": (P, ["printed_set_identifies", "text_format_determines", "text_format_iff"], ""),
"C95": (P, ["crystal_system_order", "one_crystal_system", "tabulated_crystal_system"], ""),
"C96": (P, ["positions_crystal_class"], ""),
"C97": (P, ["debug_determines", "symbol_errors", "rotation_errors"], ""),
"C98": (P, ["one_of_230_types", "same_type_iff_number"], ""),
"C99": (P, ["mirror_iff_number", "handed_iff", "handed_proper", "mirror_notation_number"], ""),
"C100": (P, ["site_symmetry_listed", "site_symmetry_class", "site_symmetry_conjugate"], ""),
"C101": (P, ["redundant_symbols", "redundant_symbols_positions"], ""),
"C102": (P, ["number_settles_rotations", "number_settles_positions"], ""),
"C103": (P, ["symmorphic_iff_number", "full_site_iff_number"], ""),
"C104": (P, ["free_iff_number", "no_special_positions_iff_number"], ""),
"C105": (P, ["centre_iff_number", "proper_iff_number", "polar_iff_number", "kinds_listed_iff_number"], ""),
"C106": (P, ["display_iff_axes", "display_total"], ""),
"C107": (P, ["same_group_iff_shift_kept", "kept_shift_same_group", "shift_by_lattice_translation", "shift_along_polar_direction", "equivalent_shifts_positions"], ""),
"C108": (P, ["structure_sum_zero_iff", "absent_iff_listed", "equivalent_reflections", "centring_forbids", "minus_makes_real"], ""),
"C109": (P, ["tabulated_cell", "rigid_iff_listed", "first_symbol_cell"], ""),
"C110": (P, ["symmetric_iff_listed", "symmetrised_symmetric"], ""),
"C111": (P, ["piezo_iff_number", "tensor_iff_listed"], ""),
"C112": (P, ["tabulated_form", "optical_iff_number"], ""),
"C113": (P, ["broken_condition_absent", "general_reflection_iff", "general_reflection_exists"], ""),
"C114": (Q, ["HM.named_condition", "HM.full_conditions_partial", "HM.default_conditions_partial", "HM.hm_90_condition"], "the generic theorem is complete; the tables miss row 366 of the full table and 40 rows of the default table, whose names are not names of their groups (C63, C64)"),
"C115": (P, ["extra_iff_number"], ""),
"C116": (P, ["reflection_multiplicity", "general_multiplicity", "friedel_iff_centre"], ""),
}
here = os.path.dirname(os.path.dirname(os.path.abspath(__file__)))
json.dump({"claims": [{"property": k, "status": v[0], "theorems": ["Verif." + t for t in v[1]], "note": v[2]}
                      for k, v in sorted(M.items(), key=lambda kv: int(kv[0][1:]))]}, open(here + "/MANIFEST.json", "w"), indent=1)
