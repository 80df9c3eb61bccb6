{
 "claims": [
  {
   "property": "C01",
   "status": "proved",
   "theorems": [
    "Verif.mul_is_composition"
   ],
   "note": ""
  },
  {
   "property": "C02",
   "status": "proved",
   "theorems": [
    "Verif.eq_iff_same_operation",
    "Verif.eq_equivalence",
    "Verif.mul_respects_eq",
    "Verif.add_respects_eq",
    "Verif.add_is_translation"
   ],
   "note": ""
  },
  {
   "property": "C03",
   "status": "proved",
   "theorems": [
    "Verif.mul_assoc_eq",
    "Verif.identity_neutral",
    "Verif.identity_inversion_meaning"
   ],
   "note": ""
  },
  {
   "property": "C04",
   "status": "proved",
   "theorems": [
    "Verif.mul_translation_reduced",
    "Verif.add_translation_reduced",
    "Verif.last_row_preserved"
   ],
   "note": ""
  },
  {
   "property": "C05",
   "status": "partial",
   "theorems": [
    "Verif.try_inverse_partial",
    "Verif.try_inverse_hexagonal",
    "Verif.try_inverse_wrong",
    "Verif.try_inverse_none_iff",
    "Verif.det_exact"
   ],
   "note": "False for some hexagonal operations (double-precision truncation; witness): proved for the cubic cell, exact condition for the hexagonal cell."
  },
  {
   "property": "C06",
   "status": "partial",
   "theorems": [
    "Verif.powi_laws_partial",
    "Verif.powi_exponent_laws",
    "Verif.powi_is_iteration",
    "Verif.powi_mul",
    "Verif.powi_minus_one_wrong",
    "Verif.powi_laws_hexagonal"
   ],
   "note": "Non-negative exponents for all operations; negative ones for the cubic cell; false for some hexagonal operations (witness), with the exact condition for the hexagonal cell."
  },
  {
   "property": "C07",
   "status": "partial",
   "theorems": [
    "Verif.eq_hash_agree_partial",
    "Verif.eq_hash_exact",
    "Verif.eq_hash_disagree"
   ],
   "note": "False in general (witness eq_hash_disagree); holds for operations with translations in 0..12."
  },
  {
   "property": "C08",
   "status": "partial",
   "theorems": [
    "Verif.cmp_eq_agree_partial",
    "Verif.eq_hash_exact",
    "Verif.cmp_eq_disagree"
   ],
   "note": "False in general (witness for every operation); one direction holds always, both on reduced operations."
  },
  {
   "property": "C09",
   "status": "partial",
   "theorems": [
    "Verif.rotation_type_correct_partial",
    "Verif.rotation_type_correct",
    "Verif.equiv_num_total",
    "Verif.rotation_type_large_wrong",
    "Verif.cell_rotations_exact"
   ],
   "note": "False for entries of nine digits (f64 determinant; witness). Proved as computed for all finite-order matrices with entries up to 100000, and for all entries with the exact determinant (crystallographic restriction proved)."
  },
  {
   "property": "C10",
   "status": "partial",
   "theorems": [
    "Verif.rotation_type_error_iff_partial",
    "Verif.rotation_type_ignores_translation",
    "Verif.rotation_type_error_iff",
    "Verif.rotation_type_singular",
    "Verif.equiv_num_of_shear",
    "Verif.rotation_type_large_wrong"
   ],
   "note": "False for entries of nine digits (same witness); proved as computed for entries up to 100000, and for all entries with the exact determinant."
  },
  {
   "property": "C11",
   "status": "partial",
   "theorems": [
    "Verif.eigenvector_spec",
    "Verif.eigenvector_as_computed",
    "Verif.eigenvector_cubic_partial",
    "Verif.eigenvector_panics_hexagonal"
   ],
   "note": "False for four hexagonal operations (axis [210] and alike): panic. Proved for the cubic holohedry; exact panic condition proved."
  },
  {
   "property": "C12",
   "status": "partial",
   "theorems": [
    "Verif.rotation_type_order_partial",
    "Verif.rotation_type_order_exact",
    "Verif.rotation_type_order_broken"
   ],
   "note": "False: cmp is neither antisymmetric nor transitive."
  },
  {
   "property": "C13",
   "status": "proved",
   "theorems": [
    "Verif.jones_faithful",
    "Verif.jones_denotes",
    "Verif.jones_injective"
   ],
   "note": ""
  },
  {
   "property": "C14",
   "status": "proved",
   "theorems": [
    "Verif.rotation_text_ignores_translation",
    "Verif.rotation_text_injective",
    "Verif.holohedry_small"
   ],
   "note": ""
  },
  {
   "property": "C15",
   "status": "proved",
   "theorems": [
    "Verif.parsing_terminates",
    "Verif.symbol_progress"
   ],
   "note": ""
  },
  {
   "property": "C16",
   "status": "proved",
   "theorems": [
    "Verif.rejected_iff"
   ],
   "note": ""
  },
  {
   "property": "C17",
   "status": "partial",
   "theorems": [
    "Verif.written_parsed",
    "Verif.written_consumed_partial",
    "Verif.junk_ignored"
   ],
   "note": "False for arbitrary text (junk_ignored); for texts of the grammar everything is used."
  },
  {
   "property": "C18",
   "status": "partial",
   "theorems": [
    "Verif.display_reparsed",
    "Verif.display_roundtrip_partial",
    "Verif.display_not_faithful"
   ],
   "note": "Re-reading always succeeds and uses the whole text; the notation comes back exactly when a stated condition holds."
  },
  {
   "property": "C19",
   "status": "partial",
   "theorems": [
    "Verif.display_same_group_partial",
    "Verif.display_changes_group"
   ],
   "note": "Holds unless a second 2' or 2\" follows 2 or 4; false there."
  },
  {
   "property": "C20",
   "status": "proved",
   "theorems": [
    "Verif.default_axes"
   ],
   "note": ""
  },
  {
   "property": "C21",
   "status": "partial",
   "theorems": [
    "Verif.explicit_axis_partial",
    "Verif.explicit_axis_overridden"
   ],
   "note": "False for a second 2-fold and a third 3-fold; proved elsewhere."
  },
  {
   "property": "C22",
   "status": "proved",
   "theorems": [
    "Verif.shift_read",
    "Verif.no_shift_read"
   ],
   "note": ""
  },
  {
   "property": "C23",
   "status": "partial",
   "theorems": [
    "Verif.shift_normalised_partial",
    "Verif.shift_out_of_range"
   ],
   "note": "The documented range is left (12 stays 12); congruence and idempotence hold."
  },
  {
   "property": "C24",
   "status": "proved",
   "theorems": [
    "Verif.symbol_accepted_iff",
    "Verif.symbol_shape"
   ],
   "note": ""
  },
  {
   "property": "C25",
   "status": "proved",
   "theorems": [
    "Verif.symbol_rotation",
    "Verif.symbol_metric"
   ],
   "note": ""
  },
  {
   "property": "C26",
   "status": "partial",
   "theorems": [
    "Verif.screw_translation_partial",
    "Verif.screw_power_partial",
    "Verif.screw_missing",
    "Verif.screw_body_diagonal_wrong"
   ],
   "note": "False for 2_1 (ignored), 4_2 and 6_3 (rejected), 3* (wrong direction)."
  },
  {
   "property": "C27",
   "status": "proved",
   "theorems": [
    "Verif.letters_add",
    "Verif.letters_reduced",
    "Verif.letters_order"
   ],
   "note": ""
  },
  {
   "property": "C28",
   "status": "proved",
   "theorems": [
    "Verif.minus_is_inversion",
    "Verif.minus_act"
   ],
   "note": ""
  },
  {
   "property": "C29",
   "status": "proved",
   "theorems": [
    "Verif.shifted_is_change_of_origin",
    "Verif.shifted_respects_eq",
    "Verif.shifted_mul"
   ],
   "note": ""
  },
  {
   "property": "C30",
   "status": "partial",
   "theorems": [
    "Verif.shifted_group_partial",
    "Verif.shifted_group_iff",
    "Verif.shifted_positions_partial",
    "Verif.shift_ignores_inversion"
   ],
   "note": "False for lattices with a leading minus (the inversion is not moved); proved for the others."
  },
  {
   "property": "C31",
   "status": "proved",
   "theorems": [
    "Verif.positions_in_group"
   ],
   "note": ""
  },
  {
   "property": "C32",
   "status": "proved",
   "theorems": [
    "Verif.positions_distinct"
   ],
   "note": ""
  },
  {
   "property": "C33",
   "status": "proved",
   "theorems": [
    "Verif.positions_normalised"
   ],
   "note": ""
  },
  {
   "property": "C34",
   "status": "proved",
   "theorems": [
    "Verif.positions_complete",
    "Verif.positions_unique"
   ],
   "note": ""
  },
  {
   "property": "C35",
   "status": "proved",
   "theorems": [
    "Verif.positions_form_group",
    "Verif.rotations_are_point_group",
    "Verif.point_group_le_positions"
   ],
   "note": ""
  },
  {
   "property": "C36",
   "status": "partial",
   "theorems": [
    "Verif.generators_listed_partial",
    "Verif.generator_lost"
   ],
   "note": "Proved for consistent symbols; false otherwise (P 1a)."
  },
  {
   "property": "C37",
   "status": "proved",
   "theorems": [
    "Verif.generation_stops_iff",
    "Verif.generation_stops_on_panic"
   ],
   "note": ""
  },
  {
   "property": "C38",
   "status": "partial",
   "theorems": [
    "Verif.no_panic_partial",
    "Verif.parsed_symbols_panic"
   ],
   "note": "False: some parsed symbols panic; proved under the exact success condition of C57."
  },
  {
   "property": "C39",
   "status": "proved",
   "theorems": [
    "Verif.output_order"
   ],
   "note": ""
  },
  {
   "property": "C40",
   "status": "proved",
   "theorems": [
    "Verif.full_sets_shape",
    "Verif.full_sets_of_notation"
   ],
   "note": ""
  },
  {
   "property": "C41",
   "status": "proved",
   "theorems": [
    "Verif.text_listing",
    "Verif.pure_txt_texts",
    "Verif.text_listing_total"
   ],
   "note": ""
  },
  {
   "property": "C42",
   "status": "partial",
   "theorems": [
    "Verif.minimal_translation_partial",
    "Verif.minimal_translation_undominated",
    "Verif.minimal_translation_not_shortest"
   ],
   "note": "Equivalence, range and comparison proved, and that no equivalent translation is both shorter and has no more zero components; the result is not always the shortest."
  },
  {
   "property": "C43",
   "status": "partial",
   "theorems": [
    "Verif.positive_mod_value_partial",
    "Verif.positive_mod_twelve"
   ],
   "note": "Exact value proved for all integers: the remainder, except that negative multiples of 12 give 12 (witness)."
  },
  {
   "property": "C44",
   "status": "proved",
   "theorems": [
    "Verif.lattice_translations_group",
    "Verif.lattice_matrices",
    "Verif.letter_translations"
   ],
   "note": ""
  },
  {
   "property": "C45",
   "status": "proved",
   "theorems": [
    "Verif.inversion_listed"
   ],
   "note": ""
  },
  {
   "property": "C46",
   "status": "proved",
   "theorems": [
    "Verif.no_overflow",
    "Verif.letters_overflow"
   ],
   "note": "letters_overflow: the limit on letters is sharp."
  },
  {
   "property": "C47",
   "status": "proved",
   "theorems": [
    "Verif.index_lookups"
   ],
   "note": ""
  },
  {
   "property": "C48",
   "status": "partial",
   "theorems": [
    "Verif.hm_lookup_partial",
    "Verif.default_hm_ambiguous"
   ],
   "note": "Proved for the full table; false for the default table, whose HM symbols are cut at the first slash (witness)."
  },
  {
   "property": "C49",
   "status": "partial",
   "theorems": [
    "Verif.hall_lookup_partial",
    "Verif.hall_lookup_ambiguous"
   ],
   "note": "Proved except for three rows of the full table that repeat an earlier Hall symbol (witness)."
  },
  {
   "property": "C50",
   "status": "proved",
   "theorems": [
    "Verif.tabulated_usable",
    "Verif.every_number"
   ],
   "note": ""
  },
  {
   "property": "C51",
   "status": "partial",
   "theorems": [
    "Verif.variants_name_rows_partial",
    "Verif.variant_123"
   ],
   "note": "Proved for all variants but 123, whose row holds another group (witness)."
  },
  {
   "property": "C52",
   "status": "partial",
   "theorems": [
    "Verif.tables_agree_partial",
    "Verif.origin_choice_ignored",
    "Verif.tables_differ_24"
   ],
   "note": "False for 24 origin-choice-1 codes (other origin) and for number 24 (other group); proved otherwise."
  },
  {
   "property": "C53",
   "status": "partial",
   "theorems": [
    "Verif.type_iff_number_partial",
    "Verif.row_24_is_23",
    "Verif.wrong_type_24",
    "Verif.numbers_differ_partial",
    "Verif.numbers_differ_24",
    "Verif.wrong_row_24"
   ],
   "note": "Proved for all pairs of rows except the row I 2ac 2bc, listed under 24, which is of type 23 (witness)."
  },
  {
   "property": "C54",
   "status": "partial",
   "theorems": [
    "Verif.tabulated_display_partial",
    "Verif.display_panics",
    "Verif.tabulated_display_text_partial"
   ],
   "note": "The listing never panics; Display panics exactly for 25 space-group numbers."
  },
  {
   "property": "C55",
   "status": "proved",
   "theorems": [
    "Verif.debug_run_ends",
    "Verif.generation_diverges",
    "Verif.generation_stops_iff"
   ],
   "note": "Holds for a build with overflow checks; with exact integers P 6 4 never stops (the exact condition is C37)."
  },
  {
   "property": "C56",
   "status": "partial",
   "theorems": [
    "Verif.diagonal_second_partial",
    "Verif.diagonal_after_four"
   ],
   "note": "False after 4; proved after 3 and 6."
  },
  {
   "property": "C57",
   "status": "proved",
   "theorems": [
    "Verif.positions_exist_iff"
   ],
   "note": ""
  },
  {
   "property": "C58",
   "status": "partial",
   "theorems": [
    "Verif.type_iff_number_partial",
    "Verif.same_number_same_type_partial",
    "Verif.row_24_is_23",
    "Verif.wrong_type_24"
   ],
   "note": "Proved except for the row I 2ac 2bc of number 24 (witness: not of the type of I 2ac 2ab)."
  },
  {
   "property": "C59",
   "status": "proved",
   "theorems": [
    "Verif.debug_answer_exact"
   ],
   "note": ""
  },
  {
   "property": "C60",
   "status": "proved",
   "theorems": [
    "Verif.debug_run_ends",
    "Verif.endless_run_overflows"
   ],
   "note": ""
  },
  {
   "property": "C61",
   "status": "proved",
   "theorems": [
    "Verif.operations_exact",
    "Verif.operations_no_overflow",
    "Verif.operations_can_overflow",
    "Verif.full_sets_no_overflow"
   ],
   "note": ""
  },
  {
   "property": "C62",
   "status": "proved",
   "theorems": [
    "Verif.default_types_distinct"
   ],
   "note": ""
  },
  {
   "property": "C63",
   "status": "partial",
   "theorems": [
    "Verif.HM.hm_names_row_partial",
    "Verif.HM.variant_names_partial",
    "Verif.HM.hm_90_wrong"
   ],
   "note": "False for one row: number 90 is listed as P 42 1 2. Proved for the 529 others."
  },
  {
   "property": "C64",
   "status": "partial",
   "theorems": [
    "Verif.HM.default_hm_names_partial"
   ],
   "note": "False for 40 rows (names cut at '/', numbers 90 and 155); proved for the 190 others, negation proved for the 40."
  },
  {
   "property": "C65",
   "status": "partial",
   "theorems": [
    "Verif.HM.hm_identifies_partial",
    "Verif.HM.hm_ambiguous"
   ],
   "note": "Proved except for the pairs 23/24 and 197/199, whose names list elements both groups have."
  },
  {
   "property": "C66",
   "status": "partial",
   "theorems": [
    "Verif.HM.hm_lookups_agree_partial",
    "Verif.HM.hm_lookups_disagree"
   ],
   "note": "False for six symbols (P 4 is answered 75 and 83); exact characterisation."
  },
  {
   "property": "C67",
   "status": "proved",
   "theorems": [
    "Verif.release_agrees"
   ],
   "note": ""
  },
  {
   "property": "C68",
   "status": "proved",
   "theorems": [
    "Verif.release_run_ends"
   ],
   "note": ""
  },
  {
   "property": "C69",
   "status": "proved",
   "theorems": [
    "Verif.release_answer_exact",
    "Verif.release_positions_iff",
    "Verif.release_panics",
    "Verif.release_capacity_wraps",
    "Verif.release_letters_wrap"
   ],
   "note": "The last two show that the limits are needed."
  },
  {
   "property": "C70",
   "status": "proved",
   "theorems": [
    "Verif.release_operations_agree",
    "Verif.release_powi_mod",
    "Verif.release_powi_exact",
    "Verif.release_operations_exact",
    "Verif.release_full_sets",
    "Verif.release_eq_wrong"
   ],
   "note": "release_eq_wrong: beyond the limit == can answer wrongly."
  },
  {
   "property": "C71",
   "status": "proved",
   "theorems": [
    "Verif.build_returns_iff",
    "Verif.build_fails_iff",
    "Verif.build_any_order",
    "Verif.setters_like_builder"
   ],
   "note": ""
  },
  {
   "property": "C72",
   "status": "partial",
   "theorems": [
    "Verif.same_group_iff_same_positions",
    "Verif.same_group_same_order",
    "Verif.same_group_same_positions_partial",
    "Verif.same_group_other_core"
   ],
   "note": "All but the last clause proved for all consistent symbols; identity of the core positions holds for primitive lattices and fails for centred ones (I 2 and I 2n)."
  },
  {
   "property": "C73",
   "status": "proved",
   "theorems": [
    "Verif.positions_eq_iff",
    "Verif.computed_positions_eq"
   ],
   "note": ""
  },
  {
   "property": "C74",
   "status": "partial",
   "theorems": [
    "Verif.text_denotes_group_partial",
    "Verif.text_positions_partial",
    "Verif.reading_unique",
    "Verif.rotation_unique",
    "Verif.axes_exact",
    "Verif.wrong_axis_wrong_group"
   ],
   "note": "false of the code for axis marks outside AxesAsRead (exact condition: axes_exact; wrong_axis_wrong_group shows a wrong group) and for shifts of centrosymmetric symbols that move the inversion out of the group (C30)"
  },
  {
   "property": "C75",
   "status": "proved",
   "theorems": [
    "Verif.tabulated_text",
    "Verif.tabulated_printed"
   ],
   "note": ""
  },
  {
   "property": "C76",
   "status": "proved",
   "theorems": [
    "Verif.orbit_listed",
    "Verif.orbit_counts",
    "Verif.site_multiplicity",
    "Verif.general_point",
    "Verif.printed_orbit"
   ],
   "note": ""
  },
  {
   "property": "C77",
   "status": "proved",
   "theorems": [
    "Verif.enum_orders",
    "Verif.lattice_symbol_order",
    "Verif.origin_shift_order",
    "Verif.matrix_symbol_order",
    "Verif.notation_order",
    "Verif.positions_cmp_equal",
    "Verif.rotation_type_names"
   ],
   "note": ""
  },
  {
   "property": "C78",
   "status": "proved",
   "theorems": [
    "Verif.matrix_symbol_exact",
    "Verif.parse_exact",
    "Verif.component_roundtrip"
   ],
   "note": ""
  },
  {
   "property": "C79",
   "status": "proved",
   "theorems": [
    "Verif.sum_laws",
    "Verif.eq_iff_difference",
    "Verif.sum_not_operation",
    "Verif.set_translation_meaning",
    "Verif.unique_rotation_meaning",
    "Verif.fraction_meaning"
   ],
   "note": ""
  },
  {
   "property": "C80",
   "status": "proved",
   "theorems": [
    "Verif.text_read_exactly",
    "Verif.read_positions",
    "Verif.read_group_published"
   ],
   "note": ""
  },
  {
   "property": "C81",
   "status": "proved",
   "theorems": [
    "Verif.more_symbols_larger_group",
    "Verif.fewer_symbols_consistent",
    "Verif.more_symbols_list_more",
    "Verif.same_symbols_same_rotations"
   ],
   "note": ""
  },
  {
   "property": "C82",
   "status": "proved",
   "theorems": [
    "Verif.positions_divide_cell",
    "Verif.positions_count_values"
   ],
   "note": ""
  },
  {
   "property": "C83",
   "status": "proved",
   "theorems": [
    "Verif.leading_minus_group",
    "Verif.leading_minus_count"
   ],
   "note": ""
  },
  {
   "property": "C84",
   "status": "proved",
   "theorems": [
    "Verif.consistent_iff_visible",
    "Verif.closed_list_complete"
   ],
   "note": ""
  },
  {
   "property": "C85",
   "status": "proved",
   "theorems": [
    "Verif.proper_rotation_as_computed",
    "Verif.proper_rotation_meaning"
   ],
   "note": ""
  },
  {
   "property": "C86",
   "status": "proved",
   "theorems": [
    "Verif.passes_at_most_positions",
    "Verif.passes_at_most_48",
    "Verif.positions_bounded",
    "Verif.passes_bounded"
   ],
   "note": ""
  },
  {
   "property": "C87",
   "status": "proved",
   "theorems": [
    "Verif.relabel_group",
    "Verif.relabel_consistent",
    "Verif.relabel_positions",
    "Verif.relabel_exists"
   ],
   "note": ""
  },
  {
   "property": "C88",
   "status": "proved",
   "theorems": [
    "Verif.mirror_group",
    "Verif.mirror_consistent",
    "Verif.mirror_positions"
   ],
   "note": ""
  },
  {
   "property": "C89",
   "status": "proved",
   "theorems": [
    "Verif.lattice_letter_group",
    "Verif.lattice_letter_count"
   ],
   "note": ""
  },
  {
   "property": "C90",
   "status": "proved",
   "theorems": [
    "Verif.display_determines",
    "Verif.display_positions_determined",
    "Verif.display_box_aligned"
   ],
   "note": ""
  },
  {
   "property": "C91",
   "status": "proved",
   "theorems": [
    "Verif.display_settles"
   ],
   "note": ""
  },
  {
   "property": "C92",
   "status": "proved",
   "theorems": [
    "Verif.setting_named",
    "Verif.setting_axes",
    "Verif.setting_positions"
   ],
   "note": ""
  },
  {
   "property": "C93",
   "status": "proved",
   "theorems": [
    "Verif.origin_choices",
    "Verif.origin_choices_numbers",
    "Verif.origin_positions"
   ],
   "note": ""
  },
  {
   "property": "C94",
   "status": "proved",
   "theorems": [
    "Verif.printed_set_identifies",
    "Verif.text_format_determines",
    "Verif.text_format_iff"
   ],
   "note": ""
  },
  {
   "property": "C95",
   "status": "proved",
   "theorems": [
    "Verif.crystal_system_order",
    "Verif.one_crystal_system",
    "Verif.tabulated_crystal_system"
   ],
   "note": ""
  },
  {
   "property": "C96",
   "status": "proved",
   "theorems": [
    "Verif.positions_crystal_class"
   ],
   "note": ""
  },
  {
   "property": "C97",
   "status": "proved",
   "theorems": [
    "Verif.debug_determines",
    "Verif.symbol_errors",
    "Verif.rotation_errors"
   ],
   "note": ""
  },
  {
   "property": "C98",
   "status": "proved",
   "theorems": [
    "Verif.one_of_230_types",
    "Verif.same_type_iff_number"
   ],
   "note": ""
  },
  {
   "property": "C99",
   "status": "proved",
   "theorems": [
    "Verif.mirror_iff_number",
    "Verif.handed_iff",
    "Verif.handed_proper",
    "Verif.mirror_notation_number"
   ],
   "note": ""
  },
  {
   "property": "C100",
   "status": "proved",
   "theorems": [
    "Verif.site_symmetry_listed",
    "Verif.site_symmetry_class",
    "Verif.site_symmetry_conjugate"
   ],
   "note": ""
  },
  {
   "property": "C101",
   "status": "proved",
   "theorems": [
    "Verif.redundant_symbols",
    "Verif.redundant_symbols_positions"
   ],
   "note": ""
  },
  {
   "property": "C102",
   "status": "proved",
   "theorems": [
    "Verif.number_settles_rotations",
    "Verif.number_settles_positions"
   ],
   "note": ""
  },
  {
   "property": "C103",
   "status": "proved",
   "theorems": [
    "Verif.symmorphic_iff_number",
    "Verif.full_site_iff_number"
   ],
   "note": ""
  },
  {
   "property": "C104",
   "status": "proved",
   "theorems": [
    "Verif.free_iff_number",
    "Verif.no_special_positions_iff_number"
   ],
   "note": ""
  },
  {
   "property": "C105",
   "status": "proved",
   "theorems": [
    "Verif.centre_iff_number",
    "Verif.proper_iff_number",
    "Verif.polar_iff_number",
    "Verif.kinds_listed_iff_number"
   ],
   "note": ""
  },
  {
   "property": "C106",
   "status": "proved",
   "theorems": [
    "Verif.display_iff_axes",
    "Verif.display_total"
   ],
   "note": ""
  },
  {
   "property": "C107",
   "status": "proved",
   "theorems": [
    "Verif.same_group_iff_shift_kept",
    "Verif.kept_shift_same_group",
    "Verif.shift_by_lattice_translation",
    "Verif.shift_along_polar_direction",
    "Verif.equivalent_shifts_positions"
   ],
   "note": ""
  },
  {
   "property": "C108",
   "status": "proved",
   "theorems": [
    "Verif.structure_sum_zero_iff",
    "Verif.absent_iff_listed",
    "Verif.equivalent_reflections",
    "Verif.centring_forbids",
    "Verif.minus_makes_real"
   ],
   "note": ""
  },
  {
   "property": "C109",
   "status": "proved",
   "theorems": [
    "Verif.tabulated_cell",
    "Verif.rigid_iff_listed",
    "Verif.first_symbol_cell"
   ],
   "note": ""
  },
  {
   "property": "C110",
   "status": "proved",
   "theorems": [
    "Verif.symmetric_iff_listed",
    "Verif.symmetrised_symmetric"
   ],
   "note": ""
  },
  {
   "property": "C111",
   "status": "proved",
   "theorems": [
    "Verif.piezo_iff_number",
    "Verif.tensor_iff_listed"
   ],
   "note": ""
  },
  {
   "property": "C112",
   "status": "proved",
   "theorems": [
    "Verif.tabulated_form",
    "Verif.optical_iff_number"
   ],
   "note": ""
  },
  {
   "property": "C113",
   "status": "proved",
   "theorems": [
    "Verif.broken_condition_absent",
    "Verif.general_reflection_iff",
    "Verif.general_reflection_exists"
   ],
   "note": ""
  },
  {
   "property": "C114",
   "status": "partial",
   "theorems": [
    "Verif.HM.named_condition",
    "Verif.HM.full_conditions_partial",
    "Verif.HM.default_conditions_partial",
    "Verif.HM.hm_90_condition"
   ],
   "note": "the generic theorem is complete; the tables miss row 366 of the full table and 40 rows of the default table, whose names are not names of their groups (C63, C64)"
  },
  {
   "property": "C115",
   "status": "proved",
   "theorems": [
    "Verif.extra_iff_number"
   ],
   "note": ""
  },
  {
   "property": "C116",
   "status": "proved",
   "theorems": [
    "Verif.reflection_multiplicity",
    "Verif.general_multiplicity",
    "Verif.friedel_iff_centre"
   ],
   "note": ""
  }
 ]
}