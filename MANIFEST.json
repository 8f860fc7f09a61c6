{
 "claims": [
  {
   "property": "C01",
   "status": "proved",
   "theorems": [
    "Verif.C01_output_normal",
    "Verif.C01_code_points"
   ],
   "note": ""
  },
  {
   "property": "C02",
   "status": "proved",
   "theorems": [
    "Verif.C02_line_breaks_irrelevant"
   ],
   "note": ""
  },
  {
   "property": "C03",
   "status": "proved",
   "theorems": [
    "Verif.C03_word_prefix_transparent"
   ],
   "note": ""
  },
  {
   "property": "C04",
   "status": "proved",
   "theorems": [
    "Verif.C04_document_order",
    "Verif.C04_convert",
    "Verif.C04_no_math"
   ],
   "note": ""
  },
  {
   "property": "C05",
   "status": "proved",
   "theorems": [
    "Verif.C05_accepted_never_repaired",
    "Verif.C05_accepted_independent"
   ],
   "note": ""
  },
  {
   "property": "C06",
   "status": "proved",
   "theorems": [
    "Verif.C06_first_success",
    "Verif.C06_last_error",
    "Verif.C06_repair_fails",
    "Verif.C06_exhaustive",
    "Verif.C06_one_text_per_attempt",
    "Verif.C06_only_consulted"
   ],
   "note": ""
  },
  {
   "property": "C07",
   "status": "proved",
   "theorems": [
    "Verif.C07_other_exceptions_propagate",
    "Verif.C07_first_attempt"
   ],
   "note": ""
  },
  {
   "property": "C08",
   "status": "proved",
   "theorems": [
    "Verif.C08_repair_only_deletes"
   ],
   "note": ""
  },
  {
   "property": "C09",
   "status": "proved",
   "theorems": [
    "Verif.C09_invalid_token_repair",
    "Verif.C09_effect_unique",
    "Verif.C09_word_unique",
    "Verif.C09_damages_markup"
   ],
   "note": ""
  },
  {
   "property": "C10",
   "status": "proved",
   "theorems": [
    "Verif.C10_generic_repair",
    "Verif.C10_effect_unique",
    "Verif.C10_truncates_markup"
   ],
   "note": ""
  },
  {
   "property": "C11",
   "status": "proved",
   "theorems": [
    "Verif.C11_success_iff",
    "Verif.C11_convert"
   ],
   "note": ""
  },
  {
   "property": "C12",
   "status": "proved",
   "theorems": [
    "Verif.C12_first_violation",
    "Verif.C12_convert",
    "Verif.C12_order",
    "Verif.C12_message"
   ],
   "note": ""
  },
  {
   "property": "C13",
   "status": "proved",
   "theorems": [
    "Verif.C13_element",
    "Verif.C13_document",
    "Verif.C13_convert",
    "Verif.C13_conditions_needed"
   ],
   "note": ""
  },
  {
   "property": "C14",
   "status": "proved",
   "theorems": [
    "Verif.C14_adapter_reuse",
    "Verif.C14_history_independent"
   ],
   "note": ""
  },
  {
   "property": "C15",
   "status": "proved",
   "theorems": [
    "Verif.C15_root",
    "Verif.C15_converter",
    "Verif.C15_create",
    "Verif.C15_inner_table_changes"
   ],
   "note": ""
  },
  {
   "property": "C16",
   "status": "proved",
   "theorems": [
    "Verif.C16_phantom",
    "Verif.C16_hidden_table",
    "Verif.C16_hidden_math"
   ],
   "note": ""
  },
  {
   "property": "C17",
   "status": "proved",
   "theorems": [
    "Verif.C17_unselected",
    "Verif.C17_unselected_removed",
    "Verif.C17_toggle",
    "Verif.C17_hidden_table",
    "Verif.C17_number",
    "Verif.C17_hidden_math"
   ],
   "note": ""
  },
  {
   "property": "C18",
   "status": "proved",
   "theorems": [
    "Verif.C18_attributes",
    "Verif.C18_recognised"
   ],
   "note": ""
  },
  {
   "property": "C19",
   "status": "proved",
   "theorems": [
    "Verif.C19_surroundings",
    "Verif.C19_prolog",
    "Verif.C19_needs_children"
   ],
   "note": ""
  },
  {
   "property": "C20",
   "status": "proved",
   "theorems": [
    "Verif.C20_first_child",
    "Verif.C20_cut",
    "Verif.C20_comment_leaks"
   ],
   "note": ""
  },
  {
   "property": "C21",
   "status": "proved",
   "theorems": [
    "Verif.C21_self_named"
   ],
   "note": ""
  },
  {
   "property": "C22",
   "status": "proved",
   "theorems": [
    "Verif.C22_words_only",
    "Verif.C22_any_whitespace"
   ],
   "note": ""
  },
  {
   "property": "C23",
   "status": "proved",
   "theorems": [
    "Verif.C23_alnum_verbatim",
    "Verif.C23_mi"
   ],
   "note": ""
  },
  {
   "property": "C24",
   "status": "proved",
   "theorems": [
    "Verif.C24_single_lookup",
    "Verif.C24_not_twice"
   ],
   "note": ""
  },
  {
   "property": "C25",
   "status": "proved",
   "theorems": [
    "Verif.C25_empty_entry_passes",
    "Verif.C25_never_erased"
   ],
   "note": ""
  },
  {
   "property": "C26",
   "status": "proved",
   "theorems": [
    "Verif.C26_mtext_keeps_text",
    "Verif.C26_pieces_unique"
   ],
   "note": ""
  },
  {
   "property": "C27",
   "status": "proved",
   "theorems": [
    "Verif.C27_layout",
    "Verif.C27_separators",
    "Verif.C27_surplus",
    "Verif.C27_blank_counts"
   ],
   "note": ""
  },
  {
   "property": "C28",
   "status": "proved",
   "theorems": [
    "Verif.C28_environment",
    "Verif.C28_default_brackets",
    "Verif.C28_one_sided"
   ],
   "note": ""
  },
  {
   "property": "C29",
   "status": "proved",
   "theorems": [
    "Verif.C29_table",
    "Verif.C29_row",
    "Verif.C29_visible_tables"
   ],
   "note": ""
  },
  {
   "property": "C30",
   "status": "proved",
   "theorems": [
    "Verif.C30_compound",
    "Verif.C30_simple",
    "Verif.C30_wrapper"
   ],
   "note": ""
  },
  {
   "property": "C31",
   "status": "proved",
   "theorems": [
    "Verif.C31_layout",
    "Verif.C31_first_six",
    "Verif.C31_further_dropped"
   ],
   "note": ""
  },
  {
   "property": "C32",
   "status": "proved",
   "theorems": [
    "Verif.C32_command",
    "Verif.C32_set"
   ],
   "note": ""
  },
  {
   "property": "C33",
   "status": "proved",
   "theorems": [
    "Verif.C33_grouping",
    "Verif.C33_single",
    "Verif.C33_not_in_base",
    "Verif.C33_empty_row"
   ],
   "note": ""
  },
  {
   "property": "C34",
   "status": "proved",
   "theorems": [
    "Verif.C34_unknown",
    "Verif.C34_empty",
    "Verif.C34_mprescripts"
   ],
   "note": ""
  },
  {
   "property": "C35",
   "status": "proved",
   "theorems": [
    "Verif.C35_element",
    "Verif.C35_nothing_lost",
    "Verif.C35_tokens",
    "Verif.C35_in_order",
    "Verif.C35_only_up_to_whitespace"
   ],
   "note": ""
  },
  {
   "property": "C36",
   "status": "proved",
   "theorems": [
    "Verif.C36_element",
    "Verif.C36_nesting",
    "Verif.C36_linear",
    "Verif.C36_not_linear"
   ],
   "note": ""
  },
  {
   "property": "C37",
   "status": "proved",
   "theorems": [
    "Verif.C37_element",
    "Verif.C37_document",
    "Verif.C37_convert",
    "Verif.C37_deterministic"
   ],
   "note": ""
  },
  {
   "property": "C38",
   "status": "proved",
   "theorems": [
    "Verif.C38_plain",
    "Verif.C38_bevelled"
   ],
   "note": ""
  },
  {
   "property": "C39",
   "status": "proved",
   "theorems": [
    "Verif.C39_exact",
    "Verif.C39_no_duplicates",
    "Verif.C39_accents",
    "Verif.C39_values_nested",
    "Verif.C39_braces_not_nested",
    "Verif.C39_space_unreachable",
    "Verif.C39_no_control",
    "Verif.C39_backspace"
   ],
   "note": ""
  },
  {
   "property": "C40",
   "status": "proved",
   "theorems": [
    "Verif.C40_single_specials",
    "Verif.C40_backslash",
    "Verif.C40_longer_raw",
    "Verif.C40_not_always_escaped"
   ],
   "note": ""
  },
  {
   "property": "C41",
   "status": "proved",
   "theorems": [
    "Verif.C41_mn",
    "Verif.C41_distinct"
   ],
   "note": ""
  },
  {
   "property": "C42",
   "status": "proved",
   "theorems": [
    "Verif.C42_layout",
    "Verif.C42_one_sided"
   ],
   "note": ""
  },
  {
   "property": "C43",
   "status": "proved",
   "theorems": [
    "Verif.C43_error_containment"
   ],
   "note": ""
  },
  {
   "property": "C44",
   "status": "proved",
   "theorems": [
    "Verif.C44_nested_math",
    "Verif.C44_observable"
   ],
   "note": ""
  },
  {
   "property": "C45",
   "status": "proved",
   "theorems": [
    "Verif.C45_vanishing_mi",
    "Verif.C45_vanishing_mo"
   ],
   "note": ""
  },
  {
   "property": "C46",
   "status": "proved",
   "theorems": [
    "Verif.C46_accents",
    "Verif.C46_unsupported",
    "Verif.C46_wrong",
    "Verif.C46_base",
    "Verif.C46_base_wrong"
   ],
   "note": ""
  },
  {
   "property": "C47",
   "status": "proved",
   "theorems": [
    "Verif.C47_fonts",
    "Verif.C47_small_italic",
    "Verif.C47_wrong"
   ],
   "note": ""
  },
  {
   "property": "C48",
   "status": "proved",
   "theorems": [
    "Verif.C48_ident",
    "Verif.C48_oper",
    "Verif.C48_mirrored"
   ],
   "note": ""
  },
  {
   "property": "C49",
   "status": "proved",
   "theorems": [
    "Verif.C49_percent",
    "Verif.C49_rho"
   ],
   "note": ""
  },
  {
   "property": "C50",
   "status": "proved",
   "theorems": [
    "Verif.C50_numerals",
    "Verif.C50_operators",
    "Verif.C50_zero_thirds"
   ],
   "note": ""
  },
  {
   "property": "C51",
   "status": "proved",
   "theorems": [
    "Verif.C51_greek",
    "Verif.C51_exact",
    "Verif.C51_confused"
   ],
   "note": ""
  },
  {
   "property": "C52",
   "status": "proved",
   "theorems": [
    "Verif.C52_element",
    "Verif.C52_document",
    "Verif.C52_convert",
    "Verif.C52_conditions_needed",
    "Verif.C52_unknown_written"
   ],
   "note": ""
  },
  {
   "property": "C53",
   "status": "proved",
   "theorems": [
    "Verif.C53_convert",
    "Verif.C53_progress",
    "Verif.C53_terminates",
    "Verif.C53_can_finish"
   ],
   "note": ""
  },
  {
   "property": "C54",
   "status": "proved",
   "theorems": [
    "Verif.C54_root",
    "Verif.C54_outside_tables",
    "Verif.C54_inner_table_depends_on_schedule"
   ],
   "note": ""
  },
  {
   "property": "C55",
   "status": "proved",
   "theorems": [
    "Verif.C55_math",
    "Verif.C55_words",
    "Verif.C55_text",
    "Verif.C55_vocabulary"
   ],
   "note": ""
  },
  {
   "property": "C56",
   "status": "proved",
   "theorems": [
    "Verif.C56_operators",
    "Verif.C56_operator_exceptions",
    "Verif.C56_identifiers",
    "Verif.C56_identifier_exceptions"
   ],
   "note": ""
  },
  {
   "property": "C57",
   "status": "proved",
   "theorems": [
    "Verif.C57_stroke_kept",
    "Verif.C57_negation",
    "Verif.C57_unnamed",
    "Verif.C57_wrong",
    "Verif.C57_identifiers"
   ],
   "note": ""
  },
  {
   "property": "C58",
   "status": "proved",
   "theorems": [
    "Verif.C58_one",
    "Verif.C58_up_to_four",
    "Verif.C58_not_five",
    "Verif.C58_four_names",
    "Verif.C58_five_names",
    "Verif.C58_end_of_a_name",
    "Verif.C58_inside_a_value",
    "Verif.C58_bare_name",
    "Verif.C58_neighbour_lost",
    "Verif.C58_blank_before_end"
   ],
   "note": ""
  },
  {
   "property": "C59",
   "status": "proved",
   "theorems": [
    "Verif.C59_checked",
    "Verif.C59_phrase",
    "Verif.C59_element",
    "Verif.C59_document",
    "Verif.C59_convert",
    "Verif.C59_rough_characters",
    "Verif.C59_rough_notations",
    "Verif.C59_conditions_needed",
    "Verif.C59_several",
    "Verif.C59_run_together"
   ],
   "note": ""
  },
  {
   "property": "C60",
   "status": "proved",
   "theorems": [
    "Verif.C60_computed",
    "Verif.C60_phrase",
    "Verif.C60_reading_unique",
    "Verif.C60_formula_reads",
    "Verif.C60_element",
    "Verif.C60_meaning_unique",
    "Verif.C60_no_confusion",
    "Verif.C60_document",
    "Verif.C60_convert",
    "Verif.C60_superscript_lands_last",
    "Verif.C60_subscript_lands_last",
    "Verif.C60_square_of_row_lost",
    "Verif.C60_default_fences_brackets",
    "Verif.C60_prescripts",
    "Verif.C60_several",
    "Verif.C60_apart"
   ],
   "note": ""
  },
  {
   "property": "C61",
   "status": "proved",
   "theorems": [
    "Verif.C61_unique",
    "Verif.C61_correct_parser_exists",
    "Verif.C61_convert",
    "Verif.C61_spelling",
    "Verif.C61_written",
    "Verif.C61_read"
   ],
   "note": ""
  },
  {
   "property": "C62",
   "status": "proved",
   "theorems": [
    "Verif.C62_layout",
    "Verif.C62_same_tree",
    "Verif.C62_prefixed",
    "Verif.C62_line_break_in_text",
    "Verif.C62_mml_in_text",
    "Verif.C62_line_break_in_tag",
    "Verif.C62_line_break_in_doctype"
   ],
   "note": ""
  },
  {
   "property": "C63",
   "status": "proved",
   "theorems": [
    "Verif.C63_bound",
    "Verif.C63_finished",
    "Verif.C63_render",
    "Verif.C63_rejected",
    "Verif.C63_pairs",
    "Verif.C63_linear",
    "Verif.C63_quadratic"
   ],
   "note": ""
  },
  {
   "property": "C64",
   "status": "proved",
   "theorems": [
    "Verif.C64_element",
    "Verif.C64_document",
    "Verif.C64_ascii",
    "Verif.C64_exceptions",
    "Verif.C64_ascii_not_enough"
   ],
   "note": ""
  },
  {
   "property": "C65",
   "status": "proved",
   "theorems": [
    "Verif.C65_rows",
    "Verif.C65_normal_form",
    "Verif.C65_semantics",
    "Verif.C65_annotated",
    "Verif.C65_presentation_twice",
    "Verif.C65_only_at_the_top"
   ],
   "note": ""
  },
  {
   "property": "C66",
   "status": "proved",
   "theorems": [
    "Verif.C66_compositional",
    "Verif.C66_conditions_needed"
   ],
   "note": ""
  },
  {
   "property": "C67",
   "status": "proved",
   "theorems": [
    "Verif.C67_recursion_limit",
    "Verif.C67_shallow",
    "Verif.C67_too_deep",
    "Verif.C67_nothing_else"
   ],
   "note": ""
  },
  {
   "property": "C68",
   "status": "proved",
   "theorems": [
    "Verif.C68_faults",
    "Verif.C68_no_wrong_result",
    "Verif.C68_interrupts",
    "Verif.C68_only_interrupts",
    "Verif.C68_accepted",
    "Verif.C68_unharmed",
    "Verif.C68_calls",
    "Verif.C68_history",
    "Verif.C68_swallowed",
    "Verif.C68_attempt_lost"
   ],
   "note": ""
  },
  {
   "property": "C69",
   "status": "proved",
   "theorems": [
    "Verif.C69_bound",
    "Verif.C69_rejected",
    "Verif.C69_nesting",
    "Verif.C69_linear",
    "Verif.C69_cubic",
    "Verif.C69_cubic_needed"
   ],
   "note": ""
  },
  {
   "property": "C70",
   "status": "proved",
   "theorems": [
    "Verif.C70_parser_exists",
    "Verif.C70_at_the_end",
    "Verif.C70_five_names",
    "Verif.C70_one",
    "Verif.C70_neighbour",
    "Verif.C70_empty_tag",
    "Verif.C70_blank_before_end",
    "Verif.C70_single",
    "Verif.C70_blank_not_repaired",
    "Verif.C70_before_another",
    "Verif.C70_without_it",
    "Verif.C70_empty_not_repaired",
    "Verif.C70_empty_rejected"
   ],
   "note": ""
  },
  {
   "property": "C71",
   "status": "proved",
   "theorems": [
    "Verif.C71_range",
    "Verif.C71_never",
    "Verif.C71_anything"
   ],
   "note": ""
  },
  {
   "property": "C72",
   "status": "proved",
   "theorems": [
    "Verif.C72_same",
    "Verif.C72_accepted",
    "Verif.C72_bound",
    "Verif.C72_cubic",
    "Verif.C72_attained"
   ],
   "note": ""
  },
  {
   "property": "C73",
   "status": "proved",
   "theorems": [
    "Verif.C73_only_junk",
    "Verif.C73_junk_removed",
    "Verif.C73_beginning",
    "Verif.C73_rejected",
    "Verif.C73_misleading",
    "Verif.C73_parser_exists"
   ],
   "note": ""
  },
  {
   "property": "C74",
   "status": "proved",
   "theorems": [
    "Verif.Src.C74_source_mixed",
    "Verif.Src.C74_source_alone",
    "Verif.Src.C74_source_prefix",
    "Verif.C74_alone",
    "Verif.C74_some_rest",
    "Verif.C74_some_text",
    "Verif.C74_same_text",
    "Verif.C74_ends",
    "Verif.C74_other_text",
    "Verif.C74_prefix_lost"
   ],
   "note": ""
  },
  {
   "property": "C75",
   "status": "proved",
   "theorems": [
    "Verif.C75_without",
    "Verif.C75_lone",
    "Verif.C75_every_string"
   ],
   "note": ""
  },
  {
   "property": "C76",
   "status": "proved",
   "theorems": [
    "Verif.C76_only_the_tree",
    "Verif.C76_document",
    "Verif.C76_converter",
    "Verif.C76_flat",
    "Verif.C76_shared_dictionary"
   ],
   "note": ""
  },
  {
   "property": "C77",
   "status": "proved",
   "theorems": [
    "Verif.C77_nothing_to_replace",
    "Verif.C77_vanish",
    "Verif.C77_whatever",
    "Verif.C77_as_without",
    "Verif.C77_parser_exists",
    "Verif.C77_power",
    "Verif.C77_power_amp"
   ],
   "note": ""
  },
  {
   "property": "C78",
   "status": "proved",
   "theorems": [
    "Verif.C78_convert",
    "Verif.C78_unharmed",
    "Verif.C78_root",
    "Verif.C78_outside_tables",
    "Verif.C78_left_behind"
   ],
   "note": ""
  },
  {
   "property": "C79",
   "status": "proved",
   "theorems": [
    "Verif.Src.C79_returns",
    "Verif.Src.C79_raises",
    "Verif.Src.C79_raised",
    "Verif.Src.C79_static",
    "Verif.Src.C79_readme"
   ],
   "note": ""
  },
  {
   "property": "C80",
   "status": "proved",
   "theorems": [
    "Verif.Src.C80_ends_well",
    "Verif.Src.C80_fuel"
   ],
   "note": ""
  },
  {
   "property": "C81",
   "status": "proved",
   "theorems": [
    "Verif.Src.C81_history",
    "Verif.Src.C81_session",
    "Verif.Src.C81_progress"
   ],
   "note": ""
  },
  {
   "property": "C82",
   "status": "proved",
   "theorems": [
    "Verif.Src.C82_reachable",
    "Verif.Src.C82_untouched"
   ],
   "note": ""
  },
  {
   "property": "C83",
   "status": "proved",
   "theorems": [
    "Verif.Src.C83_bound",
    "Verif.Src.C83_returns",
    "Verif.Src.C83_raises",
    "Verif.Src.C83_progress",
    "Verif.Src.C83_steps",
    "Verif.Src.C83_can_finish",
    "Verif.Src.C83_others_untouched",
    "Verif.Src.C83_apart"
   ],
   "note": ""
  },
  {
   "property": "C84",
   "status": "proved",
   "theorems": [
    "Verif.Src.C84_create",
    "Verif.Src.C84_root",
    "Verif.Src.C84_document",
    "Verif.Src.C84_ends",
    "Verif.Src.C84_first",
    "Verif.Src.C84_leaves",
    "Verif.Src.C84_attributes"
   ],
   "note": ""
  },
  {
   "property": "C85",
   "status": "proved",
   "theorems": [
    "Verif.Src.C85_same_or_stopped",
    "Verif.Src.C85_never_wrong",
    "Verif.Src.C85_never_another_error",
    "Verif.Src.C85_untouched",
    "Verif.Src.C85_program",
    "Verif.Src.C85_high_limit",
    "Verif.Src.C85_low_limit"
   ],
   "note": ""
  },
  {
   "property": "C86",
   "status": "proved",
   "theorems": [
    "Verif.Src.C86_create",
    "Verif.Src.C86_root",
    "Verif.Src.C86_document",
    "Verif.Src.C86_untouched"
   ],
   "note": ""
  },
  {
   "property": "C87",
   "status": "proved",
   "theorems": [
    "Verif.Src.C87_make",
    "Verif.Src.C87_read",
    "Verif.Src.C87_create",
    "Verif.Src.C87_convert",
    "Verif.Src.C87_apart",
    "Verif.Src.C87_read_untouched",
    "Verif.Src.C87_together",
    "Verif.Src.C87_together_raised"
   ],
   "note": ""
  },
  {
   "property": "C88",
   "status": "proved",
   "theorems": [
    "Verif.Src.C88_normalizer",
    "Verif.Src.C88_glyph",
    "Verif.Src.C88_character",
    "Verif.Src.C88_operator",
    "Verif.Src.C88_always",
    "Verif.Src.C88_wrappers",
    "Verif.Src.C88_join",
    "Verif.Src.C88_identifier",
    "Verif.Src.C88_void",
    "Verif.Src.C88_repair"
   ],
   "note": ""
  },
  {
   "property": "C89",
   "status": "proved",
   "theorems": [
    "Verif.Src.C89_recursion_limit",
    "Verif.Src.C89_shallow",
    "Verif.Src.C89_unreadable",
    "Verif.Src.C89_too_deep"
   ],
   "note": ""
  },
  {
   "property": "C90",
   "status": "proved",
   "theorems": [
    "Verif.Src.Live.C90_calls",
    "Verif.Src.Live.C90_outcome",
    "Verif.Src.Live.C90_operations",
    "Verif.Src.Live.C90_can_finish",
    "Verif.Src.Live.C90_available",
    "Verif.Src.Live.C90_others_untouched"
   ],
   "note": ""
  },
  {
   "property": "C91",
   "status": "proved",
   "theorems": [
    "Verif.Src.Writes.C91_changes",
    "Verif.Src.Writes.C91_lists",
    "Verif.Src.Writes.C91_dictionaries",
    "Verif.Src.Writes.C91_instances",
    "Verif.Src.Writes.C91_trees",
    "Verif.Src.Writes.C91_elements",
    "Verif.Src.Writes.C91_call"
   ],
   "note": ""
  },
  {
   "property": "C92",
   "status": "proved",
   "theorems": [
    "Verif.Src.Writes.C92_objects",
    "Verif.Src.Writes.C92_returns",
    "Verif.Src.Writes.C92_raises",
    "Verif.Src.Writes.C92_not_stuck",
    "Verif.Src.Writes.C92_operations",
    "Verif.Src.Writes.C92_convert_leaves",
    "Verif.Src.Writes.C92_convert",
    "Verif.Src.Writes.C92_render_leaves",
    "Verif.Src.Writes.C92_use_leaves",
    "Verif.Src.Writes.C92_root",
    "Verif.Src.Writes.C92_document"
   ],
   "note": ""
  },
  {
   "property": "C93",
   "status": "proved",
   "theorems": [
    "Verif.Src.C93_converter",
    "Verif.Src.C93_element",
    "Verif.Src.C93_marked",
    "Verif.Src.C93_table",
    "Verif.Src.C93_held"
   ],
   "note": ""
  },
  {
   "property": "C94",
   "status": "proved",
   "theorems": [
    "Verif.Src.Writes.Marking.C94_objects",
    "Verif.Src.Writes.Marking.C94_returns",
    "Verif.Src.Writes.Marking.C94_raises",
    "Verif.Src.Writes.Marking.C94_operations",
    "Verif.Src.Writes.Marking.C94_not_stuck",
    "Verif.Src.Writes.Marking.C94_convert",
    "Verif.Src.Writes.Marking.C94_leaves",
    "Verif.Src.Writes.Marking.C94_blurred",
    "Verif.Src.Writes.Marking.C94_use",
    "Verif.Src.Writes.Marking.C94_element",
    "Verif.Src.Writes.Marking.C94_only_marks",
    "Verif.Src.Writes.Marking.C94_document",
    "Verif.Src.Writes.Marking.C94_plain",
    "Verif.Src.Writes.Marking.C94_inner_table_depends"
   ],
   "note": ""
  },
  {
   "property": "C95",
   "status": "proved",
   "theorems": [
    "Verif.Src.Writes.Marking.C95_render",
    "Verif.Src.Writes.Marking.C95_element",
    "Verif.Src.Writes.Marking.C95_document",
    "Verif.Src.Writes.Marking.C95_create",
    "Verif.Src.Writes.Marking.C95_make"
   ],
   "note": ""
  },
  {
   "property": "C96",
   "status": "proved",
   "theorems": [
    "Verif.Src.Writes.Marking.C96_anew"
   ],
   "note": ""
  },
  {
   "property": "C97",
   "status": "proved",
   "theorems": [
    "Verif.Src.Writes.Marking.C97_others",
    "Verif.Src.Writes.Marking.C97_objects",
    "Verif.Src.Writes.Marking.C97_not_stuck",
    "Verif.Src.Writes.Marking.C97_convert",
    "Verif.Src.Writes.Marking.C97_element",
    "Verif.Src.Writes.Marking.C97_render",
    "Verif.Src.Writes.Marking.C97_making",
    "Verif.Src.Writes.Marking.C97_made",
    "Verif.Src.Writes.Marking.C97_handed",
    "Verif.Src.Writes.Marking.C97_again"
   ],
   "note": ""
  },
  {
   "property": "C98",
   "status": "proved",
   "theorems": [
    "Verif.C98_element",
    "Verif.C98_document",
    "Verif.C98_convert",
    "Verif.C98_length",
    "Verif.C98_raises",
    "Verif.C98_only_ascii"
   ],
   "note": ""
  },
  {
   "property": "C99",
   "status": "proved",
   "theorems": [
    "Verif.C99_document",
    "Verif.C99_convert",
    "Verif.C99_way_back",
    "Verif.C99_row_of_one",
    "Verif.C99_limits"
   ],
   "note": ""
  },
  {
   "property": "C100",
   "status": "proved",
   "theorems": [
    "Verif.C100_element",
    "Verif.C100_document",
    "Verif.C100_convert",
    "Verif.C100_elsewhere",
    "Verif.C100_tables_matter"
   ],
   "note": ""
  }
 ]
}