{
 "claims": [
  {
   "property": "C01",
   "status": "proved",
   "theorems": [
    "Verif.C01_merge_conserves_counts",
    "Verif.C01_merge_conserves_counts_into"
   ],
   "note": "Uses uniqueness of sibling names as stated; the version for arbitrary inputs is C13_same_named_siblings_partial."
  },
  {
   "property": "C02",
   "status": "proved",
   "theorems": [
    "Verif.C02_scope_exists_iff",
    "Verif.C02_bin_exists_iff",
    "Verif.C02_instance_exists_iff"
   ],
   "note": ""
  },
  {
   "property": "C03",
   "status": "proved",
   "theorems": [
    "Verif.C03_merged_names_unique"
   ],
   "note": ""
  },
  {
   "property": "C04",
   "status": "proved",
   "theorems": [
    "Verif.C04_order_independent"
   ],
   "note": "Both orders are assumed to merge without exception."
  },
  {
   "property": "C05",
   "status": "proved",
   "theorems": [
    "Verif.C05_incremental",
    "Verif.C05_grouped"
   ],
   "note": "No uniqueness assumption is needed."
  },
  {
   "property": "C06",
   "status": "proved",
   "theorems": [
    "Verif.C06_idempotent",
    "Verif.C06_form"
   ],
   "note": ""
  },
  {
   "property": "C07",
   "status": "proved",
   "theorems": [
    "Verif.C07_threshold_of_first",
    "Verif.C07_group_weight_of_first",
    "Verif.C07_leaf_weight_of_first",
    "Verif.C07_crossed_of_first",
    "Verif.C07_order_of_first",
    "Verif.C07_bin_order_of_first"
   ],
   "note": ""
  },
  {
   "property": "C08",
   "status": "proved",
   "theorems": [
    "Verif.C08_merge_never_unhits"
   ],
   "note": ""
  },
  {
   "property": "C10",
   "status": "proved",
   "theorems": [
    "Verif.C10_kinds_kept_apart",
    "Verif.C10_single_kind"
   ],
   "note": ""
  },
  {
   "property": "C11",
   "status": "proved",
   "theorems": [
    "Verif.C11_merge_fails_iff"
   ],
   "note": ""
  },
  {
   "property": "C12",
   "status": "proved",
   "theorems": [
    "Verif.C12_cross_refs"
   ],
   "note": "Names at value level."
  },
  {
   "property": "C13",
   "status": "partial",
   "theorems": [
    "Verif.C13_same_named_siblings_refuted",
    "Verif.C13_same_named_siblings_partial"
   ],
   "note": "The code violates the property: only the last of several same-named siblings contributes. The refutation is a theorem; the partial theorem gives the exact merged count for arbitrary inputs."
  },
  {
   "property": "C15",
   "status": "proved",
   "theorems": [
    "Verif.C15_consistency_preserved"
   ],
   "note": ""
  },
  {
   "property": "C09",
   "status": "proved",
   "theorems": [
    "Verif.C09_merge_never_lowers_coverage",
    "Verif.C09_report_figure"
   ],
   "note": "For every monotone rounding of the percentage."
  },
  {
   "property": "C16",
   "status": "proved",
   "theorems": [
    "Verif.C16_coverage_in_range",
    "Verif.C16_coverage_in_range_rounded",
    "Verif.C16_binary64"
   ],
   "note": "The rounded version covers every rounding function that is monotone and exact on the integers involved (Spec.Rounding)."
  },
  {
   "property": "C17",
   "status": "proved",
   "theorems": [
    "Verif.C17_full_and_zero",
    "Verif.C17_group_full",
    "Verif.C17_binary64",
    "Verif.C17_group_binary64",
    "Verif.C17_group_binary64_refuted"
   ],
   "note": "In exact arithmetic without limits, in binary64 within the limits of the statement; C17_group_binary64_refuted shows that limits are needed (weight 2^53)."
  },
  {
   "property": "C18",
   "status": "proved",
   "theorems": [
    "Verif.C18_weighted_mean",
    "Verif.C18_binary64"
   ],
   "note": "In exact arithmetic, and in binary64 with an error bound."
  },
  {
   "property": "C19",
   "status": "proved",
   "theorems": [
    "Verif.C19_other_bins_no_influence"
   ],
   "note": "For every rounding function."
  },
  {
   "property": "C20",
   "status": "proved",
   "theorems": [
    "Verif.C20_monotone_in_counts"
   ],
   "note": "For every monotone rounding function with rd 0 = 0."
  },
  {
   "property": "C21",
   "status": "partial",
   "theorems": [
    "Verif.C21_overall_all_instances_refuted",
    "Verif.C21_overall_last_instance_partial",
    "Verif.C21_overall_single_instance_partial"
   ],
   "note": "The code violates the property: the overall figure is that of the last instance only. The refutation is a theorem; the partial theorems give the exact figure and the single-instance case."
  },
  {
   "property": "C22",
   "status": "proved",
   "theorems": [
    "Verif.C22_report_error_iff"
   ],
   "note": ""
  },
  {
   "property": "C23",
   "status": "proved",
   "theorems": [
    "Verif.C23_report_mirrors_database"
   ],
   "note": ""
  },
  {
   "property": "C24",
   "status": "partial",
   "theorems": [
    "Verif.C24_cross_weights_refuted",
    "Verif.C24_cross_weights_partial"
   ],
   "note": "The code violates the property: every cross is reported and counted with weight 1."
  },
  {
   "property": "C25",
   "status": "partial",
   "theorems": [
    "Verif.C25_hit_flags_agree",
    "Verif.C25_cross_hit_flags_refuted",
    "Verif.C25_cross_hit_flags_partial"
   ],
   "note": "Proved for coverpoints; violated for crosses, whose listed bins always have goal 1."
  },
  {
   "property": "C26",
   "status": "proved",
   "theorems": [
    "Verif.C26_weight_scaling",
    "Verif.C26_binary64"
   ],
   "note": "In exact arithmetic, and in binary64 with an error bound."
  },
  {
   "property": "C27",
   "status": "proved",
   "theorems": [
    "Verif.C27_lookup_by_name"
   ],
   "note": ""
  },
  {
   "property": "C28",
   "status": "proved",
   "theorems": [
    "Verif.C28_text_layout",
    "Verif.C28_line_count",
    "Verif.C28_text_lines",
    "Verif.Format.C28_options_txt",
    "Verif.Format.C28_options_text"
   ],
   "note": "Both text formatters; percentages are a parameter of the layout."
  },
  {
   "property": "C29",
   "status": "proved",
   "theorems": [
    "Verif.C29_order_by_hit",
    "Verif.C29_same_lines",
    "Verif.Format.C28_options_txt",
    "Verif.Format.C28_options_text"
   ],
   "note": ""
  },
  {
   "property": "C30",
   "status": "partial",
   "theorems": [
    "Verif.C30_json_crosses_refuted",
    "Verif.C30_json_names_refuted",
    "Verif.C30_json_refuted",
    "Verif.C30_json_partial"
   ],
   "note": "The code violates the property: with a cross the formatter raises AttributeError, and coverpoint names are dropped. The partial theorem is the exact success condition and the content without crosses."
  },
  {
   "property": "C66",
   "status": "proved",
   "theorems": [
    "Verif.C66_printed_percentage"
   ],
   "note": "Exact decimal rounding of the exact figure."
  },
  {
   "property": "C67",
   "status": "partial",
   "theorems": [
    "Verif.C67_text_refuted",
    "Verif.C67_txt_refuted",
    "Verif.C67_printed_hundred_partial"
   ],
   "note": "The code violates the property for coverpoints with at least 200*10^n bins (200 in the txt format); the partial theorem gives the exact condition."
  },
  {
   "property": "C65",
   "status": "proved",
   "theorems": [
    "Verif.C65_design_units",
    "Verif.C65_locations"
   ],
   "note": ""
  },
  {
   "property": "C31",
   "status": "proved",
   "theorems": [
    "Verif.C31_coverpoint_round_trip",
    "Verif.C31_reads_back"
   ],
   "note": "The second theorem characterises when the written document can be read."
  },
  {
   "property": "C32",
   "status": "partial",
   "theorems": [
    "Verif.C32_cross_round_trip_partial",
    "Verif.C32_cross_kinds_partial",
    "Verif.C32_cross_kinds_refuted"
   ],
   "note": "The code violates the property for the kinds: every cross bin is read back as an ordinary bin. Names, crossed coverpoints, bin names and counts are preserved."
  },
  {
   "property": "C33",
   "status": "proved",
   "theorems": [
    "Verif.C33_type_sums"
   ],
   "note": ""
  },
  {
   "property": "C34",
   "status": "partial",
   "theorems": [
    "Verif.C34_kinds_partial",
    "Verif.C34_kinds_exact",
    "Verif.C34_kinds_refuted"
   ],
   "note": "The code violates the property when bins of different kinds share a name; C34_kinds_exact gives the exact condition."
  },
  {
   "property": "C35",
   "status": "proved",
   "theorems": [
    "Verif.C35_write_stable",
    "Verif.C35_second_write_accepted",
    "Verif.C35_same_named_refuted"
   ],
   "note": "The refutation shows that unique instance names are needed."
  },
  {
   "property": "C36",
   "status": "partial",
   "theorems": [
    "Verif.C36_figures_partial",
    "Verif.C36_binary64_partial",
    "Verif.C36_second_trip_partial",
    "Verif.C36_after_trip",
    "Verif.C36_report_made",
    "Verif.C36_after_trip_binary64",
    "Verif.C36_threshold_refuted",
    "Verif.C36_weight_refuted"
   ],
   "note": "The code violates the property: thresholds and weights of coverpoints are lost. The partial theorems cover databases with default thresholds and weights; C36_after_trip computes the report after the trip for every database with uniquely named instances."
  },
  {
   "property": "C37",
   "status": "proved",
   "theorems": [
    "Verif.C37_read_accepts"
   ],
   "note": ""
  },
  {
   "property": "C38",
   "status": "proved",
   "theorems": [
    "Verif.C38_source_files"
   ],
   "note": ""
  },
  {
   "property": "C39",
   "status": "partial",
   "theorems": [
    "Verif.C39_history_exact_partial",
    "Verif.C39_history_partial",
    "Verif.C39_texts_kept_partial",
    "Verif.C39_history_refuted"
   ],
   "note": "The code violates the property for a status other than 0 and 1 and for negative numbers other than -1; the condition is exact."
  },
  {
   "property": "C40",
   "status": "partial",
   "theorems": [
    "Verif.C40_schema_partial",
    "Verif.C40_through_file_partial",
    "Verif.C40_schema_refuted",
    "Verif.C40_no_bins_refuted",
    "Verif.Xsd.valid_iff",
    "Verif.Xsd.ucisXsd_is_file"
   ],
   "note": "The code violates the property; the partial theorem is the exact condition on the database."
  },
  {
   "property": "C41",
   "status": "proved",
   "theorems": [
    "Verif.C41_dates_survive",
    "Verif.C41_small_year_refuted"
   ],
   "note": "Four-digit years mean 1000 to 9999; the refutation shows the loss for smaller years. Without time zones; with them see C120."
  },
  {
   "property": "C68",
   "status": "proved",
   "theorems": [
    "Verif.C68_writer_accepts"
   ],
   "note": ""
  },
  {
   "property": "C69",
   "status": "proved",
   "theorems": [
    "Verif.C69_reader_content"
   ],
   "note": ""
  },
  {
   "property": "C70",
   "status": "proved",
   "theorems": [
    "Verif.C70_report_of_read"
   ],
   "note": ""
  },
  {
   "property": "C71",
   "status": "proved",
   "theorems": [
    "Verif.C71_valid_readable",
    "Verif.C71_library_reads",
    "Verif.C71_dates_document",
    "Verif.Xsd.C71_dates",
    "Verif.Xsd.isDateTime_iff",
    "Verif.Xsd.isDouble_iff",
    "Verif.Xsd.isDecimal_iff",
    "Verif.Xsd.valid_iff",
    "Verif.Xsd.ucisXsd_is_file",
    "Verif.C71_refuted"
   ],
   "note": "The refutation shows that the residual conditions are needed: a schema-valid document with a time zone in a date is rejected."
  },
  {
   "property": "C14",
   "status": "partial",
   "theorems": [
    "Verif.C14_history_partial",
    "Verif.C14_history_refuted"
   ],
   "note": "The code violates the property: no history node is copied."
  },
  {
   "property": "C42",
   "status": "proved",
   "theorems": [
    "Verif.Yaml.C42_instances_faithful"
   ],
   "note": ""
  },
  {
   "property": "C43",
   "status": "partial",
   "theorems": [
    "Verif.Yaml.C43_total_partial",
    "Verif.Yaml.C43_ordinary_partial",
    "Verif.Yaml.C43_cross_sums",
    "Verif.Yaml.C43_type_names",
    "Verif.Yaml.C43_kinds_refuted",
    "Verif.Yaml.C43_ordinary_refuted"
   ],
   "note": "The code violates the property: ignore and illegal bins become ordinary bins at type level. Totals over all kinds are proved."
  },
  {
   "property": "C44",
   "status": "partial",
   "theorems": [
    "Verif.Yaml.C44_thresholds_partial",
    "Verif.Yaml.C44_type_thresholds_one",
    "Verif.Yaml.C44_thresholds_refuted"
   ],
   "note": "The code violates the property: type-level bins always get threshold 1."
  },
  {
   "property": "C45",
   "status": "partial",
   "theorems": [
    "Verif.Yaml.C45_own_instance_partial",
    "Verif.Yaml.C45_bindings",
    "Verif.Yaml.C45_own_instance_refuted"
   ],
   "note": "The code violates the property: names are also looked up in earlier instances."
  },
  {
   "property": "C46",
   "status": "partial",
   "theorems": [
    "Verif.Yaml.C46_empty_list_partial",
    "Verif.Yaml.C46_no_instances_refuted",
    "Verif.Yaml.C46_type_error_refuted"
   ],
   "note": "The code violates the property for every document with a covergroup without a list of instances (TypeError); an empty list gives an empty covergroup."
  },
  {
   "property": "C72",
   "status": "proved",
   "theorems": [
    "Verif.Yaml.C72_load_accepts",
    "Verif.Yaml.C72_bins_refuted",
    "Verif.Yaml.conforms_iff_says",
    "Verif.Yaml.invalid_refused"
   ],
   "note": "The refutation shows that the condition on bin lists is needed."
  },
  {
   "property": "C73",
   "status": "proved",
   "theorems": [
    "Verif.Yaml.C73_report_of_yaml"
   ],
   "note": ""
  },
  {
   "property": "C47",
   "status": "proved",
   "theorems": [
    "Verif.Store.C47_scopes",
    "Verif.Store.C47_coverItems",
    "Verif.Store.C47_historyNodes"
   ],
   "note": ""
  },
  {
   "property": "C48",
   "status": "proved",
   "theorems": [
    "Verif.Store.C48_scopes",
    "Verif.Store.C48_scopes_prefix",
    "Verif.Store.C48_coverItems",
    "Verif.Store.C48_coverItems_prefix",
    "Verif.Store.C48_historyNodes",
    "Verif.Store.C48_historyNodes_prefix"
   ],
   "note": ""
  },
  {
   "property": "C49",
   "status": "proved",
   "theorems": [
    "Verif.Store.C49_tree",
    "Verif.Store.C49_acyclic"
   ],
   "note": ""
  },
  {
   "property": "C50",
   "status": "proved",
   "theorems": [
    "Verif.Store.C50_raise",
    "Verif.Store.C50_scope",
    "Verif.Store.C50_createBin",
    "Verif.Store.C50_createNextCover",
    "Verif.Store.C50_createScope_accepts"
   ],
   "note": ""
  },
  {
   "property": "C51",
   "status": "proved",
   "theorems": [
    "Verif.Store.C51_readback",
    "Verif.Store.C51_goal_alias",
    "Verif.Store.C51_frame",
    "Verif.Store.C51_supported",
    "Verif.Store.C51_setWeight_setGoal",
    "Verif.Store.C51_readable"
   ],
   "note": ""
  },
  {
   "property": "C52",
   "status": "partial",
   "theorems": [
    "Verif.Store.C52_comment_partial",
    "Verif.Store.C52_refuted"
   ],
   "note": "The code violates the property: the string property calls do nothing. The dedicated comment setter and getter agree."
  },
  {
   "property": "C53",
   "status": "partial",
   "theorems": [
    "Verif.Store.C53_count_partial",
    "Verif.Store.C53_createBin_own",
    "Verif.Store.C53_refuted"
   ],
   "note": "The code violates the property for bins that share one CoverData object. Proved for all programs and all bins with data of their own, which bins made by createBin always have."
  },
  {
   "property": "C54",
   "status": "partial",
   "theorems": [
    "Verif.Store.C54_visible_partial",
    "Verif.Store.C54_refuted"
   ],
   "note": "The code violates the property on every instance scope."
  },
  {
   "property": "C55",
   "status": "proved",
   "theorems": [
    "Verif.Store.C55_interned"
   ],
   "note": ""
  },
  {
   "property": "C56",
   "status": "proved",
   "theorems": [
    "Verif.Store.C56_keys"
   ],
   "note": ""
  },
  {
   "property": "C57",
   "status": "proved",
   "theorems": [
    "Verif.Store.C57_testData"
   ],
   "note": ""
  },
  {
   "property": "C58",
   "status": "partial",
   "theorems": [
    "Verif.Store.C58_status_partial",
    "Verif.Store.C58_refuted"
   ],
   "note": "The code violates the property: every status of the standard reads 1."
  },
  {
   "property": "C59",
   "status": "proved",
   "theorems": [
    "Verif.Tools.C59_database_formats",
    "Verif.Tools.C59_report_formats"
   ],
   "note": ""
  },
  {
   "property": "C60",
   "status": "partial",
   "theorems": [
    "Verif.Tools.C60_split_partial",
    "Verif.Tools.C60_empty_refuted"
   ],
   "note": "The code violates the property for an empty argument: IndexError."
  },
  {
   "property": "C61",
   "status": "proved",
   "theorems": [
    "Verif.Tools.C61_merge",
    "Verif.Tools.C61_convert",
    "Verif.Tools.C61_report"
   ],
   "note": ""
  },
  {
   "property": "C62",
   "status": "proved",
   "theorems": [
    "Verif.Tools.C62_open_file",
    "Verif.Tools.C62_missing_module"
   ],
   "note": ""
  },
  {
   "property": "C63",
   "status": "partial",
   "theorems": [
    "Verif.Tools.C63_count_partial",
    "Verif.Tools.C63_both_widths_refuted",
    "Verif.Tools.C63_kept32_iff",
    "Verif.Tools.C63_other_fields"
   ],
   "note": "The code violates the property when both width flags are set: only the low 32 bits are kept."
  },
  {
   "property": "C64",
   "status": "partial",
   "theorems": [
    "Verif.Tools.C64_fields_partial",
    "Verif.Tools.C64_round_trip_refuted"
   ],
   "note": "The code violates the property for all test data."
  },
  {
   "property": "C74",
   "status": "proved",
   "theorems": [
    "Verif.Tools.C74_merge_success",
    "Verif.Tools.C74_merge_failure",
    "Verif.Tools.C74_convert_success",
    "Verif.Tools.C74_convert_failure",
    "Verif.Tools.C74_report"
   ],
   "note": ""
  },
  {
   "property": "C75",
   "status": "partial",
   "theorems": [
    "Verif.Tools.C75_output_kept_partial",
    "Verif.Tools.C75_lost_iff",
    "Verif.Tools.C75_output_kept_refuted"
   ],
   "note": "The code violates the property: the XML output is opened for writing before the document is built. C75_lost_iff says exactly when the old content is lost."
  },
  {
   "property": "C76",
   "status": "partial",
   "theorems": [
    "Verif.Tools.C76_exit_status_partial",
    "Verif.Tools.C76_exit_status_refuted",
    "Verif.Tools.C76_status_always_zero"
   ],
   "note": "The code violates the property for every failing command: the status is 0."
  },
  {
   "property": "C77",
   "status": "proved",
   "theorems": [
    "Verif.Tools.C77_list_db_formats",
    "Verif.Tools.C77_list_report_formats"
   ],
   "note": ""
  },
  {
   "property": "C78",
   "status": "partial",
   "theorems": [
    "Verif.Tools.C78_capabilities_refuted",
    "Verif.Tools.C78_xml_capable_partial",
    "Verif.Tools.C78_only_xml_output",
    "Verif.Tools.C78_no_libucis_input"
   ],
   "note": "The code violates the property: libucis can neither create nor read, yaml cannot write."
  },
  {
   "property": "C79",
   "status": "proved",
   "theorems": [
    "Verif.C79_read_merges",
    "Verif.C79_merged_stored",
    "Verif.C79_blank_refuted",
    "Verif.Tools.C79_merge_command"
   ],
   "note": "The exception named in the statement is real: documents with blank crossed names are merged and written, but the output is then rejected (C79_blank_refuted)."
  },
  {
   "property": "C80",
   "status": "proved",
   "theorems": [
    "Verif.C80_counts_through_files",
    "Verif.C80_type_counts_through_files",
    "Verif.Tools.C80_merge_command",
    "Verif.C80_flat_refuted"
   ],
   "note": "C80_flat_refuted shows that databases built through the API with covergroups without cover-instances lose counts."
  },
  {
   "property": "C81",
   "status": "partial",
   "theorems": [
    "Verif.C81_merged_figures_partial",
    "Verif.C81_binary64_partial",
    "Verif.C81_kinds_refuted"
   ],
   "note": "Proved (exactly, and in binary64 up to rounding) if the kind of a bin does not differ between inputs; C81_kinds_refuted shows that the code violates the property otherwise (0% becomes 100%)."
  },
  {
   "property": "C82",
   "status": "proved",
   "theorems": [
    "Verif.Store.C82_inputs_kept"
   ],
   "note": ""
  },
  {
   "property": "C83",
   "status": "proved",
   "theorems": [
    "Verif.Store.C83_own_objects",
    "Verif.Store.C83_merge_unaffected",
    "Verif.Store.C83_inputs_unaffected"
   ],
   "note": "C83_inputs_unaffected assumes that no scope names the destination as its design unit or crossed coverpoint."
  },
  {
   "property": "C84",
   "status": "proved",
   "theorems": [
    "Verif.Store.C84_refines",
    "Verif.Store.C84_counts",
    "Verif.Store.C84_copies"
   ],
   "note": ""
  },
  {
   "property": "C85",
   "status": "proved",
   "theorems": [
    "Verif.Store.C85_frame"
   ],
   "note": ""
  },
  {
   "property": "C86",
   "status": "proved",
   "theorems": [
    "Verif.C86_accuracy",
    "Verif.C86_accuracy_million",
    "Verif.round64_error",
    "Verif.round64_rounding"
   ],
   "note": "Rounding is IEEE 754 binary64 to nearest even with an unbounded exponent (no overflow or underflow below 2^1000)."
  },
  {
   "property": "C87",
   "status": "proved",
   "theorems": [
    "Verif.Tools.report_success",
    "Verif.Tools.C87_report_txt",
    "Verif.Tools.C87_report_json"
   ],
   "note": "The parsers, text encoding and JSON printing are arbitrary functions."
  },
  {
   "property": "C88",
   "status": "proved",
   "theorems": [
    "Verif.Lib.C88_create"
   ],
   "note": "The native library is an arbitrary function of the calls made so far."
  },
  {
   "property": "C89",
   "status": "partial",
   "theorems": [
    "Verif.Lib.C89_failed_creation_partial",
    "Verif.Lib.C89_failed_open",
    "Verif.Lib.C89_failed_creation_refuted"
   ],
   "note": "Proved for databases, scopes, instances and coverpoints. The code violates it for covergroups, cover-instances, crosses and toggles: the null handle is wrapped and the default options are written onto the database itself."
  },
  {
   "property": "C90",
   "status": "partial",
   "theorems": [
    "Verif.Lib.C90_read_only_partial",
    "Verif.Lib.C90_read_only_refuted"
   ],
   "note": "The code violates it: every scope met in a loop gets its goal reset to 100, opening resets the goal of the database, reading test data overwrites them with zeros."
  },
  {
   "property": "C91",
   "status": "partial",
   "theorems": [
    "Verif.Lib.C91_property_partial",
    "Verif.Lib.C91_options_partial",
    "Verif.Lib.C91_property_refuted"
   ],
   "note": "Setting is proved, for numbered properties and for the options with a name; the code violates the rest: no property of a native database can be read."
  },
  {
   "property": "C92",
   "status": "partial",
   "theorems": [
    "Verif.Lib.C92_iteration_partial",
    "Verif.Lib.C92_history_partial",
    "Verif.Lib.C92_use_after_free_refuted",
    "Verif.Lib.C92_history_refuted",
    "Verif.Lib.collect_mono"
   ],
   "note": "Proved for complete loops over scopes; for history nodes that the handles are those of the library, up to the last one. The code violates it for history nodes (TypeError at the end, never freed) and when a finished iterator is asked again (use after free, double free)."
  },
  {
   "property": "C93",
   "status": "partial",
   "theorems": [
    "Verif.Lib.C93_mask_partial",
    "Verif.Lib.C93_mask_refuted"
   ],
   "note": "The code violates it for types from 2^32 on."
  },
  {
   "property": "C94",
   "status": "partial",
   "theorems": [
    "Verif.Lib.C94_bin_partial",
    "Verif.Lib.C94_bin_refuted"
   ],
   "note": "The code violates it: thresholds are lost, counts are cut to 32 bits, crosses take no bin kind."
  },
  {
   "property": "C95",
   "status": "partial",
   "theorems": [
    "Verif.Lib.C95_history_partial",
    "Verif.Lib.C95_history_refuted"
   ],
   "note": "The code violates it for records with a parent and records without a file name."
  },
  {
   "property": "C96",
   "status": "partial",
   "theorems": [
    "Verif.Lib.C96_native_partial",
    "Verif.Lib.C96_native_refuted"
   ],
   "note": "The code violates it whenever there is an instance, for every native library."
  },
  {
   "property": "C97",
   "status": "proved",
   "theorems": [
    "Verif.Store.C97_report_reads",
    "Verif.Store.C97_report_pure",
    "Verif.Store.C97_copies",
    "Verif.Store.C97_merge_report"
   ],
   "note": "On the object store, for all call sequences; the recursion bound of the model is the number of objects."
  },
  {
   "property": "C98",
   "status": "proved",
   "theorems": [
    "Verif.Store.C98_write_reads",
    "Verif.Store.C98_write_pure",
    "Verif.Store.C98_copies",
    "Verif.Store.C98_merge_write"
   ],
   "note": "On the object store, for all call sequences. Printing of history kinds that are enumeration members is an arbitrary function."
  },
  {
   "property": "C99",
   "status": "proved",
   "theorems": [
    "Verif.Store.C99_read_kept",
    "Verif.Store.C99_read_refines",
    "Verif.Store.C99_merge_program"
   ],
   "note": "On the object store, for all call sequences and documents whose files have names, which the schema demands."
  },
  {
   "property": "C100",
   "status": "partial",
   "theorems": [
    "Verif.Store.C100_load_kept",
    "Verif.Store.C100_load_refines",
    "Verif.Store.C100_load_refers",
    "Verif.Store.C100_own_instance_partial",
    "Verif.Store.C100_own_instance_refuted"
   ],
   "note": "Everything but the last sentence is proved for all documents. The code violates the last sentence: a name that the own instance does not define is taken from the latest earlier instance (C100_load_refers says exactly which coverpoint it is; C100_own_instance_refuted is a witness)."
  },
  {
   "property": "C101",
   "status": "proved",
   "theorems": [
    "Verif.Store.C101_step",
    "Verif.Store.C101_session",
    "Verif.Store.C101_no_hidden_state",
    "Verif.Store.C101_looking_is_free"
   ],
   "note": "On the object store, for all programs; XML documents have named files. Failing merges are included."
  },
  {
   "property": "C102",
   "status": "proved",
   "theorems": [
    "Verif.Yaml.C102_stored",
    "Verif.Yaml.C102_counts",
    "Verif.Tools.C102_merge_command",
    "Verif.Tools.C102_counts_command",
    "Verif.Yaml.C102_cross_refuted"
   ],
   "note": "For all lists of documents; the counts for documents in which covergroups, instances of a covergroup and coverpoints of an instance have different names and every covergroup has an instance. C102_cross_refuted shows that the condition on crosses is needed: such a document loads, but cannot be converted."
  },
  {
   "property": "C103",
   "status": "partial",
   "theorems": [
    "Verif.Yaml.C103_figures_partial",
    "Verif.Yaml.C103_convert_partial",
    "Verif.Tools.C103_convert_command_partial",
    "Verif.Yaml.C103_ignore_refuted",
    "Verif.Yaml.C103_weight_refuted",
    "Verif.Yaml.C103_threshold_refuted"
   ],
   "note": "Proved for documents without ignore and illegal bins, covergroup weights and thresholds other than 1. The code violates it for each of the three: C103_ignore_refuted (25% becomes 50%), C103_weight_refuted (75% becomes 50%), C103_threshold_refuted (0% becomes 100%)."
  },
  {
   "property": "C104",
   "status": "partial",
   "theorems": [
    "Verif.Merge.C104_single_report",
    "Verif.Tools.C104_convert_command_partial",
    "Verif.Merge.C104_duplicates_refuted",
    "Verif.Merge.C104_goal_refuted"
   ],
   "note": "Proved for databases without repeated names whose cross bins have the default goal, for every rounding; for files if moreover the kind of a bin does not differ between cover-instances. With repeated names the code violates it (C104_duplicates_refuted: 25% becomes 50%), as with goals of cross bins (C104_goal_refuted: a bin listed as missed is listed as hit)."
  },
  {
   "property": "C105",
   "status": "proved",
   "theorems": [
    "Verif.Store.C105_step",
    "Verif.Store.C105_edits",
    "Verif.Store.C105_database",
    "Verif.Store.C105_total",
    "Verif.Store.C105_plain"
   ],
   "note": "On the object store, for all call sequences. C105_total shows that every program with the stated restriction is described, C105_plain that programs using createBin only and setting no weights later meet it."
  },
  {
   "property": "C106",
   "status": "proved",
   "theorems": [
    "Verif.Store.C106_exact",
    "Verif.Store.C106_together",
    "Verif.Store.C106_merge",
    "Verif.Store.C106_read",
    "Verif.Store.C106_load"
   ],
   "note": "On the object store, for all call sequences and all trees; XML documents have named files."
  },
  {
   "property": "C107",
   "status": "partial",
   "theorems": [
    "Verif.Proc.C107_call_partial",
    "Verif.Proc.C107_others",
    "Verif.Proc.C107_raises",
    "Verif.Proc.C107_null",
    "Verif.Proc.C107_exact",
    "Verif.Proc.C107_cover_refuted",
    "Verif.Proc.C107_cross_refuted"
   ],
   "note": "For all states and programs. The code violates it in two points: a bin without a scope raises instead of going to the database (C107_cover_refuted), and no function makes crosses (C107_cross_refuted); C107_exact shows that the contents made by function calls are exactly the possible trees without crosses."
  },
  {
   "property": "C108",
   "status": "proved",
   "theorems": [
    "Verif.C108_documents",
    "Verif.C108_databases",
    "Verif.C108_two_stages",
    "Verif.C108_counts",
    "Verif.C108_any_order",
    "Verif.Tools.C108_merge_commands",
    "Verif.Tools.C108_reports",
    "Verif.C108_memory_refuted"
   ],
   "note": "For all XML-read databases, all groupings and depths, without conditions on names or kinds. C108_memory_refuted marks the limit: the merged databases in memory, before they are stored, can differ."
  },
  {
   "property": "C109",
   "status": "partial",
   "theorems": [
    "Verif.Format.C109_never",
    "Verif.Format.C109_never_file",
    "Verif.Format.C109_file_partial",
    "Verif.Format.C109_partial",
    "Verif.Format.C109_reads",
    "Verif.Format.C109_key_absent",
    "Verif.Format.C109_refuted"
   ],
   "note": "For all databases. The code violates it for every database: the schema wants the report under the key covreport and forbids others, the code writes it at the root (C109_never). Proved: put under that key the document satisfies the schema (C109_partial), and its content is exactly the report (C109_reads; without crosses, with which no document is written, C30)."
  },
  {
   "property": "C110",
   "status": "partial",
   "theorems": [
    "Verif.Xml.C110_read",
    "Verif.Xml.C110_same",
    "Verif.Xml.C110_attributes_matter",
    "Verif.Xml.C110_elements_matter",
    "Verif.Xml.C110_options",
    "Verif.Xml.C110_options_refuted"
   ],
   "note": "For all element trees the exact list of what is used. The code violates the documentation about options: none has any influence, for any document (C110_options)."
  },
  {
   "property": "C111",
   "status": "partial",
   "theorems": [
    "Verif.Xml.C111_bins",
    "Verif.Xml.C111_groups",
    "Verif.Xml.C111_options_never",
    "Verif.Xml.C111_cross_type_never",
    "Verif.Xml.C111_index_partial",
    "Verif.Xml.C111_refuted",
    "Verif.Xml.C111_claim_refuted"
   ],
   "note": "For all writable databases. Bins and covergroups are as documented. The code violates the rest: options are empty in every document, every cross bin has type default, and the number of indices is right exactly for crosses of one coverpoint."
  },
  {
   "property": "C112",
   "status": "proved",
   "theorems": [
    "Verif.Xml.C112_report",
    "Verif.Xml.C112_made",
    "Verif.Xml.C112_binary64",
    "Verif.Tools.C112_report_command"
   ],
   "note": "For all readable documents, without conditions on names. The overall figure is that of the last instance (the violation of C21)."
  },
  {
   "property": "C113",
   "status": "proved",
   "theorems": [
    "Verif.C113_merged",
    "Verif.C113_report",
    "Verif.Tools.C113_commands"
   ],
   "note": "For all readable documents and all stages, without conditions on names; that only the last of several equal names within one input counts is the violation of C13."
  },
  {
   "property": "C114",
   "status": "proved",
   "theorems": [
    "Verif.Yaml.C114_report",
    "Verif.Yaml.C114_ordinary",
    "Verif.Yaml.C114_binary64",
    "Verif.Tools.C114_report_command"
   ],
   "note": "For all loadable documents, without conditions on names. When a report is made at all is C73; that ignore and illegal bins count and thresholds do not on the level of the covergroup are the violations of C43 and C44."
  },
  {
   "property": "C115",
   "status": "proved",
   "theorems": [
    "Verif.Yaml.C115_merged",
    "Verif.Yaml.C115_report",
    "Verif.Tools.C115_merge_command",
    "Verif.Tools.C115_commands",
    "Verif.Tools.C115_convert_commands"
   ],
   "note": "For all loadable documents, without conditions on names, kinds of bins or instances: covergroups without instances cannot be stored, so nothing is lost silently. Loss of thresholds and weights is the violation of C103."
  },
  {
   "property": "C116",
   "status": "partial",
   "theorems": [
    "Verif.Cli.C116_options",
    "Verif.Cli.C116_merge_partial",
    "Verif.Cli.C116_merge_rejected",
    "Verif.Cli.C116_convert",
    "Verif.Cli.C116_convert_rejected",
    "Verif.Cli.C116_report",
    "Verif.Cli.C116_report_rejected",
    "Verif.Cli.C116_list",
    "Verif.Cli.C116_order",
    "Verif.Cli.C116_program",
    "Verif.Cli.C116_program_rejected",
    "Verif.Cli.C116_order_refuted",
    "Verif.Cli.C116_libucis_ignored",
    "Verif.Cli.C116_libucis_refuted",
    "Verif.Cli.C116_glued_format",
    "Verif.Cli.C116_runs_convert",
    "Verif.Cli.C116_runs_merge_partial",
    "Verif.Cli.C116_runs_report",
    "Verif.Cli.C116_runs_list",
    "Verif.Cli.C116_dashed_argument"
   ],
   "note": "Exact for all command lines of options and file names; missing: merge rejects file names separated by options, and --libucis has no effect. The part of argparse in use is modelled after CPython 3.11 (compared with it on 10000 random command lines)."
  },
  {
   "property": "C117",
   "status": "partial",
   "theorems": [
    "Verif.Cli.C117_session_partial",
    "Verif.Cli.C117_session_yaml_partial",
    "Verif.Cli.C117_convert_partial",
    "Verif.Cli.C117_convert_yaml_partial",
    "Verif.Cli.C117_stale",
    "Verif.Cli.C117_status_refuted"
   ],
   "note": "Proved with the condition that the merge prints nothing; status 0 is not enough, since failures are swallowed (C76) and the old output file stays. Exact arithmetic; XML and YAML inputs, XML output, text report."
  },
  {
   "property": "C118",
   "status": "partial",
   "theorems": [
    "Verif.UnionCov.C118_xml_partial",
    "Verif.UnionCov.C118_xml_highest_partial",
    "Verif.UnionCov.C118_yaml",
    "Verif.UnionCov.C118_yaml_partial",
    "Verif.UnionCov.C118_yaml_highest_partial",
    "Verif.UnionCov.C118_threshold_refuted",
    "Verif.UnionCov.C118_highest_refuted",
    "Verif.UnionCov.C118_ignore_refuted",
    "Verif.UnionCov.C118_xml_refuted",
    "Verif.UnionCov.C118_layout_needed"
   ],
   "note": "Proved for XML files in which no bin is ordinary in one entry and ignored or illegal in another, and for YAML files without thresholds, ignore bins, illegal bins and negative counts; exact arithmetic for the figures. The code violates it otherwise: thresholds are lost on the level of the type, ignore bins become ordinary bins there (YAML), the kind of the first bin wins (XML)."
  },
  {
   "property": "C119",
   "status": "partial",
   "theorems": [
    "Verif.MoreFiles.C119_xml_partial",
    "Verif.MoreFiles.C119_yaml_partial",
    "Verif.Tools.C119_commands_partial",
    "Verif.Tools.C119_yaml_commands_partial",
    "Verif.MoreFiles.C119_figures_refuted",
    "Verif.MoreFiles.C119_bins_refuted",
    "Verif.MoreFiles.C119_negative_refuted"
   ],
   "note": "Proved for all files and stages, exact arithmetic for the figures, with two conditions: the bins of a covergroup itself (not of its instances) are kept if no bin is ordinary in one instance and ignored or illegal in another; counts in YAML files are not negative. The code violates the statement otherwise: the kind of the first bin of a name decides for the covergroup, and the YAML loader accepts negative counts. C119_figures_refuted shows that the condition on what is listed is needed for the figures."
  },
  {
   "property": "C120",
   "status": "partial",
   "theorems": [
    "Verif.DateTime.C120_exact_partial",
    "Verif.DateTime.C120_same_text_partial",
    "Verif.DateTime.C120_never_forward_partial",
    "Verif.DateTime.C120_second_time",
    "Verif.DateTime.C120_refuted",
    "Verif.DateTime.fromSec_toSec",
    "Verif.DateTime.toSec_of_fromSec"
   ],
   "note": "False as stated: a local time skipped when the clocks are set forward is shifted. Proved: a date survives exactly if the clocks of the zone show it at some time, so always in zones that never set the clocks forward; the text written is then that of the model without zones. A zone is any function of time together with any mktime that finds a time the clocks show, if there is one."
  },
  {
   "property": "C121",
   "status": "proved",
   "theorems": [
    "Verif.FirstError.C121_write",
    "Verif.FirstError.C121_read",
    "Verif.FirstError.C121_library",
    "Verif.Yaml.C121_load",
    "Verif.FirstError.C121_no_problem",
    "Verif.FirstError.C121_write_meaning",
    "Verif.FirstError.C121_valid"
   ],
   "note": "Equivalences with an independent list of problems in document order. Writing for databases whose scope types are visited by the writer (as in C68). Exceptions of the library and validation errors are one kind in the model."
  },
  {
   "property": "C122",
   "status": "proved",
   "theorems": [
    "Verif.Store.C122_whole_bins",
    "Verif.Store.C122_totals",
    "Verif.Store.C122_in_order",
    "Verif.Store.merge_leaves"
   ],
   "note": "On the object store, for every destination and list of inputs. The totals are stated for inputs without same-named siblings (C122_totals); C122_whole_bins has no such condition."
  },
  {
   "property": "C123",
   "status": "partial",
   "theorems": [
    "Verif.Merge.C123_together",
    "Verif.Merge.C123_alone",
    "Verif.Merge.C123_destination",
    "Verif.Merge.C123_every_order_partial",
    "Verif.Merge.C123_order_refuted"
   ],
   "note": "Together and alone for all databases; missing: the order. The design unit of an instance and the coverpoints of a cross are taken from the first input that has it, so an input may only be mergeable after others. Proved: all orders work exactly if every input can be the first one in some order that works."
  },
  {
   "property": "C124",
   "status": "partial",
   "theorems": [
    "Verif.Merge.C124_looks",
    "Verif.Merge.C124_empty",
    "Verif.Merge.C124_hits_partial",
    "Verif.Merge.C124_neat",
    "Verif.Xml.C124_xml",
    "Verif.Yaml.C124_yaml",
    "Verif.Merge.C124_refuted"
   ],
   "note": "Proved for databases with all bins in covergroups of their top-level instances, as those read from XML and YAML are; hits elsewhere, for example in instances of instances, are lost (C124_refuted). Without that condition the destination grows by the hits of the parts that merging looks at (C124_hits_partial)."
  },
  {
   "property": "C125",
   "status": "partial",
   "theorems": [
    "Verif.Notice.C125_result",
    "Verif.Notice.C125_names",
    "Verif.Notice.C125_again",
    "Verif.Notice.C125_fails_iff",
    "Verif.Notice.C125_never_lost",
    "Verif.Notice.C125_kept_partial",
    "Verif.Notice.C125_kept_refuted",
    "Verif.Notice.C125_interpreter_refuted"
   ],
   "note": "Missing: the text is unchanged only if its line ends are those of Unix; other line ends are replaced. Files executed through their first line stop working, since the notice is put before that line. Decoding is taken to succeed or fail for a whole file."
  },
  {
   "property": "C126",
   "status": "partial",
   "theorems": [
    "Verif.Lib.C126_passed_on_partial",
    "Verif.Lib.C126_refuted"
   ],
   "note": "Proved for whole databases. The code violates the rest: result codes are ignored, a scope object cannot be passed, and a closed database is used on."
  },
  {
   "property": "C127",
   "status": "partial",
   "theorems": [
    "Verif.Tools.C127_directory_partial",
    "Verif.Tools.C127_never",
    "Verif.Tools.C127_stream",
    "Verif.Tools.C127_refuted"
   ],
   "note": "Proved: the order of emptying, making and reporting, what is left alone, and the refusals. The code violates the rest: the command never succeeds, since the path is closed like a file, and a missing directory is not made. What the report puts into the directory is not modelled."
  },
  {
   "property": "C128",
   "status": "proved",
   "theorems": [
    "Verif.DateTime.C128_write",
    "Verif.DateTime.C128_converted",
    "Verif.DateTime.C128_read",
    "Verif.DateTime.C128_error",
    "Verif.DateTime.calendar_iff"
   ],
   "note": "Only ASCII digits; the other texts accepted for writing (single digits) are not described. The time zone is C120."
  },
  {
   "property": "C129",
   "status": "proved",
   "theorems": [
    "Verif.Tools.C129_read",
    "Verif.Tools.C129_build",
    "Verif.Tools.C129_merge",
    "Verif.Tools.C129_convert",
    "Verif.Tools.C129_report"
   ],
   "note": "Equivalences, so success is the remaining case. Decompressors and parsers are parameters. What a merge error is: C123; the first problem of the XML writer and reader and of the YAML loader: C121."
  },
  {
   "property": "C130",
   "status": "partial",
   "theorems": [
    "Verif.Store.C130_all_partial",
    "Verif.Store.C130_kind",
    "Verif.Store.C130_exact",
    "Verif.Store.C130_refuted"
   ],
   "note": "Full claim: Store.C130_claim; violated. Kinds are read back as texts, so that no record is found under a kind; parents are not written; an empty history becomes one record. C130_exact: the claim holds for a database exactly if it has a record, none of its records has a kind of the interface and none a parent. C130_all_partial: asking for all records gives the same records in order, if there are any."
  },
  {
   "property": "C131",
   "status": "partial",
   "theorems": [
    "Verif.Yaml.C131_yaml",
    "Verif.Yaml.C131_yaml_one",
    "Verif.Yaml.C131_xml",
    "Verif.Yaml.C131_refuted",
    "Verif.Tools.C131_xml_command",
    "Verif.Tools.C131_convert_command"
   ],
   "note": "Full claim for YAML: Yaml.C131_claim; violated by a document in which a cross of one instance crosses a coverpoint of an earlier instance: the loader accepts it, the merger does not. C131_yaml: the exact condition, for any list of YAML documents. For XML the claim holds (C131_xml)."
  },
  {
   "property": "C132",
   "status": "proved",
   "theorems": [
    "Verif.Xml.C132_text",
    "Verif.Xml.C132_any",
    "Verif.Xml.C132_unique",
    "Verif.Xml.C132_injective",
    "Verif.Tools.C132_file"
   ],
   "note": "DocText: the texts XML 1.0 allows for an element (elements, attributes, text, references, name space declarations; names of ASCII characters; no comments, CDATA sections or document types, which the writer does not produce). C132_text is about the serialiser as modelled; C132_any about any serialiser and parser that conform to XML; C132_file about UTF-8 files."
  },
  {
   "property": "C133",
   "status": "proved",
   "theorems": [
    "Verif.JsonText.C133_text",
    "Verif.JsonText.C133_unique",
    "Verif.JsonText.C133_report",
    "Verif.JsonText.C133_floats",
    "Verif.Tools.C133_file"
   ],
   "note": "JDoc: the texts RFC 8259 allows for a value. dump: json.dump with indent=4 as modelled. Assumed of the text of a float: it is a JSON number and reads back as the float (Floats; C133_floats: such texts exist). C133_file is about the command and its file."
  },
  {
   "property": "C134",
   "status": "partial",
   "theorems": [
    "Verif.C134_text_determines_partial",
    "Verif.C134_figures",
    "Verif.C134_refuted"
   ],
   "note": "Violated by names with line ends: one covergroup passes for two (C134_refuted, on databases). The partial theorem: the claim for all reports whose names have no line end, whatever else they contain."
  },
  {
   "property": "C135",
   "status": "partial",
   "theorems": [
    "Verif.FileHits.C135_hits_partial",
    "Verif.FileHits.C135_at_most",
    "Verif.FileHits.C135_yaml_partial",
    "Verif.FileHits.C135_yaml_at_most",
    "Verif.Tools.C135_merge_command_partial",
    "Verif.Tools.C135_merge_yaml_partial",
    "Verif.FileHits.C135_refuted"
   ],
   "note": "Violated if one file has the same name twice among the covergroups of an instance, the entries of a covergroup or the coverpoints of an entry: only the last one counts (C135_refuted; crosses all count). The partial theorems: equality for files without such repetitions. That there are never more hits is proved without that condition."
  },
  {
   "property": "C136",
   "status": "partial",
   "theorems": [
    "Verif.MergeOrder.C136_xml_partial",
    "Verif.MergeOrder.C136_yaml_partial",
    "Verif.Tools.C136_commands_partial",
    "Verif.MergeOrder.C136_total_refuted",
    "Verif.MergeOrder.C136_kinds_refuted",
    "Verif.MergeOrder.C136_refuted"
   ],
   "note": "Violated for the overall figure (it is that of the last instance: C136_total_refuted, 50 or 100) and for the sums over cover-instances if a bin is ordinary in one and ignored or illegal in another (the first decides: C136_kinds_refuted). The partial theorems: everything at the level of cover-instances without conditions; covergroup figures and sums if the kinds are clear; the overall figure if in addition the XML files are about one instance (YAML files always are)."
  },
  {
   "property": "C137",
   "status": "partial",
   "theorems": [
    "Verif.Lib.C137_locations_partial",
    "Verif.Lib.C137_locations_refuted",
    "Verif.Lib.C137_files_partial",
    "Verif.Lib.C137_files_refuted"
   ],
   "note": "The code violates it: an object without a location has one when read (line 0, null file handle), and file names are read as bytes objects. The partial theorems: locations given at creation are read back in full, for every kind of object that has one; names have the same text. Toggles have no location in the C interface."
  },
  {
   "property": "C138",
   "status": "partial",
   "theorems": [
    "Verif.Cli.C138_session_partial",
    "Verif.Cli.C138_session_yaml_partial",
    "Verif.Cli.C138_crosses_refuted"
   ],
   "note": "Proved for XML and YAML input if the first run prints nothing and the second prints no error message, in exact arithmetic. The code violates it when there are crosses: the second run then always ends with the message of an exception, with status 0. A failing first run also has status 0 (C117)."
  },
  {
   "property": "C139",
   "status": "partial",
   "theorems": [
    "Verif.Store.C139_options_partial",
    "Verif.Store.C139_comment",
    "Verif.Store.C139_schema_partial",
    "Verif.Store.C139_schema_refuted"
   ],
   "note": "The code violates it: the goal is -1, and a covergroup has 0 required hits and per_instance and merge_instances on. C139_schema_partial says exactly for which options the default of the schema is found; C139_options_partial gives the values of all properties of all kinds of objects."
  },
  {
   "property": "C140",
   "status": "partial",
   "theorems": [
    "Verif.Authors.C140_memory",
    "Verif.Authors.C140_file_partial",
    "Verif.Authors.C140_file_refuted"
   ],
   "note": "Proved in memory. The code violates the part about files: the writer puts the current user and date into the file and the reader sets neither. C140_file_partial says what is in the file and exactly when the attributes survive."
  },
  {
   "property": "C141",
   "status": "partial",
   "theorems": [
    "Verif.Store.C141_flags",
    "Verif.Store.C141_width_partial",
    "Verif.Store.C141_width_refuted"
   ],
   "note": "The flags are proved for all programs. The code violates the last part: counts are not limited. C141_width_partial says exactly when the width holds, for bins with data of their own that are not assigned directly."
  },
  {
   "property": "C142",
   "status": "partial",
   "theorems": [
    "Verif.Xml.C142_file_partial",
    "Verif.Xml.C142_read_partial",
    "Verif.Xml.C142_copy_partial",
    "Verif.Xml.C142_refuted"
   ],
   "note": "The code violates the property for every object that has a location (C142_refuted shows one instance). The partial theorems say what happens instead, for all databases and all files: every entry names the null file, line 1 and token 1, and nothing that was read has a location."
  },
  {
   "property": "C143",
   "status": "partial",
   "theorems": [
    "Verif.Xml.C143_file_partial",
    "Verif.Xml.C143_read_partial",
    "Verif.Xml.C143_refuted"
   ],
   "note": "The code violates the property (C143_refuted). The partial theorems say what happens instead, for all databases and all files: the file does not depend on weights, goals, thresholds, design units, lines or tokens, and everything read has weight and threshold 1."
  },
  {
   "property": "C144",
   "status": "proved",
   "theorems": [
    "Verif.Xml.C144_told_apart",
    "Verif.Xml.C144_determined"
   ],
   "note": "For the element tree that is serialised; C132 covers the text. C144_determined needs no assumption on source files and test records."
  },
  {
   "property": "C145",
   "status": "proved",
   "theorems": [
    "Verif.Report.C145_same_report"
   ],
   "note": "For every rounding function, so for exact and for binary64 figures alike."
  }
 ]
}