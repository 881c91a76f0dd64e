{
 "claims": [
  {
   "property": "C01",
   "status": "proved",
   "theorems": [
    "Chopper.Props.C01_stream",
    "Chopper.Props.C01_complete",
    "Chopper.Props.C01_preview_errors"
   ],
   "note": ""
  },
  {
   "property": "C02",
   "status": "proved",
   "theorems": [
    "Chopper.Props.C02_lines",
    "Chopper.Props.C02_decodeAll"
   ],
   "note": ""
  },
  {
   "property": "C03",
   "status": "proved",
   "theorems": [
    "Chopper.Props.C03_same",
    "Chopper.Props.C03_errors"
   ],
   "note": ""
  },
  {
   "property": "C04",
   "status": "proved",
   "theorems": [
    "Chopper.Props.C04_removes_listed",
    "Chopper.Props.C04_bad_positions_panic"
   ],
   "note": ""
  },
  {
   "property": "C05",
   "status": "partial",
   "theorems": [
    "Chopper.Props.C05_most_frequent_partial",
    "Chopper.Props.C05_always_a_candidate",
    "Chopper.Props.C05_counterexample"
   ],
   "note": "False of the code (C05_counterexample: characters are counted by their low 8 bits). C05_most_frequent_partial: holds for rows of characters below U+0100; C05_always_a_candidate: exact behaviour for every row."
  },
  {
   "property": "C06",
   "status": "proved",
   "theorems": [
    "Chopper.Props.C06_join",
    "Chopper.Props.C06_order_and_multiplicity"
   ],
   "note": ""
  },
  {
   "property": "C07",
   "status": "proved",
   "theorems": [
    "Chopper.Props.C07_type_of_text",
    "Chopper.Props.C07_header",
    "Chopper.Props.C07_conservative"
   ],
   "note": "Texts accepted as f64 by the standard library are a parameter."
  },
  {
   "property": "C08",
   "status": "proved",
   "theorems": [
    "Chopper.Props.C08_delimiter"
   ],
   "note": ""
  },
  {
   "property": "C09",
   "status": "proved",
   "theorems": [
    "Chopper.Props.C09_epoch_exact",
    "Chopper.Props.C09_same_as_csv",
    "Chopper.Props.C09_outside_never_epoch"
   ],
   "note": "C09_same_as_csv assumes the date library does not read the digits as a date."
  },
  {
   "property": "C10",
   "status": "proved",
   "theorems": [
    "Chopper.Props.C10_abbreviated",
    "Chopper.Props.C10_formats",
    "Chopper.Props.C10_format_list"
   ],
   "note": "For every date library; digit texts exceeding 64 bits (and the empty text) are rejected as numbers before the formats are tried."
  },
  {
   "property": "C11",
   "status": "partial",
   "theorems": [
    "Chopper.Props.C11_units_partial",
    "Chopper.Props.C11_counterexample"
   ],
   "note": "False of builds without overflow checks (C11_counterexample). C11_units_partial: exact when it fits, exact or panic with overflow checks, exact modulo 2^64 without."
  },
  {
   "property": "C12",
   "status": "partial",
   "theorems": [
    "Chopper.Props.C12_conversion",
    "Chopper.Props.C12_order_partial",
    "Chopper.Props.C12_counterexample"
   ],
   "note": "False for instants before 1970 (C12_counterexample). C12_order_partial: true between 1970 and 2^64 ns later; C12_conversion: exact conversion for every instant."
  },
  {
   "property": "C13",
   "status": "proved",
   "theorems": [
    "Chopper.Props.C13_chosen",
    "Chopper.Props.C13_exists",
    "Chopper.Props.C13_by_name"
   ],
   "note": "to_lowercase is a parameter. Names that begin with 'time' are never taken as prefixed ones (Spec.PrefixDate etc.)."
  },
  {
   "property": "C14",
   "status": "proved",
   "theorems": [
    "Chopper.Props.C14_detected_format_parses",
    "Chopper.Props.C14_one_column",
    "Chopper.Props.C14_two_columns",
    "Chopper.Props.C14_user_format"
   ],
   "note": "Also for user-given formats; with overflow checks, instants outside i64 nanoseconds panic (explicit in Spec.Follows)."
  },
  {
   "property": "C15",
   "status": "proved",
   "theorems": [
    "Chopper.Props.C15_prints_floor",
    "Chopper.Props.C15_reads_back",
    "Chopper.Props.C15_distinct",
    "Chopper.Props.C15_split"
   ],
   "note": ""
  },
  {
   "property": "C16",
   "status": "proved",
   "theorems": [
    "Chopper.Props.C16_range",
    "Chopper.Props.C16_range_unsorted",
    "Chopper.Props.C16_all"
   ],
   "note": ""
  },
  {
   "property": "C17",
   "status": "proved",
   "theorems": [
    "Chopper.Props.C17_sorted"
   ],
   "note": "Holds for every outcome of the run, including runs that end in an error or panic."
  },
  {
   "property": "C18",
   "status": "proved",
   "theorems": [
    "Chopper.Props.C18_exactly_once",
    "Chopper.Props.C18_all_inputs"
   ],
   "note": ""
  },
  {
   "property": "C19",
   "status": "proved",
   "theorems": [
    "Chopper.Props.C19_ties",
    "Chopper.Props.C19_stable"
   ],
   "note": ""
  },
  {
   "property": "C20",
   "status": "partial",
   "theorems": [
    "Chopper.Props.C20_fails",
    "Chopper.Props.C20_refuted",
    "Chopper.Props.C20_partial"
   ],
   "note": "False of the code (C20_fails): input k of n is processed by chain n-1-k. C20_partial: true for the middle input / a single input."
  },
  {
   "property": "C21",
   "status": "partial",
   "theorems": [
    "Chopper.Props.C21_tool_never_succeeds",
    "Chopper.Props.C21_never_succeeds",
    "Chopper.Props.C21_fails",
    "Chopper.Props.C21_refuted",
    "Chopper.Props.C21_partial"
   ],
   "note": "False of the code (C21_fails, C21_never_succeeds). C21_partial: an input without selected rows contributes no row."
  },
  {
   "property": "C22",
   "status": "proved",
   "theorems": [
    "Chopper.Props.C22_flushed"
   ],
   "note": ""
  },
  {
   "property": "C23",
   "status": "proved",
   "theorems": [
    "Chopper.Props.C23_run_is_calls",
    "Chopper.Props.C23_failure_prefix",
    "Chopper.Props.C23_source_failure",
    "Chopper.Props.C23_early_failure"
   ],
   "note": ""
  },
  {
   "property": "C24",
   "status": "proved",
   "theorems": [
    "Chopper.Props.C24_loop_terminates",
    "Chopper.Props.C24_iterations",
    "Chopper.Props.C24_terminates",
    "Chopper.Props.C24_cycle_diverges"
   ],
   "note": "Loop bound, per-row bound on acyclic graphs; C24_cycle_diverges shows the acyclicity hypothesis is needed."
  },
  {
   "property": "C25",
   "status": "proved",
   "theorems": [
    "Chopper.Props.C25_composition",
    "Chopper.Props.C25_stages_append"
   ],
   "note": ""
  },
  {
   "property": "C26",
   "status": "proved",
   "theorems": [
    "Chopper.Props.C26_delivery",
    "Chopper.Props.C26_branches_independent"
   ],
   "note": ""
  },
  {
   "property": "C27",
   "status": "proved",
   "theorems": [
    "Chopper.Props.C27_same_header",
    "Chopper.Props.C27_command_line"
   ],
   "note": ""
  },
  {
   "property": "C28",
   "status": "proved",
   "theorems": [
    "Chopper.Props.C28_setup_terminates"
   ],
   "note": "Under the (necessary) assumption that the header sinks themselves return."
  },
  {
   "property": "C29",
   "status": "partial",
   "theorems": [
    "Chopper.Props.C29_counterexample",
    "Chopper.Props.C29_refuted",
    "Chopper.Props.C29_missing_chain_accepted",
    "Chopper.Props.C29_accepted_acyclic_partial"
   ],
   "note": "False of the code (C29_counterexample: self-split accepted; C29_missing_chain_accepted). C29_accepted_acyclic_partial: holds when split targets have a single splitting chain, are not input chains and not merge chains; merges need no condition."
  },
  {
   "property": "C30",
   "status": "proved",
   "theorems": [
    "Chopper.Props.C30_nodes_kept"
   ],
   "note": ""
  },
  {
   "property": "C31",
   "status": "partial",
   "theorems": [
    "Chopper.Props.C31_counterexample",
    "Chopper.Props.C31_refuted",
    "Chopper.Props.C31_arrivals_partial"
   ],
   "note": "False of the code (C31_counterexample). C31_arrivals_partial: more arrivals than declared never succeed; exactly as many enters the chain; fewer leaves it empty."
  },
  {
   "property": "C32",
   "status": "proved",
   "theorems": [
    "Chopper.Props.C32_equal",
    "Chopper.Props.C32_greater"
   ],
   "note": ""
  },
  {
   "property": "C33",
   "status": "proved",
   "theorems": [
    "Chopper.Props.C33_delete",
    "Chopper.Props.C33_alignment"
   ],
   "note": ""
  },
  {
   "property": "C34",
   "status": "proved",
   "theorems": [
    "Chopper.Props.C34_equality",
    "Chopper.Props.C34_ordering",
    "Chopper.Props.C34_texts",
    "Chopper.Props.C34_laws"
   ],
   "note": "Floats are bit patterns; the order is proved to be the order of the numbers they denote (Spec.ieeeVal)."
  },
  {
   "property": "C35",
   "status": "proved",
   "theorems": [
    "Chopper.Props.C35_splits",
    "Chopper.Props.C35_widths",
    "Chopper.Props.C35_split_targets",
    "Chopper.Props.C35_counterexample_split"
   ],
   "note": "For every call sequence on every accepted graph of built-in filters, outputs and merges (C35_widths); with splits if every chain a split leads to was configured with a header of the same width (C35_splits), in particular if every split target is a chain of its own (C35_split_targets). Without that the claim is false with splits (C35_counterexample_split: a chain reached by two splits is only configured for the first header)."
  },
  {
   "property": "C36",
   "status": "partial",
   "theorems": [
    "Chopper.Props.C36_roundtrip_partial",
    "Chopper.Props.C36_names_kept",
    "Chopper.Props.C36_nine_columns_never",
    "Chopper.Props.C36_one_column_never",
    "Chopper.Props.C36_refuted",
    "Chopper.Props.C36_unsupported_rejected"
   ],
   "note": "Proved for every column count >= 2 that is not 1 modulo 8; proved false for 1, 9, 17, ... columns (C36_nine_columns_never, C36_one_column_never). Strings and names below 4 GiB."
  },
  {
   "property": "C37",
   "status": "proved",
   "theorems": [
    "Chopper.Props.C37_string_roundtrip",
    "Chopper.Props.C37_forms"
   ],
   "note": ""
  },
  {
   "property": "C38",
   "status": "partial",
   "theorems": [
    "Chopper.Props.C38_cut_partial",
    "Chopper.Props.C38_cut_header",
    "Chopper.Props.C38_silent_cut",
    "Chopper.Props.C38_refuted"
   ],
   "note": "Proved for every DC file and every cut, with the exact outcome; the part 'a cut is reported unless on a row boundary' is false for cuts 1..7 bytes into a row (C38_silent_cut)."
  },
  {
   "property": "C39",
   "status": "partial",
   "theorems": [
    "Chopper.Props.C39_failure_partial",
    "Chopper.Props.C39_failure_header",
    "Chopper.Props.C39_silent_failure",
    "Chopper.Props.C39_refuted",
    "Chopper.Props.C39_dc_input",
    "Chopper.Props.C39_dc_rows_partial"
   ],
   "note": "Proved for failures anywhere in the header and at least 8 bytes into a row; false for failures at a row boundary or in a timestamp (C39_silent_failure)."
  },
  {
   "property": "C40",
   "status": "proved",
   "theorems": [
    "Chopper.Props.C40_open_iff",
    "Chopper.Props.C40_wrong_magic",
    "Chopper.Props.C40_wrong_version",
    "Chopper.Props.C40_wrong_hint"
   ],
   "note": ""
  },
  {
   "property": "C41",
   "status": "proved",
   "theorems": [
    "Chopper.Props.C41_bitmap",
    "Chopper.Props.C41_bitmap_length"
   ],
   "note": ""
  },
  {
   "property": "C42",
   "status": "partial",
   "theorems": [
    "Chopper.Props.C42_same_columns_partial",
    "Chopper.Props.C42_other_delimiter_never",
    "Chopper.Props.C42_no_columns",
    "Chopper.Props.C42_counterexample"
   ],
   "note": "False of the code: the header line always uses ',' (C42_other_delimiter_never, C42_counterexample) and has an extra empty column when there are no fields (C42_no_columns). C42_same_columns_partial: true for delimiter ',' otherwise."
  },
  {
   "property": "C43",
   "status": "proved",
   "theorems": [
    "Chopper.Props.C43_row",
    "Chopper.Props.C43_printable",
    "Chopper.Props.C43_null",
    "Chopper.Props.C43_rows"
   ],
   "note": ""
  },
  {
   "property": "C44",
   "status": "partial",
   "theorems": [
    "Chopper.Props.C44_rows_partial",
    "Chopper.Props.C44_own_fields_partial",
    "Chopper.Props.C44_longer_panics",
    "Chopper.Props.C44_counterexample"
   ],
   "note": "False of the code for ragged inputs: shorter records keep stale values (C44_counterexample), longer ones panic (C44_longer_panics). C44_own_fields_partial: true for equally long records; C44_rows_partial: the exact content for shorter ones."
  },
  {
   "property": "C45",
   "status": "partial",
   "theorems": [
    "Chopper.Props.C45_rows_partial",
    "Chopper.Props.C45_never",
    "Chopper.Props.C45_counterexample"
   ],
   "note": "False of the code (C45_never, C45_counterexample): the last row before the malformed record is lost. C45_rows_partial: all rows before that one are delivered."
  },
  {
   "property": "C46",
   "status": "partial",
   "theorems": [
    "Chopper.Props.C46_always_panics",
    "Chopper.Props.C46_counterexample",
    "Chopper.Props.C46_with_records_partial"
   ],
   "note": "False of the code (C46_always_panics, C46_counterexample): opening panics for every configuration. C46_with_records_partial: with a first record, a panic can only come from timestamp detection/conversion."
  },
  {
   "property": "C47",
   "status": "proved",
   "theorems": [
    "Chopper.Props.C47_accepted_iff",
    "Chopper.Props.C47_values",
    "Chopper.Props.C47_determined"
   ],
   "note": ""
  },
  {
   "property": "C48",
   "status": "partial",
   "theorems": [
    "Chopper.Props.C48_width_partial",
    "Chopper.Props.C48_never_truncated",
    "Chopper.Props.C48_counterexample"
   ],
   "note": "False of the code (C48_never_truncated, C48_counterexample): files whose first columns are the expected ones in order keep their extra values. C48_width_partial: true otherwise."
  },
  {
   "property": "C49",
   "status": "proved",
   "theorems": [
    "Chopper.Props.C49_order",
    "Chopper.Props.C49_concatenation",
    "Chopper.Props.C49_failure",
    "Chopper.Props.C49_open_crash",
    "Chopper.Props.C49_broken",
    "Chopper.Props.C49_unreadable",
    "Chopper.Props.C49_external",
    "Chopper.Props.C49_external_mismatch"
   ],
   "note": ""
  },
  {
   "property": "C50",
   "status": "partial",
   "theorems": [
    "Chopper.Props.C50_open_partial",
    "Chopper.Props.C50_compressed_partial",
    "Chopper.Props.C50_counterexample_extra",
    "Chopper.Props.C50_counterexample_comment"
   ],
   "note": "False of the code (two counterexample theorems): read_extra_field does not count the 4-byte subfield headers and reads on into the entry comment; an archive comment containing the end record signature is mistaken for the end record. Proved: every well-formed single-file archive (stored, deflate or bzip2 with the decoder as a parameter, zip64 or not) is read back exactly if no later end signature occurs and the entry has no central extra field, or one of at most 338 subfields followed by an entry comment without control characters and the end record."
  },
  {
   "property": "C51",
   "status": "proved",
   "theorems": [
    "Chopper.Props.C51_search",
    "Chopper.Props.C51_found",
    "Chopper.Props.C51_otherwise"
   ],
   "note": ""
  },
  {
   "property": "C52",
   "status": "proved",
   "theorems": [
    "Chopper.Props.C52_incremental",
    "Chopper.Props.C52_check",
    "Chopper.Props.C52_ends",
    "Chopper.Props.C52_history"
   ],
   "note": ""
  },
  {
   "property": "C53",
   "status": "proved",
   "theorems": [
    "Chopper.Props.C53_burst",
    "Chopper.Props.C53_byte",
    "Chopper.Props.C53_bytes",
    "Chopper.Props.C53_archive"
   ],
   "note": ""
  },
  {
   "property": "C54",
   "status": "proved",
   "theorems": [
    "Chopper.Props.C54_total",
    "Chopper.Props.C54_rejects_end",
    "Chopper.Props.C54_rejects_end64",
    "Chopper.Props.C54_rejects_entry",
    "Chopper.Props.C54_opened",
    "Chopper.Props.C54_opened_entry",
    "Chopper.Props.C54_short_zip64"
   ],
   "note": ""
  },
  {
   "property": "C55",
   "status": "proved",
   "theorems": [
    "Chopper.Props.C55_magic",
    "Chopper.Props.C55_preview",
    "Chopper.Props.C55_unique",
    "Chopper.Props.C55_short",
    "Chopper.Props.C55_isZip"
   ],
   "note": "Content detection on the first bytes of the preview; C55_isZip is the separate test used for seekable files."
  },
  {
   "property": "C56",
   "status": "proved",
   "theorems": [
    "Chopper.Props.C56_name",
    "Chopper.Props.C56_decoder",
    "Chopper.Props.C56_split"
   ],
   "note": ""
  },
  {
   "property": "C57",
   "status": "proved",
   "theorems": [
    "Chopper.Props.C57_explicit",
    "Chopper.Props.C57_name_first",
    "Chopper.Props.C57_then_content",
    "Chopper.Props.C57_content_only"
   ],
   "note": "For every list of factories and all decoders (the decoders themselves are parameters). The choice between the two LZ4 variants within a decided LZ4 format looks at the content."
  },
  {
   "property": "C58",
   "status": "partial",
   "theorems": [
    "Chopper.Props.C58_exact",
    "Chopper.Props.C58_inspected",
    "Chopper.Props.C58_recognised",
    "Chopper.Props.C58_chosen",
    "Chopper.Props.C58_no_csv_partial",
    "Chopper.Props.C58_opened_partial",
    "Chopper.Props.C58_written",
    "Chopper.Props.C58_large_never",
    "Chopper.Props.C58_counterexample"
   ],
   "note": "False of the code (C58_counterexample: small DC file with ASCII-only bytes; C58_large_never: any DC file of 8192 bytes or more without an early line break): the CSV factory is asked first. C58_opened_partial: true for content with a byte FF before a line break or shorter than 8192 bytes (C58_written: every file this program writes has one); C58_no_csv_partial: true without CSV configuration. C58_exact says exactly when: the part of the content the preview looks at is not UTF-8."
  },
  {
   "property": "C59",
   "status": "partial",
   "theorems": [
    "Chopper.Props.C59_last_wins",
    "Chopper.Props.C59_seekable_last_wins",
    "Chopper.Props.C59_first_failure",
    "Chopper.Props.C59_file_wins",
    "Chopper.Props.C59_user_transport_partial",
    "Chopper.Props.C59_counterexample"
   ],
   "note": "False of the code (C59_counterexample, C59_file_wins): the last transport that can open the path wins (C59_last_wins), and user transports come first. C59_user_transport_partial: true if no later transport can open the path."
  },
  {
   "property": "C60",
   "status": "proved",
   "theorems": [
    "Chopper.Props.C60_formats",
    "Chopper.Props.C60_stdin"
   ],
   "note": ""
  },
  {
   "property": "C61",
   "status": "proved",
   "theorems": [
    "Chopper.Props.C61_merge_unique",
    "Chopper.Props.C61_csv",
    "Chopper.Props.C61_dc",
    "Chopper.Props.C61_unequal_headers"
   ],
   "note": "C61_merge_unique: the specified merge is unique; C61_csv/C61_dc: whole runs; C61_unequal_headers: rejected with nothing but (at most) the created output file. Command line parsing by clap is not modelled: the theorem starts from the parsed options."
  },
  {
   "property": "C62",
   "status": "partial",
   "theorems": [
    "Chopper.Props.C62_dc_to_dc_partial",
    "Chopper.Props.C62_nine_columns_never",
    "Chopper.Props.C62_refuted"
   ],
   "note": "False for files whose column count is 1 modulo 8 (one column included): the DC writer and reader disagree about the null bitset, C62_nine_columns_never. Proved for all other column counts and the column types the DC writer supports."
  },
  {
   "property": "C63",
   "status": "partial",
   "theorems": [
    "Chopper.Props.C63_partial",
    "Chopper.Props.C63_counterexample"
   ],
   "note": "The last part is false: the code tests the ending without a dot, so 'tcsv' is written as CSV (C63_counterexample). Proved for names with .csv/.dc, for no name, and for names that end in neither csv nor dc."
  },
  {
   "property": "C64",
   "status": "partial",
   "theorems": [
    "Chopper.Props.C64_status_partial",
    "Chopper.Props.C64_ends",
    "Chopper.Props.C64_counterexample",
    "Chopper.Props.C64_error_exit",
    "Chopper.Props.C64_message"
   ],
   "note": "Status part proved. 'Silent' is false: handle_drive_error prints an empty line on a broken pipe (C64_counterexample); the library's other exit, Error::exit, is silent exactly then (C64_error_exit)."
  },
  {
   "property": "C65",
   "status": "proved",
   "theorems": [
    "Chopper.Props.C65_explicit_settings",
    "Chopper.Props.C65_names"
   ],
   "note": ""
  },
  {
   "property": "C66",
   "status": "proved",
   "theorems": [
    "Chopper.Props.C66_http_address",
    "Chopper.Props.C66_plain_file",
    "Chopper.Props.C66_zip_file",
    "Chopper.Props.C66_missing",
    "Chopper.Props.C66_directory",
    "Chopper.Props.C66_dc_file",
    "Chopper.Props.C66_http",
    "Chopper.Props.C66_stdin",
    "Chopper.Props.C66_csv_file",
    "Chopper.Props.C66_csv_http",
    "Chopper.Props.C66_rows"
   ],
   "note": ""
  },
  {
   "property": "C67",
   "status": "proved",
   "theorems": [
    "Chopper.Props.C67_csv_success_is_complete",
    "Chopper.Props.C67_csv_always_prefix",
    "Chopper.Props.C67_dc_success_is_complete",
    "Chopper.Props.C67_dc_always_prefix",
    "Chopper.Props.C67_csv_no_failed_call",
    "Chopper.Props.C67_dc_no_failed_call"
   ],
   "note": ""
  },
  {
   "property": "C68",
   "status": "proved",
   "theorems": [
    "Chopper.Props.C68_zone",
    "Chopper.Props.C68_one_zone"
   ],
   "note": ""
  },
  {
   "property": "C69",
   "status": "proved",
   "theorems": [
    "Chopper.Props.C69_column",
    "Chopper.Props.C69_format"
   ],
   "note": ""
  },
  {
   "property": "C70",
   "status": "proved",
   "theorems": [
    "Chopper.Props.C70_created"
   ],
   "note": ""
  },
  {
   "property": "C71",
   "status": "partial",
   "theorems": [
    "Chopper.Props.C71_no_crash_partial",
    "Chopper.Props.C71_counterexample"
   ],
   "note": "False: --print-time is matched case-insensitively by clap, and 'YES' reaches unreachable!() (C71_counterexample). Proved for lower-case values."
  },
  {
   "property": "C72",
   "status": "proved",
   "theorems": [
    "Chopper.Props.C72_rows_fit"
   ],
   "note": ""
  },
  {
   "property": "C73",
   "status": "proved",
   "theorems": [
    "Chopper.Props.C73_column",
    "Chopper.Props.C73_format"
   ],
   "note": ""
  },
  {
   "property": "C74",
   "status": "proved",
   "theorems": [
    "Chopper.Props.C74_header_line"
   ],
   "note": ""
  },
  {
   "property": "C75",
   "status": "proved",
   "theorems": [
    "Chopper.Props.C75_auto_settings"
   ],
   "note": ""
  },
  {
   "property": "C76",
   "status": "proved",
   "theorems": [
    "Chopper.Props.C76_settings",
    "Chopper.Props.C76_accepted"
   ],
   "note": ""
  },
  {
   "property": "C77",
   "status": "proved",
   "theorems": [
    "Chopper.Props.C77_user_factories"
   ],
   "note": ""
  },
  {
   "property": "C78",
   "status": "proved",
   "theorems": [
    "Chopper.Props.C78_exact",
    "Chopper.Props.C78_damaged"
   ],
   "note": ""
  },
  {
   "property": "C79",
   "status": "partial",
   "theorems": [
    "Chopper.Props.C79_first_frame_partial",
    "Chopper.Props.C79_counterexample"
   ],
   "note": "False of the code (C79_counterexample): ZstReader decodes only the first frame and then reports the end of the data. Proved: the content of the first frame is read exactly."
  },
  {
   "property": "C80",
   "status": "proved",
   "theorems": [
    "Chopper.Props.C80_filter_and_merge",
    "Chopper.Props.C80_sorted_output"
   ],
   "note": ""
  },
  {
   "property": "C81",
   "status": "proved",
   "theorems": [
    "Chopper.Props.C81_split"
   ],
   "note": ""
  },
  {
   "property": "C82",
   "status": "proved",
   "theorems": [
    "Chopper.Props.C82_streaming",
    "Chopper.Props.C82_no_lookahead",
    "Chopper.Props.C82_endless",
    "Chopper.Props.C82_end_of_range",
    "Chopper.Props.C82_endless_ends"
   ],
   "note": ""
  },
  {
   "property": "C83",
   "status": "partial",
   "theorems": [
    "Chopper.Props.C83_intact",
    "Chopper.Props.C83_small_partial",
    "Chopper.Props.C83_csv_partial",
    "Chopper.Props.C83_dc_never",
    "Chopper.Props.C83_refuted"
   ],
   "note": "False (C83_refuted): a DC file of at least 8192 bytes in an archive with a wrong checksum is read like an intact one (C83_dc_never, for every such file), because the checksum error comes where the next timestamp would and is taken for the end of the file. Proved: intact archives are read like plain files, small archives and CSV of any size report the error (for a csv crate that reports the errors of its reader)."
  },
  {
   "property": "C84",
   "status": "proved",
   "theorems": [
    "Chopper.Props.C84_bad_option",
    "Chopper.Props.C84_bad_input",
    "Chopper.Props.C84_bad_output"
   ],
   "note": ""
  },
  {
   "property": "C85",
   "status": "partial",
   "theorems": [
    "Chopper.Props.C85_file_partial",
    "Chopper.Props.C85_tool_partial",
    "Chopper.Props.C85_contract",
    "Chopper.Props.C85_exceptions",
    "Chopper.Props.C85_counterexample"
   ],
   "note": "False of the code (C85_counterexample, C85_exceptions: the header line always uses commas, nothing is quoted, fields are trimmed, empty tables). C85_tool_partial: true for the whole way (run, file, open) with commas, texts that need no quoting, at least one column and row."
  },
  {
   "property": "C86",
   "status": "partial",
   "theorems": [
    "Chopper.Props.C86_auto_partial",
    "Chopper.Props.C86_misread",
    "Chopper.Props.C86_default_column",
    "Chopper.Props.C86_counterexample"
   ],
   "note": "False of the code: C86_counterexample (a row at 1 s written in nanoseconds is read as 2001), C86_misread gives the general form. C86_auto_partial: true if the first time lies in 1989-2033, no other name looks like a time and the first two lines fit into the preview. C86_default_column: exactly when the first column is chosen."
  },
  {
   "property": "C87",
   "status": "partial",
   "theorems": [
    "Chopper.Props.C87_complete_partial",
    "Chopper.Props.C87_missing_bytes_partial",
    "Chopper.Props.C87_program_partial",
    "Chopper.Props.C87_counterexample",
    "Chopper.Props.C87_opened_partial"
   ],
   "note": "False of the code (C87_counterexample): the generator's plain write calls ignore how many bytes were taken. Proved for files that take at least 20 bytes per write, including failing ones: panic with a prefix, or complete. C87_missing_bytes_partial: for every file, what is written differs from the complete file only by missing bytes, and a file of the right length is complete."
  },
  {
   "property": "C88",
   "status": "proved",
   "theorems": [
    "Chopper.Props.C88_merge",
    "Chopper.Props.C88_copy"
   ],
   "note": ""
  },
  {
   "property": "C89",
   "status": "proved",
   "theorems": [
    "Chopper.Props.C89_csv",
    "Chopper.Props.C89_dc"
   ],
   "note": ""
  },
  {
   "property": "C90",
   "status": "proved",
   "theorems": [
    "Chopper.Props.C90_stages"
   ],
   "note": ""
  },
  {
   "property": "C91",
   "status": "proved",
   "theorems": [
    "Chopper.Props.C91_order"
   ],
   "note": ""
  },
  {
   "property": "C92",
   "status": "proved",
   "theorems": [
    "Chopper.Props.C92_pieces",
    "Chopper.Props.C92_csv_crate",
    "Chopper.Props.C92_gz_crate"
   ],
   "note": ""
  },
  {
   "property": "C93",
   "status": "partial",
   "theorems": [
    "Chopper.Props.C93_open",
    "Chopper.Props.C93_open_ends",
    "Chopper.Props.C93_row",
    "Chopper.Props.C93_row_ends",
    "Chopper.Props.C93_rows_partial",
    "Chopper.Props.C93_cut_partial",
    "Chopper.Props.C93_counterexample",
    "Chopper.Props.C93_counterexample_row"
   ],
   "note": "False of the code (C93_counterexample: no columns; C93_counterexample_row: text that is not UTF-8). The crashing files are characterized exactly (C93_open, C93_row); proved safe: files without text columns after a good header, and headers cut short."
  },
  {
   "property": "C94",
   "status": "proved",
   "theorems": [
    "Chopper.Props.C94_row",
    "Chopper.Props.C94_end",
    "Chopper.Props.C94_error",
    "Chopper.Props.C94_open",
    "Chopper.Props.C94_open_error",
    "Chopper.Props.C94_file",
    "Chopper.Props.C94_unambiguous",
    "Chopper.Props.C94_example",
    "Chopper.Props.C94_example_crash"
   ],
   "note": ""
  },
  {
   "property": "C95",
   "status": "proved",
   "theorems": [
    "Chopper.Props.C95_routes",
    "Chopper.Props.C95_in_order",
    "Chopper.Props.C95_routes_exist",
    "Chopper.Props.C95_outputs",
    "Chopper.Props.C95_plain_route",
    "Chopper.Props.C95_complex"
   ],
   "note": ""
  },
  {
   "property": "C96",
   "status": "proved",
   "theorems": [
    "Chopper.Props.C96_total",
    "Chopper.Props.C96_grow",
    "Chopper.Props.C96_cut",
    "Chopper.Props.C96_append",
    "Chopper.Props.C96_stuck",
    "Chopper.Props.C96_cut_ending",
    "Chopper.Props.C96_file",
    "Chopper.Props.C96_example_empty"
   ],
   "note": ""
  },
  {
   "property": "C97",
   "status": "proved",
   "theorems": [
    "Chopper.Props.C97_rows",
    "Chopper.Props.C97_time",
    "Chopper.Props.C97_open",
    "Chopper.Props.C97_open_error",
    "Chopper.Props.C97_open_crash",
    "Chopper.Props.C97_file",
    "Chopper.Props.C97_plain_file",
    "Chopper.Props.C97_plain_http"
   ],
   "note": ""
  },
  {
   "property": "C98",
   "status": "proved",
   "theorems": [
    "Chopper.Props.C98_records",
    "Chopper.Props.C98_file",
    "Chopper.Props.C98_naive_false"
   ],
   "note": ""
  },
  {
   "property": "C99",
   "status": "proved",
   "theorems": [
    "Chopper.Props.C99_stream",
    "Chopper.Props.C99_overflow",
    "Chopper.Props.C99_read",
    "Chopper.Props.C99_range",
    "Chopper.Props.C99_gz"
   ],
   "note": ""
  },
  {
   "property": "C100",
   "status": "proved",
   "theorems": [
    "Chopper.Props.C100_first",
    "Chopper.Props.C100_again",
    "Chopper.Props.C100_after_success",
    "Chopper.Props.C100_unopened",
    "Chopper.Props.C100_eventually",
    "Chopper.Props.C100_wrong_chain"
   ],
   "note": ""
  },
  {
   "property": "C101",
   "status": "proved",
   "theorems": [
    "Chopper.Props.C101_file",
    "Chopper.Props.C101_tool",
    "Chopper.Props.C101_far_future"
   ],
   "note": ""
  },
  {
   "property": "C102",
   "status": "partial",
   "theorems": [
    "Chopper.Props.C102_auto_partial",
    "Chopper.Props.C102_header_lost",
    "Chopper.Props.C102_counterexample"
   ],
   "note": "False of the code (C102_counterexample): default output of text columns only cannot be opened with automatic settings. Proved: C102_auto_partial (a column with name and first value of different kinds) and C102_header_lost (otherwise opening fails)."
  },
  {
   "property": "C103",
   "status": "partial",
   "theorems": [
    "Chopper.Props.C103_settings",
    "Chopper.Props.C103_usage",
    "Chopper.Props.C103_tool",
    "Chopper.Props.C103_refused_partial",
    "Chopper.Props.C103_ignored",
    "Chopper.Props.C103_no_crash_partial",
    "Chopper.Props.C103_counterexample"
   ],
   "note": "Proved: look-up (C103_settings), every pair that belongs together, and all contradictions but three. Those are false of the code: -E with -H (the conflicts name \"human\" and \"epoch\", which are not names of options), --csv-in-epoch with --csv-in-ts-fmt-date or -time (the epoch unit is silently ignored, C103_ignored). Counterexamples are given. clap is represented by its contract."
  },
  {
   "property": "C104",
   "status": "proved",
   "theorems": [
    "Chopper.Props.C104_file",
    "Chopper.Props.C104_csv",
    "Chopper.Props.C104_dc"
   ],
   "note": ""
  },
  {
   "property": "C105",
   "status": "proved",
   "theorems": [
    "Chopper.Props.C105_success",
    "Chopper.Props.C105_stops",
    "Chopper.Props.C105_exact",
    "Chopper.Props.C105_inputs_do_not_matter",
    "Chopper.Props.C105_hangs"
   ],
   "note": ""
  },
  {
   "property": "C106",
   "status": "partial",
   "theorems": [
    "Chopper.Props.C106_swap_partial",
    "Chopper.Props.C106_row_filters_partial",
    "Chopper.Props.C106_any_order",
    "Chopper.Props.C106_counterexample"
   ],
   "note": "False of the code for success (C106_counterexample: the first filter keeps away rows that end the process in the second). Proved: if the runs with both orders succeed the output is the same (C106_swap_partial, also across deletions; C106_row_filters_partial for any reordering and repetition of row filters), and success does not depend on the order if every row can be judged by every filter alone (C106_any_order)."
  },
  {
   "property": "C107",
   "status": "partial",
   "theorems": [
    "Chopper.Props.C107_recognised",
    "Chopper.Props.C107_no_zip64",
    "Chopper.Props.C107_archive_partial",
    "Chopper.Props.C107_without_failures",
    "Chopper.Props.C107_counterexample"
   ],
   "note": "False in general (C107_counterexample: any error of the seek to the zip64 locator is taken for its absence, and another entry may be read). Proved for files without zip64 locator, and for archives whose end record has the same offset as the zip64 record or a saturated one."
  },
  {
   "property": "C108",
   "status": "proved",
   "theorems": [
    "Chopper.Props.C108_local",
    "Chopper.Props.C108_utc",
    "Chopper.Props.C108_iso",
    "Chopper.Props.C108_leap_second",
    "Chopper.Props.C108_impossible",
    "Chopper.Props.C108_no_zone",
    "Chopper.Props.C108_day",
    "Chopper.Props.C108_period",
    "Chopper.Props.C108_year",
    "Chopper.Props.C108_month"
   ],
   "note": ""
  },
  {
   "property": "C109",
   "status": "partial",
   "theorems": [
    "Chopper.Props.C109_text",
    "Chopper.Props.C109_read",
    "Chopper.Props.C109_iff",
    "Chopper.Props.C109_utc",
    "Chopper.Props.C109_sorted",
    "Chopper.Props.C109_counterexample",
    "Chopper.Props.C109_file_partial",
    "Chopper.Props.C109_tool_partial"
   ],
   "note": "False for zones whose offset has seconds (C109_counterexample: Liberia before 1972 reads back 30 s early); proved for all other times (C109_iff is exact, C109_read says what is read in every case), with the file and run versions for whole-minute offsets."
  },
  {
   "property": "C110",
   "status": "partial",
   "theorems": [
    "Chopper.Props.C110_one",
    "Chopper.Props.C110_one_impossible",
    "Chopper.Props.C110_one_other",
    "Chopper.Props.C110_date",
    "Chopper.Props.C110_iso",
    "Chopper.Props.C110_two",
    "Chopper.Props.C110_two_impossible",
    "Chopper.Props.C110_epoch",
    "Chopper.Props.C110_units_partial",
    "Chopper.Props.C110_counterexample"
   ],
   "note": "Forms of dates and times proved in full; the claim for numbers is false for some millisecond values (C110_counterexample), exact characterisation in C110_epoch, the other units in C110_units_partial."
  },
  {
   "property": "C111",
   "status": "proved",
   "theorems": [
    "Chopper.Props.C111_merge",
    "Chopper.Props.C111_cut",
    "Chopper.Props.C111_nothing",
    "Chopper.Props.C111_year"
   ],
   "note": ""
  },
  {
   "property": "C112",
   "status": "proved",
   "theorems": [
    "Chopper.Props.C112_rows",
    "Chopper.Props.C112_directory",
    "Chopper.Props.C112_as_files",
    "Chopper.Props.C112_nothing"
   ],
   "note": ""
  },
  {
   "property": "C113",
   "status": "proved",
   "theorems": [
    "Chopper.Props.C113_quoted",
    "Chopper.Props.C113_bom",
    "Chopper.Props.C113_unambiguous",
    "Chopper.Props.C113_expressible",
    "Chopper.Props.C113_plain",
    "Chopper.Props.C113_quotes_needed",
    "Chopper.Props.C113_failure",
    "Chopper.Props.C113_failure_last",
    "Chopper.Props.C113_unclosed",
    "Chopper.Props.C113_invalid"
   ],
   "note": ""
  },
  {
   "property": "C114",
   "status": "proved",
   "theorems": [
    "Chopper.Props.C114_merge",
    "Chopper.Props.C114_unquoted",
    "Chopper.Props.C114_copy",
    "Chopper.Props.C114_counterexample"
   ],
   "note": "C114_full (a copy always has the same records) is not claimed; C114_counterexample refutes it and C114_copy says exactly when it holds. The CSV sink never quotes."
  },
  {
   "property": "C115",
   "status": "partial",
   "theorems": [
    "Chopper.Props.C115_number",
    "Chopper.Props.C115_kind",
    "Chopper.Props.C115_kept_partial",
    "Chopper.Props.C115_header",
    "Chopper.Props.C115_names",
    "Chopper.Props.C115_lost",
    "Chopper.Props.C115_counterexample"
   ],
   "note": "C115_full (every file without header line is delivered completely) is false of the code: C115_counterexample. C115_lost says exactly when the first record is lost, C115_header what happens then, C115_kept_partial what holds otherwise; C115_number that the transcription of dec2flt accepts exactly the grammar."
  },
  {
   "property": "C116",
   "status": "partial",
   "theorems": [
    "Chopper.Props.C116_traversal",
    "Chopper.Props.C116_both_partial",
    "Chopper.Props.C116_example_partial",
    "Chopper.Props.C116_counterexample"
   ],
   "note": "C116_full (lines always arrive whole) is false of the code: C116_counterexample. Proved: both texts complete, in order, mixed in some way; one after the other if the second is shorter than the output buffer (C116_both_partial, C116_example_partial)."
  },
  {
   "property": "C117",
   "status": "partial",
   "theorems": [
    "Chopper.Props.C117_intact",
    "Chopper.Props.C117_small_partial",
    "Chopper.Props.C117_csv_partial",
    "Chopper.Props.C117_dc_never",
    "Chopper.Props.C117_refuted"
   ],
   "note": "Intact files are read like their content (C117_intact); damage is always noticed for contents below 8192 bytes (C117_small_partial) and for CSV of any size (C117_csv_partial). The rest of the claim is false: every DC file of at least 8192 bytes with a wrong checksum or length is read as complete (C117_dc_never, C117_refuted)."
  },
  {
   "property": "C118",
   "status": "partial",
   "theorems": [
    "Chopper.Props.C118_first_partial",
    "Chopper.Props.C118_refuted"
   ],
   "note": "False (C118_refuted): the code uses flate2's GzDecoder, not MultiGzDecoder. Proved instead: exactly the first member is read, whatever follows it, and nothing is reported (C118_first_partial)."
  },
  {
   "property": "C119",
   "status": "proved",
   "theorems": [
    "Chopper.Props.C119_open",
    "Chopper.Props.C119_tool",
    "Chopper.Props.C119_tables"
   ],
   "note": ""
  },
  {
   "property": "C120",
   "status": "proved",
   "theorems": [
    "Chopper.Props.C120_is_tool",
    "Chopper.Props.C120_unpacked"
   ],
   "note": ""
  },
  {
   "property": "C121",
   "status": "proved",
   "theorems": [
    "Chopper.Props.C121_end",
    "Chopper.Props.C121_success",
    "Chopper.Props.C121_always",
    "Chopper.Props.C121_grows",
    "Chopper.Props.C121_filtered"
   ],
   "note": ""
  },
  {
   "property": "C122",
   "status": "partial",
   "theorems": [
    "Chopper.Props.C122_closed_partial",
    "Chopper.Props.C122_counterexample"
   ],
   "note": "Proved whenever the sinks are dropped after the run (Ok, Err, unwinding): C122_closed_partial, at every moment. The full claim is false: comparing values of different or unsupported types calls process::exit, and what is in the BufWriters is lost (C122_counterexample)."
  },
  {
   "property": "C123",
   "status": "proved",
   "theorems": [
    "Chopper.Props.C123_open",
    "Chopper.Props.C123_tool",
    "Chopper.Props.C123_zst",
    "Chopper.Props.C123_gz"
   ],
   "note": ""
  },
  {
   "property": "C124",
   "status": "partial",
   "theorems": [
    "Chopper.Props.C124_first_partial",
    "Chopper.Props.C124_refuted"
   ],
   "note": "False (C124_refuted): only the first frame is decoded. Proved instead: exactly the first frame is read, whatever follows it, and nothing is reported (C124_first_partial)."
  },
  {
   "property": "C125",
   "status": "proved",
   "theorems": [
    "Chopper.Props.C125_same",
    "Chopper.Props.C125_unpacked",
    "Chopper.Props.C125_said",
    "Chopper.Props.C125_tool",
    "Chopper.Props.C125_piped",
    "Chopper.Props.C125_redirected"
   ],
   "note": ""
  },
  {
   "property": "C126",
   "status": "proved",
   "theorems": [
    "Chopper.Props.C126_directory",
    "Chopper.Props.C126_tool"
   ],
   "note": ""
  },
  {
   "property": "C127",
   "status": "proved",
   "theorems": [
    "Chopper.Props.C127_open",
    "Chopper.Props.C127_tool"
   ],
   "note": ""
  },
  {
   "property": "C128",
   "status": "partial",
   "theorems": [
    "Chopper.Props.C128_never",
    "Chopper.Props.C128_tool_never",
    "Chopper.Props.C128_stdin_partial",
    "Chopper.Props.C128_refuted"
   ],
   "note": "False of the code (C128_refuted; C128_never: for every input that cannot be positioned, C128_tool_never: for every run with one). C128_stdin_partial: the same bytes on standard input, with explicit format, are read like a file."
  },
  {
   "property": "C129",
   "status": "proved",
   "theorems": [
    "Chopper.Props.C129_lag"
   ],
   "note": ""
  },
  {
   "property": "C130",
   "status": "proved",
   "theorems": [
    "Chopper.Props.C130_quiet"
   ],
   "note": ""
  },
  {
   "property": "C131",
   "status": "proved",
   "theorems": [
    "Chopper.Props.C131_lists",
    "Chopper.Props.C131_moment",
    "Chopper.Props.C131_files",
    "Chopper.Props.C131_order",
    "Chopper.Props.C131_first_rows"
   ],
   "note": ""
  },
  {
   "property": "C132",
   "status": "proved",
   "theorems": [
    "Chopper.Props.C132_processed",
    "Chopper.Props.C132_waits"
   ],
   "note": ""
  },
  {
   "property": "C133",
   "status": "proved",
   "theorems": [
    "Chopper.Props.C133_offset",
    "Chopper.Props.C133_local",
    "Chopper.Props.C133_date",
    "Chopper.Props.C133_no_date"
   ],
   "note": ""
  },
  {
   "property": "C134",
   "status": "partial",
   "theorems": [
    "Chopper.Props.C134_later_partial",
    "Chopper.Props.C134_first_partial",
    "Chopper.Props.C134_midnight",
    "Chopper.Props.C134_ignored",
    "Chopper.Props.C134_counterexample"
   ],
   "note": "False as claimed: C134_counterexample (first row 2019-02-03 24:00 with %F %R: the format is taken for one of dates and all later times are dropped, C134_midnight for every format; first row with offset +2400: all offsets are ignored, C134_ignored). Proved: impossible later rows are rejected, and so are first rows with impossible dates. (chrono before 0.4.32; later versions of chrono refuse hour 24 while parsing, which removes the first of the two defects.)"
  },
  {
   "property": "C135",
   "status": "proved",
   "theorems": [
    "Chopper.Props.C135_offset",
    "Chopper.Props.C135_local",
    "Chopper.Props.C135_date",
    "Chopper.Props.C135_no_zone",
    "Chopper.Props.C135_first",
    "Chopper.Props.C135_one_meaning",
    "Chopper.Props.C135_leap"
   ],
   "note": ""
  },
  {
   "property": "C136",
   "status": "partial",
   "theorems": [
    "Chopper.Props.C136_cut",
    "Chopper.Props.C136_dc",
    "Chopper.Props.C136_small_partial",
    "Chopper.Props.C136_kept",
    "Chopper.Props.C136_fetched",
    "Chopper.Props.C136_loss",
    "Chopper.Props.C136_counterexample"
   ],
   "note": "False as claimed: C136_counterexample, C136_loss (a file of 1108 rows written over itself keeps 508, and the run succeeds). Proved: C136_small_partial (files of up to 8192 bytes), C136_dc (what happens to longer ones), C136_kept, C136_cut (any inputs), C136_fetched. Missing: CSV files over themselves with general quoting (C136_cut applies if the output is not longer than the fetched bytes)."
  },
  {
   "property": "C137",
   "status": "proved",
   "theorems": [
    "Chopper.Props.C137_writer",
    "Chopper.Props.C137_flushed",
    "Chopper.Props.C137_lines",
    "Chopper.Props.C137_tool"
   ],
   "note": ""
  },
  {
   "property": "C138",
   "status": "partial",
   "theorems": [
    "Chopper.Props.C138_lost_partial",
    "Chopper.Props.C138_cut_partial",
    "Chopper.Props.C138_content_partial",
    "Chopper.Props.C138_input_partial",
    "Chopper.Props.C138_tool_partial",
    "Chopper.Props.C138_counterexample"
   ],
   "note": "Proved for archives in which the signature of the end record (and of the zip64 locator) occurs only where the record is, and the data lie before it. False in general (C138_counterexample): an archive that stores the end of another archive uncompressed is, cut right after it, opened with the inner directory and read in part without an error."
  },
  {
   "property": "C139",
   "status": "proved",
   "theorems": [
    "Chopper.Props.C139_stream",
    "Chopper.Props.C139_complete",
    "Chopper.Props.C139_ending",
    "Chopper.Props.C139_input",
    "Chopper.Props.C139_packed",
    "Chopper.Props.C139_gz"
   ],
   "note": ""
  },
  {
   "property": "C140",
   "status": "proved",
   "theorems": [
    "Chopper.Props.C140_calls",
    "Chopper.Props.C140_graph",
    "Chopper.Props.C140_csv",
    "Chopper.Props.C140_dc",
    "Chopper.Props.C140_one",
    "Chopper.Props.C140_dc_input"
   ],
   "note": ""
  },
  {
   "property": "C141",
   "status": "partial",
   "theorems": [
    "Chopper.Props.C141_input",
    "Chopper.Props.C141_tool",
    "Chopper.Props.C141_partial",
    "Chopper.Props.C141_counterexample"
   ],
   "note": "The full claim is false (C141_counterexample): a file that becomes a zip archive between the zip test and the opening for reading is read as if the bytes of the archive were its data. Everything else is proved: C141_input (any world that shows the input as it was at the moments it was looked at), C141_partial (there is such a world), C141_tool."
  },
  {
   "property": "C142",
   "status": "partial",
   "theorems": [
    "Chopper.Props.C142_crossed_partial",
    "Chopper.Props.C142_same_input",
    "Chopper.Props.C142_unsuitable",
    "Chopper.Props.C142_counterexample"
   ],
   "note": "The full claim is false (C142_counterexample): with two different inputs the greater filter is applied to the second and the equal filter to the first, because chains are numbered from the last input (C20). C142_crossed_partial says what the program prints; C142_same_input proves the full claim for the program as shipped, which reads one file twice; C142_unsuitable covers unsuitable headers."
  },
  {
   "property": "C143",
   "status": "partial",
   "theorems": [
    "Chopper.Props.C143_failed",
    "Chopper.Props.C143_cut_partial",
    "Chopper.Props.C143_counterexample"
   ],
   "note": "The full claim is false (C143_counterexample): data that end early without an error may end in a row that is not in the complete input, cut off within a value or filled up from the row before. C143_failed proves it for failing reads, C143_cut_partial for all rows but the last (the last two, if the complete input does not end well) of data cut without error, of which at least two rows are read."
  },
  {
   "property": "C144",
   "status": "proved",
   "theorems": [
    "Chopper.Props.C144_tool"
   ],
   "note": ""
  },
  {
   "property": "C145",
   "status": "proved",
   "theorems": [
    "Chopper.Props.C145_input",
    "Chopper.Props.C145_tool"
   ],
   "note": ""
  },
  {
   "property": "C146",
   "status": "proved",
   "theorems": [
    "Chopper.Props.C146_input",
    "Chopper.Props.C146_tool",
    "Chopper.Props.C146_gz",
    "Chopper.Props.C146_zst"
   ],
   "note": ""
  },
  {
   "property": "C147",
   "status": "proved",
   "theorems": [
    "Chopper.Props.C147_lines"
   ],
   "note": ""
  },
  {
   "property": "C148",
   "status": "proved",
   "theorems": [
    "Chopper.Props.C148_unpack",
    "Chopper.Props.C148_checksum",
    "Chopper.Props.C148_small",
    "Chopper.Props.C148_reader",
    "Chopper.Props.C148_input",
    "Chopper.Props.C148_tool",
    "Chopper.Props.C148_dc",
    "Chopper.Props.C148_dc_checksum"
   ],
   "note": ""
  },
  {
   "property": "C149",
   "status": "proved",
   "theorems": [
    "Chopper.Props.C149_lines",
    "Chopper.Props.C149_mixed",
    "Chopper.Props.C149_errors"
   ],
   "note": ""
  }
 ]
}