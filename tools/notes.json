{
 "C20": [
  "partial",
  "False of the code (C20_fails): input k of n is processed by chain n-1-k. C20_partial: true for the middle input / a single input."
 ],
 "C21": [
  "partial",
  "False of the code (C21_fails, C21_never_succeeds). C21_partial: an input without selected rows contributes no row."
 ],
 "C17": [
  "proved",
  "Holds for every outcome of the run, including runs that end in an error or panic."
 ],
 "C24": [
  "proved",
  "Loop bound, per-row bound on acyclic graphs; C24_cycle_diverges shows the acyclicity hypothesis is needed."
 ],
 "C29": [
  "partial",
  "False of the code (C29_counterexample: self-split accepted; C29_missing_chain_accepted). C29_accepted_acyclic_partial: holds when split targets have a single splitting chain, are not input chains and not merge chains; merges need no condition."
 ],
 "C31": [
  "partial",
  "False of the code (C31_counterexample). C31_arrivals_partial: more arrivals than declared never succeed; exactly as many enters the chain; fewer leaves it empty."
 ],
 "C28": [
  "proved",
  "Under the (necessary) assumption that the header sinks themselves return."
 ],
 "C35": [
  "proved",
  "For every call sequence on every accepted graph of built-in filters, outputs and merges (C35_widths); with splits if every chain a split leads to was configured with a header of the same width (C35_splits), in particular if every split target is a chain of its own (C35_split_targets). Without that the claim is false with splits (C35_counterexample_split: a chain reached by two splits is only configured for the first header)."
 ],
 "C34": [
  "proved",
  "Floats are bit patterns; the order is proved to be the order of the numbers they denote (Spec.ieeeVal)."
 ],
 "C05": [
  "partial",
  "False of the code (C05_counterexample: characters are counted by their low 8 bits). C05_most_frequent_partial: holds for rows of characters below U+0100; C05_always_a_candidate: exact behaviour for every row."
 ],
 "C07": [
  "proved",
  "Texts accepted as f64 by the standard library are a parameter."
 ],
 "C09": [
  "proved",
  "C09_same_as_csv assumes the date library does not read the digits as a date."
 ],
 "C10": [
  "proved",
  "For every date library; digit texts exceeding 64 bits (and the empty text) are rejected as numbers before the formats are tried."
 ],
 "C11": [
  "partial",
  "False of builds without overflow checks (C11_counterexample). C11_units_partial: exact when it fits, exact or panic with overflow checks, exact modulo 2^64 without."
 ],
 "C12": [
  "partial",
  "False for instants before 1970 (C12_counterexample). C12_order_partial: true between 1970 and 2^64 ns later; C12_conversion: exact conversion for every instant."
 ],
 "C13": [
  "proved",
  "to_lowercase is a parameter. Names that begin with 'time' are never taken as prefixed ones (Spec.PrefixDate etc.)."
 ],
 "C14": [
  "proved",
  "Also for user-given formats; with overflow checks, instants outside i64 nanoseconds panic (explicit in Spec.Follows)."
 ],
 "C36": [
  "partial",
  "Proved for every column count >= 2 that is not 1 modulo 8; proved false for 1, 9, 17, ... columns (C36_nine_columns_never, C36_one_column_never). Strings and names below 4 GiB."
 ],
 "C38": [
  "partial",
  "Proved for every DC file and every cut, with the exact outcome; the part 'a cut is reported unless on a row boundary' is false for cuts 1..7 bytes into a row (C38_silent_cut)."
 ],
 "C39": [
  "partial",
  "Proved for failures anywhere in the header and at least 8 bytes into a row; false for failures at a row boundary or in a timestamp (C39_silent_failure)."
 ],
 "C42": [
  "partial",
  "False of the code: the header line always uses ',' (C42_other_delimiter_never, C42_counterexample) and has an extra empty column when there are no fields (C42_no_columns). C42_same_columns_partial: true for delimiter ',' otherwise."
 ],
 "C44": [
  "partial",
  "False of the code for ragged inputs: shorter records keep stale values (C44_counterexample), longer ones panic (C44_longer_panics). C44_own_fields_partial: true for equally long records; C44_rows_partial: the exact content for shorter ones."
 ],
 "C45": [
  "partial",
  "False of the code (C45_never, C45_counterexample): the last row before the malformed record is lost. C45_rows_partial: all rows before that one are delivered."
 ],
 "C46": [
  "partial",
  "False of the code (C46_always_panics, C46_counterexample): opening panics for every configuration. C46_with_records_partial: with a first record, a panic can only come from timestamp detection/conversion."
 ],
 "C48": [
  "partial",
  "False of the code (C48_never_truncated, C48_counterexample): files whose first columns are the expected ones in order keep their extra values. C48_width_partial: true otherwise."
 ],
 "C50": [
  "partial",
  "False of the code (two counterexample theorems): read_extra_field does not count the 4-byte subfield headers and reads on into the entry comment; an archive comment containing the end record signature is mistaken for the end record. Proved: every well-formed single-file archive (stored, deflate or bzip2 with the decoder as a parameter, zip64 or not) is read back exactly if no later end signature occurs and the entry has no central extra field, or one of at most 338 subfields followed by an entry comment without control characters and the end record."
 ],
 "C55": [
  "proved",
  "Content detection on the first bytes of the preview; C55_isZip is the separate test used for seekable files."
 ],
 "C57": [
  "proved",
  "For every list of factories and all decoders (the decoders themselves are parameters). The choice between the two LZ4 variants within a decided LZ4 format looks at the content."
 ],
 "C58": [
  "partial",
  "False of the code (C58_counterexample: small DC file with ASCII-only bytes; C58_large_never: any DC file of 8192 bytes or more without an early line break): the CSV factory is asked first. C58_opened_partial: true for content with a byte FF before a line break or shorter than 8192 bytes (C58_written: every file this program writes has one); C58_no_csv_partial: true without CSV configuration. C58_exact says exactly when: the part of the content the preview looks at is not UTF-8."
 ],
 "C59": [
  "partial",
  "False of the code (C59_counterexample, C59_file_wins): the last transport that can open the path wins (C59_last_wins), and user transports come first. C59_user_transport_partial: true if no later transport can open the path."
 ],
 "C61": [
  "proved",
  "C61_merge_unique: the specified merge is unique; C61_csv/C61_dc: whole runs; C61_unequal_headers: rejected with nothing but (at most) the created output file. Command line parsing by clap is not modelled: the theorem starts from the parsed options."
 ],
 "C62": [
  "partial",
  "False for files whose column count is 1 modulo 8 (one column included): the DC writer and reader disagree about the null bitset, C62_nine_columns_never. Proved for all other column counts and the column types the DC writer supports."
 ],
 "C63": [
  "partial",
  "The last part is false: the code tests the ending without a dot, so 'tcsv' is written as CSV (C63_counterexample). Proved for names with .csv/.dc, for no name, and for names that end in neither csv nor dc."
 ],
 "C64": [
  "partial",
  "Status part proved. 'Silent' is false: handle_drive_error prints an empty line on a broken pipe (C64_counterexample); the library's other exit, Error::exit, is silent exactly then (C64_error_exit)."
 ],
 "C71": [
  "partial",
  "False: --print-time is matched case-insensitively by clap, and 'YES' reaches unreachable!() (C71_counterexample). Proved for lower-case values."
 ],
 "C79": [
  "partial",
  "False of the code (C79_counterexample): ZstReader decodes only the first frame and then reports the end of the data. Proved: the content of the first frame is read exactly."
 ],
 "C83": [
  "partial",
  "False (C83_refuted): a DC file of at least 8192 bytes in an archive with a wrong checksum is read like an intact one (C83_dc_never, for every such file), because the checksum error comes where the next timestamp would and is taken for the end of the file. Proved: intact archives are read like plain files, small archives and CSV of any size report the error (for a csv crate that reports the errors of its reader)."
 ],
 "C85": [
  "partial",
  "False of the code (C85_counterexample, C85_exceptions: the header line always uses commas, nothing is quoted, fields are trimmed, empty tables). C85_tool_partial: true for the whole way (run, file, open) with commas, texts that need no quoting, at least one column and row."
 ],
 "C86": [
  "partial",
  "False of the code: C86_counterexample (a row at 1 s written in nanoseconds is read as 2001), C86_misread gives the general form. C86_auto_partial: true if the first time lies in 1989-2033, no other name looks like a time and the first two lines fit into the preview. C86_default_column: exactly when the first column is chosen."
 ],
 "C87": [
  "partial",
  "False of the code (C87_counterexample): the generator's plain write calls ignore how many bytes were taken. Proved for files that take at least 20 bytes per write, including failing ones: panic with a prefix, or complete. C87_missing_bytes_partial: for every file, what is written differs from the complete file only by missing bytes, and a file of the right length is complete."
 ],
 "C93": [
  "partial",
  "False of the code (C93_counterexample: no columns; C93_counterexample_row: text that is not UTF-8). The crashing files are characterized exactly (C93_open, C93_row); proved safe: files without text columns after a good header, and headers cut short."
 ],
 "C102": [
  "partial",
  "False of the code (C102_counterexample): default output of text columns only cannot be opened with automatic settings. Proved: C102_auto_partial (a column with name and first value of different kinds) and C102_header_lost (otherwise opening fails)."
 ],
 "C103": [
  "partial",
  "Proved: look-up (C103_settings), every pair that belongs together, and all contradictions but three. Those are false of the code: -E with -H (the conflicts name \"human\" and \"epoch\", which are not names of options), --csv-in-epoch with --csv-in-ts-fmt-date or -time (the epoch unit is silently ignored, C103_ignored). Counterexamples are given. clap is represented by its contract."
 ],
 "C106": [
  "partial",
  "False of the code for success (C106_counterexample: the first filter keeps away rows that end the process in the second). Proved: if the runs with both orders succeed the output is the same (C106_swap_partial, also across deletions; C106_row_filters_partial for any reordering and repetition of row filters), and success does not depend on the order if every row can be judged by every filter alone (C106_any_order)."
 ],
 "C107": [
  "partial",
  "False in general (C107_counterexample: any error of the seek to the zip64 locator is taken for its absence, and another entry may be read). Proved for files without zip64 locator, and for archives whose end record has the same offset as the zip64 record or a saturated one."
 ],
 "C109": [
  "partial",
  "False for zones whose offset has seconds (C109_counterexample: Liberia before 1972 reads back 30 s early); proved for all other times (C109_iff is exact, C109_read says what is read in every case), with the file and run versions for whole-minute offsets."
 ],
 "C110": [
  "partial",
  "Forms of dates and times proved in full; the claim for numbers is false for some millisecond values (C110_counterexample), exact characterisation in C110_epoch, the other units in C110_units_partial."
 ],
 "C114": [
  "proved",
  "C114_full (a copy always has the same records) is not claimed; C114_counterexample refutes it and C114_copy says exactly when it holds. The CSV sink never quotes."
 ],
 "C115": [
  "partial",
  "C115_full (every file without header line is delivered completely) is false of the code: C115_counterexample. C115_lost says exactly when the first record is lost, C115_header what happens then, C115_kept_partial what holds otherwise; C115_number that the transcription of dec2flt accepts exactly the grammar."
 ],
 "C116": [
  "partial",
  "C116_full (lines always arrive whole) is false of the code: C116_counterexample. Proved: both texts complete, in order, mixed in some way; one after the other if the second is shorter than the output buffer (C116_both_partial, C116_example_partial)."
 ],
 "C117": [
  "partial",
  "Intact files are read like their content (C117_intact); damage is always noticed for contents below 8192 bytes (C117_small_partial) and for CSV of any size (C117_csv_partial). The rest of the claim is false: every DC file of at least 8192 bytes with a wrong checksum or length is read as complete (C117_dc_never, C117_refuted)."
 ],
 "C118": [
  "partial",
  "False (C118_refuted): the code uses flate2's GzDecoder, not MultiGzDecoder. Proved instead: exactly the first member is read, whatever follows it, and nothing is reported (C118_first_partial)."
 ],
 "C122": [
  "partial",
  "Proved whenever the sinks are dropped after the run (Ok, Err, unwinding): C122_closed_partial, at every moment. The full claim is false: comparing values of different or unsupported types calls process::exit, and what is in the BufWriters is lost (C122_counterexample)."
 ],
 "C124": [
  "partial",
  "False (C124_refuted): only the first frame is decoded. Proved instead: exactly the first frame is read, whatever follows it, and nothing is reported (C124_first_partial)."
 ],
 "C128": [
  "partial",
  "False of the code (C128_refuted; C128_never: for every input that cannot be positioned, C128_tool_never: for every run with one). C128_stdin_partial: the same bytes on standard input, with explicit format, are read like a file."
 ],
 "C134": [
  "partial",
  "False as claimed: C134_counterexample (first row 2019-02-03 24:00 with %F %R: the format is taken for one of dates and all later times are dropped, C134_midnight for every format; first row with offset +2400: all offsets are ignored, C134_ignored). Proved: impossible later rows are rejected, and so are first rows with impossible dates. (chrono before 0.4.32; later versions of chrono refuse hour 24 while parsing, which removes the first of the two defects.)"
 ],
 "C136": [
  "partial",
  "False as claimed: C136_counterexample, C136_loss (a file of 1108 rows written over itself keeps 508, and the run succeeds). Proved: C136_small_partial (files of up to 8192 bytes), C136_dc (what happens to longer ones), C136_kept, C136_cut (any inputs), C136_fetched. Missing: CSV files over themselves with general quoting (C136_cut applies if the output is not longer than the fetched bytes)."
 ],
 "C138": [
  "partial",
  "Proved for archives in which the signature of the end record (and of the zip64 locator) occurs only where the record is, and the data lie before it. False in general (C138_counterexample): an archive that stores the end of another archive uncompressed is, cut right after it, opened with the inner directory and read in part without an error."
 ],
 "C141": [
  "partial",
  "The full claim is false (C141_counterexample): a file that becomes a zip archive between the zip test and the opening for reading is read as if the bytes of the archive were its data. Everything else is proved: C141_input (any world that shows the input as it was at the moments it was looked at), C141_partial (there is such a world), C141_tool."
 ],
 "C142": [
  "partial",
  "The full claim is false (C142_counterexample): with two different inputs the greater filter is applied to the second and the equal filter to the first, because chains are numbered from the last input (C20). C142_crossed_partial says what the program prints; C142_same_input proves the full claim for the program as shipped, which reads one file twice; C142_unsuitable covers unsuitable headers."
 ],
 "C143": [
  "partial",
  "The full claim is false (C143_counterexample): data that end early without an error may end in a row that is not in the complete input, cut off within a value or filled up from the row before. C143_failed proves it for failing reads, C143_cut_partial for all rows but the last (the last two, if the complete input does not end well) of data cut without error, of which at least two rows are read."
 ]
}