{"id": "C01", "title": "Previewing and buffering never change the byte stream", "statement": "After an input has been opened through the previewer, reading it to the end through the returned reader - with any mix of read calls of any size and fill/consume calls - yields exactly the bytes of the underlying reader, in order, each exactly once, no matter how the underlying reader chops its data into short reads.", "quantifier": "every byte content, every buffer capacity > 0, every short-read schedule of the underlying reader, every sequence of read/fill/consume calls by the consumer", "why_tests_cant": "short-read schedules and call interleavings are unbounded; a test fixes one of each", "anchors": ["src/util/reader.rs: ChopperBufReader::{fill_buffer,fill_buffer_one_shot,read,fill_buf,consume}", "src/util/reader.rs: ChopperBufPreviewer::{new,get_reader}"]}
{"id": "C02", "title": "Preview lines are exactly the decidable lines of the previewed prefix", "statement": "The preview reports the longest prefix of the file's text lines that can be determined from the first buffer-full of bytes: lines are the '\\n'-separated pieces with one trailing '\\r' dropped; if the whole file is shorter than the buffer the unterminated last line is included, otherwise an unterminated last piece is dropped; if any such line is not valid UTF-8 no lines are reported at all.", "quantifier": "every file content, capacity and short-read schedule", "why_tests_cant": "requires all contents around the buffer boundary and all chunkings", "anchors": ["src/util/reader.rs: ChopperBufPreviewer::{prepare_preview,get_lines_from_reader,add_next_line_to_lines,get_line,make_string_no_cr,get_lines,get_buf}"]}
{"id": "C03", "title": "File comparison decides content equality", "statement": "are_contents_same returns Ok(true) if and only if the two files hold the same bytes, whatever short reads the operating system performs, and it always terminates.", "quantifier": "every pair of byte contents and every pair of short-read schedules", "why_tests_cant": "a wrong answer can hide at any length or chunk boundary", "anchors": ["src/util/file.rs: are_contents_same"]}
{"id": "C04", "title": "remove_multiple removes exactly the listed positions", "statement": "Given strictly ascending in-range positions, remove_multiple leaves exactly the elements whose position is not listed, in their original order; it never panics on such input, and a duplicate or out-of-range position panics instead of corrupting the vector silently.", "quantifier": "every vector and every index list", "why_tests_cant": "exponentially many index subsets for every length", "anchors": ["src/util/remove_multiple.rs: RemoveMultiple::remove_multiple"]}
{"id": "C05", "title": "Delimiter guessing picks the most frequent candidate, first listed on ties", "statement": "guess_delimiter returns a candidate delimiter whose number of occurrences in the row is maximal, and among equally frequent candidates the one listed first.", "quantifier": "every row of text and every non-empty candidate list", "why_tests_cant": "must hold for all Unicode text, and tie-breaking depends on sort stability", "anchors": ["src/util/csv_util.rs: guess_delimiter"]}
{"id": "C06", "title": "Column type unification is a join", "statement": "guess_common_type of a list of types is String if the list is empty or contains any String/Boolean/ByteBuf, otherwise Double if it contains any Float/Double, otherwise Long; in particular it does not depend on order or multiplicity.", "quantifier": "every list of field types", "why_tests_cant": "order and length are unbounded and the loop has early exits", "anchors": ["src/util/csv_util.rs: guess_common_type, type_upconvert"]}
{"id": "C07", "title": "Header guessing is conservative", "statement": "guess_has_header answers true only if there are two lines and the sequences of trimmed-field types (long/double/string) of the two lines differ; it answers false for fewer than two lines and whenever both lines have the same type sequence, in particular for two identical lines.", "quantifier": "every pair of optional lines, every delimiter", "why_tests_cant": "all possible texts", "anchors": ["src/util/csv_util.rs: guess_has_header, guess_type"]}
{"id": "C08", "title": "Delimiter argument parsing accepts exactly single ASCII characters and \\t", "statement": "parse_into_delimiter succeeds exactly on the two-character text backslash-t (meaning TAB) and on one-character ASCII texts (meaning that character); every other text, including the empty one, one non-ASCII character and longer text, is rejected with an error and never panics.", "quantifier": "every string", "why_tests_cant": "all strings", "anchors": ["src/util/csv_util.rs: parse_into_delimiter", "src/source/csv_configs.rs: CSVInputConfig::new"]}
{"id": "C09", "title": "Epoch autodetection is unambiguous and never overflows", "statement": "An all-digit begin/end value that lies in one of the four autodetection windows (s/ms/us/ns) is interpreted in exactly one unit, the result is exactly value*unit without overflow, always lies in the nanosecond window, and equals what the CSV timestamp column autodetection would assign to the same digits; digit strings outside every window are never silently interpreted as epoch.", "quantifier": "every digit string, every timezone", "why_tests_cant": "2^64 values and four overlapping-looking windows", "anchors": ["src/util/timestamp_util.rs: parse_datetime_range_element", "src/source/csv_timestamp.rs: RANGE_NANOS, RANGE_MICROS, RANGE_MILLIS, RANGE_SECONDS, get_timestamp_fmt_auto_with_index, get_timestamp"]}
{"id": "C10", "title": "Abbreviated begin/end dates mean midnight of the first day", "statement": "YYYY, YYYYMM and YYYYMMDD as begin/end value give exactly the same result as the fully written YYYYMMDD-00:00:00 with the missing month/day filled with 01; no other all-digit length is auto-completed, and a value is never rejected before all accepted formats were tried.", "quantifier": "every digit string, every timezone, every behaviour of the date library", "why_tests_cant": "all dates and all timezones", "anchors": ["src/util/timestamp_util.rs: parse_datetime_range_element, create_datetime_range_formats"]}
{"id": "C11", "title": "Timestamps in explicit units are scaled exactly or not at all", "statement": "A CSV timestamp column in s/ms/us/ns is converted to exactly value*unit nanoseconds; a value that does not fit 64 bits must not be accepted as a different instant.", "quantifier": "every digit string, every unit, both overflow-check build modes", "why_tests_cant": "boundary is at 2^64/unit and differs by build mode", "anchors": ["src/source/csv_timestamp.rs: get_timestamp, TimestampUnits"]}
{"id": "C12", "title": "Date parsing preserves chronological order", "statement": "If one date/time denotes an earlier instant than another then its row timestamp is smaller.", "quantifier": "every pair of date/time values accepted by the date library, every timezone", "why_tests_cant": "needs all pairs, including dates before 1970", "anchors": ["src/source/csv_timestamp.rs: get_timestamp (timestamp_nanos() as u64)", "src/util/timestamp_util.rs: parse_datetime_range_element"]}
{"id": "C13", "title": "Timestamp column autodetection follows a fixed priority and the leftmost column", "statement": "With automatic timestamp column selection the chosen column(s) depend only on the lower-cased names, following the documented priority: time+unit; date (joined with time if present); time; prefixed time+unit; prefixed date (joined with the prefixed time if the prefixes agree); prefixed time; column 0 - and within each class the leftmost matching column is used; the selected index always exists when there is at least one column.", "quantifier": "every list of column names", "why_tests_cant": "all header shapes", "anchors": ["src/source/csv_timestamp.rs: get_timestamp_col"]}
{"id": "C14", "title": "A detected timestamp format parses the row it was detected on", "statement": "If automatic timestamp format detection succeeds without a unit hint from the column name, then converting the first row's timestamp with the detected column and format succeeds, and for digit-only values gives the autodetected instant.", "quantifier": "every header, first row, timezone and date-library behaviour", "why_tests_cant": "all rows and formats", "anchors": ["src/source/csv_timestamp.rs: get_timestamp_col_and_fmt, get_timestamp_fmt_auto_with_index, get_timestamp_fmt_auto_with_datetimeindex, get_timestamp_fmt_from_user_spec, get_timestamp"]}
{"id": "C15", "title": "Printed epoch timestamps are the floor in the chosen unit and read back exactly", "statement": "The CSV time column in s/ms/us/ns prints floor(timestamp/unit) in decimal; reading that text back as an epoch timestamp in the same unit succeeds and gives the timestamp rounded down to the unit; two timestamps a unit apart never print the same text; the seconds/nanoseconds split used for human readable output loses nothing.", "quantifier": "every 64-bit timestamp and unit", "why_tests_cant": "2^64 values", "anchors": ["src/write/csv_sink.rs: CSVSink::write_row", "src/source/csv_timestamp.rs: get_timestamp", "src/util/tz.rs: ChopperTz::timestamp"]}
{"id": "C16", "title": "Range selection is the half-open interval [begin, end)", "statement": "For an input whose timestamps never decrease, the rows taken from it are exactly those with begin <= timestamp < end, in input order; missing bounds do not restrict. For an arbitrary input the rows taken are those >= begin from the prefix before the first row >= end.", "quantifier": "every input sequence and every range", "why_tests_cant": "all sequences and boundaries", "anchors": ["src/driver/source_row_buffer.rs: filter_data_range, match_next_row, SourceRowBuffer"]}
{"id": "C17", "title": "Merging sorted inputs yields a sorted output", "statement": "When every input is non-decreasing in time, the sequence of rows the driver feeds into the graph over the whole run is non-decreasing in time.", "quantifier": "every number of inputs, every input length and content, every range", "why_tests_cant": "all interleavings of all inputs", "anchors": ["src/driver/driver.rs: Driver::drive, get_next_buffer_index"]}
{"id": "C18", "title": "Every selected row is processed exactly once, in its input's order", "statement": "A successful run feeds, for every input, exactly its in-range rows, each once and in input order, to that input's chain, and nothing else; this holds even when inputs are not sorted.", "quantifier": "every set of inputs and ranges", "why_tests_cant": "all interleavings", "anchors": ["src/driver/driver.rs: Driver::drive, get_row_buffers"]}
{"id": "C19", "title": "Ties between inputs are resolved deterministically", "statement": "Rows with equal timestamps from different sorted inputs are output in a fixed order of the inputs, all tied rows of one input before those of the next (the order is last input first).", "quantifier": "every set of sorted inputs", "why_tests_cant": "ties can occur at any point of any interleaving", "anchors": ["src/driver/driver.rs: get_row_buffers, get_next_buffer_index"]}
{"id": "C20", "title": "Input i is processed by chain i", "statement": "The rows of the i-th input are processed by the i-th chain of the graph, i.e. by the chain whose nodes were configured with the i-th input's header.", "quantifier": "every number of inputs", "why_tests_cant": "holds accidentally for one input or identical chains", "anchors": ["src/driver/driver.rs: get_row_buffers (sources.pop()), Driver::new, src/chopper/header_graph.rs: process_header"]}
{"id": "C21", "title": "An input without selected rows is harmless", "statement": "An input that has no rows in the requested range contributes nothing: the run behaves as if the input were absent.", "quantifier": "every position of an empty input among any other inputs", "why_tests_cant": "needs all input sets", "anchors": ["src/driver/driver.rs: drive (row().clone().unwrap())", "src/driver/source_row_buffer.rs: SourceRowBuffer::new"]}
{"id": "C22", "title": "Everything written is flushed before a successful run ends", "statement": "When a run succeeds, every sink that received a row is flushed at some point after the last row it received.", "quantifier": "every graph, every set of inputs, every behaviour of sinks", "why_tests_cant": "all graphs and histories", "anchors": ["src/driver/driver.rs: flush, drive"]}
{"id": "C23", "title": "The first error stops the run after delivering everything before it", "statement": "If an input or a node fails, the run returns that error, everything fed into the graph before the failure is exactly a prefix of what the failure-free run would feed, and nothing is processed after it.", "quantifier": "every failing input position and every failing node", "why_tests_cant": "every crash point", "anchors": ["src/driver/driver.rs: drive, process_row"]}
{"id": "C24", "title": "A run over finite inputs terminates", "statement": "With finite inputs and a graph without cycles the driver always stops: the number of loop iterations is at most the number of selected rows, and the per-row traversal is bounded.", "quantifier": "every finite input set, every acyclic graph", "why_tests_cant": "termination cannot be observed by a test", "anchors": ["src/driver/driver.rs: drive, process_row, flush"]}
{"id": "C25", "title": "A chain of nodes acts as the composition of its nodes in order", "statement": "A row entering a chain of data sinks reaches the k-th node transformed by nodes 1..k-1 in order; a node that emits nothing ends that row, a node that emits several rows has each of them carried through the rest of the chain in emission order, one completely after the other.", "quantifier": "every chain length, every node behaviour, every number of emitted rows", "why_tests_cant": "fan-out can nest arbitrarily", "anchors": ["src/driver/driver.rs: process_row"]}
{"id": "C26", "title": "Splits and merges deliver to every branch and continue the tee", "statement": "At a split the unmodified row is delivered to every listed chain in order and then to the remaining nodes of the splitting chain; at a merge it is delivered to the merge chain and then to the remaining nodes; dropping or changing the row in one branch never affects the others.", "quantifier": "every graph, row and node behaviour", "why_tests_cant": "all graph shapes", "anchors": ["src/driver/driver.rs: process_row"]}
{"id": "C27", "title": "Only identical headers can be merged", "statement": "Setting up a graph succeeds only if all headers arriving at a merge have the same column names and the same types in the same order as the first one, and the merged chain sees exactly that header; any difference is an error before any row is read.", "quantifier": "every graph and all headers", "why_tests_cant": "all header combinations and arrival orders", "anchors": ["src/driver/merge_join.rs: MergeJoin::{check_header,process_header}", "src/chopper/header_graph.rs: check_merge_header"]}
{"id": "C28", "title": "Header processing terminates for every graph", "statement": "Building the data graph from any header graph, cyclic or not, always stops (with success, an error or a panic).", "quantifier": "every header graph and header list", "why_tests_cant": "cyclic graphs of all shapes", "anchors": ["src/chopper/header_graph.rs: process_header, process_header_re, match_remove_chain, check_merge_header"]}
{"id": "C29", "title": "A graph accepted at setup time has no cycle", "statement": "If graph setup succeeds, row processing on the resulting graph terminates for every row.", "quantifier": "every header graph", "why_tests_cant": "all graph shapes", "anchors": ["src/chopper/header_graph.rs: match_remove_chain (SplitHeaderSink arm)", "src/driver/driver.rs: process_row"]}
{"id": "C30", "title": "Every activated chain keeps its nodes in order", "statement": "After setup each chain that was reached holds exactly one data node per header node, in the same order and of the same kind (sink for sink, split with the same targets, merge with the same target), and each header sink was applied to the header produced by the nodes before it.", "quantifier": "every header graph", "why_tests_cant": "all graphs", "anchors": ["src/chopper/header_graph.rs: match_remove_chain", "src/chopper/data_graph.rs: add_node"]}
{"id": "C31", "title": "A merge declared for too many inputs is reported", "statement": "If fewer headers arrive at a merge than it was declared for, setup or run must not succeed while silently dropping the rows sent there.", "quantifier": "every declared count and number of arrivals", "why_tests_cant": "all counts", "anchors": ["src/chopper/header_graph.rs: check_merge_header", "src/driver/driver.rs: process_row"]}
{"id": "C32", "title": "Row filters keep exactly the rows matching the named column", "statement": "The equality filter keeps a row iff the value in the first column whose name matches (ASCII case-insensitively) equals the given value, the greater filter keeps it iff that value compares strictly greater; kept rows are unchanged, a missing column is a setup error, and the header is unchanged.", "quantifier": "every header, row and value", "why_tests_cant": "all rows and values", "anchors": ["src/filter/row_filter_equal_value.rs", "src/filter/row_filter_greater_value.rs"]}
{"id": "C33", "title": "Deleting a column removes the same column from header and rows", "statement": "The delete-column filter removes from header names, header types and from every row exactly the position of the first name matching case-insensitively, and keeps all other columns aligned by name; a missing column is a setup error.", "quantifier": "every header and row as wide as the header", "why_tests_cant": "all headers", "anchors": ["src/filter/column_filter_delete_col.rs"]}
{"id": "C34", "title": "Value comparison is lawful", "statement": "For values of the same supported type equality is symmetric and transitive and agrees with the ordering; ordering is transitive and antisymmetric-by-swap; floating point follows IEEE (NaN equals and orders with nothing, zeros are equal); values of different types are unequal, and ordering them ends the process rather than giving an arbitrary answer.", "quantifier": "every pair/triple of values", "why_tests_cant": "2^64 floats, all strings", "anchors": ["src/chopper/types.rs: impl PartialOrd for FieldValue, impl PartialEq for FieldValue"]}
{"id": "C35", "title": "Rows stay as wide as the header through any chain of built-in nodes", "statement": "If every input row has as many values as the header, then at every node of every chain made of built-in filters and merges the row has as many values as the header that node was configured with, so no built-in node can hit its out-of-range panic.", "quantifier": "every chain of built-in nodes, every header and rows", "why_tests_cant": "unbounded chains", "anchors": ["src/filter/*.rs", "src/driver/merge_join.rs", "src/driver/driver.rs: process_row"]}
{"id": "C36", "title": "DC files round-trip", "statement": "Writing any header and rows (supported types, nulls anywhere) with the DC sink and reading the bytes back with the DC source gives the same header (unnamed columns get their default name) and exactly the same rows.", "quantifier": "every column count and type list, every row list, every null pattern, every string length < 2^32", "why_tests_cant": "bit-level layout depends on the column count", "anchors": ["src/write/dc_sink.rs", "src/source/dc_source.rs", "src/util/dc_util.rs"]}
{"id": "C37", "title": "DC strings of any length round-trip", "statement": "A string value written in DC format is read back unchanged, both in the short (16-bit length) and in the long (32-bit length) form, and consumes exactly the bytes that were written.", "quantifier": "every string below 4 GiB followed by any bytes", "why_tests_cant": "boundary at 32767/32768 bytes, multi-byte characters", "anchors": ["src/util/dc_util.rs: write_string_value, write_sized_string, get_sized_string", "src/source/dc_source.rs: read_string"]}
{"id": "C38", "title": "A truncated DC file never yields a wrong row", "statement": "Cutting a DC file anywhere after its header yields the complete rows before the cut, unchanged, and then either end-of-data or an error; the cut is reported as an error unless it falls on a row boundary.", "quantifier": "every file and every cut position", "why_tests_cant": "every crash point", "anchors": ["src/source/dc_source.rs: next_row"]}
{"id": "C39", "title": "I/O errors while reading DC data are reported", "statement": "If the underlying reader fails (for example a checksum mismatch) the DC source reports an error instead of pretending the data ended.", "quantifier": "every failure position", "why_tests_cant": "every failure point", "anchors": ["src/source/dc_source.rs: next_row (Err(_e) => return Ok(None))", "src/decompress/crc32.rs"]}
{"id": "C40", "title": "DC headers are validated", "statement": "Opening DC data succeeds only if it starts with the DC magic number and version 2; display hints outside -1..6 are rejected; user data of any length is skipped; header parsing never reads rows.", "quantifier": "every byte string", "why_tests_cant": "all byte strings", "anchors": ["src/source/dc_source.rs: DCSource::new", "src/util/dc_util.rs: FieldDescriptor::new", "src/source/dc_factory.rs"]}
{"id": "C41", "title": "DC null bitmap marks exactly the null fields", "statement": "In a written DC row bit i of the bitmap is set iff field i is null, for every field covered by the bitmap, and the remaining bits are zero.", "quantifier": "every row and column count", "why_tests_cant": "all null patterns", "anchors": ["src/write/dc_sink.rs: write_row"]}
{"id": "C42", "title": "CSV header and rows have the same columns", "statement": "Every CSV row printed for a header-wide row has exactly as many delimiter-separated columns as the printed header line, using the configured delimiter in both.", "quantifier": "every output configuration, header and row", "why_tests_cant": "all configurations", "anchors": ["src/write/csv_sink.rs: write_csv_header, write_row"]}
{"id": "C43", "title": "CSV lines determine their values", "statement": "For values whose text contains neither the delimiter nor a newline, splitting the printed lines gives back exactly the printed texts, null printing as the empty text; booleans and byte buffers are rejected with an error.", "quantifier": "every row list", "why_tests_cant": "all texts", "anchors": ["src/write/csv_sink.rs: write_row"]}
{"id": "C44", "title": "CSV rows carry exactly their own record's fields", "statement": "Each row produced from a CSV file has the values of its own record: field i of the row is field i of the record.", "quantifier": "every record sequence, including ragged ones", "why_tests_cant": "all record shapes", "anchors": ["src/source/csv_source.rs: update_row, next_row, new"]}
{"id": "C45", "title": "All CSV rows before a malformed one are delivered", "statement": "If record k cannot be converted then records 1..k-1 are delivered before the error is reported.", "quantifier": "every record sequence and failure position", "why_tests_cant": "every failure position", "anchors": ["src/source/csv_source.rs: next_row"]}
{"id": "C46", "title": "An empty or header-only CSV input is an input with no rows", "statement": "Opening a CSV input without data records does not crash.", "quantifier": "every configuration", "why_tests_cant": "must hold for all configurations", "anchors": ["src/source/csv_source.rs: CSVSource::new (records().next().unwrap())"]}
{"id": "C47", "title": "Multi-file inputs align columns by name", "statement": "Reading several files as one input, every row's value under each expected column name is the value the row's own file had under that name, whatever order the file's columns are in and whatever extra columns it has; a missing or differently typed expected column is an error.", "quantifier": "every reference header, file header (with distinct names) and row", "why_tests_cant": "factorially many column orders", "anchors": ["src/source/multi_file_source.rs: check_headers_match_and_return_swap_map, next_row"]}
{"id": "C48", "title": "Multi-file rows have exactly the common header's columns", "statement": "Every row of a multi-file input has as many values as the common header has columns.", "quantifier": "every reference header, file header and row", "why_tests_cant": "all header pairs", "anchors": ["src/source/multi_file_source.rs: next_row (truncate)"]}
{"id": "C49", "title": "Multi-file input is the concatenation of its files in path order", "statement": "The rows of a directory input are the rows of its non-directory entries in ascending path order, each file completely before the next; empty files are skipped.", "quantifier": "every set of entries in any listing order, every file content", "why_tests_cant": "all listings", "anchors": ["src/source/multi_file_source.rs: next_row, update_to_next_source", "src/input/files_in_dir_provider.rs"]}
{"id": "C50", "title": "Single-file zip archives are read back exactly", "statement": "For every well-formed archive holding one stored file (any name, any content, any comment and extra fields, with or without zip64 records) opening it yields the stored bytes and the stored name.", "quantifier": "every name, content, extra data, comment", "why_tests_cant": "all archives", "anchors": ["src/decompress/zip.rs"]}
{"id": "C51", "title": "The zip end record search finds the last signature in the search window", "statement": "The search returns the position right after the last end-of-central-directory signature in the last MiB of the file (not counting one at offset 0), and an error iff there is none.", "quantifier": "every byte content", "why_tests_cant": "all files", "anchors": ["src/decompress/zip.rs: find_eocdr_and_prepare_to_read"]}
{"id": "C52", "title": "Checksum verification accepts exactly matching data", "statement": "Reading checksummed data to the end succeeds iff the CRC-32 of all delivered bytes equals the expected one, however the reads are chunked, and delivered bytes are never altered.", "quantifier": "every content, expected checksum and read schedule", "why_tests_cant": "all chunkings", "anchors": ["src/decompress/crc32.rs: Crc32Reader::read"]}
{"id": "C53", "title": "Any single corrupted byte is detected", "statement": "If stored data is changed in exactly one byte (or in any burst of up to 32 bits) then reading it to the end fails with a checksum error.", "quantifier": "every content, position and corruption", "why_tests_cant": "all positions and values", "anchors": ["src/decompress/crc32.rs", "src/decompress/zip.rs"]}
{"id": "C54", "title": "Unsupported archives are rejected", "statement": "Archives with more or less than one entry, multi-disk archives, encrypted entries and unknown compression methods give an error, never data.", "quantifier": "every byte content", "why_tests_cant": "all archives", "anchors": ["src/decompress/zip.rs: EndOfCentralDirRecord::read, CentralDirHeader::read, new_reader_for_single_file_zip_archive"]}
{"id": "C55", "title": "Compression is recognised by content exactly by its magic number", "statement": "Content based detection answers GZ/LZ4/LZF/ZIP/ZST exactly when the content starts with the respective magic bytes, at most one format matches, and content shorter than four bytes is never taken as compressed.", "quantifier": "every byte content", "why_tests_cant": "all contents", "anchors": ["src/decompress/decompress.rs: is_compressed_using_previewer"]}
{"id": "C56", "title": "Compression is recognised by name exactly by its extension, which is stripped", "statement": "Name based detection answers a format exactly when the name ends in .gz/.lz4/.lzf/.zip/.zst, and the name used afterwards is the original without that extension.", "quantifier": "every name", "why_tests_cant": "all names", "anchors": ["src/decompress/decompress.rs: is_compressed_using_format"]}
{"id": "C57", "title": "A user specified format is never overridden by autodetection", "statement": "With an explicit format the decoder used depends only on that format (leading dot optional, compression suffix stripped), never on file name or contents; with auto, the file name decides before the contents; if nothing matches an error is returned.", "quantifier": "every file name, content and set of source factories", "why_tests_cant": "all combinations", "anchors": ["src/input/single_file.rs: create_source_from_previewer, create_source_from_format, create_source_by_autodetecting_format"]}
{"id": "C58", "title": "DC content without a recognised name is read as DC", "statement": "A file whose content starts with the DC magic number and version is opened as DC when neither format nor file name says otherwise.", "quantifier": "every DC file", "why_tests_cant": "all DC contents", "anchors": ["src/input/input_factory.rs: create_default_source_factories", "src/source/csv_factory.rs: can_create_from_previewer", "src/source/dc_factory.rs: can_create_from_previewer"]}
{"id": "C59", "title": "User supplied transports take precedence", "statement": "If a user supplied transport can open a path, that transport's data is used.", "quantifier": "every transport list and path", "why_tests_cant": "all lists", "anchors": ["src/transport/streaming/previewer_factory.rs: create_previewer", "src/transport/seekable/seekable_factory.rs: create_seekable", "src/input/input_factory.rs: new_with_optional_csv"]}
{"id": "C60", "title": "Format overrides are assigned to inputs in order, the last one repeating", "statement": "The i-th input gets the i-th format override, inputs beyond the list get the last override, 'auto' or a missing list means autodetection, and stdin gets the first.", "quantifier": "every input and format list", "why_tests_cant": "all list lengths", "anchors": ["src/chopper_cli.rs: parse_cli_args"]}
{"id": "C61", "title": "The command line tool merges all inputs into one sorted output", "statement": "Running the tool on one or more time-ordered inputs with equal headers, each readable and with at least one row in the time range, with values the output format can express and an output that takes all bytes, succeeds, and the output is the header followed by exactly the in-range rows of all inputs in time order, each once (at equal times later inputs first, each input's own order kept); inputs with unequal headers are rejected before any row is written.", "quantifier": "every number of inputs, headers and rows, every time range, every way the output takes the bytes", "why_tests_cant": "all input sets", "anchors": ["src/chopper_cli.rs: setup_graph", "src/driver/*.rs", "src/chopper/*.rs"]}
{"id": "C62", "title": "Converting DC to DC preserves the data", "statement": "Running the tool with DC inputs and a .dc output produces a file that, read back, has the merged rows of the inputs.", "quantifier": "every set of DC inputs", "why_tests_cant": "all contents", "anchors": ["src/chopper_cli.rs", "src/source/dc_source.rs", "src/write/dc_sink.rs", "src/driver/driver.rs"]}
{"id": "C63", "title": "Output format is chosen by file name", "statement": "A .csv output name (or none) gives CSV, a .dc name gives DC, anything else is an error and no file is created.", "quantifier": "every output name", "why_tests_cant": "all names", "anchors": ["src/write/factory.rs: new_header_sink"]}
{"id": "C64", "title": "Exit status reflects success", "statement": "The process exits with status 0 exactly when the run succeeded; otherwise it prints exactly one message describing the error, except for a broken pipe, which is silent but still non-zero.", "quantifier": "every result", "why_tests_cant": "all error kinds", "anchors": ["src/error.rs: handle_drive_error, Error::exit"]}
{"id": "C65", "title": "Explicit CSV settings are never overridden by guessing", "statement": "With an explicit delimiter and an explicit header setting the CSV input is read with exactly these settings, whatever its first lines look like; with a header the column names are the header's, without one they are col_0, col_1, ...", "quantifier": "every configuration, preview and input", "why_tests_cant": "all contents", "anchors": ["src/source/csv_source.rs: CSVSource::new", "src/source/csv_configs.rs: CSVInputConfig"]}
{"id": "C66", "title": "A path input is read as what it is", "statement": "A directory is read as the concatenation of its files in name order; an existing file starting with a zip local header signature is read as the archive's entry under the entry's name; any other existing file is read directly under its file name; a DC file named .dc or given with format dc yields the rows of the DC reader on its bytes; a missing path is an error.", "quantifier": "every path, directory listing, file content, delivery of the bytes and format", "why_tests_cant": "all file systems and contents", "anchors": ["src/input/input_factory.rs: create_source_from_input", "src/input/single_file.rs: create_source_from_path", "src/util/path.rs: get_file_name", "src/input/files_in_dir_provider.rs"]}
{"id": "C67", "title": "Output is complete or the run fails", "statement": "If a run of the tool reports success, the output file or standard output has received every byte of the header and of every row of the merge; if anything fails (writing, an input in the middle, a value without a form in the output format), what was received is a prefix of the complete output. Success also means that no write or flush call on the output failed, and that the output was flushed at the end.", "quantifier": "every set of inputs, every schedule of short writes and write failures of the output", "why_tests_cant": "all failure points and all ways a device may take bytes", "anchors": ["src/write/csv_sink.rs: CSVSink", "src/write/dc_sink.rs: DCSink", "src/driver/driver.rs: drive", "src/chopper_cli.rs: chopper_cli"]}
{"id": "C68", "title": "One time zone, with a fixed priority", "statement": "The time zone is named by the --timezone option, otherwise by CHOPPER_TZ, otherwise there is none; the caller's own names come before the standard names; the same zone is used for the time range, for reading and for writing CSV.", "quantifier": "every option value, environment and name map", "why_tests_cant": "all names and maps", "anchors": ["src/util/tz.rs: resolve_timezone", "src/chopper_cli.rs: parse_cli_args", "src/chopper/types.rs: TimestampRange::new"]}
{"id": "C69", "title": "The time column and its format are what the options say", "statement": "For every accepted command line: --timestamp-date/time columns are taken as numbers exactly if both are whole numbers, else as names; a single --timestamp-column is a number if it is a whole number, else a name; without them it is detected. The format is the date/time pair, else the explicit format, else epoch in the given units, else detected.", "quantifier": "every accepted command line", "why_tests_cant": "all option combinations and texts", "anchors": ["src/chopper_cli.rs: parse_csv_input_config"]}
{"id": "C70", "title": "No output file is created for a run that cannot start", "statement": "A run creates at most one file, the one named as output, and only if all options were understood and all inputs could be opened.", "quantifier": "every command line, world and set of inputs", "why_tests_cant": "all failures", "anchors": ["src/chopper_cli.rs: parse_cli_args, setup_graph", "src/write/factory.rs: new_header_sink"]}
{"id": "C71", "title": "Accepted options never crash the program", "statement": "No command line that the argument parser accepts makes the program panic while options are turned into settings, if the time zone name is known and the range's times can be converted.", "quantifier": "every accepted command line", "why_tests_cant": "all option combinations", "anchors": ["src/chopper_cli.rs: parse_cli_args, parse_csv_output_config", "src/cli_app.rs"]}
{"id": "C72", "title": "Rows read from DC always fit their header", "statement": "Whatever bytes a DC input has, each row it delivers has exactly one value per column, each null or of the column's type, and the header has one non-empty name per column.", "quantifier": "every byte sequence and delivery", "why_tests_cant": "all contents", "anchors": ["src/source/dc_source.rs: DCSource::new, next_row"]}
{"id": "C73", "title": "Explicit timestamp column and format settings are obeyed", "statement": "A time column configured by number is that column, by name the leftmost column with exactly that name (an error if there is none), date and time columns stay in that order. A configured epoch unit, format text or date/time format pair is the one used for conversion; without configuration a unit at the end of the name of the single time column decides, whatever the values look like.", "quantifier": "every header, configuration, first row, time zone and date library", "why_tests_cant": "all headers and configurations", "anchors": ["src/source/csv_timestamp.rs: get_timestamp_col, get_timestamp_col_and_fmt, get_timestamp_fmt_from_user_spec", "src/chopper/types.rs: Header::get_field_index"]}
{"id": "C74", "title": "The header line of CSV output", "statement": "CSV output starts with exactly one header line: the name of the time column if there is one (the given name, otherwise `time` for human readable times and `timestampSeconds`, `timestampMillis`, `timestampMicros`, `timestampNanos` for the others), then the names of all columns in order, separated by commas; the rows' lines follow.", "quantifier": "every output configuration, header and list of rows", "why_tests_cant": "all headers and configurations", "anchors": ["src/write/csv_sink.rs: write_csv_header", "src/source/csv_configs.rs: CSVOutputConfig::new", "src/source/csv_timestamp.rs: TimestampUnits::to_suffix_str"]}
{"id": "C75", "title": "Automatic CSV settings are explicit settings found from the first two lines", "statement": "Opening a CSV input without delimiter or header setting behaves exactly like opening it with the explicit settings found from its first two lines: the most frequent of comma, TAB and space in the first line (in this order of preference; comma if the input has no text lines), and a header exactly if both lines exist and their fields have different types. Given settings are never overridden.", "quantifier": "every input, configuration, csv and date library", "why_tests_cant": "all inputs and settings", "anchors": ["src/source/csv_source.rs: CSVSource::new", "src/util/csv_util.rs: guess_delimiter, guess_has_header"]}
{"id": "C76", "title": "Settings are what the options say", "statement": "For every command line the argument parser accepts, the settings of the run are exactly those named by the options: input delimiter, header setting, time column and format; output delimiter, time column on/off, its name, epoch or human style, and units. Settings are found exactly if the zone is known, the range can be understood, the delimiter is valid and --print-time is yes or no.", "quantifier": "all accepted command lines, all environments", "why_tests_cant": "The options combine freely (defaults, overrides, pairs); tests cover a handful of combinations.", "anchors": ["src/chopper_cli.rs:parse_csv_input_config", "src/chopper_cli.rs:parse_csv_output_config", "src/cli_app.rs"]}
{"id": "C77", "title": "User supplied source factories take precedence", "statement": "The first user supplied source factory that accepts an explicit format, a file name or (where these do not decide) the content creates the source, whatever the built-in factories would do.", "quantifier": "all factories (user supplied), formats, names, contents", "why_tests_cant": "Factories are arbitrary user code; precedence must hold for all of them.", "anchors": ["src/input/input_factory.rs:new_with_optional_csv", "src/input/single_file.rs"]}
{"id": "C78", "title": "Zstd input is read exactly, damage is never taken for the end", "statement": "Reading zstd data delivers exactly the content of the frame for all buffer sizes, block sizes and window sizes; if the data is damaged the bytes delivered are a prefix of the content and a read never reports the end of the data.", "quantifier": "all frames (blocks, window), all sequences of read sizes", "why_tests_cant": "Depends on the interplay of block sizes, window and buffer sizes, which is unbounded.", "anchors": ["src/decompress/zst.rs:ZstReader"]}
{"id": "C79", "title": "Zstd files with several frames are read completely", "statement": "A zstd file consisting of several frames is read as the concatenation of their contents.", "quantifier": "all sequences of frames, all sequences of read sizes", "why_tests_cant": "Test files have a single frame.", "anchors": ["src/decompress/zst.rs:ZstReader"]}
{"id": "C80", "title": "A filter-and-merge graph outputs exactly what its filters let through", "statement": "For a graph in which the chain of every input holds built-in filters and leads to a common merge with an output (examples/filter_and_merge.rs, any number of inputs and filters), accepted by setup: a run succeeds exactly if reading the inputs succeeds and every row read has comparable values in the columns the filters of its chain ask for, and then the output holds, in reading order, exactly what the filters make of the rows, each passing row once; if all inputs are sorted by time, so is the output.", "quantifier": "all numbers of inputs, all filter lists, headers, inputs and ranges", "why_tests_cant": "Combines setup, ordering, filters and merging; the combinations are unbounded.", "anchors": ["examples/filter_and_merge.rs", "src/filter/row_filter_equal_value.rs", "src/filter/row_filter_greater_value.rs", "src/filter/column_filter_delete_col.rs", "src/driver/merge_join.rs", "src/driver/driver.rs: Driver::drive", "src/chopper/header_graph.rs: process_header"]}
{"id": "C81", "title": "Every output of a split gets exactly what its own branch lets through", "statement": "For a graph that splits one input to several branches, each with its own filters and output (examples/split.rs, any number of branches), accepted by setup: a run succeeds exactly if reading the input succeeds and every selected row can be sent through the filters of every branch, and then each output holds exactly what the filters of its branch make of the selected rows, in input order, whatever the other branches do.", "quantifier": "all numbers of branches, all filter lists, headers, inputs and ranges", "why_tests_cant": "Independence of branches must hold for all branches and all data.", "anchors": ["examples/split.rs", "src/driver/split.rs", "src/driver/driver.rs: Driver::process_row", "src/chopper/header_graph.rs: process_header"]}
{"id": "C82", "title": "Streaming: rows are processed as they arrive, and a range end stops endless inputs", "statement": "What is processed before the driver asks an input for its next row depends only on the rows delivered so far, and by then every selected row this input has delivered has been processed; so an endless input is processed row by row, for every number of rows. Rows behind the first row at or after the end of the range are never looked at, so a run over an endless input with an end time ends normally.", "quantifier": "all inputs including endless ones, all numbers of rows delivered so far, all ranges, several inputs", "why_tests_cant": "Endless inputs and arbitrary continuations cannot be tested exhaustively.", "anchors": ["src/driver/driver.rs: Driver::drive", "src/driver/source_row_buffer.rs", "util/infistream"]}
{"id": "C83", "title": "A zip archive with a wrong checksum is never read as a complete input", "statement": "An input that is a zip archive with the right checksum is read exactly like the plain file it contains. With a wrong checksum it is never read like a complete file: opening it fails, or reading its rows does not get to a normal end.", "quantifier": "every zip archive with one stored, deflated or bzip2 entry, every content, name, format and way the data is chopped up by reads", "why_tests_cant": "all contents, lengths relative to the preview buffer and ways reads chop the data", "anchors": ["src/input/input_factory.rs: create_from_input", "src/decompress/zip.rs", "src/util/reader.rs: ChopperBufPreviewer", "src/source/dc_source.rs: next_row"]}
{"id": "C84", "title": "A run that cannot start says why and leaves nothing behind", "statement": "If an option text is no delimiter, an end of the time range cannot be read, an input cannot be opened (the first such one counts) or the output cannot be created or has an unsupported name, then the run reports exactly that error, ends with status 1, and no output file has been created.", "quantifier": "every command line, file system, and error", "why_tests_cant": "all combinations of options, inputs and failing operations", "anchors": ["src/chopper_cli.rs: chopper_cli, parse_cli_args, setup_graph", "src/write/factory.rs: new_header_sink", "src/error.rs: handle_drive_error"]}
{"id": "C85", "title": "CSV written by the tool can be read again", "statement": "A CSV file written with a one-character delimiter and times as numbers can be opened with the same delimiter and units: the columns are the time column followed by the written columns, there is one row per written row in the same order, each time is the written time rounded down to the unit, and each value is the printed text of the written value.", "quantifier": "every header, row sequence, units, delimiter, and chopping of reads; every csv library that reads unquoted tables correctly", "why_tests_cant": "all texts, widths, row counts and read schedules", "anchors": ["src/write/csv_sink.rs: CSVSink, write_csv_header", "src/source/csv_source.rs: CSVSource", "src/chopper_cli.rs: chopper_cli"]}
{"id": "C86", "title": "Automatic settings read the tool's own CSV output", "statement": "A CSV file written with commas and times as numbers under the default column name is read again with every setting automatic as it is with the matching explicit settings: same columns, rows and times.", "quantifier": "every unit, header, row sequence and chopping of reads; every csv and date library with the stated contracts", "why_tests_cant": "all names, times and read schedules; detection depends on all of them together", "anchors": ["src/source/csv_source.rs: CSVSource::new", "src/source/csv_configs.rs", "src/util/csv_util.rs", "src/util/timestamp_util.rs: get_timestamp_col_and_fmt", "src/util/reader.rs: ChopperBufPreviewer", "src/write/csv_sink.rs"]}
{"id": "C87", "title": "The example file generator writes a complete file or fails visibly", "statement": "dcgen either panics or leaves a complete DC file with its four columns and all its rows (row i at time i with the values i), which the DC source reads exactly; after a panic the file is the beginning of such a file.", "quantifier": "every number of rows, every sequence of short and failing writes of the file", "why_tests_cant": "short writes and write errors at every possible call", "anchors": ["util/dcgen/src/main.rs", "src/source/dc_source.rs"]}
{"id": "C88", "title": "Copying and merging plain CSV files", "statement": "A run over CSV files with the same header (delimiter, header, time column and epoch units given, --print-time no, comma output) writes a CSV file with the same header that consists of exactly the records of the inputs whose time lies in the range, cell by cell unchanged, in time order and with the order inside each input kept; a single comma separated file all of whose records lie in the range is copied byte for byte.", "quantifier": "every number of files, every rectangular table of cells without quotes, delimiters and surrounding whitespace with at least one record in the range, every ASCII delimiter, every way reads and writes are chopped up", "why_tests_cant": "ranges over all tables, interleavings of times, read and write schedules", "anchors": ["src/chopper_cli.rs", "src/source/csv_source.rs", "src/write/csv_sink.rs", "src/driver/driver.rs", "src/driver/merge_join.rs"]}
{"id": "C89", "title": "A range may be processed in two parts", "statement": "If three runs have the same arguments except for the output and the time range, and the second and third ranges are the part of the first before some moment and the part from that moment on, then the output of the first run is the header followed by the rows of the second run's output followed by the rows of the third's, byte for byte, for CSV and for DC output: no row is lost, doubled or reordered at the cut.", "quantifier": "every set of time ordered inputs with the same header that have rows in both parts, every range and every moment inside it, every output format configuration, every write schedule without failures", "why_tests_cant": "ranges over all inputs and cut points, including cuts at and between equal timestamps", "anchors": ["src/chopper_cli.rs", "src/driver/driver.rs", "src/util/timestamp_util.rs", "src/write/csv_sink.rs", "src/write/dc_sink.rs"]}
{"id": "C90", "title": "Inputs may be merged in stages", "statement": "If a run merges some plain CSV files into a file, and a second run merges that file (in their place) with further files, the second run writes exactly the bytes a single run over all the files writes, including the order of rows with equal times.", "quantifier": "every number of files before, inside and after the first merge, all rectangular plain tables, every range of the first run that contains the range of the second", "why_tests_cant": "ranges over all tables and interleavings; it is a relation between three runs", "anchors": ["src/chopper_cli.rs", "src/driver/driver.rs", "src/driver/merge_join.rs", "src/write/csv_sink.rs"]}
{"id": "C91", "title": "The order of the inputs", "statement": "Giving the same inputs in another order gives an output that consists of the same row lines, possibly in another order; if no two inputs have rows (in the range) at the same time the output is the same byte for byte.", "quantifier": "every set of time ordered inputs with the same header, every permutation of them, every range", "why_tests_cant": "ranges over all inputs and permutations; it is a relation between two runs", "anchors": ["src/chopper_cli.rs", "src/driver/driver.rs", "src/driver/merge_join.rs"]}
{"id": "C92", "title": "How reads and writes are chopped up does not matter", "statement": "Two runs with the same arguments in two worlds with the same files, directories, pages, standard input and output places create the same files, return the same result (also the same error) and leave the same bytes in the output, however many bytes each read delivers and each write takes, as long as no call fails in mid-stream.", "quantifier": "every set of arguments, every content (plain, compressed, zip archives, directories, http, standard input), every pair of read schedules and write schedules without failing calls", "why_tests_cant": "a relation between two runs over all pairs of schedules", "anchors": ["src/util/reader.rs", "src/input/single_file.rs", "src/input/input_factory.rs", "src/chopper_cli.rs", "src/write/csv_sink.rs", "src/write/dc_sink.rs"]}
{"id": "C93", "title": "No DC file crashes the reader", "statement": "Opening a DC file and asking for its rows ends with rows, end of data or an error, never a crash, whatever bytes the file has. False: a header with no columns, an unknown column type or a name that is not UTF-8 crashes on opening, and a text that is not UTF-8 crashes when its row is read; these are proved to be exactly the crashing files.", "quantifier": "every byte content, every failure of the medium, both build profiles, every row position", "why_tests_cant": "all byte strings; an exact characterization of the crashing ones", "anchors": ["src/source/dc_source.rs: DCSource::new, next_row", "src/util/reader.rs: ChopperBufPreviewer"]}
{"id": "C94", "title": "DC files mean exactly what the format says", "statement": "A DC file has at most one meaning, given by the byte layout (header; per row timestamp, bitmap of nulls, big-endian values, texts with 16- or 32-bit lengths), and opening it delivers exactly this header, these rows and this end: a row is delivered exactly if its bytes are complete, fewer than eight trailing bytes are ignored, an incomplete or unsupported row is an error, and a wrong magic number, version or display hint, or an incomplete header, is an error with its own message.", "quantifier": "every byte content, every point of failure, every header, row list and ending", "why_tests_cant": "an equivalence between all byte strings and all tables", "anchors": ["src/source/dc_source.rs: DCSource::new, next_row, read_string", "src/input/input_factory.rs"]}
{"id": "C95", "title": "Every output of any graph gets exactly the rows its routes lead to it", "statement": "In any graph of chains with splits, merges, filters and outputs, after a successful run each sink has been given, for every row read, exactly one contribution per route from the row's input chain to that sink: what the filters on the route make of the row. Nothing is lost, invented or duplicated beyond the number of routes. The contributions come in the order in which the rows were read; for a single row in the order of the graph (split targets first, then the rest of the chain) whenever no sink multiplies rows, and as a permutation of it otherwise. In particular an output reached by two routes holds every row twice.", "quantifier": "all graphs, all stateless-output sinks with any internal state, all inputs (sorted or not), all time ranges, all successful runs, all places of a sink in the graph", "why_tests_cant": "There are infinitely many graph shapes; the tests run a handful of fixed graphs over one input file each.", "anchors": ["src/chopper/data_graph.rs: DataGraph::process_row, DataGraph::add_node", "src/driver/split.rs: Split", "src/driver/merge_join.rs: MergeJoin", "src/driver/driver.rs: Driver::drive", "tests/test_split_merge_complex.rs"]}
{"id": "C96", "title": "A DC file that grows, or is cut, keeps its header and a beginning of its rows", "statement": "Every file that begins with a DC header has exactly one meaning (rows and an end). Appending any bytes to a DC file leaves its header and all rows read from it in place; complete rows appended after complete rows are read after them with their values. Cutting a DC file anywhere after its header gives a beginning of its rows, and if the file ended well the cut file ends well or with an unexpected end of file, never with a crash or another error. Nothing appended after a row that crashes the reader or has a value of an unsupported type is ever read.", "quantifier": "all byte strings that begin with a DC header, all appended byte strings, all cut points", "why_tests_cant": "there are infinitely many files, appended bytes and cut points; a test fixes a few", "anchors": ["src/source/dc_source.rs: DCSource::next_row", "src/source/dc_factory.rs: DCFactory", "src/input/input_factory.rs: InputFactory::create_source_from_input"]}
{"id": "C97", "title": "What a CSV input means, record by record", "statement": "With explicit settings (delimiter, header or not, time column, epoch units) a CSV input opens with exactly these columns: the header names, or col_0, col_1, ...; all of type string. The rows are exactly the records in order, each with its own time (number times the unit) and its own fields, where missing fields are taken from the latest earlier record that has them. Reading stops at the first record the csv library rejects, that has more fields than the first one (a crash) or that has no time; then the row of the record before it is lost. The inputs rejected at opening and those that crash are exactly: first record or header unreadable, no column of that name, first record without time; and no record at all, time column missing, time too large with overflow checks. Every record has exactly one of: a time, an error, a crash.", "quantifier": "all CSV inputs as read by the csv library, all files of plain lines, all explicit settings, all read schedules, both overflow behaviours", "why_tests_cant": "the equivalence is about every input, both ways: nothing else is a reading, a rejection or a crash; tests show single readings", "anchors": ["src/source/csv_source.rs: CSVSource::new", "src/source/csv_source.rs: CSVSource::next_row", "src/source/csv_timestamp.rs: get_timestamp", "src/source/csv_timestamp.rs: get_timestamp_col", "src/source/csv_factory.rs: CSVFactory", "src/input/input_factory.rs: InputFactory::create_source_from_input"]}
{"id": "C98", "title": "Appending lines to a CSV file keeps its columns and all its rows but at most the last", "statement": "When complete lines are appended to a plain CSV file that opens with explicit settings, the longer file opens with the same columns. If reading the shorter file ended with an error or crash, the longer one is read the same. Otherwise all its rows are still the first rows, provided that the first appended line has no more fields than the first record and a time; if not, exactly the last row disappears and the input ends there with an error or crash.", "quantifier": "all plain CSV files, all appended lines, all explicit settings, all read schedules", "why_tests_cant": "there are infinitely many files and appended lines", "anchors": ["src/source/csv_source.rs: CSVSource::next_row", "src/source/csv_source.rs: CSVSource::new", "src/input/input_factory.rs: InputFactory::create_source_from_input"]}
{"id": "C99", "title": "The endless test stream is the CSV text of a counter, and is read as such", "statement": "Asked n times, the endless CSV stream gives n chunks, chunk i being the line i,ai,bi,ci,di,ei,fi; it does not end by itself, and the number overflows (a crash with overflow checks, back to 0 without) only after 2^64 - 1 lines. If the server sends n lines and stops, reading its address with explicit settings gives seven columns col_0 ... col_6 and exactly n rows in order, whatever pieces the bytes come in. With an end time the run over the stream processes exactly the lines within the range and ends normally, however long the stream is. The chunks of the compressed stream are exactly what the gzip encoder puts out for these lines; nothing is lost or sent twice.", "quantifier": "all numbers of lines, all read schedules, all units, all time ranges, all encoders", "why_tests_cant": "the stream is endless and the bytes can come in any pieces; a test reads a few lines", "anchors": ["util/infistream/src/inficsv.rs: InfiCSV::poll", "util/infistream/src/inficsvgz.rs: InfiCSVGZ::poll", "src/transport/streaming/http.rs: HttpTransport", "src/source/csv_source.rs: CSVSource::next_row", "src/driver/driver.rs: Driver::drive"]}
{"id": "C100", "title": "Calling the driver again does nothing and succeeds, unless an input failed before its first row", "statement": "ChopperDriver::drive takes &mut self and can be called again. After a call that got past fetching the first row of every input -- whether it then succeeded or failed -- a further call reads, writes and flushes nothing and returns Ok (so retrying after an error reports success although the remaining rows were never delivered). If an input fails before its first row, the call returns that error, nothing has been written, and exactly the inputs listed before the failing one are left: the next call is a run of these alone (and may send them through other chains). After at most as many calls as there are inputs, every further call is a successful no-op.", "quantifier": "for every driver, graph, sinks, sources, range, every outcome of the first call and every number of calls", "why_tests_cant": "a test repeats one call in one state; the claim covers every outcome, every failing position and every number of calls", "anchors": ["src/driver/driver.rs: Driver::drive, get_row_buffers", "src/chopper/chopper.rs: ChopperDriver"]}
{"id": "C101", "title": "CSV written with human-readable times can be read again", "statement": "A CSV file written with the tool's human-readable times (delimiter comma, time column printed, at least one column and one row, names and values that need no quoting), read with delimiter comma, a header line, the first column as time column and an ISO 8601 format (explicit, or found automatically unless the name of the column ends with a unit), gives the same names, one row per row, values as their printed texts and the times rounded down to the printed unit - provided the date library reads the times it prints and the file can be read. In builds with overflow checks the times must be before 2^63 ns (year 2262): a later first time is written, but makes opening the file panic. The same holds for the output file of a whole run of the tool.", "quantifier": "all rows, names, units, time zones, date libraries meeting the contract, chopping of reads, both overflow modes", "why_tests_cant": "Ranges over all times, zones and values; relies on agreement of two independent pieces of code (printing and format detection).", "anchors": ["src/write/csv_sink.rs: write_row", "src/util/tz.rs: ChopperTz::timestamp", "src/source/csv_timestamp.rs: get_timestamp, get_timestamp_fmt_auto", "src/source/csv_source.rs: CSVSource::new"]}
{"id": "C102", "title": "The tool's default CSV output can be read with the tool's default CSV input settings", "statement": "A CSV file written with the default style and name of the time column is read again with all input settings automatic (as in C101). This is false: the header line is recognised only by a difference of types between the first two lines, and both the name and an ISO 8601 time are texts. It is true if some column has a name and a first value of different kinds (integer, other number, text) - e.g. if there is a numeric column; if not, opening the file fails with an error because the header line is taken for data.", "quantifier": "all rows, names (no white space, characters below U+0100), units, zones, libraries meeting the contracts", "why_tests_cant": "The failing inputs depend on the combination of all columns; the tests of the tool use numeric columns or explicit settings.", "anchors": ["src/util/csv_util.rs: guess_has_header, guess_type", "src/source/csv_source.rs: CSVSource::new", "src/write/csv_sink.rs", "src/source/csv_timestamp.rs: get_timestamp_col_and_fmt"]}
{"id": "C103", "title": "Command lines: options mean what they say, contradictions are refused", "statement": "Every command line the argument parser accepts yields settings without error or panic; each setting has the value of its option or the documented default. Options that contradict each other (two styles of printed times, two ways to give the input's time format, two ways to give its time column) are refused, and so is half of a pair of options that belong together.", "quantifier": "all sets of options given, with all values", "why_tests_cant": "Twenty-two options with requirements and conflicts: tests pick a few command lines, and a conflict declared against a name that does not exist looks right in the source and passes any test that does not try that very pair.", "anchors": ["src/cli_app.rs: create_cli_app", "src/chopper_cli.rs: parse_cli_args, parse_into_csv_input_config, parse_into_csv_output_config", "src/cli/util.rs: YesNoAuto"]}
{"id": "C104", "title": "A DC file can stand in for the inputs it was made from", "statement": "If a run writes some inputs (CSV, DC, directories, anything that can be opened) to a .dc file, then that file, used as an input of the tool, is exactly their time-ordered merge: same header, same rows with the same values and times, normal end. A later run with the file in place of these inputs, before and after any further inputs, writes byte for byte what a single run over all the inputs writes, as CSV and as DC, including the order of rows with equal times. (For tables DC can hold: at least two columns, not one more than a multiple of eight, columns with names, no boolean or byte-buffer column, texts below 4 GiB.)", "quantifier": "all inputs, positions of the DC file among further inputs, ranges (the first containing the final one), output formats, ways reads and writes are chopped up", "why_tests_cant": "It relates three runs of the program for all contents; a test compares a few files. It depends on the writer, the reader, format detection, the merge's tie-breaking and the range filter together.", "anchors": ["src/chopper_cli.rs: chopper_cli", "src/write/dc_sink.rs: DCSink", "src/source/dc_source.rs: DCSource", "src/driver/driver.rs: Driver::drive"]}
{"id": "C105", "title": "Exactly the graphs without reachable loops or missing chains let a run finish", "statement": "A run that succeeds went over a graph in which no cycle of merges and splits can be reached from any input's chain and every reachable chain exists. Conversely, if no cycle is reachable from an input's chain and every sink call returns, the run stops, whatever cycles exist elsewhere. With sinks that never fail and readable inputs that each have a row in the range, success is equivalent to 'no reachable cycle, no missing chain', independently of the rows; with a reachable cycle (and no missing chain) the run neither succeeds nor fails but never ends.", "quantifier": "all graphs, sinks, inputs, ranges and amounts of fuel", "why_tests_cant": "Non-termination cannot be observed by a test, and the claim ranges over all graphs; a cycle may be reached only at the end of an input (flush), which a test with a particular graph would not show for others.", "anchors": ["src/driver/driver.rs: drive, process_row, flush", "src/chopper/data_graph.rs: DataGraph, DataNode"]}
{"id": "C106", "title": "The order of filters does not matter, unless one deletes the other's column", "statement": "In a graph that filters its inputs and merges them, two neighbouring filters of a chain can be swapped without changing success or output, unless one deletes the column the other asks for. Of row filters only the set matters, not their order or multiplicity.", "quantifier": "all filter lists, headers, inputs, ranges and positions", "why_tests_cant": "Ranges over all filter lists, headers with duplicate names in different case, rows and values; whether a row ends the process depends on the values of the rows a previous filter let through.", "anchors": ["src/filter/row_filter_equal_value.rs", "src/filter/row_filter_greater_value.rs", "src/filter/column_filter_delete_col.rs", "src/driver/driver.rs: process_row", "src/chopper/types.rs: partial_cmp"]}
{"id": "C107", "title": "I/O errors while a zip archive is opened are reported", "statement": "If a read or seek fails while a file is tested for being a zip archive or opened as one, either an error is reported or the failure made no difference: the archive opened is the one that is opened without failures.", "quantifier": "every file content, every position and kind of any number of failing reads and seeks", "why_tests_cant": "the failure can be at any of unboundedly many reads and seeks, in every archive", "anchors": ["src/decompress/zip.rs: is_zip, new_reader_for_single_file_zip_archive, get_start_of_central_dir_offset, read_extra_field"]}
{"id": "C108", "title": "Begin and end mean the calendar times they say", "statement": "A begin or end argument in any of the accepted forms (YYYY, YYYYMM, YYYYMMDD, date and time with any of the accepted separators and an optional fraction, ISO 8601 with offset) selects from the instant at which clocks in the given time zone show that date and time, counted on the Gregorian calendar with leap years; it is rejected if the date does not exist, if no instant or two instants show that time (clock changes), or if a time zone is needed and not given. A year or month given as begin with the next as end selects exactly the rows of that year or month.", "quantifier": "every date, time, fraction, offset, time zone (any sequence of offset changes) and text of the accepted forms", "why_tests_cant": "unboundedly many dates, zones and texts; tests check five", "anchors": ["src/util/timestamp_util.rs: parse_datetime_range_element, TimestampRange::new, DATETIME_RANGE_FORMATS", "src/util/tz.rs: ChopperTz"]}
{"id": "C109", "title": "Human-readable times in CSV are the local calendar times, sortable, and can be read back", "statement": "The human-readable time of a row is what a clock in the chosen time zone shows at that instant (Gregorian calendar, cut off at the unit), with the zone's offset; it needs no quoting and, read back in ISO format, is the same instant rounded down to the unit. Texts with equal offsets sort in order of time. A run that writes such a file can be followed by one that reads it back.", "quantifier": "every time, unit, time zone (any sequence of offset changes), table and way of chopping reads and writes", "why_tests_cant": "unboundedly many instants and zones, including zones whose offset has seconds", "anchors": ["src/write/csv_sink.rs: write_timestamp, get_format", "src/source/csv_timestamp.rs: get_timestamp_fmt_auto", "src/util/tz.rs"]}
{"id": "C110", "title": "CSV time columns mean what the calendar says", "statement": "Without format options, a CSV time column whose first row is a local date and time in one of the documented forms (YYYYMMDD.HHMMSS, YYYYMMDD HHMMSS, YYYYMMDD HH:MM:SS, YYYY/MM/DD-HH:MM:SS; a date column and a time column HHMMSSmmm, HHMMSS, HH:MM:SS, H:MM or HH:MM), a date YYYYMMDD, or ISO 8601 with offset, is recognised with that form, and every row in the form is read as the one time when clocks in the time zone show that date and time by the Gregorian calendar (to the millisecond where given; the offset decides for ISO texts); dates that do not exist, hour 24, minute 60, second 61 and local times that occur never or twice are rejected, and so are rows in another form. A number in the window of a unit (Dec 1989 to 2033) is recognised as a time in this unit.", "quantifier": "all records, columns, dates, times of day, texts in these forms, numbers, time zones with any ordered list of changes, and overflow modes", "why_tests_cant": "The forms have to be told apart for every date and number: that the second format also matches some 13 digit numbers shows up for one half of a percent of millisecond values only; leap years and zone changes are rare dates.", "anchors": ["src/source/csv_timestamp.rs: get_timestamp_fmt_auto, get_timestamp_fmt_auto_with_index, get_timestamp, TIME_FORMATS_WITHOUT_TZ, DATETIME_FORMATS_WITHOUT_TZ", "src/util/tz.rs: ChopperTz::from_local_datetime"]}
{"id": "C111", "title": "Cutting CSV files by calendar period", "statement": "chopper FILES --timezone ZONE --begin B --end E --csv-out-print-time no, with everything else found automatically, writes the common column names and exactly those records whose date and time - in whatever supported form each file has it - lies in the period from B on and before E, with all cells unchanged, in time order (later inputs first at equal times). For one file with dates, --begin YYYY --end the next year leaves exactly the records of the year.", "quantifier": "every time zone, every begin and end text of the supported forms, every set of plain CSV files with a recognisable header line whose records are in time order with one in the period, every chopping of reads and writes", "why_tests_cant": "combines detection of delimiter, header, column and format, calendar arithmetic, time zones, range selection and merging over all files", "anchors": ["src/chopper_cli.rs: parse_cli_args, setup_graph", "src/source/csv_source.rs: CSVSource::new, next_row", "src/source/csv_timestamp.rs: get_timestamp_col_and_fmt, get_timestamp", "src/util/timestamp_util.rs: parse_datetime_range_element", "src/driver/driver.rs: Driver::drive"]}
{"id": "C112", "title": "A directory of CSV files is read as one input", "statement": "When the input given to the tool is a directory whose files are CSV files with the same column names, the files are read one after the other in the order of their names, each row unchanged; if their records follow one another in time, the output is the header followed by exactly the records of all files that lie in the period, in that order. Files of the directory without records in the period do not matter (unlike separate inputs), but a directory without any record in the period makes the run fail. If no two files share a time and each has a record in the period, giving the files as separate inputs in whatever order writes the same bytes. Sub-directories and unreadable entries are left out.", "quantifier": "all directories (number of files, order of the listing, sub-directories, unreadable entries), tables, time formats, zones, bounds and ways in which reads are chopped up; all permutations of the files", "why_tests_cant": "the agreement between the serial reading of a directory and the merge of separate inputs concerns every content and order of the listing", "anchors": ["src/input/files_in_dir_provider.rs: FilesInDirPathProvider", "src/source/multi_file_source.rs: SerialMultiFileSource", "src/input/input_factory.rs: create_source_from_input", "src/chopper_cli.rs: setup_graph", "src/driver/driver.rs"]}
{"id": "C113", "title": "CSV files with quotes are read as their values", "statement": "Reading a CSV file delivers exactly its records: values may be quoted (then they may contain the delimiter, line ends and doubled quotes), lines may end with LF, CR or CRLF, the last need not be ended, empty lines are skipped, a byte order mark is ignored, and white space around values is removed. A text never stands for two different lists of records, every list of non-empty records can be written, tables that need no quotes are read as they are; lines written without quotes are a file of these lines exactly if no value has the delimiter or a line end or begins with a quote and no line is empty. A last value without closing quote extends to the end of the file. If reading fails, this is the last thing reported; the records of the whole lines before are delivered and then the failure; a line that is not UTF-8 is an error in its place and does not affect others.", "quantifier": "all delimiters other than quote and line ends, all record lists, all ways of writing them, all readers and ways of chopping up reads", "why_tests_cant": "Quoting, line ends, buffering and read boundaries combine without bound; a missed case shows only for particular texts.", "anchors": ["src/source/csv_source.rs: CSVSource::new, next_row", "src/source/csv_factory.rs"]}
{"id": "C114", "title": "Copying CSV files with quotes", "statement": "Copying or merging CSV inputs, whatever quotes, white space, empty lines or byte order marks they have, writes their records in the range in time order, the values without quotes. So the copy of a file is a CSV file of the same records exactly if no name or value has a comma or a line end or begins with a quote (and there is not just one column with an empty name); a value with a comma becomes two.", "quantifier": "all sets of input files with a common header, all ways their values are written, all ways reads are chopped up", "why_tests_cant": "It is a statement about all texts of all values; tests use values without quotes.", "anchors": ["src/source/csv_source.rs: CSVSource", "src/write/csv_sink.rs: CSVSink::write_row", "src/cli/cli_app.rs"]}
{"id": "C115", "title": "With automatic header detection no record is lost", "statement": "A CSV file whose lines are all records (no header line) is delivered completely when the tool is left to find out whether there is a header line, its columns called col_0, col_1, …; and if there is a header line whose name for the time column is no number, it is recognised. The first is false: exactly if a cell of the first line is of another kind (whole number of 64 bits, other number, text) than the cell below it, the first record is taken for column names and lost. Numbers are the texts with an optional sign, digits with at most one point and an optional exponent, or inf, infinity, nan in any case.", "quantifier": "all files of plain records within the first 8192 bytes of which the first two lines end, all delimiters, time columns and units, all ways reads are chopped up", "why_tests_cant": "It is a statement about all cell texts, including all texts the standard library takes for numbers.", "anchors": ["src/util/csv_util.rs: guess_has_header, guess_type", "src/source/csv_source.rs: CSVSource", "src/source/csv_configs.rs"]}
{"id": "C116", "title": "Two outputs on standard output: both texts complete and in order, mixed only at buffer boundaries", "statement": "In a graph that splits one input to two CSV outputs which both write to standard output (the split example), the run over an input that can be opened, has rows and only printable values succeeds, and what standard output receives is the complete CSV text of the first output and the complete CSV text of the second, each in order, mixed; if the second text is shorter than the 8192 bytes of an output buffer it comes entirely after the first. (Full claim: lines always arrive whole, i.e. no line of one output is broken up by text of the other. This is false.)", "quantifier": "all inputs, all pairs of output configurations, all ways the outputs cut their text into write calls, all reliable standard outputs", "why_tests_cant": "the mixing depends on where the buffers fill up, which depends on every length in the input", "anchors": ["examples/split.rs: main", "src/write/csv_sink.rs: CSVSink", "src/driver/driver.rs: Driver::process_row, flush"]}
{"id": "C117", "title": "Gzip files as inputs", "statement": "An intact gzip file (given by its extension .gz, by a format ending in .gz, or recognised by its first bytes) is read exactly like a plain file with its content under the name or format without .gz, whatever optional header fields it has. A damaged one - checksum or length do not fit, or the file breaks off after any number of bytes - is never read like a complete input: opening it fails, or reading its rows does not get to a normal end.", "quantifier": "all gzip headers (extra field, name, comment, header checksum), deflate streams, contents, ways the bytes are handed out in pieces, names, formats, points of truncation", "why_tests_cant": "A test checks one archive and one kind of damage; whether damage is noticed depends on its position, on the size of the content and on the format of the content.", "anchors": ["src/decompress/decompress.rs: decompress_gz, is_compressed_using_format, is_compressed_using_previewer", "src/input/single_file.rs: create_source_from_previewer", "src/util/reader.rs: ChopperBufPreviewer::new", "src/source/dc_source.rs: next_row"]}
{"id": "C118", "title": "Gzip files of several members", "statement": "A gzip file of several members (as produced by appending to a compressed file, by concatenating compressed files, or by bgzip) is read like a plain file with the contents of all members.", "quantifier": "all non-empty lists of intact members, names, formats", "why_tests_cant": "A test reads files with one member, or a fixed number; the claim is about any number of members and any contents.", "anchors": ["src/decompress/decompress.rs: decompress_gz"]}
{"id": "C119", "title": "Compressed inputs of the tool", "statement": "A run of the tool does exactly what it does if any of its inputs that are intact gzip files are unpacked first and given under the name (or format) without .gz: the same files are created, the same bytes are handed to the output and the result, success or error, is the same, however the bytes of the files arrive. In particular compressed CSV tables are copied and merged like plain ones.", "quantifier": "every set of arguments, every number of inputs, any of them compressed, every content, optional gzip header fields, and every way read calls may chop up either file", "why_tests_cant": "a relation between two runs over all contents, schedules and arguments", "anchors": ["src/chopper_cli.rs", "src/input/input_factory.rs", "src/input/single_file.rs", "src/decompress/decompress.rs"]}
{"id": "C120", "title": "The example program compressed", "statement": "The example program, for any path in place of the one built in, is the tool called with this path as only input, the first column as time column and times printed in nanoseconds since 1970, ignoring CHOPPER_TZ: same output, same result. Given an intact gzip file it does what the tool does with the unpacked file.", "quantifier": "every path, every file system, every content", "why_tests_cant": "equality of two programs for all inputs; the test run has one file", "anchors": ["examples/compressed.rs", "src/source/csv_configs.rs CSVOutputConfig::new_default", "src/chopper_cli.rs"]}
{"id": "C121", "title": "Files written through any graph of filters, splits, merges and outputs", "statement": "A library user who connects inputs through filters, splits and merges to CSV or DC output files, and runs the driver to success, finds in each output file that an input leads to exactly the header and the rows that the routes of the graph lead there, in order; everything has been handed to the file and flushed, and closing it adds nothing. At every earlier moment, and if the run fails or is killed at any point, each file holds a beginning of that text, and files only grow.", "quantifier": "all graphs of the built-in nodes and outputs, all inputs, ranges, output settings, devices with any schedule of short writes and failures, all moments of the run", "why_tests_cant": "all graphs, inputs and device behaviours, and every possible point of interruption", "anchors": ["src/driver/driver.rs:Driver::drive", "src/driver/data_graph.rs:DataGraph", "src/write/csv_sink.rs:CSVSink", "src/write/dc_sink.rs:DCSink", "src/filter/row_filter_equal_value.rs", "src/filter/row_filter_greater_value.rs", "src/filter/column_filter_delete_col.rs"]}
{"id": "C122", "title": "Rows handed to an output are not lost when the run stops", "statement": "However a run ends, each output file holds every row that was handed to the output before the end (if the device itself does not fail).", "quantifier": "all graphs, inputs, ranges, outputs, and all ways in which a run can end", "why_tests_cant": "all inputs and all points of failure", "anchors": ["src/chopper/types.rs:PartialOrd for FieldValue", "src/write/csv_sink.rs:CSVSink", "src/write/dc_sink.rs:DCSink", "src/driver/driver.rs:Driver::drive"]}
{"id": "C123", "title": "Compressed inputs of every format are read like their content", "statement": "A run of the tool in which some inputs are intact compressed files (gzip, LZF, LZ4 in either file format, zstd) - recognised by the extension of the name, by the given format, or by their first bytes - does exactly what it does if these are unpacked first and given under the name or format without the extension: the same files are created, the same bytes are handed to the output, and the result is the same, however the bytes of either are handed over by the operating system.", "quantifier": "all argument lists and sets of inputs, all formats, all contents, all ways reads are chopped up, all decoder libraries whose decoders deliver the content of the file", "why_tests_cant": "A test fixes some files and one way of reading them.", "anchors": ["/repo/src/decompress/decompress.rs: decompress, decompress_lz4, is_compressed_using_format, is_compressed_using_buffer", "/repo/src/decompress/zst.rs: ZstReader", "/repo/src/input/single_file.rs: SingleFileInputFactory"]}
{"id": "C124", "title": "zstd files of several frames", "statement": "A zstd file that consists of several undamaged frames (concatenated or appended-to files, parallel compressors) is read like a plain file with the contents of all frames.", "quantifier": "all files, frame sequences, contents, ways of reading", "why_tests_cant": "A test has some files; the claim is about every sequence of frames.", "anchors": ["/repo/src/decompress/zst.rs: ZstReader::new, ZstReader::read"]}
{"id": "C125", "title": "It does not matter where an input comes from", "statement": "A run of the tool does exactly the same - files created, bytes handed to the output, result - if any of its inputs are taken from another place: from a file, a page on a server, standard input, or as the only entry of an intact zip archive, compressed in any format or not, provided the name says the same about the format or the format is given. An input whose name says nothing, or that has none (standard input), is read as if it did: text as CSV, and what begins like a DC file and is no text as DC. In particular `chopper < a.csv` is `chopper a.csv`, and `chopper < a.csv.gz` is `zcat a.csv.gz | chopper`.", "quantifier": "all argument lists, sets of inputs, contents, places, names, formats, ways reads are chopped up, decoder libraries", "why_tests_cant": "A test has one file in one place.", "anchors": ["/repo/src/input/input_factory.rs: InputFactory::create_source_from_input", "/repo/src/input/single_file.rs: SingleFileInputFactory", "/repo/src/transport/streaming/http.rs: Http", "/repo/src/decompress/zip.rs: zip", "/repo/src/source/csv_factory.rs: can_create_from_previewer", "/repo/src/source/dc_factory.rs: can_create_from_previewer"]}
{"id": "C126", "title": "A directory is read as its files are, packed or not", "statement": "How a directory given as an input is read depends only on how its files, each taken as an input of its own, are read, in the order of their names. In particular, replacing each file by its compressed form (gzip, LZF, LZ4 in either file format, zstd), by a zip archive with it as only entry, or by the unpacked file - so that the order of the names remains - changes neither the header, the rows, nor the error the input is read with, nor what a run of the tool writes and reports.", "quantifier": "all directories and files in them (any number, any contents, also unreadable or damaged ones as long as corresponding ones are read alike), all listings, formats, CSV settings and read chunkings, all arguments of the tool", "why_tests_cant": "A test fixes one directory; the claim ranges over every directory content, every mixture of compressed and plain files, every chunking and every other argument.", "anchors": ["src/input/input_factory.rs: InputFactory::create_from_input", "src/input/files_in_dir_provider.rs: FilesInDirProvider", "src/input/serial_multi_file_provider.rs", "src/source/multi_file_source.rs: MultiFileSource", "src/source/source_factory.rs"]}
{"id": "C127", "title": "I/O errors while inputs are tested for being zip archives are reported", "statement": "If seeks or reads of any input file fail while chopper tests whether it is a zip archive or opens it as one, a run either does exactly what it does without the failures or reports one of them, in which case no output has been created or written. For a directory of files: the failure is reported when the directory is opened, or after the rows of the files before the failing one, or it made no difference. (For files that are no zip archives or archives without zip64 records; the rest is C107.)", "quantifier": "all file contents, all sets of failing operations on any of the files, all arguments of the tool, all directories", "why_tests_cant": "Failures of the operating system at every possible operation on every file cannot be enumerated by tests.", "anchors": ["src/input/single_file.rs: SingleFileInputFactory::create_source_from_path", "src/decompress/zip.rs: is_zip, new_reader_for_single_file_zip_archive", "src/input/input_factory.rs: create_source_from_input", "src/chopper_cli.rs: setup_graph"]}
{"id": "C128", "title": "Named pipes and process substitutions as inputs", "statement": "An input given by a path that can be read but not positioned (named pipe, /dev/fd/N of a process substitution, terminal) is read like a file with the same name and bytes. (False: the test for zip archives begins with a seek, so such an input always makes the run fail, before anything is created. The same bytes on standard input are read like a file.)", "quantifier": "all such paths, contents, formats, arguments of the tool", "why_tests_cant": "The claim ranges over all contents, formats and command lines; that it never works for any of them is not visible from a failing example.", "anchors": ["src/decompress/zip.rs: is_zip", "src/input/single_file.rs: SingleFileInputFactory::create_source_from_path", "src/input/input_factory.rs: create_source_from_input"]}
{"id": "C129", "title": "An output file is never far behind", "statement": "At every moment of a run over any graph of filters, merges, splits and output files, an output file whose device does not fail holds the text of its header and of all rows handed to it so far, except for at most the last 8192 bytes; so the memory taken by pending output is bounded, however long the run is.", "quantifier": "every graph, every inputs and time range, every output file (CSV or DC), every device schedule without failures (short writes allowed), every cutting of output into write calls, every moment of every run, however the run ends", "why_tests_cant": "the bound must hold between any two rows of unboundedly long runs, for every way of cutting text into writes and every sequence of short writes", "anchors": ["src/write/csv_sink.rs: CSVSink", "src/write/dc_sink.rs: DCSink", "src/driver/driver.rs: Driver::drive, process_row"]}
{"id": "C130", "title": "Nothing is written before 8192 bytes or the end of an input", "statement": "As long as no input has ended and the text of the header and of the rows handed to an output comes to less than 8192 bytes, the file is exactly as it was created: not even the header has been written. In particular a run on a live input (a pipe) shows nothing on the output for that long.", "quantifier": "every graph, inputs, range, output file, device (failing or not), cutting into write calls, every moment before the first end of an input", "why_tests_cant": "concerns every intermediate moment of every run, for all ways output is cut up and all rows", "anchors": ["src/write/csv_sink.rs: CSVSink", "src/write/dc_sink.rs: DCSink", "src/driver/driver.rs: Driver::flush, Driver::drive"]}
{"id": "C131", "title": "Endless inputs: a run depends only on what it has read", "statement": "A run over inputs that never end (a live feed) is, at every moment, in exactly the state that a run over long enough beginnings of these inputs passes through: graph, files and all. So everything proved of the moments of finite runs holds for endless ones; in particular the rows processed so far are in time order when every input is, they are the first rows of each input, each once and in order, and every output file holds all the text handed to it except for at most 8192 bytes.", "quantifier": "every graph, every number of endless inputs and every sequence of rows in them, every time range, every number of rounds of the driver", "why_tests_cant": "a test can only run on a finite input; the claim is about runs that have no end and about every moment of them", "anchors": ["src/driver/driver.rs: Driver::drive, Driver::get_row_buffers, Driver::get_next_buffer_index", "src/driver/source_row_buffer.rs: SourceRowBuffer::new, has_next, match_next_row", "src/chopper/chopper.rs: Source"]}
{"id": "C132", "title": "No row waits for ever", "statement": "With endless inputs in time order and no time range, every row of every input is processed after finitely many rounds, together with all rows before it in its input, provided every other input sooner or later gets past the time of that row. The condition is needed: if another input stays before the first row of an input for ever, no row of that input is ever processed.", "quantifier": "every number of endless inputs in time order, every row of every input, every number of rounds", "why_tests_cant": "a liveness property: it is about what happens sooner or later in runs without an end", "anchors": ["src/driver/driver.rs: Driver::drive, Driver::get_next_buffer_index", "src/driver/source_row_buffer.rs: SourceRowBuffer::has_next"]}
{"id": "C133", "title": "Times in a format of the user mean what the format says", "statement": "If the user gives the format of the time column (or of a date and a time column) as fields in any order with any text around them (year, month, day, hour, minute, second, fraction, milliseconds, offset), then a row in this format is read as exactly the time it shows: the instant given by date, time and offset if the format has an offset, otherwise the one time when clocks in the input's time zone show it (rejected if there is none or there are two), and the midnight of the date if the format shows no time. A format without full date is refused.", "quantifier": "every format of these specifiers (any length, order, repetition and literal text), every clock time and offset, every text in the format (one or two digits, any number of spaces, any fraction), every time zone with ordered changes, one or two columns, overflow mode", "why_tests_cant": "there are unboundedly many formats, and for each of them all times, texts and zones must come out right", "anchors": ["src/source/csv_timestamp.rs: get_timestamp_fmt_from_user_spec, get_timestamp_col_and_fmt, get_timestamp", "src/chopper_cli.rs: parse_csv_input_config"]}
{"id": "C134", "title": "Impossible times in a format of the user are rejected", "statement": "A row in the user's format whose date does not exist, whose time is impossible (hour 24, minute 60, second 61) or whose offset is a day or more is rejected, be it the first row or a later one. (False of the first row: if only its time is impossible the format is silently taken for one of dates, and the times of all rows are dropped; if only its offset is impossible, the offsets of all rows are ignored.)", "quantifier": "every format of the known specifiers, every text in it, every time zone, first and later rows", "why_tests_cant": "ranges over all formats and all impossible dates, times and offsets", "anchors": ["src/source/csv_timestamp.rs: get_timestamp_fmt_from_user_spec, get_timestamp"]}
{"id": "C135", "title": "Only texts in the user's format are accepted, and they have one meaning", "statement": "A row is accepted with the user's format only if its time column (or date and time columns) is a text in that format, every character of it accounted for, which shows an existing date and, unless the format was taken for one of dates, a possible time (second 60 is allowed and means the second after), with an offset of less than a day if the format was taken for one with offsets; and the timestamp is the instant shown (in the time zone: the only one). The format itself is accepted only if the first row is such a text, and taken for the kind it shows. A text never has two meanings in one format.", "quantifier": "every format, every row text, every time zone with its changes in order, both overflow modes", "why_tests_cant": "ranges over all texts: that no wrong text is accepted or misread cannot be settled by samples", "anchors": ["src/source/csv_timestamp.rs: get_timestamp_fmt_from_user_spec, get_timestamp", "src/util/tz.rs: from_local_datetime"]}
{"id": "C136", "title": "Writing over an input", "statement": "A run whose output file is also an input reads of that file exactly the bytes it had fetched before the output was created (as long as it does not write more than that): it does, to the last detail, what a run on the file cut off there does. A DC file of at most 8192 bytes can be copied over itself (filtered by time or not) with the result of a run to another file. Of a longer DC file only the first 8192 bytes are read; if they end with a complete row the run succeeds and the rows behind are lost without a message. (The claim that a run over its own input gives the same as a run to another file is refuted.)", "quantifier": "every DC file, every time range, every way of fetching further bytes, every device", "why_tests_cant": "ranges over all contents and lengths and over all policies of buffering; small files, as used in tests, show nothing", "anchors": ["src/chopper_cli.rs: setup_graph, create_file_sources", "src/write/factory.rs: new_header_sink", "src/util/reader.rs: ChopperBufPreviewer::new", "src/driver/source_row_buffer.rs"]}
{"id": "C137", "title": "Standard output with its line buffer: nothing lost, doubled or reordered", "statement": "When the tool writes CSV to standard output, which has a line buffer of its own behind the buffer of the sink, what has arrived at the descriptor at the end of the process is always a beginning of the header line and the lines of the rows in order, however the system cuts up the writes and wherever it fails; if the run succeeds, everything has arrived at the last flush, before the process ends; if the system does not fail, result and bytes are the same as without the line buffer; and if the system takes all it is given, what the sink's buffer has handed on and has not arrived is at most the beginning of a line.", "quantifier": "all sequences of writes and flushes, all schedules of partial writes and failures of the descriptor, all settings and inputs that can be opened, all ways the formatter cuts its output into pieces", "why_tests_cant": "the two buffers, the line boundaries, the pieces and the partial writes interact: the number of interleavings is unbounded", "anchors": ["src/write/csv_sink.rs:CSVSink::new", "src/write/csv_sink.rs:flush", "src/write/factory.rs: new_header_sink", "src/chopper_cli.rs:chopper_cli"]}
{"id": "C138", "title": "A zip archive cut short is never read in part", "statement": "If a zip archive with a single entry is truncated at any byte (an interrupted copy or download), opening it either returns an I/O error or yields the complete entry - same name, same packed data, same checksum, so that reading gives exactly the original content; a truncation before the end of the end record is always an error, the file is refused as an input, and the tool ends with an error before writing any output.", "quantifier": "every well-formed single-entry archive (stored, deflate, bzip2; with or without zip64 records, comments, extra fields), every truncation point, every read chopping, every set of other inputs", "why_tests_cant": "tests truncate at a handful of places; the claim is about every truncation point of every archive and depends on the backward search for the end record, the zip64 locator and the sizes taken from the directory", "anchors": ["src/decompress/zip.rs:new_reader_for_single_file_zip_archive", "src/decompress/zip.rs:find_eocdr_and_prepare_to_read", "src/input/input_factory.rs:create_source_from_path"]}
{"id": "C139", "title": "DC data that arrive only in part never yield a wrong row", "statement": "However a DC input arrives - in whatever pieces, cut short, with reads that fail, from a file, a page, standard input, a zip entry or through a decompressor that breaks off - if it is opened at all, its header is the header of the complete file and the rows it delivers are the first rows of the complete file, in order and unchanged; once all bytes have arrived all rows are delivered; and if the complete file ends well the part ends well or with an I/O error, never with a crash or another error.", "quantifier": "all DC files, all beginnings of them that arrive, all read schedules and failures, all sources, names and formats that say DC, all decompressors that deliver content in order", "why_tests_cant": "Every point of every file may be the one where the connection breaks, in every piece size; tests break at a few.", "anchors": ["src/source/dc_source.rs: DCSource::new, next_row", "src/source/dc_factory.rs", "src/input/single_file.rs", "src/util/reader.rs: Previewer, ChopperBufReader"]}
{"id": "C140", "title": "Inputs that break off leave a beginning of the complete output", "statement": "Some of the inputs of a run break off: they deliver their first rows unchanged and then fail. What the run feeds to its graph, row by row and flush by flush, is a beginning of what the run over the unbroken inputs feeds; and if the run nevertheless reports success, both runs did the same. For the tool, if the run over the complete inputs succeeds, the output file of the broken run holds a beginning of the complete output, all of it if success is reported; with a single input this is so even if the input ends early without an error, and for a single DC input however its bytes arrive.", "quantifier": "all lists of inputs and all points at which any of them break off, all time ranges, all graphs of nodes, all output devices, CSV and DC output; for DC all beginnings of the file and all read schedules and failures", "why_tests_cant": "The point where an input breaks off is arbitrary, relative to the rows of all other inputs; tests break at a few.", "anchors": ["src/driver/driver.rs: Driver::drive, src/driver/source_row_buffer.rs", "src/source/dc_source.rs", "src/chopper_cli.rs: chopper_cli", "src/write/csv_sink.rs", "src/write/dc_sink.rs"]}
{"id": "C141", "title": "Inputs that change while the program runs", "statement": "Files and directories may be written, replaced, removed or created between any two moments when the program looks at them. An input is nevertheless read as if nothing had changed: there is one fixed state of things, in which every path is as it was at one of the moments (a directory as it was when it was listed, a file as it was when it was opened), such that header, rows, end and errors are those of an input in that state; the same holds of a run of the tool whose inputs do not share files. This is false in one case: a file that is no zip archive when tested for being one, and is one when it is opened for reading, is read as if the bytes of the archive were its data.", "quantifier": "all histories of the file system (any sequence of worlds, one for each look), all files, directories and formats, all decoders and source factories", "why_tests_cant": "The moments of the changes are those of other programs; a test would have to stop the program between any two system calls.", "anchors": ["src/input/input_factory.rs: create_source_from_input", "src/input/single_file.rs: create_source_from_path", "src/input/files_in_dir_provider.rs", "src/source/multi_file_source.rs: update_to_next_source", "src/transport/seekable/seekable_factory.rs", "src/transport/streaming/previewer_factory.rs"]}
{"id": "C142", "title": "The filter-and-merge example, from its paths to standard output", "statement": "The example program that filters two inputs and merges them prints, as CSV on standard output, the rows of its first input whose value in one column is greater than a given one together with the rows of its second input whose value in another column is equal to a given one, in the order of time; it succeeds exactly if all rows of each input can be compared in that input's column. With headers that differ or lack a column it fails without reading a row. As shipped, the program reads one file twice, and all of this holds; with two different files it is false: the filters are applied to the other input.", "quantifier": "all file systems, pairs of paths, columns and values to compare with, file contents with any number of rows, write behaviours of a standard output that does not fail", "why_tests_cant": "The shipped program reads one fixed file twice, which hides which filter gets which input; the claim is about all files, columns and values.", "anchors": ["examples/filter_and_merge.rs: setup_graph", "src/driver/driver.rs: Driver::new", "src/filter/row_filter_greater_value.rs", "src/filter/row_filter_equal_value.rs", "src/write/csv_sink.rs"]}
{"id": "C143", "title": "CSV data that arrive only in part", "statement": "If only a first part of a CSV input (read with explicit settings) arrives - a read fails, or the data end early without an error -, then the rows read from it are the first rows of the complete input, under the same header; and if a read failed, the end of the rows is reported as an error. Without an error this is false of the last row: it may be cut off within a value, or be filled up with the values of the row before, and nothing shows it.", "quantifier": "all inputs (files, pages, standard input, files in archives), their contents, the points at which they break off or fail, the sizes in which reads deliver the data, delimiters, header settings and time columns", "why_tests_cant": "A download can break off after any byte and reads can fail at any call; a test fixes one such point.", "anchors": ["src/source/csv_source.rs: CSVSource::next_row", "src/source/csv_factory.rs", "src/input/input_factory.rs: InputFactory::create_from_input", "src/util/reader.rs: ChopperBufPreviewer"]}
{"id": "C144", "title": "CSV inputs whose reading fails leave a beginning of the complete output", "statement": "A run of the tool over any number of inputs, of which some - CSV, read with explicit settings - fail at some point while they are read, is compared with the run over the same inputs arriving completely, where that one succeeds: the output (CSV or DC) of the first is a beginning of the output of the second, and if the run reports success, all of it.", "quantifier": "all lists of inputs, which of them fail and after which byte, all contents, read sizes, time ranges, output formats and output devices", "why_tests_cant": "The failure can come after any byte of any input, relative to the rows of all others; tests break at a few places.", "anchors": ["src/chopper_cli.rs: chopper_cli", "src/source/csv_source.rs: CSVSource::next_row", "src/driver/driver.rs: Driver::drive", "src/write/csv_sink.rs", "src/write/dc_sink.rs"]}
{"id": "C145", "title": "CSV inputs broken in any way that is noticed", "statement": "A CSV input (read with explicit settings) whose reading fails at some point, or which lies in a gzip file that is cut or has a wrong checksum or length, or in a zip archive with a wrong checksum: if it is opened at all, the intact input is opened too with the same header, the rows read are the first rows of the intact input, and they always end with an error. A run of the tool over any number of inputs of which some are broken in these ways leaves in the output a beginning of what the run over the intact inputs writes, and if it reports success, all of it.", "quantifier": "all contents, all gzip members and inflaters that notice when data are cut, all places of the failure, all read sizes, all lists of inputs, output formats and devices", "why_tests_cant": "The damage can be anywhere in the compressed data, which the decoder delivers up to some point chosen by itself; tests damage a few files at a few places.", "anchors": ["src/input/input_factory.rs", "src/source/csv_source.rs: CSVSource::next_row", "src/decompress/zip.rs", "src/decompress/crc32.rs", "src/decompress/decompress.rs", "src/driver/driver.rs: Driver::drive"]}
{"id": "C146", "title": "CSV inputs in damaged compressed files of any format", "statement": "A CSV input (read with explicit settings) in a damaged compressed file of any format - gzip, LZF, LZ4 in either file format, zstd - given by extension, by format or recognised by its first bytes, where the decoder delivers a beginning of the content and then reports an error: if it is opened at all, the complete input, plain or compressed, is opened too with the same header, the rows read are its first rows, and they always end with an error. A run of the tool over any number of inputs of which some are damaged so leaves in the output a beginning of what the run over the complete inputs writes, and if it reports success, all of it. The gzip decoder and the program's own zstd reader notice damage in this sense.", "quantifier": "all contents, all formats, all damaged files whose damage the decoder notices, how much it delivers before that, all read sizes, all lists of inputs, output formats and devices", "why_tests_cant": "How much a decoder delivers before it notices the damage depends on the data, its block sizes and the sizes of the buffers it is read with.", "anchors": ["src/input/input_factory.rs", "src/decompress/decompress.rs", "src/decompress/zst.rs: ZstReader::read", "src/source/csv_source.rs: CSVSource::next_row", "src/driver/driver.rs: Driver::drive"]}
{"id": "C147", "title": "CSV inputs cut short without a sign of it change at most one line each, apart from what is missing", "statement": "A run of the tool over any number of inputs in time order, of which some - CSV, read with explicit settings - are cut short after any byte without any error being seen, is compared with the run over the complete inputs. Both write the same header line; of the lines the first run writes, all but at most one for every input that is cut are lines of the complete output, in the same order.", "quantifier": "all lists of inputs, which of them are cut and where, all contents, time ranges, read sizes and CSV output settings", "why_tests_cant": "The cut can be at any byte of any input, within a field, a quoted field or a line end, and shifts the merge with all other inputs.", "anchors": ["src/chopper_cli.rs: chopper_cli", "src/source/csv_source.rs: CSVSource::next_row", "src/driver/driver.rs: Driver::drive", "src/driver/merge_join.rs", "src/write/csv_sink.rs"]}
{"id": "C148", "title": "Zip archives whose entry cannot be unpacked, or has a wrong checksum, are read like files that fail", "statement": "A zip archive used as an input whose entry unpacks only to a beginning, after which the decompressor reports an error, is read in any format exactly like a plain file of the entry's name that holds this beginning and whose reading then fails with that error; one with a wrong checksum exactly like a plain file of its content that fails with 'invalid data' at its end. If less than 8192 bytes can be unpacked, the error is reported when the input is opened. For CSV with explicit settings: rows read are first rows of the intact input, their end is an error, and a run of the tool over inputs of which some are such archives writes a beginning of the complete output, all of it if it reports success. DC read from such archives has the header of the whole file and first rows of it, none wrong, doubled or moved, and ends normally or with an I/O error if the whole file ends well.", "quantifier": "all archives with one entry, names, formats, contents, places where unpacking fails, errors, checksums, read sizes, other inputs and output settings", "why_tests_cant": "Where unpacking fails decides what is already buffered for the recognition of the format, what is delivered, and which read sees the error.", "anchors": ["src/input/single_file.rs: create_source_from_path", "src/input/input_factory.rs", "src/decompress/crc32.rs: Crc32Reader", "src/chopper_cli.rs: chopper_cli"]}
{"id": "C149", "title": "DC inputs cut short: no wrong, doubled or moved line, whatever else is read", "statement": "A run of the tool over any number of inputs in time order, of which some - DC, from files, pages, standard input or zip archives - are cut short after any byte, is compared with the run over the complete inputs. If no error is seen and every input still has a row in the time range, both succeed and write the same header, and the lines of the first run are lines of the complete output, in the same order; if CSV inputs are cut too, at most one line for each of these is not. If each input that is cut ends with an error, and the complete run succeeds, then what is written, as CSV or DC, is a beginning of the complete output, all of it if success is reported.", "quantifier": "all lists of inputs, which of them are cut and after which byte, all contents, time ranges, read sizes, failures and output settings", "why_tests_cant": "The cut can be at any byte of any input, and each missing row changes how all other inputs are merged.", "anchors": ["src/chopper_cli.rs: chopper_cli", "src/source/dc_source.rs: DCSource::next_row", "src/driver/driver.rs: Driver::drive", "src/driver/merge_join.rs", "src/write/csv_sink.rs"]}
