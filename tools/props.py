import json
P=[]
def p(title, statement, quantifier, why, anchors):
    P.append(dict(id="C%02d"%(len(P)+1), title=title, statement=statement, quantifier=quantifier, why_tests_cant=why, anchors=anchors))

# ---- readers / util
p("Previewing and buffering never change the byte stream",
  "After an input has been opened through the previewer, reading it to the end through the returned reader - with any mix of read calls of any size and fill/consume calls - yields exactly the bytes of the underlying reader, in order, each exactly once, no matter how the underlying reader chops its data into short reads.",
  "every byte content, every buffer capacity > 0, every short-read schedule of the underlying reader, every sequence of read/fill/consume calls by the consumer",
  "short-read schedules and call interleavings are unbounded; a test fixes one of each",
  ["src/util/reader.rs: ChopperBufReader::{fill_buffer,fill_buffer_one_shot,read,fill_buf,consume}", "src/util/reader.rs: ChopperBufPreviewer::{new,get_reader}"])
p("Preview lines are exactly the decidable lines of the previewed prefix",
  "The preview reports the longest prefix of the file's text lines that can be determined from the first buffer-full of bytes: lines are the '\\n'-separated pieces with one trailing '\\r' dropped; if the whole file is shorter than the buffer the unterminated last line is included, otherwise an unterminated last piece is dropped; if any such line is not valid UTF-8 no lines are reported at all.",
  "every file content, capacity and short-read schedule",
  "requires all contents around the buffer boundary and all chunkings",
  ["src/util/reader.rs: ChopperBufPreviewer::{prepare_preview,get_lines_from_reader,add_next_line_to_lines,get_line,make_string_no_cr,get_lines,get_buf}"])
p("File comparison decides content equality",
  "are_contents_same returns Ok(true) if and only if the two files hold the same bytes, whatever short reads the operating system performs, and it always terminates.",
  "every pair of byte contents and every pair of short-read schedules",
  "a wrong answer can hide at any length or chunk boundary",
  ["src/util/file.rs: are_contents_same"])
p("remove_multiple removes exactly the listed positions",
  "Given strictly ascending in-range positions, remove_multiple leaves exactly the elements whose position is not listed, in their original order; it never panics on such input, and a duplicate or out-of-range position panics instead of corrupting the vector silently.",
  "every vector and every index list",
  "exponentially many index subsets for every length",
  ["src/util/remove_multiple.rs: RemoveMultiple::remove_multiple"])
p("Delimiter guessing picks the most frequent candidate, first listed on ties",
  "guess_delimiter returns a candidate delimiter whose number of occurrences in the row is maximal, and among equally frequent candidates the one listed first.",
  "every row of text and every non-empty candidate list",
  "must hold for all Unicode text, and tie-breaking depends on sort stability",
  ["src/util/csv_util.rs: guess_delimiter"])
p("Column type unification is a join",
  "guess_common_type of a list of types is String if the list is empty or contains any String/Boolean/ByteBuf, otherwise Double if it contains any Float/Double, otherwise Long; in particular it does not depend on order or multiplicity.",
  "every list of field types", "order and length are unbounded and the loop has early exits",
  ["src/util/csv_util.rs: guess_common_type, type_upconvert"])
p("Header guessing is conservative",
  "guess_has_header answers true only if there are two lines and the sequences of trimmed-field types (long/double/string) of the two lines differ; it answers false for fewer than two lines and whenever both lines have the same type sequence, in particular for two identical lines.",
  "every pair of optional lines, every delimiter", "all possible texts",
  ["src/util/csv_util.rs: guess_has_header, guess_type"])
p("Delimiter argument parsing accepts exactly single ASCII characters and \\t",
  "parse_into_delimiter succeeds exactly on the two-character text backslash-t (meaning TAB) and on one-character ASCII texts (meaning that character); every other text, including the empty one, one non-ASCII character and longer text, is rejected with an error and never panics.",
  "every string", "all strings",
  ["src/util/csv_util.rs: parse_into_delimiter", "src/source/csv_configs.rs: CSVInputConfig::new"])
# ---- timestamps
p("Epoch autodetection is unambiguous and never overflows",
  "An all-digit begin/end value that lies in one of the four autodetection windows (s/ms/us/ns) is interpreted in exactly one unit, the result is exactly value*unit without overflow, always lies in the nanosecond window, and equals what the CSV timestamp column autodetection would assign to the same digits; digit strings outside every window are never silently interpreted as epoch.",
  "every digit string, every timezone", "2^64 values and four overlapping-looking windows",
  ["src/util/timestamp_util.rs: parse_datetime_range_element", "src/source/csv_timestamp.rs: RANGE_NANOS, RANGE_MICROS, RANGE_MILLIS, RANGE_SECONDS, get_timestamp_fmt_auto_with_index, get_timestamp"])
p("Abbreviated begin/end dates mean midnight of the first day",
  "YYYY, YYYYMM and YYYYMMDD as begin/end value give exactly the same result as the fully written YYYYMMDD-00:00:00 with the missing month/day filled with 01; no other all-digit length is auto-completed, and a value is never rejected before all accepted formats were tried.",
  "every digit string, every timezone, every behaviour of the date library", "all dates and all timezones",
  ["src/util/timestamp_util.rs: parse_datetime_range_element, create_datetime_range_formats"])
p("Timestamps in explicit units are scaled exactly or not at all",
  "A CSV timestamp column in s/ms/us/ns is converted to exactly value*unit nanoseconds; a value that does not fit 64 bits must not be accepted as a different instant.",
  "every digit string, every unit, both overflow-check build modes", "boundary is at 2^64/unit and differs by build mode",
  ["src/source/csv_timestamp.rs: get_timestamp, TimestampUnits"])
p("Date parsing preserves chronological order",
  "If one date/time denotes an earlier instant than another then its row timestamp is smaller.",
  "every pair of date/time values accepted by the date library, every timezone", "needs all pairs, including dates before 1970",
  ["src/source/csv_timestamp.rs: get_timestamp (timestamp_nanos() as u64)", "src/util/timestamp_util.rs: parse_datetime_range_element"])
p("Timestamp column autodetection follows a fixed priority and the leftmost column",
  "With automatic timestamp column selection the chosen column(s) depend only on the lower-cased names, following the documented priority: time+unit; date (joined with time if present); time; prefixed time+unit; prefixed date (joined with the prefixed time if the prefixes agree); prefixed time; column 0 - and within each class the leftmost matching column is used; the selected index always exists when there is at least one column.",
  "every list of column names", "all header shapes",
  ["src/source/csv_timestamp.rs: get_timestamp_col"])
p("A detected timestamp format parses the row it was detected on",
  "If automatic timestamp format detection succeeds without a unit hint from the column name, then converting the first row's timestamp with the detected column and format succeeds, and for digit-only values gives the autodetected instant.",
  "every header, first row, timezone and date-library behaviour", "all rows and formats",
  ["src/source/csv_timestamp.rs: get_timestamp_col_and_fmt, get_timestamp_fmt_auto_with_index, get_timestamp_fmt_auto_with_datetimeindex, get_timestamp_fmt_from_user_spec, get_timestamp"])
p("Printed epoch timestamps are the floor in the chosen unit and read back exactly",
  "The CSV time column in s/ms/us/ns prints floor(timestamp/unit) in decimal; reading that text back as an epoch timestamp in the same unit succeeds and gives the timestamp rounded down to the unit; two timestamps a unit apart never print the same text; the seconds/nanoseconds split used for human readable output loses nothing.",
  "every 64-bit timestamp and unit", "2^64 values",
  ["src/write/csv_sink.rs: CSVSink::write_row", "src/source/csv_timestamp.rs: get_timestamp", "src/util/tz.rs: ChopperTz::timestamp"])
# ---- range / driver
p("Range selection is the half-open interval [begin, end)",
  "For an input whose timestamps never decrease, the rows taken from it are exactly those with begin <= timestamp < end, in input order; missing bounds do not restrict. For an arbitrary input the rows taken are those >= begin from the prefix before the first row >= end.",
  "every input sequence and every range", "all sequences and boundaries",
  ["src/driver/source_row_buffer.rs: filter_data_range, match_next_row, SourceRowBuffer"])
p("Merging sorted inputs yields a sorted output",
  "When every input is non-decreasing in time, the sequence of rows the driver feeds into the graph over the whole run is non-decreasing in time.",
  "every number of inputs, every input length and content, every range", "all interleavings of all inputs",
  ["src/driver/driver.rs: Driver::drive, get_next_buffer_index"])
p("Every selected row is processed exactly once, in its input's order",
  "A successful run feeds, for every input, exactly its in-range rows, each once and in input order, to that input's chain, and nothing else; this holds even when inputs are not sorted.",
  "every set of inputs and ranges", "all interleavings",
  ["src/driver/driver.rs: Driver::drive, get_row_buffers"])
p("Ties between inputs are resolved deterministically",
  "Rows with equal timestamps from different sorted inputs are output in a fixed order of the inputs, all tied rows of one input before those of the next (the order is last input first).",
  "every set of sorted inputs", "ties can occur at any point of any interleaving",
  ["src/driver/driver.rs: get_row_buffers, get_next_buffer_index"])
p("Input i is processed by chain i",
  "The rows of the i-th input are processed by the i-th chain of the graph, i.e. by the chain whose nodes were configured with the i-th input's header.",
  "every number of inputs", "holds accidentally for one input or identical chains",
  ["src/driver/driver.rs: get_row_buffers (sources.pop()), Driver::new, src/chopper/header_graph.rs: process_header"])
p("An input without selected rows is harmless",
  "An input that has no rows in the requested range contributes nothing: the run behaves as if the input were absent.",
  "every position of an empty input among any other inputs", "needs all input sets",
  ["src/driver/driver.rs: drive (row().clone().unwrap())", "src/driver/source_row_buffer.rs: SourceRowBuffer::new"])
p("Everything written is flushed before a successful run ends",
  "When a run succeeds, every sink that received a row is flushed at some point after the last row it received.",
  "every graph, every set of inputs, every behaviour of sinks", "all graphs and histories",
  ["src/driver/driver.rs: flush, drive"])
p("The first error stops the run after delivering everything before it",
  "If an input or a node fails, the run returns that error, everything fed into the graph before the failure is exactly a prefix of what the failure-free run would feed, and nothing is processed after it.",
  "every failing input position and every failing node", "every crash point",
  ["src/driver/driver.rs: drive, process_row"])
p("A run over finite inputs terminates",
  "With finite inputs and a graph without cycles the driver always stops: the number of loop iterations is at most the number of selected rows, and the per-row traversal is bounded.",
  "every finite input set, every acyclic graph", "termination cannot be observed by a test",
  ["src/driver/driver.rs: drive, process_row, flush"])
# ---- graph
p("A chain of nodes acts as the composition of its nodes in order",
  "A row entering a chain of data sinks reaches the k-th node transformed by nodes 1..k-1 in order; a node that emits nothing ends that row, a node that emits several rows has each of them carried through the rest of the chain in emission order, one completely after the other.",
  "every chain length, every node behaviour, every number of emitted rows", "fan-out can nest arbitrarily",
  ["src/driver/driver.rs: process_row"])
p("Splits and merges deliver to every branch and continue the tee",
  "At a split the unmodified row is delivered to every listed chain in order and then to the remaining nodes of the splitting chain; at a merge it is delivered to the merge chain and then to the remaining nodes; dropping or changing the row in one branch never affects the others.",
  "every graph, row and node behaviour", "all graph shapes",
  ["src/driver/driver.rs: process_row"])
p("Only identical headers can be merged",
  "Setting up a graph succeeds only if all headers arriving at a merge have the same column names and the same types in the same order as the first one, and the merged chain sees exactly that header; any difference is an error before any row is read.",
  "every graph and all headers", "all header combinations and arrival orders",
  ["src/driver/merge_join.rs: MergeJoin::{check_header,process_header}", "src/chopper/header_graph.rs: check_merge_header"])
p("Header processing terminates for every graph",
  "Building the data graph from any header graph, cyclic or not, always stops (with success, an error or a panic).",
  "every header graph and header list", "cyclic graphs of all shapes",
  ["src/chopper/header_graph.rs: process_header, process_header_re, match_remove_chain, check_merge_header"])
p("A graph accepted at setup time has no cycle",
  "If graph setup succeeds, row processing on the resulting graph terminates for every row.",
  "every header graph", "all graph shapes",
  ["src/chopper/header_graph.rs: match_remove_chain (SplitHeaderSink arm)", "src/driver/driver.rs: process_row"])
p("Every activated chain keeps its nodes in order",
  "After setup each chain that was reached holds exactly one data node per header node, in the same order and of the same kind (sink for sink, split with the same targets, merge with the same target), and each header sink was applied to the header produced by the nodes before it.",
  "every header graph", "all graphs",
  ["src/chopper/header_graph.rs: match_remove_chain", "src/chopper/data_graph.rs: add_node"])
p("A merge declared for too many inputs is reported",
  "If fewer headers arrive at a merge than it was declared for, setup or run must not succeed while silently dropping the rows sent there.",
  "every declared count and number of arrivals", "all counts",
  ["src/chopper/header_graph.rs: check_merge_header", "src/driver/driver.rs: process_row"])
# ---- filters / values
p("Row filters keep exactly the rows matching the named column",
  "The equality filter keeps a row iff the value in the first column whose name matches (ASCII case-insensitively) equals the given value, the greater filter keeps it iff that value compares strictly greater; kept rows are unchanged, a missing column is a setup error, and the header is unchanged.",
  "every header, row and value", "all rows and values",
  ["src/filter/row_filter_equal_value.rs", "src/filter/row_filter_greater_value.rs"])
p("Deleting a column removes the same column from header and rows",
  "The delete-column filter removes from header names, header types and from every row exactly the position of the first name matching case-insensitively, and keeps all other columns aligned by name; a missing column is a setup error.",
  "every header and row as wide as the header", "all headers",
  ["src/filter/column_filter_delete_col.rs"])
p("Value comparison is lawful",
  "For values of the same supported type equality is symmetric and transitive and agrees with the ordering; ordering is transitive and antisymmetric-by-swap; floating point follows IEEE (NaN equals and orders with nothing, zeros are equal); values of different types are unequal, and ordering them ends the process rather than giving an arbitrary answer.",
  "every pair/triple of values", "2^64 floats, all strings",
  ["src/chopper/types.rs: impl PartialOrd for FieldValue, impl PartialEq for FieldValue"])
p("Rows stay as wide as the header through any chain of built-in nodes",
  "If every input row has as many values as the header, then at every node of every chain made of built-in filters and merges the row has as many values as the header that node was configured with, so no built-in node can hit its out-of-range panic.",
  "every chain of built-in nodes, every header and rows", "unbounded chains",
  ["src/filter/*.rs", "src/driver/merge_join.rs", "src/driver/driver.rs: process_row"])
# ---- DC
p("DC files round-trip",
  "Writing any header and rows (supported types, nulls anywhere) with the DC sink and reading the bytes back with the DC source gives the same header (unnamed columns get their default name) and exactly the same rows.",
  "every column count and type list, every row list, every null pattern, every string length < 2^32", "bit-level layout depends on the column count",
  ["src/write/dc_sink.rs", "src/source/dc_source.rs", "src/util/dc_util.rs"])
p("DC strings of any length round-trip",
  "A string value written in DC format is read back unchanged, both in the short (16-bit length) and in the long (32-bit length) form, and consumes exactly the bytes that were written.",
  "every string below 4 GiB followed by any bytes", "boundary at 32767/32768 bytes, multi-byte characters",
  ["src/util/dc_util.rs: write_string_value, write_sized_string, get_sized_string", "src/source/dc_source.rs: read_string"])
p("A truncated DC file never yields a wrong row",
  "Cutting a DC file anywhere after its header yields the complete rows before the cut, unchanged, and then either end-of-data or an error; the cut is reported as an error unless it falls on a row boundary.",
  "every file and every cut position", "every crash point",
  ["src/source/dc_source.rs: next_row"])
p("I/O errors while reading DC data are reported",
  "If the underlying reader fails (for example a checksum mismatch) the DC source reports an error instead of pretending the data ended.",
  "every failure position", "every failure point",
  ["src/source/dc_source.rs: next_row (Err(_e) => return Ok(None))", "src/decompress/crc32.rs"])
p("DC headers are validated",
  "Opening DC data succeeds only if it starts with the DC magic number and version 2; display hints outside -1..6 are rejected; user data of any length is skipped; header parsing never reads rows.",
  "every byte string", "all byte strings",
  ["src/source/dc_source.rs: DCSource::new", "src/util/dc_util.rs: FieldDescriptor::new", "src/source/dc_factory.rs"])
p("DC null bitmap marks exactly the null fields",
  "In a written DC row bit i of the bitmap is set iff field i is null, for every field covered by the bitmap, and the remaining bits are zero.",
  "every row and column count", "all null patterns",
  ["src/write/dc_sink.rs: write_row"])
# ---- CSV
p("CSV header and rows have the same columns",
  "Every CSV row printed for a header-wide row has exactly as many delimiter-separated columns as the printed header line, using the configured delimiter in both.",
  "every output configuration, header and row", "all configurations",
  ["src/write/csv_sink.rs: write_csv_header, write_row"])
p("CSV lines determine their values",
  "For values whose text contains neither the delimiter nor a newline, splitting the printed lines gives back exactly the printed texts, null printing as the empty text; booleans and byte buffers are rejected with an error.",
  "every row list", "all texts",
  ["src/write/csv_sink.rs: write_row"])
p("CSV rows carry exactly their own record's fields",
  "Each row produced from a CSV file has the values of its own record: field i of the row is field i of the record.",
  "every record sequence, including ragged ones", "all record shapes",
  ["src/source/csv_source.rs: update_row, next_row, new"])
p("All CSV rows before a malformed one are delivered",
  "If record k cannot be converted then records 1..k-1 are delivered before the error is reported.",
  "every record sequence and failure position", "every failure position",
  ["src/source/csv_source.rs: next_row"])
p("An empty or header-only CSV input is an input with no rows",
  "Opening a CSV input without data records does not crash.",
  "every configuration", "must hold for all configurations",
  ["src/source/csv_source.rs: CSVSource::new (records().next().unwrap())"])
# ---- multi file
p("Multi-file inputs align columns by name",
  "Reading several files as one input, every row's value under each expected column name is the value the row's own file had under that name, whatever order the file's columns are in and whatever extra columns it has; a missing or differently typed expected column is an error.",
  "every reference header, file header (with distinct names) and row", "factorially many column orders",
  ["src/source/multi_file_source.rs: check_headers_match_and_return_swap_map, next_row"])
p("Multi-file rows have exactly the common header's columns",
  "Every row of a multi-file input has as many values as the common header has columns.",
  "every reference header, file header and row", "all header pairs",
  ["src/source/multi_file_source.rs: next_row (truncate)"])
p("Multi-file input is the concatenation of its files in path order",
  "The rows of a directory input are the rows of its non-directory entries in ascending path order, each file completely before the next; empty files are skipped.",
  "every set of entries in any listing order, every file content", "all listings",
  ["src/source/multi_file_source.rs: next_row, update_to_next_source", "src/input/files_in_dir_provider.rs"])
# ---- zip/crc
p("Single-file zip archives are read back exactly",
  "For every well-formed archive holding one stored file (any name, any content, any comment and extra fields, with or without zip64 records) opening it yields the stored bytes and the stored name.",
  "every name, content, extra data, comment", "all archives",
  ["src/decompress/zip.rs"])
p("The zip end record search finds the last signature in the search window",
  "The search returns the position right after the last end-of-central-directory signature in the last MiB of the file (not counting one at offset 0), and an error iff there is none.",
  "every byte content", "all files",
  ["src/decompress/zip.rs: find_eocdr_and_prepare_to_read"])
p("Checksum verification accepts exactly matching data",
  "Reading checksummed data to the end succeeds iff the CRC-32 of all delivered bytes equals the expected one, however the reads are chunked, and delivered bytes are never altered.",
  "every content, expected checksum and read schedule", "all chunkings",
  ["src/decompress/crc32.rs: Crc32Reader::read"])
p("Any single corrupted byte is detected",
  "If stored data is changed in exactly one byte (or in any burst of up to 32 bits) then reading it to the end fails with a checksum error.",
  "every content, position and corruption", "all positions and values",
  ["src/decompress/crc32.rs", "src/decompress/zip.rs"])
p("Unsupported archives are rejected",
  "Archives with more or less than one entry, multi-disk archives, encrypted entries and unknown compression methods give an error, never data.",
  "every byte content", "all archives",
  ["src/decompress/zip.rs: EndOfCentralDirRecord::read, CentralDirHeader::read, new_reader_for_single_file_zip_archive"])
# ---- detection
p("Compression is recognised by content exactly by its magic number",
  "Content based detection answers GZ/LZ4/LZF/ZIP/ZST exactly when the content starts with the respective magic bytes, at most one format matches, and content shorter than four bytes is never taken as compressed.",
  "every byte content", "all contents",
  ["src/decompress/decompress.rs: is_compressed_using_previewer"])
p("Compression is recognised by name exactly by its extension, which is stripped",
  "Name based detection answers a format exactly when the name ends in .gz/.lz4/.lzf/.zip/.zst, and the name used afterwards is the original without that extension.",
  "every name", "all names",
  ["src/decompress/decompress.rs: is_compressed_using_format"])
p("A user specified format is never overridden by autodetection",
  "With an explicit format the decoder used depends only on that format (leading dot optional, compression suffix stripped), never on file name or contents; with auto, the file name decides before the contents; if nothing matches an error is returned.",
  "every file name, content and set of source factories", "all combinations",
  ["src/input/single_file.rs: create_source_from_previewer, create_source_from_format, create_source_by_autodetecting_format"])
p("DC content without a recognised name is read as DC",
  "A file whose content starts with the DC magic number and version is opened as DC when neither format nor file name says otherwise.",
  "every DC file", "all DC contents",
  ["src/input/input_factory.rs: create_default_source_factories", "src/source/csv_factory.rs: can_create_from_previewer", "src/source/dc_factory.rs: can_create_from_previewer"])
p("User supplied transports take precedence",
  "If a user supplied transport can open a path, that transport's data is used.",
  "every transport list and path", "all lists",
  ["src/transport/streaming/previewer_factory.rs: create_previewer", "src/transport/seekable/seekable_factory.rs: create_seekable", "src/input/input_factory.rs: new_with_optional_csv"])
# ---- CLI
p("Format overrides are assigned to inputs in order, the last one repeating",
  "The i-th input gets the i-th format override, inputs beyond the list get the last override, 'auto' or a missing list means autodetection, and stdin gets the first.",
  "every input and format list", "all list lengths",
  ["src/chopper_cli.rs: parse_cli_args"])
p("The command line tool merges all inputs into one sorted output",
  "Running the tool on one or more non-empty sorted inputs with equal headers succeeds and writes to the output exactly the in-range rows of all inputs, sorted by time, each once, then flushes; inputs with unequal headers are rejected before any row is written.",
  "every number of inputs, headers and rows", "all input sets",
  ["src/chopper_cli.rs: setup_graph", "src/driver/*.rs", "src/chopper/*.rs"])
p("Converting DC to DC preserves the data",
  "Running the tool with DC inputs and a .dc output produces a file that, read back, has the merged rows of the inputs.",
  "every set of DC inputs", "all contents",
  ["src/chopper_cli.rs", "src/source/dc_source.rs", "src/write/dc_sink.rs", "src/driver/driver.rs"])
p("Output format is chosen by file name",
  "A .csv output name (or none) gives CSV, a .dc name gives DC, anything else is an error and no file is created.",
  "every output name", "all names",
  ["src/write/factory.rs: new_header_sink"])
p("Exit status reflects success",
  "The process exits with status 0 exactly when the run succeeded, and a broken pipe is silent but still non-zero.",
  "every result", "all error kinds",
  ["src/error.rs: handle_drive_error, Error::exit"])
with open('/verif/properties.jsonl','w') as f:
    for q in P: f.write(json.dumps(q)+"\n")
print(len(P))
