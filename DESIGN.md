# Formal model of octoske/chopper in Lean 4 — design

## 1. Layout

| path | content |
|---|---|
| `lean/Verif/Model/*.lean` | the model: one file per source file (or small group) of `/repo/src`. Every definition cites the file and lines it models and says where it simplifies |
| `lean/Verif/Spec/*.lean` | small specifications that do not mention the model's helpers |
| `lean/Verif/Proofs/*.lean` | helper lemmas |
| `lean/Verif/Props/*.lean` | the property theorems `Cnn_*`, each with `example`s showing that a concrete non-trivial case meets its hypotheses |
| `properties.jsonl` | the properties C01… in English |
| `MANIFEST.json` | property → theorems, status (generated by `tools/manifest.py` from the theorem names and `tools/notes.json`) |
| `seeded/LOG.jsonl` | wrong-program experiments |

A property that is **false of the unchanged code** has status `partial`: its full statement is the definition `Cnn_full` (C50: `C50_claim`), a
theorem `Cnn_refuted`/`Cnn_counterexample`/`Cnn_fails`/`Cnn_…_never` proves that the program does not have it, and the strongest restriction found
that does hold is proved with suffix `_partial`. No property is partial merely because its proof was not finished.

## 2. Modelling conventions

* **Outcomes.** `Result<T, Error>` becomes `Res T` with four outcomes: `ok v`, `err e` (a Rust `Err`), `panic` (a Rust panic or
  index out of range) and `diverge` (the fuel of a recursion through the graph ran out; theorems C24, C28, C29 say when this cannot happen).
  Errors keep their kind (`Err`); payloads of foreign error types are dropped, custom messages are kept.
* **State.** `&mut self` methods return the new state, also when they fail.  `Vec<T>`/slices are `List T`.
* **Numbers.** Bytes are `BitVec 8`; `u64`/`i64`/`i32`/… field values and timestamps are `BitVec n`; lengths and counters are `Nat` (where the
  code's width matters the model reduces explicitly).  Arithmetic that can overflow takes `ov : Overflow` = `panics` (debug build) or
  `wraps` (release build); theorems quantify over it.  `f32`/`f64` are their IEEE-754 bit patterns with the comparison defined on them.
* **Text.** `String` is `List Char`; bytes come from an explicit UTF-8 encoder and a strict decoder, proved inverse (`Proofs/Utf8`).
  `lower` (Unicode lower case) and `isF64` (what `str::parse::<f64>` accepts) are parameters (for the latter `Model/RustFloat` is a concrete instance, transcribed from the standard library's `dec2flt`, used in C115).
* **Readers.** `Inner` = remaining bytes, a schedule saying how the next `read` calls behave (short read of at most n bytes,
  interruption, failure), and what happens at the end of the schedule's content (`ending`: end of file or an error).  Theorems hold for
  every schedule.  `Stream` (DC reader) is a list of bytes and failures: what successive one-byte reads see.
* **Writers.** `Device` = bytes taken so far and a schedule of `take n`/failures for `write` and `flush`; `BufWriter` (8192 bytes) and the `write_all` loop
  are modelled; how the `write!`/formatting machinery cuts text into pieces is the parameter `Chunking`.
* **External libraries are parameters**; theorems hold for every behaviour, or under a hypothesis written in the theorem:
  `DateLib` (chrono parsing/formatting and time zones), `CsvLib`/`CsvEnv` (records produced by the csv crate from the bytes after the
  preview), `FloatFmt` (dtoa), `Decoders` (gzip, lz4, lz4 Java blocks, lzf, zstd as functions on readers), `ZipLib` (inflate, bunzip, lossy decoding
  of names, read schedules), `World` (files, directories, http answers, stdin), `OutWorld` (creating output files), `tzParse`, `tzVar`.
* **Recursion** through the graph (`process_row`, `flush`, header processing) takes fuel, see `diverge` above.

## 3. What is modelled, file by file

| `/repo` | model | left out / simplified |
|---|---|---|
| `src/util/reader.rs` | `Model/Reader` | nothing but `Seek`-free trait plumbing; `String` capacity |
| `src/util/file.rs` | `Model/Reader` (`areContentsSame`) | opening the two paths |
| `src/util/remove_multiple.rs` | `Model/RemoveMultiple` | |
| `src/util/csv_util.rs` | `Model/CsvUtil` | counters unbounded instead of u32 |
| `src/util/timestamp_util.rs`, `src/source/csv_timestamp.rs`, `src/util/tz.rs` | `Model/Timestamp`, `Model/Chrono` | chrono/chrono-tz a parameter (`DateLib`) of `Model/Timestamp`; `Model/Chrono` is a concrete instance, from the published source of chrono (not in /repo): the format items the project's own formats use, the Gregorian calendar, offset changes of a zone; specifiers the project never uses are taken as unknown |
| `src/util/dc_util.rs`, `src/source/dc_source.rs`, `src/write/dc_sink.rs` | `Model/Dc` | allocation limited to `isize::MAX` bytes (panic above), other allocation failures not modelled |
| `src/util/path.rs` | `Model/MultiFile`, `Model/Input` | paths are byte strings (Unix) |
| `src/chopper/types.rs` | `Model/Types` | `Debug`/`Clone` |
| `src/chopper/data_graph.rs`, `src/driver/driver.rs`, `src/driver/source_row_buffer.rs` | `Model/Driver`, `Model/DriverObj` (the driver called more than once), `Model/Live` (the driver on sources of any kind, endless ones too), `Model/InPlace` (sources that read the output file), `Model/Graph` | sinks return the rows they emit instead of writing to an `io` object |
| `src/chopper/header_graph.rs`, `src/driver/split.rs`, `src/driver/merge_join.rs` | `Model/HeaderGraph` | |
| `src/filter/*` | `Model/Filter` | regular expressions are not used by the code |
| `src/source/csv_source.rs`, `csv_configs.rs`, `csv_factory.rs`, `src/write/csv_sink.rs` | `Model/Csv`, `Model/Input`, `Model/Writer`, `Model/CsvCrate` | the csv crate is a parameter (`CsvLib`); `Model/CsvCrate` is a concrete instance, a transcription of the automaton of csv-core and of the reader around it (C113), which is not part of `/repo` and so rests on our reading of that crate |
| `src/source/dc_factory.rs`, `source_factory.rs` | `Model/Input` | |
| `src/source/multi_file_source.rs`, `src/input/files_in_dir_provider.rs`, `serial_multi_file_provider.rs` | `Model/MultiFile` | directory listing a parameter |
| `src/decompress/zip.rs`, `crc32.rs` | `Model/Zip`, `Model/ZipFaults` | file offsets below 2^63; in `Model/Zip` reads and seeks on the seekable file do not fail, in `Model/ZipFaults` they do (`Model/Files`: the way from the command line to there, C127, C128); CRC-32 bitwise instead of crc32fast's tables |
| `src/decompress/decompress.rs` | `Model/Input`, `Model/Gzip` | decoders are parameters in general; `Model/Gzip` is our reading of flate2's `GzDecoder` (inflate remaining a parameter), `Model/Zst` of `ZstReader`; lz4 (frames and Java blocks) and lzf remain parameters |
| `src/decompress/zst.rs` | `Model/Zst` | ruzstd's `FrameDecoder` by its contract: a list of frames, each a list of blocks; what may be collected given the window |
| `src/input/*`, `src/transport/**` | `Model/Input` | failing reads may happen anywhere; where exactly a failure stands after a single request of 8192 bytes or more is simplified (`streamOf`); file system and http are `World`; it does not change during a run, except in `Model/Changing` (C141), where every look sees a world of its own, and in `Model/InPlace` (an output file that is also an input; reading in place does not fail there) |
| `src/write/factory.rs` | `Model/Writer`, `Model/Stdout` | in `Model/Writer` stdout's own line buffer is not a separate stage; `Model/Stdout` (C137) has it, transcribed from the standard library (`LineWriterShim`) |
| `src/chopper_cli.rs`, `src/cli_app.rs`, `src/error.rs`, `src/cli/util.rs`, `chop/src/main.rs` | `Model/Cli`, `Model/CliGraph`, `Model/CliApp` | the table of options is transcribed (`cliApp`) without the help texts; clap itself (splitting the command line, checking it against the table) is represented by its contract `Clap`; C103 proves that what passes it is `Accepted`, as C71 and C76 assume; the logger; the content of an output file when setup fails after creating it |
| `examples/filter_and_merge.rs`, `examples/split.rs` | `Spec/FilterMerge`, `Spec/SplitGraph` | their graphs, for any number of inputs, branches and filters (C80, C81) |
| `util/dcgen/src/main.rs` | `Model/Dcgen` | creating the file; `u64 as f64` a parameter |
| `util/infistream/src/inficsv.rs`, `util/infistream/src/inficsvgz.rs` | `Model/Infistream` | the gzip encoder is a parameter; the web server around the streams (`main.rs`) is not modelled, it is assumed to send the chunks in order |
| `examples/split.rs` with its two outputs on the same standard output | `Model/SharedOut` | the traversal with a device shared by the outputs; behind the opening of the input (C116) |
| `examples/filter_and_merge.rs` from its paths to standard output | `Model/FilterMergeProg` | for any two paths, columns and values instead of those built in (C142) |
| `examples/compressed.rs` | `Model/Compressed` | for any path instead of the one built in (C120) |
| `HeaderSinkFactory` sinks (`write/factory.rs`) inside an arbitrary graph | `Model/LibGraph` | files written by any graph of built-in nodes (C121, C122) |
| `tests/` and the `#[test]` functions in `src/` | `Verif/Tests/Integration.lean` (generated by `tools/gentests.py`), `Verif/Tests/Unit.lean` | run on the model with `#guard` (evaluated when building, not by the kernel): every integration test writes the files in `tests/reference`, and every unit test's assertion holds of the model. Evidence that the model is one of this program; no theorem rests on it |

Not modelled at all: memory safety, resource exhaustion other than the allocation limit above, performance, threads (the code has none), signals.

## 4. Per property

**false** = the property does not hold of the unchanged code, see section 1.  Nothing in the list was judged inexpressible.

| id | property | what is modelled | how it is proved |
|---|---|---|---|
| C01 | Previewing and buffering never change the byte stream | `ChopperBufReader`/`ChopperBufPreviewer` over an inner reader = bytes + schedule of short reads, interruptions, failures | invariant: delivered ++ buffered ++ rest = content; induction over the calls |
| C02 | Preview lines are exactly the decidable lines of the previewed prefix | `ChopperBufPreviewer::new` line extraction, UTF-8 decoding | equality with a small spec splitting the first `cap` bytes at line breaks |
| C03 | File comparison decides content equality | `are_contents_same` with two schedules | induction on the remaining content |
| C04 | remove_multiple removes exactly the listed positions | `remove_multiple` as a swap loop | loop invariant; spec = filter by index |
| C05 | Delimiter guessing picks the most frequent candidate, first listed on ties | `guess_delimiter` | exact characterisation; **false** for characters above U+00FF |
| C06 | Column type unification is a join | `ColumnType` unification | fold = join in the type order |
| C07 | Header guessing is conservative | `guess_has_header`, `ColumnType::from` | decision logic; float syntax a parameter (`isF64`) |
| C08 | Delimiter argument parsing accepts exactly single ASCII characters and \t | `parse_into_delimiter` | iff |
| C09 | Epoch autodetection is unambiguous and never overflows | epoch windows in `timestamp_util.rs`, `csv_timestamp.rs` | window arithmetic, u64 overflow mode a parameter |
| C10 | Abbreviated begin/end dates mean midnight of the first day | `TimestampRange::new`, abbreviated dates | chrono a parameter (`DateLib`) |
| C11 | Timestamps in explicit units are scaled exactly or not at all | `get_timestamp` with units, overflow mode | **false** when overflow wraps; exact in checked mode, exact mod 2^64 otherwise |
| C12 | Date parsing preserves chronological order | `timestamp_nanos() as u64` | **false** before 1970; exact conversion for every instant |
| C13 | Timestamp column autodetection follows a fixed priority and the leftmost column | `get_timestamp_col` | decision logic on names and columns |
| C14 | A detected timestamp format parses the row it was detected on | format detection; the list of formats stated again in `Spec/Timestamp` | induction over the list of formats; C14_one_column, C14_two_columns, C14_user_format: which format is detected, completely |
| C15 | Printed epoch timestamps are the floor in the chosen unit and read back exactly | CSV sink time printing | decimal print/parse round trip, division |
| C16 | Range selection is the half-open interval [begin, end) | `SourceRowBuffer` | induction on source rows |
| C17 | Merging sorted inputs yields a sorted output | `Driver::drive` | refinement to a k-way merge |
| C18 | Every selected row is processed exactly once, in its input's order | `Driver::drive` | per-input projections of the call log |
| C19 | Ties between inputs are resolved deterministically | `Driver::drive` | equality with a stable sort (specified independently) |
| C20 | Input i is processed by chain i | `get_row_buffers` | **false**: input k of n goes to chain n-1-k |
| C21 | An input without selected rows is harmless | `get_row_buffers`, `drive` | **false**: proved never to succeed |
| C22 | Everything written is flushed before a successful run ends | driver `flush` | ghost log of calls |
| C23 | The first error stops the run after delivering everything before it | driver loop with failing sources | the run is a fold over its call log; prefix lemma |
| C24 | A run over finite inputs terminates | driver loop, graph traversal | measure: total number of rows; acyclic graphs terminate, cycles proved to diverge |
| C25 | A chain of nodes acts as the composition of its nodes in order | `process_row` | refinement to composition of stages |
| C26 | Splits and merges deliver to every branch and continue the tee | `process_row` | inductive big-step delivery relation |
| C27 | Only identical headers can be merged | `HeaderGraph::process_header` | invariant over recursive header processing |
| C28 | Header processing terminates for every graph | `HeaderGraph::process_header` | number of live chains decreases |
| C29 | A graph accepted at setup time has no cycle | setup + `process_row` | **false** (self split); acyclicity under stated conditions |
| C30 | Every activated chain keeps its nodes in order | `process_header` | specification `Setup`, invariant |
| C31 | A merge declared for too many inputs is reported | merge header sinks | **false**; exact arrivals theorem |
| C32 | Row filters keep exactly the rows matching the named column | row filters | decision logic |
| C33 | Deleting a column removes the same column from header and rows | column filter | list surgery, alignment of header and rows |
| C34 | Value comparison is lawful | `FieldValue` eq/partial_cmp | IEEE comparison on bit patterns, UTF-8 byte order = code point order |
| C35 | Rows stay as wide as the header through any chain of built-in nodes | all built-in nodes | induction over the chain |
| C36 | DC files round-trip | DC writer + reader at byte level | encode/decode round trip; **false** for widths 1 mod 8 |
| C37 | DC strings of any length round-trip | DC string encoding | round trip, all three length forms |
| C38 | A truncated DC file never yields a wrong row | DC reader on a cut file | prefix lemma; **false** for cuts 1..7 bytes into a row |
| C39 | I/O errors while reading DC data are reported | DC reader on a failing reader | prefix lemma; **false** for failures in the first 8 bytes of a row |
| C40 | DC headers are validated | `DCSource::new` | iff with a grammar of headers |
| C41 | DC null bitmap marks exactly the null fields | null bitset | bit arithmetic |
| C42 | CSV header and rows have the same columns | CSV sink header and rows | **false** for delimiters other than "," |
| C43 | CSV lines determine their values | CSV sink row text | split/intercalate; float printer a parameter |
| C44 | CSV rows carry exactly their own record's fields | CSV source over the records of the csv crate | **false** for ragged input |
| C45 | All CSV rows before a malformed one are delivered | CSV source with a malformed record | **false** (last row lost) |
| C46 | An empty or header-only CSV input is an input with no rows | CSV source without records | **false** (panics) |
| C47 | Multi-file inputs align columns by name | `MultiFileSource` column swap map | permutation by swaps |
| C48 | Multi-file rows have exactly the common header's columns | `MultiFileSource` truncation | **false** for identity swap maps |
| C49 | Multi-file input is the concatenation of its files in path order | `MultiFileSource`, `FilesInDir` | concatenation; byte order of paths |
| C50 | Single-file zip archives are read back exactly | `zip.rs` at byte level | parser run on every archive of a layout; **false** for two classes |
| C51 | The zip end record search finds the last signature in the search window | end record search | window search = last occurrence |
| C52 | Checksum verification accepts exactly matching data | `Crc32` reader | CRC register = polynomial remainder, incremental |
| C53 | Any single corrupted byte is detected | CRC-32 algebra | linearity, injectivity on bursts up to 32 bits |
| C54 | Unsupported archives are rejected | `zip.rs` rejects | totality and iff-style rejection lemmas |
| C55 | Compression is recognised by content exactly by its magic number | magic numbers | decision logic on previewed bytes |
| C56 | Compression is recognised by name exactly by its extension, which is stripped | file name extensions | decision logic |
| C57 | A user specified format is never overridden by autodetection | `SingleFileInput` formats | decision logic |
| C58 | DC content without a recognised name is read as DC | autodetection CSV before DC | **false** for two classes |
| C59 | User supplied transports take precedence | transports | **false**: last wins |
| C60 | Format overrides are assigned to inputs in order, the last one repeating | CLI input formats | zip with last repeated |
| C61 | The command line tool merges all inputs into one sorted output | `chopper_cli` end to end | composition of driver, graph, sinks; `IsMerge` spec, proved to have one solution |
| C62 | Converting DC to DC preserves the data | DC to DC end to end | C61 + C36; **false** for widths 1 mod 8 |
| C63 | Output format is chosen by file name | `write/factory.rs` | decision logic; **false** for names such as `tcsv` |
| C64 | Exit status reflects success | `handle_drive_error`, `Error::exit`, `main` | decision logic; **false**: prints an empty line on a broken pipe |
| C65 | Explicit CSV settings are never overridden by guessing | `csv_configs.rs` | all branches of explicit settings |
| C66 | A path input is read as what it is | `InputFactory`, transports, single files, directories, zip, http, stdin | case analysis of the recursive opening |
| C67 | Output is complete or the run fails, flushed, no failed call | sinks over `BufWriter` over a device with arbitrary short writes and failures that records flushes | invariant: device ++ buffer = text so far; no failed call so far |
| C68 | One time zone, with a fixed priority | time zone options | decision logic |
| C69 | The time column and its format are what the options say | time column options | decision logic |
| C70 | No output file is created for a run that cannot start | order of creation of the output file | case analysis of `setup_graph` |
| C71 | Accepted options never crash the program | option validation | **false** for `--print-time YES` |
| C72 | Rows read from DC always fit their header | DC reader rows | invariant |
| C73 | Explicit timestamp column and format settings are obeyed | explicit timestamp settings | decision logic |
| C74 | The header line of CSV output | CSV header line | text equality |
| C75 | Automatic CSV settings are explicit settings found from the first two lines | automatic CSV settings | equality with a run with explicit settings |
| C76 | Settings are what the options say | CLI options to settings | all options, iff acceptance |
| C77 | User supplied source factories take precedence | user factories | case analysis |
| C78 | Zstd input is read exactly, damage is never taken for the end | `ZstReader` over the contract of ruzstd's `FrameDecoder` | invariant over reads |
| C79 | Zstd files with several frames are read completely | the same with several frames | **false**: only the first frame is read |
| C80 | A filter-and-merge graph outputs exactly what its filters let through | header setup, driver and built-in sinks together (`examples/filter_and_merge.rs` for any number of inputs and filters) | setup gives the graph (C30), calls performed on it (C23) reduce to the filters' relation `Through`, by induction over calls and nodes |
| C81 | Every output of a split gets exactly what its own branch lets through | the same for `examples/split.rs` with any number of branches and filters | setup (C30) gives the graph; induction over branches, rows and calls |
| C82 | Streaming: rows are processed as they arrive, and a range end stops endless inputs | driver; an input asked for a row it has not delivered yet is a source that fails there | simulation between runs over sources of which one is the other cut off; rows behind the end likewise |
| C83 | A zip archive with a wrong checksum is never read as a complete input | archive reader (`openZip`, `CrcReader`), previewer, CSV and DC sources | the checksum error is the ending of the entry's reader; previewer specification; **false** for DC of 8192 bytes or more |
| C84 | A run that cannot start says why and leaves nothing behind | `chopperCli`, `parseSettings`, `openInputs`, `newHeaderSink`, exit status | case analysis; induction on the inputs before the failing one (Props/Cli7) |
| C85 | CSV written by the tool can be read again | CSV sink and whole run (C61), file transport, previewer, CSV source; the csv crate by the contract `ReadsPlain` (it reads tables of fields that need no quoting), shown satisfiable | induction on the lines, C61, C66, C44, C15; **false** for other delimiters (header line always has commas), texts with commas or outer white space, no column, no row |
| C86 | Automatic settings read the tool's own CSV output | CSV sink, previewer, delimiter / header / column / format detection, CSV source; csv crate by `ReadsPlain`, date library: digits are no date | automatic settings open the file exactly as explicit ones do (C75, C13, C09), then C85; **false**: the unit in the default name is not understood, so a printed number in another unit's window is misread (`C86_misread`) |
| C87 | The example file generator writes a complete file or fails visibly | `util/dcgen` call by call on a device with short and failing writes; number of rows a parameter; `u64 as f64` a parameter | each part appends its bytes or panics after a prefix (composition), round trip with the DC source; **false** for short writes: `out.write(..)` ignores the count |
| C88 | Copying and merging plain CSV files | `chopperCli` from the arguments to the bytes of the output, with the csv crate as a parameter that reads plain tables (`ReadsPlain`, the contract of C85) | opening each file gives exactly its records as string rows (`csv_table_read`), the driver merges (C61), the sink writes every cell unchanged (`csvLines_strings`) |
| C89 | A range may be processed in two parts | three runs of `chopperCli` over the same opened inputs | concatenating the merges of the two parts is a merge of the whole range and merges are unique (`isMerge_chop`, `isMerge_unique`); the sinks write rows one after the other |
| C90 | Inputs may be merged in stages | three runs of `chopperCli` from the arguments to the output bytes, as C88 | a merge of a merge is a merge (`isMerge_stage`); the intermediate file is read back to the rows that were written (plain tables are determined by their text) |
| C91 | The order of the inputs | two runs of `chopperCli` | the specification of merging determines the rows up to permutation whatever the order of inputs (`isMerge_perm`), and exactly if no times are shared (`isMerge_perm_eq`) |
| C92 | How reads and writes are chopped up does not matter | `chopperCli` in two environments that differ in the schedules of readers and devices only; csv crate and decoders are parameters assumed to depend on the bytes only (`CsvByContent`, `DecodeByContent`) | simulation: previews, decoders, factories, transports, directories give equal sources (`previewer_exact`, `SamePreview.create`, `createFromInput_same`); writers hold the same bytes after every call (`perform_same`) |
| C93 | No DC file crashes the reader | the DC reader on streams of bytes and failures; a specification of crashing headers and rows written from the byte layout | every reading function is characterized by the exact byte strings it accepts, rejects and crashes on, composed through bind; header and rows by induction on columns |
| C94 | DC files mean exactly what the format says | as C93; relational specification IsDcFile from the layout, not using the reader | both directions: what the reader delivers has the layout, and what has the layout is delivered; uniqueness of runs |
| C95 | Every output of any graph gets exactly the rows its routes lead to it | Model/DataGraph, Model/Driver, Model/Filter, Model/HeaderGraph; spec Spec/Routes | Induction on the run with a log invariant; routes are unique and exist in acyclic graphs; exchange lemma for splits |
| C96 | A DC file that grows, or is cut, keeps its header and a beginning of its rows | DC reader (Model/Dc) and opening by name (Model/Input) | the reader run on the left-over and appended bytes (delivers_parts, ending_iff); uniqueness by C94 |
| C97 | What a CSV input means, record by record | CSV reader, timestamp parsing, opening of files; the csv library as an oracle, or (plain files) assumed to read plain lines | both directions between the state machine of the reader and a record-wise specification (TimeOf, RowOf, Stop, CsvMeaning); uniqueness of the meaning |
| C98 | Appending lines to a CSV file keeps its columns and all its rows but at most the last | as C97 | from the exact meaning of CSV inputs (C97) and its uniqueness; the naive statement (nothing is lost) is refuted by C98_naive_false |
| C99 | The endless test stream is the CSV text of a counter, and is read as such | the two streams; the gzip encoder as a parameter; http, previewer, CSV reader and driver as before | induction on the number of calls; the text is a plain table, read by C97; C82 for the range |
| C100 | Calling the driver again does nothing and succeeds, unless an input failed before its first row | the driver as an object: sources left, graph, range; drive returns the object it leaves behind (Model/DriverObj) | induction over the sources popped; C100_first ties the object to driveGraph, which all other properties use |
| C101 | CSV written with human-readable times can be read again | CSV sink, csv source, timestamp detection (Model/Csv, Model/Timestamp); printing and parsing of dates by chrono as parameters with the explicit contract IsoReadable (Spec/CsvIso) | lines of the sink are a plain table (induction over rows), the csv contract reads it, format detection finds the ISO format, one timestamp per record by the date contract; C101_tool composes with C61 |
| C102 | The tool's default CSV output can be read with the tool's default CSV input settings | as C101, with delimiter and header detection (Model/CsvUtil) and automatic column choice (Model/Timestamp) | C75 turns automatic into explicit settings; the types of the two lines are computed from the plain fields; both directions (read again / error) proved, counterexample for the full statement |
| C103 | Command lines: options mean what they say, contradictions are refused | The table of options transcribed (Model/CliApp), the look-ups into it; clap by its contract. | Case analysis over the table; false for -E with -H and for --csv-in-epoch with --csv-in-ts-fmt-date/-time (counterexamples); the other contradictions proved refused. |
| C104 | A DC file can stand in for the inputs it was made from | The whole tool (Model/Cli), three runs of it. | C36 (round trip), C66 (DC file as input), C61 (runs) and the staging law of the merge used for C90. |
| C105 | Exactly the graphs without reachable loops or missing chains let a run finish | driveGraph, processRow, flushFrom (Model/Driver, Model/Graph) | Induction on fuel: a successful flush makes every chain downstream well-founded; pigeonhole on an infinite path; induction on the well-founded part gives a fuel bound |
| C106 | The order of filters does not matter, unless one deletes the other's column | equalHeader, greaterHeader, deleteHeader, BSink.write, processHeader, driveGraph | **false** for success (a filter can keep away rows the next one cannot compare); otherwise by C80 and determinism and commutation of the filter relations (index arithmetic of deleted columns) |
| C107 | I/O errors while a zip archive is opened are reported | Model/ZipFaults: all of zip.rs again with a schedule of failing system calls | simulation relation between the failing and the non-failing functions, closed under bind; the swallowed seek error of get_start_of_central_dir_offset is a separate case. C107_recognised, C107_no_zip64 (any file without locator), C107_archive_partial (end record agrees with the zip64 records), C107_counterexample (it contradicts them: another entry is read) |
| C108 | Begin and end mean the calendar times they say | Model/Chrono: chrono's parse (the format items the project uses), calendar (proleptic Gregorian), zone conversion with unique local times, concretely, as an instance of the DateLib parameter of Model/Timestamp; Spec/Calendar: dates, next day and counting days, independent of the arithmetic | counting days by steps of one day agrees with the closed formula (induction both ways); every text form read by induction over digits; local-time lookup in ordered offset changes. C108_local, C108_utc, C108_iso, C108_leap_second, C108_impossible, C108_no_zone, C108_day, C108_period, C108_year, C108_month |
| C109 | Human-readable times in CSV are the local calendar times, sortable, and can be read back | chrono's formatting and zone offsets concretely (Model/Chrono) under Model/Csv's sink and source | the printed text is an IsoClockText of the local clock, by computation on the digits; what it reads back is the time off by the seconds of the offset (C109_read), so readable iff the offset is whole minutes (C109_iff); **false in full** for zones like Africa/Monrovia before 1972 (C109_counterexample); lexicographic order by comparing fields of digits (C109_sorted); composed with C101 for files and runs |
| C110 | CSV time columns mean what the calendar says | getTimestampFmtAuto, getTimestamp (Model/Timestamp) with the concrete date library of Model/Chrono; texts, calendar and zones in Spec/Calendar (OneColumnText, TwoColumnText, LooksLikeDate, DateText, OnlyTime). | Symbolic run of the format interpreter on the texts (Proofs/ChronoColumns): for each text exactly one format fits; on digits only, each format's run computed in terms of the length. Exact characterisation of numbers (C110_epoch). The claim for numbers is false for milliseconds: C110_counterexample (1583010112345 is taken for a date in 1583), the rest is C110_units_partial. |
| C111 | Cutting CSV files by calendar period | whole tool (CLI settings, CSV source with automatic settings, chrono model of C108-C110, driver, CSV sink) | C110 gives detection and reading of each record, C108 the bounds, C102's auto_table the delimiter and header line; then the merge theorem C61 as in C88 |
| C112 | A directory of CSV files is read as one input | the tool of C61/C111 with the directory branch of `create_source_from_input` | files with equal headers yield an identity swap map, so the serial source delivers the concatenation; then the run lemma for one table; the agreement with separate inputs by uniqueness of a time-ordered list with given records at each time |
| C113 | CSV files with quotes are read as their values | transcription `csvCrate` of the csv/csv-core automaton and reader with the options the code uses (trim, flexible), as an instance of the parameter `CsvLib` | the automaton copies or ends fields as the grammar says (induction on fields, lines, file); unambiguity from determinism of the automaton; UTF-8 by the inverse laws of `Proofs/Utf8`; when quotes are needed: a scan that loses no quote reads only bare fields |
| C114 | Copying CSV files with quotes | `chopperCli` from the arguments to the output bytes with the transcription `csvCrate` of the csv crate | each input is read as its records by C113 through the previewer (which always has the whole byte order mark buffered), then the run of C88; the exact condition from `C113_quotes_needed`; counterexample: a quoted value with a comma, by unambiguity of CSV text |
| C115 | With automatic header detection no record is lost | `guess_has_header`, `CSVSource` as for C75/C88; which texts `str::parse::<f64>` accepts is a transcription of `core::num::dec2flt` (`Model/RustFloat`) | grammar equivalence by induction; the previewed lines are the first lines (`preview_lines`); kinds compared cell by cell; counterexample `5,1` / `7,1.5` |
| C116 | Two outputs on standard output: both texts complete and in order, mixed only at buffer boundaries | the graph traversal with a device shared by the sinks (processRowIO), two CSVSinks with their own BufWriter around it, the header lines, the drop of the sinks | induction over the rows with the bytes passed on by each buffer; the counterexample is a value of 8188 bytes that fills the buffer in the middle of a line |
| C117 | Gzip files as inputs | Model/Gzip: our reading of flate2's read::GzDecoder (header with all optional fields, inflate as a parameter, trailer with CRC-32 and length, nothing read after the first member), plugged into the model of inputs; Spec/Gzip: the member layout of RFC 1952 | the header parser skips every header of the specified layout and runs out of bytes on every proper prefix; the decoder's bytes and ending are then those of a plain file with an error at its end, for which C39 and C83 say what happens. False for DC content of at least 8192 bytes (C117_dc_never: read like intact), so partial |
| C118 | Gzip files of several members | as for C117 | false: C118_first_partial proves that exactly the first member is read, whatever follows it, without any error; C118_refuted gives two members whose second one is lost |
| C119 | Compressed inputs of the tool | the whole tool (`Model/Cli`), flate2's `GzDecoder` (`Model/Gzip`) | C117 for one input, independence of the pieces (C92), equal settings; C119_tables composes with C88 |
| C120 | The example program compressed | `Model/Compressed`: `compressedExample` | unfolding both set-ups, case analysis on every step; C119_tool for the second part |
| C121 | Files written through any graph of filters, splits, merges and outputs | Model/LibGraph (sinks: built-in nodes and outputs with their devices) over Model/Graph, Model/Driver, Model/Writer | a generic account of what every sink of a graph is asked to do during any part of a run (Proofs/Moments), and of what an output does with it (Proofs/LibGraph); routes as in C95 |
| C122 | Rows handed to an output are not lost when the run stops | as C121; process::exit leaves the buffers unwritten, returning drops the sinks | true whenever the sinks are dropped (C122_closed_partial); false when a comparison of unsuitable values exits the process (C122_counterexample) |
| C123 | Compressed inputs of every format are read like their content | `createFromPreviewer`, `decompressReader`, `ZstReader` (`Model/Zst`), the tool (`Model/Cli`); decoder crates as parameters with the contract `Unpacks` | C123_open (one input), C123_tool (the whole run); C123_zst and C123_gz derive the contract for the program's own zstd reader (from C78) and the transcribed gzip decoder |
| C124 | zstd files of several frames | as C123 | C124_refuted (false), C124_first_partial (exactly the first frame is read, without any error) |
| C125 | It does not matter where an input comes from | `createFromInput` with all built-in transports, `chopperCli` | C125_same, C125_unpacked, C125_said (one input), C125_tool (the whole run), C125_piped and C125_redirected (special cases), from C66, C83, C58, C92 and C123 |
| C126 | A directory is read as its files are, packed or not | createFromInput, MultiFile, filesInDir, newInputs, chopperCli with the decoders of the compression crates as parameters (DecodeByContent) | MultiFile over pairs of paths (congruence of opening and of every next_row), dir_order, C125 |
| C127 | I/O errors while inputs are tested for being zip archives are reported | Model/Files: the way from the command line to is_zip with failing operations (Model/ZipFaults) | simulation (sim_isZip, C107_no_zip64), induction over the rows of a directory (runs_cut) |
| C128 | Named pipes and process substitutions as inputs | Model/Files with a first operation that fails (seek on a pipe) | false: C128_refuted; C128_never and C128_tool_never for every such input; C128_stdin_partial (via C125) |
| C129 | An output file is never far behind | BufWriter over a device, output sinks in any graph (Model/Writer, Model/LibGraph) | invariant of the writer (buffer never above its capacity) along everything a sink is asked to do, joined with C121's account of what is handed to the output |
| C130 | Nothing is written before 8192 bytes or the end of an input | as C129 | the writer leaves the device alone while the text fits; processing rows never logs a flush |
| C131 | Endless inputs: a run depends only on what it has read | the driver over sources of any kind: a source is asked for its next row and answers, possibly for ever and possibly depending on the state of the graph (`Model/Live`) | simulation between the driver over answering sources and the driver over lists (`Proofs/Live`), one round at a time; a source that never ends agrees with its beginnings as long as it has not been asked more often than they are long |
| C132 | No row waits for ever | as C131 | one row is processed per round; if the row were still waiting every other input could only have been processed up to a bounded place (order, C131), so the number of rounds would be bounded |
| C133 | Times in a format of the user mean what the format says | choice of format and reading (`Model/Timestamp`) over the concrete date library (`Model/Chrono`); what a text in a format is, is specified separately on the format's characters (`Spec/TimeFormat`) | induction on the derivation that the text is in the format: the parser's state after each specifier is determined by the parts shown so far |
| C134 | Impossible times in a format of the user are rejected | as C133 | as C133; refuted by `%F %R` with a first row at 24:00 |
| C135 | Only texts in the user's format are accepted, and they have one meaning | as C133; `InFormat` is exact: it also describes optional digits, white space, signs, leap seconds and the ISO specifier as the date library reads them | inversion of each scanner of the library: what an item consumed is a text of its specifier for every clock extending what has been read; then the forward direction (C133) gives the parsed state |
| C136 | Writing over an input | the driver on inputs that read the output file as it is now: fetched bytes plus what stands behind them (`Model/InPlace`) | agreement of in-place readings with the cut file (induction over the calls of the driver, `Proofs/InPlace`) while the file has not grown beyond the fetched bytes; a DC row is never written longer than it was read (`Proofs/InPlaceDc`); refutation by 1108 rows of 16 bytes |
| C137 | Standard output with its line buffer: nothing lost, doubled or reordered | `Model/Stdout`: LineWriter of the standard library below the sink's BufWriter, its single and whole writes, flush and exit; `Spec/Stdout`: a CSV run as a sequence of operations | invariant: bytes at the descriptor, in the line buffer and in the sink's buffer together are what was written; induction over the loop, the operations and the calls of the driver |
| C138 | A zip archive cut short is never read in part | openZip on file.take n; createFromInput and chopperCli with such a file | the end record found in the cut file is the original's (signature occurs once), its fields and those of zip64 records, directory and local header read from the cut file equal those read from the complete one |
| C139 | DC data that arrive only in part never yield a wrong row | byte streams with failures (Model/Dc), Previewer and buffered readers (Model/Reader, Model/Input) | the bytes of the delivered rows are a beginning of what was received (C94), and a beginning of a file has one meaning (C96) |
| C140 | Inputs that break off leave a beginning of the complete output | Model/Driver, Model/Cli, Model/Dc, Model/CsvSink | simulation of the two driver loops step by step (Proofs/Broken): as long as the broken input still delivers, both choose the same buffer; the first failure stops the shorter run. For the tool combined with C61's characterisation of the output and C139 |
| C141 | Inputs that change while the program runs | Model/Changing: the way from the command line to the opened files with a world for each look | every look decides or not; the worlds at the deciding moments are patched together; files of a directory by renaming the paths of the multi-file source; **false** for files that turn into zip archives |
| C142 | The filter-and-merge example, from its paths to standard output | Model/FilterMergeProg: the program for any two paths, columns and values, from opening the inputs to what standard output has received when the process is gone | setup gives one concrete graph; the calls of the driver (C22) performed on it are the calls of the output alone on the rows the filters let through (`ex_perform`); their order is a merge of the filtered inputs; **false** for two different inputs, since the chains are numbered from the last input (C20) |
| C143 | CSV data that arrive only in part | Model/CsvCrate and Model/Csv on Model/Reader: what the csv crate makes of a stream of bytes and failures, and what the source makes of its records | the scanner is a function of the bytes so far (`scan_append`): a part of the data gives the same complete records, followed by at most one more, or by the failure (`crate_part`; a byte order mark needs a case of its own); C98 turns common records into common rows; **false** for the last row of data cut without error (`C143_counterexample`) |
| C144 | CSV inputs whose reading fails leave a beginning of the complete output | the whole way of Model/Cli: opening (Model/Input), the csv crate (Model/CsvCrate), the source (Model/Csv), the driver, the outputs and what they have received when the process is gone | C143 gives the rows of the failing inputs, which break off in the sense of C140; C140 does the rest |
| C145 | CSV inputs broken in any way that is noticed | Model/Gzip (flate2's framing, checksums and errors), Model/Zip, Model/Input (opening), Model/CsvCrate, Model/Csv, the driver and the outputs (Model/Cli) | damaged gzip data decode to a beginning of the content with an error (C117); the opening lemmas reduce every kind to a reader that fails after a part of the content; C143 gives the rows and C140 the tool |
| C146 | CSV inputs in damaged compressed files of any format | Model/Input (opening, decompression by name and content), Model/Zst, Model/Gzip, Model/CsvCrate, Model/Csv, the driver and the outputs (Model/Cli); the other decoders only by what they deliver | opening a damaged compressed file is opening a reader that fails after a part of the content (as in C123 for intact ones); C143 gives the rows and C140 the tool; C117 for gzip and C78 for zstd |
| C147 | CSV inputs cut short without a sign of it change at most one line each, apart from what is missing | the whole way of Model/Cli: opening (Model/Input), the csv crate (Model/CsvCrate), the source (Model/Csv), the driver, and the CSV output | C143: the rows of a cut input but the last are first rows of the complete one; the merge of parts of sorted inputs is a sublist of the merge (by the rows at every single time); C61 gives both outputs |
| C148 | Zip archives whose entry cannot be unpacked, or has a wrong checksum, are read like files that fail | opening of inputs (Model/Input, Model/Zip), the checksum reader, the CSV source and the tool (Model/Cli); the decompressor is a parameter, described by the bytes it delivers and the error after them | openZip_single gives the entry's reader for any data and any end; the checksum reader is simulated by a reader with the error at its end (asInner_read, lifted to all sequences of reads); C145's proof for the rest |
| C149 | DC inputs cut short: no wrong, doubled or moved line, whatever else is read | the whole way of Model/Cli: opening (Model/Input), the DC source (Model/Dc), the driver, and both outputs | C139: the rows of a cut DC input are first rows of the complete one; the merge of parts of sorted inputs is a sublist of the merge; C61 gives both outputs; for errors, C140's comparison of the calls of both runs |

## 5. Trusted base

* Lean 4.33.0's kernel. Every theorem in `MANIFEST.json` depends at most on the axioms `propext`, `Classical.choice`, `Quot.sound` (checked with
  `Lean.collectAxioms` over all manifest theorems). No axioms are added; `native_decide` and `bv_decide` are not used; `decide +kernel`
  (evaluation by the kernel) is used in examples and for concrete counterexamples.
* The reading of the Rust sources into the model, cited line by line in the model files.
* The contracts of the standard library and external crates described in sections 2 and 3.
* No Mathlib module is imported; the project uses only Lean's own library.

## 6. Wrong-program experiments

`seeded/LOG.jsonl` holds one line per edit of the model (a realistic bug in the program): the definition, the edit, the claim it breaks, the
theorems that no longer prove (manifest theorems whose proof, directly or through lemmas, broke), and what was tightened as a consequence.
