/-- `/repo/tests/test_timestamp.rs (first)` -/
def t1 := run (openAll (.index 1) (.explicit "%Y/%m/%d-%H:%M:%S".toList) [city]) [[output]] .all
/-- `/repo/tests/test_timestamp.rs (second)` -/
def t2 := run (openAll (.dateTimeIndex 0 2) (.dateTimeExplicit "%Y%m%d".toList "%-H:%M".toList) [city]) [[output]] .all
/-- `/repo/tests/test_merge.rs` -/
def t3 := run (openAll dateTime .auto [city, city]) [[.merge 2], [.merge 2], [.mergeSink none 2, output]] .all
/-- `/repo/tests/test_decompress.rs` -/
def t4 := run (openAll dateTime .auto ["./tests/input/time_city.csv.gz"]) [[output]] .all
/-- `/repo/tests/test_multi_file.rs` -/
def t5 := run (openAll .auto .auto ["./tests/input/multi_file"]) [[output]] .all
/-- `/repo/tests/test_multi_row_output.rs` -/
def t6 := run (openAll dateTime .auto [city]) [[.sink fun h => .ok (.triple, h), output]] .all
/-- `/repo/tests/test_filters.rs` -/
def t7 := (parseDatetimeRangeElement .panics chrono (some newYork.fromLocal) "2018".toList).bind fun b =>
  run (openAll dateTime .auto [city]) [[node (equalHeader "String".toList (.string "New York".toList)), node (greaterHeader "Double".toList (.string "10.0".toList)), node (deleteHeader "Char".toList), output]] ⟨some b, none⟩
/-- `/repo/tests/test_split_merge_simple.rs` -/
def t8 := run (openAll dateTime .auto [city]) [[.splitSink [1, 2] 2], [.merge 3], [.merge 3], [.mergeSink none 2, output]] .all
/-- `/repo/tests/test_split_merge_complex.rs` -/
def t9 := run (openAll dateTime .auto [city]) [[.splitSink [1, 2] 2], [.splitSink [3, 4] 2], [.splitSink [5, 6] 2, output], [output], [.merge 7, output], [output], [.merge 7], [.mergeSink none 2, output]] .all
/-- The files written are the reference files. -/
def ok (r : Res (List (List Byte))) (e : List String) : Bool := r == .ok (e.map fun s => utf8Encode s.toList)
#guard ok t1 [refTimestamp1]
#guard ok t2 [refTimestamp2]
#guard ok t3 [refMerge]
#guard ok t4 [refDecompress]
#guard ok t5 [refMultiFile]
#guard ok t6 [refMultiRow]
#guard ok t7 [refFilters]
#guard ok t8 [refSplitMerge]
#guard ok t9 [refComplex2, refComplex3, refComplex4, refComplex5, refComplex7]
end Chopper.Tests
