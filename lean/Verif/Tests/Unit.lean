import Verif.Model.MultiFile
import Verif.Model.RemoveMultiple
import Verif.Model.Chrono
import Verif.Model.RustFloat
import Verif.Model.CsvUtil
import Verif.Tests.Integration

/-!
# The project's unit tests, run on the model

The `#[test]` functions inside `/repo/src`, with the model's functions in the place of the project's. Tests of the model, not proofs of properties.
-/
namespace Chopper.Tests
open Chopper Chopper.Chrono

def bytes (s : String) : List Byte := utf8Encode s.toList

/-! ## `/repo/src/util/reader.rs:290-531` -/

/-- The lines previewed with a buffer of `n` bytes. -/
def previewLines (n : Nat) (s : String) : Option (List String) :=
  match Previewer.new n ⟨bytes s, [], none⟩ with
  | .ok p => p.lines.map (·.map String.ofList)
  | _ => none

/-- All that is read through `BufRead`, after `fill_buffer`, by taking the whole buffer each time. -/
def readAll (n : Nat) (s : String) : Nat → BufReader → List Byte
  | 0, _ => []
  | k + 1, r => match r.fillBuf with
    | (.ok b, r') => if b.isEmpty then [] else b ++ readAll n s k (r'.consume b.length)
    | _ => []

def testBytes : String := "aaaaa\nbbbbb\nccccc"

-- test_capacity_too_small
#guard match (BufReader.withCapacity 5 ⟨bytes testBytes, [], none⟩).fillBuffer with
  | (.ok (), r) => r.cap == r.buf.length
  | _ => false
-- test_multiple_capacities
#guard ((List.range 14).map (· + 6)).all fun n => match (BufReader.withCapacity n ⟨bytes testBytes, [], none⟩).fillBuffer with
  | (.ok (), r) => readAll n testBytes 30 r == bytes testBytes
  | _ => false
-- test_preview_empty, test_preview_1_1 to test_preview_2_4
#guard previewLines 8192 "" == some []
#guard previewLines 8192 "\n" == some [""]
#guard previewLines 8192 "\r\n" == some [""]
#guard previewLines 8192 "zzz\n" == some ["zzz"]
#guard previewLines 8192 "zzz\r\n" == some ["zzz"]
#guard previewLines 8192 "z" == some ["z"]
#guard previewLines 8192 "zzz\n\r\n" == some ["zzz", ""]
#guard previewLines 8192 "zzz\r\nxxx" == some ["zzz", "xxx"]
#guard previewLines 8192 "zzz\nxxx\rx\n" == some ["zzz", "xxx\rx"]
#guard previewLines 8192 "zzz\r\nxxx\nyyy" == some ["zzz", "xxx", "yyy"]
-- test_preview_3_1_3 to test_preview_3_12_20
#guard [1, 2, 3].all fun n => previewLines n "zzz\nxxx\nyyy" == some []
#guard [4, 5, 6, 7].all fun n => previewLines n "zzz\nxxx\nyyy" == some ["zzz"]
#guard [8, 9, 10, 11].all fun n => previewLines n "zzz\nxxx\nyyy" == some ["zzz", "xxx"]
#guard ((List.range 9).map (· + 12)).all fun n => previewLines n "zzz\nxxx\nyyy" == some ["zzz", "xxx", "yyy"]
-- test_preview_trimmed_buf
#guard match Previewer.new 8192 ⟨bytes "zzz", [], none⟩ with
  | .ok p => p.trimmed == bytes "zzz"
  | _ => false

/-! ## `/repo/src/util/csv_util.rs:120-171` -/

def hasHeader (a b : String) : Bool := guessHasHeader rustIsF64 (some a.toList) (some b.toList) 44

#guard hasHeader "zzz" "123"
#guard !hasHeader "zzz" "zzz"
#guard !hasHeader "123" "123"
#guard hasHeader "zzz,zzz,zzz,zzz" "zzz,zzz,123,zzz"
#guard !hasHeader "zzz,zzz,123,zzz" "zzz,zzz, 123 ,zzz"
#guard hasHeader "123" "123.4"
#guard guessType rustIsF64 "zzz".toList == .string
#guard guessType rustIsF64 "123".toList == .long
#guard guessType rustIsF64 "123.4".toList == .double

/-! ## `/repo/src/util/timestamp_util.rs:94-167` -/

def element (tz : ChopperTz chrono) (s : String) : Option Nat :=
  match parseDatetimeRangeElement .panics chrono tz s.toList with
  | .ok n => some n.toNat
  | _ => none

def alwaysFails : ChopperTz chrono := none
def utcTz : ChopperTz chrono := some (TzSpans.fromLocal ⟨0, []⟩)
def nyTz : ChopperTz chrono := some newYork.fromLocal

#guard element alwaysFails "2001-07-08T00:34:60.026490+09:30" == some 994518300026490000
#guard element alwaysFails "2019-01-01T00:00:00.001000+00:00" == some 1546300800001000000
#guard element alwaysFails "2019-01-01T00:00:00.001000-05:00" == some 1546318800001000000
#guard element utcTz "2019" == some 1546300800000000000
#guard ["2019", "201901", "20190101", "20190101-00:00:00", "20190101-00:00:00.0", "20190101-00:00:00.000", "20190101-00:00:00.000000", "20190101-00:00:00.000000000"].all fun s => element nyTz s == some 1546318800000000000
#guard element nyTz "20190101-00:00:00.1" == some 1546318800100000000
#guard element nyTz "20190101-00:00:00.001" == some 1546318800001000000
#guard element nyTz "20190101-00:00:00.000001" == some 1546318800000001000
#guard element nyTz "20190101-00:00:00.000000001" == some 1546318800000000001
#guard ["630000000000000000", "630000000000000", "630000000000", "630000000"].all fun s => element alwaysFails s == some 630000000000000000

/-! ## `/repo/src/util/remove_multiple.rs:31-66` -/

#guard removeMultiple [1, 2, 3, 4, 5] [] == .ok [1, 2, 3, 4, 5]
#guard removeMultiple [1, 2, 3, 4, 5] [0, 1, 2, 3, 4] == .ok []
#guard removeMultiple [1, 2, 3, 4, 5] [0] == .ok [2, 3, 4, 5]
#guard removeMultiple [1, 2, 3, 4, 5] [4] == .ok [1, 2, 3, 4]
#guard removeMultiple [1, 2, 3, 4, 5] [0, 4] == .ok [2, 3, 4]
#guard removeMultiple [1, 2, 3, 4, 5] [1, 2, 3] == .ok [1, 5]
#guard removeMultiple [1, 2, 3, 4, 5] [2] == .ok [1, 2, 4, 5]

/-! ## `/repo/src/source/multi_file_source.rs:196-343` -/

def hdr (l : List (String × FieldType)) : Header := ⟨l.map (·.1.toList), l.map (·.2)⟩
def refHdr : Header := hdr [("f1", .boolean), ("f2", .byte), ("f3", .string), ("f4", .int), ("f5", .long)]

#guard swapMap refHdr refHdr == .ok []
#guard match swapMap refHdr (hdr [("f1", .boolean), ("f2", .byte), ("f3", .string), ("f4", .int), ("f6", .long)]) with | .err _ => true | _ => false
#guard match swapMap refHdr (hdr [("f1", .boolean), ("f3", .byte), ("f2", .string), ("f4", .int), ("f5", .long)]) with | .err _ => true | _ => false
#guard swapMap refHdr (hdr [("f1", .boolean), ("f3", .string), ("f2", .byte), ("f4", .int), ("f5", .long)]) == .ok [0, 2, 2, 3, 4]
#guard swapMap refHdr (hdr [("f1", .boolean), ("f3", .string), ("q2", .double), ("q2", .double), ("f2", .byte), ("f4", .int), ("f5", .long), ("q4", .double)]) == .ok [0, 4, 4, 5, 6]

/-! ## `/repo/src/input/files_in_dir_provider.rs:46-78` and `/repo/src/transport/dir/file.rs:36-64` -/

#guard filesInDir world.isDir (world.listing (path "./tests/input/multi_file")) ==
  .ok (["./tests/input/multi_file/1.csv", "./tests/input/multi_file/2.csv", "./tests/input/multi_file/3.csv"].map path)

end Chopper.Tests
