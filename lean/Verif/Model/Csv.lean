import Verif.Model.Dc

/-!
# CSV source and sink (`/repo/src/source/csv_source.rs`, `/repo/src/source/csv_configs.rs`, `/repo/src/write/csv_sink.rs`)

The `csv` crate (quoting, trimming, decoding), the float printer `dtoa`, and the rendering of dates by `chrono` are parameters.
-/
namespace Chopper

/-! ## Source -/

/-- What the `csv` crate makes of an input: the header record (used only with `has_headers`), and the answers of the successive
`records().next()` calls up to the first `None`. -/
structure CsvData where
  headers : Res (List Str)
  records : List (Res (List Str))
deriving DecidableEq, Repr

/-- `csv::ReaderBuilder::new().delimiter(d).has_headers(h).trim(All).flexible(true).from_reader(r)` (`/repo/src/source/csv_source.rs:55-60`). -/
structure CsvLib where
  parse (delimiter : Byte) (hasHeaders : Bool) (reader : BufReader) : CsvData

/-- `YesNoAuto` (`/repo/src/cli/util.rs`). -/
inductive YesNoAuto where
  | yes | no | auto
deriving DecidableEq, Repr

/-- `CSVInputConfig` with its `TimestampConfig` (`/repo/src/source/csv_configs.rs:36-41,69-74`). -/
structure CsvInputConfig (lib : DateLib) where
  delimiter : Option Byte
  hasHeader : YesNoAuto
  tsCol : TimestampColConfig
  tsFmt : TimestampFmtConfig
  tz : ChopperTz lib

/-- `CSVInputConfig::new` (`/repo/src/source/csv_configs.rs:77-91`). -/
def CsvInputConfig.new {lib : DateLib} (delimiter : Option Str) (hasHeader : YesNoAuto) (tsCol : TimestampColConfig)
    (tsFmt : TimestampFmtConfig) (tz : ChopperTz lib) : Res (CsvInputConfig lib) :=
  match delimiter with
  | none => .ok ⟨none, hasHeader, tsCol, tsFmt, tz⟩
  | some x => (parseIntoDelimiter x).bind fun d => .ok ⟨some d, hasHeader, tsCol, tsFmt, tz⟩

/-- Everything outside the code that the CSV source uses. -/
structure CsvEnv where
  ov : Overflow
  lib : DateLib
  csv : CsvLib
  isF64 : Str → Bool
  lower : Str → Str

/-- `CSVSource` (`/repo/src/source/csv_source.rs:17-25`); `records` are the answers the reader has not given yet. -/
structure CsvSource where
  records : List (Res (List Str))
  header : Header
  tsCol : TimestampCol
  tsFmt : TimestampFmt
  row : Row
  hasNext : Bool
deriving DecidableEq, Repr

/-- `DELIMITERS` (`/repo/src/source/csv_source.rs:15`). -/
def csvDelimiters : List Byte := [44, 9, 32]

/-- The choice of the delimiter (`/repo/src/source/csv_source.rs:37-45`). -/
def csvDelimiter (configured : Option Byte) (line1 : Option Str) : Res Byte :=
  match configured with
  | some d => .ok d
  | none =>
    match line1 with
    | some l => guessDelimiter l csvDelimiters
    | none => .ok 44

/-- The decision about the header line (`/repo/src/source/csv_source.rs:47-51`). -/
def csvHasHeader (isF64 : Str → Bool) (configured : YesNoAuto) (line1 line2 : Option Str) (d : Byte) : Bool :=
  match configured with
  | .yes => true
  | .no => false
  | .auto => guessHasHeader isF64 line1 line2 d

/-- The assignments of `update_row` (`/repo/src/source/csv_source.rs:117-120`): indexing beyond the row panics. -/
def setValues : List FieldValue → List Str → Res (List FieldValue)
  | vs, [] => .ok vs
  | [], _ :: _ => .panic
  | _ :: vs, s :: ss => (setValues vs ss).bind fun vs' => .ok (.string s :: vs')

/-- `update_row` (`/repo/src/source/csv_source.rs:116-129`): the result and the row afterwards (if the timestamp cannot be read the values
are already changed; the partial assignments before a panic are left out). -/
def updateRow (env : CsvEnv) (tz : ChopperTz env.lib) (col : TimestampCol) (fmt : TimestampFmt) (row : Row) (record : List Str) : Res Unit × Row :=
  match setValues row.values record with
  | .ok vs =>
    match getTimestamp env.ov env.lib tz record col fmt with
    | .ok ts => (.ok (), ⟨ts, vs⟩)
    | .err e => (.err e, ⟨row.timestamp, vs⟩)
    | .panic => (.panic, ⟨row.timestamp, vs⟩)
    | .diverge => (.diverge, ⟨row.timestamp, vs⟩)
  | .err e => (.err e, row)
  | .panic => (.panic, row)
  | .diverge => (.diverge, row)

/-- The field names (`/repo/src/source/csv_source.rs:66-78`). -/
def csvNames (hasHeaders : Bool) (headers : Res (List Str)) (fieldCount : Nat) : Res (List Str) :=
  if hasHeaders then headers else .ok ((List.range fieldCount).map defaultName)

/-- `CSVSource::new` after the reader is set up (`/repo/src/source/csv_source.rs:62-113`). -/
def csvStart (env : CsvEnv) (cfg : CsvInputConfig env.lib) (hasHeaders : Bool) (data : CsvData) : Res CsvSource :=
  match data.records with
  | [] => .panic                                               -- `next().unwrap()`
  | first :: rest =>
    first.bind fun firstRow =>
    (csvNames hasHeaders data.headers firstRow.length).bind fun names =>
    (getTimestampColAndFmt env.lower env.lib cfg.tz names firstRow cfg.tsCol cfg.tsFmt).bind fun (col, fmt) =>
    let (res, row) := updateRow env cfg.tz col fmt ⟨0, List.replicate firstRow.length .none⟩ firstRow
    res.bind fun _ => .ok ⟨rest, ⟨names, List.replicate firstRow.length .string⟩, col, fmt, row, true⟩

/-- `CSVSource::new` (`/repo/src/source/csv_source.rs:28-114`). -/
def csvOpen (env : CsvEnv) (cfg : CsvInputConfig env.lib) (p : Previewer) : Res CsvSource :=
  let line1 := p.lines.bind (·[0]?)
  let line2 := p.lines.bind (·[1]?)
  (csvDelimiter cfg.delimiter line1).bind fun d =>
    let hh := csvHasHeader env.isF64 cfg.hasHeader line1 line2 d
    csvStart env cfg hh (env.csv.parse d hh p.reader)

/-- `CSVSource::next_row` (`/repo/src/source/csv_source.rs:131-142`). -/
def CsvSource.nextRow (env : CsvEnv) (tz : ChopperTz env.lib) (src : CsvSource) : Res (Option Row) × CsvSource :=
  if !src.hasNext then (.ok none, src)
  else
    match src.records with
    | [] => (.ok (some src.row), { src with hasNext := false })
    | .ok record :: rest =>
      match updateRow env tz src.tsCol src.tsFmt src.row record with
      | (.ok (), row) => (.ok (some src.row), { src with records := rest, row := row })
      | (.err e, row) => (.err e, { src with records := rest, row := row })
      | (.panic, row) => (.panic, { src with records := rest, row := row })
      | (.diverge, row) => (.diverge, { src with records := rest, row := row })
    | .err e :: rest => (.err e, { src with records := rest })
    | .panic :: rest => (.panic, { src with records := rest })
    | .diverge :: rest => (.diverge, { src with records := rest })

/-! ## Sink -/

/-- `TimestampStyle` (`/repo/src/source/csv_configs.rs:30-34`). -/
inductive TimestampStyle where
  | epoch | humanReadable
deriving DecidableEq, Repr

/-- What the sink uses from outside: `dtoa::write` for the two float types. -/
structure FloatFmt where
  f64 : BitVec 64 → Str
  f32 : BitVec 32 → Str

/-- `CSVOutputConfig` (`/repo/src/source/csv_configs.rs:106-114`).  The time zone is given by what it makes of seconds and nanoseconds since
1970 and a format: `timezone.timestamp(secs, nsecs).format(fmt).to_string()`. -/
structure CsvOutputConfig where
  delimiter : Str
  printTimeCol : Bool
  timeColName : Str
  style : TimestampStyle
  units : TimestampUnits
  zone : Option (Int → Nat → Str → Str)

/-- `TimestampUnits::to_suffix_str` (`/repo/src/source/csv_timestamp.rs:47-54`). -/
def unitSuffix : TimestampUnits → Str
  | .seconds => ['S', 'e', 'c', 'o', 'n', 'd', 's']
  | .millis => ['M', 'i', 'l', 'l', 'i', 's']
  | .micros => ['M', 'i', 'c', 'r', 'o', 's']
  | .nanos => ['N', 'a', 'n', 'o', 's']

/-- `CSVOutputConfig::new` (`/repo/src/source/csv_configs.rs:117-145`). -/
def CsvOutputConfig.new (delimiter : Str) (printTimeCol : Bool) (timeColName : Option Str) (style : TimestampStyle) (units : TimestampUnits)
    (zone : Option (Int → Nat → Str → Str)) : CsvOutputConfig :=
  ⟨delimiter, printTimeCol,
   match timeColName with
   | some n => n
   | none =>
     match style with
     | .epoch => ['t', 'i', 'm', 'e', 's', 't', 'a', 'm', 'p'] ++ unitSuffix units
     | .humanReadable => ['t', 'i', 'm', 'e'],
   style, units, zone⟩

/-- The loop over the names (`/repo/src/write/csv_sink.rs:44-51`). -/
def csvHeaderNames (first : Bool) : List Str → Str
  | [] => []
  | n :: ns => if first then n ++ csvHeaderNames false ns else ',' :: n ++ csvHeaderNames false ns

/-- `write_csv_header` (`/repo/src/write/csv_sink.rs:36-54`): the text written. -/
def csvHeaderText (cfg : CsvOutputConfig) (names : List Str) : Str :=
  (if cfg.printTimeCol then cfg.timeColName ++ [','] else []) ++ csvHeaderNames true names ++ ['\n']

/-- The formats of human readable times (`/repo/src/write/csv_sink.rs:81-86`). -/
def humanFormat : TimestampUnits → Str
  | .seconds => "%Y-%m-%dT%H:%M:%S%:z".toList
  | .millis => "%Y-%m-%dT%H:%M:%S%.3f%:z".toList
  | .micros => "%Y-%m-%dT%H:%M:%S%.6f%:z".toList
  | .nanos => "%Y-%m-%dT%H:%M:%S%.9f%:z".toList

/-- The text of the time column (`/repo/src/write/csv_sink.rs:70-90`) with `ChopperTz::timestamp` (`/repo/src/util/tz.rs:67-81`). -/
def timeText (cfg : CsvOutputConfig) (ts : Nanos) : Res Str :=
  match cfg.style with
  | .epoch => .ok (epochText cfg.units ts)
  | .humanReadable =>
    match cfg.zone with
    | none => .err (.custom "Timezone is needed to convert timestamp to a human-readable time for output.")
    | some z => .ok (z (splitTimestamp ts).1 (splitTimestamp ts).2 (humanFormat cfg.units))

/-- The text of a value (`/repo/src/write/csv_sink.rs:104-128`). -/
def valueText (ff : FloatFmt) : FieldValue → Res Str
  | .boolean _ => .err (.custom "CSVSink -- boolean field type is not supported")
  | .byte x => .ok (natToStr x.toNat)
  | .byteBuf _ => .err (.custom "CSVSink -- ByteBuffer field type is not supported")
  | .char x => .ok (natToStr x.toNat)
  | .double x => .ok (ff.f64 x)
  | .float x => .ok (ff.f32 x)
  | .int x => .ok (intToStr x.toInt)
  | .long x => .ok (intToStr x.toInt)
  | .short x => .ok (intToStr x.toInt)
  | .string s => .ok s
  | .none => .ok []

/-- The loop over the values (`/repo/src/write/csv_sink.rs:97-129`): the text written and the result. -/
def csvValues (ff : FloatFmt) (delimiter : Str) (first : Bool) : List FieldValue → Str × Res Unit
  | [] => ([], .ok ())
  | v :: vs =>
    let pre := if first then [] else delimiter
    match valueText ff v with
    | .ok t => let (out, res) := csvValues ff delimiter false vs; (pre ++ t ++ out, res)
    | .err e => (pre, .err e)
    | .panic => (pre, .panic)
    | .diverge => (pre, .diverge)

/-- `CSVSink::write_row` (`/repo/src/write/csv_sink.rs:65-132`) on the first row of `io_rows`: the text written and the result. -/
def csvRowText (ff : FloatFmt) (cfg : CsvOutputConfig) (row : Row) : Str × Res Unit :=
  let finish (pre : Str) (first : Bool) : Str × Res Unit :=
    match csvValues ff cfg.delimiter first row.values with
    | (out, .ok ()) => (pre ++ out ++ ['\n'], .ok ())
    | (out, res) => (pre ++ out, res)
  if cfg.printTimeCol then
    match timeText cfg row.timestamp with
    | .ok t => finish t false
    | .err e => ([], .err e)
    | .panic => ([], .panic)
    | .diverge => ([], .diverge)
  else finish [] true

/-- Rows written one after the other by the driver. -/
def csvRowsText (ff : FloatFmt) (cfg : CsvOutputConfig) : List Row → Str × Res Unit
  | [] => ([], .ok ())
  | r :: rs =>
    match csvRowText ff cfg r with
    | (out, .ok ()) => let (outs, res) := csvRowsText ff cfg rs; (out ++ outs, res)
    | (out, res) => (out, res)

/-- A whole CSV file: header line, then rows. -/
def csvFile (ff : FloatFmt) (cfg : CsvOutputConfig) (h : Header) (rows : List Row) : Str × Res Unit :=
  let (out, res) := csvRowsText ff cfg rows
  (csvHeaderText cfg h.names ++ out, res)

end Chopper
