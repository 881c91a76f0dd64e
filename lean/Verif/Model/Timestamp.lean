import Verif.Model.CsvUtil

/-!
# Timestamps (`/repo/src/util/timestamp_util.rs`, `/repo/src/source/csv_timestamp.rs`, `/repo/src/util/tz.rs`)

The date library (`chrono`, `chrono-tz`) is a parameter.
-/
namespace Chopper

/-- What arithmetic overflow does: with overflow checks (debug builds) it panics, without (release builds) it wraps around. -/
inductive Overflow where
  | panics | wraps
deriving DecidableEq, Repr

/-- A `chrono::DateTime`, as far as used: `timestamp()` and `timestamp_subsec_nanos()`. -/
structure Instant where
  secs : Int
  nsec : Nat
deriving DecidableEq, Repr

/-- The instant in nanoseconds since 1970 UTC. -/
def Instant.ns (i : Instant) : Int := i.secs * 1000000000 + i.nsec

/-- `chrono`: parsing of texts with a format.  `Naive` is `chrono::NaiveDateTime`; dates are represented by their 00:00:00
(`NaiveDate::parse_from_str` followed by `and_hms(0, 0, 0)`, `/repo/src/source/csv_timestamp.rs:113-114`). -/
structure DateLib where
  Naive : Type
  parseTz (fmt text : Str) : Option Instant
  parseNaive (fmt text : Str) : Option Naive
  parseDate (fmt text : Str) : Option Naive

/-- `ChopperTz` (`/repo/src/util/tz.rs:10-13`): none, or a time zone, given by its `from_local_datetime`, where `none` stands for
`LocalResult::None` and `LocalResult::Ambiguous`. -/
abbrev ChopperTz (lib : DateLib) := Option (lib.Naive → Option Instant)

/-- `ChopperTz::from_local_datetime` (`/repo/src/util/tz.rs:50-65`). -/
def fromLocalDatetime {lib : DateLib} (tz : ChopperTz lib) (x : lib.Naive) : Res Instant :=
  match tz with
  | none => .err (.custom "Timezone is needed to parse a date/time value")
  | some f =>
    match f x with
    | none => .err (.custom "Converting in timezone to timestamp failed.")
    | some i => .ok i

/-- Does the number fit `i64`? -/
def fitsI64 (x : Int) : Bool := decide (- 2 ^ 63 ≤ x ∧ x < 2 ^ 63)

/-- `DateTime::timestamp_nanos() as u64`: `timestamp() * 1_000_000_000 + nanos` in `i64`, then reinterpreted
(used in `/repo/src/util/timestamp_util.rs:77,84` and `/repo/src/source/csv_timestamp.rs:104,110,117`). -/
def timestampNanos (ov : Overflow) (i : Instant) : Res Nanos :=
  match ov with
  | .wraps => .ok (BitVec.ofInt 64 i.ns)
  | .panics => if fitsI64 (i.secs * 1000000000) && fitsI64 i.ns then .ok (BitVec.ofInt 64 i.ns) else .panic

/-- Multiplication of `u64`. -/
def mulU64 (ov : Overflow) (a : Nanos) (k : Nat) : Res Nanos :=
  match ov with
  | .wraps => .ok (a * BitVec.ofNat 64 k)
  | .panics => if a.toNat * k < 2 ^ 64 then .ok (a * BitVec.ofNat 64 k) else .panic

/-- `TimestampUnits` (`/repo/src/source/csv_timestamp.rs:28-34`). -/
inductive TimestampUnits where
  | seconds | millis | micros | nanos
deriving DecidableEq, Repr

/-- `TIMESTAMP_UNITS` (`/repo/src/source/csv_timestamp.rs:57-62`). -/
def timestampUnits : List (TimestampUnits × Str) :=
  [(.seconds, ['s', 'e', 'c', 'o', 'n', 'd', 's']), (.millis, ['m', 'i', 'l', 'l', 'i', 's']),
   (.micros, ['m', 'i', 'c', 'r', 'o', 's']), (.nanos, ['n', 'a', 'n', 'o', 's'])]

/-- `RANGE_NANOS` (`/repo/src/source/csv_timestamp.rs:65`), membership. -/
def inRangeNanos (n : Nanos) : Bool := decide (630000000000000000 ≤ n.toNat ∧ n.toNat < 2000000000000000000)
/-- `RANGE_MICROS` (`/repo/src/source/csv_timestamp.rs:66`). -/
def inRangeMicros (n : Nanos) : Bool := decide (630000000000000 ≤ n.toNat ∧ n.toNat < 2000000000000000)
/-- `RANGE_MILLIS` (`/repo/src/source/csv_timestamp.rs:67`). -/
def inRangeMillis (n : Nanos) : Bool := decide (630000000000 ≤ n.toNat ∧ n.toNat < 2000000000000)
/-- `RANGE_SECONDS` (`/repo/src/source/csv_timestamp.rs:68`). -/
def inRangeSeconds (n : Nanos) : Bool := decide (630000000 ≤ n.toNat ∧ n.toNat < 2000000000)

/-! ## Begin/end values -/

/-- `DATETIME_RANGE_FORMATS_WITH_TZ` (`/repo/src/util/timestamp_util.rs:13`) and `TIME_FORMATS_WITH_TZ`
(`/repo/src/source/csv_timestamp.rs:11`). -/
def fmtIso : Str := ['%', '+']

/-- `create_datetime_range_formats` (`/repo/src/util/timestamp_util.rs:19-35`). -/
def rangeFormats : List Str :=
  [['%', 'Y', '%', 'm', '%', 'd'], ['%', 'Y', '/', '%', 'm', '/', '%', 'd'], ['%', 'Y', '-', '%', 'm', '-', '%', 'd']].flatMap fun df =>
    [[' '], ['-'], ['T']].flatMap fun d =>
      [['%', 'H', ':', '%', 'M', ':', '%', 'S'], ['%', 'H', '%', 'M', '%', 'S']].flatMap fun tf =>
        [[], ['%', '.', 'f']].map fun f => df ++ d ++ tf ++ f

/-- `DEFAULT_MONTH`, `DEFAULT_DAY` (`/repo/src/util/timestamp_util.rs:8-9`). -/
def str01 : Str := ['0', '1']
/-- `DEFAULT_TIME` (`/repo/src/util/timestamp_util.rs:10`). -/
def strMidnight : Str := ['0', '0', ':', '0', '0', ':', '0', '0']

/-- The auto-completion of `YYYY`, `YYYYMM`, `YYYYMMDD` (`/repo/src/util/timestamp_util.rs:57-72`). -/
def autocomplete (allDigits : Bool) (s : Str) : Str :=
  if allDigits then
    if utf8Len s = 4 then s ++ str01 ++ str01 ++ ['-'] ++ strMidnight
    else if utf8Len s = 6 then s ++ str01 ++ ['-'] ++ strMidnight
    else if utf8Len s = 8 then s ++ ['-'] ++ strMidnight
    else s
  else s

/-- The loop over the formats that need a time zone (`/repo/src/util/timestamp_util.rs:81-91`). -/
def tryRangeFormats (ov : Overflow) (lib : DateLib) (tz : ChopperTz lib) (s : Str) : List Str → Res Nanos
  | [] => .err (.custom "Cannot parse either begin or end datetime provided")
  | f :: fs =>
    match lib.parseNaive f s with
    | some ndt => (fromLocalDatetime tz ndt).bind (timestampNanos ov)
    | none => tryRangeFormats ov lib tz s fs

/-- The date-time part of `parse_datetime_range_element` (`/repo/src/util/timestamp_util.rs:56-92`). -/
def parseRangeDatetime (ov : Overflow) (lib : DateLib) (tz : ChopperTz lib) (allDigits : Bool) (s : Str) : Res Nanos :=
  let t := autocomplete allDigits s
  match lib.parseTz fmtIso t with
  | some dt => timestampNanos ov dt
  | none => tryRangeFormats ov lib tz t rangeFormats

/-- `parse_datetime_range_element` (`/repo/src/util/timestamp_util.rs:37-92`). -/
def parseDatetimeRangeElement (ov : Overflow) (lib : DateLib) (tz : ChopperTz lib) (s : Str) : Res Nanos :=
  if s.all isDigit then
    match parseU64 s with
    | none => .err (.custom "ParseIntError")
    | some n =>
      if inRangeNanos n then .ok n
      else if inRangeMicros n then mulU64 ov n 1000
      else if inRangeMillis n then mulU64 ov n 1000000
      else if inRangeSeconds n then mulU64 ov n 1000000000
      else parseRangeDatetime ov lib tz true s
  else parseRangeDatetime ov lib tz false s

/-! ## The timestamp column of CSV inputs -/

/-- `TimestampCol` (`/repo/src/source/csv_timestamp.rs:70-73`). -/
inductive TimestampCol where
  | index (i : Nat)
  | dateTimeIndex (d t : Nat)
deriving DecidableEq, Repr

/-- `TimestampFmt` (`/repo/src/source/csv_timestamp.rs:75-80`). -/
inductive TimestampFmt where
  | units (u : TimestampUnits)
  | dateTimeIncludesTz (f : Str)
  | dateTimeNeedsExternalTz (f : Str)
  | dateNeedsExternalTz (f : Str)
deriving DecidableEq, Repr

/-- `TimestampColConfig` (`/repo/src/source/csv_configs.rs:21-28`). -/
inductive TimestampColConfig where
  | auto
  | index (i : Nat)
  | dateTimeIndex (d t : Nat)
  | name (n : Str)
  | dateTimeName (d t : Str)
deriving DecidableEq, Repr

/-- `TimestampFmtConfig` (`/repo/src/source/csv_configs.rs:13-19`). -/
inductive TimestampFmtConfig where
  | auto
  | epoch (u : TimestampUnits)
  | explicit (f : Str)
  | dateTimeExplicit (d t : Str)
deriving DecidableEq, Repr

/-- `get_timestamp_string` (`/repo/src/source/csv_timestamp.rs:175-188`); a record is its list of fields. -/
def getTimestampString (record : List Str) : TimestampCol → Res Str
  | .index i => Res.unwrap record[i]?
  | .dateTimeIndex d t =>
    (Res.unwrap record[d]?).bind fun date => (Res.unwrap record[t]?).bind fun time => .ok (date ++ '#' :: time)

/-- The unit multiplication of `get_timestamp` (`/repo/src/source/csv_timestamp.rs:96-101`). -/
def scaleUnits (ov : Overflow) (u : TimestampUnits) (n : Nanos) : Res Nanos :=
  match u with
  | .seconds => mulU64 ov n 1000000000
  | .millis => mulU64 ov n 1000000
  | .micros => mulU64 ov n 1000
  | .nanos => .ok n

/-- The conversion in `get_timestamp` (`/repo/src/source/csv_timestamp.rs:90-119`). -/
def convertTimestamp (ov : Overflow) (lib : DateLib) (tz : ChopperTz lib) (fmt : TimestampFmt) (text : Str) : Res Nanos :=
  match fmt with
  | .units u =>
    match parseU64 text with
    | none => .err (.custom "ParseIntError")
    | some n => scaleUnits ov u n
  | .dateTimeIncludesTz f => (Res.okOr .timeParsing (lib.parseTz f text)).bind (timestampNanos ov)
  | .dateTimeNeedsExternalTz f =>
    (Res.okOr .timeParsing (lib.parseNaive f text)).bind fun x => (fromLocalDatetime tz x).bind (timestampNanos ov)
  | .dateNeedsExternalTz f =>
    (Res.okOr .timeParsing (lib.parseDate f text)).bind fun x => (fromLocalDatetime tz x).bind (timestampNanos ov)

/-- `get_timestamp` (`/repo/src/source/csv_timestamp.rs:82-121`). -/
def getTimestamp (ov : Overflow) (lib : DateLib) (tz : ChopperTz lib) (record : List Str) (col : TimestampCol) (fmt : TimestampFmt) : Res Nanos :=
  (getTimestampString record col).bind (convertTimestamp ov lib tz fmt)

/-- `str::rsplitn(2, pat)`: prefix and suffix around the last occurrence of the pattern, if there is one. -/
def lastSplit (pat : Str) : Str → Option (Str × Str)
  | [] => none
  | c :: cs =>
    match lastSplit pat cs with
    | some (p, s) => some (c :: p, s)
    | none => if pat.isPrefixOf (c :: cs) then some ([], (c :: cs).drop pat.length) else none

/-- The six accumulators of automatic column selection (`/repo/src/source/csv_timestamp.rs:196-202`). -/
structure ColScan where
  timeWithUnits : Option (Nat × TimestampUnits) := none
  date : Option Nat := none
  time : Option Nat := none
  prefixedTimeWithUnits : Option (Str × Nat × TimestampUnits) := none
  prefixedDate : Option (Str × Nat) := none
  prefixedTime : Option (Str × Nat) := none
deriving DecidableEq, Repr

def strTime : Str := ['t', 'i', 'm', 'e']
def strDate : Str := ['d', 'a', 't', 'e']

/-- The unit with exactly this name (the loop at `/repo/src/source/csv_timestamp.rs:216-221`). -/
def unitNamed (s : Str) : Option TimestampUnits := (timestampUnits.find? (fun p => p.2 == s)).map (·.1)

/-- One iteration of the loop over the lower-cased names (`/repo/src/source/csv_timestamp.rs:204-244`). -/
def colStep (st : ColScan) (i : Nat) (name : Str) : ColScan :=
  if name = strTime then { st with time := some i }
  else if name = strDate then { st with date := some i }
  else if strTime.isPrefixOf name then
    match unitNamed (name.drop 4) with
    | some u => { st with timeWithUnits := some (i, u) }
    | none => st
  else if strDate.isSuffixOf name then { st with prefixedDate := some (name.take (name.length - 4), i) }
  else if strTime.isSuffixOf name then { st with prefixedTime := some (name.take (name.length - 4), i) }
  else
    match lastSplit strTime name with
    | none => st
    | some (p, suffix) =>
      match unitNamed suffix with
      | some u => { st with prefixedTimeWithUnits := some (p, i, u) }
      | none => st

/-- The loop in reverse order, the names having indices from `i` on. -/
def colScan (i : Nat) : List Str → ColScan
  | [] => {}
  | n :: ns => colStep (colScan (i + 1) ns) i n

/-- The decision of automatic column selection (`/repo/src/source/csv_timestamp.rs:246-273`). -/
def colDecide (st : ColScan) : TimestampCol × Option TimestampUnits :=
  match st.timeWithUnits with
  | some (i, u) => (.index i, some u)
  | none =>
    match st.date with
    | some d =>
      match st.time with
      | none => (.index d, none)
      | some t => (.dateTimeIndex d t, none)
    | none =>
      match st.time with
      | some i => (.index i, none)
      | none =>
        match st.prefixedTimeWithUnits with
        | some (_, i, u) => (.index i, some u)
        | none =>
          match st.prefixedDate with
          | some (dp, d) =>
            match st.prefixedTime with
            | none => (.index d, none)
            | some (tp, t) => if dp = tp then (.dateTimeIndex d t, none) else (.index d, none)
          | none =>
            match st.prefixedTime with
            | some (_, i) => (.index i, none)
            | none => (.index 0, none)

/-- First unit whose name ends the given name (`/repo/src/source/csv_timestamp.rs:277-284,292-298`). -/
def unitSuffixOf (name : Str) : Option TimestampUnits := (timestampUnits.find? (fun p => p.2.isSuffixOf name)).map (·.1)

/-- `Header::get_field_index` (`/repo/src/chopper/types.rs:82-91`). -/
def getFieldIndex (names : List Str) (name : Str) : Res Nat :=
  Res.okOr (.custom "Failed to find column named") (names.findIdx? (fun s => s == name))

/-- `get_timestamp_col` (`/repo/src/source/csv_timestamp.rs:190-307`); `lower` stands for `str::to_lowercase`. -/
def getTimestampCol (lower : Str → Str) (names : List Str) : TimestampColConfig → Res (TimestampCol × Option TimestampUnits)
  | .auto => .ok (colDecide (colScan 0 (names.map lower)))
  | .index i => .ok (.index i, names[i]?.bind unitSuffixOf)
  | .dateTimeIndex d t => .ok (.dateTimeIndex d t, none)
  | .name n => (getFieldIndex names n).bind fun i => .ok (.index i, unitSuffixOf n)
  | .dateTimeName d t => (getFieldIndex names d).bind fun i => (getFieldIndex names t).bind fun j => .ok (.dateTimeIndex i j, none)

/-- `TIME_FORMATS_WITHOUT_TZ` (`/repo/src/source/csv_timestamp.rs:12-17`). -/
def timeFormats : List Str :=
  ["%Y%m%d.%H%M%S".toList, "%Y%m%d %H%M%S".toList, "%Y%m%d %H:%M:%S".toList, "%Y/%m/%d-%H:%M:%S".toList]

/-- `DATETIME_FORMATS_WITHOUT_TZ` (`/repo/src/source/csv_timestamp.rs:20-25`). -/
def dateTimeFormats : List Str :=
  ["%Y%m%d#%H%M%S%3f".toList, "%Y%m%d#%H%M%S".toList, "%Y%m%d#%H:%M:%S".toList, "%Y%m%d#%-H:%M".toList]

/-- `DATE_FORMATS_WITHOUT_TZ` (`/repo/src/source/csv_timestamp.rs:26`). -/
def fmtDate : Str := ['%', 'Y', '%', 'm', '%', 'd']

/-- A loop over formats that need a time zone (`/repo/src/source/csv_timestamp.rs:343-349,399-405`): `none` if no format matches. -/
def tryNaiveFormats (lib : DateLib) (tz : ChopperTz lib) (text : Str) : List Str → Option (Res TimestampFmt)
  | [] => none
  | f :: fs =>
    match lib.parseNaive f text with
    | some x => some ((fromLocalDatetime tz x).bind fun _ => .ok (.dateTimeNeedsExternalTz f))
    | none => tryNaiveFormats lib tz text fs

/-- The window detection of `get_timestamp_fmt_auto_with_index` (`/repo/src/source/csv_timestamp.rs:360-382`). -/
def detectUnits (text : Str) : Res TimestampFmt :=
  if text.all isDigit then
    match parseU64 text with
    | none => .err (.custom "ParseIntError")
    | some n =>
      if inRangeNanos n then .ok (.units .nanos)
      else if inRangeMicros n then .ok (.units .micros)
      else if inRangeMillis n then .ok (.units .millis)
      else if inRangeSeconds n then .ok (.units .seconds)
      else .err (.custom "Cannot parse timestamp. Please provide format for parsing.")
  else .err (.custom "Cannot parse timestamp. Please provide format for parsing.")

/-- `get_timestamp_fmt_auto_with_index` (`/repo/src/source/csv_timestamp.rs:325-382`), after the text was fetched and without unit hint. -/
def detectFmt (lib : DateLib) (tz : ChopperTz lib) (text : Str) : Res TimestampFmt :=
  if (lib.parseTz fmtIso text).isSome then .ok (.dateTimeIncludesTz fmtIso)
  else match tryNaiveFormats lib tz text timeFormats with
    | some r => r
    | none =>
      match lib.parseDate fmtDate text with
      | some x => (fromLocalDatetime tz x).bind fun _ => .ok (.dateNeedsExternalTz fmtDate)
      | none => detectUnits text

/-- `get_timestamp_fmt_auto` and its two helpers (`/repo/src/source/csv_timestamp.rs:309-410`). -/
def getTimestampFmtAuto (lib : DateLib) (tz : ChopperTz lib) (firstRow : List Str) (hint : Option TimestampUnits) : TimestampCol → Res TimestampFmt
  | .index t =>
    match hint with
    | some u => .ok (.units u)
    | none => (Res.unwrap firstRow[t]?).bind (detectFmt lib tz)
  | .dateTimeIndex d t =>
    (Res.unwrap firstRow[d]?).bind fun date => (Res.unwrap firstRow[t]?).bind fun time =>
      (tryNaiveFormats lib tz (date ++ '#' :: time) dateTimeFormats).getD (.err (.custom "Cannot parse timestamp. Please provide format for parsing."))

/-- `get_timestamp_fmt_from_user_spec` (`/repo/src/source/csv_timestamp.rs:149-173`). -/
def getTimestampFmtFromUserSpec (lib : DateLib) (tz : ChopperTz lib) (firstRow : List Str) (col : TimestampCol) (f : Str) : Res TimestampFmt :=
  (getTimestampString firstRow col).bind fun text =>
    if (lib.parseTz f text).isSome then .ok (.dateTimeIncludesTz f)
    else match lib.parseNaive f text with
      | some x => (fromLocalDatetime tz x).bind fun _ => .ok (.dateTimeNeedsExternalTz f)
      | none =>
        match lib.parseDate f text with
        | some x => (fromLocalDatetime tz x).bind fun _ => .ok (.dateNeedsExternalTz f)
        | none => .err (.custom "Cannot figure out if timestamp format requires timezone or not")

/-- `get_timestamp_col_and_fmt` (`/repo/src/source/csv_timestamp.rs:123-147`). -/
def getTimestampColAndFmt (lower : Str → Str) (lib : DateLib) (tz : ChopperTz lib) (names : List Str) (firstRow : List Str)
    (colCfg : TimestampColConfig) (fmtCfg : TimestampFmtConfig) : Res (TimestampCol × TimestampFmt) :=
  (getTimestampCol lower names colCfg).bind fun (col, hint) =>
    (match fmtCfg with
      | .auto => getTimestampFmtAuto lib tz firstRow hint col
      | .epoch u => .ok (.units u)
      | .explicit f => getTimestampFmtFromUserSpec lib tz firstRow col f
      | .dateTimeExplicit d t => getTimestampFmtFromUserSpec lib tz firstRow col (d ++ '#' :: t)).bind fun fmt =>
    .ok (col, fmt)

/-! ## Output -/

/-- Epoch printing in the CSV sink (`/repo/src/write/csv_sink.rs:71-79`). -/
def epochText (u : TimestampUnits) (ts : Nanos) : Str :=
  natToStr (match u with
    | .seconds => ts / 1000000000
    | .millis => ts / 1000000
    | .micros => ts / 1000
    | .nanos => ts).toNat

/-- `ChopperTz::timestamp` up to the time zone database (`/repo/src/util/tz.rs:76-78`): seconds as `i64` and nanoseconds as `u32`. -/
def splitTimestamp (ns : Nanos) : Int × Nat := (BitVec.toInt (ns / 1000000000), ((ns % 1000000000).setWidth 32).toNat)

end Chopper
