import Verif.Spec.Csv
import Verif.Spec.Timestamp
import Verif.Model.Driver

/-!
# Specification of what a CSV input means, record by record (C97)
-/
namespace Chopper.Spec
open Chopper

/-- Why a text denotes no instant: the date library does not take it for a date, there is no time zone, or there is no such (or no unambiguous) local time. -/
inductive NoInstant (lib : DateLib) (tz : ChopperTz lib) : TimestampFmt → Str → Err → Prop
  | parseTz {f text} : lib.parseTz f text = none → NoInstant lib tz (.dateTimeIncludesTz f) text .timeParsing
  | parseNaive {f text} : lib.parseNaive f text = none → NoInstant lib tz (.dateTimeNeedsExternalTz f) text .timeParsing
  | parseDate {f text} : lib.parseDate f text = none → NoInstant lib tz (.dateNeedsExternalTz f) text .timeParsing
  | naiveNoZone {f text x} : lib.parseNaive f text = some x → tz = none →
      NoInstant lib tz (.dateTimeNeedsExternalTz f) text (.custom "Timezone is needed to parse a date/time value")
  | dateNoZone {f text x} : lib.parseDate f text = some x → tz = none →
      NoInstant lib tz (.dateNeedsExternalTz f) text (.custom "Timezone is needed to parse a date/time value")
  | naiveNoTime {f text x zone} : lib.parseNaive f text = some x → tz = some zone → zone x = none →
      NoInstant lib tz (.dateTimeNeedsExternalTz f) text (.custom "Converting in timezone to timestamp failed.")
  | dateNoTime {f text x zone} : lib.parseDate f text = some x → tz = some zone → zone x = none →
      NoInstant lib tz (.dateNeedsExternalTz f) text (.custom "Converting in timezone to timestamp failed.")

/-- A text that is a number of 64 bits, with an optional plus. -/
def NumberText (text : Str) (n : Nat) : Prop := ∃ t, (text = t ∨ text = '+' :: t) ∧ Digits t ∧ decimalValue t = n ∧ n < 2 ^ 64

/-- The instant in nanoseconds (and in whole seconds, times 10^9) is a signed number of 64 bits. -/
def InstantFits (i : Instant) : Prop :=
  -2 ^ 63 ≤ i.secs * 10 ^ 9 ∧ i.secs * 10 ^ 9 < 2 ^ 63 ∧ -2 ^ 63 ≤ i.secs * 10 ^ 9 + i.nsec ∧ i.secs * 10 ^ 9 + i.nsec < 2 ^ 63

/-- The time of a record, an error, or a crash: the program crashes if a time column is missing, and in builds with overflow checks if the time does not fit;
without these checks it is wrong modulo 2^64. -/
inductive TimeOf (ov : Overflow) (lib : DateLib) (tz : ChopperTz lib) (col : TimestampCol) (fmt : TimestampFmt) (record : List Str) : Res Nanos → Prop
  | missing : (∀ text, ¬ ColText record col text) → TimeOf ov lib tz col fmt record .panic
  | number {text : Str} {u : TimestampUnits} {n : Nat} {ts : Nanos} : ColText record col text → fmt = .units u → NumberText text n →
      (ov = .panics → n * nanosPer u < 2 ^ 64) → ts.toNat = n * nanosPer u % 2 ^ 64 → TimeOf ov lib tz col fmt record (.ok ts)
  | tooLarge {text : Str} {u : TimestampUnits} {n : Nat} : ColText record col text → fmt = .units u → NumberText text n →
      ov = .panics → 2 ^ 64 ≤ n * nanosPer u → TimeOf ov lib tz col fmt record .panic
  | noNumber {text : Str} {u : TimestampUnits} : ColText record col text → fmt = .units u → (∀ n, ¬ NumberText text n) →
      TimeOf ov lib tz col fmt record (.err (.custom "ParseIntError"))
  | date {text : Str} {i : Instant} {ts : Nanos} : ColText record col text → DenotesInstant lib tz fmt text i → (ov = .panics → InstantFits i) →
      ts = BitVec.ofInt 64 (i.secs * 10 ^ 9 + i.nsec) → TimeOf ov lib tz col fmt record (.ok ts)
  | dateTooFar {text : Str} {i : Instant} : ColText record col text → DenotesInstant lib tz fmt text i → ov = .panics → ¬ InstantFits i →
      TimeOf ov lib tz col fmt record .panic
  | noDate {text : Str} {e : Err} : ColText record col text → NoInstant lib tz fmt text e → TimeOf ov lib tz col fmt record (.err e)

/-- Field `i` of the latest of these records that has one. -/
def latest (records : List (List Str)) (i : Nat) : Option Str := records.reverse.findSome? (·[i]?)

/-- The row that record `k` gives, if the first record has `width` fields: its own time; its own fields, and where it has none the one of the latest earlier record that has one. -/
def RowOf (ov : Overflow) (lib : DateLib) (tz : ChopperTz lib) (col : TimestampCol) (fmt : TimestampFmt) (width : Nat) (records : List (List Str)) (k : Nat) (row : Row) : Prop :=
  row.values.length = width ∧ (∃ rec, records[k]? = some rec ∧ TimeOf ov lib tz col fmt rec (.ok row.timestamp)) ∧
    ∀ i, i < width → ∃ f, latest (records.take (k + 1)) i = some f ∧ row.values[i]? = some (.string f)

/-- What stops the reader and how: an error of the csv library, a record with more fields than the first one (a crash), or one without time. -/
inductive Stop (ov : Overflow) (lib : DateLib) (tz : ChopperTz lib) (col : TimestampCol) (fmt : TimestampFmt) (width : Nat) : Res (List Str) → Ending → Prop
  | library {e : Err} : Stop ov lib tz col fmt width (.err e) (.fail e)
  | libraryPanic : Stop ov lib tz col fmt width .panic .crash
  | libraryDiverge : Stop ov lib tz col fmt width .diverge .crash
  | longer {rec : List Str} : width < rec.length → Stop ov lib tz col fmt width (.ok rec) .crash
  | noTime {rec : List Str} {e : Err} : rec.length ≤ width → TimeOf ov lib tz col fmt rec (.err e) → Stop ov lib tz col fmt width (.ok rec) (.fail e)
  | crashTime {rec : List Str} : rec.length ≤ width → TimeOf ov lib tz col fmt rec .panic → Stop ov lib tz col fmt width (.ok rec) .crash

/-- The records (as the csv library reads them) give these rows and this end: `good` are those before the first that stops the reader.  If one does, the row of the record
before it is lost. -/
def CsvMeaning (ov : Overflow) (lib : DateLib) (tz : ChopperTz lib) (col : TimestampCol) (fmt : TimestampFmt) (records : List (Res (List Str))) (src : Source) : Prop :=
  ∃ (first : List Str) (good : List (List Str)) (rest : List (Res (List Str))), records = (first :: good).map .ok ++ rest ∧
    (∀ rec ∈ first :: good, rec.length ≤ first.length ∧ ∃ ts, TimeOf ov lib tz col fmt rec (.ok ts)) ∧
    (∀ (k : Nat) row, src.rows[k]? = some row → RowOf ov lib tz col fmt first.length (first :: good) k row) ∧
    ((rest = [] ∧ src.rows.length = good.length + 1 ∧ src.ending = .eof) ∨
      ∃ bad more, rest = bad :: more ∧ Stop ov lib tz col fmt first.length bad src.ending ∧ src.rows.length = good.length)

/-- The names of the columns: the header line if there is one, `col_0`, `col_1`, … for the fields of the first record otherwise. -/
def CsvNames (header : Bool) (data : CsvData) (width : Nat) (names : List Str) : Prop :=
  if header then data.headers = .ok names else names = (List.range width).map fun i => "col_".toList ++ decimal i

/-- What the csv library reads means, with explicit settings (a header line or not, the time column `cfg`, times as numbers in units `u`), these columns and these rows
and this end. -/
def IsCsvInput (ov : Overflow) (lib : DateLib) (tz : ChopperTz lib) (header : Bool) (cfg : TimestampColConfig) (u : TimestampUnits) (data : CsvData) (h : Header) (src : Source) : Prop :=
  ∃ first rest names col hint, data.records = .ok first :: rest ∧ CsvNames header data first.length names ∧ ColumnFor names cfg col hint ∧
    h = ⟨names, List.replicate first.length .string⟩ ∧ CsvMeaning ov lib tz col (.units u) data.records src

/-- What the csv library reads is rejected with this error: it cannot read the first record, or the header line; there is no column of the configured name; or the first
record has no time. -/
inductive CsvRejected (ov : Overflow) (lib : DateLib) (tz : ChopperTz lib) (header : Bool) (cfg : TimestampColConfig) (u : TimestampUnits) (data : CsvData) : Err → Prop
  | record {e : Err} {rest : List (Res (List Str))} : data.records = .err e :: rest → CsvRejected ov lib tz header cfg u data e
  | header {e : Err} {first : List Str} {rest : List (Res (List Str))} : data.records = .ok first :: rest → header = true → data.headers = .err e →
      CsvRejected ov lib tz header cfg u data e
  | column {first : List Str} {rest : List (Res (List Str))} {names : List Str} : data.records = .ok first :: rest → CsvNames header data first.length names →
      (∀ col hint, ¬ ColumnFor names cfg col hint) → CsvRejected ov lib tz header cfg u data (.custom "Failed to find column named")
  | time {e : Err} {first : List Str} {rest : List (Res (List Str))} {names : List Str} {col : TimestampCol} {hint : Option TimestampUnits} : data.records = .ok first :: rest →
      CsvNames header data first.length names → ColumnFor names cfg col hint → TimeOf ov lib tz col (.units u) first (.err e) → CsvRejected ov lib tz header cfg u data e

/-- What the csv library reads crashes the program: there is no record; the first one has no time column, or its time does not fit (or the library itself crashes). -/
inductive CsvCrashes (ov : Overflow) (lib : DateLib) (tz : ChopperTz lib) (header : Bool) (cfg : TimestampColConfig) (u : TimestampUnits) (data : CsvData) : Prop
  | empty : data.records = [] → CsvCrashes ov lib tz header cfg u data
  | record {rest : List (Res (List Str))} : data.records = .panic :: rest → CsvCrashes ov lib tz header cfg u data
  | header {first : List Str} {rest : List (Res (List Str))} : data.records = .ok first :: rest → header = true → data.headers = .panic → CsvCrashes ov lib tz header cfg u data
  | time {first : List Str} {rest : List (Res (List Str))} {names : List Str} {col : TimestampCol} {hint : Option TimestampUnits} : data.records = .ok first :: rest →
      CsvNames header data first.length names → ColumnFor names cfg col hint → TimeOf ov lib tz col (.units u) first .panic → CsvCrashes ov lib tz header cfg u data

end Chopper.Spec
