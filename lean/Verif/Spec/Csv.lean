import Verif.Model.Csv
import Verif.Spec.Timestamp

/-!
# Specification vocabulary for CSV sources and sinks
-/
namespace Chopper.Spec
open Chopper

/-- The next calls of a source's `next_row` deliver exactly these rows, leaving the source in the last state. -/
inductive Yields {σ : Type} (next : σ → Res (Option Row) × σ) : σ → List Row → σ → Prop
  | nil (s : σ) : Yields next s [] s
  | cons {s s' s'' : σ} {r : Row} {rs : List Row} : next s = (.ok (some r), s') → Yields next s' rs s'' → Yields next s (r :: rs) s''

/-- A whole number in decimal notation. -/
def SignedText (t : Str) (z : Int) : Prop :=
  (0 ≤ z ∧ Digits t ∧ (decimalValue t : Int) = z) ∨ (z < 0 ∧ ∃ d, t = '-' :: d ∧ Digits d ∧ (decimalValue d : Int) = -z)

/-- The text a value is printed as; booleans and byte buffers have none. -/
inductive ValueText (ff : FloatFmt) : FieldValue → Str → Prop
  | byte {x t} : Digits t → decimalValue t = x.toNat → ValueText ff (.byte x) t
  | char {x t} : Digits t → decimalValue t = x.toNat → ValueText ff (.char x) t
  | double {x} : ValueText ff (.double x) (ff.f64 x)
  | float {x} : ValueText ff (.float x) (ff.f32 x)
  | int {x t} : SignedText t x.toInt → ValueText ff (.int x) t
  | long {x t} : SignedText t x.toInt → ValueText ff (.long x) t
  | short {x t} : SignedText t x.toInt → ValueText ff (.short x) t
  | string {s} : ValueText ff (.string s) s
  | none : ValueText ff .none []

/-- One text per value. -/
def ValueTexts (ff : FloatFmt) (vs : List FieldValue) (ts : List Str) : Prop :=
  ts.length = vs.length ∧ ∀ (i : Nat) v t, vs[i]? = some v → ts[i]? = some t → ValueText ff v t

/-- The `chrono` pattern of human readable times: ISO 8601 with as many decimals as the units ask for, and the offset of the zone. -/
def isoPattern (units : TimestampUnits) : Str :=
  "%Y-%m-%dT%H:%M:%S".toList ++ (match units with
    | .seconds => "".toList
    | .millis => "%.3f".toList
    | .micros => "%.6f".toList
    | .nanos => "%.9f".toList) ++ "%:z".toList

/-- The name of the time column if none is given. -/
def defaultTimeName (style : TimestampStyle) (units : TimestampUnits) : String :=
  match style, units with
  | .humanReadable, _ => "time"
  | .epoch, .seconds => "timestampSeconds"
  | .epoch, .millis => "timestampMillis"
  | .epoch, .micros => "timestampMicros"
  | .epoch, .nanos => "timestampNanos"

/-- The leading time column of a row, if there is one: the time in whole units (rounded down), or in human readable form. -/
def TimeCol (cfg : CsvOutputConfig) (ts : Nanos) (col : List Str) : Prop :=
  if cfg.printTimeCol then
    ∃ t, col = [t] ∧ match cfg.style with
      | .epoch => Digits t ∧ decimalValue t = ts.toNat / nanosPer cfg.units
      | .humanReadable => ∃ z, cfg.zone = some z ∧ t = z (ts.toNat / 10 ^ 9 : Nat) (ts.toNat % 10 ^ 9) (isoPattern cfg.units)
  else col = []

/-- A record that can be turned into a row following a first record of `width` fields. -/
def GoodRecord (env : CsvEnv) (tz : ChopperTz env.lib) (col : TimestampCol) (fmt : TimestampFmt) (width : Nat) (record : List Str) (ts : Nanos) : Prop :=
  record.length ≤ width ∧ getTimestamp env.ov env.lib tz record col fmt = .ok ts

/-- The csv library reads these header and records from the input, with the delimiter and header decision made for it. -/
def ReadsRecords (env : CsvEnv) (cfg : CsvInputConfig env.lib) (p : Previewer) (headers : Res (List Str)) (records : List (Res (List Str))) : Prop :=
  ∃ d, csvDelimiter cfg.delimiter (p.lines.bind (·[0]?)) = .ok d ∧
    env.csv.parse d (csvHasHeader env.isF64 cfg.hasHeader (p.lines.bind (·[0]?)) (p.lines.bind (·[1]?)) d) p.reader = ⟨headers, records⟩

/-- The reader's answer makes reading the row fail with an error: the library failed or the timestamp cannot be read. -/
def BadRecord (env : CsvEnv) (tz : ChopperTz env.lib) (col : TimestampCol) (fmt : TimestampFmt) (width : Nat) (item : Res (List Str)) (e : Err) : Prop :=
  item = .err e ∨ ∃ r, item = .ok r ∧ r.length ≤ width ∧ getTimestamp env.ov env.lib tz r col fmt = .err e

/-- A printed line and its columns: time column, then one text per value, joined by the delimiter character. -/
def PrintsAs (ff : FloatFmt) (cfg : CsvOutputConfig) (d : Char) (row : Row) (line : Str) (fields : List Str) : Prop :=
  ∃ col texts, TimeCol cfg row.timestamp col ∧ ValueTexts ff row.values texts ∧ fields = col ++ texts ∧ line = joinChar d fields

/-- The columns of the header line. -/
def headerColumns (cfg : CsvOutputConfig) (names : List Str) : List Str :=
  (if cfg.printTimeCol then [cfg.timeColName] else []) ++ names

/-- Values without a CSV text. -/
def Unprintable (v : FieldValue) : Prop := (∃ b, v = .boolean b) ∨ ∃ b, v = .byteBuf b

end Chopper.Spec
