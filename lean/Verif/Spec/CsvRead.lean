import Verif.Spec.Csv
import Verif.Spec.CsvUtil
import Verif.Spec.Reader

/-!
# Specification vocabulary for reading CSV back (C85)
-/
namespace Chopper.Spec
open Chopper

/-- A text that needs no quoting in CSV with delimiter `d` and is not changed by trimming: no delimiter, quote or line end, no white space at either end. -/
structure PlainField (d : Char) (t : Str) : Prop where
  noDelim : d ∉ t
  noQuote : '"' ∉ t
  noLf : '\n' ∉ t
  noCr : '\r' ∉ t
  trimmed : IsTrimmed t t

/-- Lines of fields as CSV text. -/
def csvText (d : Char) (lines : List (List Str)) : Str := lines.flatMap fun l => joinChar d l ++ ['\n']

/-- Tables whose CSV text is unambiguous: plain fields, no line is empty, and the text does not begin with a byte order mark. -/
structure PlainTable (d : Char) (lines : List (List Str)) : Prop where
  plain : ∀ l ∈ lines, ∀ t ∈ l, PlainField d t
  nonempty : ∀ l ∈ lines, joinChar d l ≠ []
  noBom : (csvText d lines).head? ≠ some '\uFEFF'

/-- The bytes a buffered reader will deliver: those in its buffer, then those of the underlying reader. -/
def stillToCome (r : BufReader) : List Byte := (r.buf.drop r.pos).take (r.cap - r.pos) ++ r.inner.data

/-- What is assumed of the csv library: it reads plain tables, for every ASCII delimiter that is no quote or line end, from every reader that does not fail. -/
def ReadsPlain (csv : CsvLib) : Prop :=
  ∀ (d : Char) (b : Byte) (lines : List (List Str)) (r : BufReader), d.toNat < 128 → b.toNat = d.toNat → d ≠ '"' → d ≠ '\n' → d ≠ '\r' → PlainTable d lines →
    r.pos ≤ r.cap → r.cap ≤ r.buf.length → NoFail r.inner → stillToCome r = utf8Encode (csvText d lines) →
      (csv.parse b false r).records = lines.map .ok ∧ ∀ h t, lines = h :: t → csv.parse b true r = ⟨.ok h, t.map .ok⟩

/-- Values printed as plain texts: strings and printed floats are to be looked at, numbers and nulls always are plain. -/
def PlainValue (ff : FloatFmt) (d : Char) : FieldValue → Prop
  | .string s => PlainField d s
  | .double x => PlainField d (ff.f64 x)
  | .float x => PlainField d (ff.f32 x)
  | _ => True

/-- `rows'` are the rows `rows` after having been written as CSV with times in these units and read again: one row per row, the time rounded down to the unit,
the values are the printed time and the texts of the values. -/
def ReadAgain (ff : FloatFmt) (u : TimestampUnits) (rows rows' : List Row) : Prop :=
  rows'.length = rows.length ∧ ∀ (i : Nat) r r', rows[i]? = some r → rows'[i]? = some r' →
    r'.timestamp.toNat = r.timestamp.toNat / nanosPer u * nanosPer u ∧
    ∃ t texts, Digits t ∧ decimalValue t = r.timestamp.toNat / nanosPer u ∧ ValueTexts ff r.values texts ∧ r'.values = (t :: texts).map .string

/-- Settings for reading what was written with `cfg`: comma, a header line, the time in the first column in the same units. -/
structure ReadsAs {lib : DateLib} (cfg : CsvOutputConfig) (cfg2 : CsvInputConfig lib) : Prop where
  delimiter : cfg2.delimiter = some 44
  header : cfg2.hasHeader = .yes
  column : cfg2.tsCol = .index 0 ∨ cfg2.tsCol = .name cfg.timeColName
  format : cfg2.tsFmt = .epoch cfg.units

end Chopper.Spec
