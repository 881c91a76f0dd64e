import Verif.Spec.CsvRead

/-!
# CSV files with quotes (C113)
-/
namespace Chopper.Spec
open Chopper

/-- Quotes doubled. -/
def doubled (t : Str) : Str := t.flatMap fun c => if c = '"' then ['"', '"'] else [c]

/-- How a value may be written as a field: as it is, if it has no delimiter and no line end and does not begin with a quote, or in quotes, its own quotes doubled. -/
inductive FieldText (d : Char) (value : Str) : Str → Prop
  | plain : d ∉ value → '\n' ∉ value → '\r' ∉ value → value.head? ≠ some '"' → FieldText d value value
  | quoted : FieldText d value ('"' :: doubled value ++ ['"'])

/-- A record and a line for it. An empty line is no record. -/
def LineText (d : Char) (record : List Str) (line : Str) : Prop :=
  line ≠ [] ∧ ∃ texts, record ≠ [] ∧ texts.length = record.length ∧ (∀ (i : Nat) v t, record[i]? = some v → texts[i]? = some t → FieldText d v t) ∧ line = joinChar d texts

/-- Records and a file of them: each line is ended by a line feed, a carriage return or both; there may be empty lines; the last line need not be ended. -/
inductive FileText (d : Char) : List (List Str) → Str → Prop
  | done : FileText d [] []
  | empty {records rest c} : c = '\n' ∨ c = '\r' → FileText d records rest → FileText d records (c :: rest)
  | line {record records line rest c} : LineText d record line → c = '\n' ∨ c = '\r' → FileText d records rest → FileText d (record :: records) (line ++ c :: rest)
  | last {record line} : LineText d record line → FileText d [record] line

/-- `records'` are the records with white space around the values removed. -/
def Trimmed (records records' : List (List Str)) : Prop :=
  records'.length = records.length ∧ ∀ (i : Nat) r r', records[i]? = some r → records'[i]? = some r' →
    r'.length = r.length ∧ ∀ (j : Nat) v v', r[j]? = some v → r'[j]? = some v' → IsTrimmed v v'

/-- A name or value that is read as it is when written without quotes. -/
def NeedsNoQuotes (d : Char) (v : Str) : Prop := d ∉ v ∧ '\n' ∉ v ∧ '\r' ∉ v ∧ v.head? ≠ some '"'

end Chopper.Spec
