import Verif.Model.Input

/-!
# The reader of the `csv` crate

`/repo/src/source/csv_source.rs:55-62,131-142` reads CSV with the crates `csv` and `csv-core` (1.x), with `trim(All)` and `flexible(true)` and otherwise default settings: quote `"`, doubled quotes
inside quoted fields, no escape character, no comments, records ended by CR, LF or CRLF.  This is a transcription of their state machine and of the part of the reader that the code uses.  The crates are
not part of `/repo`; everything else in this development treats them as a parameter (`CsvLib`), with the contract `ReadsPlain` where one is needed. `Verif.Props.CsvCrate` proves the contract of this transcription.
-/
namespace Chopper

/-- The states of csv-core's automaton (`NfaState`).  Merged: `EndRecord` and `CRLF` lead to `StartRecord` without or with the line feed that `StartRecord` drops as well; `EndFieldDelim` leads to
`StartField`; `EndFieldTerm` and `InRecordTerm` are passed through on the byte that ends the record.  `InComment` and `InEscapedQuote` are not reachable with these settings. -/
inductive CsvState where
  | startRecord | startField | inField | inQuoted | quoteSeen
deriving DecidableEq, Repr

/-- What is done with a byte. -/
inductive CsvAct where
  | drop | copy | endField | endRecord
deriving DecidableEq, Repr

/-- `Terminator::CRLF.equals`. -/
def csvTerm (c : Byte) : Bool := c == 13 || c == 10

/-- A byte at the start of a field. -/
def csvFieldStart (d c : Byte) : CsvState × CsvAct :=
  if c = 34 then (.inQuoted, .drop)
  else if c = d then (.startField, .endField)
  else if csvTerm c then (.startRecord, .endRecord)
  else (.inField, .copy)

/-- `transition_nfa` of csv-core with delimiter `d`. -/
def csvStep (d c : Byte) : CsvState → CsvState × CsvAct
  | .startRecord => if csvTerm c then (.startRecord, .drop) else csvFieldStart d c
  | .startField => csvFieldStart d c
  | .inField =>
    if c = d then (.startField, .endField)
    else if csvTerm c then (.startRecord, .endRecord)
    else (.inField, .copy)
  | .inQuoted => if c = 34 then (.quoteSeen, .drop) else (.inQuoted, .copy)
  | .quoteSeen =>
    if c = 34 then (.inQuoted, .copy)
    else if c = d then (.startField, .endField)
    else if csvTerm c then (.startRecord, .endRecord)
    else (.inField, .copy)

/-- The successive answers of `read_byte_record_impl`: `cur` is the field being read, `fields` those of the record before it.  At the end of the input (`transition_final_nfa`) what has been read of a record is
the last record.  Simplification: after a failing read nothing more is answered (the code gives up then). -/
def csvScan (d : Byte) : CsvState → List Byte → List (List Byte) → Stream → List (Res (List (List Byte)))
  | .startRecord, _, _, [] => []
  | .startField, cur, fields, [] => [.ok (fields ++ [cur])]
  | .inField, cur, fields, [] => [.ok (fields ++ [cur])]
  | .inQuoted, cur, fields, [] => [.ok (fields ++ [cur])]
  | .quoteSeen, cur, fields, [] => [.ok (fields ++ [cur])]
  | _, _, _, .fail e :: _ => [.err (.io e)]
  | st, cur, fields, .byte c :: s =>
    match csvStep d c st with
    | (st', .drop) => csvScan d st' cur fields s
    | (st', .copy) => csvScan d st' (cur ++ [c]) fields s
    | (st', .endField) => csvScan d st' [] (fields ++ [cur]) s
    | (st', .endRecord) => .ok (fields ++ [cur]) :: csvScan d st' [] [] s

/-- `strip_utf8_bom`: a byte order mark is dropped if the first piece read has it.  Simplification: if nothing is buffered yet, the first piece is taken to have at least three bytes. -/
def dropBom (r : BufReader) (s : Stream) : Stream :=
  match s with
  | .byte 0xEF :: .byte 0xBB :: .byte 0xBF :: rest => if r.cap - r.pos = 1 ∨ r.cap - r.pos = 2 then s else rest
  | _ => s

/-- `StringRecord`: every field must be UTF-8; then surrounding white space is removed. -/
def stringRecord (fields : List (List Byte)) : Res (List Str) :=
  match fields.mapM utf8Decode with
  | some texts => .ok (texts.map trim)
  | none => .err .csv

/-- The records of the input. -/
def crateRecords (d : Byte) (r : BufReader) : List (Res (List (List Byte))) := csvScan d .startRecord [] [] (dropBom r (streamOf r))

/-- `csv::Reader`: with headers the first record is kept for `headers()` and the records start after it; if it cannot be read at all, this is the first answer. -/
def csvCrate : CsvLib :=
  ⟨fun d hasHeaders r =>
    if hasHeaders then
      match crateRecords d r with
      | [] => ⟨.ok [], []⟩
      | .ok header :: rest => ⟨stringRecord header, rest.map fun x => x.bind stringRecord⟩
      | other => ⟨.ok [], other.map fun x => x.bind stringRecord⟩
    else ⟨.ok [], (crateRecords d r).map fun x => x.bind stringRecord⟩⟩

end Chopper
