import Verif.Model.HeaderGraph

/-!
# Built-in nodes (`/repo/src/filter/*.rs`, `/repo/src/driver/merge_join.rs`)
-/
namespace Chopper

/-- `u8::to_ascii_lowercase`, on scalar values: the bytes of non-ASCII scalar values are all ≥ 0x80 and stay as they are. -/
def asciiLower (c : Char) : Char := if 'A' ≤ c ∧ c ≤ 'Z' then Char.ofNat (c.toNat + 32) else c

/-- `str::eq_ignore_ascii_case`. -/
def eqIgnoreAsciiCase (a b : Str) : Bool := a.map asciiLower == b.map asciiLower

/-- The search loops of `/repo/src/filter/column_filter_delete_col.rs:27-37`, `/repo/src/filter/row_filter_equal_value.rs:29-39`,
`/repo/src/filter/row_filter_greater_value.rs:31-41`: index of the first column with the name, from index `i` on. -/
def findCol (name : Str) : List Str → Nat → Option Nat
  | [], _ => none
  | n :: ns, i => if eqIgnoreAsciiCase n name then some i else findCol name ns (i + 1)

/-- `Vec::remove`: panics when out of range. -/
def vecRemove {α : Type} (l : List α) (i : Nat) : Res (List α) :=
  if i < l.length then .ok (l.eraseIdx i) else .panic

/-- Data sinks of the built-in nodes. `writer` stands for any output sink (CSV, DC): it leaves the row as it is and here just records it. -/
inductive BSink where
  | mergeJoin
  | equal (i : Nat) (v : FieldValue)
  | greater (i : Nat) (v : FieldValue)
  | delete (i : Nat)
  | writer (rows : List Row)
deriving DecidableEq

/-- `RowFilterEqualValueConfig::process_header` (`/repo/src/filter/row_filter_equal_value.rs:27-45`). -/
def equalHeader (name : Str) (v : FieldValue) (h : Header) : Res (BSink × Header) :=
  match findCol name h.names 0 with
  | some i => .ok (.equal i v, h)
  | none => .err (.custom "RowFilterEqualValueConfig -- field name not found")

/-- `RowFilterGreaterValueConfig::process_header` (`/repo/src/filter/row_filter_greater_value.rs:29-47`). -/
def greaterHeader (name : Str) (v : FieldValue) (h : Header) : Res (BSink × Header) :=
  match findCol name h.names 0 with
  | some i => .ok (.greater i v, h)
  | none => .err (.custom "RowFilterGreaterValueConfig -- field name not found")

/-- `ColumnFilterDeleteConfig::process_header` (`/repo/src/filter/column_filter_delete_col.rs:24-43`). -/
def deleteHeader (name : Str) (h : Header) : Res (BSink × Header) :=
  match findCol name h.names 0 with
  | some i =>
    (vecRemove h.names i).bind fun names => (vecRemove h.types i).bind fun types => .ok (.delete i, ⟨names, types⟩)
  | none => .err (.custom "ColumnFilterDeleteConfig -- field name not found")

/-- Header sink of an output: keeps the header. -/
def writerHeader (h : Header) : Res (BSink × Header) := .ok (.writer [], h)

/-- `write_row` of the built-in data sinks: `/repo/src/filter/row_filter_equal_value.rs:48-62`,
`/repo/src/filter/row_filter_greater_value.rs:50-64`, `/repo/src/filter/column_filter_delete_col.rs:46-50`;
`MergeJoin` has the default `write_row` of `/repo/src/chopper/chopper.rs:35-38`. -/
def BSink.write : BSink → Row → BSink × Res (List Row)
  | .mergeJoin, row => (.mergeJoin, .ok [row])
  | .equal i v, row => (.equal i v,
      (Res.unwrap row.values[i]?).bind fun x => (x.eq v).bind fun b => .ok (if !b then [] else [row]))
  | .greater i v, row => (.greater i v,
      (Res.unwrap row.values[i]?).bind fun x => (x.partialCmp v).bind fun o => .ok (if some .gt ≠ o then [] else [row]))
  | .delete i, row => (.delete i, (vecRemove row.values i).bind fun vs => .ok [⟨row.timestamp, vs⟩])
  | .writer rows, row => (.writer (rows ++ [row]), .ok [row])

/-- The built-in sinks have the default `flush` (`/repo/src/chopper/chopper.rs:40-42`). -/
def builtinOps : SinkOps BSink := ⟨BSink.write, fun s => (s, .ok ())⟩

end Chopper
