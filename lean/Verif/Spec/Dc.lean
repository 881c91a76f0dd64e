import Verif.Spec.CsvUtil
import Verif.Model.Dc

/-!
# Specification of the DC format

Independent of how the code reads and writes: byte layouts, and what it means for a source to deliver rows.
-/
namespace Chopper.Spec
open Chopper

/-- The `k` bytes of `n` (mod `256^k`), most significant first. -/
def bigEndian (k n : Nat) : List Byte := (List.range k).map fun i => BitVec.ofNat 8 (n / 256 ^ (k - 1 - i))

/-- A length-prefixed string. -/
def sized (s : Str) : List Byte := bigEndian 4 (utf8Encode s).length ++ utf8Encode s

/-- The names of the types in a DC header. -/
inductive TypeName : FieldType → String → Prop
  | boolean : TypeName .boolean "Z"
  | byte : TypeName .byte "B"
  | byteBuf : TypeName .byteBuf "Ljava.lang.ByteBuffer;"
  | char : TypeName .char "C"
  | double : TypeName .double "D"
  | float : TypeName .float "F"
  | int : TypeName .int "I"
  | long : TypeName .long "J"
  | short : TypeName .short "S"
  | string : TypeName .string "Ljava.lang.String;"

/-- One column in a DC header: its name (possibly empty), its type and a display hint between -1 and 6. -/
structure Column where
  name : Str
  type : FieldType
  typeName : String
  hint : Int

/-- The column can be stored. -/
def Column.Valid (c : Column) : Prop :=
  TypeName c.type c.typeName ∧ (utf8Encode c.name).length < 2 ^ 32 ∧ -1 ≤ c.hint ∧ c.hint ≤ 6

/-- Its bytes: name, type name, hint as a 32-bit two's complement number. -/
def Column.bytes (c : Column) : List Byte :=
  sized c.name ++ sized c.typeName.toList ++ bigEndian 4 (BitVec.ofInt 32 c.hint).toNat

/-- The name a column is known under: `col_i` if it has none. -/
def columnName (i : Nat) (name : Str) : Str := if name = [] then "col_".toList ++ decimal i else name

/-- `bytes` is a complete DC header describing `h`: magic number, version 2, user data of any length, at least one column. -/
def IsDcHeader (bytes : List Byte) (h : Header) : Prop :=
  ∃ (user : List Byte) (cols : List Column),
    user.length < 2 ^ 32 ∧ cols ≠ [] ∧ cols.length < 2 ^ 32 ∧ (∀ c ∈ cols, c.Valid) ∧
    bytes = [0, 0, 0, 0, 0x44, 0x43, 0x41, 0x54] ++ [0, 2] ++ bigEndian 4 user.length ++ user ++ bigEndian 4 cols.length ++
      (cols.map Column.bytes).flatten ∧
    h.types = cols.map (·.type) ∧ h.names = (cols.map (·.name)).mapIdx columnName

/-- The next calls of `next_row` deliver exactly these rows (and leave the source as `fin`). -/
inductive Delivers : DcSource → List Row → DcSource → Prop
  | nil (src : DcSource) : Delivers src [] src
  | cons {src src' fin : DcSource} {r : Row} {rs : List Row} :
      src.nextRow = (.ok (some r), src') → Delivers src' rs fin → Delivers src (r :: rs) fin

/-- A value that a DC column of this type can hold. -/
def Fits : FieldType → FieldValue → Prop
  | _, .none => True
  | .byte, .byte _ => True
  | .char, .char _ => True
  | .double, .double _ => True
  | .float, .float _ => True
  | .int, .int _ => True
  | .long, .long _ => True
  | .short, .short _ => True
  | .string, .string s => (utf8Encode s).length < 2 ^ 32
  | _, _ => False

/-- A row that fits the column types: one value per column, each of the column's type or null. -/
def RowFits (types : List FieldType) (r : Row) : Prop :=
  r.values.length = types.length ∧ ∀ (i : Nat) t v, types[i]? = some t → r.values[i]? = some v → Fits t v

/-- The stream stops here with error `e`: it ends (which `read_exact` reports as an unexpected end), or it fails. -/
inductive StopsWith : Stream → IoKind → Prop
  | ends : StopsWith [] .unexpectedEof
  | fails (e : IoKind) (t : Stream) : StopsWith (.fail e :: t) e

end Chopper.Spec
