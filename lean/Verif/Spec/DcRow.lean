import Verif.Spec.Dc
import Verif.Model.Driver

/-!
# Specification of the rows of a DC file, and of files that crash the reader
-/
namespace Chopper.Spec
open Chopper

/-- `enc` is how a text with the bytes `bs` may be stored in a row: a 16-bit length, or the marker FFFF and a 32-bit length.  A 16-bit length
between 8000 and FFFE (hexadecimal) is a negative number and stands for a length of almost 4 GiB, 2^32 minus something. -/
inductive StoredText : List Byte → List Byte → Prop
  | short {bs : List Byte} : bs.length < 2 ^ 15 → StoredText (bigEndian 2 bs.length ++ bs) bs
  | long {bs : List Byte} : bs.length < 2 ^ 32 → StoredText ([0xFF, 0xFF] ++ bigEndian 4 bs.length ++ bs) bs
  | negative {bs : List Byte} : 2 ^ 32 - 2 ^ 15 ≤ bs.length → bs.length < 2 ^ 32 - 1 → StoredText (bigEndian 2 (bs.length - (2 ^ 32 - 2 ^ 16)) ++ bs) bs

/-- `enc` are the bytes of a (non-null) value of a column of this type: big-endian numbers and texts in UTF-8.  Booleans and byte buffers are not
supported. -/
inductive StoredValue : FieldType → List Byte → FieldValue → Prop
  | byte (x : BitVec 8) : StoredValue .byte (bigEndian 1 x.toNat) (.byte x)
  | char (x : BitVec 16) : StoredValue .char (bigEndian 2 x.toNat) (.char x)
  | double (x : BitVec 64) : StoredValue .double (bigEndian 8 x.toNat) (.double x)
  | float (x : BitVec 32) : StoredValue .float (bigEndian 4 x.toNat) (.float x)
  | int (x : BitVec 32) : StoredValue .int (bigEndian 4 x.toNat) (.int x)
  | long (x : BitVec 64) : StoredValue .long (bigEndian 8 x.toNat) (.long x)
  | short (x : BitVec 16) : StoredValue .short (bigEndian 2 x.toNat) (.short x)
  | string {enc : List Byte} {s : Str} : StoredText enc (utf8Encode s) → StoredValue .string enc (.string s)

/-- Bit `i` of the bitmap. -/
def bitOf (bitmap : List Byte) (i : Nat) : Bool := (bitmap.getD (i / 8) 0).getLsbD (i % 8)

/-- `parts` are the bytes of the fields of a row, one part per column of `types`, `bitmap` tells which are null (and have no bytes), `vs` are the
values. -/
def StoredFields (types : List FieldType) (bitmap : List Byte) (parts : List (List Byte)) (vs : List FieldValue) : Prop :=
  parts.length = types.length ∧ vs.length = types.length ∧
    ∀ (i : Nat) (t : FieldType) (p : List Byte) (v : FieldValue), types[i]? = some t → parts[i]? = some p → vs[i]? = some v →
      if bitOf bitmap i then p = [] ∧ v = .none else StoredValue t p v

/-- `bytes` is a complete row: timestamp, a bit for each column in whole bytes, the values that are not null. -/
def IsDcRow (types : List FieldType) (bytes : List Byte) (r : Row) : Prop :=
  ∃ (bitmap : List Byte) (parts : List (List Byte)), bitmap.length = (types.length + 7) / 8 ∧ StoredFields types bitmap parts r.values ∧
    bytes = bigEndian 8 r.timestamp.toNat ++ bitmap ++ parts.flatten

/-- Not the UTF-8 form of any text. -/
def NotUtf8 (bs : List Byte) : Prop := ∀ s : Str, bs ≠ utf8Encode s

/-- `bytes` is a row up to a text that is not UTF-8. -/
def CrashRow (types : List FieldType) (bytes : List Byte) : Prop :=
  ∃ (ts : Nat) (bitmap : List Byte) (i : Nat) (parts : List (List Byte)) (vs : List FieldValue) (enc bs : List Byte),
    ts < 2 ^ 64 ∧ bitmap.length = (types.length + 7) / 8 ∧
    StoredFields (types.take i) bitmap parts vs ∧ types[i]? = some .string ∧ bitOf bitmap i = false ∧ StoredText enc bs ∧ NotUtf8 bs ∧
    bytes = bigEndian 8 ts ++ bitmap ++ parts.flatten ++ enc

/-- `bytes` is a row up to a value of a type that is not supported. -/
def UnsupportedRow (types : List FieldType) (bytes : List Byte) (t : FieldType) : Prop :=
  ∃ (ts : Nat) (bitmap : List Byte) (i : Nat) (parts : List (List Byte)) (vs : List FieldValue),
    ts < 2 ^ 64 ∧ bitmap.length = (types.length + 7) / 8 ∧
    StoredFields (types.take i) bitmap parts vs ∧ types[i]? = some t ∧ (t = .boolean ∨ t = .byteBuf) ∧ bitOf bitmap i = false ∧
    bytes = bigEndian 8 ts ++ bitmap ++ parts.flatten

/-- `bytes` begin the description of a column and cannot be understood: the name or the name of the type is not UTF-8, or there is no such type. -/
inductive CrashColumn : List Byte → Prop
  | name {bs : List Byte} : bs.length < 2 ^ 32 → NotUtf8 bs → CrashColumn (bigEndian 4 bs.length ++ bs)
  | type {name : Str} {bs : List Byte} : (utf8Encode name).length < 2 ^ 32 → bs.length < 2 ^ 32 → NotUtf8 bs →
      CrashColumn (sized name ++ bigEndian 4 bs.length ++ bs)
  | unknown {name ty : Str} {hint : Int} : (utf8Encode name).length < 2 ^ 32 → (utf8Encode ty).length < 2 ^ 32 → -1 ≤ hint → hint ≤ 6 →
      (∀ (t : FieldType) (n : String), TypeName t n → ty ≠ n.toList) →
      CrashColumn (sized name ++ sized ty ++ bigEndian 4 (BitVec.ofInt 32 hint).toNat)

/-- `bytes` begin a DC header that says there are no columns, or has a column that cannot be understood after some that can. -/
def CrashHeader (bytes : List Byte) : Prop :=
  ∃ (user : List Byte) (count : Nat) (rest : List Byte), user.length < 2 ^ 32 ∧ count < 2 ^ 32 ∧
    bytes = [0, 0, 0, 0, 0x44, 0x43, 0x41, 0x54] ++ [0, 2] ++ bigEndian 4 user.length ++ user ++ bigEndian 4 count ++ rest ∧
    ((count = 0 ∧ rest = []) ∨ ∃ (cols : List Column) (bad : List Byte), cols.length < count ∧ (∀ c ∈ cols, c.Valid) ∧ CrashColumn bad ∧
      rest = (cols.map Column.bytes).flatten ++ bad)

/-- `bytes` begin a file that is rejected with this error: another magic number, another version, or after some valid columns a display hint outside
-1..6 (whatever the type). -/
inductive RejectedHeader : List Byte → String → Prop
  | magic {m : List Byte} : m.length = 8 → m ≠ [0, 0, 0, 0, 0x44, 0x43, 0x41, 0x54] → RejectedHeader m "DCReader -- wrong magic number"
  | version {v : List Byte} : v.length = 2 → v ≠ [0, 2] → RejectedHeader ([0, 0, 0, 0, 0x44, 0x43, 0x41, 0x54] ++ v) "DCReader -- wrong version"
  | hint {user : List Byte} {count : Nat} {cols : List Column} {name ty : Str} {hint : Int} : user.length < 2 ^ 32 → count < 2 ^ 32 → cols.length < count →
      (∀ c ∈ cols, c.Valid) → (utf8Encode name).length < 2 ^ 32 → (utf8Encode ty).length < 2 ^ 32 → -2 ^ 31 ≤ hint → hint < 2 ^ 31 → (hint < -1 ∨ 6 < hint) →
      RejectedHeader ([0, 0, 0, 0, 0x44, 0x43, 0x41, 0x54] ++ [0, 2] ++ bigEndian 4 user.length ++ user ++ bigEndian 4 count ++
        (cols.map Column.bytes).flatten ++ (sized name ++ sized ty ++ bigEndian 4 (BitVec.ofInt 32 hint).toNat)) "unexpected display hint value"

/-- Bytes that contain no complete row and nothing that stops the reader. -/
def RowUnfinished (types : List FieldType) (p : List Byte) : Prop :=
  ∀ c, c <+: p → (∀ r, ¬ IsDcRow types c r) ∧ ¬ CrashRow types c ∧ ∀ t, ¬ UnsupportedRow types c t

/-- Bytes that contain no complete header and nothing that stops the reader. -/
def HeaderUnfinished (p : List Byte) : Prop :=
  ∀ c, c <+: p → (∀ h, ¬ IsDcHeader c h) ∧ ¬ CrashHeader c ∧ ∀ msg, ¬ RejectedHeader c msg

/-- How a DC file with columns of these types ends after its last complete row if these bytes are left: fewer than eight are ignored. -/
inductive DcEnding (types : List FieldType) : List Byte → Ending → Prop
  | eof {rest : List Byte} : rest.length < 8 → DcEnding types rest .eof
  | crash {c rest : List Byte} : c <+: rest → CrashRow types c → DcEnding types rest .crash
  | unsupported {c rest : List Byte} {t : FieldType} {msg : String} : c <+: rest → UnsupportedRow types c t →
      msg = "DCReader -- " ++ (if t = .boolean then "boolean" else "ByteBuffer") ++ " field type is not supported" → DcEnding types rest (.fail (.custom msg))
  | cut {rest : List Byte} : 8 ≤ rest.length → RowUnfinished types rest → DcEnding types rest (.fail (.io .unexpectedEof))

/-- The bytes are a DC file with this header, these rows and this end. -/
def IsDcFile (bytes : List Byte) (h : Header) (src : Source) : Prop :=
  ∃ (hdr : List Byte) (parts : List (List Byte)) (rest : List Byte), bytes = hdr ++ parts.flatten ++ rest ∧ IsDcHeader hdr h ∧
    parts.length = src.rows.length ∧ (∀ (i : Nat) p r, parts[i]? = some p → src.rows[i]? = some r → IsDcRow h.types p r) ∧ DcEnding h.types rest src.ending

/-- The bytes are complete rows, one after the other. -/
def DcRows (types : List FieldType) (bytes : List Byte) (rows : List Row) : Prop :=
  ∃ parts : List (List Byte), bytes = parts.flatten ∧ parts.length = rows.length ∧ ∀ (i : Nat) p r, parts[i]? = some p → rows[i]? = some r → IsDcRow types p r

end Chopper.Spec
