import Verif.Model.Reader
import Verif.Model.Timestamp

/-!
# The DC format (`/repo/src/util/dc_util.rs`, `/repo/src/source/dc_source.rs`, `/repo/src/write/dc_sink.rs`)
-/
namespace Chopper

/-! ## Byte streams

A reader as seen through `read_exact`: the bytes it will deliver and the points at which it will report an error.  How the reader chops its
data into short reads is invisible to `read_exact` (see `Chopper.readExactLoop_spec` for `Inner.readExact`). -/

/-- A byte, or a failing call. -/
inductive Item where
  | byte (b : Byte)
  | fail (e : IoKind)
deriving DecidableEq, Repr

/-- What a reader will deliver; its end is the end of file. -/
abbrev Stream := List Item

/-- A stream of bytes without failure. -/
def ofBytes (bs : List Byte) : Stream := bs.map Item.byte

/-- A function that reads: result and what is left of the stream. -/
def Rd (α : Type) := Stream → Res α × Stream

namespace Rd
variable {α β : Type}

def pure (a : α) : Rd α := fun s => (.ok a, s)
def err (e : Err) : Rd α := fun s => (.err e, s)
def panic : Rd α := fun s => (.panic, s)

/-- `?` and unwinding. -/
def bind (x : Rd α) (f : α → Rd β) : Rd β := fun s =>
  match x s with
  | (.ok a, s') => f a s'
  | (.err e, s') => (.err e, s')
  | (.panic, s') => (.panic, s')
  | (.diverge, s') => (.diverge, s')

end Rd

/-- `read_exact` into a buffer of `n` bytes (also `n` calls of `read_u8`); a failure or the end of file uses up the bytes before it. -/
def readN : Nat → Rd (List Byte)
  | 0 => Rd.pure []
  | n + 1 => fun s =>
    match s with
    | [] => (.err (.io .unexpectedEof), [])
    | .fail e :: s => (.err (.io e), s)
    | .byte b :: s => (Rd.bind (readN n) fun bs => Rd.pure (b :: bs)) s

/-- Big-endian value (`byteorder::BigEndian`). -/
def beVal (bs : List Byte) : Nat := bs.foldl (fun acc b => acc * 256 + b.toNat) 0

/-- The `k` bytes of a number, most significant first. -/
def beBytes : Nat → Nat → List Byte
  | 0, _ => []
  | k + 1, n => beBytes k (n / 256) ++ [BitVec.ofNat 8 n]

/-- `read_u8` (`k = 1`), `read_u16::<BigEndian>`, `read_u32`, `read_u64`; the signed and floating point versions read the same bytes. -/
def readU (k : Nat) : Rd Nat := Rd.bind (readN k) fun bs => Rd.pure (beVal bs)

/-! ## Constants -/

/-- `MAGIC_NUM` (`/repo/src/util/dc_util.rs:10`). -/
def dcMagic : Nat := 0x44434154
/-- `VERSION` (`/repo/src/util/dc_util.rs:11`). -/
def dcVersion : Nat := 2

/-- `get_bitset_bytes` (`/repo/src/util/dc_util.rs:24-26`): `1 + ((field_count - 1) / 8)` in `usize`. -/
def getBitsetBytes (ov : Overflow) (fieldCount : Nat) : Res Nat :=
  if fieldCount = 0 then
    match ov with
    | .panics => .panic
    | .wraps => .ok (1 + (2 ^ 64 - 1) / 8)
  else .ok (1 + (fieldCount - 1) / 8)

/-- Allocation of so many bytes: sizes beyond any address space end the process (capacity overflow or allocation failure). Other allocation
failures are not modelled. -/
def allocBytes (n : Nat) : Res Unit := if n < 2 ^ 48 then .ok () else .panic

/-- `create_field_string_map_type` (`/repo/src/util/dc_util.rs:49-62`). -/
def typeString : FieldType → Str
  | .boolean => ['Z']
  | .byte => ['B']
  | .byteBuf => "Ljava.lang.ByteBuffer;".toList
  | .char => ['C']
  | .double => ['D']
  | .float => ['F']
  | .int => ['I']
  | .long => ['J']
  | .short => ['S']
  | .string => "Ljava.lang.String;".toList

/-- `create_field_string_map_name` (`/repo/src/util/dc_util.rs:34-47`). -/
def typeOfString (s : Str) : Option FieldType :=
  if s = ['Z'] then some .boolean
  else if s = ['B'] then some .byte
  else if s = "Ljava.lang.ByteBuffer;".toList then some .byteBuf
  else if s = ['C'] then some .char
  else if s = ['D'] then some .double
  else if s = ['F'] then some .float
  else if s = ['I'] then some .int
  else if s = ['J'] then some .long
  else if s = ['S'] then some .short
  else if s = "Ljava.lang.String;".toList then some .string
  else none

/-! ## Reading -/

/-- `String::from_utf8(..).unwrap()`. -/
def rdUtf8 (bs : List Byte) : Rd Str :=
  match utf8Decode bs with
  | some s => Rd.pure s
  | none => Rd.panic

/-- `get_sized_string` (`/repo/src/util/dc_util.rs:106-113`). -/
def getSizedString : Rd Str := Rd.bind (readU 4) fun n => Rd.bind (readN n) rdUtf8

/-- `FieldDescriptor::new` (`/repo/src/util/dc_util.rs:71-92`); the display hint itself is not used by anyone. -/
def fieldDescriptor : Rd (Str × Str) :=
  Rd.bind getSizedString fun name =>
    Rd.bind getSizedString fun ty =>
      Rd.bind (readU 4) fun hint =>
        if hint = 2 ^ 32 - 1 ∨ hint ≤ 6 then Rd.pure (name, ty)
        else Rd.err (.custom "unexpected display hint value")

/-- `format!("col_{}", i)` (`/repo/src/source/dc_source.rs:66`). -/
def defaultName (i : Nat) : Str := ['c', 'o', 'l', '_'] ++ natToStr i

/-- The loop over the field descriptors (`/repo/src/source/dc_source.rs:61-76`): `n` more fields, the next one having index `i`. -/
def readDescriptors : Nat → Nat → Rd (List (Str × FieldType))
  | 0, _ => Rd.pure []
  | n + 1, i =>
    Rd.bind fieldDescriptor fun (name, ty) =>
      let name := if name = [] then defaultName i else name
      match typeOfString ty with
      | none => Rd.panic                                      -- `get(..).unwrap()`
      | some ft => Rd.bind (readDescriptors n (i + 1)) fun rest => Rd.pure ((name, ft) :: rest)

/-- `DCSource` (`/repo/src/source/dc_source.rs:18-24`).  `current_row` is left out: all its fields are overwritten before it is returned. -/
structure DcSource where
  stream : Stream
  header : Header
deriving DecidableEq, Repr

/-- Allocation inside a reading function. -/
def rdAlloc (n : Nat) : Rd Unit := fun s => (allocBytes n, s)

/-- Header part of `DCSource::new` (`/repo/src/source/dc_source.rs:27-79`). -/
def dcHeader (ov : Overflow) : Rd Header :=
  Rd.bind (readU 8) fun magic =>
  if magic ≠ dcMagic then Rd.err (.custom "DCReader -- wrong magic number")
  else
    Rd.bind (readU 2) fun version =>
    if version ≠ dcVersion then Rd.err (.custom "DCReader -- wrong version")
    else
      Rd.bind (readU 4) fun userSize =>
      Rd.bind (readN userSize) fun _ =>
      Rd.bind (readU 4) fun fieldCount =>
      Rd.bind (fun s => (getBitsetBytes ov fieldCount, s)) fun bitset =>
      Rd.bind (rdAlloc bitset) fun _ =>
      Rd.bind (readDescriptors fieldCount 0) fun fields =>
      Rd.pure ⟨fields.map (·.1), fields.map (·.2)⟩

/-- `DCSource::new` (`/repo/src/source/dc_source.rs:27-95`). -/
def dcOpen (ov : Overflow) (s : Stream) : Res DcSource :=
  match dcHeader ov s with
  | (.ok h, s') => .ok ⟨s', h⟩
  | (.err e, _) => .err e
  | (.panic, _) => .panic
  | (.diverge, _) => .diverge

/-- `read_string` (`/repo/src/source/dc_source.rs:162-173`); `i16 as u32` extends the sign. -/
def readString : Rd Str :=
  Rd.bind (readU 2) fun short =>
    Rd.bind (if short = 2 ^ 16 - 1 then readU 4 else Rd.pure (if short < 2 ^ 15 then short else short + (2 ^ 32 - 2 ^ 16))) fun n =>
      Rd.bind (readN n) rdUtf8

/-- Reading a non-null value (`/repo/src/source/dc_source.rs:116-147`). -/
def readValue : FieldType → Rd FieldValue
  | .boolean => Rd.err (.custom "DCReader -- boolean field type is not supported")
  | .byte => Rd.bind (readU 1) fun n => Rd.pure (.byte (BitVec.ofNat 8 n))
  | .byteBuf => Rd.err (.custom "DCReader -- ByteBuffer field type is not supported")
  | .char => Rd.bind (readU 2) fun n => Rd.pure (.char (BitVec.ofNat 16 n))
  | .double => Rd.bind (readU 8) fun n => Rd.pure (.double (BitVec.ofNat 64 n))
  | .float => Rd.bind (readU 4) fun n => Rd.pure (.float (BitVec.ofNat 32 n))
  | .int => Rd.bind (readU 4) fun n => Rd.pure (.int (BitVec.ofNat 32 n))
  | .long => Rd.bind (readU 8) fun n => Rd.pure (.long (BitVec.ofNat 64 n))
  | .short => Rd.bind (readU 2) fun n => Rd.pure (.short (BitVec.ofNat 16 n))
  | .string => Rd.bind readString fun s => Rd.pure (.string s)

/-- The inner loop over the bits of a bitset byte (`/repo/src/source/dc_source.rs:112-157`), `j` bits left; `acc` holds the values of the fields
before `field_index`. -/
def readGroup (types : List FieldType) : Nat → Byte → List FieldValue → Rd (List FieldValue)
  | 0, _, acc => Rd.pure acc
  | j + 1, bits, acc =>
    match types[acc.length]? with
    | none => Rd.panic                                        -- index out of range
    | some ty =>
      Rd.bind (if bits &&& 1 = 0 then readValue ty else Rd.pure .none) fun v =>
        if types.length ≤ acc.length + 1 then Rd.pure (acc ++ [v])
        else readGroup types j (bits >>> 1) (acc ++ [v])

/-- The outer loop over the bitset bytes (`/repo/src/source/dc_source.rs:110-158`). -/
def readGroups (types : List FieldType) : List Byte → List FieldValue → Rd (List FieldValue)
  | [], acc => Rd.pure acc
  | b :: bs, acc => Rd.bind (readGroup types 8 b acc) (readGroups types bs)

/-- Everything after the timestamp of a row (`/repo/src/source/dc_source.rs:103-159`). -/
def readRowBody (types : List FieldType) : Rd (List FieldValue) :=
  Rd.bind (readN (1 + (types.length - 1) / 8)) fun bitset => readGroups types bitset []

/-- `DCSource::next_row` (`/repo/src/source/dc_source.rs:97-160`). -/
def DcSource.nextRow (src : DcSource) : Res (Option Row) × DcSource :=
  match readU 8 src.stream with
  | (.ok ts, s) =>
    match readRowBody src.header.types s with
    | (.ok vs, s') => (.ok (some ⟨BitVec.ofNat 64 ts, vs⟩), { src with stream := s' })
    | (.err e, s') => (.err e, { src with stream := s' })
    | (.panic, s') => (.panic, { src with stream := s' })
    | (.diverge, s') => (.diverge, { src with stream := s' })
  | (.err _, s) => (.ok none, { src with stream := s })
  | (.panic, s) => (.panic, { src with stream := s })
  | (.diverge, s) => (.diverge, { src with stream := s })

/-! ## Writing

Functions that write return the bytes they appended to the output together with their result.  Failures of the output itself are not
modelled here (at driver level any sink behaviour is). -/

/-- What a writing function did. -/
structure Wr (α : Type) where
  out : List Byte
  res : Res α
deriving DecidableEq, Repr

namespace Wr
variable {α β : Type}
def put (bs : List Byte) : Wr Unit := ⟨bs, .ok ()⟩
def bind (x : Wr α) (f : α → Wr β) : Wr β :=
  match x.res with
  | .ok a => ⟨x.out ++ (f a).out, (f a).res⟩
  | .err e => ⟨x.out, .err e⟩
  | .panic => ⟨x.out, .panic⟩
  | .diverge => ⟨x.out, .diverge⟩
end Wr

/-- `write_sized_string` (`/repo/src/util/dc_util.rs:116-121`). -/
def sizedString (s : Str) : List Byte := beBytes 4 (utf8Len s) ++ utf8Encode s

/-- `write_string_value` (`/repo/src/util/dc_util.rs:123-134`). -/
def stringValue (s : Str) : List Byte :=
  (if utf8Len s ≤ 2 ^ 15 - 1 then beBytes 2 (utf8Len s) else beBytes 2 (2 ^ 16 - 1) ++ beBytes 4 (utf8Len s)) ++ utf8Encode s

/-- `write_field_type` (`/repo/src/write/dc_sink.rs:82-107`). -/
def writeFieldType : FieldType → Wr Unit
  | .boolean => ⟨[], .err (.custom "DCSink -- boolean field type is not supported")⟩
  | .byteBuf => ⟨[], .err (.custom "DCSink -- ByteBuffer field type is not supported")⟩
  | t => Wr.put (sizedString (typeString t))

/-- The loop of `write_field_descriptors` (`/repo/src/write/dc_sink.rs:74-78`) with `write_display_hint(None)` (`109-125`). -/
def writeDescriptors : List (Str × FieldType) → Wr Unit
  | [] => Wr.put []
  | (n, t) :: rest =>
    Wr.bind (Wr.put (sizedString n)) fun _ => Wr.bind (writeFieldType t) fun _ =>
      Wr.bind (Wr.put (beBytes 4 (2 ^ 32 - 1))) fun _ => writeDescriptors rest

/-- `write_header` (`/repo/src/write/dc_sink.rs:37-80`). -/
def writeHeader (h : Header) : Wr Unit :=
  Wr.bind (Wr.put (beBytes 8 dcMagic ++ beBytes 2 dcVersion ++ beBytes 4 0 ++ beBytes 4 h.types.length)) fun _ =>
    if h.names.length ≠ h.types.length then ⟨[], .err (.custom "DCSink -- number of field name and number of field types does not match")⟩
    else writeDescriptors (h.names.zip h.types)

/-- `field_types().len() - 1` (`/repo/src/write/dc_sink.rs:131`). -/
def lenMinusOne (ov : Overflow) (n : Nat) : Res Nat :=
  if n = 0 then
    match ov with
    | .panics => .panic
    | .wraps => .ok (2 ^ 64 - 1)
  else .ok (n - 1)

/-- `DCSink::process_header` (`/repo/src/write/dc_sink.rs:129-134`): the header bytes and the number of bitset bytes per row. -/
def dcProcessHeader (ov : Overflow) (h : Header) : Wr Nat :=
  Wr.bind (writeHeader h) fun _ => ⟨[], (lenMinusOne ov h.types.length).bind (getBitsetBytes ov)⟩

/-- The inner loop that builds a bitset byte (`/repo/src/write/dc_sink.rs:150-163`): the byte and the remaining values.  The sum of distinct powers of two below 256
never overflows a `u8`. -/
def bitsetByte : Nat → Nat → List FieldValue → Byte → Byte × List FieldValue
  | 0, _, vs, acc => (acc, vs)
  | _ + 1, _, [], acc => (acc, [])
  | j + 1, bit, v :: vs, acc => bitsetByte j (bit + 1) vs (if v = .none then acc + BitVec.ofNat 8 (2 ^ bit) else acc)

/-- The loop over the bitset bytes (`/repo/src/write/dc_sink.rs:149-164`). -/
def bitset : Nat → List FieldValue → List Byte
  | 0, _ => []
  | k + 1, vs => let (b, vs') := bitsetByte 8 0 vs 0; b :: bitset k vs'

/-- Writing one value (`/repo/src/write/dc_sink.rs:169-187`). -/
def writeValue : FieldValue → Wr Unit
  | .boolean _ => ⟨[], .err (.custom "DCSink -- boolean field type is not supported")⟩
  | .byte x => Wr.put (beBytes 1 x.toNat)
  | .byteBuf _ => ⟨[], .err (.custom "DCSink -- ByteBuffer field type is not supported")⟩
  | .char x => Wr.put (beBytes 2 x.toNat)
  | .double x => Wr.put (beBytes 8 x.toNat)
  | .float x => Wr.put (beBytes 4 x.toNat)
  | .int x => Wr.put (beBytes 4 x.toNat)
  | .long x => Wr.put (beBytes 8 x.toNat)
  | .short x => Wr.put (beBytes 2 x.toNat)
  | .string s => Wr.put (stringValue s)
  | .none => Wr.put []

/-- The loop over the values (`/repo/src/write/dc_sink.rs:168-188`). -/
def writeValues : List FieldValue → Wr Unit
  | [] => Wr.put []
  | v :: vs => Wr.bind (writeValue v) fun _ => writeValues vs

/-- `DCSink::write_row` (`/repo/src/write/dc_sink.rs:138-190`). -/
def dcWriteRow (bitsetBytes : Nat) (row : Row) : Wr Unit :=
  Wr.bind (Wr.put (beBytes 8 row.timestamp.toNat)) fun _ =>
    Wr.bind ⟨[], allocBytes bitsetBytes⟩ fun _ =>
      Wr.bind (Wr.put (bitset bitsetBytes row.values)) fun _ => writeValues row.values

/-- Rows written one after the other by the driver. -/
def dcWriteRows (bitsetBytes : Nat) : List Row → Wr Unit
  | [] => Wr.put []
  | r :: rs => Wr.bind (dcWriteRow bitsetBytes r) fun _ => dcWriteRows bitsetBytes rs

/-- A whole DC file: header, then rows. -/
def dcWriteFile (ov : Overflow) (h : Header) (rows : List Row) : Wr Unit :=
  Wr.bind (dcProcessHeader ov h) fun k => dcWriteRows k rows

end Chopper
