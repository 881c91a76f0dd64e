import Verif.Model.Writer

/-!
# The generator of example DC files (`/repo/util/dcgen/src/main.rs`)

All writes go directly to the file and every result is unwrapped. `write_u64` etc. (byteorder) use `write_all`; `out.write(..)` is a single call that may take only a
part of the bytes.
-/
namespace Chopper

/-- A single `Write::write` call: the device takes some of the bytes, or fails. -/
def Device.writeOnce (d : Device) (bs : List Byte) : Device × Res Unit :=
  match d.sched with
  | [] => ({ d with taken := d.taken ++ bs }, .ok ())
  | .take n :: ss => ({ d with taken := d.taken ++ bs.take (n + 1), sched := ss }, .ok ())
  | .fail k :: ss => ({ d with sched := ss }, .err (.io k))

/-- A part of the program: it writes to the file and goes on, or panics. -/
def Dg := Device → Device × Res Unit

/-- `.unwrap()`. -/
def dgUnwrap : Device × Res Unit → Device × Res Unit
  | (d, .ok ()) => (d, .ok ())
  | (d, .diverge) => (d, .diverge)
  | (d, _) => (d, .panic)

/-- `out.write_u64::<BigEndian>(..).unwrap()` and the like, with the bytes of the number. -/
def dgAll (bs : List Byte) : Dg := fun d => let r := d.writeAll bs; dgUnwrap (r.1, r.2.2)

/-- `out.write(..).unwrap()`. -/
def dgOnce (bs : List Byte) : Dg := fun d => dgUnwrap (d.writeOnce bs)

/-- One statement after the other. -/
def Dg.then (a b : Dg) : Dg := fun d =>
  match a d with
  | (d', .ok ()) => b d'
  | (d', r) => (d', r)

/-- Nothing. -/
def Dg.skip : Dg := fun d => (d, .ok ())

/-- `write_magic` (`/repo/util/dcgen/src/main.rs:45`). -/
def dgMagic : Dg := dgAll (beBytes 8 0x44434154)
/-- `write_version` (`/repo/util/dcgen/src/main.rs:46`). -/
def dgVersion : Dg := dgAll (beBytes 2 2)

/-- `write_user_header` (`/repo/util/dcgen/src/main.rs:48-52`). -/
def dgUserHeader : Dg := (dgAll (beBytes 4 (utf8Encode "example".toList).length)).then (dgOnce (utf8Encode "example".toList))

/-- `write_sized_string` (`/repo/util/dcgen/src/main.rs:79-83`). -/
def dgSizedString (s : Str) : Dg := (dgAll (beBytes 4 (utf8Encode s).length)).then (dgOnce (utf8Encode s))

/-- `FieldType` (`/repo/util/dcgen/src/main.rs:23-27`). -/
inductive GenType where
  | double | int | string

/-- `write_field_type` (`/repo/util/dcgen/src/main.rs:70-77`). -/
def dgFieldType : GenType → Dg
  | .double => dgSizedString "D".toList
  | .int => dgSizedString "I".toList
  | .string => dgSizedString "Ljava.lang.String;".toList

/-- `DisplayHint` (`/repo/util/dcgen/src/main.rs:29-32`). -/
inductive GenHint where
  | timestamp | none

/-- `write_field_display_hint` (`/repo/util/dcgen/src/main.rs:85-91`): 0 or -1 as `i32`. -/
def dgHint : GenHint → Dg
  | .timestamp => dgAll (beBytes 4 0)
  | .none => dgAll (beBytes 4 (2 ^ 32 - 1))

/-- `write_field_descriptor` (`/repo/util/dcgen/src/main.rs:64-68`). -/
def dgDescriptor (name : String) (ty : GenType) (hint : GenHint) : Dg := (dgSizedString name.toList).then ((dgFieldType ty).then (dgHint hint))

/-- `write_field_descriptors` (`/repo/util/dcgen/src/main.rs:54-62`). -/
def dgDescriptors : Dg :=
  (dgAll (beBytes 4 4)).then <| (dgDescriptor "a_double" .double .none).then <| (dgDescriptor "an_int" .int .none).then <|
    (dgDescriptor "an_int_timestamp" .int .timestamp).then (dgDescriptor "a_string" .string .none)

/-- `write_row_bitfield_with_no_nulls` (`/repo/util/dcgen/src/main.rs:112-116`); only called with a positive count. -/
def dgBitfield (fieldCount : Nat) : Dg := dgOnce (List.replicate (1 + (fieldCount - 1) / 8) 0)

/-- `write_string_value` (`/repo/util/dcgen/src/main.rs:118-127`). -/
def dgStringValue (s : Str) : Dg :=
  (if (utf8Encode s).length ≤ 2 ^ 15 - 1 then dgAll (beBytes 2 (utf8Encode s).length)
    else (dgAll (beBytes 2 (2 ^ 16 - 1))).then (dgAll (beBytes 4 (utf8Encode s).length))).then (dgOnce (utf8Encode s))

/-- `write_row` (`/repo/util/dcgen/src/main.rs:100-110`); `toF64` is the conversion `u64 as f64`. -/
def dgRow (toF64 : BitVec 64 → BitVec 64) (timestamp : BitVec 64) : Dg :=
  (dgAll (beBytes 8 timestamp.toNat)).then <| (dgBitfield 4).then <| (dgAll (beBytes 8 (toF64 timestamp).toNat)).then <|
    (dgAll (beBytes 4 (timestamp.setWidth 32).toNat)).then <| (dgAll (beBytes 4 (timestamp.setWidth 32).toNat)).then (dgStringValue (natToStr timestamp.toNat))

/-- The loop of `write_rows` (`/repo/util/dcgen/src/main.rs:93-98`): `n` more rows, the next one is row `i`. -/
def dgRows (toF64 : BitVec 64 → BitVec 64) : Nat → Nat → Dg
  | 0, _ => Dg.skip
  | n + 1, i => (dgRow toF64 (BitVec.ofNat 64 i)).then (dgRows toF64 n (i + 1))

/-- `write_header` (`/repo/util/dcgen/src/main.rs:37-43`) with the number of rows as a parameter (100 in the program). -/
def dgFile (toF64 : BitVec 64 → BitVec 64) (rowCount : Nat) : Dg :=
  dgMagic.then <| dgVersion.then <| dgUserHeader.then <| dgDescriptors.then (dgRows toF64 rowCount 0)

/-- The program, once the file has been created (`/repo/util/dcgen/src/main.rs:9-20`). -/
def dcgen (toF64 : BitVec 64 → BitVec 64) : Dg := dgFile toF64 100

end Chopper
