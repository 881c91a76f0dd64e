import Verif.Model.Input
import Verif.Model.Zip

/-!
# `flate2::read::GzDecoder` (crate `flate2`, version 1), as used by `decompress_gz` (`/repo/src/decompress/decompress.rs:118-121`)

The crate is not part of the code: this is our reading of it. It reads **one** member (RFC 1952), checks its trailer, and answers "end of file" from then on; the
decoder for files with several members is another one (`MultiGzDecoder`), which the code does not use.
-/
namespace Chopper

/-- What becomes of bytes on being inflated: the whole content of a deflate stream and the bytes after the stream; or the content up to the point where the bytes run
out; or the content up to the point where they make no sense. -/
inductive Inflated where
  | complete (content rest : List Byte)
  | cut (content : List Byte)
  | corrupt (content : List Byte)
deriving DecidableEq, Repr

/-- The parts of `flate2` that are parameters: inflating (RFC 1951), and in which pieces the decoder will hand out its bytes. -/
structure GzCrate where
  inflate : List Byte → Inflated
  sched : List Byte → List ReadStep

/-- The optional "extra field": a length of two bytes, and that many bytes. -/
def gzExtra (d : List Byte) : Res (List Byte) :=
  if d.length < 2 then .err (.io .unexpectedEof)
  else if d.length < 2 + leVal (d.take 2) then .err (.io .unexpectedEof)
  else .ok (d.drop (2 + leVal (d.take 2)))

/-- An optional file name or comment: up to a zero byte. -/
def gzZero : List Byte → Res (List Byte)
  | [] => .err (.io .unexpectedEof)
  | b :: d => if b = 0 then .ok d else gzZero d

/-- The optional checksum of the header: the lower half of the CRC-32 of everything before it. `d` is what is left of `all`. -/
def gzHcrc (all d : List Byte) : Res (List Byte) :=
  if d.length < 2 then .err (.io .unexpectedEof)
  else if leVal (d.take 2) = ((Hasher.new.update (all.take (all.length - d.length))).finish).toNat % 65536 then .ok (d.drop 2)
  else .err (.io .other)

/-- The header; what is left is the deflate stream. -/
def gzHeader (all : List Byte) : Res (List Byte) :=
  match all with
  | a :: b :: c :: flags :: _ :: _ :: _ :: _ :: _ :: _ :: d =>
    if a ≠ 0x1f ∨ b ≠ 0x8b ∨ c ≠ 8 then .err (.io .other)
    else if 32 ≤ flags.toNat then .err (.io .other)
    else
      (if flags.getLsbD 2 then gzExtra d else .ok d).bind fun d =>
      (if flags.getLsbD 3 then gzZero d else .ok d).bind fun d =>
      (if flags.getLsbD 4 then gzZero d else .ok d).bind fun d =>
      if flags.getLsbD 1 then gzHcrc all d else .ok d
  | _ => .err (.io .unexpectedEof)

/-- All a `GzDecoder` over these bytes will answer: the bytes it delivers, and the error it ends with, if it is not the end of file. After the deflate stream follow the
CRC-32 of the content and its length modulo 2^32; what follows these is not looked at. -/
def gzDecode (lib : GzCrate) (data : List Byte) : List Byte × Option IoKind :=
  match gzHeader data with
  | .ok body =>
    match lib.inflate body with
    | .cut content => (content, some .unexpectedEof)
    | .corrupt content => (content, some .other)
    | .complete content rest =>
      if rest.length < 8 then (content, some .unexpectedEof)
      else if leVal (rest.take 4) ≠ ((Hasher.new.update content).finish).toNat then (content, some .other)
      else if leVal ((rest.drop 4).take 4) ≠ content.length % 2 ^ 32 then (content, some .other)
      else (content, none)
  | .err (.io k) => ([], some k)
  | _ => ([], some .other)

/-- `GzDecoder::new(reader)` as a reader (`/repo/src/decompress/decompress.rs:118-121`). Where the data of the underlying reader end with an error the decoder reports that
error. Simplification: errors the underlying reader reports before the end of its data are not modelled. -/
def gzReader (lib : GzCrate) (r : BufReader) : Inner :=
  let data := (r.buf.drop r.pos).take (r.cap - r.pos) ++ r.inner.data
  let d := gzDecode lib data
  ⟨d.1, lib.sched data, if d.2 = some .unexpectedEof then some (r.inner.ending.getD .unexpectedEof) else d.2⟩

end Chopper
