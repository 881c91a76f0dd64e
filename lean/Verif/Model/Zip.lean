import Verif.Model.Reader

/-!
# CRC-32 checking and zip archives (`/repo/src/decompress/crc32.rs`, `/repo/src/decompress/zip.rs`)
-/
namespace Chopper

/-! ## CRC-32 -/

/-- One bit step of the reflected CRC-32 (polynomial 0xEDB88320) of `crc32fast`. -/
def crcBit (s : BitVec 32) : BitVec 32 := if s.getLsbD 0 then (s >>> 1) ^^^ 0xEDB88320#32 else s >>> 1

/-- One byte. -/
def crcByte (s : BitVec 32) (b : Byte) : BitVec 32 :=
  crcBit (crcBit (crcBit (crcBit (crcBit (crcBit (crcBit (crcBit (s ^^^ b.setWidth 32))))))))

/-- `crc32fast::Hasher`: the state. Simplification: `crc32fast` uses tables or SIMD instructions to compute this function. -/
structure Hasher where
  state : BitVec 32
deriving DecidableEq, Repr

/-- `Hasher::new` (`/repo/src/decompress/crc32.rs:15`). -/
def Hasher.new : Hasher := ⟨0xFFFFFFFF#32⟩
/-- `Hasher::update` (`/repo/src/decompress/crc32.rs:36`). -/
def Hasher.update (h : Hasher) (bs : List Byte) : Hasher := ⟨bs.foldl crcByte h.state⟩
/-- `Hasher::finish` (`/repo/src/decompress/crc32.rs:25`). -/
def Hasher.finish (h : Hasher) : BitVec 32 := h.state ^^^ 0xFFFFFFFF#32

/-- `Crc32Reader` (`/repo/src/decompress/crc32.rs:4-8`). -/
structure CrcReader where
  inner : Inner
  crc32 : BitVec 32
  hasher : Hasher
deriving DecidableEq, Repr

/-- `Crc32Reader::new` (`/repo/src/decompress/crc32.rs:11-17`). -/
def CrcReader.new (inner : Inner) (expected : BitVec 32) : CrcReader := ⟨inner, expected, Hasher.new⟩

/-- `Crc32Reader::read` (`/repo/src/decompress/crc32.rs:21-38`) with a buffer of `n` bytes. -/
def CrcReader.read (r : CrcReader) (n : Nat) : Res (List Byte) × CrcReader :=
  match r.inner.read n with
  | (.ok bs, inner) =>
    if bs.length = 0 ∧ n ≠ 0 ∧ r.hasher.finish ≠ r.crc32 then (.err (.io .invalidData), { r with inner := inner })
    else (.ok bs, { r with inner := inner, hasher := r.hasher.update bs })
  | (.err e, inner) => (.err e, { r with inner := inner })
  | (.panic, inner) => (.panic, { r with inner := inner })
  | (.diverge, inner) => (.diverge, { r with inner := inner })

/-! ## A seekable file

Its bytes do not change; the state is the position. Simplification: system calls on it do not fail, except where noted. -/

/-- A function using a seekable file: position before ↦ result and position after. -/
def Sk (α : Type) := Nat → Res (α × Nat)

namespace Sk
variable {α β : Type}

def pure (a : α) : Sk α := fun pos => .ok (a, pos)
def fail (e : Err) : Sk α := fun _ => .err e
/-- `?`. -/
def bind (x : Sk α) (f : α → Sk β) : Sk β := fun pos => (x pos).bind fun (a, pos) => f a pos

instance : Monad Sk where
  pure := pure
  bind := bind

end Sk

/-- Little-endian value (`byteorder::LittleEndian`). -/
def leVal : List Byte → Nat
  | [] => 0
  | b :: bs => b.toNat + 256 * leVal bs

/-- The largest offset a file can have, plus one (`off_t`). -/
def maxOffset : Nat := 2 ^ 63

/-- `read_exact` into a buffer of `n` bytes. -/
def skReadExact (file : List Byte) (n : Nat) : Sk (List Byte) := fun pos =>
  if n = 0 then .ok ([], pos)
  else if pos + n ≤ file.length then .ok ((file.drop pos).take n, pos + n) else .err (.io .unexpectedEof)

/-- `read_u16`/`read_u32`/`read_u64::<LittleEndian>`: `n` = 2, 4, 8. -/
def skLe (file : List Byte) (n : Nat) : Sk Nat := Sk.bind (skReadExact file n) fun bs => Sk.pure (leVal bs)

/-- `seek(SeekFrom::Start(n))`: fails if `n` is not a file offset. -/
def skStart (n : Nat) : Sk Unit := fun _ => if n < maxOffset then .ok ((), n) else .err (.io .other)

/-- `seek(SeekFrom::Current(n))`, `n ≥ 0`; seeking beyond the end is allowed. -/
def skForward (n : Nat) : Sk Unit := fun pos => if pos + n < maxOffset then .ok ((), pos + n) else .err (.io .other)

/-- `seek(SeekFrom::End(-n))`: fails if that is before the start. -/
def skBack (file : List Byte) (n : Nat) : Sk Unit := fun _ => if n ≤ file.length then .ok ((), file.length - n) else .err (.io .other)

/-! ## Zip -/

/-- The standard library's and the decoder crates' parts. -/
structure ZipLib where
  /-- what `String::from_utf8_lossy` makes of bytes that are not UTF-8 -/
  lossyInvalid : List Byte → Str
  /-- `DeflateDecoder::new` -/
  inflate : Inner → Inner
  /-- `BzDecoder::new` -/
  bunzip : Inner → Inner
  /-- how the file chops the data up when it is read -/
  sched : List ReadStep

/-- `io::Error::new(ErrorKind::InvalidData, ..)`. -/
def zipErr {α : Type} : Sk α := Sk.fail (.io .invalidData)

/-- `is_zip` (`/repo/src/decompress/zip.rs:48-55`). -/
def isZip (file : List Byte) : Sk Bool :=
  Sk.bind (skBack file 0) fun _ =>
  if file.length < 4 then Sk.pure false
  else Sk.bind (skStart 0) fun _ => Sk.bind (skLe file 4) fun s => Sk.pure (s == 0x04034b50)

/-- The loop of `find_eocdr_and_prepare_to_read` (`/repo/src/decompress/zip.rs:122-134`); `n` is `max_back - pos`. -/
def findEocdrLoop (file : List Byte) (maxBack : Nat) : Nat → Sk Unit
  | 0 => zipErr
  | n + 1 =>
    let pos := maxBack - (n + 1)
    Sk.bind (skBack file pos) fun _ => Sk.bind (skLe file 4) fun s =>
      if s = 0x06054b50 then Sk.pure () else findEocdrLoop file maxBack n

/-- `find_eocdr_and_prepare_to_read` (`/repo/src/decompress/zip.rs:118-135`). -/
def findEocdr (file : List Byte) : Sk Unit :=
  let maxBack := min file.length (1 <<< 20)
  Sk.bind (skBack file 0) fun _ => findEocdrLoop file maxBack (maxBack - 4)

/-- `EndOfCentralDirRecord` (`/repo/src/decompress/zip.rs:217-221`). -/
structure Eocdr where
  cdSize : Nat
  cdOffset : Nat
  commentLen : Nat
deriving DecidableEq, Repr

/-- `EndOfCentralDirRecord::read` (`/repo/src/decompress/zip.rs:223-255`). -/
def eocdrRead (file : List Byte) : Sk Eocdr := do
  let disk ← skLe file 2
  let diskCd ← skLe file 2
  let entriesDisk ← skLe file 2
  let entries ← skLe file 2
  let cdSize ← skLe file 4
  let cdOffset ← skLe file 4
  let commentLen ← skLe file 2
  skForward commentLen
  if entries ≠ 1 ∨ entriesDisk ≠ 1 then zipErr
  else if disk ≠ 0 ∨ diskCd ≠ 0 then zipErr
  else Sk.pure ⟨cdSize, cdOffset, commentLen⟩

/-- `read_zip64_eocdl_and_get_eocdr_offset` (`/repo/src/decompress/zip.rs:172-185`). -/
def readEocdl64 (file : List Byte) : Sk Nat := do
  let diskCd ← skLe file 4
  let off ← skLe file 8
  let disks ← skLe file 4
  if disks ≠ 1 ∨ diskCd ≠ 0 then zipErr else Sk.pure off

/-- `read_zip64_eocdr_and_get_central_dir_offset` (`/repo/src/decompress/zip.rs:187-215`). -/
def readEocdr64 (file : List Byte) : Sk Nat := do
  let _recordSize ← skLe file 8
  let _madeBy ← skLe file 2
  let _needed ← skLe file 2
  let disk ← skLe file 4
  let diskCd ← skLe file 4
  let filesDisk ← skLe file 8
  let files ← skLe file 8
  let _cdSize ← skLe file 8
  let cdOffset ← skLe file 8
  if files ≠ 1 ∨ filesDisk ≠ 1 then zipErr
  else if disk ≠ 0 ∨ diskCd ≠ 0 then zipErr
  else Sk.pure cdOffset

/-- `get_start_of_central_dir_offset` (`/repo/src/decompress/zip.rs:137-170`). -/
def getStartOfCentralDir (file : List Byte) (eocdr : Eocdr) : Sk Nat := fun pos =>
  match skBack file (4 + 16 + 4 + 18 + eocdr.commentLen) pos with
  | .ok (_, pos) =>
    (do
      let sig ← skLe file 4
      if sig ≠ 0x07064b50 then Sk.pure eocdr.cdOffset
      else do
        let off ← readEocdl64 file
        skStart off
        let sig ← skLe file 4
        if sig ≠ 0x06064b50 then zipErr else readEocdr64 file : Sk Nat) pos
  | _ => .ok (eocdr.cdOffset, pos)                  -- `.is_err()`; the position does not change

/-- One `read_u64` of the zip64 extra subfield (`/repo/src/decompress/zip.rs:358-369`): the value and the bytes read. -/
def readIfSaturated (file : List Byte) (v dataRead : Nat) : Sk (Nat × Nat) :=
  if v = 0xffffffff then Sk.bind (skLe file 8) fun v => Sk.pure (v, dataRead + 8) else Sk.pure (v, dataRead)

/-- Uncompressed size, compressed size, local header offset. -/
structure Sizes where
  usize : Nat
  csize : Nat
  off : Nat
deriving DecidableEq, Repr

/-- Reading the zip64 subfield (`/repo/src/decompress/zip.rs:358-369`). -/
def readZip64Sub (file : List Byte) (z : Sizes) : Sk (Sizes × Nat) := do
  let (u, r) ← readIfSaturated file z.usize 0
  let (c, r) ← readIfSaturated file z.csize r
  let (o, r) ← readIfSaturated file z.off r
  Sk.pure (⟨u, c, o⟩, r)

/-- The zip64 part of one iteration, for the subfield with the given id (`/repo/src/decompress/zip.rs:356-370`). -/
def readSub (file : List Byte) (id : Nat) (z : Sizes) : Sk (Sizes × Nat) :=
  if id = 1 then readZip64Sub file z else Sk.pure (z, 0)

/-- `read_extra_field` (`/repo/src/decompress/zip.rs:343-384`); one unit of fuel per iteration. -/
def readExtraLoop (file : List Byte) (len : Nat) : Nat → Nat → Sizes → Sk Sizes
  | 0, _, _ => fun _ => .diverge
  | fuel + 1, total, z =>
    if total < len then do
      let id ← skLe file 2
      let dataSize ← skLe file 2
      let (z', dataRead) ← readSub file id z
      if dataRead > dataSize then zipErr
      else do
        skForward (dataSize - dataRead)
        readExtraLoop file len fuel (total + dataSize) z'
    else Sk.pure z

/-- The file name (`/repo/src/decompress/zip.rs:323-330`). -/
def zipName (lib : ZipLib) (flags : Nat) (bs : List Byte) : Str :=
  if flags &&& (1 <<< 11) ≠ 0 then
    match utf8Decode bs with
    | some s => s
    | none => lib.lossyInvalid bs
  else bs.map fun b => if b.toNat ≤ 0x7f then Char.ofNat b.toNat else Char.ofNat 0xfffd

/-- `CentralDirHeader` (`/repo/src/decompress/zip.rs:258-266`). -/
structure CdHeader where
  method : Nat
  crc32 : Nat
  sizes : Sizes
  name : Str
deriving DecidableEq, Repr

/-- `CentralDirHeader::read` (`/repo/src/decompress/zip.rs:268-341`). -/
def cdHeaderRead (lib : ZipLib) (file : List Byte) : Sk CdHeader := do
  let sig ← skLe file 4
  if sig ≠ 0x02014b50 then zipErr
  else do
    let _madeBy ← skLe file 2
    let _needed ← skLe file 2
    let flags ← skLe file 2
    let method ← skLe file 2
    let _time ← skLe file 2
    let _date ← skLe file 2
    let crc ← skLe file 4
    let csize ← skLe file 4
    let usize ← skLe file 4
    let nameLen ← skLe file 2
    let extraLen ← skLe file 2
    let commentLen ← skLe file 2
    let disk ← skLe file 2
    let _int ← skLe file 2
    let _ext ← skLe file 4
    let off ← skLe file 4
    let nameBytes ← skReadExact file nameLen
    let z ← readExtraLoop file extraLen (file.length + 1) 0 ⟨usize, csize, off⟩
    skForward commentLen
    if flags &&& 1 ≠ 0 then zipErr
    else if disk ≠ 0 ∧ disk ≠ 0xffff then zipErr
    else Sk.pure ⟨method, crc, z, zipName lib flags nameBytes⟩

/-- The reader for the data at the current position (`/repo/src/decompress/zip.rs:89-115`). -/
def zipReader (lib : ZipLib) (file : List Byte) (h : CdHeader) : Sk (CrcReader × Str) := fun pos =>
  let taken : Inner := ⟨(file.drop pos).take h.sizes.csize, lib.sched, none⟩      -- `reader.take(compressed_size)`
  let crc := BitVec.ofNat 32 h.crc32
  match h.method with
  | 0 => .ok ((CrcReader.new taken crc, h.name), pos)
  | 8 => .ok ((CrcReader.new (lib.inflate taken) crc, h.name), pos)
  | 12 => .ok ((CrcReader.new (lib.bunzip taken) crc, h.name), pos)
  | _ => .err (.io .invalidData)

/-- `new_reader_for_single_file_zip_archive` (`/repo/src/decompress/zip.rs:57-116`): the reader and the file name. -/
def openZip (lib : ZipLib) (file : List Byte) : Sk (CrcReader × Str) := do
  findEocdr file
  let eocdr ← eocdrRead file
  let start ← getStartOfCentralDir file eocdr
  skStart start
  let h ← cdHeaderRead lib file
  skStart h.sizes.off
  let sig ← skLe file 4
  if sig ≠ 0x04034b50 then zipErr
  else do
    skForward 22
    let nameLen ← skLe file 2
    let extraLen ← skLe file 2
    skForward nameLen
    skForward extraLen
    zipReader lib file h

end Chopper
