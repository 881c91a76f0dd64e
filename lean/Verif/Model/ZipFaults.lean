import Verif.Model.Zip

/-!
# Zip archives on a file whose reads and seeks can fail (`/repo/src/decompress/zip.rs`)

The same functions as in `Model/Zip`, where every `seek` and every `read_exact` of at least one byte may report an I/O error.
-/
namespace Chopper

/-- What happens to the next operations on the file: `none` - it works, `some e` - the operating system reports the error `e`. After the end of
the list everything works. -/
abbrev Faults := List (Option IoKind)

/-- A function using a seekable file that can fail: position and faults before ↦ result, position and faults after. -/
def SkF (α : Type) := Nat × Faults → Res (α × (Nat × Faults))

namespace SkF
variable {α β : Type}

def pure (a : α) : SkF α := fun s => .ok (a, s)
def fail (e : Err) : SkF α := fun _ => .err e
/-- `?`. -/
def bind (x : SkF α) (f : α → SkF β) : SkF β := fun s => (x s).bind fun (a, s) => f a s

instance : Monad SkF where
  pure := pure
  bind := bind

end SkF

/-- One operation on the file, which may fail. -/
def faulty {α : Type} (x : Sk α) : SkF α := fun (pos, fs) =>
  match fs with
  | some e :: _ => .err (.io e)
  | none :: fs => (x pos).bind fun (a, p) => .ok (a, (p, fs))
  | [] => (x pos).bind fun (a, p) => .ok (a, (p, []))

/-- `read_exact` into a buffer of `n` bytes; without a system call if `n = 0`. -/
def fReadExact (file : List Byte) (n : Nat) : SkF (List Byte) :=
  if n = 0 then SkF.pure [] else faulty (skReadExact file n)

/-- `read_u16`/`read_u32`/`read_u64::<LittleEndian>`: `n` = 2, 4, 8. -/
def fLe (file : List Byte) (n : Nat) : SkF Nat := SkF.bind (fReadExact file n) fun bs => SkF.pure (leVal bs)

/-- `seek(SeekFrom::Start(n))`. -/
def fStart (n : Nat) : SkF Unit := faulty (skStart n)
/-- `seek(SeekFrom::Current(n))`, `n ≥ 0`. -/
def fForward (n : Nat) : SkF Unit := faulty (skForward n)
/-- `seek(SeekFrom::End(-n))`. -/
def fBack (file : List Byte) (n : Nat) : SkF Unit := faulty (skBack file n)

/-- `io::Error::new(ErrorKind::InvalidData, ..)`. -/
def fErr {α : Type} : SkF α := SkF.fail (.io .invalidData)

/-- `is_zip` (`/repo/src/decompress/zip.rs:48-55`). -/
def isZipF (file : List Byte) : SkF Bool :=
  SkF.bind (fBack file 0) fun _ =>
  if file.length < 4 then SkF.pure false
  else SkF.bind (fStart 0) fun _ => SkF.bind (fLe file 4) fun s => SkF.pure (s == 0x04034b50)

/-- The loop of `find_eocdr_and_prepare_to_read` (`/repo/src/decompress/zip.rs:122-134`); `n` is `max_back - pos`. -/
def findEocdrLoopF (file : List Byte) (maxBack : Nat) : Nat → SkF Unit
  | 0 => fErr
  | n + 1 =>
    let pos := maxBack - (n + 1)
    SkF.bind (fBack file pos) fun _ => SkF.bind (fLe file 4) fun s =>
      if s = 0x06054b50 then SkF.pure () else findEocdrLoopF file maxBack n

/-- `find_eocdr_and_prepare_to_read` (`/repo/src/decompress/zip.rs:118-135`). -/
def findEocdrF (file : List Byte) : SkF Unit :=
  let maxBack := min file.length (1 <<< 20)
  SkF.bind (fBack file 0) fun _ => findEocdrLoopF file maxBack (maxBack - 4)

/-- `EndOfCentralDirRecord::read` (`/repo/src/decompress/zip.rs:223-255`). -/
def eocdrReadF (file : List Byte) : SkF Eocdr := do
  let disk ← fLe file 2
  let diskCd ← fLe file 2
  let entriesDisk ← fLe file 2
  let entries ← fLe file 2
  let cdSize ← fLe file 4
  let cdOffset ← fLe file 4
  let commentLen ← fLe file 2
  fForward commentLen
  if entries ≠ 1 ∨ entriesDisk ≠ 1 then fErr
  else if disk ≠ 0 ∨ diskCd ≠ 0 then fErr
  else SkF.pure ⟨cdSize, cdOffset, commentLen⟩

/-- `read_zip64_eocdl_and_get_eocdr_offset` (`/repo/src/decompress/zip.rs:172-185`). -/
def readEocdl64F (file : List Byte) : SkF Nat := do
  let diskCd ← fLe file 4
  let off ← fLe file 8
  let disks ← fLe file 4
  if disks ≠ 1 ∨ diskCd ≠ 0 then fErr else SkF.pure off

/-- `read_zip64_eocdr_and_get_central_dir_offset` (`/repo/src/decompress/zip.rs:187-215`). -/
def readEocdr64F (file : List Byte) : SkF Nat := do
  let _recordSize ← fLe file 8
  let _madeBy ← fLe file 2
  let _needed ← fLe file 2
  let disk ← fLe file 4
  let diskCd ← fLe file 4
  let filesDisk ← fLe file 8
  let files ← fLe file 8
  let _cdSize ← fLe file 8
  let cdOffset ← fLe file 8
  if files ≠ 1 ∨ filesDisk ≠ 1 then fErr
  else if disk ≠ 0 ∨ diskCd ≠ 0 then fErr
  else SkF.pure cdOffset

/-- The rest of `get_start_of_central_dir_offset` after the seek (`/repo/src/decompress/zip.rs:156-169`). -/
def afterSeekF (file : List Byte) (eocdr : Eocdr) : SkF Nat := do
  let sig ← fLe file 4
  if sig ≠ 0x07064b50 then SkF.pure eocdr.cdOffset
  else do
    let off ← readEocdl64F file
    fStart off
    let sig ← fLe file 4
    if sig ≠ 0x06064b50 then fErr else readEocdr64F file

/-- `get_start_of_central_dir_offset` (`/repo/src/decompress/zip.rs:137-170`): *any* error of the first seek is taken for "the file is
too short for a zip64 locator". -/
def getStartOfCentralDirF (file : List Byte) (eocdr : Eocdr) : SkF Nat := fun s =>
  match fBack file (4 + 16 + 4 + 18 + eocdr.commentLen) s with
  | .ok (_, s') => afterSeekF file eocdr s'
  | _ => .ok (eocdr.cdOffset, (s.1, s.2.tail))                  -- `.is_err()`; the position does not change

/-- One `read_u64` of the zip64 extra subfield (`/repo/src/decompress/zip.rs:358-369`): the value and the bytes read. -/
def readIfSaturatedF (file : List Byte) (v dataRead : Nat) : SkF (Nat × Nat) :=
  if v = 0xffffffff then SkF.bind (fLe file 8) fun v => SkF.pure (v, dataRead + 8) else SkF.pure (v, dataRead)

/-- Reading the zip64 subfield (`/repo/src/decompress/zip.rs:358-369`). -/
def readZip64SubF (file : List Byte) (z : Sizes) : SkF (Sizes × Nat) := do
  let (u, r) ← readIfSaturatedF file z.usize 0
  let (c, r) ← readIfSaturatedF file z.csize r
  let (o, r) ← readIfSaturatedF file z.off r
  SkF.pure (⟨u, c, o⟩, r)

/-- The zip64 part of one iteration, for the subfield with the given id (`/repo/src/decompress/zip.rs:356-370`). -/
def readSubF (file : List Byte) (id : Nat) (z : Sizes) : SkF (Sizes × Nat) :=
  if id = 1 then readZip64SubF file z else SkF.pure (z, 0)

/-- `read_extra_field` (`/repo/src/decompress/zip.rs:343-384`); one unit of fuel per iteration. -/
def readExtraLoopF (file : List Byte) (len : Nat) : Nat → Nat → Sizes → SkF Sizes
  | 0, _, _ => fun _ => .diverge
  | fuel + 1, total, z =>
    if total < len then do
      let id ← fLe file 2
      let dataSize ← fLe file 2
      let (z', dataRead) ← readSubF file id z
      if dataRead > dataSize then fErr
      else do
        fForward (dataSize - dataRead)
        readExtraLoopF file len fuel (total + dataSize) z'
    else SkF.pure z

/-- `CentralDirHeader::read` (`/repo/src/decompress/zip.rs:268-341`). -/
def cdHeaderReadF (lib : ZipLib) (file : List Byte) : SkF CdHeader := do
  fForward 0                                                    -- `seek(SeekFrom::Current(0))`, line 270
  let sig ← fLe file 4
  if sig ≠ 0x02014b50 then fErr
  else do
    let _madeBy ← fLe file 2
    let _needed ← fLe file 2
    let flags ← fLe file 2
    let method ← fLe file 2
    let _time ← fLe file 2
    let _date ← fLe file 2
    let crc ← fLe file 4
    let csize ← fLe file 4
    let usize ← fLe file 4
    let nameLen ← fLe file 2
    let extraLen ← fLe file 2
    let commentLen ← fLe file 2
    let disk ← fLe file 2
    let _int ← fLe file 2
    let _ext ← fLe file 4
    let off ← fLe file 4
    let nameBytes ← fReadExact file nameLen
    let z ← readExtraLoopF file extraLen (file.length + 1) 0 ⟨usize, csize, off⟩
    fForward commentLen
    if flags &&& 1 ≠ 0 then fErr
    else if disk ≠ 0 ∧ disk ≠ 0xffff then fErr
    else SkF.pure ⟨method, crc, z, zipName lib flags nameBytes⟩

/-- The reader for the data at the current position (`/repo/src/decompress/zip.rs:89-115`); no operation on the file. -/
def zipReaderF (lib : ZipLib) (file : List Byte) (h : CdHeader) : SkF (CrcReader × Str) := fun (pos, fs) =>
  (zipReader lib file h pos).bind fun (a, p) => .ok (a, (p, fs))

/-- `new_reader_for_single_file_zip_archive` (`/repo/src/decompress/zip.rs:57-116`): the reader and the file name. -/
def openZipF (lib : ZipLib) (file : List Byte) : SkF (CrcReader × Str) := do
  findEocdrF file
  let eocdr ← eocdrReadF file
  let start ← getStartOfCentralDirF file eocdr
  fStart start
  let h ← cdHeaderReadF lib file
  fStart h.sizes.off
  let sig ← fLe file 4
  if sig ≠ 0x04034b50 then fErr
  else do
    fForward 22
    let nameLen ← fLe file 2
    let extraLen ← fLe file 2
    fForward nameLen
    fForward extraLen
    zipReaderF lib file h

end Chopper
