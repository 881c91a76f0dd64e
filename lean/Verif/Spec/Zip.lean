import Verif.Spec.Reader
import Verif.Model.Zip

/-!
# Specification of zip archives and checksums

Zip: the record layouts of PKWARE's APPNOTE.TXT (4.3.7 local file header, 4.3.12 central directory header, 4.3.14 zip64 end of central
directory record, 4.3.15 zip64 end of central directory locator, 4.3.16 end of central directory record, 4.5.3 zip64 extra field).
Checksum: CRC-32 as in ISO 3309, ITU-T V.42.
-/
namespace Chopper.Spec
open Chopper

/-! ## Reading to the end -/

/-- A client reads with buffers of arbitrary non-zero sizes until it gets nothing or an error: all the bytes it got, and `none` if it got to the
end, or the error. -/
inductive ReadsToEnd {S : Type} (read : S → Nat → Res (List Byte) × S) : S → List Byte → Option Err → Prop where
  | done {s s' : S} {n : Nat} : 0 < n → read s n = (.ok [], s') → ReadsToEnd read s [] none
  | error {s s' : S} {n : Nat} {e : Err} : 0 < n → read s n = (.err e, s') → ReadsToEnd read s [] (some e)
  | more {s s' : S} {n : Nat} {bs out : List Byte} {e : Option Err} : 0 < n → read s n = (.ok bs, s') → bs ≠ [] →
      ReadsToEnd read s' out e → ReadsToEnd read s (bs ++ out) e

/-! ## CRC-32 over bits

The register is shifted right by one for each message bit (least significant bit of each byte first); if the bit shifted out differs from the
message bit, the polynomial is added. The register starts with all ones and is complemented at the end. -/

/-- The bits of a byte sequence in transmission order. -/
def bitsOf (bs : List Byte) : List Bool := bs.flatMap fun b => (List.range 8).map fun i => b.getLsbD i

/-- One message bit. -/
def crcShift (s : BitVec 32) (bit : Bool) : BitVec 32 :=
  if s.getLsbD 0 ≠ bit then (s >>> 1) ^^^ 0xEDB88320#32 else s >>> 1

/-- The CRC-32 of a byte sequence. -/
def crc32 (bs : List Byte) : BitVec 32 := ((bitsOf bs).foldl crcShift (BitVec.allOnes 32)) ^^^ BitVec.allOnes 32

/-- Two byte sequences of the same length that differ only within `k` consecutive bits, and do differ. -/
def BurstOf (k : Nat) (d d' : List Byte) : Prop :=
  ∃ p u v q, bitsOf d = p ++ u ++ q ∧ bitsOf d' = p ++ v ++ q ∧ u.length = v.length ∧ u.length ≤ k ∧ u ≠ v

/-! ## Zip records -/

/-- The `n` bytes of a number, least significant first. -/
def leBytes : Nat → Nat → List Byte
  | 0, _ => []
  | n + 1, v => BitVec.ofNat 8 v :: leBytes n (v / 256)

/-- The bytes `bs` are found at offset `off`. -/
def At (file : List Byte) (off : Nat) (bs : List Byte) : Prop := (file.drop off).take bs.length = bs

/-- 4.3.7 local file header (without the content). `mid` are the 22 bytes between signature and lengths. -/
structure LocalHeader where
  mid : List Byte
  name : List Byte
  extra : List Byte

def LocalHeader.bytes (h : LocalHeader) : List Byte :=
  [0x50, 0x4b, 3, 4] ++ h.mid ++ leBytes 2 h.name.length ++ leBytes 2 h.extra.length ++ h.name ++ h.extra

structure LocalHeader.Ok (h : LocalHeader) : Prop where
  mid : h.mid.length = 22
  name : h.name.length < 65536
  extra : h.extra.length < 65536

/-- 4.5.1 extensible data field: one subfield. -/
structure Subfield where
  id : Nat
  data : List Byte

def Subfield.bytes (s : Subfield) : List Byte := leBytes 2 s.id ++ leBytes 2 s.data.length ++ s.data

structure Subfield.Ok (s : Subfield) : Prop where
  id : s.id < 65536
  data : s.data.length < 65536

/-- 4.3.12 central directory header. -/
structure CentralHeader where
  versions : List Byte            -- 4 bytes
  flags : Nat
  method : Nat
  time : List Byte                -- 4 bytes
  crc : BitVec 32
  csize : Nat
  usize : Nat
  disk : Nat
  attrs : List Byte               -- 6 bytes
  off : Nat
  name : List Byte
  extra : List Subfield
  comment : List Byte

def CentralHeader.extraBytes (h : CentralHeader) : List Byte := h.extra.flatMap Subfield.bytes

def CentralHeader.fixedBytes (h : CentralHeader) : List Byte :=
  [0x50, 0x4b, 1, 2] ++ h.versions ++ leBytes 2 h.flags ++ leBytes 2 h.method ++ h.time ++ leBytes 4 h.crc.toNat ++ leBytes 4 h.csize ++
    leBytes 4 h.usize ++ leBytes 2 h.name.length ++ leBytes 2 h.extraBytes.length ++ leBytes 2 h.comment.length ++ leBytes 2 h.disk ++
    h.attrs ++ leBytes 4 h.off

def CentralHeader.bytes (h : CentralHeader) : List Byte := h.fixedBytes ++ h.name ++ h.extraBytes ++ h.comment

structure CentralHeader.Ok (h : CentralHeader) : Prop where
  versions : h.versions.length = 4
  flags : h.flags < 65536
  method : h.method < 65536
  time : h.time.length = 4
  csize : h.csize < 2 ^ 32
  usize : h.usize < 2 ^ 32
  disk : h.disk < 65536
  attrs : h.attrs.length = 6
  off : h.off < 2 ^ 32
  name : h.name.length < 65536
  extra : h.extraBytes.length < 65536
  subs : ∀ s ∈ h.extra, s.Ok
  comment : h.comment.length < 65536

/-- 4.5.3: the data of the zip64 subfield starts with the 64 bit values of those 32 bit fields that are saturated. -/
def zip64Data (field value : Nat) : List Byte := if field = 0xffffffff then leBytes 8 value else []

/-- The sizes and the offset a central directory header stands for: those in its fields, or, where these are saturated and there is a zip64
subfield (at most one), those in the subfield. -/
structure CentralHeader.Means (h : CentralHeader) (usize csize off : Nat) : Prop where
  once : ∀ pre s post, h.extra = pre ++ s :: post → s.id = 1 → ∀ t ∈ pre ++ post, t.id ≠ 1
  absent : (∀ s ∈ h.extra, s.id ≠ 1) → usize = h.usize ∧ csize = h.csize ∧ off = h.off
  present : ∀ s ∈ h.extra, s.id = 1 →
    zip64Data h.usize usize ++ zip64Data h.csize csize ++ zip64Data h.off off <+: s.data ∧
    (h.usize ≠ 0xffffffff → usize = h.usize) ∧ (h.csize ≠ 0xffffffff → csize = h.csize) ∧ (h.off ≠ 0xffffffff → off = h.off)
  bounds : usize < 2 ^ 64 ∧ csize < 2 ^ 64 ∧ off < 2 ^ 64

/-- 4.3.16 end of central directory record. -/
def eocdBytes (disk diskCd entriesDisk entries cdSize cdOffset : Nat) (comment : List Byte) : List Byte :=
  [0x50, 0x4b, 5, 6] ++ leBytes 2 disk ++ leBytes 2 diskCd ++ leBytes 2 entriesDisk ++ leBytes 2 entries ++ leBytes 4 cdSize ++
    leBytes 4 cdOffset ++ leBytes 2 comment.length ++ comment

/-- 4.3.14 zip64 end of central directory record, up to the offset. `pre` are the 12 bytes of record size and versions. -/
def eocd64Bytes (pre : List Byte) (disk diskCd entriesDisk entries cdSize cdOffset : Nat) : List Byte :=
  [0x50, 0x4b, 6, 6] ++ pre ++ leBytes 4 disk ++ leBytes 4 diskCd ++ leBytes 8 entriesDisk ++ leBytes 8 entries ++ leBytes 8 cdSize ++
    leBytes 8 cdOffset

/-- 4.3.15 zip64 end of central directory locator. -/
def locatorBytes (diskCd off disks : Nat) : List Byte :=
  [0x50, 0x4b, 6, 7] ++ leBytes 4 diskCd ++ leBytes 8 off ++ leBytes 4 disks

/-- The name a central directory header stands for (4.4.4, bit 11: UTF-8; otherwise ASCII is all that is portable, any other byte stands
for an unknown character, U+FFFD). -/
def NameIs (flags : Nat) (bytes : List Byte) (name : Str) : Prop :=
  if flags.testBit 11 then bytes = utf8Encode name else name = bytes.map fun b => if b.toNat < 128 then Char.ofNat b.toNat else '\uFFFD'

/-- Where the central directory is: either there is no zip64 locator in front of the end record, which then gives the place of the central
directory itself, or there is one, and a zip64 record which gives it. -/
def CentralIs (file : List Byte) (eo cdOff32 cd : Nat) : Prop :=
  (¬ At file (eo - 20) [0x50, 0x4b, 6, 7] ∧ cdOff32 = cd) ∨
    (20 ≤ eo ∧ ∃ zo pre cdSize64, pre.length = 12 ∧ cdSize64 < 2 ^ 64 ∧ zo < 2 ^ 64 ∧ At file (eo - 20) (locatorBytes 0 zo 1) ∧
      At file zo (eocd64Bytes pre 0 0 1 1 cdSize64 cd))

/-- Where the records of an archive with a single file are. -/
structure Layout where
  lo : Nat                 -- local file header
  lh : LocalHeader
  cd : Nat                 -- central directory header
  ch : CentralHeader
  eo : Nat                 -- end of central directory record
  cdSize : Nat
  cdOff32 : Nat            -- the offset of the central directory given there
  comment : List Byte      -- archive comment

/-- A zip archive with a single, unencrypted file, whose packed data are the given bytes. -/
structure SingleFile (file : List Byte) (L : Layout) (name : Str) (usize : Nat) (packed : List Byte) : Prop where
  localOk : L.lh.Ok
  localAt : At file L.lo (L.lh.bytes ++ packed)
  inside : L.lo + L.lh.bytes.length + packed.length ≤ file.length
  centralOk : L.ch.Ok
  centralAt : At file L.cd L.ch.bytes
  plain : L.ch.flags.testBit 0 = false
  oneDisk : L.ch.disk = 0 ∨ L.ch.disk = 0xffff
  sizes : L.ch.Means usize packed.length L.lo
  named : NameIs L.ch.flags L.ch.name name
  cdSize : L.cdSize < 2 ^ 32
  cdOff32 : L.cdOff32 < 2 ^ 32
  comment : L.comment.length < 65536
  endAt : At file L.eo (eocdBytes 0 0 1 1 L.cdSize L.cdOff32 L.comment)
  endLast : L.eo + 22 + L.comment.length = file.length
  order : L.cd + L.ch.bytes.length ≤ L.eo
  central : CentralIs file L.eo L.cdOff32 L.cd
  /-- files are not that large -/
  size : file.length < 2 ^ 62

/-- A zip archive with a single, stored (uncompressed), unencrypted file. -/
structure StoredArchive (file : List Byte) (L : Layout) (name : Str) (content : List Byte) : Prop
    extends SingleFile file L name content.length content where
  stored : L.ch.method = 0
  sum : L.ch.crc = crc32 content

/-- No end of central directory signature after offset `eo`. -/
def LastEnd (file : List Byte) (eo : Nat) : Prop := ∀ p, eo < p → ¬ At file p [0x50, 0x4b, 5, 6]

end Chopper.Spec
