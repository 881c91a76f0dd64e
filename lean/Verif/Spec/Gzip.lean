import Verif.Spec.Zip
import Verif.Spec.ZipInput
import Verif.Spec.Input
import Verif.Model.Gzip

/-!
# Specification vocabulary: gzip files (RFC 1952)
-/
namespace Chopper.Spec
open Chopper

/-- The header of a member (2.3): `mid` are modification time, extra flags and operating system. -/
structure GzHeader where
  text : Bool
  mid : List Byte
  extra : Option (List Byte)
  name : Option (List Byte)
  comment : Option (List Byte)
  hcrc : Bool

/-- FTEXT, FHCRC, FEXTRA, FNAME, FCOMMENT. -/
def GzHeader.flags (h : GzHeader) : Byte :=
  (if h.text then 1 else 0) + (if h.hcrc then 2 else 0) + (if h.extra.isSome then 4 else 0) + (if h.name.isSome then 8 else 0) + (if h.comment.isSome then 16 else 0)

/-- A zero-terminated string, if there is one. -/
def zeroEnded : Option (List Byte) → List Byte
  | some s => s ++ [0]
  | none => []

/-- The extra field, if there is one. -/
def extraField : Option (List Byte) → List Byte
  | some x => leBytes 2 x.length ++ x
  | none => []

/-- The header without its checksum. -/
def GzHeader.main (h : GzHeader) : List Byte :=
  [0x1f, 0x8b, 8, h.flags] ++ h.mid ++ extraField h.extra ++ zeroEnded h.name ++ zeroEnded h.comment

def GzHeader.bytes (h : GzHeader) : List Byte := h.main ++ if h.hcrc then leBytes 2 (crc32 h.main).toNat else []

structure GzHeader.Valid (h : GzHeader) : Prop where
  mid : h.mid.length = 6
  extra : ∀ x, h.extra = some x → x.length < 65536
  name : ∀ s, h.name = some s → 0 ∉ s
  comment : ∀ s, h.comment = some s → 0 ∉ s

/-- A member: header, deflate stream, CRC-32, length. -/
structure GzMember where
  header : GzHeader
  packed : List Byte
  sum : BitVec 32
  size : Nat

def GzMember.bytes (m : GzMember) : List Byte := m.header.bytes ++ m.packed ++ leBytes 4 m.sum.toNat ++ leBytes 4 m.size

/-- `packed` is a complete deflate stream of `content`: whatever follows it, it is inflated to that, and what follows is left. -/
def Inflates (lib : GzCrate) (packed content : List Byte) : Prop := ∀ more, lib.inflate (packed ++ more) = .complete content more

/-- A deflate stream that breaks off is noticed, after part of the content. -/
def CutNoticed (lib : GzCrate) (packed content : List Byte) : Prop :=
  ∀ q, q <+: packed → q ≠ packed → ∃ c, c <+: content ∧ lib.inflate q = .cut c

/-- A member with this content. -/
structure GzMember.Holds (lib : GzCrate) (m : GzMember) (content : List Byte) : Prop where
  header : m.header.Valid
  packed : Inflates lib m.packed content

/-- Checksum and length are right. -/
def GzMember.Intact (m : GzMember) (content : List Byte) : Prop := m.sum = crc32 content ∧ m.size % 2 ^ 32 = content.length % 2 ^ 32

/-- A gzip file that should have this content but is damaged: checksum or length do not fit the content, or the file breaks off. -/
def DamagedGz (lib : GzCrate) (file content : List Byte) : Prop :=
  ∃ m : GzMember, m.Holds lib content ∧
    ((file = m.bytes ∧ ¬ m.Intact content) ∨ (file <+: m.bytes ∧ file ≠ m.bytes ∧ CutNoticed lib m.packed content))

/-- A name without compression extension. -/
def PlainName (n : Str) : Prop := ∀ f b, n ≠ b ++ (extension f).toList

/-- A name for which there is a format: it ends in `.csv` or `.dc`. -/
def KnownName (n : Str) : Prop := (∃ b, n = b ++ ".csv".toList) ∨ ∃ b, n = b ++ ".dc".toList

/-- A file of this name and input format is taken to be gzip, with content that would be read the same way if it were a file of its own of the name `name'` and given with
the format `fmt'`: the name is `name'` and `.gz`; or the format is `fmt'` and `.gz`; or no format is given, the name says nothing, and the file is recognised by its first
bytes. -/
inductive GivenAsGz (file content : List Byte) : Option Str → InputFormat → Option Str → InputFormat → Prop
  | name (n : Str) : PlainName n → KnownName n ∨ ContentIs content none → GivenAsGz file content (some (n ++ ".gz".toList)) .auto (some n) .auto
  | format (e : Str) (name name' : Option Str) : e ≠ [] → PlainName ('.' :: e) →
      GivenAsGz file content name (.extension (e ++ ".gz".toList)) name' (.extension e)
  | magic (n : Str) : PlainName n → ¬ KnownName n → ContentIs file (some .gz) → ContentIs content none → GivenAsGz file content (some n) .auto (some n) .auto

end Chopper.Spec
