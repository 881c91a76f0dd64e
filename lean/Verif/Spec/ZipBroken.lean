import Verif.Spec.BrokenCsv

/-!
# Zip archives whose entry cannot be unpacked completely
-/
namespace Chopper.Spec
open Chopper Chopper.Props

/-- The path names a zip archive (beginning with its only entry) with a compressed entry of this name; the decompressor (deflate or bzip2) delivers these bytes of it, which reads will chop up as
`sched` says, and then the error `k`. The lengths and the checksum stored for the entry may be any. The archive is otherwise one of those that can be opened (C50). -/
structure ZipDamaged (zip : ZipLib) (w : World) (s : Str) (name : Str) (part : List Byte) (sched : List ReadStep) (k : IoKind) : Prop where
  archive : ∃ inner L packed usize, FileAt w s inner ∧ [0x50, 0x4b, 3, 4] <+: inner.data ∧ SingleFile inner.data L name usize packed ∧
    LastEnd inner.data L.eo ∧ L.ch.extra = [] ∧
    ((L.ch.method = 8 ∧ zip.inflate ⟨packed, zip.sched, none⟩ = ⟨part, sched, some k⟩) ∨
     (L.ch.method = 12 ∧ zip.bunzip ⟨packed, zip.sched, none⟩ = ⟨part, sched, some k⟩))

/-- The input is broken as in `BrokenCsv`; or it is a zip archive with an entry that should have this content and of which only a beginning can be unpacked. -/
inductive BrokenOrZip (lib : GzCrate) (zip : ZipLib) (w : World) (i : Input) (content : List Byte) : Prop
  | broken : BrokenCsv lib zip w i content → BrokenOrZip lib zip w i content
  | unpack (s name : Str) (fmt : InputFormat) (part : List Byte) (sched : List ReadStep) (k : IoKind) : i = ⟨.path s, fmt⟩ → ZipDamaged zip w s name part sched k → part <+: content →
      SaysCsv (some name) fmt → BrokenOrZip lib zip w i content

/-- Between the first and the second of these worlds, nothing changes for this input; or it is CSV that arrives completely in the first and broken in the second, where "broken" includes zip
archives that cannot be unpacked completely. -/
def ArrivesOrBreaksZip (lib : GzCrate) (zip : ZipLib) (w w' : World) (i : Input) : Prop :=
  (∃ r n, Delivered zip w i r n ∧ Delivered zip w' i r n) ∨ ∃ content, CompleteCsv lib zip w i content ∧ BrokenOrZip lib zip w' i content

end Chopper.Spec
