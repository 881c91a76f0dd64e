import Verif.Spec.Zip
import Verif.Model.Input

/-!
# Specification vocabulary: a zip archive as an input
-/
namespace Chopper.Spec
open Chopper

/-- The path names an existing file, no directory, with these bytes. -/
structure FileAt (w : World) (s : Str) (inner : Inner) : Prop where
  notDir : w.isDir (utf8Encode s) = false
  here : w.pathExists (utf8Encode s) = true
  opens : w.file (utf8Encode s) = some inner

/-- The path names a zip archive (beginning with its only entry) with an entry of this name that unpacks to `content`, which reads will chop up as `sched` says
and which come without read errors. The checksum stored for it is `sum`. The archive is one of those that can be opened (C50): no end record signature after
the end record, no extra field in the central directory. -/
structure ZipAt (zip : ZipLib) (w : World) (s : Str) (name : Str) (content : List Byte) (sched : List ReadStep) (sum : BitVec 32) : Prop where
  archive : ∃ inner L packed, FileAt w s inner ∧ [0x50, 0x4b, 3, 4] <+: inner.data ∧ SingleFile inner.data L name content.length packed ∧ L.ch.crc = sum ∧
    LastEnd inner.data L.eo ∧ L.ch.extra = [] ∧
    ((L.ch.method = 0 ∧ packed = content ∧ sched = zip.sched) ∨
     (L.ch.method = 8 ∧ zip.inflate ⟨packed, zip.sched, none⟩ = ⟨content, sched, none⟩) ∨
     (L.ch.method = 12 ∧ zip.bunzip ⟨packed, zip.sched, none⟩ = ⟨content, sched, none⟩))
  noFail : ∀ e, ReadStep.fail e ∉ sched

/-- The csv crate reports errors of the reader it reads from: if the reader ends with an error, not all answers are records. -/
def ReportsErrors (csv : CsvLib) : Prop :=
  ∀ d hh (r : BufReader) k, r.inner.ending = some k → ∃ x ∈ (csv.parse d hh r).records, ∀ rec, x ≠ .ok rec

end Chopper.Spec
