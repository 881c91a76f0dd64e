import Verif.Spec.Gzip
import Verif.Spec.Chopping
import Verif.Spec.Zst

/-!
# Specification vocabulary: compressed files of any format as inputs
-/
namespace Chopper.Spec
open Chopper

/-- A buffered reader that will deliver exactly these bytes and then the end of the data, without errors. -/
structure ReadsFile (r : BufReader) (file : List Byte) : Prop where
  bytes : stillToCome r = file
  ending : r.inner.ending = none
  noFail : ∀ k, ReadStep.fail k ∉ r.inner.sched
  sane : r.pos ≤ r.cap ∧ r.cap ≤ r.buf.length

/-- `file` is an intact compressed file of this format with this content, according to the decoder library: whatever reader it comes from, the decoder delivers the content and
then the end of the data. (LZ4 has two file formats, told apart by the first eight bytes. The program has no decoder for zip files that are not read as an archive.) -/
def Unpacks (dec : Decoders) (f : CompFormat) (file content : List Byte) : Prop :=
  ∀ r, ReadsFile r file → ∃ i, SameContent i (plainReader content) ∧
    match f with
    | .gz => dec.gz r = i
    | .lzf => dec.lzf r = i
    | .zst => dec.zst r = some i
    | .lz4 => ([0x4C, 0x5A, 0x34, 0x42, 0x6C, 0x6F, 0x63, 0x6B] <+: file ∧ dec.lz4Block r = i) ∨
        (¬ [0x4C, 0x5A, 0x34, 0x42, 0x6C, 0x6F, 0x63, 0x6B] <+: file ∧ dec.lz4Frame r = some i)
    | .zip => False

/-- A file of this name and input format is taken to be compressed in the format `f`, with content that would be read the same way if it were a file of its own of the name
`name'` and given with the format `fmt'`: the name is `name'` and the extension; or the format is `fmt'` and the extension; or no format is given, the name says nothing or there
is none (standard input), and the file is recognised by its first bytes. -/
inductive GivenAs (f : CompFormat) (file content : List Byte) : Option Str → InputFormat → Option Str → InputFormat → Prop
  | name (n : Str) : PlainName n → KnownName n ∨ ContentIs content none → GivenAs f file content (some (n ++ (extension f).toList)) .auto (some n) .auto
  | format (e : Str) (name name' : Option Str) : e ≠ [] → PlainName ('.' :: e) →
      GivenAs f file content name (.extension (e ++ (extension f).toList)) name' (.extension e)
  | magic (n : Str) : PlainName n → ¬ KnownName n → ContentIs file (some f) → ContentIs content none → GivenAs f file content (some n) .auto (some n) .auto
  | unnamed : ContentIs file (some f) → ContentIs content none → GivenAs f file content none .auto none .auto

/-- The zstd decoder of the program is `ZstReader` (`Model/Zst`), where `frames` says which frames the `ruzstd` crate sees in a file: if the first frame is undamaged, its reads answer as those
of `ZstReader` do, whatever the buffer sizes; if there is no frame it cannot be created. (Of damaged frames nothing is asked here, see `Spec/BrokenPacked`.) -/
def ZstDecoder (dec : Decoders) (frames : List Byte → List ZstFrame) : Prop :=
  ∀ r file, ReadsFile r file →
    match zstNew (frames file) with
    | .ok d => d.frame.damaged = false → ∃ i, dec.zst r = some i ∧ ∀ sizes, answers Inner.read sizes i = answers zstRead sizes d
    | _ => dec.zst r = none

end Chopper.Spec
