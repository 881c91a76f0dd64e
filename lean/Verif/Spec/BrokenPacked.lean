import Verif.Spec.BrokenCsv

/-!
# Damaged compressed files of any format
-/
namespace Chopper.Spec
open Chopper Chopper.Props

/-- `file` is a damaged compressed file of this format which should have this content, and the decoder library notices: whatever reader the file comes from, the decoder delivers a beginning of
the content and then reports an error. -/
def DamageNoticed (dec : Decoders) (f : CompFormat) (file content : List Byte) : Prop :=
  ∀ r, ReadsFile r file → ∃ i : Inner, i.data <+: content ∧ i.ending ≠ none ∧
    match f with
    | .gz => dec.gz r = i
    | .lzf => dec.lzf r = i
    | .zst => dec.zst r = some i
    | .lz4 => ([0x4C, 0x5A, 0x34, 0x42, 0x6C, 0x6F, 0x63, 0x6B] <+: file ∧ dec.lz4Block r = i) ∨
        (¬ [0x4C, 0x5A, 0x34, 0x42, 0x6C, 0x6F, 0x63, 0x6B] <+: file ∧ dec.lz4Frame r = some i)
    | .zip => False

/-- The input is an intact compressed file with CSV of this content. -/
structure IntactPacked (dec : Decoders) (zip : ZipLib) (w : World) (i : Input) (content : List Byte) (f : CompFormat) (file : List Byte) (r : Inner) (n n' : Option Str) (fmt' : InputFormat) : Prop where
  arrives : Delivered zip w i r n
  same : SameContent r (plainReader file)
  intact : Unpacks dec f file content
  given : GivenAs f file content n i.format n' fmt'
  csv : SaysCsv n' fmt'

/-- The input is a damaged compressed file with CSV that should have this content. -/
structure DamagedPacked (dec : Decoders) (zip : ZipLib) (w : World) (i : Input) (content : List Byte) (f : CompFormat) (file : List Byte) (r : Inner) (n n' : Option Str) (fmt' : InputFormat) : Prop where
  arrives : Delivered zip w i r n
  same : SameContent r (plainReader file)
  damaged : DamageNoticed dec f file content
  given : GivenAs f file content n i.format n' fmt'
  csv : SaysCsv n' fmt'

/-- The input delivers, without any failure, CSV of this content: as it is, or in an intact compressed file of any format. -/
def CompleteInput (dec : Decoders) (zip : ZipLib) (w : World) (i : Input) (content : List Byte) : Prop :=
  (∃ r n, Delivered zip w i r n ∧ NoFail r ∧ r.data = content ∧ SaysCsv n i.format) ∨ ∃ f file r n n' fmt', IntactPacked dec zip w i content f file r n n' fmt'

/-- Between the first and the second of these worlds, nothing changes for this input; or it is CSV that arrives completely in the first and in a damaged compressed file in the second. -/
def ArrivesOrDamaged (dec : Decoders) (zip : ZipLib) (w w' : World) (i : Input) : Prop :=
  (∃ r n, Delivered zip w i r n ∧ Delivered zip w' i r n) ∨
    ∃ content f file r n n' fmt', CompleteInput dec zip w i content ∧ DamagedPacked dec zip w' i content f file r n n' fmt'

/-- The zstd decoder of the program is `ZstReader` (`Model/Zst`), where `frames` says which frames the `ruzstd` crate sees in a file. Only this much is asked: what it delivers is what reads of
`ZstReader` with non-empty buffers of some sizes deliver (for a damaged frame, how much comes before the error depends on these sizes), and it ends without an error only if one of these reads
reports the end of the data. -/
def ZstDelivers (dec : Decoders) (frames : List Byte → List ZstFrame) : Prop :=
  ∀ r file, ReadsFile r file → ∀ d, zstNew (frames file) = .ok d →
    ∃ (i : Inner) (sizes : List Nat), dec.zst r = some i ∧ (∀ n ∈ sizes, 0 < n) ∧ i.data = deliveredBytes (answers zstRead sizes d) ∧ (i.ending = none → Res.ok [] ∈ answers zstRead sizes d)

end Chopper.Spec
