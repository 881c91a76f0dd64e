import Verif.Props.Delivery
import Verif.Spec.Gzip

/-!
# CSV inputs that arrive completely or broken
-/
namespace Chopper.Spec
open Chopper.Props

/-- The input delivers, without any failure, CSV of this content: as it is, as the entry of a zip archive with the right checksum, or in an intact gzip file (behind which there may be
something else). -/
inductive CompleteCsv (lib : GzCrate) (zip : ZipLib) (w : World) (i : Input) (content : List Byte) : Prop
  | plain (r : Inner) (n : Option Str) : Delivered zip w i r n → NoFail r → r.data = content → SaysCsv n i.format → CompleteCsv lib zip w i content
  | gzip (r : Inner) (n n' : Option Str) (fmt' : InputFormat) (m : GzMember) (tail : List Byte) : Delivered zip w i r n → NoFail r → r.data = m.bytes ++ tail → m.Holds lib content → m.Intact content →
      GivenAsGz r.data content n i.format n' fmt' → SaysCsv n' fmt' → CompleteCsv lib zip w i content

/-- The input delivers CSV that should have this content, but: reading fails after some of it; or it is in a gzip file that breaks off or has a wrong checksum or length; or it is in a zip archive
with a wrong checksum. -/
inductive BrokenCsv (lib : GzCrate) (zip : ZipLib) (w : World) (i : Input) (content : List Byte) : Prop
  | fails (r : Inner) (n : Option Str) (k : IoKind) : Delivered zip w i r n → r.data <+: content → r.ending = some k → SaysCsv n i.format → BrokenCsv lib zip w i content
  | gzip (r : Inner) (n n' : Option Str) (fmt' : InputFormat) : Delivered zip w i r n → (∀ k, ReadStep.fail k ∉ r.sched) → DamagedGz lib r.data content →
      GivenAsGz r.data content n i.format n' fmt' → SaysCsv n' fmt' → BrokenCsv lib zip w i content
  | checksum (s name : Str) (fmt : InputFormat) (sched : List ReadStep) (sum : BitVec 32) : i = ⟨.path s, fmt⟩ → ZipAt zip w s name content sched sum → crc32 content ≠ sum →
      SaysCsv (some name) fmt → BrokenCsv lib zip w i content

/-- Between the first and the second of these worlds, nothing changes for this input; or it is CSV that arrives completely in the first and broken in the second. -/
inductive ArrivesOrBreaks (lib : GzCrate) (zip : ZipLib) (w w' : World) (i : Input) : Prop
  | same (r : Inner) (n : Option Str) : Delivered zip w i r n → Delivered zip w' i r n → ArrivesOrBreaks lib zip w w' i
  | breaks (content : List Byte) : CompleteCsv lib zip w i content → BrokenCsv lib zip w' i content → ArrivesOrBreaks lib zip w w' i

end Chopper.Spec
