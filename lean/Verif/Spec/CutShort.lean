import Verif.Props.Delivery

/-!
# CSV inputs that are cut short
-/
namespace Chopper.Spec
open Chopper.Props

/-- The input is CSV; in the first world it arrives without failure, in the second only a beginning of its data arrives, in whatever pieces, without any sign that something is missing, or with
one. -/
def CutShort (zip : ZipLib) (w w' : World) (i : Input) : Prop :=
  ∃ r r' n n', Delivered zip w i r n ∧ Delivered zip w' i r' n' ∧ SaysCsv n i.format ∧ SaysCsv n' i.format ∧ r'.data <+: r.data ∧ NoFail r

/-- Nothing changes for this input. -/
def Unchanged (zip : ZipLib) (w w' : World) (i : Input) : Prop := ∃ r n, Delivered zip w i r n ∧ Delivered zip w' i r n

end Chopper.Spec
