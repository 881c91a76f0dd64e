import Verif.Props.Received

/-!
# DC inputs that are cut short
-/
namespace Chopper.Spec
open Chopper Chopper.Props

/-- The input is DC; in the first world a whole DC file arrives without failure, in the second only a beginning of its data arrives, in whatever pieces, with or without any sign that something is
missing. -/
def DcShort (zip : ZipLib) (w w' : World) (i : Input) : Prop :=
  ∃ r r' n n' h src, Delivered zip w i r n ∧ Delivered zip w' i r' n' ∧ SaysDc n i.format ∧ SaysDc n' i.format ∧ IsDcFile r.data h src ∧ NoFail r ∧ r'.data <+: r.data

end Chopper.Spec
