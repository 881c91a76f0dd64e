import Verif.Props.Delivery

/-!
# Inputs that fail while they are read
-/
namespace Chopper.Spec
open Chopper.Props

/-- Between the first and the second of these worlds, nothing changes for this input; or it is CSV, and what arrives without failure in the first arrives only in part in the second, with a
failure at its end. -/
inductive ArrivesOrFails (zip : ZipLib) (w w' : World) (i : Input) : Prop
  | same (r : Inner) (n : Option Str) : Delivered zip w i r n → Delivered zip w' i r n → ArrivesOrFails zip w w' i
  | fails (r r' : Inner) (n n' : Option Str) (k : IoKind) : Delivered zip w i r n → Delivered zip w' i r' n' → SaysCsv n i.format → SaysCsv n' i.format → r'.data <+: r.data → NoFail r →
      r'.ending = some k → ArrivesOrFails zip w w' i

end Chopper.Spec
