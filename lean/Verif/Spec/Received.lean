import Verif.Model.Dc

/-!
# What has been received of a stream before the first failure
-/
namespace Chopper.Spec
open Chopper

/-- The bytes that arrive before the stream ends or fails for the first time. -/
def received : Stream → List Byte
  | .byte b :: s => b :: received s
  | .fail _ :: _ => []
  | [] => []

end Chopper.Spec
