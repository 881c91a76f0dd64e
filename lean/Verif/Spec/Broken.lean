import Verif.Spec.Driver

/-!
# Inputs that break off
-/
namespace Chopper.Spec
open Chopper

/-- `part` is `whole`, or it delivers the first rows of `whole` and then fails. -/
def BreaksOff (part whole : Source) : Prop := part = whole ∨ (part.rows <+: whole.rows ∧ part.ending ≠ .eof)

end Chopper.Spec
