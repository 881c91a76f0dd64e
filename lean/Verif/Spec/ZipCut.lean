import Verif.Spec.ZipFaults

/-!
# Specification vocabulary for zip archives cut short
-/
namespace Chopper.Spec
open Chopper

/-- The four bytes that start an end of central directory record are found at offset `eo` and nowhere else in the file. -/
def OnlyEnd (file : List Byte) (eo : Nat) : Prop := ∀ p, p ≠ eo → ¬ At file p [0x50, 0x4b, 5, 6]

/-- The four bytes that start a zip64 locator are found at most directly before the end record. -/
def OnlyLocator (file : List Byte) (eo : Nat) : Prop := ∀ p, p + 20 < eo → ¬ At file p [0x50, 0x4b, 6, 7]

end Chopper.Spec
