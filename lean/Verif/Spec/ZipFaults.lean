import Verif.Model.ZipFaults
import Verif.Spec.Zip

/-!
# Specification vocabulary for zip archives on a failing file
-/
namespace Chopper.Spec
open Chopper

/-- The value returned, without the state of the file afterwards. -/
def answer {α σ : Type} (r : Res (α × σ)) : Res α := r.bind fun (a, _) => .ok a

/-- One of the failures was reported to the caller. -/
def Reported {α σ : Type} (fs : Faults) (r : Res (α × σ)) : Prop := ∃ k, some k ∈ fs ∧ r = .err (.io k)

/-- The end record does not contradict the zip64 records: it gives the place of the central directory itself, or (the usual way) it has all bits
set, and the file is not that large. -/
def OffsetAgrees (file : List Byte) (L : Layout) : Prop :=
  L.cdOff32 = L.cd ∨ (L.cdOff32 = 0xffffffff ∧ file.length ≤ 0xffffffff)

end Chopper.Spec
