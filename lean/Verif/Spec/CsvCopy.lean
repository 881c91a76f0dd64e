import Verif.Spec.CsvRead
import Verif.Spec.Timestamp

/-!
# Specification vocabulary for copying and merging CSV files (C88)
-/
namespace Chopper.Spec
open Chopper

/-- Column `c` of the record says, in units `u`, that its time is `ts`. -/
def TimeIn (c : Nat) (u : TimestampUnits) (record : List Str) (ts : Nanos) : Prop :=
  ∃ t, record[c]? = some t ∧ Digits t ∧ decimalValue t * nanosPer u = ts.toNat

end Chopper.Spec
