import Verif.Spec.CsvRead
import Verif.Spec.Cli

/-!
# Specification vocabulary for reading back CSV with human readable times (C101, C102)
-/
namespace Chopper.Spec
open Chopper

/-- The text of a time in the human readable style: seconds and nanoseconds since 1970, rendered by the time zone with the ISO pattern. -/
def isoText (z : Int → Nat → Str → Str) (u : TimestampUnits) (ts : Nanos) : Str := z (ts.toNat / 10 ^ 9 : Nat) (ts.toNat % 10 ^ 9) (isoPattern u)

/-- What is assumed of the date library and the time zone about one time: its text needs no quoting, and the format `f` reads from it the same time, rounded down to the unit.
(For `chrono` with `%+` this is so for times from 1970 on, unless the offset of the zone has seconds.) -/
structure IsoReadable (lib : DateLib) (z : Int → Nat → Str → Str) (u : TimestampUnits) (f : Str) (ts : Nanos) : Prop where
  plain : PlainField ',' (isoText z u ts)
  nonempty : isoText z u ts ≠ []
  reads : ∃ i, lib.parseTz f (isoText z u ts) = some i ∧ i.nsec < 10 ^ 9 ∧ i.ns = (ts.toNat / nanosPer u * nanosPer u : Nat)

/-- Settings for reading what was written with `cfg` and human readable times: comma, a header line, the time in the first column, and the format `f` (given by the user, or
`%+` found automatically unless the name of the column ends with a unit). -/
structure ReadsIsoAs {lib : DateLib} (cfg : CsvOutputConfig) (cfg2 : CsvInputConfig lib) (f : Str) : Prop where
  delimiter : cfg2.delimiter = some 44
  header : cfg2.hasHeader = .yes
  column : cfg2.tsCol = .index 0 ∨ cfg2.tsCol = .name cfg.timeColName
  format : cfg2.tsFmt = .explicit f ∨ (cfg2.tsFmt = .auto ∧ f = "%+".toList ∧ UnitAtEnd cfg.timeColName none)

/-- `rows'` are the rows `rows` after having been written with human readable times and read again: one row per row, the time rounded down to the unit, the values are
the printed time and the texts of the values. -/
def ReadIso (ff : FloatFmt) (z : Int → Nat → Str → Str) (u : TimestampUnits) (rows rows' : List Row) : Prop :=
  rows'.length = rows.length ∧ ∀ (i : Nat) r r', rows[i]? = some r → rows'[i]? = some r' →
    r'.timestamp.toNat = r.timestamp.toNat / nanosPer u * nanosPer u ∧
    ∃ texts, ValueTexts ff r.values texts ∧ r'.values = (isoText z u r.timestamp :: texts).map .string

/-- Two texts look alike to the detection of header lines: both 64-bit integers, both other numbers, or both no numbers. -/
def SameKind (isF64 : Str → Bool) (s t : Str) : Prop := ∃ ty, TypeOfText isF64 s ty ∧ TypeOfText isF64 t ty

/-- The text is taken neither for an integer nor for a floating point number. -/
def NoNumber (isF64 : Str → Bool) (s : Str) : Prop := ¬ DenotesI64 s ∧ isF64 s = false

/-- The date library takes the text for no date. -/
def NoDate (lib : DateLib) (t : Str) : Prop :=
  lib.parseTz "%+".toList t = none ∧ (∀ f ∈ oneColumnFormats, lib.parseNaive f t = none) ∧ lib.parseDate "%Y%m%d".toList t = none

end Chopper.Spec
