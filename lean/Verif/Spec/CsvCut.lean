import Verif.Spec.Calendar
import Verif.Spec.CsvIso
import Verif.Spec.Cli

/-!
# Specification vocabulary for cutting CSV files by calendar time (C111)

Times are nanoseconds since the beginning of 1970 here, as integers.
-/
namespace Chopper.Spec
open Chopper

/-- The column(s) of the record tell, in the form that belongs to this format, that its time is `t`; local times are those of the time zone `z`. -/
inductive TellsTime (z : Chrono.TzSpans) (record : List Str) : TimestampCol → TimestampFmt → Int → Prop
  | one {i : Nat} {c f text loc t} : record[i]? = some text → OneColumnText c f text → RealClock c → ClockSeconds c loc → OnlyTime z loc t →
      TellsTime z record (.index i) (.dateTimeNeedsExternalTz f) (t * 10 ^ 9)
  | date {i : Nat} {d text n t} : record[i]? = some text → DateText d [] text → DaysFrom1970 d n → OnlyTime z (n * 86400) t →
      TellsTime z record (.index i) (.dateNeedsExternalTz "%Y%m%d".toList) (t * 10 ^ 9)
  | two {i j : Nat} {c f date time loc t} : record[i]? = some date → record[j]? = some time → TwoColumnText c f date time → RealClock c → ClockSeconds c loc → OnlyTime z loc t →
      TellsTime z record (.dateTimeIndex i j) (.dateTimeNeedsExternalTz f) (t * 10 ^ 9 + c.nanos)
  | iso {i : Nat} {c o text loc} : record[i]? = some text → IsoClockText c o text → RealClock c → ClockSeconds c loc →
      TellsTime z record (.index i) (.dateTimeIncludesTz "%+".toList) ((loc - o) * 10 ^ 9 + c.nanos)
  | epoch {i : Nat} {text u} : record[i]? = some text → Digits text → InWindow u (decimalValue text) → ¬ LooksLikeDate text →
      TellsTime z record (.index i) (.units u) (decimalValue text * nanosPer u : Nat)

/-- A text for `--begin` or `--end` and the time it means: a year, month or day, a local time, or a time with offset. -/
inductive BoundText (z : Chrono.TzSpans) : Str → Int → Prop
  | day {d text n t} : DayText d text → DaysFrom1970 d n → OnlyTime z (n * 86400) t → BoundText z text (t * 10 ^ 9)
  | clock {c text loc t} : ClockText c text → RealClock c → ClockSeconds c loc → OnlyTime z loc t → BoundText z text (t * 10 ^ 9 + c.nanos)
  | iso {c o text loc} : IsoClockText c o text → RealClock c → ClockSeconds c loc → BoundText z text ((loc - o) * 10 ^ 9 + c.nanos)

/-- A bound that need not be given; times are representable. -/
def Bound (z : Chrono.TzSpans) : Option Str → Option Int → Prop
  | none, none => True
  | some text, some t => BoundText z text t ∧ 0 ≤ t ∧ t < 2 ^ 63
  | _, _ => False

/-- From `b` on and before `e`, where given. -/
def Between (b e : Option Int) (t : Int) : Prop := (∀ x, b = some x → x ≤ t) ∧ ∀ x, e = some x → t < x

instance (b e : Option Int) (t : Int) : Decidable (Between b e t) :=
  decidable_of_iff ((∀ x ∈ b.toList, x ≤ t) ∧ ∀ x ∈ e.toList, t < x) (by simp [Between])

end Chopper.Spec
