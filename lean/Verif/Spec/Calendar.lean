import Verif.Model.Chrono
import Verif.Spec.Timestamp

/-!
# Specification vocabulary: the calendar and texts of dates (C108–C111)
-/
namespace Chopper.Spec
open Chopper

/-- A date of the Gregorian calendar (also before its introduction). -/
structure Date where
  year : Int
  month : Nat
  day : Nat
deriving DecidableEq, Repr

/-- Every fourth year, but of the full centuries only every fourth. -/
def LeapYear (y : Int) : Prop := (4 ∣ y ∧ ¬ 100 ∣ y) ∨ 400 ∣ y

/-- The length of a month. -/
inductive MonthLength (y : Int) : Nat → Nat → Prop
  | long {m} : m ∈ [1, 3, 5, 7, 8, 10, 12] → MonthLength y m 31
  | short {m} : m ∈ [4, 6, 9, 11] → MonthLength y m 30
  | leap : LeapYear y → MonthLength y 2 29
  | common : ¬ LeapYear y → MonthLength y 2 28

/-- The date exists. -/
def RealDate (d : Date) : Prop := ∃ l, MonthLength d.year d.month l ∧ 1 ≤ d.day ∧ d.day ≤ l

/-- The day after. -/
inductive NextDay : Date → Date → Prop
  | day {y m l d} : MonthLength y m l → d < l → NextDay ⟨y, m, d⟩ ⟨y, m, d + 1⟩
  | month {y m l} : MonthLength y m l → m < 12 → NextDay ⟨y, m, l⟩ ⟨y, m + 1, 1⟩
  | year {y} : NextDay ⟨y, 12, 31⟩ ⟨y + 1, 1, 1⟩

/-- Counting days from 1970-01-01 on, forwards and backwards. -/
inductive DaysFrom1970 : Date → Int → Prop
  | epoch : DaysFrom1970 ⟨1970, 1, 1⟩ 0
  | later {a b n} : DaysFrom1970 a n → NextDay a b → DaysFrom1970 b (n + 1)
  | earlier {a b n} : DaysFrom1970 b n → NextDay a b → RealDate a → DaysFrom1970 a (n - 1)

/-- The text consists of exactly `k` digits and denotes `n`. -/
def HasDigits (k n : Nat) (s : Str) : Prop := s.length = k ∧ (∀ c ∈ s, 48 ≤ c.toNat ∧ c.toNat ≤ 57) ∧ decimalValue s = n

/-- A fraction of a second (or none), in nanoseconds rounded down. -/
def FractionText (ns : Nat) (s : Str) : Prop :=
  (s = [] ∧ ns = 0) ∨ ∃ ds, s = '.' :: ds ∧ Digits ds ∧ ns = decimalValue ds * 10 ^ 9 / 10 ^ ds.length

/-- What a clock shows: date, hour, minute, second and nanoseconds. -/
structure Clock where
  date : Date
  hour : Nat
  minute : Nat
  second : Nat
  nanos : Nat
deriving DecidableEq, Repr

/-- The clock shows a possible time (no leap seconds). -/
def RealClock (c : Clock) : Prop := RealDate c.date ∧ c.hour < 24 ∧ c.minute < 60 ∧ c.second < 60

/-- The seconds from 1970-01-01 00:00:00 to the time shown, by this clock. -/
def ClockSeconds (c : Clock) (t : Int) : Prop :=
  ∃ n, DaysFrom1970 c.date n ∧ t = n * 86400 + c.hour * 3600 + c.minute * 60 + c.second

/-- Year (four digits), month, day with `a` between them; hour, minute, second with `b` between them. -/
def DateText (d : Date) (a t : Str) : Prop :=
  ∃ (y : Nat) (ty tm td : Str), d.year = y ∧ HasDigits 4 y ty ∧ HasDigits 2 d.month tm ∧ HasDigits 2 d.day td ∧ t = ty ++ a ++ tm ++ a ++ td
def TimeText (c : Clock) (b t : Str) : Prop :=
  ∃ th tm ts : Str, HasDigits 2 c.hour th ∧ HasDigits 2 c.minute tm ∧ HasDigits 2 c.second ts ∧ t = th ++ b ++ tm ++ b ++ ts

/-- Date and time in one of the forms of begin/end values: `20190203`, `2019/02/03` or `2019-02-03`; a space, `-` or `T`; `04:05:06` or `040506`; maybe a fraction. -/
def ClockText (c : Clock) (t : Str) : Prop :=
  ∃ a sep b td tt tf : Str, (a = [] ∨ a = "/".toList ∨ a = "-".toList) ∧ (sep = " ".toList ∨ sep = "-".toList ∨ sep = "T".toList) ∧ (b = ":".toList ∨ b = []) ∧
    DateText c.date a td ∧ TimeText c b tt ∧ FractionText c.nanos tf ∧ t = td ++ sep ++ tt ++ tf

/-- The text of an offset from universal time, in seconds: `Z` or sign, hours and minutes, less than a day. -/
def OffsetText (o : Int) (t : Str) : Prop :=
  (t = "Z".toList ∧ o = 0) ∨ ∃ (h m : Nat) (th tm : Str), HasDigits 2 h th ∧ HasDigits 2 m tm ∧ h < 24 ∧ m < 60 ∧
    ((t = "+".toList ++ th ++ ":".toList ++ tm ∧ o = h * 3600 + m * 60) ∨ (t = "-".toList ++ th ++ ":".toList ++ tm ∧ o = - (h * 3600 + m * 60 : Int)))

/-- ISO 8601 with offset: `2019-02-03T04:05:06.789+01:00`. -/
def IsoClockText (c : Clock) (o : Int) (t : Str) : Prop :=
  ∃ td tt tf to : Str, DateText c.date "-".toList td ∧ TimeText c ":".toList tt ∧ FractionText c.nanos tf ∧ OffsetText o to ∧ t = td ++ "T".toList ++ tt ++ tf ++ to

/-- The changes of a time zone are in order of time. -/
def InOrder (z : Chrono.TzSpans) : Prop := z.rest.Pairwise fun a b => a.1 < b.1

/-- The offset of a time zone at a time: that of the last change not after it, the first one if there is none. -/
inductive OffsetIs (z : Chrono.TzSpans) (t : Int) : Int → Prop
  | first : (∀ c ∈ z.rest, t < c.1) → OffsetIs z t z.first
  | since {i : Nat} {c : Int × Int} : z.rest[i]? = some c → c.1 ≤ t → (∀ c' ∈ z.rest.drop (i + 1), t < c'.1) → OffsetIs z t c.2

/-- Seconds since 1970 (universal time) `t` at which clocks in the time zone show `loc` (seconds of the local clock). -/
def Shows (z : Chrono.TzSpans) (t loc : Int) : Prop := ∃ o, OffsetIs z t o ∧ t + o = loc

/-- The one time when local clocks show it; there is none if the clock is put forward over it, and there are two if it is put back. -/
def OnlyTime (z : Chrono.TzSpans) (loc t : Int) : Prop := Shows z t loc ∧ ∀ t', Shows z t' loc → t' = t

/-- A year, month or day in digits, and its first day. -/
inductive DayText : Date → Str → Prop
  | year {y t} : HasDigits 4 y t → DayText ⟨y, 1, 1⟩ t
  | month {y m ty tm} : HasDigits 4 y ty → HasDigits 2 m tm → DayText ⟨y, m, 1⟩ (ty ++ tm)
  | day {y m d ty tm td} : HasDigits 4 y ty → HasDigits 2 m tm → HasDigits 2 d td → DayText ⟨y, m, d⟩ (ty ++ tm ++ td)

/-- The day (of universal time) of a time. -/
def dayOf (ts : Nanos) : Int := (ts.toNat / (86400 * 10 ^ 9) : Nat)

/-- At this time the zone is less than a day and a whole number of minutes off universal time. -/
def WholeMinutes (z : Chrono.TzSpans) (ts : Nanos) : Prop := ∃ o, OffsetIs z (ts.toNat / 10 ^ 9 : Nat) o ∧ 60 ∣ o ∧ -86400 < o ∧ o < 86400

/-- The order of texts: the first difference decides. -/
def TextBefore (s t : Str) : Prop := ∃ common x y u v, s = common ++ x :: u ∧ t = common ++ y :: v ∧ x.toNat < y.toNat

/-- Date and time in one of the forms recognised in a single column of CSV inputs, with the format: whole seconds, local time. -/
inductive OneColumnText (c : Clock) : Str → Str → Prop
  | dot {td tt} : c.nanos = 0 → DateText c.date [] td → TimeText c [] tt → OneColumnText c "%Y%m%d.%H%M%S".toList (td ++ ".".toList ++ tt)
  | space {td tt} : c.nanos = 0 → DateText c.date [] td → TimeText c [] tt → OneColumnText c "%Y%m%d %H%M%S".toList (td ++ " ".toList ++ tt)
  | colons {td tt} : c.nanos = 0 → DateText c.date [] td → TimeText c ":".toList tt → OneColumnText c "%Y%m%d %H:%M:%S".toList (td ++ " ".toList ++ tt)
  | slashes {td tt} : c.nanos = 0 → DateText c.date "/".toList td → TimeText c ":".toList tt → OneColumnText c "%Y/%m/%d-%H:%M:%S".toList (td ++ "-".toList ++ tt)

/-- Date and time in one of the forms recognised in a date column and a time column: `040506789`, `040506`, `04:05:06`, or hour (one or two digits) and minute. -/
inductive TwoColumnText (c : Clock) : Str → Str → Str → Prop
  | millis {td tt tf ms} : DateText c.date [] td → TimeText c [] tt → HasDigits 3 ms tf → c.nanos = ms * 10 ^ 6 → TwoColumnText c "%Y%m%d#%H%M%S%3f".toList td (tt ++ tf)
  | plain {td tt} : c.nanos = 0 → DateText c.date [] td → TimeText c [] tt → TwoColumnText c "%Y%m%d#%H%M%S".toList td tt
  | colons {td tt} : c.nanos = 0 → DateText c.date [] td → TimeText c ":".toList tt → TwoColumnText c "%Y%m%d#%H:%M:%S".toList td tt
  | minutes {td th tm} : c.nanos = 0 → c.second = 0 → DateText c.date [] td → (HasDigits 1 c.hour th ∨ HasDigits 2 c.hour th) → HasDigits 2 c.minute tm →
      TwoColumnText c "%Y%m%d#%-H:%M".toList td (th ++ ":".toList ++ tm)

/-- Thirteen or fourteen digits that can be read as year, month, day, hour, minute and second (with one or two digits, up to 60) of a possible time. -/
def LooksLikeDate (s : Str) : Prop :=
  ∃ (c : Clock) (td th tm ts : Str), DateText c.date [] td ∧ HasDigits 2 c.hour th ∧ HasDigits 2 c.minute tm ∧ (HasDigits 1 c.second ts ∨ HasDigits 2 c.second ts) ∧
    s = td ++ th ++ tm ++ ts ∧ RealDate c.date ∧ c.hour < 24 ∧ c.minute < 60 ∧ c.second ≤ 60

end Chopper.Spec
