import Verif.Model.Timestamp
import Verif.Spec.CsvUtil

/-!
# Specification vocabulary for timestamps
-/
namespace Chopper.Spec
open Chopper

/-- Nanoseconds in one unit. -/
def nanosPer : TimestampUnits → Nat
  | .seconds => 10 ^ 9
  | .millis => 10 ^ 6
  | .micros => 10 ^ 3
  | .nanos => 1

/-- The number counts units of a time between 630,000,000 s (Dec 1989) and 2,000,000,000 s (2033) after 1970: the window of the unit. -/
def InWindow (u : TimestampUnits) (n : Nat) : Prop :=
  630000000 * 10 ^ 9 ≤ n * nanosPer u ∧ n * nanosPer u < 2000000000 * 10 ^ 9

/-- The name of a unit in column names. -/
def unitName : TimestampUnits → Str
  | .seconds => "seconds".toList
  | .millis => "millis".toList
  | .micros => "micros".toList
  | .nanos => "nanos".toList

/-- A format of begin/end values: date, separator, time, optional fraction. -/
def IsRangeFormat (f : Str) : Prop :=
  ∃ d sep t frac : Str, f = d ++ sep ++ t ++ frac ∧
    (d = "%Y%m%d".toList ∨ d = "%Y/%m/%d".toList ∨ d = "%Y-%m-%d".toList) ∧
    (sep = " ".toList ∨ sep = "-".toList ∨ sep = "T".toList) ∧
    (t = "%H:%M:%S".toList ∨ t = "%H%M%S".toList) ∧
    (frac = [] ∨ frac = "%.f".toList)

/-- The instant a text denotes with a timestamp format that uses dates, given the date library and the time zone. -/
inductive DenotesInstant (lib : DateLib) (tz : ChopperTz lib) : TimestampFmt → Str → Instant → Prop
  | includesTz {f text i} : lib.parseTz f text = some i → DenotesInstant lib tz (.dateTimeIncludesTz f) text i
  | needsTz {f text x i zone} : lib.parseNaive f text = some x → tz = some zone → zone x = some i →
      DenotesInstant lib tz (.dateTimeNeedsExternalTz f) text i
  | date {f text x i zone} : lib.parseDate f text = some x → tz = some zone → zone x = some i →
      DenotesInstant lib tz (.dateNeedsExternalTz f) text i

/-- Position of the leftmost name of a class. -/
def Leftmost (P : Str → Prop) (names : List Str) (i : Nat) : Prop :=
  (∃ n, names[i]? = some n ∧ P n) ∧ ∀ j n, j < i → names[j]? = some n → ¬ P n

/-- No name of the class. -/
def Nowhere (P : Str → Prop) (names : List Str) : Prop := ∀ n ∈ names, ¬ P n

def timeWord : Str := "time".toList
def dateWord : Str := "date".toList

/-- Name classes, in priority order. -/
def TimeUnit (u : TimestampUnits) (n : Str) : Prop := n = timeWord ++ unitName u
def AnyTimeUnit (n : Str) : Prop := ∃ u, TimeUnit u n
def IsDateName (n : Str) : Prop := n = dateWord
def IsTimeName (n : Str) : Prop := n = timeWord
/-- Prefixed classes have a non-empty prefix; names beginning with "time" are never taken as prefixed ones. -/
def PrefixTimeUnit (u : TimestampUnits) (n : Str) : Prop := ∃ p, n = p ++ timeWord ++ unitName u ∧ ¬ timeWord <+: n
def AnyPrefixTimeUnit (n : Str) : Prop := ∃ u, PrefixTimeUnit u n
def PrefixDate (p n : Str) : Prop := n = p ++ dateWord ∧ p ≠ [] ∧ ¬ timeWord <+: n
def AnyPrefixDate (n : Str) : Prop := ∃ p, PrefixDate p n
def PrefixTime (p n : Str) : Prop := n = p ++ timeWord ∧ p ≠ [] ∧ ¬ timeWord <+: n
def AnyPrefixTime (n : Str) : Prop := ∃ p, PrefixTime p n

/-- The documented choice of timestamp column(s) and of the unit known from the name. -/
inductive Chosen (names : List Str) : TimestampCol → Option TimestampUnits → Prop
  | timeUnit {i n u} : Leftmost AnyTimeUnit names i → names[i]? = some n → TimeUnit u n → Chosen names (.index i) (some u)
  | dateTime {d t} : Nowhere AnyTimeUnit names → Leftmost IsDateName names d → Leftmost IsTimeName names t →
      Chosen names (.dateTimeIndex d t) none
  | date {d} : Nowhere AnyTimeUnit names → Leftmost IsDateName names d → Nowhere IsTimeName names → Chosen names (.index d) none
  | time {t} : Nowhere AnyTimeUnit names → Nowhere IsDateName names → Leftmost IsTimeName names t → Chosen names (.index t) none
  | prefTimeUnit {i n u} : Nowhere AnyTimeUnit names → Nowhere IsDateName names → Nowhere IsTimeName names →
      Leftmost AnyPrefixTimeUnit names i → names[i]? = some n → PrefixTimeUnit u n → Chosen names (.index i) (some u)
  | prefDateTime {d t p nd nt} : Nowhere AnyTimeUnit names → Nowhere IsDateName names → Nowhere IsTimeName names →
      Nowhere AnyPrefixTimeUnit names → Leftmost AnyPrefixDate names d → Leftmost AnyPrefixTime names t →
      names[d]? = some nd → names[t]? = some nt → PrefixDate p nd → PrefixTime p nt → Chosen names (.dateTimeIndex d t) none
  | prefDate {d nd pd} : Nowhere AnyTimeUnit names → Nowhere IsDateName names → Nowhere IsTimeName names →
      Nowhere AnyPrefixTimeUnit names → Leftmost AnyPrefixDate names d → names[d]? = some nd → PrefixDate pd nd →
      (∀ t nt, Leftmost AnyPrefixTime names t → names[t]? = some nt → ¬ PrefixTime pd nt) → Chosen names (.index d) none
  | prefTime {t} : Nowhere AnyTimeUnit names → Nowhere IsDateName names → Nowhere IsTimeName names →
      Nowhere AnyPrefixTimeUnit names → Nowhere AnyPrefixDate names → Leftmost AnyPrefixTime names t → Chosen names (.index t) none
  | first : Nowhere AnyTimeUnit names → Nowhere IsDateName names → Nowhere IsTimeName names →
      Nowhere AnyPrefixTimeUnit names → Nowhere AnyPrefixDate names → Nowhere AnyPrefixTime names → Chosen names (.index 0) none

end Chopper.Spec

namespace Chopper.Spec
open Chopper

/-- How a begin/end text is read as date and time: `some i` an instant, `none` rejected.  `%+` first; else the first of the listed formats
that matches, in the time zone; else rejected. -/
inductive DateOutcome (lib : DateLib) (tz : ChopperTz lib) (formats : List Str) (t : Str) : Option Instant → Prop
  | iso {i} : lib.parseTz "%+".toList t = some i → DateOutcome lib tz formats t (some i)
  | local {k : Nat} {f x i zone} : lib.parseTz "%+".toList t = none → formats[k]? = some f → lib.parseNaive f t = some x →
      (∀ (j : Nat) g, j < k → formats[j]? = some g → lib.parseNaive g t = none) →
      tz = some zone → zone x = some i → DateOutcome lib tz formats t (some i)
  | badZone {k : Nat} {f x} : lib.parseTz "%+".toList t = none → formats[k]? = some f → lib.parseNaive f t = some x →
      (∀ (j : Nat) g, j < k → formats[j]? = some g → lib.parseNaive g t = none) →
      (∀ zone, tz = some zone → zone x = none) → DateOutcome lib tz formats t none
  | unknown : lib.parseTz "%+".toList t = none → (∀ f ∈ formats, lib.parseNaive f t = none) → DateOutcome lib tz formats t none

/-- A result follows an outcome: an instant gives its nanoseconds as 64-bit number (or, in builds with overflow checks only, a panic if they
exceed 64-bit signed range), a rejection gives an error. -/
def Follows (ov : Overflow) : Option Instant → Res Nanos → Prop
  | none, r => ∃ e, r = .err e
  | some i, r => (∃ ts : Nanos, r = .ok ts ∧ (ts.toNat : Int) = i.ns % 2 ^ 64) ∨
      (ov = .panics ∧ r = .panic ∧ (i.secs * 10 ^ 9 < - 2 ^ 63 ∨ 2 ^ 63 ≤ i.secs * 10 ^ 9 ∨ i.ns < - 2 ^ 63 ∨ 2 ^ 63 ≤ i.ns))

end Chopper.Spec

namespace Chopper.Spec
open Chopper

/-- The text of the timestamp column(s) of a record; date and time columns are joined with `#`. -/
inductive ColText (record : List Str) : TimestampCol → Str → Prop
  | one {i : Nat} {t : Str} : record[i]? = some t → ColText record (.index i) t
  | two {i j : Nat} {d t : Str} : record[i]? = some d → record[j]? = some t → ColText record (.dateTimeIndex i j) (d ++ "#".toList ++ t)

end Chopper.Spec

namespace Chopper.Spec
open Chopper

/-- The formats tried for a column with date and time, in this order, and those tried for a date and a time column. -/
def oneColumnFormats : List Str := ["%Y%m%d.%H%M%S".toList, "%Y%m%d %H%M%S".toList, "%Y%m%d %H:%M:%S".toList, "%Y/%m/%d-%H:%M:%S".toList]
def twoColumnFormats : List Str := ["%Y%m%d#%H%M%S%3f".toList, "%Y%m%d#%H%M%S".toList, "%Y%m%d#%H:%M:%S".toList, "%Y%m%d#%-H:%M".toList]

/-- `f` is the first of the formats with which the text is a date and time, and this is `x`. -/
def FirstFormat (lib : DateLib) (formats : List Str) (text : Str) (f : Str) (x : lib.Naive) : Prop :=
  ∃ k : Nat, formats[k]? = some f ∧ lib.parseNaive f text = some x ∧ ∀ (j : Nat) g, j < k → formats[j]? = some g → lib.parseNaive g text = none

/-- With none of the formats the text is a date and time. -/
def NoFormat (lib : DateLib) (formats : List Str) (text : Str) : Prop := ∀ f ∈ formats, lib.parseNaive f text = none

/-- The local time exists in the time zone given. -/
def Exists {lib : DateLib} (tz : ChopperTz lib) (x : lib.Naive) : Prop := ∃ zone i, tz = some zone ∧ zone x = some i

/-- The format of a column with this text in the first row: ISO 8601 with offset, else the first format that fits, else a date, else a number in the window of a unit;
`none` if none applies or the local time does not exist in the time zone given. -/
inductive DetectedOne (lib : DateLib) (tz : ChopperTz lib) (text : Str) : Option TimestampFmt → Prop
  | iso {i} : lib.parseTz "%+".toList text = some i → DetectedOne lib tz text (some (.dateTimeIncludesTz "%+".toList))
  | local {f x} : lib.parseTz "%+".toList text = none → FirstFormat lib oneColumnFormats text f x → Exists tz x →
      DetectedOne lib tz text (some (.dateTimeNeedsExternalTz f))
  | badLocal {f x} : lib.parseTz "%+".toList text = none → FirstFormat lib oneColumnFormats text f x → ¬ Exists tz x → DetectedOne lib tz text none
  | date {x} : lib.parseTz "%+".toList text = none → NoFormat lib oneColumnFormats text → lib.parseDate "%Y%m%d".toList text = some x → Exists tz x →
      DetectedOne lib tz text (some (.dateNeedsExternalTz "%Y%m%d".toList))
  | badDate {x} : lib.parseTz "%+".toList text = none → NoFormat lib oneColumnFormats text → lib.parseDate "%Y%m%d".toList text = some x → ¬ Exists tz x →
      DetectedOne lib tz text none
  | epoch {u} : lib.parseTz "%+".toList text = none → NoFormat lib oneColumnFormats text → lib.parseDate "%Y%m%d".toList text = none → Digits text →
      InWindow u (decimalValue text) → DetectedOne lib tz text (some (.units u))
  | unknown : lib.parseTz "%+".toList text = none → NoFormat lib oneColumnFormats text → lib.parseDate "%Y%m%d".toList text = none →
      (Digits text → ∀ u, ¬ InWindow u (decimalValue text)) → DetectedOne lib tz text none

/-- The same for the texts of a date and a time column, joined with `#`. -/
inductive DetectedTwo (lib : DateLib) (tz : ChopperTz lib) (text : Str) : Option TimestampFmt → Prop
  | local {f x} : FirstFormat lib twoColumnFormats text f x → Exists tz x → DetectedTwo lib tz text (some (.dateTimeNeedsExternalTz f))
  | badLocal {f x} : FirstFormat lib twoColumnFormats text f x → ¬ Exists tz x → DetectedTwo lib tz text none
  | unknown : NoFormat lib twoColumnFormats text → DetectedTwo lib tz text none

/-- The kind of the user's format `f`: with offset if the text of the first row can be read so, else date and time, else date. -/
inductive DetectedUser (lib : DateLib) (tz : ChopperTz lib) (f text : Str) : Option TimestampFmt → Prop
  | offset {i} : lib.parseTz f text = some i → DetectedUser lib tz f text (some (.dateTimeIncludesTz f))
  | local {x} : lib.parseTz f text = none → lib.parseNaive f text = some x → Exists tz x → DetectedUser lib tz f text (some (.dateTimeNeedsExternalTz f))
  | badLocal {x} : lib.parseTz f text = none → lib.parseNaive f text = some x → ¬ Exists tz x → DetectedUser lib tz f text none
  | date {x} : lib.parseTz f text = none → lib.parseNaive f text = none → lib.parseDate f text = some x → Exists tz x →
      DetectedUser lib tz f text (some (.dateNeedsExternalTz f))
  | badDate {x} : lib.parseTz f text = none → lib.parseNaive f text = none → lib.parseDate f text = some x → ¬ Exists tz x → DetectedUser lib tz f text none
  | unknown : lib.parseTz f text = none → lib.parseNaive f text = none → lib.parseDate f text = none → DetectedUser lib tz f text none

/-- The result is this format, or an error if there is none. -/
def Gives (col : TimestampCol) : Option TimestampFmt → Res (TimestampCol × TimestampFmt) → Prop
  | some fmt, r => r = .ok (col, fmt)
  | none, r => ∃ e, r = .err e

/-- The unit a column name ends with (upper and lower case matter), if any. -/
def UnitAtEnd (name : Str) : Option TimestampUnits → Prop
  | some u => unitName u <:+ name
  | none => ∀ u, ¬ unitName u <:+ name

/-- What the configuration of the time column asks for: the given column numbers; or the leftmost columns with the given names. For a single column the
unit at the end of its name is a hint for the format. -/
inductive ColumnFor (names : List Str) : TimestampColConfig → TimestampCol → Option TimestampUnits → Prop
  | index {i n hint} : names[i]? = some n → UnitAtEnd n hint → ColumnFor names (.index i) (.index i) hint
  | missing {i} : names.length ≤ i → ColumnFor names (.index i) (.index i) none
  | indices {d t} : ColumnFor names (.dateTimeIndex d t) (.dateTimeIndex d t) none
  | name {n i hint} : Leftmost (· = n) names i → UnitAtEnd n hint → ColumnFor names (.name n) (.index i) hint
  | twoNames {d t i j} : Leftmost (· = d) names i → Leftmost (· = t) names j → ColumnFor names (.dateTimeName d t) (.dateTimeIndex i j) none

end Chopper.Spec
