import Verif.Spec.Calendar

/-!
# Specification vocabulary: time formats given by the user (C133–C135)
-/
namespace Chopper.Spec
open Chopper

/-- What a format can show of a clock and its offset from universal time. -/
inductive Part where
  | year | month | day | hour | minute | second | nanos | offset
deriving DecidableEq, Repr

/-- The text does not begin with a digit. -/
def NoDigitFirst (s : Str) : Prop := ∀ x, s.head? = some x → ¬ (48 ≤ x.toNat ∧ x.toNat ≤ 57)

/-- White space only. -/
def White (s : Str) : Prop := ∀ x ∈ s, isWhite x = true

/-- A number of at least `least` and at most `most` digits; as many as there are. -/
def Number (least most n : Nat) (t follows : Str) : Prop :=
  least ≤ t.length ∧ t.length ≤ most ∧ (∀ x ∈ t, 48 ≤ x.toNat ∧ x.toNat ≤ 57) ∧ decimalValue t = n ∧ (t.length = most ∨ NoDigitFirst follows)

/-- A fraction of a second: a dot and digits, as many as there are, or nothing (and no dot follows). -/
inductive FractionPart (c : Clock) : List Part → Str → Str → Prop
  | digits {ds follows} : Digits ds → c.nanos = decimalValue ds * 10 ^ 9 / 10 ^ ds.length → NoDigitFirst follows → FractionPart c [.nanos] ('.' :: ds) follows
  | nothing {follows} : follows.head? ≠ some '.' → FractionPart c [] [] follows

/-- An offset of so many seconds: sign, two digits for hours, a separator, two digits for minutes. -/
inductive OffsetPart : Int → Str → Str → Prop
  | ahead {h m th sep tm} : HasDigits 2 h th → HasDigits 2 m tm → m < 60 → OffsetPart (h * 3600 + m * 60) sep ('+' :: th ++ sep ++ tm)
  | behind {h m th sep tm} : HasDigits 2 h th → HasDigits 2 m tm → m < 60 → OffsetPart (- (h * 3600 + m * 60 : Int)) sep ('-' :: th ++ sep ++ tm)

/-- An offset in ISO notation: less than a day, with a colon; or `Z` or `UTC`. -/
inductive IsoOffset : Int → Str → Prop
  | offset {o t} : OffsetPart o ":".toList t → -86400 < o → o < 86400 → IsoOffset o t
  | zulu {x} : x = 'z' ∨ x = 'Z' → IsoOffset 0 [x]
  | utc {x y z} : x = 'u' ∨ x = 'U' → y = 't' ∨ y = 'T' → z = 'c' ∨ z = 'C' → IsoOffset 0 [x, y, z]

/-- `SpecifierText c o spec shown t follows`: before `follows`, the text `t` is what the specifier `spec` of a format stands for, for the clock `c` with offset `o` (seconds); it shows these parts
of them. -/
inductive SpecifierText (c : Clock) (o : Int) : Str → List Part → Str → Str → Prop
  | year {ws t follows} {y : Nat} : White ws → Number 1 4 y t follows → c.date.year = y → SpecifierText c o "%Y".toList [.year] (ws ++ t) follows
  | laterYear {ws t follows} : White ws → Digits t → NoDigitFirst follows → c.date.year = decimalValue t → SpecifierText c o "%Y".toList [.year] (ws ++ '+' :: t) follows
  | yearBefore {ws t follows} : White ws → Digits t → NoDigitFirst follows → c.date.year = - (decimalValue t : Int) → SpecifierText c o "%Y".toList [.year] (ws ++ '-' :: t) follows
  | month {ws t follows} : White ws → Number 1 2 c.date.month t follows → SpecifierText c o "%m".toList [.month] (ws ++ t) follows
  | day {ws t follows} : White ws → Number 1 2 c.date.day t follows → SpecifierText c o "%d".toList [.day] (ws ++ t) follows
  | hour {spec ws t follows} : spec ∈ ["%H".toList, "%-H".toList] → White ws → Number 1 2 c.hour t follows → SpecifierText c o spec [.hour] (ws ++ t) follows
  | minute {ws t follows} : White ws → Number 1 2 c.minute t follows → SpecifierText c o "%M".toList [.minute] (ws ++ t) follows
  | second {ws t follows} : White ws → Number 1 2 c.second t follows → SpecifierText c o "%S".toList [.second] (ws ++ t) follows
  | fraction {spec sf t follows} : spec ∈ ["%.f".toList, "%.3f".toList, "%.6f".toList, "%.9f".toList] → FractionPart c sf t follows → SpecifierText c o spec sf t follows
  | millis {ms t follows} : HasDigits 3 ms t → c.nanos = ms * 10 ^ 6 → SpecifierText c o "%3f".toList [.nanos] t follows
  | offset {spec ws sep t follows} : spec ∈ ["%z".toList, "%:z".toList] → White ws → (∀ x ∈ sep, x = ':' ∨ isWhite x = true) → OffsetPart o sep t → SpecifierText c o spec [.offset] (ws ++ t) follows
  /-- ISO 8601: `2019-02-03T04:05:06.789+01:00` -/
  | iso {y : Nat} {ty tm td tT th tmi ts sf tf to follows} : HasDigits 4 y ty → c.date.year = y → HasDigits 2 c.date.month tm → HasDigits 2 c.date.day td → (tT = 't' ∨ tT = 'T') →
      HasDigits 2 c.hour th → HasDigits 2 c.minute tmi → HasDigits 2 c.second ts → FractionPart c sf tf (to ++ follows) → IsoOffset o to →
      SpecifierText c o "%+".toList ([.year, .month, .day, .hour, .minute, .second] ++ sf ++ [.offset])
        (ty ++ '-' :: tm ++ '-' :: td ++ tT :: th ++ ':' :: tmi ++ ':' :: ts ++ tf ++ to) follows
  /-- white space stands for all the white space there is, `%%` for `%`, any other character for itself -/
  | space {x ws follows} : isWhite x = true → White ws → (∀ y, follows.head? = some y → isWhite y = false) → SpecifierText c o [x] [] ws follows
  | percent {follows} : SpecifierText c o "%%".toList [] ['%'] follows
  | letter {x follows} : x ≠ '%' → isWhite x = false → SpecifierText c o [x] [] [x] follows

/-- `InFormat c o shown f t`: the text `t` is the clock `c` with offset `o` in the format `f` (`strftime` notation), and it shows these parts of them.  The format may show them in any order,
more than once, and with any text around them; `%F`, `%T` and `%R` are abbreviations. -/
inductive InFormat (c : Clock) (o : Int) : List Part → Str → Str → Prop
  | done : InFormat c o [] [] []
  | field {spec shown t ps f s} : SpecifierText c o spec shown t s → InFormat c o ps f s → InFormat c o (shown ++ ps) (spec ++ f) (t ++ s)
  | date {ps f s} : InFormat c o ps ("%Y-%m-%d".toList ++ f) s → InFormat c o ps ("%F".toList ++ f) s
  | time {ps f s} : InFormat c o ps ("%H:%M:%S".toList ++ f) s → InFormat c o ps ("%T".toList ++ f) s
  | shortTime {ps f s} : InFormat c o ps ("%H:%M".toList ++ f) s → InFormat c o ps ("%R".toList ++ f) s

/-- The date is shown in full. -/
def ShowsDate (shown : List Part) : Prop := .year ∈ shown ∧ .month ∈ shown ∧ .day ∈ shown

/-- So is the time: hour and minute at least, and the seconds if there is a fraction; what is not shown is zero. -/
def ShowsTime (c : Clock) (shown : List Part) : Prop :=
  .hour ∈ shown ∧ .minute ∈ shown ∧ (.second ∈ shown ∨ (c.second = 0 ∧ .nanos ∉ shown)) ∧ (.nanos ∈ shown ∨ c.nanos = 0)

/-- The years a date can have at all (in the date library). -/
def YearInRange (c : Clock) : Prop := -262144 ≤ c.date.year ∧ c.date.year ≤ 262143

/-- The date exists and the time is possible; second 60 is a leap second. -/
def PossibleClock (c : Clock) : Prop := RealDate c.date ∧ YearInRange c ∧ c.hour < 24 ∧ c.minute < 60 ∧ c.second ≤ 60

/-- The only time when clocks in the zone show this (`loc` is what they show, in seconds); a leap second is the second after the one before. -/
def ZoneTime (z : Chrono.TzSpans) (c : Clock) (loc t : Int) : Prop := (c.second < 60 ∧ OnlyTime z loc t) ∨ (c.second = 60 ∧ OnlyTime z (loc - 1) (t - 1))

/-- The format the user gave: one for the time column, or one for the date column and one for the time column (whose texts are joined with `#`, as the formats are). -/
inductive UserFormat : TimestampFmtConfig → Str → Prop
  | one {f} : UserFormat (.explicit f) f
  | two {d t} : UserFormat (.dateTimeExplicit d t) (d ++ "#".toList ++ t)

end Chopper.Spec
