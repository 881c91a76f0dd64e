import Verif.Model.Cli

/-!
# The date library (`chrono` 0.4 and `chrono-tz` 0.5, `/repo/Cargo.toml:20-21`), as far as the tool's own formats need it

The rest of the model takes the date library as a parameter (`DateLib`, `Zone`).  This file is one concrete instance, following the published sources
of the two crates, which are not part of `/repo`: it models what happens behind the calls `DateTime::parse_from_str`, `NaiveDateTime::parse_from_str`,
`NaiveDate::parse_from_str` (`/repo/src/util/timestamp_util.rs:75-84`, `/repo/src/source/csv_timestamp.rs:102-117,149-173,325-410`),
`TimeZone::from_local_datetime` and `TimeZone::timestamp` (`/repo/src/util/tz.rs:50-78`) and `DateTime::format` (`/repo/src/write/csv_sink.rs:60-90`).
Simplification: of the specifiers of `chrono` only those in the tool's formats (and `%F`, `%T`, `%R`, `%z`, `%%`) are known; formats of the user with
other ones are treated as unknown formats.
-/
namespace Chopper.Chrono
open Chopper

/-! ## Calendar -/

/-- Gregorian leap years (`chrono`'s `YearFlags`). -/
def isLeap (y : Int) : Bool := (y % 4 == 0 && y % 100 != 0) || y % 400 == 0

/-- Lengths of the months of a year. -/
def monthLengths (y : Int) : List Nat := [31, if isLeap y then 29 else 28, 31, 30, 31, 30, 31, 31, 30, 31, 30, 31]

/-- Length of a month, 1 being January. -/
def monthLen (y : Int) (m : Nat) : Nat := if m = 0 then 0 else (monthLengths y)[m - 1]?.getD 0

/-- Leap days from the beginning of year 0 to the beginning of year `y` (`YEAR_DELTAS` within a cycle of 400 years). -/
def leapDays (y : Int) : Int := (y + 3) / 4 - (y + 99) / 100 + (y + 399) / 400

/-- Days of the year before the month. -/
def daysBefore (y : Int) (m : Nat) : Nat := ((monthLengths y).take (m - 1)).sum

/-- `NaiveDate`, as number of days since 1970-01-01 (`num_days_from_ce` less 719163). -/
def dayNumber (y : Int) (m d : Nat) : Int := 365 * y + leapDays y + daysBefore y m + d - 1 - 719528

/-- Month and day of the month from the day of the year (counted from 0), the months being `m`, `m + 1`, … (`Of` to `Mdf`). -/
def splitMonth (m : Nat) : List Nat → Nat → Nat × Nat
  | [], o => (m, o + 1)
  | l :: ls, o => if o < l then (m, o + 1) else splitMonth (m + 1) ls (o - l)

/-- Year and day of the year (from 0) of a day number (`NaiveDate::from_num_days_from_ce_opt`, `cycle_to_yo`). -/
def yearOf (n : Int) : Int × Nat :=
  let c := n + 719528
  let q := c / 146097
  let r := c % 146097
  let y := r / 365
  let o := r % 365
  if o < leapDays y then (400 * q + (y - 1), (o + 365 - leapDays (y - 1)).toNat) else (400 * q + y, (o - leapDays y).toNat)

/-- Year, month and day of a day number. -/
def dateOf (n : Int) : Int × Nat × Nat :=
  let yo := yearOf n
  (yo.1, splitMonth 1 (monthLengths yo.1) yo.2)

/-- `NaiveDate::from_ymd_opt`: the day number of an existing date in the range of years `chrono` supports. -/
def ymd (y m d : Int) : Option Int :=
  if -262144 ≤ y ∧ y ≤ 262143 ∧ 1 ≤ m ∧ m ≤ 12 ∧ 1 ≤ d ∧ d ≤ monthLen y m.toNat then some (dayNumber y m.toNat d.toNat) else none

/-! ## Formats -/

/-- The numbers of a format (`chrono::format::Numeric`). -/
inductive Numeric where
  | year | month | day | hour | minute | second
deriving DecidableEq, Repr

/-- The items of a format (`chrono::format::Item`); `fraction none` is `%.f`, `fraction (some n)` is `%.nf`; `millis` is `%3f`. -/
inductive Item where
  | lit (c : Char)
  | space
  | num (n : Numeric) (padded : Bool)
  | fraction (digits : Option Nat)
  | millis
  | offset (colon : Bool)
  | iso
  | unknown
deriving DecidableEq, Repr

/-- `chrono::format::StrftimeItems`. -/
def items : Str → List Item
  | [] => []
  | '%' :: 'Y' :: s => .num .year true :: items s
  | '%' :: 'm' :: s => .num .month true :: items s
  | '%' :: 'd' :: s => .num .day true :: items s
  | '%' :: 'H' :: s => .num .hour true :: items s
  | '%' :: 'M' :: s => .num .minute true :: items s
  | '%' :: 'S' :: s => .num .second true :: items s
  | '%' :: '-' :: 'H' :: s => .num .hour false :: items s
  | '%' :: 'F' :: s => [.num .year true, .lit '-', .num .month true, .lit '-', .num .day true] ++ items s
  | '%' :: 'T' :: s => [.num .hour true, .lit ':', .num .minute true, .lit ':', .num .second true] ++ items s
  | '%' :: 'R' :: s => [.num .hour true, .lit ':', .num .minute true] ++ items s
  | '%' :: '.' :: 'f' :: s => .fraction none :: items s
  | '%' :: '.' :: '3' :: 'f' :: s => .fraction (some 3) :: items s
  | '%' :: '.' :: '6' :: 'f' :: s => .fraction (some 6) :: items s
  | '%' :: '.' :: '9' :: 'f' :: s => .fraction (some 9) :: items s
  | '%' :: '3' :: 'f' :: s => .millis :: items s
  | '%' :: 'z' :: s => .offset false :: items s
  | '%' :: ':' :: 'z' :: s => .offset true :: items s
  | '%' :: '+' :: s => .iso :: items s
  | '%' :: '%' :: s => .lit '%' :: items s
  | '%' :: s => .unknown :: items s
  | c :: s => (if isWhite c then .space else .lit c) :: items s

/-! ## Reading -/

/-- `chrono::format::Parsed`, as far as used. -/
structure Parsed where
  year : Option Int := none
  month : Option Int := none
  day : Option Int := none
  hour : Option Int := none
  minute : Option Int := none
  second : Option Int := none
  nano : Option Int := none
  offset : Option Int := none
deriving DecidableEq, Repr

/-- `set_if_consistent`. -/
def setField (old : Option Int) (v : Int) : Option (Option Int) :=
  match old with
  | none => some (some v)
  | some o => if o = v then some (some o) else none

def Parsed.set (p : Parsed) (n : Numeric) (v : Int) : Option Parsed :=
  match n with
  | .year => (setField p.year v).map fun x => { p with year := x }
  | .month => (setField p.month v).map fun x => { p with month := x }
  | .day => (setField p.day v).map fun x => { p with day := x }
  | .hour => (setField p.hour v).map fun x => { p with hour := x }
  | .minute => (setField p.minute v).map fun x => { p with minute := x }
  | .second => (setField p.second v).map fun x => { p with second := x }

def Parsed.setNano (p : Parsed) (v : Int) : Option Parsed := (setField p.nano v).map fun x => { p with nano := x }
def Parsed.setOffset (p : Parsed) (v : Int) : Option Parsed := (setField p.offset v).map fun x => { p with offset := x }

/-- `scan::number`: at least `min` and at most `max` digits.  Simplification: numbers of more than 64 bits (signed years only) are out of the range of years. -/
def scanNumber (min max : Nat) (s : Str) : Option (Int × Str) :=
  let ds := (s.take max).takeWhile isDigit
  if ds.length < min then none else some (digitsVal 0 ds, s.drop ds.length)

/-- Years may have a sign, then they may have any number of digits. -/
def scanYear (s : Str) : Option (Int × Str) :=
  match s with
  | '-' :: t => (scanNumber 1 t.length t).map fun x => (- x.1, x.2)
  | '+' :: t => scanNumber 1 t.length t
  | t => scanNumber 1 4 t

/-- `scan::nanosecond`: up to nine digits of a fraction, further ones are ignored. -/
def scanNano (s : Str) : Option (Int × Str) :=
  let ds := (s.take 9).takeWhile isDigit
  if ds.length < 1 then none else some ((digitsVal 0 ds * 10 ^ (9 - ds.length) : Nat), (s.drop ds.length).dropWhile isDigit)

/-- `scan::char`. -/
def scanChar (c : Char) : Str → Option Str
  | [] => none
  | x :: s => if x = c then some s else none

/-- `scan::colon_or_space`: any number of colons and white space. -/
def skipColons (s : Str) : Str := s.dropWhile fun c => c == ':' || isWhite c

/-- `scan::timezone_offset`: sign, two digits, what `colon` takes, two digits. -/
def scanOffset (colon : Str → Option Str) (s : Str) : Option (Int × Str) :=
  match s with
  | [] => none
  | sign :: t =>
    if sign = '+' ∨ sign = '-' then
      match t with
      | h1 :: h2 :: t =>
        if isDigit h1 && isDigit h2 then
          match colon t with
          | some (m1 :: m2 :: t) =>
            if isDigit m1 && isDigit m2 && digitVal m1 < 6 then
              let secs : Int := (digitVal h1 * 10 + digitVal h2) * 3600 + (digitVal m1 * 10 + digitVal m2) * 60
              some (if sign = '-' then - secs else secs, t)
            else none
          | _ => none
        else none
      | _ => none
    else none

/-- `scan::timezone_offset_zulu`. -/
def scanOffsetZulu (s : Str) : Option (Int × Str) :=
  match s with
  | c :: t =>
    if c = 'z' ∨ c = 'Z' then some (0, t)
    else if c = 'u' ∨ c = 'U' then
      match t with
      | b :: d :: t => if (b = 't' ∨ b = 'T') ∧ (d = 'c' ∨ d = 'C') then some (0, t) else none
      | _ => none
    else scanOffset (scanChar ':') (c :: t)
  | [] => none

/-- One number of the ISO format, with exactly `k` digits. -/
def isoNum (n : Numeric) (k : Nat) (p : Parsed) (s : Str) : Option (Parsed × Str) :=
  (scanNumber k k s).bind fun x => (p.set n x.1).map fun p => (p, x.2)

/-- The fraction of a second, if there is a dot. -/
def scanFraction (p : Parsed) (s : Str) : Option (Parsed × Str) :=
  match s with
  | '.' :: t => (scanNano t).bind fun x => (p.setNano x.1).map fun p => (p, x.2)
  | _ => some (p, s)

/-- The letter between date and time. -/
def scanT : Str → Option Str
  | c :: s => if c = 't' ∨ c = 'T' then some s else none
  | [] => none

/-- `parse_rfc3339` (`%+`). -/
def parseIso (p : Parsed) (s : Str) : Option (Parsed × Str) := do
  let (p, s) ← isoNum .year 4 p s
  let s ← scanChar '-' s
  let (p, s) ← isoNum .month 2 p s
  let s ← scanChar '-' s
  let (p, s) ← isoNum .day 2 p s
  let s ← scanT s
  let (p, s) ← isoNum .hour 2 p s
  let s ← scanChar ':' s
  let (p, s) ← isoNum .minute 2 p s
  let s ← scanChar ':' s
  let (p, s) ← isoNum .second 2 p s
  let (p, s) ← scanFraction p s
  let (o, s) ← scanOffsetZulu s
  if o ≤ -86400 ∨ 86400 ≤ o then none
  else (p.setOffset o).map fun p => (p, s)

/-- `chrono::format::parse`, one item. -/
def parseItem (i : Item) (p : Parsed) (s : Str) : Option (Parsed × Str) :=
  match i with
  | .lit c => (scanChar c s).map fun s => (p, s)
  | .space => some (p, s.dropWhile isWhite)
  | .num .year _ => (scanYear (s.dropWhile isWhite)).bind fun x => (p.set .year x.1).map fun p => (p, x.2)
  | .num n _ => (scanNumber 1 2 (s.dropWhile isWhite)).bind fun x => (p.set n x.1).map fun p => (p, x.2)
  | .fraction _ => scanFraction p s
  | .millis => (scanNumber 3 3 s).bind fun x => (p.setNano (x.1 * 1000000)).map fun p => (p, x.2)
  | .offset _ => (scanOffset (fun t => some (skipColons t)) (s.dropWhile isWhite)).bind fun x => (p.setOffset x.1).map fun p => (p, x.2)
  | .iso => parseIso p s
  | .unknown => none

/-- `chrono::format::parse`: all items, and nothing may be left. -/
def parseItems : List Item → Parsed → Str → Option Parsed
  | [], p, s => if s = [] then some p else none
  | i :: is, p, s => (parseItem i p s).bind fun x => parseItems is x.1 x.2

/-- `Parsed::to_naive_date`, as day number. -/
def toDate (p : Parsed) : Option Int := do
  let y ← p.year
  let m ← p.month
  let d ← p.day
  ymd y m d

/-- `Parsed::to_naive_time`: second of the day and nanoseconds; second 60 is second 59 with a billion nanoseconds more. -/
def toTime (p : Parsed) : Option (Int × Nat) := do
  let h ← p.hour
  let m ← p.minute
  if 24 ≤ h ∨ 60 ≤ m then none
  let s := p.second.getD 0
  if 61 ≤ s then none
  if p.nano.isSome ∧ p.second = none then none
  let n := (p.nano.getD 0).toNat
  some (h * 3600 + m * 60 + (if s = 60 then 59 else s), n + (if s = 60 then 1000000000 else 0))

/-- `Parsed::to_naive_datetime_with_offset`: seconds since 1970-01-01T00:00:00 of the same clock. -/
def toNaive (p : Parsed) : Option Instant := do
  let d ← toDate p
  let t ← toTime p
  some ⟨d * 86400 + t.1, t.2⟩

/-- `Parsed::to_datetime`. -/
def toInstant (p : Parsed) : Option Instant := do
  let o ← p.offset
  let x ← toNaive p
  if o ≤ -86400 ∨ 86400 ≤ o then none
  else some ⟨x.secs - o, x.nsec⟩

/-- The three ways of reading. -/
def chrono : DateLib where
  Naive := Instant
  parseTz fmt text := (parseItems (items fmt) {} text).bind toInstant
  parseNaive fmt text := (parseItems (items fmt) {} text).bind toNaive
  parseDate fmt text := ((parseItems (items fmt) {} text).bind toDate).map fun d => ⟨d * 86400, 0⟩

/-! ## Writing -/

/-- `{:0k}` of a number. -/
def padNat (k n : Nat) : Str := List.replicate (k - (natToStr n).length) '0' ++ natToStr n

/-- Years from 0 to 9999 have four digits, others a sign. -/
def yearText (y : Int) : Str :=
  if 0 ≤ y ∧ y ≤ 9999 then padNat 4 y.toNat else (if y < 0 then '-' else '+') :: padNat 4 y.natAbs

/-- An offset, truncated to minutes. -/
def offsetText (colon : Bool) (o : Int) : Str :=
  (if o < 0 then '-' else '+') :: padNat 2 (o.natAbs / 3600) ++ (if colon then [':'] else []) ++ padNat 2 (o.natAbs / 60 % 60)

/-- A fraction with this many digits. -/
def fractionText (k nsec : Nat) : Str := '.' :: padNat k (nsec / 10 ^ (9 - k))

/-- `%.f`: 0, 3, 6 or 9 digits, as needed. -/
def fractionAuto (nsec : Nat) : Str :=
  if nsec = 0 then []
  else if nsec % 1000000 = 0 then fractionText 3 nsec
  else if nsec % 1000 = 0 then fractionText 6 nsec
  else fractionText 9 nsec

/-- `chrono::format::format`, one item, for a local time (seconds since 1970 of the local clock, nanoseconds below a second) with its offset. -/
def formatItem (loc : Int) (nsec : Nat) (o : Int) : Item → Str
  | .lit c => [c]
  | .space => [' ']
  | .num .year _ => yearText (dateOf (loc / 86400)).1
  | .num .month _ => padNat 2 (dateOf (loc / 86400)).2.1
  | .num .day _ => padNat 2 (dateOf (loc / 86400)).2.2
  | .num .hour pad => let h := (loc % 86400 / 3600).toNat; if pad then padNat 2 h else natToStr h
  | .num .minute _ => padNat 2 (loc % 3600 / 60).toNat
  | .num .second _ => padNat 2 (loc % 60).toNat
  | .fraction none => fractionAuto nsec
  | .fraction (some k) => fractionText k nsec
  | .millis => padNat 3 (nsec / 1000000)
  | .offset colon => offsetText colon o
  | .iso => yearText (dateOf (loc / 86400)).1 ++ ['-'] ++ padNat 2 (dateOf (loc / 86400)).2.1 ++ ['-'] ++ padNat 2 (dateOf (loc / 86400)).2.2 ++ ['T'] ++
      padNat 2 (loc % 86400 / 3600).toNat ++ [':'] ++ padNat 2 (loc % 3600 / 60).toNat ++ [':'] ++ padNat 2 (loc % 60).toNat ++ fractionAuto nsec ++ offsetText true o
  | .unknown => []

/-! ## Time zones -/

/-- A time zone (`chrono_tz`'s `FixedTimespanSet`): the offset (local minus universal time, in seconds) at first, and the times when it changes with the new offsets. -/
structure TzSpans where
  first : Int
  rest : List (Int × Int)
deriving DecidableEq, Repr

/-- The spans of constant offset: from, to (exclusive) and offset. -/
def spansFrom (start : Option Int) (o : Int) : List (Int × Int) → List (Option Int × Option Int × Int)
  | [] => [(start, none, o)]
  | (t, o') :: r => (start, some t, o) :: spansFrom (some t) o' r

def TzSpans.spans (z : TzSpans) : List (Option Int × Option Int × Int) := spansFrom none z.first z.rest

/-- Does the span contain the time? -/
def inSpan (s : Option Int × Option Int × Int) (t : Int) : Bool :=
  (match s.1 with | none => true | some a => decide (a ≤ t)) && (match s.2.1 with | none => true | some b => decide (t < b))

/-- `Tz::offset_from_utc_datetime`: the offset of the span the time is in. -/
def TzSpans.offsetAt (z : TzSpans) (t : Int) : Int := ((z.spans.find? (fun s => inSpan s t)).map (·.2.2)).getD z.first

/-- `Tz::offset_from_local_datetime`, followed by `LocalResult::Single`: the only span that contains the local time.
Simplification: `chrono_tz` looks at neighbouring spans only. -/
def TzSpans.fromLocal (z : TzSpans) (x : Instant) : Option Instant :=
  match z.spans.filter (fun s => inSpan s (x.secs - s.2.2)) with
  | [s] => some ⟨x.secs - s.2.2, x.nsec⟩
  | _ => none

/-- `TimeZone::timestamp` and `DateTime::format`. -/
def TzSpans.render (z : TzSpans) (secs : Int) (nsec : Nat) (fmt : Str) : Str :=
  (items fmt).flatMap (formatItem (secs + z.offsetAt secs) nsec (z.offsetAt secs))

def TzSpans.zone (z : TzSpans) : Zone chrono := ⟨z.fromLocal, z.render⟩

/-- `Etc/UTC`. -/
def utc : TzSpans := ⟨0, []⟩

end Chopper.Chrono
