import Verif.Proofs.TimeFormat
import Verif.Proofs.CsvExact
import Verif.Props.CalendarColumns

/-!
# C133, C134: time formats given by the user
-/
namespace Chopper.Props
open Chopper Spec Chrono

/-- What becomes of the user's format on the first row. -/
def formatOutcome (lib : DateLib) (tz : ChopperTz lib) (f text : Str) : Res TimestampFmt :=
  if (lib.parseTz f text).isSome then .ok (.dateTimeIncludesTz f)
  else match lib.parseNaive f text with
    | some x => (fromLocalDatetime tz x).bind fun _ => .ok (.dateTimeNeedsExternalTz f)
    | none =>
      match lib.parseDate f text with
      | some x => (fromLocalDatetime tz x).bind fun _ => .ok (.dateNeedsExternalTz f)
      | none => .err (.custom "Cannot figure out if timestamp format requires timezone or not")

theorem user_format {lower : Str → Str} {tz : ChopperTz chrono} {names record : List Str} {colCfg : TimestampColConfig} {fmtCfg : TimestampFmtConfig} {col : TimestampCol}
    {hint : Option TimestampUnits} {f text : Str} (hcol : getTimestampCol lower names colCfg = .ok (col, hint)) (hf : UserFormat fmtCfg f) (ht : ColText record col text) :
    getTimestampColAndFmt lower chrono tz names record colCfg fmtCfg = (formatOutcome chrono tz f text).bind fun fmt => .ok (col, fmt) := by
  have ht' := colText_iff.1 ht
  cases hf with
  | one =>
    simp only [getTimestampColAndFmt, hcol, Res.bind_ok, getTimestampFmtFromUserSpec, ht', formatOutcome]
    rfl
  | two =>
    simp only [getTimestampColAndFmt, hcol, Res.bind_ok, getTimestampFmtFromUserSpec, ht', formatOutcome, show ∀ d t : Str, d ++ "#".toList ++ t = d ++ '#' :: t from fun d t => by simp]
    rfl

theorem outcome_tz {lib : DateLib} {tz : ChopperTz lib} {f text : Str} {i : Instant} (h : lib.parseTz f text = some i) : formatOutcome lib tz f text = .ok (.dateTimeIncludesTz f) := by
  simp only [formatOutcome, h, Option.isSome_some, if_true]
theorem outcome_naive {lib : DateLib} {tz : ChopperTz lib} {f text : Str} {x : lib.Naive} (h : lib.parseTz f text = none) (h2 : lib.parseNaive f text = some x) :
    formatOutcome lib tz f text = (fromLocalDatetime tz x).bind fun _ => .ok (.dateTimeNeedsExternalTz f) := by
  simp only [formatOutcome, h, h2, Option.isSome_none, Bool.false_eq_true, if_false]
theorem outcome_date {lib : DateLib} {tz : ChopperTz lib} {f text : Str} {x : lib.Naive} (h : lib.parseTz f text = none) (h2 : lib.parseNaive f text = none)
    (h3 : lib.parseDate f text = some x) : formatOutcome lib tz f text = (fromLocalDatetime tz x).bind fun _ => .ok (.dateNeedsExternalTz f) := by
  simp only [formatOutcome, h, h2, h3, Option.isSome_none, Bool.false_eq_true, if_false]
theorem outcome_none {lib : DateLib} {tz : ChopperTz lib} {f text : Str} (h : lib.parseTz f text = none) (h2 : lib.parseNaive f text = none)
    (h3 : lib.parseDate f text = none) : formatOutcome lib tz f text = .err (.custom "Cannot figure out if timestamp format requires timezone or not") := by
  simp only [formatOutcome, h, h2, h3, Option.isSome_none, Bool.false_eq_true, if_false]
theorem convert_tz {ov : Overflow} {lib : DateLib} {tz : ChopperTz lib} {f text : Str} {i : Instant} (h : lib.parseTz f text = some i) :
    convertTimestamp ov lib tz (.dateTimeIncludesTz f) text = timestampNanos ov i := by
  simp only [convertTimestamp, h, Res.okOr, Res.bind_ok]
theorem convert_naive {ov : Overflow} {lib : DateLib} {tz : ChopperTz lib} {f text : Str} {x : lib.Naive} (h : lib.parseNaive f text = some x) :
    convertTimestamp ov lib tz (.dateTimeNeedsExternalTz f) text = (fromLocalDatetime tz x).bind (timestampNanos ov) := by
  simp only [convertTimestamp, h, Res.okOr, Res.bind_ok]
theorem convert_date {ov : Overflow} {lib : DateLib} {tz : ChopperTz lib} {f text : Str} {x : lib.Naive} (h : lib.parseDate f text = some x) :
    convertTimestamp ov lib tz (.dateNeedsExternalTz f) text = (fromLocalDatetime tz x).bind (timestampNanos ov) := by
  simp only [convertTimestamp, h, Res.okOr, Res.bind_ok]
theorem convert_no_date {ov : Overflow} {lib : DateLib} {tz : ChopperTz lib} {f text : Str} (h : lib.parseDate f text = none) :
    convertTimestamp ov lib tz (.dateNeedsExternalTz f) text = .err .timeParsing := by
  simp only [convertTimestamp, h, Res.okOr]; rfl

theorem read_column {ov : Overflow} {tz : ChopperTz chrono} {record : List Str} {col : TimestampCol} {text : Str} (ht : ColText record col text) (fmt : TimestampFmt) :
    getTimestamp ov chrono tz record col fmt = convertTimestamp ov chrono tz fmt text := by
  simp only [getTimestamp, colText_iff.1 ht, Res.bind_ok]

theorem format_parse {c : Clock} {o : Int} {ps : List Part} {f s : Str} (h : InFormat c o ps f s) :
    chrono.parseTz f s = toInstant (parsedOf c o ps) ∧ chrono.parseNaive f s = toNaive (parsedOf c o ps) ∧
      chrono.parseDate f s = (toDate (parsedOf c o ps)).map fun d => ⟨d * 86400, 0⟩ := by
  have hp : parseItems (items f) {} s = some (parsedOf c o ps) := parse_inFormat h []
  have e1 : chrono.parseTz f s = (parseItems (items f) {} s).bind toInstant := rfl
  have e2 : chrono.parseNaive f s = (parseItems (items f) {} s).bind toNaive := rfl
  have e3 : chrono.parseDate f s = ((parseItems (items f) {} s).bind toDate).map fun d => ⟨d * 86400, 0⟩ := rfl
  rw [e1, e2, e3, hp]
  exact ⟨rfl, rfl, rfl⟩

theorem instant_parsed {c : Clock} {o : Int} {ps : List Part} : toInstant (parsedOf c o ps) =
    if .offset ∈ ps ∧ -86400 < o ∧ o < 86400 then (toNaive (parsedOf c o ps)).map fun x => ⟨x.secs - o, x.nsec⟩ else none := by
  have e : (parsedOf c o ps).offset = if .offset ∈ ps then some o else none := rfl
  unfold toInstant
  rw [e]
  by_cases h : Part.offset ∈ ps
  · simp only [h, if_true, true_and, Option.bind_eq_bind, Option.bind_some]
    cases toNaive (parsedOf c o ps) with
    | none => simp
    | some x =>
      simp only [Option.bind_some, Option.map_some]
      by_cases h2 : o ≤ -86400 ∨ 86400 ≤ o
      · rw [if_pos h2, if_neg (by omega)]
      · rw [if_neg h2, if_pos (by omega)]
  · simp [h]

/-- **C133 (with offset).** A date, time and offset in a format of the user: the format is accepted on the first row, and the row is read as the instant it says, whatever the time zone. -/
theorem C133_offset (ov : Overflow) (lower : Str → Str) (tz : ChopperTz chrono) (names record : List Str) (colCfg : TimestampColConfig) (fmtCfg : TimestampFmtConfig) (col : TimestampCol)
    (hint : Option TimestampUnits) (f text : Str) (hcol : getTimestampCol lower names colCfg = .ok (col, hint)) (hf : UserFormat fmtCfg f) (ht : ColText record col text)
    (c : Clock) (o : Int) (shown : List Part) (hin : InFormat c o shown f text) (hd : ShowsDate shown) (htime : ShowsTime c shown) (ho : .offset ∈ shown) (h1 : -86400 < o) (h2 : o < 86400)
    (hyear : YearInRange c) (hc : RealClock c) (loc : Int) (hloc : ClockSeconds c loc) :
    getTimestampColAndFmt lower chrono tz names record colCfg fmtCfg = .ok (col, .dateTimeIncludesTz f) ∧
    Follows ov (some ⟨loc - o, c.nanos⟩) (getTimestamp ov chrono tz record col (.dateTimeIncludesTz f)) := by
  have hn := parsed_real (o := o) hd htime hyear hc hloc
  have hi : chrono.parseTz f text = some ⟨loc - o, c.nanos⟩ := by rw [(format_parse hin).1, instant_parsed, if_pos ⟨ho, h1, h2⟩, hn]; rfl
  rw [user_format hcol hf ht, read_column ht, outcome_tz hi, convert_tz hi]
  refine ⟨rfl, ?_⟩
  exact timestampNanos_follows ov _

/-- **C133 (local time).** A date and time without offset: the format is accepted and the row is read as the only time when clocks in the time zone show it; if there is no such time or there
are two, both fail. -/
theorem C133_local (ov : Overflow) (lower : Str → Str) (z : TzSpans) (hz : InOrder z) (names record : List Str) (colCfg : TimestampColConfig) (fmtCfg : TimestampFmtConfig) (col : TimestampCol)
    (hint : Option TimestampUnits) (f text : Str) (hcol : getTimestampCol lower names colCfg = .ok (col, hint)) (hf : UserFormat fmtCfg f) (ht : ColText record col text)
    (c : Clock) (o : Int) (shown : List Part) (hin : InFormat c o shown f text) (hd : ShowsDate shown) (htime : ShowsTime c shown) (ho : .offset ∉ shown)
    (hyear : YearInRange c) (hc : RealClock c) (loc : Int) (hloc : ClockSeconds c loc) :
    (∀ t, OnlyTime z loc t → getTimestampColAndFmt lower chrono (some z.fromLocal) names record colCfg fmtCfg = .ok (col, .dateTimeNeedsExternalTz f) ∧
      Follows ov (some ⟨t, c.nanos⟩) (getTimestamp ov chrono (some z.fromLocal) record col (.dateTimeNeedsExternalTz f))) ∧
    ((∀ t, ¬ OnlyTime z loc t) → (∃ e, getTimestampColAndFmt lower chrono (some z.fromLocal) names record colCfg fmtCfg = .err e) ∧
      ∃ e, getTimestamp ov chrono (some z.fromLocal) record col (.dateTimeNeedsExternalTz f) = .err e) := by
  have hn : chrono.parseNaive f text = some ⟨loc, c.nanos⟩ := by rw [(format_parse hin).2.1]; exact parsed_real hd htime hyear hc hloc
  have hi : chrono.parseTz f text = none := by rw [(format_parse hin).1, instant_parsed, if_neg (fun h => ho h.1)]
  rw [user_format hcol hf ht, read_column ht, outcome_naive hi hn, convert_naive hn]
  constructor
  · intro t h1
    have := (fromLocal_iff hz ⟨loc, c.nanos⟩ ⟨t, c.nanos⟩).2 ⟨rfl, h1⟩
    simp only [fromLocalDatetime, this, Res.bind_ok]
    exact ⟨trivial, timestampNanos_follows ov _⟩
  · intro h
    have := (fromLocal_none hz ⟨loc, c.nanos⟩).2 h
    simp only [fromLocalDatetime, this]
    exact ⟨⟨_, rfl⟩, _, rfl⟩

/-- **C133 (dates).** A format that shows a date but no hour (or no minute): rows are read as the midnight of their date in the time zone, if that is there exactly once; otherwise, and for
dates that do not exist, both fail. -/
theorem C133_date (ov : Overflow) (lower : Str → Str) (z : TzSpans) (hz : InOrder z) (names record : List Str) (colCfg : TimestampColConfig) (fmtCfg : TimestampFmtConfig) (col : TimestampCol)
    (hint : Option TimestampUnits) (f text : Str) (hcol : getTimestampCol lower names colCfg = .ok (col, hint)) (hf : UserFormat fmtCfg f) (ht : ColText record col text)
    (c : Clock) (o : Int) (shown : List Part) (hin : InFormat c o shown f text) (hd : ShowsDate shown) (htime : .hour ∉ shown ∨ .minute ∉ shown) (hyear : YearInRange c) :
    (∀ n t, DaysFrom1970 c.date n → OnlyTime z (n * 86400) t → getTimestampColAndFmt lower chrono (some z.fromLocal) names record colCfg fmtCfg = .ok (col, .dateNeedsExternalTz f) ∧
      Follows ov (some ⟨t, 0⟩) (getTimestamp ov chrono (some z.fromLocal) record col (.dateNeedsExternalTz f))) ∧
    ((¬ RealDate c.date ∨ ∃ n, DaysFrom1970 c.date n ∧ ∀ t, ¬ OnlyTime z (n * 86400) t) → (∃ e, getTimestampColAndFmt lower chrono (some z.fromLocal) names record colCfg fmtCfg = .err e) ∧
      ∃ e, getTimestamp ov chrono (some z.fromLocal) record col (.dateNeedsExternalTz f) = .err e) := by
  have hn : toNaive (parsedOf c o shown) = none := by
    have ht : toTime (parsedOf c o shown) = none := by
      have e1 : (parsedOf c o shown).hour = if .hour ∈ shown then some (c.hour : Int) else none := rfl
      have e2 : (parsedOf c o shown).minute = if .minute ∈ shown then some (c.minute : Int) else none := rfl
      unfold toTime
      rw [e1, e2]
      rcases htime with h | h
      · rw [if_neg h]; rfl
      · rw [if_neg h]
        by_cases h1 : Part.hour ∈ shown
        · rw [if_pos h1]; rfl
        · rw [if_neg h1]; rfl
    unfold toNaive
    rw [ht]
    cases toDate (parsedOf c o shown) <;> rfl
  have hnaive : chrono.parseNaive f text = none := (format_parse hin).2.1.trans hn
  have htz : chrono.parseTz f text = none := by rw [(format_parse hin).1, instant_parsed, hn]; split <;> rfl
  have hdate : chrono.parseDate f text = (ymd c.date.year c.date.month c.date.day).map fun d => ⟨d * 86400, 0⟩ := by rw [(format_parse hin).2.2, parsed_date, if_pos hd]
  rw [user_format hcol hf ht, read_column ht]
  constructor
  · intro n t hn h1
    obtain ⟨hreal, rfl⟩ := (daysFrom1970_iff _ _).1 hn
    have hymd : ymd c.date.year c.date.month c.date.day = some (dayNumber c.date.year c.date.month c.date.day) := ymd_of_real hyear.1 hyear.2 hreal
    have := (fromLocal_iff hz ⟨dayNumber c.date.year c.date.month c.date.day * 86400, 0⟩ ⟨t, 0⟩).2 ⟨rfl, h1⟩
    rw [hymd] at hdate
    rw [outcome_date htz hnaive hdate, convert_date hdate]
    simp only [fromLocalDatetime, this, Res.bind_ok]
    exact ⟨trivial, timestampNanos_follows ov _⟩
  · rintro (h | ⟨n, hn, h⟩)
    · have hymd : ymd c.date.year c.date.month c.date.day = none := ymd_of_unreal h
      rw [hymd] at hdate
      rw [outcome_none htz hnaive hdate, convert_no_date hdate]
      exact ⟨⟨_, rfl⟩, _, rfl⟩
    · obtain ⟨hreal, rfl⟩ := (daysFrom1970_iff _ _).1 hn
      have hymd : ymd c.date.year c.date.month c.date.day = some (dayNumber c.date.year c.date.month c.date.day) := ymd_of_real hyear.1 hyear.2 hreal
      have := (fromLocal_none hz ⟨dayNumber c.date.year c.date.month c.date.day * 86400, 0⟩).2 h
      rw [hymd] at hdate
      rw [outcome_date htz hnaive hdate, convert_date hdate]
      simp only [fromLocalDatetime, this]
      exact ⟨⟨_, rfl⟩, _, rfl⟩

/-- **C133 (no date).** A format that does not show the whole date is refused, whatever the first row is. -/
theorem C133_no_date (lower : Str → Str) (tz : ChopperTz chrono) (names record : List Str) (colCfg : TimestampColConfig) (fmtCfg : TimestampFmtConfig) (col : TimestampCol)
    (hint : Option TimestampUnits) (f text : Str) (hcol : getTimestampCol lower names colCfg = .ok (col, hint)) (hf : UserFormat fmtCfg f) (ht : ColText record col text)
    (c : Clock) (o : Int) (shown : List Part) (hin : InFormat c o shown f text) (hd : ¬ ShowsDate shown) :
    ∃ e, getTimestampColAndFmt lower chrono tz names record colCfg fmtCfg = .err e := by
  have hdate : toDate (parsedOf c o shown) = none := by rw [parsed_date, if_neg hd]
  have hn : toNaive (parsedOf c o shown) = none := by unfold toNaive; rw [hdate]; rfl
  have h1 : chrono.parseTz f text = none := by rw [(format_parse hin).1, instant_parsed, hn]; split <;> rfl
  rw [user_format hcol hf ht, outcome_none h1 ((format_parse hin).2.1.trans hn) (by rw [(format_parse hin).2.2, hdate]; rfl)]
  exact ⟨_, rfl⟩

/-! ### Examples -/

theorem digits_lit {k n : Nat} {s : Str} (h : (s.length == k && s.all isDigit && decimalValue s == n) = true) : HasDigits k n s := by
  simp only [Bool.and_eq_true, beq_iff_eq, List.all_eq_true] at h
  exact ⟨h.1.1, fun c hc => (isDigit_iff c).1 (h.1.2 c hc), h.2⟩

theorem number_lit {least most n : Nat} {t r : Str} (h : (decide (least ≤ t.length) && decide (t.length ≤ most) && t.all isDigit && decimalValue t == n &&
    (t.length == most || (match r with | [] => true | x :: _ => !isDigit x))) = true) : Number least most n t r := by
  simp only [Bool.and_eq_true, Bool.or_eq_true, beq_iff_eq, List.all_eq_true, decide_eq_true_eq] at h
  obtain ⟨⟨⟨⟨h1, h2⟩, h3⟩, h4⟩, h5⟩ := h
  refine ⟨h1, h2, fun c hc => (isDigit_iff c).1 (h3 c hc), h4, ?_⟩
  rcases h5 with h5 | h5
  · exact .inl h5
  · refine .inr (noDigit_iff.2 ?_)
    cases r with
    | nil => exact .inl rfl
    | cons x r => exact .inr ⟨x, r, rfl, by simpa using h5⟩

theorem _root_.Chopper.Spec.InFormat.one {c : Clock} {o : Int} {spec t f s : Str} {p : Part} {ps : List Part} (h : SpecifierText c o spec [p] t s) (r : InFormat c o ps f s) :
    InFormat c o (p :: ps) (spec ++ f) (t ++ s) := .field h r
theorem _root_.Chopper.Spec.InFormat.letter {c : Clock} {o : Int} {x : Char} {f s : Str} {ps : List Part} (h : x ≠ '%' ∧ isWhite x = false) (r : InFormat c o ps f s) : InFormat c o ps (x :: f) (x :: s) :=
  .field (.letter h.1 h.2) r
theorem _root_.Chopper.Spec.InFormat.blank {c : Clock} {o : Int} {f s : Str} {ps : List Part} (h : (match s with | [] => true | x :: _ => !isWhite x) = true) (r : InFormat c o ps f s) :
    InFormat c o ps (' ' :: f) (' ' :: s) := by
  refine .field (spec := [' ']) (t := [' ']) (.space (by decide) (fun x hx => by rw [List.mem_singleton.1 hx]; decide) ?_) r
  intro y hy
  cases s with
  | nil => cases hy
  | cons x s => cases hy; simpa using h
theorem white_nil : White [] := fun _ h => nomatch h

/-- 3 February 2019, `h` hours, 34 minutes, 56.5 seconds. -/
def exampleClock (h : Nat) : Clock := ⟨⟨2019, 2, 3⟩, h, 34, 56, 500000000⟩

/-- `3/2/2019 12:34:56.5 (+0530)` in the format `%d/%m/%Y %T%.f (%z)`. -/
theorem example_offset : InFormat (exampleClock 12) 19800 [.day, .month, .year, .hour, .minute, .second, .nanos, .offset] "%d/%m/%Y %T%.f (%z)".toList "3/2/2019 12:34:56.5 (+0530)".toList := by
  rw [show "%d/%m/%Y %T%.f (%z)".toList = "%d".toList ++ ('/' :: ("%m".toList ++ ('/' :: ("%Y".toList ++ (' ' :: ("%T".toList ++ ("%.f".toList ++ (' ' :: '(' :: ("%z".toList ++ [')']))))))))) from by decide,
    show "3/2/2019 12:34:56.5 (+0530)".toList = "3".toList ++ ('/' :: ("2".toList ++ ('/' :: ("2019".toList ++ (' ' :: ("12".toList ++ (':' :: ("34".toList ++ (':' ::
      ("56".toList ++ ('.' :: "5".toList ++ (' ' :: '(' :: (('+' :: "05".toList ++ [] ++ "30".toList) ++ [')']))))))))))))) from by decide]
  refine .one (.day (ws := []) white_nil (number_lit (by decide))) (.letter (by decide) (.one (.month (ws := []) white_nil (number_lit (by decide)))
    (.letter (by decide) (.one (.year (ws := []) white_nil (y := 2019) (number_lit (by decide)) rfl) (.blank (by decide) (.time ?_))))))
  refine .one (spec := "%H".toList) (t := "12".toList) (.hour (ws := []) (by decide) white_nil (number_lit (by decide))) (.letter (x := ':') (by decide) ?_)
  refine .one (spec := "%M".toList) (t := "34".toList) (.minute (ws := []) white_nil (number_lit (by decide))) (.letter (x := ':') (by decide) ?_)
  refine .one (spec := "%S".toList) (t := "56".toList) (.second (ws := []) white_nil (number_lit (by decide))) ?_
  refine .one (.fraction (by decide) (.digits ⟨by decide, by decide⟩ (by decide) (noDigit_iff.2 (.inr ⟨_, _, rfl, by decide⟩)))) (.blank (by decide) (.letter (by decide) ?_))
  exact .one (.offset (ws := []) (sep := []) (by decide) white_nil (fun _ h => nomatch h) (.ahead (h := 5) (m := 30) (digits_lit (by decide)) (digits_lit (by decide)) (by decide)))
    (.letter (by decide) .done)

example : getTimestampCol id ["time".toList, "value".toList] (.index 0) = .ok (.index 0, none) ∧
    ColText ["3/2/2019 12:34:56.5 (+0530)".toList, "7".toList] (.index 0) "3/2/2019 12:34:56.5 (+0530)".toList ∧
    ShowsDate [.day, .month, .year, .hour, .minute, .second, .nanos, .offset] ∧ ShowsTime (exampleClock 12) [.day, .month, .year, .hour, .minute, .second, .nanos, .offset] ∧
    RealClock (exampleClock 12) ∧ (∃ loc, ClockSeconds (exampleClock 12) loc) ∧
    getTimestamp .panics chrono none ["3/2/2019 12:34:56.5 (+0530)".toList, "7".toList] (.index 0) (.dateTimeIncludesTz "%d/%m/%Y %T%.f (%z)".toList) = .ok 1549177496500000000 := by
  refine ⟨by decide +kernel, .one rfl, by decide, by simp [ShowsTime], ⟨⟨28, .common (by unfold LeapYear; decide), by decide, by decide⟩, by decide, by decide, by decide⟩,
    ⟨_, _, (daysFrom1970_iff _ _).2 ⟨⟨28, .common (by unfold LeapYear; decide), by decide, by decide⟩, rfl⟩, rfl⟩, by decide +kernel⟩

/-! ### Times that are impossible -/

/-- **C134 (later rows).** Once the format has been accepted as one with date and time, a row with a date that does not exist, hour 24, minute 60, second 61, or (if the format shows offsets)
an offset of a day or more is rejected. -/
theorem C134_later_partial (ov : Overflow) (tz : ChopperTz chrono) (record : List Str) (col : TimestampCol) (f text : Str) (ht : ColText record col text)
    (c : Clock) (o : Int) (shown : List Part) (hin : InFormat c o shown f text) (hd : ShowsDate shown) (htime : ShowsTime c shown) :
    ((¬ RealDate c.date ∨ 24 ≤ c.hour ∨ 60 ≤ c.minute ∨ 61 ≤ c.second) → (∃ e, getTimestamp ov chrono tz record col (.dateTimeIncludesTz f) = .err e) ∧
      ∃ e, getTimestamp ov chrono tz record col (.dateTimeNeedsExternalTz f) = .err e) ∧
    ((.offset ∉ shown ∨ o ≤ -86400 ∨ 86400 ≤ o) → ∃ e, getTimestamp ov chrono tz record col (.dateTimeIncludesTz f) = .err e) := by
  rw [read_column ht, read_column ht]
  simp only [convertTimestamp, (format_parse hin).1, (format_parse hin).2.1, instant_parsed]
  constructor
  · intro h
    rw [parsed_unreal htime h]
    refine ⟨?_, _, rfl⟩
    split <;> exact ⟨_, rfl⟩
  · intro h
    rw [if_neg]
    · exact ⟨_, rfl⟩
    · rintro ⟨h1, h2, h3⟩
      rcases h with h | h | h
      · exact h h1
      · omega
      · omega

/-- **C134 (impossible dates).** A first row with a date that does not exist is rejected. -/
theorem C134_first_partial (lower : Str → Str) (tz : ChopperTz chrono) (names record : List Str) (colCfg : TimestampColConfig) (fmtCfg : TimestampFmtConfig) (col : TimestampCol)
    (hint : Option TimestampUnits) (f text : Str) (hcol : getTimestampCol lower names colCfg = .ok (col, hint)) (hf : UserFormat fmtCfg f) (ht : ColText record col text)
    (c : Clock) (o : Int) (shown : List Part) (hin : InFormat c o shown f text) (hc : ¬ RealDate c.date) :
    ∃ e, getTimestampColAndFmt lower chrono tz names record colCfg fmtCfg = .err e := by
  by_cases hd : ShowsDate shown
  · have hdate : toDate (parsedOf c o shown) = none := by rw [parsed_date, if_pos hd, ymd_of_unreal hc]
    have hn : toNaive (parsedOf c o shown) = none := by unfold toNaive; rw [hdate]; rfl
    have h1 : chrono.parseTz f text = none := by rw [(format_parse hin).1, instant_parsed, hn]; split <;> rfl
    rw [user_format hcol hf ht, outcome_none h1 ((format_parse hin).2.1.trans hn) (by rw [(format_parse hin).2.2, hdate]; rfl)]
    exact ⟨_, rfl⟩
  · exact C133_no_date lower tz names record colCfg fmtCfg col hint f text hcol hf ht c o shown hin hd

/-- The full claim: a first row which is in the format but not a possible time is rejected, and so the times of an accepted file are never dropped or misread. -/
def C134_full : Prop := ∀ (lower : Str → Str) (tz : ChopperTz chrono) (names record : List Str) (colCfg : TimestampColConfig) (fmtCfg : TimestampFmtConfig) (col : TimestampCol)
    (hint : Option TimestampUnits) (f text : Str), getTimestampCol lower names colCfg = .ok (col, hint) → UserFormat fmtCfg f → ColText record col text →
    ∀ (c : Clock) (o : Int) (shown : List Part), InFormat c o shown f text → ShowsDate shown → ShowsTime c shown →
    (¬ RealDate c.date ∨ 24 ≤ c.hour ∨ 60 ≤ c.minute ∨ 61 ≤ c.second ∨ (.offset ∈ shown ∧ (o ≤ -86400 ∨ 86400 ≤ o))) →
    ∃ e, getTimestampColAndFmt lower chrono tz names record colCfg fmtCfg = .err e

/-- **C134 (the times are dropped).** If the first row has an existing date but an impossible time (24:00:00, say), the format is taken for one of dates only: every later row in the format
is read as the midnight of its date, its time is dropped without a word. -/
theorem C134_midnight (ov : Overflow) (lower : Str → Str) (z : TzSpans) (hz : InOrder z) (names record : List Str) (colCfg : TimestampColConfig) (fmtCfg : TimestampFmtConfig) (col : TimestampCol)
    (hint : Option TimestampUnits) (f text : Str) (hcol : getTimestampCol lower names colCfg = .ok (col, hint)) (hf : UserFormat fmtCfg f) (ht : ColText record col text)
    (c : Clock) (o : Int) (shown : List Part) (hin : InFormat c o shown f text) (hd : ShowsDate shown) (htime : ShowsTime c shown)
    (hc : 24 ≤ c.hour ∨ 60 ≤ c.minute ∨ 61 ≤ c.second) (hyear : YearInRange c) (n t : Int) (hn : DaysFrom1970 c.date n) (h1 : OnlyTime z (n * 86400) t) :
    getTimestampColAndFmt lower chrono (some z.fromLocal) names record colCfg fmtCfg = .ok (col, .dateNeedsExternalTz f) ∧
    ∀ (later : List Str) (text' : Str) (c' : Clock) (o' : Int) (shown' : List Part) (n' t' : Int), ColText later col text' → InFormat c' o' shown' f text' → ShowsDate shown' → YearInRange c' →
      DaysFrom1970 c'.date n' → OnlyTime z (n' * 86400) t' → Follows ov (some ⟨t', 0⟩) (getTimestamp ov chrono (some z.fromLocal) later col (.dateNeedsExternalTz f)) := by
  have key : ∀ (text' : Str) (c' : Clock) (o' : Int) (shown' : List Part) (n' t' : Int), InFormat c' o' shown' f text' → ShowsDate shown' → YearInRange c' →
      DaysFrom1970 c'.date n' → OnlyTime z (n' * 86400) t' → chrono.parseDate f text' = some ⟨n' * 86400, 0⟩ ∧
        fromLocalDatetime (lib := chrono) (some z.fromLocal) (⟨n' * 86400, 0⟩ : Instant) = .ok ⟨t', 0⟩ := by
    intro text' c' o' shown' n' t' hin hd hyear hn h1
    obtain ⟨hreal, rfl⟩ := (daysFrom1970_iff _ _).1 hn
    have hymd : ymd c'.date.year c'.date.month c'.date.day = some (dayNumber c'.date.year c'.date.month c'.date.day) := ymd_of_real hyear.1 hyear.2 hreal
    refine ⟨by rw [(format_parse hin).2.2, parsed_date, if_pos hd, hymd]; rfl, ?_⟩
    have := (fromLocal_iff hz ⟨dayNumber c'.date.year c'.date.month c'.date.day * 86400, 0⟩ ⟨t', 0⟩).2 ⟨rfl, h1⟩
    simp only [fromLocalDatetime, this]
  constructor
  · have hnaive := parsed_unreal (o := o) htime (.inr hc)
    have h2 : chrono.parseTz f text = none := by rw [(format_parse hin).1, instant_parsed, hnaive]; split <;> rfl
    obtain ⟨k1, k2⟩ := key text c o shown n t hin hd hyear hn h1
    rw [user_format hcol hf ht, outcome_date h2 ((format_parse hin).2.1.trans hnaive) k1, k2]; rfl
  · intro later text' c' o' shown' n' t' ht' hin' hd' hyear' hn' h1'
    obtain ⟨k1, k2⟩ := key text' c' o' shown' n' t' hin' hd' hyear' hn' h1'
    rw [read_column ht']
    rw [convert_date k1, k2]
    exact timestampNanos_follows ov _

/-- **C134 (the offsets are ignored).** If the offset in the first row is a day or more (a typing error), the format is taken for one of local times: the offsets of all later rows are ignored and
their times are read in the time zone given for the input. -/
theorem C134_ignored (ov : Overflow) (lower : Str → Str) (z : TzSpans) (hz : InOrder z) (names record : List Str) (colCfg : TimestampColConfig) (fmtCfg : TimestampFmtConfig) (col : TimestampCol)
    (hint : Option TimestampUnits) (f text : Str) (hcol : getTimestampCol lower names colCfg = .ok (col, hint)) (hf : UserFormat fmtCfg f) (ht : ColText record col text)
    (c : Clock) (o : Int) (shown : List Part) (hin : InFormat c o shown f text) (hd : ShowsDate shown) (htime : ShowsTime c shown) (ho : o ≤ -86400 ∨ 86400 ≤ o)
    (hyear : YearInRange c) (hc : RealClock c) (loc t : Int) (hloc : ClockSeconds c loc) (h1 : OnlyTime z loc t) :
    getTimestampColAndFmt lower chrono (some z.fromLocal) names record colCfg fmtCfg = .ok (col, .dateTimeNeedsExternalTz f) ∧
    ∀ (later : List Str) (text' : Str) (c' : Clock) (o' : Int) (shown' : List Part) (loc' t' : Int), ColText later col text' → InFormat c' o' shown' f text' → ShowsDate shown' →
      ShowsTime c' shown' → YearInRange c' → RealClock c' → ClockSeconds c' loc' → OnlyTime z loc' t' →
      Follows ov (some ⟨t', c'.nanos⟩) (getTimestamp ov chrono (some z.fromLocal) later col (.dateTimeNeedsExternalTz f)) := by
  have hn := parsed_real (o := o) hd htime hyear hc hloc
  constructor
  · have h2 : chrono.parseTz f text = none := by rw [(format_parse hin).1, instant_parsed, if_neg (by omega)]
    have := (fromLocal_iff hz ⟨loc, c.nanos⟩ ⟨t, c.nanos⟩).2 ⟨rfl, h1⟩
    rw [user_format hcol hf ht, outcome_naive h2 ((format_parse hin).2.1.trans hn)]
    simp only [fromLocalDatetime, this, Res.bind_ok]
  · intro later text' c' o' shown' loc' t' ht' hin' hd' htime' hyear' hc' hloc' h1'
    have hn' := parsed_real (o := o') hd' htime' hyear' hc' hloc'
    have := (fromLocal_iff hz ⟨loc', c'.nanos⟩ ⟨t', c'.nanos⟩).2 ⟨rfl, h1'⟩
    rw [read_column ht']
    rw [convert_naive ((format_parse hin').2.1.trans hn')]
    simp only [fromLocalDatetime, this, Res.bind_ok]
    exact timestampNanos_follows ov _

/-- `2019-02-03 24:00` in the format `%F %R`. -/
theorem example_24 : InFormat ⟨⟨2019, 2, 3⟩, 24, 0, 0, 0⟩ 0 [.year, .month, .day, .hour, .minute] "%F %R".toList "2019-02-03 24:00".toList := by
  rw [show "%F %R".toList = "%F".toList ++ (' ' :: ("%R".toList ++ [])) from by decide,
    show "2019-02-03 24:00".toList = "2019".toList ++ ('-' :: ("02".toList ++ ('-' :: ("03".toList ++ (' ' :: ("24".toList ++ (':' :: ("00".toList ++ [])))))))) from by decide]
  refine .date ?_
  refine .one (spec := "%Y".toList) (t := "2019".toList) (.year (ws := []) (y := 2019) white_nil (number_lit (by decide)) rfl) (.letter (x := '-') (by decide) ?_)
  refine .one (spec := "%m".toList) (t := "02".toList) (.month (ws := []) white_nil (number_lit (by decide))) (.letter (x := '-') (by decide) ?_)
  refine .one (spec := "%d".toList) (t := "03".toList) (.day (ws := []) white_nil (number_lit (by decide))) (.blank (by decide) (.shortTime ?_))
  refine .one (spec := "%H".toList) (t := "24".toList) (.hour (ws := []) (by decide) white_nil (number_lit (by decide))) (.letter (x := ':') (by decide) ?_)
  exact .one (spec := "%M".toList) (t := "00".toList) (.minute (ws := []) white_nil (number_lit (by decide))) .done

/-- **C134 (refuted).** With the format `%F %R` and a first row at `2019-02-03 24:00` the file is accepted, and `2019-02-04 12:30` in a later row is read as `2019-02-04 00:00`. With `%F %R %z` and
a first row with offset `+2400`, the offset of `2019-02-04 12:30 +0200` is ignored: it is read as 12:30 in the time zone of the input. -/
theorem C134_counterexample : ¬ C134_full ∧
    getTimestampColAndFmt id chrono (some utc.fromLocal) ["time".toList] ["2019-02-03 24:00".toList] (.index 0) (.explicit "%F %R".toList) = .ok (.index 0, .dateNeedsExternalTz "%F %R".toList) ∧
    getTimestamp .panics chrono (some utc.fromLocal) ["2019-02-04 12:30".toList] (.index 0) (.dateNeedsExternalTz "%F %R".toList) = .ok 1549238400000000000 ∧
    getTimestampColAndFmt id chrono (some utc.fromLocal) ["time".toList] ["2019-02-03 23:00 +2400".toList] (.index 0) (.explicit "%F %R %z".toList) =
      .ok (.index 0, .dateTimeNeedsExternalTz "%F %R %z".toList) ∧
    getTimestamp .panics chrono (some utc.fromLocal) ["2019-02-04 12:30 +0200".toList] (.index 0) (.dateTimeNeedsExternalTz "%F %R %z".toList) = .ok 1549283400000000000 := by
  have h1 : getTimestampColAndFmt id chrono (some utc.fromLocal) ["time".toList] ["2019-02-03 24:00".toList] (.index 0) (.explicit "%F %R".toList) =
      .ok (.index 0, .dateNeedsExternalTz "%F %R".toList) := by decide +kernel
  refine ⟨fun h => ?_, h1, by decide +kernel, by decide +kernel, by decide +kernel⟩
  obtain ⟨e, he⟩ := h id (some utc.fromLocal) ["time".toList] ["2019-02-03 24:00".toList] (.index 0) (.explicit "%F %R".toList) (.index 0) none "%F %R".toList "2019-02-03 24:00".toList
    (by decide +kernel) .one (.one rfl) _ _ _ example_24 (by decide) (by simp [ShowsTime]) (.inr (.inl (by decide)))
  rw [h1] at he
  cases he

end Chopper.Props
