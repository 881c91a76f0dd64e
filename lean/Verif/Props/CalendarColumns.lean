import Verif.Proofs.ChronoColumns
import Verif.Props.Calendar

/-!
# C110: time columns of CSV inputs in terms of the calendar
-/
namespace Chopper.Props
open Chopper Spec Chrono

theorem detect_column {tz : ChopperTz chrono} {record : List Str} {i : Nat} {text : Str} (h : record[i]? = some text) :
    getTimestampFmtAuto chrono tz record none (.index i) = detectFmt chrono tz text := by
  simp only [getTimestampFmtAuto, h, Res.unwrap, Res.bind_ok]

theorem convert_column {ov : Overflow} {tz : ChopperTz chrono} {record : List Str} {i : Nat} {text : Str} (h : record[i]? = some text) (fmt : TimestampFmt) :
    getTimestamp ov chrono tz record (.index i) fmt = convertTimestamp ov chrono tz fmt text := by
  simp only [getTimestamp, getTimestampString, h, Res.unwrap, Res.bind_ok]

theorem convert_columns {ov : Overflow} {tz : ChopperTz chrono} {record : List Str} {i j : Nat} {date time : Str} (hd : record[i]? = some date) (ht : record[j]? = some time)
    (fmt : TimestampFmt) : getTimestamp ov chrono tz record (.dateTimeIndex i j) fmt = convertTimestamp ov chrono tz fmt (date ++ '#' :: time) := by
  simp only [getTimestamp, getTimestampString, hd, ht, Res.unwrap, Res.bind_ok]

theorem one_detect {c : Clock} {f text : Str} (h : OneColumnText c f text) (tz : ChopperTz chrono) : ∃ y : Nat, c.date.year = y ∧ y < 10000 ∧ c.nanos = 0 ∧
    detectFmt chrono tz text = (match toNaive (clockParsed y c (some 0)) with
      | some x => (fromLocalDatetime tz x).bind fun _ => .ok (.dateTimeNeedsExternalTz f)
      | none => .err (.custom "Cannot parse timestamp. Please provide format for parsing.")) ∧
    ∀ ov, convertTimestamp ov chrono tz (.dateTimeNeedsExternalTz f) text = (match toNaive (clockParsed y c (some 0)) with
      | some x => (fromLocalDatetime tz x).bind (timestampNanos ov)
      | none => .err .timeParsing) := by
  obtain ⟨y, hy, hy', h0, hf, hiso, hp, hother, hdate, hdig⟩ := oneColumn_parse h
  refine ⟨y, hy, hy', h0, ?_, fun ov => ?_⟩
  · unfold detectFmt
    rw [hiso]
    simp only [Option.isSome_none, Bool.false_eq_true, if_false]
    cases hx : toNaive (clockParsed y c (some 0)) with
    | some x =>
      rw [tryNaive_of tz text f x timeFormats hf hother (by rw [hp, hx])]
    | none =>
      have hall : ∀ g ∈ timeFormats, chrono.parseNaive g text = none := fun g hg => by
        by_cases e : g = f
        · rw [e, hp, hx]; rfl
        · exact hother g hg e
      rw [tryNaive_none tz text timeFormats hall]
      simp only [hdate, detectUnits, if_neg hdig]
  · simp only [convertTimestamp, hp]
    cases toNaive (clockParsed y c (some 0)) <;> rfl

/-- **C110 (one column).** A local date and time in one of the four forms of a single column is recognised with its own format, and it is read as the only time when clocks in the time
zone show it; if there is none or there are two, both detection and reading fail. -/
theorem C110_one (ov : Overflow) (z : TzSpans) (hz : InOrder z) (record : List Str) (i : Nat) (c : Clock) (f text : Str) (hi : record[i]? = some text) (ht : OneColumnText c f text)
    (hc : RealClock c) (loc : Int) (hloc : ClockSeconds c loc) :
    (∀ t, OnlyTime z loc t → getTimestampFmtAuto chrono (some z.fromLocal) record none (.index i) = .ok (.dateTimeNeedsExternalTz f) ∧
      Follows ov (some ⟨t, 0⟩) (getTimestamp ov chrono (some z.fromLocal) record (.index i) (.dateTimeNeedsExternalTz f))) ∧
    ((∀ t, ¬ OnlyTime z loc t) → (∃ e, getTimestampFmtAuto chrono (some z.fromLocal) record none (.index i) = .err e) ∧
      ∃ e, getTimestamp ov chrono (some z.fromLocal) record (.index i) (.dateTimeNeedsExternalTz f) = .err e) := by
  obtain ⟨y, hy, hy', h0, hdet, hconv⟩ := one_detect ht (some z.fromLocal)
  have hn := toNaive_real hy hy' hc hloc 0
  simp only [Int.natCast_zero] at hn
  rw [detect_column hi, convert_column hi, hdet, hconv, hn]
  constructor
  · intro t h1
    have := (fromLocal_iff hz ⟨loc, 0⟩ ⟨t, 0⟩).2 ⟨rfl, h1⟩
    simp only [fromLocalDatetime, this, Res.bind_ok]
    exact ⟨trivial, timestampNanos_follows ov _⟩
  · intro h
    have := (fromLocal_none hz ⟨loc, 0⟩).2 h
    simp only [fromLocalDatetime, this]
    exact ⟨⟨_, rfl⟩, _, rfl⟩

/-- **C110 (one column, impossible dates).** A date that does not exist, hour 24, minute 60 or second 61 is neither recognised nor read, in any time zone. -/
theorem C110_one_impossible (ov : Overflow) (tz : ChopperTz chrono) (record : List Str) (i : Nat) (c : Clock) (f text : Str) (hi : record[i]? = some text) (ht : OneColumnText c f text)
    (hc : ¬ RealDate c.date ∨ 24 ≤ c.hour ∨ 60 ≤ c.minute ∨ 61 ≤ c.second) :
    (∃ e, getTimestampFmtAuto chrono tz record none (.index i) = .err e) ∧ ∃ e, getTimestamp ov chrono tz record (.index i) (.dateTimeNeedsExternalTz f) = .err e := by
  obtain ⟨y, hy, hy', h0, hdet, hconv⟩ := one_detect ht tz
  rw [detect_column hi, convert_column hi, hdet, hconv, toNaive_unreal hy hc]
  exact ⟨⟨_, rfl⟩, _, rfl⟩

/-- **C110 (one column, other forms).** When one of the forms was recognised in the first row, a later row in another one of them is rejected. -/
theorem C110_one_other (ov : Overflow) (tz : ChopperTz chrono) (record : List Str) (i : Nat) (c : Clock) (f g text : Str) (hi : record[i]? = some text) (ht : OneColumnText c f text)
    (hg : g ∈ oneColumnFormats) (hne : g ≠ f) : ∃ e, getTimestamp ov chrono tz record (.index i) (.dateTimeNeedsExternalTz g) = .err e := by
  obtain ⟨y, hy, hy', h0, hf, hiso, hp, hother, hdate, hdig⟩ := oneColumn_parse ht
  rw [convert_column hi]
  simp only [convertTimestamp, hother g hg hne]
  exact ⟨_, rfl⟩

theorem date_text_digits {d : Date} {t : Str} (h : DateText d [] t) : t.length = 8 ∧ ∀ c ∈ t, 48 ≤ c.toNat ∧ c.toNat ≤ 57 := by
  obtain ⟨y, ty, tm, td, _, h1, h2, h3, rfl⟩ := h
  refine ⟨by simp [h1.1, h2.1, h3.1], fun c hc => ?_⟩
  simp only [List.append_nil, List.mem_append] at hc
  rcases hc with (hc | hc) | hc
  · exact h1.2.1 c hc
  · exact h2.2.1 c hc
  · exact h3.2.1 c hc

theorem digits_iso_none {s : Str} (h : ∀ c ∈ s, isDigit c = true) : chrono.parseTz fmtIso s = none := by
  have e : ∀ t, chrono.parseTz fmtIso t = (parseItems [.iso] {} t).bind toInstant := fun _ => rfl
  rw [e]
  suffices hn : parseIso {} s = none by simp only [parseItems, parseItem, hn]; rfl
  unfold parseIso
  simp only [Option.bind_eq_bind]
  cases hx : isoNum .year 4 {} s with
  | none => rfl
  | some x =>
    simp only [Option.bind_some]
    have hmem : ∀ c ∈ x.2, isDigit c = true := by
      unfold isoNum scanNumber at hx
      simp only at hx
      split at hx
      · cases hx
      · simp only [Option.bind_some, Parsed.set, setField, Option.map_some, Option.some.injEq] at hx
        subst hx
        exact fun c hc => h c (List.mem_of_mem_drop hc)
    have : scanChar '-' x.2 = none := by
      cases hy : x.2 with
      | nil => rfl
      | cons a t =>
        have ha := hmem a (by rw [hy]; exact List.mem_cons_self)
        have : a ≠ '-' := by intro e; rw [e] at ha; revert ha; decide
        simp [scanChar, this]
    rw [this]; rfl

/-- What the formats make of digits only. -/
theorem digits_formats {s : Str} (h : ∀ c ∈ s, isDigit c = true) : ∀ f ∈ timeFormats,
    chrono.parseNaive f s = if f = "%Y%m%d %H%M%S".toList ∧ (s.length = 13 ∨ s.length = 14) then toNaive (clockParsed (decimalValue (s.take 4)) (digitsClock s) none) else none := by
  intro f hf
  have e0 : ∀ f t, chrono.parseNaive f t = (parseItems (items f) {} t).bind toNaive := fun _ _ => rfl
  have hd : ∀ k, ∀ c ∈ s.drop k, isDigit c = true := fun k c hc => h c (List.mem_of_mem_drop hc)
  simp only [timeFormats, List.mem_cons, List.not_mem_nil, or_false] at hf
  rcases hf with rfl | rfl | rfl | rfl
  · rw [if_neg (fun h => absurd h.1 (by decide)), e0,
      show items "%Y%m%d.%H%M%S".toList = .num .year true :: .num .month true :: .num .day true :: .lit '.' :: timeItems [] from by decide +kernel]
    rw [parse_all_year h, parse_all_num (hd 4) (by decide), List.drop_drop]
    simp only [Parsed.set, setField, Option.map_some, Option.bind_some]
    rw [parse_all_num (hd _) (by decide), List.drop_drop]
    simp only [Parsed.set, setField, Option.map_some, Option.bind_some]
    rw [parse_all_lit (hd _) (by decide)]
    repeat' split
    all_goals rfl
  · rw [e0, show items "%Y%m%d %H%M%S".toList = rangeItems [] [' '] [] false from by decide +kernel, parse_all_space_format h]
    by_cases hl : s.length = 13 ∨ s.length = 14
    · rw [if_pos hl, if_pos ⟨rfl, hl⟩]; rfl
    · rw [if_neg hl, if_neg (fun h => hl h.2)]; rfl
  · rw [if_neg (fun h => absurd h.1 (by decide)), e0,
      show items "%Y%m%d %H:%M:%S".toList = .num .year true :: .num .month true :: .num .day true :: .space :: .num .hour true :: .lit ':' :: [.num .minute true, .lit ':', .num .second true] from by decide +kernel]
    rw [parse_all_year h, parse_all_num (hd 4) (by decide), List.drop_drop]
    simp only [Parsed.set, setField, Option.map_some, Option.bind_some]
    rw [parse_all_num (hd _) (by decide), List.drop_drop]
    simp only [Parsed.set, setField, Option.map_some, Option.bind_some]
    rw [parse_all_space (hd _), parse_all_num (hd _) (by decide), List.drop_drop]
    simp only [Parsed.set, setField, Option.map_some, Option.bind_some]
    rw [parse_all_lit (hd _) (by decide)]
    repeat' split
    all_goals rfl
  · rw [if_neg (fun h => absurd h.1 (by decide)), e0,
      show items "%Y/%m/%d-%H:%M:%S".toList = .num .year true :: .lit '/' :: (.num .month true :: .lit '/' :: .num .day true :: .lit '-' :: timeItems [':']) from by decide +kernel]
    rw [parse_all_year h, parse_all_lit (hd _) (by decide)]
    split <;> rfl

/-- Reading digits as a date. -/
theorem digits_date {s : Str} (h : ∀ c ∈ s, isDigit c = true) (hl : s.length ≤ 6 ∨ 9 ≤ s.length) : chrono.parseDate fmtDate s = none := by
  have hd : ∀ k, ∀ c ∈ s.drop k, isDigit c = true := fun k c hc => h c (List.mem_of_mem_drop hc)
  have e : ∀ t, chrono.parseDate fmtDate t = ((parseItems [.num .year true, .num .month true, .num .day true] {} t).bind toDate).map fun d => ⟨d * 86400, 0⟩ := fun _ => rfl
  rw [e, parse_all_year h, parse_all_num (hd 4) (by decide), List.drop_drop]
  simp only [Parsed.set, setField, Option.map_some, Option.bind_some]
  rw [parse_all_num (hd _) (by decide), List.drop_drop]
  have hlen : ∀ k, s.drop k = [] ↔ s.length ≤ k := fun k => List.drop_eq_nil_iff
  simp only [Parsed.set, setField, Option.map_some, Option.bind_some, parseItems, hlen]
  have : (s.length ≤ 4 + 2 ∨ ¬ s.length ≤ 4 + 2 + 2) := by omega
  repeat' split
  all_goals first | rfl | omega

/-- **C110 (dates).** Eight digits are recognised as a date and read as its midnight in the time zone, if that is there exactly once; otherwise and for dates that do not exist both fail. -/
theorem C110_date (ov : Overflow) (z : TzSpans) (hz : InOrder z) (record : List Str) (i : Nat) (d : Date) (text : Str) (hi : record[i]? = some text) (ht : DateText d [] text) :
    (∀ n t, DaysFrom1970 d n → OnlyTime z (n * 86400) t → getTimestampFmtAuto chrono (some z.fromLocal) record none (.index i) = .ok (.dateNeedsExternalTz "%Y%m%d".toList) ∧
      Follows ov (some ⟨t, 0⟩) (getTimestamp ov chrono (some z.fromLocal) record (.index i) (.dateNeedsExternalTz "%Y%m%d".toList))) ∧
    ((¬ RealDate d ∨ ∃ n, DaysFrom1970 d n ∧ ∀ t, ¬ OnlyTime z (n * 86400) t) → (∃ e, getTimestampFmtAuto chrono (some z.fromLocal) record none (.index i) = .err e) ∧
      ∃ e, getTimestamp ov chrono (some z.fromLocal) record (.index i) (.dateNeedsExternalTz "%Y%m%d".toList) = .err e) := by
  obtain ⟨hlen, hdig⟩ := date_text_digits ht
  have hdig' : ∀ c ∈ text, isDigit c = true := fun c hc => (isDigit_iff c).2 (hdig c hc)
  obtain ⟨y, hy, hy', hp⟩ := two_date ht
  have hparse : chrono.parseDate "%Y%m%d".toList text = (ymd y d.month d.day).map fun d => ⟨d * 86400, 0⟩ := by
    have e : ∀ t, chrono.parseDate "%Y%m%d".toList t = ((parseItems (dateItems [] ++ []) {} t).bind toDate).map fun d => ⟨d * 86400, 0⟩ := fun _ => rfl
    have := hp [] []
    rw [List.append_nil text] at this
    rw [e, this]; rfl
  have hno : tryNaiveFormats chrono (some z.fromLocal) text timeFormats = none := tryNaive_none _ _ _ fun f hf => by
    rw [digits_formats hdig' f hf, if_neg]
    · rfl
    · rintro ⟨_, h⟩; omega
  have hfd : fmtDate = "%Y%m%d".toList := by decide
  have hval : decimalValue text < 10 ^ 8 := by have := decimalValue_lt hdig; rwa [hlen] at this
  have hne : text ≠ [] := by intro e; rw [e] at hlen; cases hlen
  have hdet : detectFmt chrono (some z.fromLocal) text = (match ymd y d.month d.day with
      | some n => (fromLocalDatetime (lib := chrono) (some z.fromLocal) (⟨n * 86400, 0⟩ : Instant)).bind fun _ => .ok (.dateNeedsExternalTz "%Y%m%d".toList)
      | none => .err (.custom "Cannot parse timestamp. Please provide format for parsing.")) := by
    unfold detectFmt
    rw [digits_iso_none hdig', hno, hfd, hparse]
    simp only [Option.isSome_none, Bool.false_eq_true, if_false]
    cases ymd y d.month d.day with
    | some n => rfl
    | none =>
      unfold detectUnits
      rw [if_pos (List.all_eq_true.2 hdig'), parseU64_digits ⟨hne, hdig⟩, if_pos (by omega)]
      have hn : (BitVec.ofNat 64 (decimalValue text)).toNat = decimalValue text := by rw [BitVec.toNat_ofNat, Nat.mod_eq_of_lt (by omega)]
      simp only [inRangeNanos, inRangeMicros, inRangeMillis, inRangeSeconds, hn]
      rw [if_neg (by simp; omega), if_neg (by simp; omega), if_neg (by simp; omega), if_neg (by simp; omega)]
      rfl
  have hconv : convertTimestamp ov chrono (some z.fromLocal) (.dateNeedsExternalTz "%Y%m%d".toList) text = (match ymd y d.month d.day with
      | some n => (fromLocalDatetime (lib := chrono) (some z.fromLocal) (⟨n * 86400, 0⟩ : Instant)).bind (timestampNanos ov)
      | none => .err .timeParsing) := by
    simp only [convertTimestamp, hparse]
    cases ymd y d.month d.day <;> rfl
  rw [detect_column hi, convert_column hi, hdet, hconv]
  constructor
  · intro n t hn h1
    obtain ⟨hreal, rfl⟩ := (daysFrom1970_iff _ _).1 hn
    rw [ymd_real hy hy' hreal]
    have := (fromLocal_iff hz ⟨_ * 86400, 0⟩ ⟨t, 0⟩).2 ⟨rfl, h1⟩
    simp only [fromLocalDatetime, this, Res.bind_ok]
    exact ⟨trivial, timestampNanos_follows ov _⟩
  · rintro (h | ⟨n, hn, h⟩)
    · rw [ymd_unreal hy h]
      exact ⟨⟨_, rfl⟩, _, rfl⟩
    · obtain ⟨hreal, rfl⟩ := (daysFrom1970_iff _ _).1 hn
      rw [ymd_real hy hy' hreal]
      have := (fromLocal_none hz ⟨_ * 86400, 0⟩).2 h
      simp only [fromLocalDatetime, this]
      exact ⟨⟨_, rfl⟩, _, rfl⟩

/-- **C110 (times with offset).** ISO 8601 is recognised and read as the time it says, whatever the time zone setting. -/
theorem C110_iso (ov : Overflow) (tz : ChopperTz chrono) (record : List Str) (i : Nat) (c : Clock) (o : Int) (text : Str) (hi : record[i]? = some text) (ht : IsoClockText c o text)
    (hc : RealClock c) (loc : Int) (hloc : ClockSeconds c loc) :
    getTimestampFmtAuto chrono tz record none (.index i) = .ok (.dateTimeIncludesTz "%+".toList) ∧
    Follows ov (some ⟨loc - o, c.nanos⟩) (getTimestamp ov chrono tz record (.index i) (.dateTimeIncludesTz "%+".toList)) := by
  obtain ⟨y, hy, hy', _, _, _, hp⟩ := iso_text ht
  rw [toNaive_real hy hy' hc hloc] at hp
  have hf : fmtIso = "%+".toList := by decide
  rw [detect_column hi, convert_column hi]
  constructor
  · unfold detectFmt
    rw [hp, hf]; rfl
  · simp only [convertTimestamp, ← hf, hp, Option.map_some, Res.okOr, Res.bind_ok]
    exact timestampNanos_follows ov _

theorem two_detect {c : Clock} {f date time : Str} (h : TwoColumnText c f date time) (tz : ChopperTz chrono) : ∃ y : Nat, c.date.year = y ∧ y < 10000 ∧
    (∀ (record : List Str) (i j : Nat), record[i]? = some date → record[j]? = some time → getTimestampFmtAuto chrono tz record none (.dateTimeIndex i j) =
      (match toNaive (clockParsed y c (some c.nanos)) with
      | some x => (fromLocalDatetime tz x).bind fun _ => .ok (.dateTimeNeedsExternalTz f)
      | none => .err (.custom "Cannot parse timestamp. Please provide format for parsing."))) ∧
    ∀ ov, convertTimestamp ov chrono tz (.dateTimeNeedsExternalTz f) (date ++ '#' :: time) = (match toNaive (clockParsed y c (some c.nanos)) with
      | some x => (fromLocalDatetime tz x).bind (timestampNanos ov)
      | none => .err .timeParsing) := by
  obtain ⟨y, hy, hy', hf, hp, hother⟩ := twoColumn_parse h
  refine ⟨y, hy, hy', fun record i j hd ht => ?_, fun ov => ?_⟩
  · simp only [getTimestampFmtAuto, hd, ht, Res.unwrap, Res.bind_ok]
    cases hx : toNaive (clockParsed y c (some c.nanos)) with
    | some x =>
      rw [tryNaive_of tz _ f x dateTimeFormats hf hother (by rw [hp, hx])]; rfl
    | none =>
      have hall : ∀ g ∈ dateTimeFormats, chrono.parseNaive g (date ++ '#' :: time) = none := fun g hg => by
        by_cases e : g = f
        · rw [e, hp, hx]; rfl
        · exact hother g hg e
      rw [tryNaive_none tz _ dateTimeFormats hall]; rfl
  · simp only [convertTimestamp, hp]
    cases toNaive (clockParsed y c (some c.nanos)) <;> rfl

/-- **C110 (two columns).** A local date and time in one of the four forms of a date and a time column is recognised with its own format, and it is read - to the millisecond where there
are any - as the only time when clocks in the time zone show it; if there is none or there are two, both detection and reading fail. -/
theorem C110_two (ov : Overflow) (z : TzSpans) (hz : InOrder z) (record : List Str) (i j : Nat) (c : Clock) (f date time : Str) (hi : record[i]? = some date) (hj : record[j]? = some time)
    (ht : TwoColumnText c f date time) (hc : RealClock c) (loc : Int) (hloc : ClockSeconds c loc) :
    (∀ t, OnlyTime z loc t → getTimestampFmtAuto chrono (some z.fromLocal) record none (.dateTimeIndex i j) = .ok (.dateTimeNeedsExternalTz f) ∧
      Follows ov (some ⟨t, c.nanos⟩) (getTimestamp ov chrono (some z.fromLocal) record (.dateTimeIndex i j) (.dateTimeNeedsExternalTz f))) ∧
    ((∀ t, ¬ OnlyTime z loc t) → (∃ e, getTimestampFmtAuto chrono (some z.fromLocal) record none (.dateTimeIndex i j) = .err e) ∧
      ∃ e, getTimestamp ov chrono (some z.fromLocal) record (.dateTimeIndex i j) (.dateTimeNeedsExternalTz f) = .err e) := by
  obtain ⟨y, hy, hy', hdet, hconv⟩ := two_detect ht (some z.fromLocal)
  rw [hdet record i j hi hj, convert_columns hi hj, hconv, toNaive_real hy hy' hc hloc]
  constructor
  · intro t h1
    have := (fromLocal_iff hz ⟨loc, c.nanos⟩ ⟨t, c.nanos⟩).2 ⟨rfl, h1⟩
    simp only [fromLocalDatetime, this, Res.bind_ok]
    exact ⟨trivial, timestampNanos_follows ov _⟩
  · intro h
    have := (fromLocal_none hz ⟨loc, c.nanos⟩).2 h
    simp only [fromLocalDatetime, this]
    exact ⟨⟨_, rfl⟩, _, rfl⟩

/-- **C110 (two columns, impossible dates and other forms).** A date or time that does not exist is neither recognised nor read; a row in another form than that recognised is rejected. -/
theorem C110_two_impossible (ov : Overflow) (tz : ChopperTz chrono) (record : List Str) (i j : Nat) (c : Clock) (f date time : Str) (hi : record[i]? = some date)
    (hj : record[j]? = some time) (ht : TwoColumnText c f date time) :
    ((¬ RealDate c.date ∨ 24 ≤ c.hour ∨ 60 ≤ c.minute ∨ 61 ≤ c.second) → (∃ e, getTimestampFmtAuto chrono tz record none (.dateTimeIndex i j) = .err e) ∧
      ∃ e, getTimestamp ov chrono tz record (.dateTimeIndex i j) (.dateTimeNeedsExternalTz f) = .err e) ∧
    (∀ g ∈ twoColumnFormats, g ≠ f → ∃ e, getTimestamp ov chrono tz record (.dateTimeIndex i j) (.dateTimeNeedsExternalTz g) = .err e) := by
  constructor
  · intro hc
    obtain ⟨y, hy, hy', hdet, hconv⟩ := two_detect ht tz
    rw [hdet record i j hi hj, convert_columns hi hj, hconv, toNaive_unreal hy hc]
    exact ⟨⟨_, rfl⟩, _, rfl⟩
  · intro g hg hne
    obtain ⟨y, hy, hy', hf, hp, hother⟩ := twoColumn_parse ht
    rw [convert_columns hi hj]
    simp only [convertTimestamp, hother g hg hne]
    exact ⟨_, rfl⟩

/-! ## Numbers -/

theorem looks_iff {s : Str} (h : ∀ c ∈ s, 48 ≤ c.toNat ∧ c.toNat ≤ 57) :
    LooksLikeDate s ↔ (s.length = 13 ∨ s.length = 14) ∧ (toNaive (clockParsed (decimalValue (s.take 4)) (digitsClock s) none)).isSome = true := by
  have hreal : ∀ y : Nat, y < 10000 → (digitsClock s).date.year = y → ((toNaive (clockParsed y (digitsClock s) none)).isSome = true ↔
      RealDate (digitsClock s).date ∧ (digitsClock s).hour < 24 ∧ (digitsClock s).minute < 60 ∧ (digitsClock s).second ≤ 60) := by
    intro y hy' hy
    by_cases hc : ¬ RealDate (digitsClock s).date ∨ 24 ≤ (digitsClock s).hour ∨ 60 ≤ (digitsClock s).minute ∨ 61 ≤ (digitsClock s).second
    · rw [toNaive_unreal hy hc]
      constructor
      · intro h; cases h
      · rintro ⟨h1, h2, h3, h4⟩
        rcases hc with hc | hc | hc | hc
        · exact absurd h1 hc
        all_goals omega
    · have hd : RealDate (digitsClock s).date := Classical.byContradiction fun hn => hc (.inl hn)
      have h2 : (digitsClock s).hour < 24 := Nat.lt_of_not_le fun hn => hc (.inr (.inl hn))
      have h3 : (digitsClock s).minute < 60 := Nat.lt_of_not_le fun hn => hc (.inr (.inr (.inl hn)))
      have h4 : (digitsClock s).second < 61 := Nat.lt_of_not_le fun hn => hc (.inr (.inr (.inr hn)))
      refine ⟨fun _ => ⟨hd, h2, h3, by omega⟩, fun _ => ?_⟩
      have hsec : ClockSeconds (digitsClock s) _ := ⟨_, (daysFrom1970_iff _ _).2 ⟨hd, rfl⟩, rfl⟩
      rw [toNaive_nano]
      by_cases h60 : (digitsClock s).second = 60
      · have := toNaive_leap hy hy' hd h2 h3 h60 hsec 0
        simp only [Int.natCast_zero] at this
        rw [this]; rfl
      · have := toNaive_real hy hy' ⟨hd, h2, h3, by omega⟩ hsec 0
        simp only [Int.natCast_zero] at this
        rw [this]; rfl
  constructor
  · rintro ⟨c, td, th, tm, ts, ⟨y, ty, tmo, tdd, hy, h1, h2, h3, rfl⟩, h4, h5, h6, rfl, hr1, hr2, hr3, hr4⟩
    have hl : ts.length = 1 ∨ ts.length = 2 := h6.imp (·.1) (·.1)
    have hv : decimalValue ts = c.second := by rcases h6 with h6 | h6 <;> exact h6.2.2
    refine ⟨by simp [h1.1, h2.1, h3.1, h4.1, h5.1]; omega, ?_⟩
    have htake : ∀ (a b : Str) (k : Nat), a.length = k → (a ++ b).take k = a ∧ (a ++ b).drop k = b := by
      rintro a b k rfl; exact ⟨List.take_left, List.drop_left⟩
    have hs : ty ++ [] ++ tmo ++ [] ++ tdd ++ th ++ tm ++ ts = ty ++ (tmo ++ (tdd ++ (th ++ (tm ++ ts)))) := by simp
    have hclock : digitsClock (ty ++ [] ++ tmo ++ [] ++ tdd ++ th ++ tm ++ ts) = { c with nanos := 0 } := by
      rw [hs]
      have d4 := htake ty (tmo ++ (tdd ++ (th ++ (tm ++ ts)))) 4 h1.1
      have d6 := htake tmo (tdd ++ (th ++ (tm ++ ts))) 2 h2.1
      have d8 := htake tdd (th ++ (tm ++ ts)) 2 h3.1
      have d10 := htake th (tm ++ ts) 2 h4.1
      have d12 := htake tm ts 2 h5.1
      have d14 : ts.take 2 = ts := List.take_of_length_le (by omega)
      have e6 : (ty ++ (tmo ++ (tdd ++ (th ++ (tm ++ ts))))).drop 6 = tdd ++ (th ++ (tm ++ ts)) := by
        rw [show (6 : Nat) = 4 + 2 from rfl, ← List.drop_drop, d4.2, d6.2]
      have e8 : (ty ++ (tmo ++ (tdd ++ (th ++ (tm ++ ts))))).drop 8 = th ++ (tm ++ ts) := by
        rw [show (8 : Nat) = 6 + 2 from rfl, ← List.drop_drop, e6, d8.2]
      have e10 : (ty ++ (tmo ++ (tdd ++ (th ++ (tm ++ ts))))).drop 10 = tm ++ ts := by
        rw [show (10 : Nat) = 8 + 2 from rfl, ← List.drop_drop, e8, d10.2]
      have e12 : (ty ++ (tmo ++ (tdd ++ (th ++ (tm ++ ts))))).drop 12 = ts := by
        rw [show (12 : Nat) = 10 + 2 from rfl, ← List.drop_drop, e10, d12.2]
      unfold digitsClock
      rw [e6, e8, e10, e12, d4.1, d4.2, d6.1, d8.1, d10.1, d12.1, d14, h1.2.2, h2.2.2, h3.2.2, h4.2.2, h5.2.2, hv, ← hy]
    have hy4 : decimalValue ((ty ++ [] ++ tmo ++ [] ++ tdd ++ th ++ tm ++ ts).take 4) = y := by
      rw [hs, (htake ty _ 4 h1.1).1, h1.2.2]
    rw [hy4, hreal y (hasDigits_lt h1) (by rw [hclock]; exact hy), hclock]
    exact ⟨hr1, hr2, hr3, hr4⟩
  · rintro ⟨hl, hsome⟩
    have c4 := digits_chunk h 0 4 (by omega)
    have c6 := digits_chunk h 4 2 (by omega)
    have c8 := digits_chunk h 6 2 (by omega)
    have c10 := digits_chunk h 8 2 (by omega)
    have c12 := digits_chunk h 10 2 (by omega)
    have hsec : (s.drop 12).take 2 = s.drop 12 := List.take_of_length_le (by rw [List.length_drop]; omega)
    rw [List.drop_zero] at c4
    rw [hreal _ (hasDigits_lt c4) rfl] at hsome
    refine ⟨digitsClock s, s.take 4 ++ [] ++ (s.drop 4).take 2 ++ [] ++ (s.drop 6).take 2, (s.drop 8).take 2, (s.drop 10).take 2, (s.drop 12).take 2,
      ⟨_, _, _, _, rfl, c4, c6, c8, rfl⟩, c10, c12, ?_, ?_, hsome⟩
    · rcases hl with hl | hl
      · left
        have : HasDigits 1 (decimalValue (s.drop 12)) (s.drop 12) := ⟨by rw [List.length_drop]; omega, fun c hc => h c (List.mem_of_mem_drop hc), rfl⟩
        rw [hsec]
        show HasDigits 1 (decimalValue ((s.drop 12).take 2)) _
        rw [hsec]; exact this
      · right; exact digits_chunk h 12 2 (by omega)
    · have e : ∀ k, (s.drop k).take 2 ++ s.drop (k + 2) = s.drop k := fun k => by
        rw [← List.drop_drop]; exact List.take_append_drop _ _
      rw [hsec]
      simp only [List.append_nil, List.append_assoc]
      rw [e 10, e 8, e 6, e 4, List.take_append_drop]

/-- **C110 (numbers).** A number in the window of a unit is recognised as a time in that unit, and read so, except if it looks like a date: then it is never taken as a number but as local
time of the form `%Y%m%d %H%M%S`, or rejected. -/
theorem C110_epoch (ov : Overflow) (tz : ChopperTz chrono) (record : List Str) (i : Nat) (text : Str) (u : TimestampUnits) (hi : record[i]? = some text) (hd : Digits text)
    (hw : InWindow u (decimalValue text)) :
    (¬ LooksLikeDate text → getTimestampFmtAuto chrono tz record none (.index i) = .ok (.units u) ∧
      ∃ ts : Nanos, getTimestamp ov chrono tz record (.index i) (.units u) = .ok ts ∧ ts.toNat = decimalValue text * nanosPer u) ∧
    (LooksLikeDate text → getTimestampFmtAuto chrono tz record none (.index i) = .ok (.dateTimeNeedsExternalTz "%Y%m%d %H%M%S".toList) ∨
      ∃ e, getTimestampFmtAuto chrono tz record none (.index i) = .err e) := by
  have hdig' : ∀ c ∈ text, isDigit c = true := fun c hc => (isDigit_iff c).2 (hd.2 c hc)
  have hf : fmtIso = "%+".toList := by decide
  have hfd : fmtDate = "%Y%m%d".toList := by decide
  have hft : timeFormats = oneColumnFormats := by decide
  have hdate : chrono.parseDate fmtDate text = none := by
    apply digits_date hdig'
    right
    have hlt := decimalValue_lt hd.2
    refine Classical.byContradiction fun hn => ?_
    have : 10 ^ text.length ≤ 10 ^ 8 := Nat.pow_le_pow_right (by decide) (by omega)
    have hge : 630000000 ≤ decimalValue text := by
      obtain ⟨h1, _⟩ := hw
      cases u <;> simp only [nanosPer] at h1 <;> omega
    omega
  constructor
  · intro hn
    have hno : ∀ f ∈ oneColumnFormats, chrono.parseNaive f text = none := by
      intro f hf
      rw [← hft] at hf
      rw [digits_formats hdig' f hf]
      split
      · rename_i hl
        cases hx : toNaive (clockParsed (decimalValue (text.take 4)) (digitsClock text) none) with
        | none => rfl
        | some x => exact absurd ((looks_iff hd.2).2 ⟨hl.2, by rw [hx]; rfl⟩) hn
      · rfl
    have hboth := C09_same_as_csv ov chrono tz text u hd hw (by rw [← hf]; exact digits_iso_none hdig') hno (by rw [← hfd]; exact hdate)
    obtain ⟨⟨ts, h1, h2, _⟩, _⟩ := C09_epoch_exact ov chrono tz text u hd hw
    have e0 : ([text] : List Str)[0]? = some text := rfl
    rw [detect_column e0, convert_column e0] at hboth
    rw [detect_column hi, convert_column hi]
    exact ⟨hboth.1, ts, by rw [hboth.2, h1], h2⟩
  · intro hl
    obtain ⟨hlen, hsome⟩ := (looks_iff hd.2).1 hl
    obtain ⟨x, hx⟩ := Option.isSome_iff_exists.1 hsome
    rw [detect_column hi]
    unfold detectFmt
    rw [digits_iso_none hdig', tryNaive_of tz text "%Y%m%d %H%M%S".toList x timeFormats (by decide) (fun g hg hne => by
      rw [digits_formats hdig' g hg, if_neg (fun h => hne h.1)]; rfl) (by rw [digits_formats hdig' _ (by decide), if_pos ⟨rfl, hlen⟩, hx])]
    simp only [Option.isSome_none, Bool.false_eq_true, if_false]
    cases tz with
    | none => exact .inr ⟨_, rfl⟩
    | some zone =>
      cases hz : zone x with
      | none => simp only [fromLocalDatetime, hz]; exact .inr ⟨_, rfl⟩
      | some v => simp only [fromLocalDatetime, hz]; exact .inl rfl

/-- The full claim for numbers: a number in the window of a unit, without leading zeros, is recognised as a time in that unit. -/
def C110_full : Prop := ∀ (z : TzSpans) (text : Str) (u : TimestampUnits), InOrder z → Digits text → text.head? ≠ some '0' → InWindow u (decimalValue text) →
  getTimestampFmtAuto chrono (some z.fromLocal) [text] none (.index 0) = .ok (.units u)

/-- **C110, partial.** The claim for numbers holds for seconds, microseconds and nanoseconds, and for milliseconds before September 2001.  Missing: later milliseconds, see
`C110_counterexample`; `C110_epoch` says which are recognised. -/
theorem C110_units_partial (z : TzSpans) (text : Str) (u : TimestampUnits) (hd : Digits text) (h0 : text.head? ≠ some '0') (hw : InWindow u (decimalValue text))
    (hu : u ≠ .millis ∨ decimalValue text < 10 ^ 12) : getTimestampFmtAuto chrono (some z.fromLocal) [text] none (.index 0) = .ok (.units u) := by
  refine ((C110_epoch .wraps (some z.fromLocal) [text] 0 text u rfl hd hw).1 fun hl => ?_).1
  obtain ⟨hlen, _⟩ := (looks_iff hd.2).1 hl
  have hlt := decimalValue_lt hd.2
  have hge : 10 ^ 12 ≤ decimalValue text := by
    match text, hd, h0, hlen with
    | [], hd, _, _ => exact absurd rfl hd.1
    | c :: t, hd, h0, hlen =>
      have hc := hd.2 c List.mem_cons_self
      have hne : c.toNat ≠ 48 := by
        intro e
        apply h0
        have : c = '0' := Char.ext (UInt32.toNat_inj.1 e)
        rw [this]; rfl
      have e := decimalValue_append [c] t
      have e1 : decimalValue [c] = c.toNat - 48 := by simp [decimalValue]
      simp only [List.singleton_append] at e
      rw [e, e1]
      have hp : 10 ^ 12 ≤ 10 ^ t.length := Nat.pow_le_pow_right (by decide) (by simp only [List.length_cons] at hlen; omega)
      have : 1 * 10 ^ t.length ≤ (c.toNat - 48) * 10 ^ t.length := Nat.mul_le_mul_right _ (by omega)
      omega
  have hlt' : decimalValue text < 10 ^ 14 := Nat.lt_of_lt_of_le hlt (Nat.pow_le_pow_right (by decide) (by omega))
  obtain ⟨w1, w2⟩ := hw
  rcases hu with hu | hu
  · cases u
    · simp only [nanosPer] at w1 w2; omega
    · exact hu rfl
    · simp only [nanosPer] at w1 w2; omega
    · simp only [nanosPer] at w1 w2; omega
  · omega

/-- **C110 is false of the code** for milliseconds: 1583010112345 (29 February 2020) is taken for the first of January 1583, twelve o'clock thirty-four and five seconds. -/
theorem C110_counterexample : ¬ C110_full := by
  intro h
  have h1 := h utc "1583010112345".toList .millis utc_ordered (by refine ⟨by decide, ?_⟩; decide) (by decide) (by unfold InWindow; decide +kernel)
  have h2 : getTimestampFmtAuto chrono (some utc.fromLocal) ["1583010112345".toList] none (.index 0) = .ok (.dateTimeNeedsExternalTz "%Y%m%d %H%M%S".toList) := by decide +kernel
  rw [h2] at h1
  cases h1

/-- One column: noon in New York in January. -/
example : getTimestampFmtAuto chrono (some newYork.fromLocal) ["x".toList, "2019/01/15-12:00:00".toList] none (.index 1) = .ok (.dateTimeNeedsExternalTz "%Y/%m/%d-%H:%M:%S".toList) ∧
    Follows .panics (some ⟨17911 * 86400 + 17 * 3600, 0⟩) (getTimestamp .panics chrono (some newYork.fromLocal) ["x".toList, "2019/01/15-12:00:00".toList] (.index 1)
      (.dateTimeNeedsExternalTz "%Y/%m/%d-%H:%M:%S".toList)) := by
  have hdig : ∀ (k n : Nat) (s : Str), s.length = k → s.all isDigit = true → decimalValue s = n → HasDigits k n s := fun k n s h1 h2 h3 =>
    ⟨h1, fun c hc => (isDigit_iff c).1 (List.all_eq_true.1 h2 c hc), h3⟩
  have hr : RealDate ⟨2019, 1, 15⟩ := ⟨31, .long (by decide), by decide, by decide⟩
  refine (C110_one .panics newYork newYork_ordered _ 1 ⟨⟨2019, 1, 15⟩, 12, 0, 0, 0⟩ _ _ rfl ?_ ⟨hr, by decide, by decide, by decide⟩ (17911 * 86400 + 12 * 3600)
    ⟨17911, (daysFrom1970_iff _ _).2 ⟨hr, by decide +kernel⟩, by decide⟩).1 _ ?_
  · exact OneColumnText.slashes (td := "2019/01/15".toList) (tt := "12:00:00".toList) rfl
      ⟨2019, "2019".toList, "01".toList, "15".toList, rfl, hdig _ _ _ (by decide) (by decide) (by decide), hdig _ _ _ (by decide) (by decide) (by decide), hdig _ _ _ (by decide) (by decide) (by decide), by decide⟩
      ⟨"12".toList, "00".toList, "00".toList, hdig _ _ _ (by decide) (by decide) (by decide), hdig _ _ _ (by decide) (by decide) (by decide), hdig _ _ _ (by decide) (by decide) (by decide), by decide⟩
  · have := (fromLocal_iff newYork_ordered ⟨17911 * 86400 + 12 * 3600, 0⟩ ⟨17911 * 86400 + 17 * 3600, 0⟩).1 (by decide +kernel)
    exact this.2

/-- Two columns: `9:30` in the morning. -/
example : TwoColumnText ⟨⟨2020, 2, 29⟩, 9, 30, 0, 0⟩ "%Y%m%d#%-H:%M".toList "20200229".toList "9:30".toList ∧ RealClock ⟨⟨2020, 2, 29⟩, 9, 30, 0, 0⟩ ∧
    getTimestampFmtAuto chrono (some utc.fromLocal) ["20200229".toList, "9:30".toList] none (.dateTimeIndex 0 1) = .ok (.dateTimeNeedsExternalTz "%Y%m%d#%-H:%M".toList) ∧
    getTimestamp .panics chrono (some utc.fromLocal) ["20200229".toList, "9:30".toList] (.dateTimeIndex 0 1) (.dateTimeNeedsExternalTz "%Y%m%d#%-H:%M".toList) =
      .ok (BitVec.ofNat 64 ((18321 * 86400 + 9 * 3600 + 30 * 60) * 10 ^ 9)) := by
  have hdig : ∀ (k n : Nat) (s : Str), s.length = k → s.all isDigit = true → decimalValue s = n → HasDigits k n s := fun k n s h1 h2 h3 =>
    ⟨h1, fun c hc => (isDigit_iff c).1 (List.all_eq_true.1 h2 c hc), h3⟩
  refine ⟨TwoColumnText.minutes (th := "9".toList) (tm := "30".toList) rfl rfl ?_ (.inl (hdig _ _ _ (by decide) (by decide) (by decide))) (hdig _ _ _ (by decide) (by decide) (by decide)),
    ⟨⟨29, .leap ?_, by decide, by decide⟩, by decide, by decide, by decide⟩, by decide +kernel, by decide +kernel⟩
  · exact ⟨2020, "2020".toList, "02".toList, "29".toList, rfl, hdig _ _ _ (by decide) (by decide) (by decide), hdig _ _ _ (by decide) (by decide) (by decide),
      hdig _ _ _ (by decide) (by decide) (by decide), by decide⟩
  · exact .inl ⟨by decide, by decide⟩

/-- A hint from the column name (`timemillis`) avoids the misreading of C110_counterexample. -/
example : getTimestampFmtAuto chrono (some utc.fromLocal) ["1583010112345".toList] (some .millis) (.index 0) = .ok (.units .millis) := rfl

end Chopper.Props
