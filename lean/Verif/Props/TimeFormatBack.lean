import Verif.Proofs.TimeFormatBack
import Verif.Props.TimeFormat

/-!
# C135: only texts in the user's format are accepted, and they have one meaning
-/
namespace Chopper.Props
open Chopper Spec Chrono

theorem get_ok {ov : Overflow} {tz : ChopperTz chrono} {record : List Str} {col : TimestampCol} {fmt : TimestampFmt} {ts : Nanos} (h : getTimestamp ov chrono tz record col fmt = .ok ts) :
    ∃ text, ColText record col text ∧ convertTimestamp ov chrono tz fmt text = .ok ts := by
  unfold getTimestamp at h
  cases ht : getTimestampString record col with
  | ok text => rw [ht] at h; exact ⟨text, colText_iff.2 ht, h⟩
  | err e => rw [ht] at h; cases h
  | panic => rw [ht] at h; cases h
  | diverge => rw [ht] at h; cases h

theorem nanos_ok {ov : Overflow} {i : Instant} {ts : Nanos} (h : timestampNanos ov i = .ok ts) : (ts.toNat : Int) = i.ns % 2 ^ 64 := by
  rcases timestampNanos_follows ov i with ⟨ts', h1, h2⟩ | ⟨_, h1, _⟩
  · rw [h] at h1; cases h1; exact h2
  · rw [h] at h1; cases h1

/-- What a parsed text says. -/
theorem naive_back {c : Clock} {o : Int} {shown : List Part} {x : Instant} (h : toNaive (parsedOf c o shown) = some x) (hs : .second ∉ shown → c.second = 0) (hn : .nanos ∉ shown → c.nanos = 0) :
    ShowsDate shown ∧ ShowsTime c shown ∧ PossibleClock c ∧ ∃ loc, ClockSeconds c loc ∧ ((c.second < 60 ∧ x = ⟨loc, c.nanos⟩) ∨ (c.second = 60 ∧ x = ⟨loc - 1, c.nanos + 1000000000⟩)) := by
  unfold toNaive at h
  simp only [Option.bind_eq_bind, Option.bind_eq_some_iff] at h
  obtain ⟨d, hd, t, ht, hx⟩ := h
  rw [parsed_date] at hd
  split at hd
  · rename_i hdate
    have htime : ShowsTime c shown := by
      have e1 : (parsedOf c o shown).hour = if .hour ∈ shown then some (c.hour : Int) else none := rfl
      have e2 : (parsedOf c o shown).minute = if .minute ∈ shown then some (c.minute : Int) else none := rfl
      have e3 : (parsedOf c o shown).second = if .second ∈ shown then some (c.second : Int) else none := rfl
      have e4 : (parsedOf c o shown).nano = if .nanos ∈ shown then some (c.nanos : Int) else none := rfl
      unfold toTime at ht
      rw [e1, e2, e3, e4] at ht
      by_cases h1 : Part.hour ∈ shown
      · by_cases h2 : Part.minute ∈ shown
        · refine ⟨h1, h2, ?_, ?_⟩
          · by_cases h3 : Part.second ∈ shown
            · exact .inl h3
            · refine .inr ⟨hs h3, fun h4 => ?_⟩
              simp [h1, h2, h3, h4] at ht
          · by_cases h3 : Part.nanos ∈ shown
            · exact .inl h3
            · exact .inr (hn h3)
        · simp [h1, h2] at ht
      · simp [h1] at ht
    have hreal : RealDate c.date := by
      by_cases h : RealDate c.date
      · exact h
      · rw [ymd_of_unreal h] at hd; cases hd
    have hyear : YearInRange c := by
      unfold ymd at hd
      split at hd
      · rename_i h; exact ⟨h.1, h.2.1⟩
      · cases hd
    rw [ymd_of_real hyear.1 hyear.2 hreal] at hd
    cases hd
    rw [parsed_time htime] at ht
    split at ht
    · cases ht
    · rename_i hp
      refine ⟨hdate, htime, ⟨hreal, hyear, by omega, by omega, by omega⟩, _, ⟨_, (daysFrom1970_iff _ _).2 ⟨hreal, rfl⟩, rfl⟩, ?_⟩
      split at ht
      · rename_i h60
        cases ht
        refine .inr ⟨h60, ?_⟩
        cases hx
        simp only [Instant.mk.injEq, and_true]
        omega
      · cases ht
        refine .inl ⟨by omega, ?_⟩
        cases hx
        simp only [Instant.mk.injEq, and_true]
        omega
  · cases hd

theorem parsed_some {f text : Str} {α : Type} {g : Parsed → Option α} {x : α} (h : (parseItems (items f) {} text).bind g = some x) :
    ∃ (c : Clock) (o : Int) (shown : List Part), InFormat c o shown f text ∧ g (parsedOf c o shown) = some x ∧ (.second ∉ shown → c.second = 0) ∧ (.nanos ∉ shown → c.nanos = 0) := by
  rw [Option.bind_eq_some_iff] at h
  obtain ⟨p, hp, hx⟩ := h
  obtain ⟨c, o, shown, h1, rfl, h2, h3⟩ := parse_back hp
  exact ⟨c, o, shown, h1, hx, h2, h3⟩

theorem tz_back {f text : Str} {i : Instant} (h : chrono.parseTz f text = some i) : ∃ (c : Clock) (o : Int) (shown : List Part) (loc : Int), InFormat c o shown f text ∧
    ShowsDate shown ∧ ShowsTime c shown ∧ .offset ∈ shown ∧ -86400 < o ∧ o < 86400 ∧ PossibleClock c ∧ ClockSeconds c loc ∧ i.ns = (loc - o) * 10 ^ 9 + c.nanos := by
  obtain ⟨c, o, shown, h1, h2, h3, h4⟩ := parsed_some (g := toInstant) h
  rw [instant_parsed] at h2
  split at h2
  · rename_i ho
    rw [Option.map_eq_some_iff] at h2
    obtain ⟨x, hx, rfl⟩ := h2
    obtain ⟨g1, g2, g3, loc, g4, g5⟩ := naive_back hx h3 h4
    refine ⟨c, o, shown, loc, h1, g1, g2, ho.1, ho.2.1, ho.2.2, g3, g4, ?_⟩
    rcases g5 with ⟨_, rfl⟩ | ⟨_, rfl⟩
    · simp only [Instant.ns]; omega
    · simp only [Instant.ns]; omega
  · cases h2

theorem naive_text {f text : Str} {x : Instant} (h : chrono.parseNaive f text = some x) : ∃ (c : Clock) (o : Int) (shown : List Part) (loc : Int), InFormat c o shown f text ∧
    ShowsDate shown ∧ ShowsTime c shown ∧ PossibleClock c ∧ ClockSeconds c loc ∧ ((c.second < 60 ∧ x = ⟨loc, c.nanos⟩) ∨ (c.second = 60 ∧ x = ⟨loc - 1, c.nanos + 1000000000⟩)) := by
  obtain ⟨c, o, shown, h1, h2, h3, h4⟩ := parsed_some (g := toNaive) h
  obtain ⟨g1, g2, g3, loc, g4, g5⟩ := naive_back h2 h3 h4
  exact ⟨c, o, shown, loc, h1, g1, g2, g3, g4, g5⟩

theorem date_text {f text : Str} {x : Instant} (h : chrono.parseDate f text = some x) : ∃ (c : Clock) (o : Int) (shown : List Part) (n : Int), InFormat c o shown f text ∧
    ShowsDate shown ∧ RealDate c.date ∧ YearInRange c ∧ DaysFrom1970 c.date n ∧ x = ⟨n * 86400, 0⟩ := by
  have h : ((parseItems (items f) {} text).bind toDate).map (fun d => (⟨d * 86400, 0⟩ : Instant)) = some x := h
  rw [Option.map_eq_some_iff] at h
  obtain ⟨d, hd, rfl⟩ := h
  obtain ⟨c, o, shown, h1, h2, _, _⟩ := parsed_some hd
  rw [parsed_date] at h2
  split at h2
  · rename_i hdate
    have hreal : RealDate c.date := by
      by_cases h : RealDate c.date
      · exact h
      · rw [ymd_of_unreal h] at h2; cases h2
    have hyear : YearInRange c := by
      unfold ymd at h2
      split at h2
      · rename_i h; exact ⟨h.1, h.2.1⟩
      · cases h2
    rw [ymd_of_real hyear.1 hyear.2 hreal] at h2
    cases h2
    exact ⟨c, o, shown, _, h1, hdate, hreal, hyear, (daysFrom1970_iff _ _).2 ⟨hreal, rfl⟩, rfl⟩
  · cases h2

theorem local_ok {lib : DateLib} {tz : ChopperTz lib} {ov : Overflow} {p : Option lib.Naive} {ts : Nanos} (h : ((Res.okOr .timeParsing p).bind fun x => (fromLocalDatetime tz x).bind (timestampNanos ov)) = .ok ts) :
    ∃ x f i, p = some x ∧ tz = some f ∧ f x = some i ∧ timestampNanos ov i = .ok ts := by
  cases p with
  | none => cases h
  | some x =>
    cases tz with
    | none => cases h
    | some f =>
      cases hf : f x with
      | none => simp only [Res.okOr, Res.bind_ok, fromLocalDatetime, hf] at h; cases h
      | some i => simp only [Res.okOr, Res.bind_ok, fromLocalDatetime, hf] at h; exact ⟨x, f, i, rfl, rfl, hf, h⟩

/-- **C135 (with offset).** A row that is accepted with a format of times with offset is a text in that format, showing a possible date and time and an offset of less than a day; and it is
read as the instant they say. -/
theorem C135_offset (ov : Overflow) (tz : ChopperTz chrono) (record : List Str) (col : TimestampCol) (f : Str) (ts : Nanos)
    (h : getTimestamp ov chrono tz record col (.dateTimeIncludesTz f) = .ok ts) :
    ∃ (text : Str) (c : Clock) (o : Int) (shown : List Part) (loc : Int), ColText record col text ∧ InFormat c o shown f text ∧ ShowsDate shown ∧ ShowsTime c shown ∧ .offset ∈ shown ∧
      -86400 < o ∧ o < 86400 ∧ PossibleClock c ∧ ClockSeconds c loc ∧ (ts.toNat : Int) = ((loc - o) * 10 ^ 9 + c.nanos) % 2 ^ 64 := by
  obtain ⟨text, ht, h⟩ := get_ok h
  cases hp : chrono.parseTz f text with
  | none => simp only [convertTimestamp, hp] at h; cases h
  | some i =>
    rw [convert_tz hp] at h
    obtain ⟨c, o, shown, loc, g1, g2, g3, g4, g5, g6, g7, g8, g9⟩ := tz_back hp
    exact ⟨text, c, o, shown, loc, ht, g1, g2, g3, g4, g5, g6, g7, g8, by rw [nanos_ok h, g9]⟩

/-- **C135 (local time).** A row that is accepted with a format of local times is a text in that format, showing a possible date and time; it is read as the only time when clocks in the zone
show them. -/
theorem C135_local (ov : Overflow) (z : TzSpans) (hz : InOrder z) (record : List Str) (col : TimestampCol) (f : Str) (ts : Nanos)
    (h : getTimestamp ov chrono (some z.fromLocal) record col (.dateTimeNeedsExternalTz f) = .ok ts) :
    ∃ (text : Str) (c : Clock) (o : Int) (shown : List Part) (loc t : Int), ColText record col text ∧ InFormat c o shown f text ∧ ShowsDate shown ∧ ShowsTime c shown ∧
      PossibleClock c ∧ ClockSeconds c loc ∧ ZoneTime z c loc t ∧ (ts.toNat : Int) = (t * 10 ^ 9 + c.nanos) % 2 ^ 64 := by
  obtain ⟨text, ht, h⟩ := get_ok h
  obtain ⟨x, _, i, hp, hf, hx, hi⟩ := local_ok (lib := chrono) h
  cases hf
  obtain ⟨c, o, shown, loc, g1, g2, g3, g4, g5, g6⟩ := naive_text hp
  obtain ⟨k1, k2⟩ := (fromLocal_iff hz x i).1 hx
  rcases g6 with ⟨h60, rfl⟩ | ⟨h60, rfl⟩
  · refine ⟨text, c, o, shown, loc, i.secs, ht, g1, g2, g3, g4, g5, .inl ⟨h60, k2⟩, ?_⟩
    rw [nanos_ok hi, Instant.ns, k1]
    rfl
  · refine ⟨text, c, o, shown, loc, i.secs + 1, ht, g1, g2, g3, g4, g5, .inr ⟨h60, ?_⟩, ?_⟩
    · have : i.secs + 1 - 1 = i.secs := by omega
      rw [this]; exact k2
    · rw [nanos_ok hi, Instant.ns, k1]
      have : i.secs * 1000000000 + ((c.nanos + 1000000000 : Nat) : Int) = (i.secs + 1) * 10 ^ 9 + c.nanos := by omega
      rw [← this]

/-- **C135 (dates).** A row that is accepted with a format of dates is a text in that format, showing an existing date; it is read as the only time when it is midnight of that date in the
zone. -/
theorem C135_date (ov : Overflow) (z : TzSpans) (hz : InOrder z) (record : List Str) (col : TimestampCol) (f : Str) (ts : Nanos)
    (h : getTimestamp ov chrono (some z.fromLocal) record col (.dateNeedsExternalTz f) = .ok ts) :
    ∃ (text : Str) (c : Clock) (o : Int) (shown : List Part) (n t : Int), ColText record col text ∧ InFormat c o shown f text ∧ ShowsDate shown ∧ RealDate c.date ∧ YearInRange c ∧
      DaysFrom1970 c.date n ∧ OnlyTime z (n * 86400) t ∧ (ts.toNat : Int) = (t * 10 ^ 9) % 2 ^ 64 := by
  obtain ⟨text, ht, h⟩ := get_ok h
  obtain ⟨x, _, i, hp, hf, hx, hi⟩ := local_ok (lib := chrono) h
  cases hf
  obtain ⟨c, o, shown, n, g1, g2, g3, g4, g5, rfl⟩ := date_text hp
  obtain ⟨k1, k2⟩ := (fromLocal_iff hz _ i).1 hx
  refine ⟨text, c, o, shown, n, i.secs, ht, g1, g2, g3, g4, g5, k2, ?_⟩
  rw [nanos_ok hi, Instant.ns, k1]
  have : i.secs * 1000000000 + ((0 : Nat) : Int) = i.secs * 10 ^ 9 := by omega
  rw [← this]

/-- **C135 (without time zone).** Without a time zone, only rows with offset are accepted. -/
theorem C135_no_zone (ov : Overflow) (record : List Str) (col : TimestampCol) (f : Str) (ts : Nanos) :
    getTimestamp ov chrono none record col (.dateTimeNeedsExternalTz f) ≠ .ok ts ∧ getTimestamp ov chrono none record col (.dateNeedsExternalTz f) ≠ .ok ts := by
  constructor
  · intro h
    obtain ⟨text, ht, h⟩ := get_ok h
    obtain ⟨x, _, i, hp, hf, hx, hi⟩ := local_ok (lib := chrono) h
    cases hf
  · intro h
    obtain ⟨text, ht, h⟩ := get_ok h
    obtain ⟨x, _, i, hp, hf, hx, hi⟩ := local_ok (lib := chrono) h
    cases hf

/-- **C135 (first row).** A format is accepted only if the first row is a text in it that shows an existing date; and it is taken for one of times with offset, of local times or of dates only if
the first row shows that. -/
theorem C135_first (lower : Str → Str) (tz : ChopperTz chrono) (names record : List Str) (colCfg : TimestampColConfig) (fmtCfg : TimestampFmtConfig) (col : TimestampCol)
    (fmt : TimestampFmt) (f : Str) (hf : UserFormat fmtCfg f) (h : getTimestampColAndFmt lower chrono tz names record colCfg fmtCfg = .ok (col, fmt)) :
    ∃ (text : Str) (c : Clock) (o : Int) (shown : List Part), ColText record col text ∧ InFormat c o shown f text ∧ ShowsDate shown ∧ RealDate c.date ∧ YearInRange c ∧
      ((fmt = .dateTimeIncludesTz f ∧ ShowsTime c shown ∧ PossibleClock c ∧ .offset ∈ shown ∧ -86400 < o ∧ o < 86400) ∨
       (fmt = .dateTimeNeedsExternalTz f ∧ ShowsTime c shown ∧ PossibleClock c ∧ tz.isSome ∧ ¬ (.offset ∈ shown ∧ -86400 < o ∧ o < 86400)) ∨
       (fmt = .dateNeedsExternalTz f ∧ tz.isSome ∧ ¬ (ShowsTime c shown ∧ PossibleClock c))) := by
  have hcol : ∃ (hint : Option TimestampUnits) (text : Str), getTimestampCol lower names colCfg = .ok (col, hint) ∧ ColText record col text := by
    unfold getTimestampColAndFmt at h
    cases h1 : getTimestampCol lower names colCfg with
    | ok x =>
      obtain ⟨col', hint⟩ := x
      rw [h1, Res.bind_ok] at h
      have key : ∀ g : Str, getTimestampFmtFromUserSpec chrono tz record col' g = .ok fmt → ∃ text, ColText record col' text := by
        intro g hg
        unfold getTimestampFmtFromUserSpec at hg
        cases ht : getTimestampString record col' with
        | ok text => exact ⟨text, colText_iff.2 ht⟩
        | err e => rw [ht] at hg; cases hg
        | panic => rw [ht] at hg; cases hg
        | diverge => rw [ht] at hg; cases hg
      have : ∃ g : Str, col' = col ∧ getTimestampFmtFromUserSpec chrono tz record col' g = .ok fmt := by
        cases hf with
        | one =>
          simp only at h
          cases h2 : getTimestampFmtFromUserSpec chrono tz record col' f with
          | ok x => rw [h2] at h; cases h; exact ⟨f, rfl, h2⟩
          | err e => rw [h2] at h; cases h
          | panic => rw [h2] at h; cases h
          | diverge => rw [h2] at h; cases h
        | @two d t =>
          simp only at h
          cases h2 : getTimestampFmtFromUserSpec chrono tz record col' (d ++ '#' :: t) with
          | ok x => rw [h2] at h; cases h; exact ⟨_, rfl, h2⟩
          | err e => rw [h2] at h; cases h
          | panic => rw [h2] at h; cases h
          | diverge => rw [h2] at h; cases h
      obtain ⟨g, rfl, hg⟩ := this
      obtain ⟨text, ht⟩ := key g hg
      exact ⟨hint, text, rfl, ht⟩
    | err e => rw [h1] at h; cases h
    | panic => rw [h1] at h; cases h
    | diverge => rw [h1] at h; cases h
  obtain ⟨hint, text, hc, ht⟩ := hcol
  rw [user_format hc hf ht] at h
  have zone : ∀ (x : Instant) (g : TimestampFmt), ((fromLocalDatetime (lib := chrono) tz x).bind fun _ => (.ok g : Res TimestampFmt)) = .ok fmt → fmt = g ∧ tz.isSome := by
    intro x g hx
    cases tz with
    | none => cases hx
    | some z =>
      refine ⟨?_, rfl⟩
      cases hz : fromLocalDatetime (lib := chrono) (some z) x with
      | ok i => rw [hz] at hx; cases hx; rfl
      | err e => rw [hz] at hx; cases hx
      | panic => rw [hz] at hx; cases hx
      | diverge => rw [hz] at hx; cases hx
  have h' : formatOutcome chrono tz f text = .ok fmt := by
    cases ho : formatOutcome chrono tz f text with
    | ok x => rw [ho] at h; cases h; rfl
    | err e => rw [ho] at h; cases h
    | panic => rw [ho] at h; cases h
    | diverge => rw [ho] at h; cases h
  cases h1 : chrono.parseTz f text with
  | some i =>
    rw [outcome_tz h1] at h'
    cases h'
    obtain ⟨c, o, shown, loc, g1, g2, g3, g4, g5, g6, g7, _, _⟩ := tz_back h1
    exact ⟨text, c, o, shown, ht, g1, g2, g7.1, g7.2.1, .inl ⟨rfl, g3, g7, g4, g5, g6⟩⟩
  | none =>
    cases h2 : chrono.parseNaive f text with
    | some x =>
      rw [outcome_naive h1 h2] at h'
      obtain ⟨rfl, hz⟩ := zone x _ h'
      obtain ⟨c, o, shown, loc, g1, g2, g3, g4, g5, g6⟩ := naive_text h2
      refine ⟨text, c, o, shown, ht, g1, g2, g4.1, g4.2.1, .inr (.inl ⟨rfl, g3, g4, hz, fun hn => ?_⟩)⟩
      rw [(format_parse g1).1, instant_parsed, if_pos hn] at h1
      rw [(format_parse g1).2.1] at h2
      have := h2.symm.trans ((Option.map_eq_none_iff).1 h1)
      cases this
    | none =>
      cases h3 : chrono.parseDate f text with
      | some x =>
        rw [outcome_date h1 h2 h3] at h'
        obtain ⟨rfl, hz⟩ := zone x _ h'
        obtain ⟨c, o, shown, n, g1, g2, g3, g4, g5, _⟩ := date_text h3
        refine ⟨text, c, o, shown, ht, g1, g2, g3, g4, .inr (.inr ⟨rfl, hz, fun hn => ?_⟩)⟩
        have h2 : toNaive (parsedOf c o shown) = none := (format_parse g1).2.1.symm.trans h2
        unfold toNaive at h2
        rw [parsed_date, if_pos g2, ymd_of_real g4.1 g4.2 g3, parsed_time hn.1, if_neg (by have := hn.2.2.2; omega)] at h2
        split at h2 <;> cases h2
      | none => rw [outcome_none h1 h2 h3] at h'; cases h'

/-- **C135 (one meaning).** A text shows the same date, time and offset however it is read in the format. -/
theorem C135_one_meaning (c c' : Clock) (o o' : Int) (shown shown' : List Part) (f text : Str) (h : InFormat c o shown f text) (h' : InFormat c' o' shown' f text) :
    (∀ p, p ∈ shown ↔ p ∈ shown') ∧ (ShowsDate shown → c.date = c'.date) ∧ (ShowsDate shown → ShowsTime c shown → ShowsTime c' shown' → c = c') ∧ (.offset ∈ shown → o = o') := by
  have e : parsedOf c o shown = parsedOf c' o' shown' := by
    have h1 := parse_inFormat h []
    have h2 := parse_inFormat h' []
    rw [show parsedOf c o [] = {} from by simp [parsedOf]] at h1
    rw [show parsedOf c' o' [] = {} from by simp [parsedOf], h1] at h2
    simpa using h2
  have fld : ∀ {p : Part} {v v' : Int}, (if p ∈ shown then some v else none : Option Int) = (if p ∈ shown' then some v' else none) → (p ∈ shown ↔ p ∈ shown') ∧ (p ∈ shown → v = v') := by
    intro p v v' h
    by_cases h1 : p ∈ shown <;> by_cases h2 : p ∈ shown' <;> simp [h1, h2] at h ⊢
    exact h
  have e1 := fld (p := .year) (congrArg Parsed.year e)
  have e2 := fld (p := .month) (congrArg Parsed.month e)
  have e3 := fld (p := .day) (congrArg Parsed.day e)
  have e4 := fld (p := .hour) (congrArg Parsed.hour e)
  have e5 := fld (p := .minute) (congrArg Parsed.minute e)
  have e6 := fld (p := .second) (congrArg Parsed.second e)
  have e7 := fld (p := .nanos) (congrArg Parsed.nano e)
  have e8 := fld (p := .offset) (congrArg Parsed.offset e)
  have hdate : ShowsDate shown → c.date = c'.date := by
    intro hd
    have a := e1.2 hd.1
    have b := e2.2 hd.2.1
    have d := e3.2 hd.2.2
    obtain ⟨⟨y, m, dd⟩, hh, mi, s, n⟩ := c
    obtain ⟨⟨y', m', dd'⟩, hh', mi', s', n'⟩ := c'
    simp only at a b d
    simp only [Date.mk.injEq]
    omega
  refine ⟨?_, hdate, ?_, e8.2⟩
  · intro p
    cases p with
    | year => exact e1.1
    | month => exact e2.1
    | day => exact e3.1
    | hour => exact e4.1
    | minute => exact e5.1
    | second => exact e6.1
    | nanos => exact e7.1
    | offset => exact e8.1
  · intro hd ht ht'
    have a := hdate hd
    have b := e4.2 ht.1
    have d := e5.2 ht.2.1
    have s : (c.second : Int) = c'.second := by
      rcases ht.2.2.1 with h1 | h1
      · exact e6.2 h1
      · rcases ht'.2.2.1 with h2 | h2
        · exact e6.2 (e6.1.2 h2)
        · rw [h1.1, h2.1]
    have n : (c.nanos : Int) = c'.nanos := by
      rcases ht.2.2.2 with h1 | h1
      · exact e7.2 h1
      · rcases ht'.2.2.2 with h2 | h2
        · exact e7.2 (e7.1.2 h2)
        · rw [h1, h2]
    obtain ⟨dt, hh, mi, s, n⟩ := c
    obtain ⟨dt', hh', mi', s', n'⟩ := c'
    simp only at a b d s n
    simp only [Clock.mk.injEq]
    exact ⟨a, by omega, by omega, by omega, by omega⟩

theorem parsed_leap {c : Clock} {o : Int} {ps : List Part} (hd : ShowsDate ps) (ht : ShowsTime c ps) (hc : PossibleClock c) (h60 : c.second = 60) {loc : Int} (hloc : ClockSeconds c loc) :
    toNaive (parsedOf c o ps) = some ⟨loc - 1, c.nanos + 1000000000⟩ := by
  obtain ⟨hr, hy, h1, h2, h3⟩ := hc
  obtain ⟨n, hn, rfl⟩ := hloc
  obtain ⟨_, rfl⟩ := (daysFrom1970_iff _ _).1 hn
  unfold toNaive
  rw [parsed_date, if_pos hd, ymd_of_real hy.1 hy.2 hr, parsed_time ht, if_neg (by omega), if_pos h60]
  simp only [Option.bind_eq_bind, Option.bind_some, Option.some.injEq, Instant.mk.injEq, and_true]
  omega

/-- **C135 (leap seconds).** Second 60 is accepted in every minute and read as the second after it. -/
theorem C135_leap (ov : Overflow) (z : TzSpans) (hz : InOrder z) (record : List Str) (col : TimestampCol) (f text : Str) (ht : ColText record col text)
    (c : Clock) (o : Int) (shown : List Part) (hin : InFormat c o shown f text) (hd : ShowsDate shown) (htime : ShowsTime c shown) (hc : PossibleClock c) (h60 : c.second = 60)
    (loc : Int) (hloc : ClockSeconds c loc) :
    (∀ tz, .offset ∈ shown → -86400 < o → o < 86400 → 0 < loc - o → (loc - o) * 10 ^ 9 + c.nanos < 2 ^ 63 →
      ∃ ts, getTimestamp ov chrono tz record col (.dateTimeIncludesTz f) = .ok ts ∧ (ts.toNat : Int) = (loc - o) * 10 ^ 9 + c.nanos) ∧
    (∀ t, ZoneTime z c loc t → 0 < t → t * 10 ^ 9 + c.nanos < 2 ^ 63 →
      ∃ ts, getTimestamp ov chrono (some z.fromLocal) record col (.dateTimeNeedsExternalTz f) = .ok ts ∧ (ts.toNat : Int) = t * 10 ^ 9 + c.nanos) := by
  have hn : chrono.parseNaive f text = some ⟨loc - 1, c.nanos + 1000000000⟩ := by rw [(format_parse hin).2.1]; exact parsed_leap hd htime hc h60 hloc
  have nanos : ∀ i : Instant, 0 ≤ i.secs → i.ns < 2 ^ 63 → ∃ ts, timestampNanos ov i = .ok ts ∧ (ts.toNat : Int) = i.ns := by
    intro i h1 h2
    have h3 : 0 ≤ i.ns := by simp only [Instant.ns]; omega
    have h4 : i.secs * 10 ^ 9 ≤ i.ns := by simp only [Instant.ns]; omega
    rcases timestampNanos_follows ov i with ⟨ts, g1, g2⟩ | ⟨_, _, g⟩
    · exact ⟨ts, g1, by rw [g2]; omega⟩
    · omega
  constructor
  · intro tz ho h1 h2 h3 h4
    have hi : chrono.parseTz f text = some ⟨loc - 1 - o, c.nanos + 1000000000⟩ := by
      rw [(format_parse hin).1, instant_parsed, if_pos ⟨ho, h1, h2⟩, parsed_leap hd htime hc h60 hloc]; rfl
    rw [read_column ht, convert_tz hi]
    have e : (⟨loc - 1 - o, c.nanos + 1000000000⟩ : Instant).ns = (loc - o) * 10 ^ 9 + c.nanos := by simp only [Instant.ns]; omega
    obtain ⟨ts, g1, g2⟩ := nanos ⟨loc - 1 - o, c.nanos + 1000000000⟩ (by simp only; omega) (by rw [e]; exact h4)
    exact ⟨ts, g1, by rw [g2, e]⟩
  · intro t hzt h1 h2
    have h3 : OnlyTime z (loc - 1) (t - 1) := by
      rcases hzt with ⟨h, _⟩ | ⟨_, h⟩
      · omega
      · exact h
    have := (fromLocal_iff hz ⟨loc - 1, c.nanos + 1000000000⟩ ⟨t - 1, c.nanos + 1000000000⟩).2 ⟨rfl, h3⟩
    rw [read_column ht, convert_naive hn]
    simp only [fromLocalDatetime, this, Res.bind_ok]
    have e : (⟨t - 1, c.nanos + 1000000000⟩ : Instant).ns = t * 10 ^ 9 + c.nanos := by simp only [Instant.ns]; omega
    obtain ⟨ts, g1, g2⟩ := nanos ⟨t - 1, c.nanos + 1000000000⟩ (by simp only; omega) (by rw [e]; exact h2)
    exact ⟨ts, g1, by rw [g2, e]⟩

/-! Rows that are accepted: `2019-02-03 12:34:60` in `%F %T` (a leap second, read as 12:35:00), a date with one digit and spaces. -/
example : getTimestamp .panics chrono (some utc.fromLocal) ["2019-02-03 12:34:60".toList] (.index 0) (.dateTimeNeedsExternalTz "%F %T".toList) = .ok 1549197300000000000 ∧
    getTimestamp .panics chrono (some utc.fromLocal) ["  3. 2.2019".toList] (.index 0) (.dateNeedsExternalTz "%d.%m.%Y".toList) = .ok 1549152000000000000 ∧
    getTimestampColAndFmt id chrono (some utc.fromLocal) ["time".toList] ["  3. 2.2019".toList] (.index 0) (.explicit "%d.%m.%Y".toList) = .ok (.index 0, .dateNeedsExternalTz "%d.%m.%Y".toList) := by
  decide +kernel

end Chopper.Props
