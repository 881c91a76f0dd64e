import Verif.Proofs.ChronoRange
import Verif.Props.Timestamp
import Verif.Spec.Cli

/-!
# C108: begin and end values in terms of the calendar
-/
namespace Chopper.Props
open Chopper Spec Chrono

/-- Counting days: every date has exactly one number and every number is that of exactly one date. -/
theorem calendar_complete : (∀ d, RealDate d → ∃ n, DaysFrom1970 d n ∧ ∀ n', DaysFrom1970 d n' → n' = n) ∧ (∀ n, ∃ d, DaysFrom1970 d n ∧ ∀ d', DaysFrom1970 d' n → d' = d) := by
  constructor
  · intro d hd
    refine ⟨_, (daysFrom1970_iff _ _).2 ⟨hd, rfl⟩, fun n' h => ?_⟩
    exact ((daysFrom1970_iff _ _).1 h).2.symm
  · intro n
    refine ⟨_, daysFrom1970_dayDate n, fun d' h => ?_⟩
    obtain ⟨h1, rfl⟩ := (daysFrom1970_iff _ _).1 h
    exact (dayDate_number h1).symm

theorem clockSeconds_real {c : Clock} {t : Int} (h : ClockSeconds c t) : RealDate c.date := by
  obtain ⟨n, hn, _⟩ := h
  exact daysFrom1970_real hn

/-- The conversion to nanoseconds follows the outcome. -/
theorem timestampNanos_follows (ov : Overflow) (i : Instant) : Follows ov (some i) (timestampNanos ov i) := by
  have hmod : (BitVec.ofInt 64 i.ns).toNat = (i.ns % 2 ^ 64).toNat := by rw [BitVec.toNat_ofInt]; rfl
  have hnn : 0 ≤ i.ns % 2 ^ 64 := Int.emod_nonneg _ (by decide)
  cases ov with
  | wraps => exact .inl ⟨_, rfl, by rw [hmod]; omega⟩
  | panics =>
    simp only [timestampNanos]
    split
    · exact .inl ⟨_, rfl, by rw [hmod]; omega⟩
    · rename_i h
      refine .inr ⟨rfl, rfl, ?_⟩
      simp only [fitsI64, Bool.and_eq_true, decide_eq_true_eq] at h
      omega

theorem follows_exact {ov : Overflow} {i : Instant} {r : Res Nanos} (h : Follows ov (some i) r) (h0 : 0 ≤ i.secs) (h1 : i.ns < 2 ^ 63) :
    ∃ ts : Nanos, r = .ok ts ∧ (ts.toNat : Int) = i.ns := by
  have h2 : i.secs * 1000000000 ≤ i.ns := by simp only [Instant.ns]; omega
  rcases h with ⟨ts, h, e⟩ | ⟨_, _, h⟩
  · exact ⟨ts, h, by omega⟩
  · omega

theorem clockText_noDigit {c : Clock} {t : Str} (h : ClockText c t) : ¬ (t.all isDigit = true) := by
  obtain ⟨a, sep, b, td, tt, tf, _, hs, _, _, _, _, rfl⟩ := h
  rw [List.all_eq_true]
  intro hall
  rcases hs with rfl | rfl | rfl
  · have := hall ' ' (by simp); revert this; decide
  · have := hall '-' (by simp); revert this; decide
  · have := hall 'T' (by simp); revert this; decide

theorem range_clock (ov : Overflow) (tz : ChopperTz chrono) {c : Clock} {t : Str} (h : ClockText c t) : ∃ y : Nat, c.date.year = y ∧ y < 10000 ∧ c.nanos < 10 ^ 9 ∧
    parseDatetimeRangeElement ov chrono tz t = match toNaive (clockParsed y c (some c.nanos)) with
      | some n => (fromLocalDatetime tz n).bind (timestampNanos ov)
      | none => .err (.custom "Cannot parse either begin or end datetime provided") := by
  obtain ⟨y, a, sep, b, tf, hp, ma, ms, mb⟩ := clockText_parts h
  refine ⟨y, hp.year, hp.year_lt, fraction_lt hp.frac, ?_⟩
  unfold parseDatetimeRangeElement
  rw [if_neg (clockText_noDigit h)]
  unfold parseRangeDatetime
  have e : autocomplete false t = t := rfl
  simp only [e, iso_none hp]
  obtain ⟨h1, h2⟩ := range_parse hp ma ms mb
  exact tryRange_of ov tz t _ rangeFormats h1 h2

/-- **C108 (local times).** A date and time in any of the forms allowed is the only time when clocks in the time zone show it; it is rejected if there is no such time or there are two. -/
theorem C108_local (ov : Overflow) (z : TzSpans) (hz : InOrder z) (c : Clock) (text : Str) (ht : ClockText c text) (hc : RealClock c) (loc : Int) (hloc : ClockSeconds c loc) :
    (∀ t, OnlyTime z loc t → Follows ov (some ⟨t, c.nanos⟩) (parseDatetimeRangeElement ov chrono (some z.fromLocal) text)) ∧
    (∀ t, OnlyTime z loc t → 0 ≤ t → t * 10 ^ 9 + c.nanos < 2 ^ 63 →
      ∃ ts : Nanos, parseDatetimeRangeElement ov chrono (some z.fromLocal) text = .ok ts ∧ (ts.toNat : Int) = t * 10 ^ 9 + c.nanos) ∧
    ((∀ t, ¬ OnlyTime z loc t) → ∃ e, parseDatetimeRangeElement ov chrono (some z.fromLocal) text = .err e) := by
  obtain ⟨y, hy, hy', hn, hr⟩ := range_clock ov (some z.fromLocal) ht
  rw [toNaive_real hy hy' hc hloc] at hr
  simp only at hr
  have hF : ∀ t, OnlyTime z loc t → Follows ov (some ⟨t, c.nanos⟩) (parseDatetimeRangeElement ov chrono (some z.fromLocal) text) := by
    intro t h1
    have := (fromLocal_iff hz ⟨loc, c.nanos⟩ ⟨t, c.nanos⟩).2 ⟨rfl, h1⟩
    rw [hr]
    simp only [fromLocalDatetime, this, Res.bind_ok]
    exact timestampNanos_follows ov _
  refine ⟨hF, fun t h1 h2 h3 => follows_exact (hF t h1) h2 h3, fun h => ?_⟩
  have := (fromLocal_none hz ⟨loc, c.nanos⟩).2 h
  rw [hr]
  simp only [fromLocalDatetime, this]
  exact ⟨_, rfl⟩

theorem utc_ordered : InOrder utc := List.Pairwise.nil

theorem utc_only (loc t : Int) : OnlyTime utc loc t ↔ t = loc := by
  have hs : ∀ t loc, Shows utc t loc ↔ t = loc := by
    intro t loc
    constructor
    · rintro ⟨o, ho, rfl⟩
      have : OffsetIs utc t 0 := .first (by simp [utc])
      rw [offsetIs_unique utc_ordered ho this]; omega
    · rintro rfl
      exact ⟨0, .first (by simp [utc]), by omega⟩
  constructor
  · rintro ⟨h, _⟩; exact (hs _ _).1 h
  · rintro rfl; exact ⟨(hs _ _).2 rfl, fun t' h => (hs _ _).1 h⟩

/-- **C108 (universal time).** -/
theorem C108_utc (ov : Overflow) (c : Clock) (text : Str) (ht : ClockText c text) (hc : RealClock c) (t : Int) (hloc : ClockSeconds c t) (h0 : 0 ≤ t) (h1 : t * 10 ^ 9 + c.nanos < 2 ^ 63) :
    ∃ ts : Nanos, parseDatetimeRangeElement ov chrono (some utc.fromLocal) text = .ok ts ∧ (ts.toNat : Int) = t * 10 ^ 9 + c.nanos :=
  (C108_local ov utc utc_ordered c text ht hc t hloc).2.1 t ((utc_only _ _).2 rfl) h0 h1

/-- **C108 (offset in the text).** With the offset given no time zone is needed. -/
theorem C108_iso (ov : Overflow) (tz : ChopperTz chrono) (c : Clock) (o : Int) (text : Str) (ht : IsoClockText c o text) (hc : RealClock c) (loc : Int) (hloc : ClockSeconds c loc) :
    Follows ov (some ⟨loc - o, c.nanos⟩) (parseDatetimeRangeElement ov chrono tz text) ∧
    (0 ≤ loc - o → (loc - o) * 10 ^ 9 + c.nanos < 2 ^ 63 → ∃ ts : Nanos, parseDatetimeRangeElement ov chrono tz text = .ok ts ∧ (ts.toNat : Int) = (loc - o) * 10 ^ 9 + c.nanos) := by
  obtain ⟨y, hy, hy', _, _, _, hp⟩ := iso_text ht
  rw [toNaive_real hy hy' hc hloc] at hp
  have hd : ¬ (text.all isDigit = true) := by
    obtain ⟨td, tt, tf, to, _, _, _, _, rfl⟩ := ht
    rw [List.all_eq_true]
    intro h
    have := h 'T' (by simp)
    revert this; decide
  have e : parseDatetimeRangeElement ov chrono tz text = timestampNanos ov ⟨loc - o, c.nanos⟩ := by
    unfold parseDatetimeRangeElement
    rw [if_neg hd]
    unfold parseRangeDatetime
    have e : autocomplete false text = text := rfl
    simp only [e, hp, Option.map_some]
  rw [e]
  exact ⟨timestampNanos_follows ov _, fun h1 h2 => follows_exact (timestampNanos_follows ov _) h1 h2⟩

/-- **C108 (second 60).** A leap second is taken for the second after it. -/
theorem C108_leap_second (ov : Overflow) (tz : ChopperTz chrono) (c : Clock) (o : Int) (text : Str) (ht : IsoClockText c o text) (h1 : c.hour < 24) (h2 : c.minute < 60) (h3 : c.second = 60)
    (loc : Int) (hloc : ClockSeconds c loc) (hpos : 0 < loc - o) (hmax : (loc - o) * 10 ^ 9 + c.nanos < 2 ^ 63) :
    ∃ ts : Nanos, parseDatetimeRangeElement ov chrono tz text = .ok ts ∧ (ts.toNat : Int) = (loc - o) * 10 ^ 9 + c.nanos := by
  obtain ⟨y, hy, hy', _, _, _, hp⟩ := iso_text ht
  rw [toNaive_leap hy hy' (clockSeconds_real hloc) h1 h2 h3 hloc] at hp
  have hd : ¬ (text.all isDigit = true) := by
    obtain ⟨td, tt, tf, to, _, _, _, _, rfl⟩ := ht
    rw [List.all_eq_true]
    intro h
    have := h 'T' (by simp)
    revert this; decide
  have e : parseDatetimeRangeElement ov chrono tz text = timestampNanos ov ⟨loc - 1 - o, c.nanos + 1000000000⟩ := by
    unfold parseDatetimeRangeElement
    rw [if_neg hd]
    unfold parseRangeDatetime
    have e : autocomplete false text = text := rfl
    simp only [e, hp, Option.map_some]
  rw [e]
  have hns : Instant.ns ⟨loc - 1 - o, c.nanos + 1000000000⟩ = (loc - o) * 10 ^ 9 + c.nanos := by simp only [Instant.ns]; omega
  obtain ⟨ts, g1, g2⟩ := follows_exact (timestampNanos_follows ov ⟨loc - 1 - o, c.nanos + 1000000000⟩) (show 0 ≤ loc - 1 - o by omega) (by rw [hns]; exact hmax)
  exact ⟨ts, g1, by rw [g2, hns]⟩

/-- **C108 (impossible dates).** A date that does not exist, hour 24, minute 60 and second 61 are rejected, in every time zone. -/
theorem C108_impossible (ov : Overflow) (tz : ChopperTz chrono) (c : Clock) (text : Str) (ht : ClockText c text)
    (hc : ¬ RealDate c.date ∨ 24 ≤ c.hour ∨ 60 ≤ c.minute ∨ 61 ≤ c.second) : ∃ e, parseDatetimeRangeElement ov chrono tz text = .err e := by
  obtain ⟨y, hy, _, _, hr⟩ := range_clock ov tz ht
  rw [toNaive_unreal hy hc] at hr
  exact ⟨_, hr⟩

/-- **C108 (no time zone).** Without time zone a text without offset is rejected. -/
theorem C108_no_zone (ov : Overflow) (c : Clock) (text : Str) (ht : ClockText c text) : ∃ e, parseDatetimeRangeElement ov chrono none text = .err e := by
  obtain ⟨y, _, _, _, hr⟩ := range_clock ov none ht
  rw [hr]
  cases toNaive (clockParsed y c (some c.nanos)) with
  | none => exact ⟨_, rfl⟩
  | some n => exact ⟨_, rfl⟩

/-! ## Years, months and days -/

theorem digits_append {j k m n : Nat} {s t : Str} (h1 : HasDigits j m s) (h2 : HasDigits k n t) : HasDigits (j + k) (m * 10 ^ k + n) (s ++ t) := by
  refine ⟨by simp [h1.1, h2.1], fun c hc => ?_, by rw [decimalValue_append, h1.2.2, h2.2.2, h2.1]⟩
  rcases List.mem_append.1 hc with h | h
  · exact h1.2.1 c h
  · exact h2.2.1 c h

theorem digits_split {j k n : Nat} {s : Str} (h : HasDigits (j + k) n s) : HasDigits j (n / 10 ^ k) (s.take j) ∧ HasDigits k (n % 10 ^ k) (s.drop j) := by
  have hl := h.1
  have l1 : (s.take j).length = j := by rw [List.length_take]; omega
  have l2 : (s.drop j).length = k := by rw [List.length_drop]; omega
  have hv := decimalValue_append (s.take j) (s.drop j)
  rw [List.take_append_drop, h.2.2, l2] at hv
  have hlt := decimalValue_lt (s := s.drop j) fun c hc => h.2.1 c (List.mem_of_mem_drop hc)
  rw [l2] at hlt
  have hp : 0 < 10 ^ k := Nat.pow_pos (by decide)
  refine ⟨⟨l1, fun c hc => h.2.1 c (List.mem_of_mem_take hc), ?_⟩, l2, fun c hc => h.2.1 c (List.mem_of_mem_drop hc), ?_⟩
  · rw [hv, Nat.mul_comm, Nat.mul_add_div hp, Nat.div_eq_of_lt hlt, Nat.add_zero]
  · rw [hv, Nat.mul_comm, Nat.mul_add_mod, Nat.mod_eq_of_lt hlt]

theorem digits_two (n : Nat) (s : Str) (h : s = "01".toList ∧ n = 1 ∨ s = "00".toList ∧ n = 0) : HasDigits 2 n s := by
  rcases h with ⟨rfl, rfl⟩ | ⟨rfl, rfl⟩ <;> exact ⟨by decide, by decide, by decide⟩

/-- Midnight. -/
def midnight (d : Date) : Clock := ⟨d, 0, 0, 0, 0⟩

theorem midnight_text {d : Date} {y : Nat} {ty tm td : Str} (hy : d.year = y) (h1 : HasDigits 4 y ty) (h2 : HasDigits 2 d.month tm) (h3 : HasDigits 2 d.day td) :
    ClockText (midnight d) (ty ++ tm ++ td ++ "-00:00:00".toList) := by
  refine ⟨[], "-".toList, ":".toList, ty ++ tm ++ td, "00:00:00".toList, [], .inl rfl, .inr (.inl rfl), .inl rfl, ?_, ?_, .inl ⟨rfl, rfl⟩, by simp⟩
  · exact ⟨y, ty, tm, td, hy, h1, h2, h3, by simp⟩
  · exact ⟨"00".toList, "00".toList, "00".toList, digits_two _ _ (.inr ⟨rfl, rfl⟩), digits_two _ _ (.inr ⟨rfl, rfl⟩), digits_two _ _ (.inr ⟨rfl, rfl⟩), rfl⟩

theorem dayText_full (ov : Overflow) (lib : DateLib) (tz : ChopperTz lib) {d : Date} {t : Str} (h : DayText d t) : ∃ t', ClockText (midnight d) t' ∧
    parseDatetimeRangeElement ov lib tz t = parseDatetimeRangeElement ov lib tz t' := by
  have dig : ∀ {k n : Nat} {s : Str}, HasDigits (k + 1) n s → Digits s := fun h => ⟨fun e => by have := h.1; rw [e] at this; simp at this, h.2.1⟩
  have h01 := digits_two 1 "01".toList (.inl ⟨rfl, rfl⟩)
  cases h with
  | @year y t h =>
    refine ⟨_, midnight_text rfl h h01 h01, ?_⟩
    have := (C10_abbreviated ov lib tz t (dig h)).1 h.1
    rw [this]; congr 1; simp
  | @month y m ty tm h1 h2 =>
    have h := digits_append h1 h2
    refine ⟨_, midnight_text rfl h1 h2 h01, ?_⟩
    have := (C10_abbreviated ov lib tz (ty ++ tm) (dig h)).2.1 h.1
    rw [this]; congr 1; simp
  | @day y m d ty tm td h1 h2 h3 =>
    have h := digits_append (digits_append h1 h2) h3
    refine ⟨_, midnight_text rfl h1 h2 h3, ?_⟩
    have := (C10_abbreviated ov lib tz (ty ++ tm ++ td) (dig h)).2.2 h.1
    rw [this]

/-- **C108 (years, months, days).** `YYYY`, `YYYYMM`, `YYYYMMDD` mean the beginning of their first day in the time zone. -/
theorem C108_day (ov : Overflow) (z : TzSpans) (hz : InOrder z) (d : Date) (text : Str) (ht : DayText d text) :
    (∀ n t, DaysFrom1970 d n → OnlyTime z (n * 86400) t → 0 ≤ t → t * 10 ^ 9 < 2 ^ 63 →
      ∃ ts : Nanos, parseDatetimeRangeElement ov chrono (some z.fromLocal) text = .ok ts ∧ (ts.toNat : Int) = t * 10 ^ 9) ∧
    (∀ n, DaysFrom1970 d n → (∀ t, ¬ OnlyTime z (n * 86400) t) → ∃ e, parseDatetimeRangeElement ov chrono (some z.fromLocal) text = .err e) ∧
    (¬ RealDate d → ∃ e, parseDatetimeRangeElement ov chrono (some z.fromLocal) text = .err e) := by
  obtain ⟨t', h1, h2⟩ := dayText_full ov chrono (some z.fromLocal) ht
  rw [h2]
  have key : ∀ n, DaysFrom1970 d n → _ := fun n hn => C108_local ov z hz (midnight d) t' h1 ⟨daysFrom1970_real hn, show (0 : Nat) < 24 by decide, show (0 : Nat) < 60 by decide, show (0 : Nat) < 60 by decide⟩ (n * 86400)
    ⟨n, hn, by simp [midnight]⟩
  refine ⟨fun n t hn ho h3 h4 => ?_, fun n hn ho => (key n hn).2.2 ho, fun h => C108_impossible ov _ _ _ h1 (.inl h)⟩
  obtain ⟨ts, g1, g2⟩ := (key n hn).2.1 t ho h3 (by simp [midnight]; exact h4)
  exact ⟨ts, g1, by rw [g2]; simp [midnight]⟩

/-- **C108 (a period).** With begin and end given as years, months or days, in universal time, exactly the times of the days from the first of the one on and before the first
of the other are selected. -/
theorem C108_period (ov : Overflow) (b e : Date) (tb te : Str) (hb : DayText b tb) (he : DayText e te) (nb ne : Int) (hnb : DaysFrom1970 b nb) (hne : DaysFrom1970 e ne)
    (h0 : 0 ≤ nb) (h1 : nb ≤ 106751) (h2 : 0 ≤ ne) (h3 : ne ≤ 106751) :
    ∃ r, TimestampRange.new ov chrono (some utc.fromLocal) (some tb) (some te) = .ok r ∧ ∀ ts : Nanos, inRange r ts = true ↔ nb ≤ dayOf ts ∧ dayOf ts < ne := by
  obtain ⟨vb, b1, b2⟩ := (C108_day ov utc utc_ordered b tb hb).1 nb _ hnb ((utc_only _ _).2 rfl) (by omega) (by omega)
  obtain ⟨ve, e1, e2⟩ := (C108_day ov utc utc_ordered e te he).1 ne _ hne ((utc_only _ _).2 rfl) (by omega) (by omega)
  refine ⟨⟨some vb, some ve⟩, ?_, fun ts => ?_⟩
  · simp only [TimestampRange.new, rangeElement, b1, e1, Res.bind_ok]
  · simp only [inRange, notBefore, beforeEnd, Bool.and_eq_true, decide_eq_true_eq, dayOf, BitVec.le_def, BitVec.lt_def]
    omega

theorem month_start_le {d : Date} (hd : RealDate d) (y : Int) {m : Nat} (h1 : 1 ≤ m) (h2 : m ≤ 12) :
    dayNumber y m 1 ≤ dayNumber d.year d.month d.day ↔ y < d.year ∨ (y = d.year ∧ m ≤ d.month) := by
  have hs : RealDate ⟨y, m, 1⟩ := (realDate_iff _).2 ⟨h1, h2, by simp, by
    have : m = 1 ∨ m = 2 ∨ m = 3 ∨ m = 4 ∨ m = 5 ∨ m = 6 ∨ m = 7 ∨ m = 8 ∨ m = 9 ∨ m = 10 ∨ m = 11 ∨ m = 12 := by omega
    show 1 ≤ monthLen y m
    rcases this with e | e | e | e | e | e | e | e | e | e | e | e <;> rw [e] <;> simp [monthLen, monthLengths]
    split <;> decide⟩
  have ys := day_in_year hs
  have yd := day_in_year hd
  simp only at ys
  obtain ⟨d1, d2, d3, d4⟩ := (realDate_iff d).1 hd
  rcases Int.lt_trichotomy y d.year with hl | hl | hl
  · have := yearStart_mono hl
    exact ⟨fun _ => .inl hl, fun _ => by omega⟩
  · subst hl
    simp only [dayNumber_eq]
    constructor
    · intro h
      refine .inr ⟨trivial, ?_⟩
      rcases Nat.lt_or_ge d.month m with hm | hm
      · have := daysBefore_mono d.year d1 hm h2; omega
      · exact hm
    · rintro (h | ⟨_, h⟩)
      · omega
      · rcases Nat.lt_or_eq_of_le h with hm | hm
        · have := daysBefore_mono d.year h1 hm d2; omega
        · rw [hm]; omega
  · have := yearStart_mono hl
    constructor
    · intro h; omega
    · rintro (h | ⟨h, _⟩) <;> omega

/-- The number of the first day of a month. -/
theorem month_first (y : Int) {m : Nat} (h1 : 1 ≤ m) (h2 : m ≤ 12) : DaysFrom1970 ⟨y, m, 1⟩ (dayNumber y m 1) := by
  refine (daysFrom1970_iff _ _).2 ⟨(realDate_iff _).2 ⟨h1, h2, by simp, ?_⟩, rfl⟩
  have : m = 1 ∨ m = 2 ∨ m = 3 ∨ m = 4 ∨ m = 5 ∨ m = 6 ∨ m = 7 ∨ m = 8 ∨ m = 9 ∨ m = 10 ∨ m = 11 ∨ m = 12 := by omega
  show 1 ≤ monthLen y m
  rcases this with e | e | e | e | e | e | e | e | e | e | e | e <;> rw [e] <;> simp [monthLen, monthLengths]
  split <;> decide

theorem first_bounds {y m : Nat} (h1 : 1 ≤ m) (h2 : m ≤ 12) (hy : 1970 ≤ y) (hy' : y ≤ 2261) : 0 ≤ dayNumber y m 1 ∧ dayNumber y m 1 ≤ 106751 := by
  have h := month_first y h1 h2
  have hr := daysFrom1970_real h
  have hd := day_in_year hr
  simp only at hd
  have e1 : yearStart 1970 = 719528 := by decide +kernel
  have e2 : yearStart 2262 = 826179 := by decide +kernel
  have a1 : yearStart 1970 ≤ yearStart y := by
    rcases Nat.lt_or_eq_of_le hy with hlt | heq
    · have l1 := yearStart_mono (y := 1969) (y' := y) (by omega)
      exact l1
    · rw [← heq]; exact Int.le_refl _
  have a2 : yearStart (y + 1) ≤ yearStart 2262 := by
    have := yearStart_mono (y := y) (y' := 2262) (by omega)
    exact this
  omega

/-- **C108 (a year).** `--begin YYYY --end` the year after selects exactly the times of the year (universal time). -/
theorem C108_year (ov : Overflow) (y : Nat) (tb te : Str) (hb : HasDigits 4 y tb) (he : HasDigits 4 (y + 1) te) (h1 : 1970 ≤ y) (h2 : y ≤ 2260) :
    ∃ r, TimestampRange.new ov chrono (some utc.fromLocal) (some tb) (some te) = .ok r ∧
      ∀ (ts : Nanos) (d : Date), DaysFrom1970 d (dayOf ts) → (inRange r ts = true ↔ d.year = y) := by
  have b1 := first_bounds (y := y) (m := 1) (by omega) (by omega) h1 (by omega)
  have b2 := first_bounds (y := y + 1) (m := 1) (by omega) (by omega) (by omega) (by omega)
  obtain ⟨r, hr, hin⟩ := C108_period ov _ _ tb te (.year hb) (.year he) _ _ (month_first y (by omega) (by omega)) (month_first (y + 1 : Nat) (by omega) (by omega)) b1.1 b1.2 b2.1 b2.2
  refine ⟨r, hr, fun ts d hd => ?_⟩
  obtain ⟨hrd, hdn⟩ := (daysFrom1970_iff _ _).1 hd
  have s1 := month_start_le hrd (y : Int) (m := 1) (by omega) (by omega)
  have s2 := month_start_le hrd ((y + 1 : Nat) : Int) (m := 1) (by omega) (by omega)
  obtain ⟨d1, _⟩ := (realDate_iff d).1 hrd
  rw [hin, ← hdn, s1, ← Int.not_le (a := dayNumber _ _ 1), s2]
  omega

/-- **C108 (a month).** The same for a month and the month after. -/
theorem C108_month (ov : Overflow) (y m y' m' : Nat) (ty tm ty' tm' : Str) (hb1 : HasDigits 4 y ty) (hb2 : HasDigits 2 m tm) (he1 : HasDigits 4 y' ty') (he2 : HasDigits 2 m' tm')
    (hm : 1 ≤ m ∧ m ≤ 12) (hnext : (y' = y ∧ m' = m + 1 ∧ m < 12) ∨ (y' = y + 1 ∧ m' = 1 ∧ m = 12)) (h1 : 1970 ≤ y) (h2 : y ≤ 2260) :
    ∃ r, TimestampRange.new ov chrono (some utc.fromLocal) (some (ty ++ tm)) (some (ty' ++ tm')) = .ok r ∧
      ∀ (ts : Nanos) (d : Date), DaysFrom1970 d (dayOf ts) → (inRange r ts = true ↔ d.year = y ∧ d.month = m) := by
  have b1 := first_bounds (y := y) (m := m) hm.1 hm.2 h1 (by omega)
  have b2 := first_bounds (y := y') (m := m') (by omega) (by omega) (by omega) (by omega)
  obtain ⟨r, hr, hin⟩ := C108_period ov _ _ _ _ (.month hb1 hb2) (.month he1 he2) _ _ (month_first y hm.1 hm.2) (month_first y' (by omega) (by omega)) b1.1 b1.2 b2.1 b2.2
  refine ⟨r, hr, fun ts d hd => ?_⟩
  obtain ⟨hrd, hdn⟩ := (daysFrom1970_iff _ _).1 hd
  have s1 := month_start_le hrd (y : Int) hm.1 hm.2
  have s2 := month_start_le hrd (y' : Int) (m := m') (by omega) (by omega)
  obtain ⟨d1, d2, _⟩ := (realDate_iff d).1 hrd
  rw [hin, ← hdn, s1, ← Int.not_le (a := dayNumber _ _ 1), s2]
  omega

/-! ## Examples -/

/-- New York in 2018 and 2019. -/
def newYork : TzSpans := ⟨-18000, [(1520751600, -14400), (1541311200, -18000), (1552201200, -14400), (1572760800, -18000)]⟩

theorem newYork_ordered : InOrder newYork := by unfold InOrder newYork; decide

/-- The cases of the project's own test (`/repo/src/util/timestamp_util.rs:101-166`). -/
example : parseDatetimeRangeElement .panics chrono none "2001-07-08T00:34:60.026490+09:30".toList = .ok 994518300026490000 ∧
    parseDatetimeRangeElement .panics chrono none "2019-01-01T00:00:00.001000-05:00".toList = .ok 1546318800001000000 ∧
    parseDatetimeRangeElement .panics chrono (some utc.fromLocal) "2019".toList = .ok 1546300800000000000 ∧
    parseDatetimeRangeElement .panics chrono (some newYork.fromLocal) "2019".toList = .ok 1546318800000000000 ∧
    parseDatetimeRangeElement .panics chrono (some newYork.fromLocal) "20190101-00:00:00.000001".toList = .ok 1546318800000001000 := by
  refine ⟨?_, ?_, ?_, ?_, ?_⟩ <;> decide +kernel

/-- 29 February 2020 is a date and 30 February is none. -/
example : ∃ ts, parseDatetimeRangeElement .panics chrono (some utc.fromLocal) "20200229".toList = .ok ts ∧ (ts.toNat : Int) = 18321 * 86400 * 10 ^ 9 :=
  (C108_day .panics utc utc_ordered ⟨2020, 2, 29⟩ "20200229".toList
    (.day (y := 2020) (ty := "2020".toList) (tm := "02".toList) (td := "29".toList) ⟨by decide, by decide, by decide⟩ ⟨by decide, by decide, by decide⟩ ⟨by decide, by decide, by decide⟩)).1
    18321 _ ((daysFrom1970_iff _ _).2 ⟨⟨29, .leap (by unfold LeapYear; decide), by decide, by decide⟩, by decide +kernel⟩) ((utc_only _ _).2 rfl) (by omega) (by omega)
example : ∃ e, parseDatetimeRangeElement .panics chrono (some utc.fromLocal) "20200230".toList = .err e :=
  (C108_day .panics utc utc_ordered ⟨2020, 2, 30⟩ "20200230".toList
    (.day (y := 2020) (ty := "2020".toList) (tm := "02".toList) (td := "30".toList) ⟨by decide, by decide, by decide⟩ ⟨by decide, by decide, by decide⟩ ⟨by decide, by decide, by decide⟩)).2.2
    (by
      rintro ⟨l, hl, h1, h2⟩
      obtain ⟨_, _, rfl⟩ := (monthLength_iff _ _ _).1 hl
      revert h2
      simp only
      decide +kernel)

/-- An hour of the night when clocks were put back is rejected: there are two such times. -/
example : ∃ e, parseDatetimeRangeElement .panics chrono (some newYork.fromLocal) "2019-11-03 01:30:00".toList = .err e := by
  refine (C108_local .panics newYork newYork_ordered ⟨⟨2019, 11, 3⟩, 1, 30, 0, 0⟩ _ ?_ ?_ 1572744600 ?_).2.2 ?_
  · refine ⟨"-".toList, " ".toList, ":".toList, "2019-11-03".toList, "01:30:00".toList, [], .inr (.inr rfl), .inl rfl, .inl rfl, ?_, ?_, .inl ⟨rfl, rfl⟩, rfl⟩
    · exact ⟨2019, "2019".toList, "11".toList, "03".toList, rfl, ⟨by decide, by decide, by decide⟩, ⟨by decide, by decide, by decide⟩, ⟨by decide, by decide, by decide⟩, rfl⟩
    · exact ⟨"01".toList, "30".toList, "00".toList, ⟨by decide, by decide, by decide⟩, ⟨by decide, by decide, by decide⟩, ⟨by decide, by decide, by decide⟩, rfl⟩
  · exact ⟨⟨30, .short (by decide), by decide, by decide⟩, by decide, by decide, by decide⟩
  · exact ⟨18203, (daysFrom1970_iff _ _).2 ⟨⟨30, .short (by decide), by decide, by decide⟩, by decide +kernel⟩, by decide⟩
  · rintro t ⟨_, h⟩
    have h1 := h 1572759000 ⟨-14400, .since (i := 2) (c := (1552201200, -14400)) rfl (by decide) (by decide), by decide⟩
    have h2 := h 1572762600 ⟨-18000, .since (i := 3) (c := (1572760800, -18000)) rfl (by decide) (by decide), by decide⟩
    omega

/-- The year 2019. -/
example : ∃ r, TimestampRange.new .panics chrono (some utc.fromLocal) (some "2019".toList) (some "2020".toList) = .ok r ∧ ∀ (ts : Nanos) (d : Date), DaysFrom1970 d (dayOf ts) →
    (inRange r ts = true ↔ d.year = 2019) :=
  C108_year .panics 2019 _ _ ⟨by decide, by decide, by decide⟩ ⟨by decide, by decide, by decide⟩ (by decide) (by decide)

end Chopper.Props
