import Verif.Proofs.Timestamp

/-!
# Properties of timestamps: C09, C10, C11, C12, C13, C14, C15
-/
namespace Chopper.Props
open Chopper Spec

/-- A date library that knows nothing, for the examples. -/
def noLib : DateLib := ⟨Unit, fun _ _ => none, fun _ _ => none, fun _ _ => none⟩

/-! ### C09: epoch autodetection of begin/end values -/

/-- **C09 (exact, unambiguous).** Digits whose value lies in the window of a unit are read as exactly that many units, in every build and for
every date library and time zone; no other unit's window contains the value and the result lies in the nanosecond window. -/
theorem C09_epoch_exact (ov : Overflow) (lib : DateLib) (tz : ChopperTz lib) (s : Str) (u : TimestampUnits)
    (hd : Digits s) (hw : InWindow u (decimalValue s)) :
    (∃ ts : Nanos, parseDatetimeRangeElement ov lib tz s = .ok ts ∧ ts.toNat = decimalValue s * nanosPer u ∧ InWindow .nanos ts.toNat) ∧
    (∀ v, InWindow v (decimalValue s) → v = u) := by
  obtain ⟨h1, hlt⟩ := parse_window ov lib tz hd hw
  have hn : (BitVec.ofNat 64 (decimalValue s)).toNat = decimalValue s := by rw [BitVec.toNat_ofNat, Nat.mod_eq_of_lt hlt]
  have hb : (BitVec.ofNat 64 (decimalValue s)).toNat * nanosPer u < 2 ^ 64 := by rw [hn]; have := hw.2; omega
  obtain ⟨ts, h2, h3⟩ := scaleUnits_exact ov u _ hb
  rw [hn] at h3
  refine ⟨⟨ts, by rw [h1, h2], h3, ?_⟩, fun v hv => window_unique hv hw⟩
  rw [h3]
  have := hw
  unfold InWindow at *
  simp only [nanosPer, Nat.mul_one] at *
  exact this

/-- **C09 (same as CSV columns).** For such digits, as long as the date library does not read them as a date, automatic detection for a CSV
column picks that unit and converting the column value gives the same result. -/
theorem C09_same_as_csv (ov : Overflow) (lib : DateLib) (tz : ChopperTz lib) (s : Str) (u : TimestampUnits)
    (hd : Digits s) (hw : InWindow u (decimalValue s))
    (h1 : lib.parseTz "%+".toList s = none) (h2 : ∀ f ∈ oneColumnFormats, lib.parseNaive f s = none) (h3 : lib.parseDate "%Y%m%d".toList s = none) :
    getTimestampFmtAuto lib tz [s] none (.index 0) = .ok (.units u) ∧
    getTimestamp ov lib tz [s] (.index 0) (.units u) = parseDatetimeRangeElement ov lib tz s := by
  obtain ⟨h4, hlt⟩ := parse_window ov lib tz hd hw
  have hn : (BitVec.ofNat 64 (decimalValue s)).toNat = decimalValue s := by rw [BitVec.toNat_ofNat, Nat.mod_eq_of_lt hlt]
  have hp : parseU64 s = some (BitVec.ofNat 64 (decimalValue s)) := by rw [parseU64_digits hd, if_pos hlt]
  constructor
  · show detectFmt lib tz s = _
    have hno : ∀ fs : List Str, (∀ f ∈ fs, lib.parseNaive f s = none) → tryNaiveFormats lib tz s fs = none := by
      intro fs
      induction fs with
      | nil => intro _; rfl
      | cons f fs ih => intro h; simp only [tryNaiveFormats, h f (by simp)]; exact ih (fun g hg => h g (by simp [hg]))
    have hf : fmtDate = "%Y%m%d".toList := by decide
    unfold detectFmt
    rw [iso_eq, h1, show timeFormats = oneColumnFormats from by decide, hno _ h2, hf, h3]
    simp only [Option.isSome_none, Bool.false_eq_true, if_false]
    unfold detectUnits
    rw [if_pos (digits_all hd), hp]
    simp only
    obtain ⟨i1, i2, i3, i4⟩ := inRange_iff (BitVec.ofNat 64 (decimalValue s))
    rw [hn] at i1 i2 i3 i4
    have no : ∀ {v : TimestampUnits} {b : Bool}, (b = true ↔ InWindow v (decimalValue s)) → v ≠ u → ¬ (b = true) :=
      fun h hne hb => hne (window_unique (h.1 hb) hw)
    cases u
    · rw [if_neg (no i1 (by decide)), if_neg (no i2 (by decide)), if_neg (no i3 (by decide)), if_pos (i4.2 hw)]
    · rw [if_neg (no i1 (by decide)), if_neg (no i2 (by decide)), if_pos (i3.2 hw)]
    · rw [if_neg (no i1 (by decide)), if_pos (i2.2 hw)]
    · rw [if_pos (i1.2 hw)]
  · rw [h4]
    show convertTimestamp ov lib tz (.units u) s = _
    simp only [convertTimestamp, hp]

/-- **C09 (outside the windows).** Digits outside every window are never taken as an epoch value: if they are accepted at all then because the
date library reads the (completed) text as an instant, and the result is that instant. -/
theorem C09_outside_never_epoch (ov : Overflow) (lib : DateLib) (tz : ChopperTz lib) (s : Str) (ts : Nanos)
    (hd : Digits s) (hw : ∀ u, ¬ InWindow u (decimalValue s)) (h : parseDatetimeRangeElement ov lib tz s = .ok ts) :
    ∃ t i, (t = s ∨ (s.length = 4 ∧ t = s ++ "0101-00:00:00".toList) ∨ (s.length = 6 ∧ t = s ++ "01-00:00:00".toList) ∨
        (s.length = 8 ∧ t = s ++ "-00:00:00".toList)) ∧
      DateOutcome lib tz rangeFormats t (some i) ∧ (ts.toNat : Int) = i.ns % 2 ^ 64 := by
  have hlt : decimalValue s < 2 ^ 64 := by
    apply Classical.byContradiction
    intro hlt
    unfold parseDatetimeRangeElement at h
    rw [if_pos (digits_all hd), parseU64_digits hd, if_neg hlt] at h
    simp at h
  rw [parse_outside ov lib tz hd hw hlt] at h
  obtain ⟨o, h1, h2⟩ := parseRange_outcome ov lib tz true s
  rw [h] at h2
  cases o with
  | none => obtain ⟨e, h2⟩ := h2; simp at h2
  | some i =>
    rcases h2 with ⟨ts', h2, h3⟩ | ⟨_, h2, _⟩
    · cases h2
      refine ⟨_, i, ?_, h1, h3⟩
      have hlen : utf8Len s = s.length := utf8Len_digits hd
      unfold autocomplete
      rw [if_pos rfl, hlen]
      split
      · rename_i h4; exact .inr (.inl ⟨h4, by simp [str01, strMidnight]⟩)
      · split
        · rename_i h6; exact .inr (.inr (.inl ⟨h6, by simp [str01, strMidnight]⟩))
        · split
          · rename_i h8; exact .inr (.inr (.inr ⟨h8, by simp [strMidnight]⟩))
          · exact .inl rfl
    · simp at h2

/-- Corollary: with a date library that rejects everything, digits outside the windows are an error. -/
example (ov : Overflow) (tz : ChopperTz noLib) : parseDatetimeRangeElement ov noLib tz "12345678901".toList =
    .err (.custom "Cannot parse either begin or end datetime provided") := by
  cases tz <;> cases ov <;> rfl
example : InWindow .millis (decimalValue "1600000000000".toList) ∧ Digits "1600000000000".toList := by
  refine ⟨by unfold InWindow; decide +kernel, by decide, ?_⟩
  have : ∀ c ∈ "1600000000000".toList, isDigit c = true := by decide
  exact fun c hc => (isDigit_iff c).1 (this c hc)
example : ∀ u, ¬ InWindow u (decimalValue "20190101".toList) := by intro u; unfold InWindow; cases u <;> decide +kernel

/-! ### C10: abbreviated dates -/

/-- **C10 (completion).** `YYYY`, `YYYYMM`, `YYYYMMDD` give the result of the fully written text. -/
theorem C10_abbreviated (ov : Overflow) (lib : DateLib) (tz : ChopperTz lib) (s : Str) (hd : Digits s) :
    (s.length = 4 → parseDatetimeRangeElement ov lib tz s = parseDatetimeRangeElement ov lib tz (s ++ "0101-00:00:00".toList)) ∧
    (s.length = 6 → parseDatetimeRangeElement ov lib tz s = parseDatetimeRangeElement ov lib tz (s ++ "01-00:00:00".toList)) ∧
    (s.length = 8 → parseDatetimeRangeElement ov lib tz s = parseDatetimeRangeElement ov lib tz (s ++ "-00:00:00".toList)) := by
  have key : ∀ (w : Str), s.length ≤ 8 → '-' ∈ w → autocomplete true s = s ++ w →
      parseDatetimeRangeElement ov lib tz s = parseDatetimeRangeElement ov lib tz (s ++ w) := by
    intro w hl hm ha
    have hv := decimal_lt hd.2
    have hv2 : (10 : Nat) ^ s.length ≤ 10 ^ 8 := Nat.pow_le_pow_right (by decide) hl
    rw [parse_outside ov lib tz hd (by intro u; cases u <;> (simp only [InWindow, nanosPer]; omega)) (by omega)]
    have : ¬ ((s ++ w).all isDigit = true) := by
      rw [List.all_eq_true]
      intro h
      have := h '-' (List.mem_append_right _ hm)
      revert this; decide
    conv => rhs; unfold parseDatetimeRangeElement
    rw [if_neg this]
    unfold parseRangeDatetime
    rw [ha]
    simp only [autocomplete, Bool.false_eq_true, if_false]
  refine ⟨fun h => key _ (by omega) (by decide) ?_, fun h => key _ (by omega) (by decide) ?_, fun h => key _ (by omega) (by decide) ?_⟩ <;>
    rw [autocomplete_digits hd] <;> simp [h]

/-- **C10 (nothing else completed, all formats tried).** Every other text outside the epoch windows is read as it is: as `%+`, else with the
first of the listed formats that matches, else it is rejected.  (Texts of digits that exceed 64 bits are rejected as numbers.) -/
theorem C10_formats (ov : Overflow) (lib : DateLib) (tz : ChopperTz lib) (s : Str)
    (h : (∃ c ∈ s, isDigit c = false) ∨
      (Digits s ∧ decimalValue s < 2 ^ 64 ∧ (∀ u, ¬ InWindow u (decimalValue s)) ∧ s.length ≠ 4 ∧ s.length ≠ 6 ∧ s.length ≠ 8)) :
    ∃ o, DateOutcome lib tz rangeFormats s o ∧ Follows ov o (parseDatetimeRangeElement ov lib tz s) := by
  rcases h with ⟨c, hc, hn⟩ | ⟨hd, hlt, hw, h4, h6, h8⟩
  · have : ¬ (s.all isDigit = true) := by
      rw [List.all_eq_true]; intro h; rw [h c hc] at hn; simp at hn
    unfold parseDatetimeRangeElement
    rw [if_neg this]
    exact parseRange_outcome ov lib tz false s
  · rw [parse_outside ov lib tz hd hw hlt]
    have := parseRange_outcome ov lib tz true s
    rwa [autocomplete_digits hd, if_neg h4, if_neg h6, if_neg h8] at this

/-- **C10 (the formats).** The listed formats are exactly the 36 combinations of three date forms, three separators, two time forms and an
optional fraction. -/
theorem C10_format_list (f : Str) : (f ∈ rangeFormats ↔ IsRangeFormat f) ∧ rangeFormats.length = 36 := by
  refine ⟨?_, by decide⟩
  unfold rangeFormats IsRangeFormat
  simp only [List.mem_flatMap, List.mem_map, List.mem_cons, List.not_mem_nil, or_false]
  constructor
  · rintro ⟨d, hd, sep, hs, t, ht, fr, hf, rfl⟩
    exact ⟨d, sep, t, fr, rfl, hd, hs, ht, hf⟩
  · rintro ⟨d, sep, t, fr, rfl, hd, hs, ht, hf⟩
    exact ⟨d, hd, sep, hs, t, ht, fr, hf, rfl⟩

/-- A date library that reads one text, for the examples. -/
def oneLib (text : Str) : DateLib :=
  ⟨Unit, fun _ _ => none, fun f t => if f = "%Y%m%d-%H:%M:%S".toList ∧ t = text then some () else none, fun _ _ => none⟩

example : parseDatetimeRangeElement .panics (oneLib "20190101-00:00:00".toList) (some (fun _ => some ⟨1546300800, 0⟩)) "2019".toList =
    .ok 1546300800000000000 := by decide +kernel

/-! ### C11: explicit units -/

/-- The full property C11: a value in explicit units is converted exactly or not accepted. -/
def C11_full : Prop := ∀ (ov : Overflow) (lib : DateLib) (tz : ChopperTz lib) (u : TimestampUnits) (text : Str) (ts : Nanos),
  getTimestamp ov lib tz [text] (.index 0) (.units u) = .ok ts →
    ∃ t, (text = t ∨ text = '+' :: t) ∧ Digits t ∧ ts.toNat = decimalValue t * nanosPer u

/-- **C11, partial.** (1) A number whose value in nanoseconds fits 64 bits is converted exactly, in every build; (2) with overflow checks
whatever is accepted is exact; (3) without overflow checks whatever is accepted is exact modulo 2^64; (4) a text that is not a 64-bit number
is an error.  Missing: builds without overflow checks accept values that do not fit, see `C11_counterexample`. -/
theorem C11_units_partial (ov : Overflow) (lib : DateLib) (tz : ChopperTz lib) (u : TimestampUnits) (record : List Str) (i : Nat) (text : Str)
    (hrec : record[i]? = some text) :
    (∀ t, (text = t ∨ text = '+' :: t) → Digits t → decimalValue t * nanosPer u < 2 ^ 64 →
      ∃ ts : Nanos, getTimestamp ov lib tz record (.index i) (.units u) = .ok ts ∧ ts.toNat = decimalValue t * nanosPer u) ∧
    (∀ ts : Nanos, getTimestamp ov lib tz record (.index i) (.units u) = .ok ts →
      ∃ t, (text = t ∨ text = '+' :: t) ∧ Digits t ∧ ts.toNat = decimalValue t * nanosPer u % 2 ^ 64 ∧
        (ov = .panics → decimalValue t * nanosPer u < 2 ^ 64)) ∧
    ((¬ ∃ t, (text = t ∨ text = '+' :: t) ∧ Digits t ∧ decimalValue t < 2 ^ 64) →
      ∃ e, getTimestamp ov lib tz record (.index i) (.units u) = .err e) := by
  have e0 : getTimestamp ov lib tz record (.index i) (.units u) = convertTimestamp ov lib tz (.units u) text := by
    simp [getTimestamp, getTimestampString, hrec]
  rw [e0]
  have hpos : 1 ≤ nanosPer u := by cases u <;> decide
  refine ⟨?_, ?_, ?_⟩
  · intro t ht hd hb
    have hlt : decimalValue t < 2 ^ 64 := Nat.lt_of_le_of_lt (Nat.le_mul_of_pos_right _ hpos) hb
    have hp : parseU64 text = some (BitVec.ofNat 64 (decimalValue t)) :=
      (parseU64_iff text _).2 ⟨t, ht, hd, hlt, by rw [BitVec.toNat_ofNat, Nat.mod_eq_of_lt hlt]⟩
    simp only [convertTimestamp, hp]
    have hn : (BitVec.ofNat 64 (decimalValue t)).toNat = decimalValue t := by rw [BitVec.toNat_ofNat, Nat.mod_eq_of_lt hlt]
    have := scaleUnits_exact ov u (BitVec.ofNat 64 (decimalValue t)) (by rw [hn]; exact hb)
    rwa [hn] at this
  · intro ts h
    simp only [convertTimestamp] at h
    cases hp : parseU64 text with
    | none => rw [hp] at h; simp at h
    | some n =>
      rw [hp] at h
      simp only at h
      obtain ⟨t, ht, hd, hlt, hn⟩ := (parseU64_iff text n).1 hp
      have hex : ts.toNat = n.toNat * nanosPer u % 2 ^ 64 := by
        have hm : ∀ k, k < 2 ^ 64 → mulU64 ov n k = .ok ts → ts.toNat = n.toNat * k % 2 ^ 64 := by
          intro k hk hm
          have : ts = n * BitVec.ofNat 64 k := by
            unfold mulU64 at hm
            cases ov
            · simp only at hm; split at hm
              · simpa using hm.symm
              · simp at hm
            · simpa using hm.symm
          rw [this, BitVec.toNat_mul, BitVec.toNat_ofNat, Nat.mod_eq_of_lt hk]
        cases u
        · exact hm _ (by decide) h
        · exact hm _ (by decide) h
        · exact hm _ (by decide) h
        · have h' : n = ts := by simpa [scaleUnits] using h
          subst h'; simp only [nanosPer, Nat.mul_one]; rw [Nat.mod_eq_of_lt n.isLt]
      refine ⟨t, ht, hd, by rw [hex, hn], ?_⟩
      rintro rfl
      rw [← hn]; exact scaleUnits_panics h
  · intro hno
    cases hp : parseU64 text with
    | none => exact ⟨_, by simp only [convertTimestamp, hp]; rfl⟩
    | some n =>
      obtain ⟨t, ht, hd, hlt, hn⟩ := (parseU64_iff text n).1 hp
      exact absurd ⟨t, ht, hd, hlt⟩ hno

/-- **C11 is false of builds without overflow checks**: 18446744074 s (year 2554) is accepted as about 0.29 s after 1970. -/
theorem C11_counterexample : ¬ C11_full := by
  intro h
  obtain ⟨t, ht, hd, hv⟩ := h .wraps noLib none .seconds "18446744074".toList 290448384 (by decide +kernel)
  rcases ht with rfl | ht
  · revert hv; decide +kernel
  · have : "18446744074".toList.head? = some '+' := by rw [ht]; rfl
    revert this; decide

example : getTimestamp .wraps noLib none ["x".toList, "1600000000".toList] (.index 1) (.units .seconds) = .ok 1600000000000000000 := by decide +kernel
example : getTimestamp .panics noLib none ["18446744074".toList] (.index 0) (.units .seconds) = .panic := by decide +kernel

/-! ### C12: chronological order -/

/-- The full property C12: an earlier instant has a smaller row timestamp. -/
def C12_full : Prop := ∀ (ov : Overflow) (lib : DateLib) (tz : ChopperTz lib) (fmt : TimestampFmt) (ra rb : List Str) (col : TimestampCol)
    (a b : Str) (ia ib : Instant) (ta tb : Nanos), ColText ra col a → ColText rb col b →
  DenotesInstant lib tz fmt a ia → DenotesInstant lib tz fmt b ib → ia.ns < ib.ns →
  getTimestamp ov lib tz ra col fmt = .ok ta → getTimestamp ov lib tz rb col fmt = .ok tb → ta.toNat < tb.toNat

/-- **C12 (conversion).** A text denoting an instant is converted to the nanoseconds of the instant (modulo 2^64), or, with overflow checks
only, panics when these exceed 64-bit signed range; a text that denotes none with the format gives an error. -/
theorem C12_conversion (ov : Overflow) (lib : DateLib) (tz : ChopperTz lib) (fmt : TimestampFmt) (record : List Str) (col : TimestampCol)
    (text : Str) (hc : ColText record col text) (hf : ∀ u, fmt ≠ .units u) :
    (∀ i, DenotesInstant lib tz fmt text i → Follows ov (some i) (getTimestamp ov lib tz record col fmt)) ∧
    ((¬ ∃ i, DenotesInstant lib tz fmt text i) → ∃ e, getTimestamp ov lib tz record col fmt = .err e) := by
  have e0 : getTimestamp ov lib tz record col fmt = convertTimestamp ov lib tz fmt text := by
    cases hc with
    | one h => simp [getTimestamp, getTimestampString, h]
    | two h1 h2 => simp [getTimestamp, getTimestampString, h1, h2]
  rw [e0]
  constructor
  · intro i h
    cases h with
    | includesTz h => simp only [convertTimestamp, h]; exact timestampNanos_follows ov i
    | needsTz h1 h2 h3 =>
      subst h2
      have := timestampNanos_follows ov i
      simpa [convertTimestamp, h1, h3, Res.okOr, fromLocalDatetime] using this
    | date h1 h2 h3 =>
      subst h2
      have := timestampNanos_follows ov i
      simpa [convertTimestamp, h1, h3, Res.okOr, fromLocalDatetime] using this
  · intro h
    cases fmt with
    | units u => exact absurd rfl (hf u)
    | dateTimeIncludesTz f =>
      cases hp : lib.parseTz f text with
      | none => simp [convertTimestamp, hp, Res.okOr]
      | some i => exact absurd ⟨i, .includesTz hp⟩ h
    | dateTimeNeedsExternalTz f =>
      cases hp : lib.parseNaive f text with
      | none => simp [convertTimestamp, hp, Res.okOr]
      | some x =>
        cases tz with
        | none => simp [convertTimestamp, hp, Res.okOr, fromLocalDatetime]
        | some zone =>
          cases hz : zone x with
          | none => simp [convertTimestamp, hp, Res.okOr, fromLocalDatetime, hz]
          | some i => exact absurd ⟨i, .needsTz hp rfl hz⟩ h
    | dateNeedsExternalTz f =>
      cases hp : lib.parseDate f text with
      | none => simp [convertTimestamp, hp, Res.okOr]
      | some x =>
        cases tz with
        | none => simp [convertTimestamp, hp, Res.okOr, fromLocalDatetime]
        | some zone =>
          cases hz : zone x with
          | none => simp [convertTimestamp, hp, Res.okOr, fromLocalDatetime, hz]
          | some i => exact absurd ⟨i, .date hp rfl hz⟩ h

/-- **C12, partial.** From 1970 until 2^64 ns later an earlier instant has a smaller row timestamp.  Missing: instants before 1970 (and after
2554), for which it is false, see `C12_counterexample`. -/
theorem C12_order_partial (ov : Overflow) (lib : DateLib) (tz : ChopperTz lib) (fmt : TimestampFmt) (ra rb : List Str) (col : TimestampCol) (a b : Str)
    (ia ib : Instant) (ta tb : Nanos) (hca : ColText ra col a) (hcb : ColText rb col b) (ha : DenotesInstant lib tz fmt a ia) (hb : DenotesInstant lib tz fmt b ib) (hlt : ia.ns < ib.ns) (h0 : 0 ≤ ia.ns) (h1 : ib.ns < 2 ^ 64)
    (hta : getTimestamp ov lib tz ra col fmt = .ok ta) (htb : getTimestamp ov lib tz rb col fmt = .ok tb) :
    (ta.toNat : Int) = ia.ns ∧ (tb.toNat : Int) = ib.ns ∧ ta.toNat < tb.toNat := by
  have hf : ∀ u, fmt ≠ .units u := by rintro u rfl; cases ha
  have fa := (C12_conversion ov lib tz fmt ra col a hca hf).1 ia ha
  have fb := (C12_conversion ov lib tz fmt rb col b hcb hf).1 ib hb
  rw [hta] at fa; rw [htb] at fb
  rcases fa with ⟨x, hx, ex⟩ | ⟨_, hx, _⟩
  · rcases fb with ⟨y, hy, ey⟩ | ⟨_, hy, _⟩
    · cases hx; cases hy; omega
    · simp at hy
  · simp at hx

/-- A date library that reads "a" as one second before 1970 and "b" as 1970. -/
def negLib : DateLib :=
  ⟨Unit, fun _ t => if t = ['a'] then some ⟨-1, 0⟩ else if t = ['b'] then some ⟨0, 0⟩ else if t = ['c'] then some ⟨5, 7⟩ else none, fun _ _ => none, fun _ _ => none⟩

/-- **C12 is false of the code** for instants before 1970: they get huge timestamps. -/
theorem C12_counterexample : ¬ C12_full := by
  intro h
  have := h .panics negLib none (.dateTimeIncludesTz "%+".toList) [['a']] [['b']] (.index 0) ['a'] ['b'] ⟨-1, 0⟩ ⟨0, 0⟩ 18446744072709551616 0
    (.one rfl) (.one rfl) (.includesTz (by decide +kernel)) (.includesTz (by decide +kernel)) (by decide +kernel) (by decide +kernel) (by decide +kernel)
  revert this
  decide +kernel

example : DenotesInstant negLib none (.dateTimeIncludesTz "%+".toList) ['b'] ⟨0, 0⟩ ∧
    DenotesInstant negLib none (.dateTimeIncludesTz "%+".toList) ['c'] ⟨5, 7⟩ ∧
    getTimestamp .panics negLib none [['c']] (.index 0) (.dateTimeIncludesTz "%+".toList) = .ok 5000000007 :=
  ⟨.includesTz (by decide +kernel), .includesTz (by decide +kernel), by decide +kernel⟩

/-! ### C13: the timestamp column -/

/-- **C13.** Automatic column selection always answers, and with exactly the choice of the documented rules (`Spec.Chosen`) on the lower-cased
names. -/
theorem C13_chosen (lower : Str → Str) (names : List Str) (c : TimestampCol) (hint : Option TimestampUnits) :
    getTimestampCol lower names .auto = .ok (c, hint) ↔ Chosen (names.map lower) c hint := by
  have hd := decide_chosen (names.map lower)
  simp only [getTimestampCol, Res.ok.injEq]
  constructor
  · intro h; rw [h] at hd; exact hd
  · intro h
    exact chosen_decide h

/-- **C13 (existing column).** If there is a column at all, the selected columns exist. -/
theorem C13_exists (lower : Str → Str) (names : List Str) (hne : names ≠ []) (c : TimestampCol) (hint : Option TimestampUnits)
    (h : getTimestampCol lower names .auto = .ok (c, hint)) :
    (∀ i, c = .index i → i < names.length) ∧ (∀ d t, c = .dateTimeIndex d t → d < names.length ∧ t < names.length) := by
  rw [C13_chosen] at h
  have lt : ∀ {P : Str → Prop} {i : Nat}, Leftmost P (names.map lower) i → i < names.length := by
    rintro P i ⟨⟨n, h1, _⟩, _⟩
    have := (List.getElem?_eq_some_iff.1 h1).1
    simpa using this
  have h0 : 0 < names.length := by cases names with
    | nil => exact absurd rfl hne
    | cons _ _ => simp
  constructor
  · rintro i rfl
    cases h <;> first | exact lt ‹_› | exact h0
  · rintro d t rfl
    cases h <;> exact ⟨lt ‹_›, lt ‹_›⟩

/-- **C13 (explicit columns).** A column given by name is the first with exactly that name, and an error if there is none. -/
theorem C13_by_name (lower : Str → Str) (names : List Str) (n : Str) :
    (∀ c hint, getTimestampCol lower names (.name n) = .ok (c, hint) → ∃ i, c = .index i ∧ Leftmost (· = n) names i) ∧
    (n ∉ names → ∃ e, getTimestampCol lower names (.name n) = .err e) ∧
    (n ∈ names → ∃ r, getTimestampCol lower names (.name n) = .ok r) := by
  simp only [getTimestampCol, getFieldIndex]
  cases h : names.findIdx? (fun s => s == n) with
  | none =>
    rw [List.findIdx?_eq_none_iff] at h
    refine ⟨by intro c hint h; simp [Res.okOr] at h, fun _ => ⟨_, rfl⟩, ?_⟩
    intro hm
    have := h n hm
    simp at this
  | some i =>
    rw [List.findIdx?_eq_some_iff_getElem] at h
    obtain ⟨h1, h2, h3⟩ := h
    refine ⟨?_, ?_, fun _ => ⟨_, rfl⟩⟩
    · intro c hint hc
      simp only [Res.okOr, Res.bind_ok, Res.ok.injEq, Prod.mk.injEq] at hc
      refine ⟨i, hc.1.symm, ⟨names[i], by rw [List.getElem?_eq_getElem h1], by simpa using h2⟩, ?_⟩
      intro j m hj hm e
      have := h3 j hj
      obtain ⟨hj', em⟩ := List.getElem?_eq_some_iff.1 hm
      rw [em, e] at this
      simp at this
    · intro hno
      exfalso
      apply hno
      rw [← (by simpa using h2 : names[i] = n)]
      exact List.getElem_mem h1

example : getTimestampCol id ["x".toList, "opentime".toList, "opendate".toList, "closedate".toList] .auto = .ok (.dateTimeIndex 2 1, none) := by decide +kernel
example : getTimestampCol id ["x".toList, "time".toList, "timemillis".toList] .auto = .ok (.index 2, some .millis) := by decide +kernel
example : getTimestampCol id ["a".toList, "mytimenanos".toList] .auto = .ok (.index 1, some .nanos) := by decide +kernel

/-! ### C14: format detection -/

/-- **C14.** Without a unit known from the column name, whenever column and format were determined from the first row - automatically or with a
format given by the user - that row has a timestamp text, and converting it with the determined column and format does what the detection saw:
either the text denotes an instant and the conversion gives it (the only other outcome being, with overflow checks, the panic for instants
outside 64-bit range), or (automatic format only) it is a number in the window of the determined unit and the conversion gives exactly value
times unit. -/
theorem C14_detected_format_parses (ov : Overflow) (lower : Str → Str) (lib : DateLib) (tz : ChopperTz lib) (names firstRow : List Str)
    (colCfg : TimestampColConfig) (fmtCfg : TimestampFmtConfig) (col : TimestampCol) (fmt : TimestampFmt)
    (hcol : getTimestampCol lower names colCfg = .ok (col, none)) (hcfg : ∀ u, fmtCfg ≠ .epoch u)
    (h : getTimestampColAndFmt lower lib tz names firstRow colCfg fmtCfg = .ok (col, fmt)) :
    ∃ text, ColText firstRow col text ∧
      ((∃ i, DenotesInstant lib tz fmt text i ∧ Follows ov (some i) (getTimestamp ov lib tz firstRow col fmt)) ∨
       (fmtCfg = .auto ∧ ∃ u, fmt = .units u ∧ Digits text ∧ InWindow u (decimalValue text) ∧
          ∃ ts : Nanos, getTimestamp ov lib tz firstRow col fmt = .ok ts ∧ ts.toNat = decimalValue text * nanosPer u)) := by
  -- conversions of texts
  have conv : ∀ {text i}, getTimestampString firstRow col = .ok text → DenotesInstant lib tz fmt text i →
      Follows ov (some i) (getTimestamp ov lib tz firstRow col fmt) := by
    intro text i ht hi
    have hf : ∀ u, fmt ≠ .units u := by rintro u rfl; cases hi
    have := (C12_conversion ov lib tz fmt [text] (.index 0) text (.one rfl) hf).1 i hi
    have e : getTimestamp ov lib tz firstRow col fmt = getTimestamp ov lib tz [text] (.index 0) fmt := by
      simp only [getTimestamp, ht]; rfl
    rw [e]; exact this
  have naive : ∀ {text : Str} {fs : List Str} {r : Res TimestampFmt}, tryNaiveFormats lib tz text fs = some r → r = .ok fmt →
      ∃ i, DenotesInstant lib tz fmt text i := by
    intro text fs
    induction fs with
    | nil => intro r h; simp [tryNaiveFormats] at h
    | cons f fs ih =>
      intro r h hr
      simp only [tryNaiveFormats] at h
      cases hp : lib.parseNaive f text with
      | none => rw [hp] at h; exact ih h hr
      | some x =>
        rw [hp] at h
        simp only [Option.some.injEq] at h
        subst h
        rw [Res.bind_eq_ok] at hr
        obtain ⟨i, h1, h2⟩ := hr
        cases h2
        obtain ⟨zone, h3, h4⟩ := fromLocal_ok h1
        exact ⟨i, .needsTz hp h3 h4⟩
  have str : ∀ {text}, getTimestampString firstRow col = .ok text → ColText firstRow col text := by
    intro text ht
    cases col with
    | index i =>
      simp only [getTimestampString] at ht
      cases hr : firstRow[i]? with
      | none => rw [hr] at ht; simp at ht
      | some t => rw [hr] at ht; simp at ht; subst ht; exact .one hr
    | dateTimeIndex d t =>
      simp only [getTimestampString] at ht
      cases hr : firstRow[d]? with
      | none => rw [hr] at ht; simp at ht
      | some a =>
        cases hr2 : firstRow[t]? with
        | none => rw [hr, hr2] at ht; simp at ht
        | some b =>
          rw [hr, hr2] at ht; simp at ht; subst ht
          have : a ++ '#' :: b = a ++ "#".toList ++ b := by simp
          rw [this]; exact .two hr hr2
  unfold getTimestampColAndFmt at h
  rw [hcol] at h
  simp only [Res.bind_ok] at h
  rw [Res.bind_eq_ok] at h
  obtain ⟨fmt', h, he⟩ := h
  simp only [Res.ok.injEq, Prod.mk.injEq, true_and] at he
  subst he
  have user : ∀ f, getTimestampFmtFromUserSpec lib tz firstRow col f = .ok fmt' → ∃ text, ColText firstRow col text ∧
      ∃ i, DenotesInstant lib tz fmt' text i ∧ Follows ov (some i) (getTimestamp ov lib tz firstRow col fmt') := by
    intro f h
    unfold getTimestampFmtFromUserSpec at h
    rw [Res.bind_eq_ok] at h
    obtain ⟨text, ht, h⟩ := h
    refine ⟨text, str ht, ?_⟩
    suffices hi : ∃ i, DenotesInstant lib tz fmt' text i by obtain ⟨i, hi⟩ := hi; exact ⟨i, hi, conv ht hi⟩
    cases hp : lib.parseTz f text with
    | some i =>
      rw [hp] at h
      simp at h
      subst h
      exact ⟨i, .includesTz hp⟩
    | none =>
      rw [hp] at h
      simp only [Option.isSome_none, Bool.false_eq_true, if_false] at h
      cases hn : lib.parseNaive f text with
      | some x =>
        simp only [hn] at h
        rw [Res.bind_eq_ok] at h
        obtain ⟨i, h1, h2⟩ := h
        cases h2
        obtain ⟨zone, h3, h4⟩ := fromLocal_ok h1
        exact ⟨i, .needsTz hn h3 h4⟩
      | none =>
        simp only [hn] at h
        cases hd : lib.parseDate f text with
        | none => simp [hd] at h
        | some x =>
          simp only [hd] at h
          rw [Res.bind_eq_ok] at h
          obtain ⟨i, h1, h2⟩ := h
          cases h2
          obtain ⟨zone, h3, h4⟩ := fromLocal_ok h1
          exact ⟨i, .date hd h3 h4⟩
  cases fmtCfg with
  | epoch u => exact absurd rfl (hcfg u)
  | explicit f => obtain ⟨text, a, b⟩ := user _ h; exact ⟨text, a, .inl b⟩
  | dateTimeExplicit d t => obtain ⟨text, a, b⟩ := user _ h; exact ⟨text, a, .inl b⟩
  | auto =>
    simp only at h
    cases col with
    | dateTimeIndex d t =>
      simp only [getTimestampFmtAuto] at h
      rw [Res.bind_eq_ok] at h
      obtain ⟨a, ha, h⟩ := h
      rw [Res.bind_eq_ok] at h
      obtain ⟨b, hb, h⟩ := h
      have ht : getTimestampString firstRow (.dateTimeIndex d t) = .ok (a ++ '#' :: b) := by simp [getTimestampString, ha, hb]
      refine ⟨_, str ht, .inl ?_⟩
      cases hr : tryNaiveFormats lib tz (a ++ '#' :: b) dateTimeFormats with
      | none => rw [hr] at h; simp at h
      | some r =>
        rw [hr] at h
        obtain ⟨i, hi⟩ := naive hr h
        exact ⟨i, hi, conv ht hi⟩
    | index t =>
      simp only [getTimestampFmtAuto] at h
      rw [Res.bind_eq_ok] at h
      obtain ⟨text, ht, h⟩ := h
      have ht : getTimestampString firstRow (.index t) = .ok text := ht
      refine ⟨text, str ht, ?_⟩
      unfold detectFmt at h
      cases hp : lib.parseTz fmtIso text with
      | some i =>
        rw [hp] at h
        simp at h
        subst h
        exact .inl ⟨i, .includesTz hp, conv ht (.includesTz hp)⟩
      | none =>
        rw [hp] at h
        simp only [Option.isSome_none, Bool.false_eq_true, if_false] at h
        cases hr : tryNaiveFormats lib tz text timeFormats with
        | some r =>
          simp only [hr] at h
          obtain ⟨i, hi⟩ := naive hr h
          exact .inl ⟨i, hi, conv ht hi⟩
        | none =>
          simp only [hr] at h
          cases hd : lib.parseDate fmtDate text with
          | some x =>
            simp only [hd] at h
            rw [Res.bind_eq_ok] at h
            obtain ⟨i, h1, h2⟩ := h
            cases h2
            obtain ⟨zone, h3, h4⟩ := fromLocal_ok h1
            exact .inl ⟨i, .date hd h3 h4, conv ht (.date hd h3 h4)⟩
          | none =>
            simp only [hd] at h
            obtain ⟨u, rfl, h1, h2⟩ := detectUnits_ok h
            obtain ⟨⟨ts, h3, h4, _⟩, _⟩ := C09_epoch_exact ov lib tz text u h1 h2
            obtain ⟨h5, hlt⟩ := parse_window ov lib tz h1 h2
            refine .inr ⟨rfl, u, rfl, h1, h2, ts, ?_, h4⟩
            rw [← h3, h5]
            simp [getTimestamp, ht, convertTimestamp, parseU64_digits h1, hlt]

example : getTimestampColAndFmt id noLib none ["a".toList, "mytime".toList] ["x".toList, "1600000000".toList] .auto .auto = .ok (.index 1, .units .seconds) ∧
    getTimestampCol id ["a".toList, "mytime".toList] .auto = .ok (.index 1, none) := by decide +kernel
example : getTimestampColAndFmt id negLib none ["time".toList] ["c".toList] .auto .auto = .ok (.index 0, .dateTimeIncludesTz "%+".toList) := by decide +kernel

/-! ### C15: printing -/

/-- **C15 (floor).** The printed text is the decimal number `floor(timestamp / unit)`, without leading zeros. -/
theorem C15_prints_floor (u : TimestampUnits) (ts : Nanos) :
    Digits (epochText u ts) ∧ decimalValue (epochText u ts) = ts.toNat / nanosPer u ∧
    (∀ c, (epochText u ts).head? = some c → c = '0' → epochText u ts = "0".toList) := by
  rw [epochText_eq]
  obtain ⟨h1, h2⟩ := natToStr_spec (ts.toNat / nanosPer u)
  refine ⟨h1, h2, ?_⟩
  rintro c hc rfl
  exact natToStr_zero hc

/-- **C15 (reading back).** Reading the printed text as a CSV timestamp in the same unit gives the timestamp rounded down to the unit, in every
build. -/
theorem C15_reads_back (ov : Overflow) (lib : DateLib) (tz : ChopperTz lib) (u : TimestampUnits) (ts : Nanos) :
    ∃ r : Nanos, getTimestamp ov lib tz [epochText u ts] (.index 0) (.units u) = .ok r ∧ r.toNat = ts.toNat / nanosPer u * nanosPer u ∧
      r.toNat ≤ ts.toNat ∧ ts.toNat < r.toNat + nanosPer u := by
  obtain ⟨h1, h2, _⟩ := C15_prints_floor u ts
  have hpos : 0 < nanosPer u := by cases u <;> decide
  have hle : ts.toNat / nanosPer u * nanosPer u ≤ ts.toNat := Nat.div_mul_le_self _ _
  have hlt := ts.isLt
  obtain ⟨r, h3, h4⟩ := (C11_units_partial ov lib tz u [epochText u ts] 0 (epochText u ts) rfl).1 _ (.inl rfl) h1 (by rw [h2]; omega)
  rw [h2] at h4
  refine ⟨r, h3, h4, by omega, ?_⟩
  rw [h4]
  have := Nat.div_add_mod ts.toNat (nanosPer u)
  have := Nat.mod_lt ts.toNat hpos
  rw [Nat.mul_comm]
  omega

/-- **C15 (injective up to the unit).** Timestamps a unit or more apart never print the same text; in nanoseconds no two timestamps do. -/
theorem C15_distinct (u : TimestampUnits) (a b : Nanos) (h : a.toNat + nanosPer u ≤ b.toNat) : epochText u a ≠ epochText u b := by
  intro e
  have h1 := (C15_prints_floor u a).2.1
  have h2 := (C15_prints_floor u b).2.1
  rw [e, h2] at h1
  have hpos : 0 < nanosPer u := by cases u <;> decide
  have : (a.toNat + nanosPer u) / nanosPer u ≤ b.toNat / nanosPer u := Nat.div_le_div_right h
  rw [Nat.add_div_right _ hpos] at this
  omega

/-- **C15 (split).** The seconds and nanoseconds handed to the date library for human readable output denote exactly the timestamp. -/
theorem C15_split (ts : Nanos) : (splitTimestamp ts).1 * 10 ^ 9 + (splitTimestamp ts).2 = ts.toNat ∧ (splitTimestamp ts).2 < 10 ^ 9 ∧ 0 ≤ (splitTimestamp ts).1 := by
  unfold splitTimestamp
  have hlt := ts.isLt
  have e1 : (ts / 1000000000 : Nanos).toNat = ts.toNat / 1000000000 := by rw [BitVec.toNat_udiv]; rfl
  have e2 : (ts % 1000000000 : Nanos).toNat = ts.toNat % 1000000000 := by rw [BitVec.toNat_umod]; rfl
  have e3 : (ts / 1000000000 : Nanos).toInt = (ts.toNat / 1000000000 : Nat) := by
    rw [BitVec.toInt_eq_toNat_of_lt (by rw [e1]; omega), e1]
  have e4 : ((ts % 1000000000 : Nanos).setWidth 32).toNat = ts.toNat % 1000000000 := by
    rw [BitVec.toNat_setWidth, e2]; omega
  simp only [e3, e4]
  have : (10 : Int) ^ 9 = 1000000000 := rfl
  rw [this]
  omega

example : epochText .millis 1600000000123456789 = "1600000000123".toList := by decide +kernel
example : splitTimestamp 1600000000123456789 = (1600000000, 123456789) := by decide +kernel
example : (5 : Nanos).toNat + nanosPer .micros ≤ (1005 : Nanos).toNat := by decide

end Chopper.Props
