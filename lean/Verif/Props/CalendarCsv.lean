import Verif.Proofs.ChronoRender
import Verif.Props.Calendar
import Verif.Props.CsvIso

/-!
# C109: human readable times in CSV, in terms of the calendar
-/
namespace Chopper.Props
open Chopper Spec Chrono

/-- **C109 (what is printed).** The time printed is what a clock in the time zone shows, cut off at the unit, with the offset of the zone (in hours and minutes). -/
theorem C109_text (z : TzSpans) (hz : InOrder z) (u : TimestampUnits) (ts : Nanos) (o : Int) (ho : OffsetIs z (ts.toNat / 10 ^ 9 : Nat) o) (h1 : -86400 < o) (h2 : o < 86400) :
    ∃ c, RealClock c ∧ ClockSeconds c ((ts.toNat / 10 ^ 9 : Nat) + o) ∧ c.nanos = ts.toNat % 10 ^ 9 / nanosPer u * nanosPer u ∧
      IsoClockText c (o.tdiv 60 * 60) (isoText z.render u ts) :=
  ⟨_, clockOf_real _ _, clockOf_seconds _ _, rfl, isoText_clock hz u ts ho h1 h2⟩

theorem iso_reads {c : Clock} {o loc : Int} {t : Str} (h : IsoClockText c o t) (hc : RealClock c) (hs : ClockSeconds c loc) :
    chrono.parseTz fmtIso t = some ⟨loc - o, c.nanos⟩ ∧ c.nanos < 10 ^ 9 := by
  obtain ⟨y, h1, h2, h3, h4, h5, h6⟩ := iso_text h
  rw [h6, toNaive_real h1 h2 hc hs]
  exact ⟨rfl, h5⟩

theorem units_split (u : TimestampUnits) (n : Nat) : n / 10 ^ 9 * 10 ^ 9 + n % 10 ^ 9 / nanosPer u * nanosPer u = n / nanosPer u * nanosPer u := by
  cases u <;> simp only [nanosPer] <;> omega

/-- **C109 (what is read back).** The text read in ISO format is the time, rounded down to the unit, off by the seconds of the zone's offset, which are not printed. -/
theorem C109_read (z : TzSpans) (hz : InOrder z) (u : TimestampUnits) (ts : Nanos) (o : Int) (ho : OffsetIs z (ts.toNat / 10 ^ 9 : Nat) o) (h1 : -86400 < o) (h2 : o < 86400) :
    ∃ i, chrono.parseTz "%+".toList (isoText z.render u ts) = some i ∧ i.nsec < 10 ^ 9 ∧
      i.ns = (ts.toNat / nanosPer u * nanosPer u : Nat) + (o - o.tdiv 60 * 60) * 10 ^ 9 := by
  obtain ⟨c, hc, hs, hn, ht⟩ := C109_text z hz u ts o ho h1 h2
  obtain ⟨h3, h4⟩ := iso_reads ht hc hs
  refine ⟨_, h3, h4, ?_⟩
  have := units_split u ts.toNat
  simp only [Instant.ns, hn]
  omega

theorem digits_plain {k n : Nat} {s : Str} (h : HasDigits k n s) : ∀ c ∈ s, c ∈ "0123456789-T:.+Z".toList := by
  intro c hc
  obtain ⟨h1, h2⟩ := h.2.1 c hc
  have e : c = Char.ofNat c.toNat := (Char.ofNat_toNat c).symm
  have key : ∀ n, n < 10 → Char.ofNat (48 + n) ∈ "0123456789-T:.+Z".toList := by decide
  have := key (c.toNat - 48) (by omega)
  rwa [show 48 + (c.toNat - 48) = c.toNat by omega, ← e] at this

/-- Characters of an ISO text. -/
theorem isoClock_chars {c : Clock} {o : Int} {t : Str} (h : IsoClockText c o t) : ∀ x ∈ t, x ∈ "0123456789-T:.+Z".toList := by
  obtain ⟨td, tt, tf, to, ⟨y, ty, tmo, tdd, _, a1, a2, a3, rfl⟩, ⟨th, tm, tsec, b1, b2, b3, rfl⟩, hf, ho, rfl⟩ := h
  have sep : ∀ (d : Str) (x : Char), x ∈ d → d = "-".toList ∨ d = ":".toList ∨ d = "T".toList ∨ d = "+".toList ∨ d = "Z".toList → x ∈ "0123456789-T:.+Z".toList := by
    have key : ∀ d ∈ ["-".toList, ":".toList, "T".toList, "+".toList, "Z".toList], ∀ x ∈ d, x ∈ "0123456789-T:.+Z".toList := by decide
    intro d x hx hd
    exact key d (by simpa only [List.mem_cons, List.not_mem_nil, or_false] using hd) x hx
  have hfr : ∀ x ∈ tf, x ∈ "0123456789-T:.+Z".toList := by
    rcases hf with ⟨rfl, _⟩ | ⟨ds, rfl, hd, _⟩
    · intro x hx; cases hx
    · intro x hx
      rcases List.mem_cons.1 hx with rfl | hx
      · decide
      · exact digits_plain (k := ds.length) (n := decimalValue ds) ⟨rfl, hd.2, rfl⟩ x hx
  have hoff : ∀ x ∈ to, x ∈ "0123456789-T:.+Z".toList := by
    rcases ho with ⟨rfl, _⟩ | ⟨h, m, th', tm', c1, c2, _, _, ⟨rfl, _⟩ | ⟨rfl, _⟩⟩
    · exact fun x hx => sep _ x hx (by simp)
    · intro x hx
      simp only [List.mem_append] at hx
      rcases hx with ((hx | hx) | hx) | hx
      · exact sep _ x hx (by simp)
      · exact digits_plain c1 x hx
      · exact sep _ x hx (by simp)
      · exact digits_plain c2 x hx
    · intro x hx
      simp only [List.mem_append] at hx
      rcases hx with ((hx | hx) | hx) | hx
      · exact sep _ x hx (by simp)
      · exact digits_plain c1 x hx
      · exact sep _ x hx (by simp)
      · exact digits_plain c2 x hx
  intro x hx
  simp only [List.mem_append] at hx
  rcases hx with ((((((((hx | hx) | hx) | hx) | hx) | hx) | ((((hx | hx) | hx) | hx) | hx)) | hx) | hx)
  all_goals first
    | exact digits_plain ‹HasDigits _ _ ty› x hx
    | exact digits_plain ‹HasDigits _ _ tmo› x hx
    | exact digits_plain ‹HasDigits _ _ tdd› x hx
    | exact digits_plain ‹HasDigits _ _ th› x hx
    | exact digits_plain ‹HasDigits _ _ tm› x hx
    | exact digits_plain ‹HasDigits _ _ tsec› x hx
    | exact hfr x hx
    | exact hoff x hx
    | exact sep _ x hx (by simp)

theorem isoClock_plain {c : Clock} {o : Int} {t : Str} (h : IsoClockText c o t) : PlainField ',' t ∧ t ≠ [] := by
  have hc := isoClock_chars h
  have hn : ∀ x : Char, x ∉ "0123456789-T:.+Z".toList → x ∉ t := fun x hx hxt => hx (hc x hxt)
  have hsp : ∀ x ∈ t, ¬ IsSpace x := by
    intro x hx hs
    have key : ∀ c ∈ "0123456789-T:.+Z".toList, c.toNat ∉ spaceCodes := by decide
    exact key x (hc x hx) hs
  refine ⟨⟨hn _ (by decide), hn _ (by decide), hn _ (by decide), hn _ (by decide), [], [], by simp, by simp, by simp, ?_, ?_⟩, ?_⟩
  · exact fun c hc' => hsp c (List.mem_of_head? hc')
  · exact fun c hc' => hsp c (List.mem_of_getLast? hc')
  · obtain ⟨td, tt, tf, to, ⟨y, ty, tmo, tdd, _, a1, _, _, rfl⟩, _, _, _, rfl⟩ := h
    have := a1.1
    intro e
    have e' := congrArg List.length e
    simp only [List.length_append, List.length_nil] at e'
    omega

/-- **C109 (which times survive).** A printed time needs no quoting and is read back as the same time, rounded down to the unit, exactly if the zone's offset has no seconds. -/
theorem C109_iff (z : TzSpans) (hz : InOrder z) (u : TimestampUnits) (ts : Nanos) (o : Int) (ho : OffsetIs z (ts.toNat / 10 ^ 9 : Nat) o) (h1 : -86400 < o) (h2 : o < 86400) :
    IsoReadable chrono z.render u "%+".toList ts ↔ 60 ∣ o := by
  obtain ⟨i, h3, h4, h5⟩ := C109_read z hz u ts o ho h1 h2
  have hdiv : o.tdiv 60 * 60 = o ↔ 60 ∣ o := by
    rw [Int.mul_comm]
    exact ⟨fun h => ⟨_, h.symm⟩, fun h => Int.mul_tdiv_cancel' h⟩
  constructor
  · intro h
    obtain ⟨i', h6, _, h7⟩ := h.reads
    rw [h3] at h6
    cases h6
    exact hdiv.1 (by omega)
  · intro h
    obtain ⟨c, _, _, _, ht⟩ := C109_text z hz u ts o ho h1 h2
    obtain ⟨hp, hne⟩ := isoClock_plain ht
    exact ⟨hp, hne, i, h3, h4, by rw [h5, hdiv.2 h]; omega⟩

theorem readable_of_whole {z : TzSpans} (hz : InOrder z) (u : TimestampUnits) {ts : Nanos} (h : WholeMinutes z ts) : IsoReadable chrono z.render u "%+".toList ts := by
  obtain ⟨o, h1, h2, h3, h4⟩ := h
  exact (C109_iff z hz u ts o h1 h3 h4).2 h2

/-- **C109 (universal time).** In universal time every time survives. -/
theorem C109_utc (u : TimestampUnits) (ts : Nanos) : IsoReadable chrono utc.render u "%+".toList ts :=
  readable_of_whole utc_ordered u ⟨0, .first (by simp [utc]), by decide, by decide, by decide⟩

/-- **C109 (sorting).** Among times with the same offset (in universal time: among all times) the order of the texts is the order of the times, in the unit printed: sorting
the lines of the file as texts sorts them by time. -/
theorem C109_sorted (z : TzSpans) (hz : InOrder z) (u : TimestampUnits) (ts ts' : Nanos) (o : Int) (ho : OffsetIs z (ts.toNat / 10 ^ 9 : Nat) o)
    (ho' : OffsetIs z (ts'.toNat / 10 ^ 9 : Nat) o) (h1 : -86400 < o) (h2 : o < 86400) :
    (TextBefore (isoText z.render u ts) (isoText z.render u ts') ↔ ts.toNat / nanosPer u < ts'.toNat / nanosPer u) ∧
    (isoText z.render u ts = isoText z.render u ts' ↔ ts.toNat / nanosPer u = ts'.toNat / nanosPer u) := by
  have hoff := offsetIs_unique hz (offsetAt_spec hz (ts.toNat / 10 ^ 9 : Nat)) ho
  have hoff' := offsetIs_unique hz (offsetAt_spec hz (ts'.toNat / 10 ^ 9 : Nat)) ho'
  have key : ts.toNat / nanosPer u < ts'.toNat / nanosPer u → TextBefore (isoText z.render u ts) (isoText z.render u ts') :=
    iso_before u hoff hoff' h1 h2 ts.isLt ts'.isLt
  have key' : ts'.toNat / nanosPer u < ts.toNat / nanosPer u → TextBefore (isoText z.render u ts') (isoText z.render u ts) :=
    iso_before u hoff' hoff h1 h2 ts'.isLt ts.isLt
  have same : ts.toNat / nanosPer u = ts'.toNat / nanosPer u → isoText z.render u ts = isoText z.render u ts' := by
    intro h
    unfold isoText
    rw [render_iso, render_iso, hoff, hoff']
    have hs : ts.toNat / 10 ^ 9 = ts'.toNat / 10 ^ 9 := by cases u <;> simp only [nanosPer] at h <;> omega
    have hf : fracOf u (ts.toNat % 10 ^ 9) = fracOf u (ts'.toNat % 10 ^ 9) := by
      cases u with
      | seconds => rfl
      | millis =>
        have : ts.toNat % 10 ^ 9 / 10 ^ 6 = ts'.toNat % 10 ^ 9 / 10 ^ 6 := by simp only [nanosPer] at h; omega
        show '.' :: padNat 3 (ts.toNat % 10 ^ 9 / 10 ^ 6) = '.' :: padNat 3 (ts'.toNat % 10 ^ 9 / 10 ^ 6)
        rw [this]
      | micros =>
        have : ts.toNat % 10 ^ 9 / 10 ^ 3 = ts'.toNat % 10 ^ 9 / 10 ^ 3 := by simp only [nanosPer] at h; omega
        show '.' :: padNat 6 (ts.toNat % 10 ^ 9 / 10 ^ 3) = '.' :: padNat 6 (ts'.toNat % 10 ^ 9 / 10 ^ 3)
        rw [this]
      | nanos =>
        have : ts.toNat = ts'.toNat := by simp only [nanosPer] at h; omega
        rw [this]
    simp only [hs, hf]
  rcases Nat.lt_trichotomy (ts.toNat / nanosPer u) (ts'.toNat / nanosPer u) with h | h | h
  · exact ⟨iff_of_true (key h) h, iff_of_false (fun e => by have := key h; rw [e] at this; exact before_asymm this this) (by omega)⟩
  · exact ⟨iff_of_false (fun e => by rw [same h] at e; exact before_asymm e e) (by omega), iff_of_true (same h) h⟩
  · exact ⟨iff_of_false (fun e => before_asymm e (key' h)) (by omega), iff_of_false (fun e => by have := key' h; rw [e] at this; exact before_asymm this this) (by omega)⟩

/-- **C109, stated in full**: whatever the time zone, printed times are read back as they were, rounded down to the unit. -/
def C109_full : Prop := ∀ (z : TzSpans) (u : TimestampUnits) (ts : Nanos), InOrder z → IsoReadable chrono z.render u "%+".toList ts

/-- Liberia was 44 minutes and 30 seconds behind universal time until 7 January 1972. -/
def monrovia : TzSpans := ⟨-2670, [(63593070, 0)]⟩

theorem monrovia_ordered : InOrder monrovia := by simp [InOrder, monrovia]

/-- **C109 is false in full**: times in Liberia before 1972 are read back 30 seconds early. -/
theorem C109_counterexample : ¬ C109_full ∧ isoText monrovia.render .seconds 0 = "1969-12-31T23:15:30-00:44".toList ∧
    ∃ i, chrono.parseTz "%+".toList (isoText monrovia.render .seconds 0) = some i ∧ i.ns = -30 * 10 ^ 9 := by
  have ho : OffsetIs monrovia ((0 : Nanos).toNat / 10 ^ 9 : Nat) (-2670) := .first (by simp [monrovia])
  refine ⟨fun h => ?_, by decide +kernel, ?_⟩
  · have := (C109_iff monrovia monrovia_ordered .seconds 0 _ ho (by decide) (by decide)).1 (h _ _ _ monrovia_ordered)
    exact absurd this (by decide)
  · obtain ⟨i, h1, _, h2⟩ := C109_read monrovia monrovia_ordered .seconds 0 _ ho (by decide) (by decide)
    exact ⟨i, h1, by rw [h2]; decide⟩

/-- **C109 (files).** A file written with human readable times in a zone whose offsets are whole minutes is read back with the ISO format, given or found automatically. -/
theorem C109_file_partial (ov : Overflow) (csv : CsvLib) (isF64 : Str → Bool) (lower : Str → Str) (hc : ReadsPlain csv) (ff : FloatFmt) (cfg : CsvOutputConfig) (z : TzSpans) (hzo : InOrder z)
    (cfg2 : CsvInputConfig chrono) (h2 : ReadsIsoAs cfg cfg2 "%+".toList) (hd : cfg.delimiter = [',']) (hp : cfg.printTimeCol = true) (hs : cfg.style = .humanReadable)
    (hz : cfg.zone = some z.render) (names : List Str)
    (rows : List Row) (body : Str) (hl : CsvLines ff cfg rows body) (hn : names ≠ []) (hr : rows ≠ []) (hw : ∀ r ∈ rows, r.values.length = names.length)
    (ht : PlainField ',' cfg.timeColName ∧ cfg.timeColName ≠ [] ∧ cfg.timeColName.head? ≠ some '\uFEFF') (hnp : ∀ n ∈ names, PlainField ',' n)
    (hv : ∀ r ∈ rows, ∀ v ∈ r.values, PlainValue ff ',' v) (hiso : ∀ r ∈ rows, WholeMinutes z r.timestamp)
    (hov : ov = .wraps ∨ ∀ r ∈ rows, r.timestamp.toNat < 2 ^ 63) (inner : Inner) (hi : NoFail inner) (hdata : inner.data = utf8Encode (csvHeaderText cfg names ++ body)) :
    ReadsIsoBack ⟨ov, chrono, csv, isF64, lower⟩ ff cfg z.render cfg2 names rows inner :=
  C101_file ⟨ov, chrono, csv, isF64, lower⟩ hc ff cfg z.render _ cfg2 h2 hd hp hs hz names rows body hl hn hr hw ht hnp hv
    (fun r hr => readable_of_whole hzo cfg.units (hiso r hr)) hov inner hi hdata

/-- **C109 (the whole way).** A run that writes CSV with human readable times in such a zone, followed by opening its output file: the header and the merged rows are there again. -/
theorem C109_tool_partial (e : CliEnv) (a : CliArgs) (st : CliSettings e.csv.lib) (files : List FileSource) (h : Header) (d : Device) (z : TzSpans) (hzo : InOrder z)
    (hs : parseSettings e a = .ok st) (ho : Opens e st files) (hf : files ≠ []) (hg : GoodInputs st.range h files) (hd : CsvTo e.out a.output d) (hr : Reliable d) (hemp : d.taken = [])
    (hdel : st.outCfg.delimiter = [',']) (htime : st.outCfg.printTimeCol = true) (hstyle : st.outCfg.style = .humanReadable) (hz : st.outCfg.zone = some z.render) (hn : h.names ≠ [])
    (ht : PlainField ',' st.outCfg.timeColName ∧ st.outCfg.timeColName ≠ [] ∧ st.outCfg.timeColName.head? ≠ some '\uFEFF') (hnp : ∀ n ∈ h.names, PlainField ',' n)
    (hv : ∀ f ∈ files, ∀ r ∈ f.source.rows, inRange st.range r.timestamp = true →
      r.values.length = h.names.length ∧ WholeMinutes z r.timestamp ∧ ∀ v ∈ r.values, ¬ Unprintable v ∧ PlainValue e.ff ',' v) :
    ∃ out rows, (chopperCli e a).result = .ok () ∧ (chopperCli e a).output = some out ∧ IsMerge st.range (files.map (·.source.rows)) rows ∧
      ∀ (ov : Overflow) (csv : CsvLib) (isF64 : Str → Bool) (lower : Str → Str) (dec : Decoders) (zip : ZipLib) (w : World) (cfg : CsvInputConfig chrono) (s : Str) (fmt : InputFormat)
        (sched : List ReadStep), ReadsPlain csv → ReadsIsoAs st.outCfg cfg "%+".toList →
        (ov = .wraps ∨ ∀ x ∈ files, ∀ r ∈ x.source.rows, inRange st.range r.timestamp = true → r.timestamp.toNat < 2 ^ 63) →
        FileAt w s ⟨out.taken, sched, none⟩ → (∀ k, ReadStep.fail k ∉ sched) → ¬ HttpAddress s → ¬ [0x50, 0x4b, 3, 4] <+: out.taken →
        ((∃ base, lastComponent s = some (base ++ ".csv".toList) ∧ fmt = .auto) ∨ fmt = .extension "csv".toList) →
        ∃ rows', createFromInput (newInputs ⟨ov, chrono, csv, isF64, lower⟩ dec zip w (some cfg) [] []) w ⟨.path s, fmt⟩ =
            .ok ⟨⟨st.outCfg.timeColName :: h.names, List.replicate (h.names.length + 1) .string⟩, ⟨rows', .eof⟩⟩ ∧ ReadIso e.ff z.render st.outCfg.units rows rows' := by
  obtain ⟨out, rows, g1, g2, g3, g4⟩ := C101_tool e a st files h d z.render hs ho hf hg hd hr hemp hdel htime hstyle hz hn ht hnp (fun f hf r hr hin => ⟨(hv f hf r hr hin).1, (hv f hf r hr hin).2.2⟩)
  refine ⟨out, rows, g1, g2, g3, ?_⟩
  intro ov csv isF64 lower dec zip w cfg s fmt sched hc h2 hov
  exact g4 ⟨ov, chrono, csv, isF64, lower⟩ dec zip w cfg _ s fmt sched hc h2 (fun x hx r hr hin => readable_of_whole hzo _ (hv x hx r hr hin).2.1) hov

/-- A time in New York, before and after the change to winter time: the texts say so, and one hour has the same text but for the offset. -/
example : isoText newYork.render .millis 1541309400123456789 = "2018-11-04T01:30:00.123-04:00".toList ∧
    isoText newYork.render .seconds 1541313000123456789 = "2018-11-04T01:30:00-05:00".toList ∧ WholeMinutes newYork 1541313000123456789 := by
  have h : OffsetIs newYork ((1541313000123456789 : Nanos).toNat / 10 ^ 9 : Nat) (-18000) :=
    OffsetIs.since (z := newYork) (t := ((1541313000123456789 : Nanos).toNat / 10 ^ 9 : Nat)) (i := 1) (c := (1541311200, -18000)) rfl (by decide +kernel) (by decide +kernel)
  exact ⟨by decide +kernel, by decide +kernel, -18000, h, by decide, by decide, by decide⟩

/-- Across a change of the offset the order of texts need not be the order of times. -/
example : TextBefore (isoText newYork.render .seconds 1541311260000000000) (isoText newYork.render .seconds 1541309400000000000) ∧ (1541309400000000000 : Nanos) < 1541311260000000000 :=
  ⟨⟨"2018-11-04T01:".toList, '0', '3', "1:00-05:00".toList, "0:00-04:00".toList, by decide +kernel, by decide +kernel, by decide⟩, by decide⟩

end Chopper.Props
