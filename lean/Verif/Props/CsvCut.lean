import Verif.Spec.CsvCut
import Verif.Props.CalendarColumns
import Verif.Props.CsvCopy
import Verif.Props.CsvIso

/-! # C111: cutting and merging CSV files by calendar time, with automatic settings -/
namespace Chopper.Props
open Chopper Chopper.Spec Chopper.Chrono

theorem nanos_of {t : Int} {n : Nat} (hn : n < 10 ^ 9) (h0 : 0 ≤ t * 10 ^ 9 + n) : 0 ≤ t := by omega

theorem clock_nanos {c : Clock} {t : Str} (h : ClockText c t) : c.nanos < 10 ^ 9 := by
  obtain ⟨_, _, _, _, _, _, _, _, _, _, _, hf, _⟩ := h
  exact fraction_lt hf

theorem iso_nanos {c : Clock} {o : Int} {t : Str} (h : IsoClockText c o t) : c.nanos < 10 ^ 9 := by
  obtain ⟨_, _, _, _, _, _, hf, _⟩ := h
  exact fraction_lt hf

theorem two_nanos {c : Clock} {f d t : Str} (h : TwoColumnText c f d t) : c.nanos < 10 ^ 9 := by
  cases h with
  | millis _ _ hf e =>
    have := hasDigits_lt hf
    omega
  | plain e => omega
  | colons e => omega
  | minutes e => omega

/-- A record that tells its time is recognised and read so. -/
theorem tells_read (ov : Overflow) {z : TzSpans} (hz : InOrder z) {record : List Str} {col : TimestampCol} {fmt : TimestampFmt} {t : Int} (h : TellsTime z record col fmt t) (h0 : 0 ≤ t)
    (h1 : t < 2 ^ 63) : getTimestampFmtAuto chrono (some z.fromLocal) record none col = .ok fmt ∧
      ∃ ts : Nanos, getTimestamp ov chrono (some z.fromLocal) record col fmt = .ok ts ∧ (ts.toNat : Int) = t := by
  cases h with
  | one hi ht hc hloc ho =>
    obtain ⟨a, b⟩ := (C110_one ov z hz record _ _ _ _ hi ht hc _ hloc).1 _ ho
    obtain ⟨ts, e, hv⟩ := follows_exact b (by dsimp only; omega) (by simp only [Instant.ns]; omega)
    exact ⟨a, ts, e, by rw [hv]; simp only [Instant.ns]; omega⟩
  | date hi ht hn ho =>
    obtain ⟨a, b⟩ := (C110_date ov z hz record _ _ _ hi ht).1 _ _ hn ho
    obtain ⟨ts, e, hv⟩ := follows_exact b (by dsimp only; omega) (by simp only [Instant.ns]; omega)
    exact ⟨a, ts, e, by rw [hv]; simp only [Instant.ns]; omega⟩
  | two hi hj ht hc hloc ho =>
    obtain ⟨a, b⟩ := (C110_two ov z hz record _ _ _ _ _ _ hi hj ht hc _ hloc).1 _ ho
    obtain ⟨ts, e, hv⟩ := follows_exact b (nanos_of (two_nanos ht) h0) (by simp only [Instant.ns]; omega)
    exact ⟨a, ts, e, by rw [hv]; simp only [Instant.ns]; omega⟩
  | iso hi ht hc hloc =>
    obtain ⟨a, b⟩ := C110_iso ov (some z.fromLocal) record _ _ _ _ hi ht hc _ hloc
    obtain ⟨ts, e, hv⟩ := follows_exact b (nanos_of (iso_nanos ht) h0) (by simp only [Instant.ns]; omega)
    exact ⟨a, ts, e, by rw [hv]; simp only [Instant.ns]; omega⟩
  | epoch hi hd hw hl =>
    obtain ⟨a, ts, e, hv⟩ := (C110_epoch ov (some z.fromLocal) record _ _ _ hi hd hw).1 hl
    exact ⟨a, ts, e, by rw [hv]⟩

/-- The bounds are read as the times they mean. -/
theorem bound_reads (ov : Overflow) {z : TzSpans} (hz : InOrder z) {text : Str} {t : Int} (h : BoundText z text t) (h0 : 0 ≤ t) (h1 : t < 2 ^ 63) :
    ∃ ts : Nanos, parseDatetimeRangeElement ov chrono (some z.fromLocal) text = .ok ts ∧ (ts.toNat : Int) = t := by
  cases h with
  | day ht hn ho => exact (C108_day ov z hz _ _ ht).1 _ _ hn ho (by omega) h1
  | clock ht hc hloc ho => exact (C108_local ov z hz _ _ ht hc _ hloc).2.1 _ ho (nanos_of (clock_nanos ht) h0) h1
  | iso ht hc hloc => exact (C108_iso ov (some z.fromLocal) _ _ _ ht hc _ hloc).2 (nanos_of (iso_nanos ht) h0) h1

theorem bound_element (ov : Overflow) {z : TzSpans} (hz : InOrder z) {text : Option Str} {t : Option Int} (h : Bound z text t) :
    ∃ r : Option Nanos, rangeElement ov chrono (some z.fromLocal) text = .ok r ∧ r.map (fun ts => (ts.toNat : Int)) = t := by
  cases text <;> cases t <;> simp only [Bound] at h
  · exact ⟨none, rfl, rfl⟩
  · obtain ⟨ts, e, hv⟩ := bound_reads ov hz h.1 h.2.1 h.2.2
    exact ⟨some ts, by simp only [rangeElement, e, Res.bind_ok], by simp [hv]⟩

/-- The range selects what lies between the bounds. -/
theorem bounds_range (ov : Overflow) {z : TzSpans} (hz : InOrder z) {b e : Option Str} {tb te : Option Int} (hb : Bound z b tb) (he : Bound z e te) :
    ∃ r, TimestampRange.new ov chrono (some z.fromLocal) b e = .ok r ∧ ∀ ts : Nanos, inRange r ts = true ↔ Between tb te ts.toNat := by
  obtain ⟨rb, eb, hb⟩ := bound_element ov hz hb
  obtain ⟨re, ee, he⟩ := bound_element ov hz he
  refine ⟨⟨rb, re⟩, by simp only [TimestampRange.new, eb, ee, Res.bind_ok], fun ts => ?_⟩
  subst hb; subst he
  unfold inRange notBefore beforeEnd Between
  cases rb <;> cases re <;> simp [BitVec.le_def, BitVec.lt_def]

/-- A computer: its libraries, files and time zones. The date library is the model of chrono; nothing is registered by a user of the library. -/
structure Computer where
  ov : Overflow
  csv : CsvLib
  isF64 : Str → Bool
  lower : Str → Str
  ff : FloatFmt
  ch : Chunking
  dec : Decoders
  zip : ZipLib
  world : World
  out : OutWorld
  zones : Str → Option TzSpans
  tzVar : Option Str

/-- The tool's environment on it. -/
def Computer.env (k : Computer) : CliEnv :=
  { csv := ⟨k.ov, chrono, k.csv, k.isF64, k.lower⟩, ff := k.ff, ch := k.ch, dec := k.dec, zip := k.zip, world := k.world, out := k.out,
    tzParse := fun name => (k.zones name).map TzSpans.zone, tzVar := k.tzVar, tzMap := none, userFactories := [], userTransports := [] }

/-- The arguments of `chopper FILES --output OUTPUT --timezone ZONE --begin B --end E --csv-out-print-time no`. -/
def cutArgs (files : List Str) (output : Option Str) (zone : Str) (b e : Option Str) : CliArgs :=
  { inputs := some files, output := output, timezone := some zone, beginTs := b, endTs := e, printTime := "no".toList }

/-- What is given: CSV files with the same column names, separated by commas, each with its own form of times in the column(s) chosen by their names, in time order.
`time` is the time of a record, in nanoseconds since 1970. The first two lines are within the first 8192 bytes and look different in some column, so that the header line is recognised. -/
structure CutRun (k : Computer) (files : List Str) (output : Option Str) (zone : Str) (z : TzSpans) (col : TimestampCol) (names : List Str)
    (tables : List (List (List Str))) (time : List Str → Int) (dev : Device) : Prop where
  contract : ReadsPlain k.csv
  zoneKnown : k.zones zone = some z
  zoneOrder : InOrder z
  here : files ≠ [] ∧ files.length = tables.length ∧ ∀ (i : Nat) s recs, files[i]? = some s → tables[i]? = some recs → CsvFileAt k.world ⟨.path s, .auto⟩ ',' names recs
  plain : ∀ recs ∈ tables, PlainTable ',' (names :: recs)
  widths : names ≠ [] ∧ ∀ recs ∈ tables, ∀ rec ∈ recs, rec.length = names.length
  nameChars : ∀ n ∈ names, ∀ c ∈ n, c.toNat < 256 ∧ c ≠ ' ' ∧ c ≠ '\t'
  twoLines : ∀ recs ∈ tables, 2 ≤ ((utf8Encode (csvText ',' (names :: recs))).take 8192).count 10
  headed : ∀ recs ∈ tables, ∃ (first : List Str) (i : Nat) (n v : Str), recs.head? = some first ∧ names[i]? = some n ∧ first[i]? = some v ∧ ¬ SameKind k.isF64 n v
  column : Chosen (names.map k.lower) col none
  times : ∀ recs ∈ tables, ∃ fmt, ∀ rec ∈ recs, TellsTime z rec col fmt (time rec) ∧ 0 ≤ time rec ∧ time rec < 2 ^ 63
  sorted : ∀ recs ∈ tables, recs.Pairwise fun x y => time x ≤ time y
  device : CsvTo k.out output dev
  reliable : Reliable dev

theorem nanos_le {x y : Int} (hx : 0 ≤ x) (hx' : x < 2 ^ 63) (hy : 0 ≤ y) (hy' : y < 2 ^ 63) : (BitVec.ofInt 64 x : Nanos) ≤ BitVec.ofInt 64 y ↔ x ≤ y := by
  rw [BitVec.le_def, BitVec.toNat_ofInt, BitVec.toNat_ofInt]
  omega

theorem nanos_toNat {x : Int} (hx : 0 ≤ x) (hx' : x < 2 ^ 63) : ((BitVec.ofInt 64 x : Nanos).toNat : Int) = x := by
  rw [BitVec.toNat_ofInt]
  omega

theorem nanos_inj {x y : Int} (hx : 0 ≤ x) (hx' : x < 2 ^ 63) (hy : 0 ≤ y) (hy' : y < 2 ^ 63) (h : (BitVec.ofInt 64 x : Nanos) = BitVec.ofInt 64 y) : x = y := by
  rw [← nanos_toNat hx hx', h, nanos_toNat hy hy']

theorem settings_of {e : CliEnv} {a : CliArgs} {z : Option (Zone e.csv.lib)} {r : TimestampRange} {inputs : List Input} {inCfg : CsvInputConfig e.csv.lib} {outCfg : CsvOutputConfig}
    (h1 : resolveTimezone e.tzParse e.tzMap e.tzVar a.timezone = .ok z) (h2 : TimestampRange.new e.csv.ov e.csv.lib (z.map (·.fromLocal)) a.beginTs a.endTs = .ok r)
    (h3 : parseInputs a = .ok inputs) (h4 : parseCsvInputConfig a (z.map (·.fromLocal)) = .ok inCfg) (h5 : parseCsvOutputConfig a (z.map (·.render)) = .ok outCfg) :
    parseSettings e a = .ok ⟨inputs, r, inCfg, outCfg⟩ := by
  unfold parseSettings
  rw [h1, Res.bind_ok, h2, Res.bind_ok, h3, Res.bind_ok, h4, Res.bind_ok, h5, Res.bind_ok]

theorem cut_settings {k : Computer} {zone : Str} {z : TzSpans} (hz : k.zones zone = some z) (ho : InOrder z) (files : List Str) (hne : files ≠ []) (output : Option Str) {b e : Option Str}
    {tb te : Option Int} (hb : Bound z b tb) (he : Bound z e te) :
    ∃ st, parseSettings k.env (cutArgs files output zone b e) = .ok st ∧ st.inputs = assignFormats [.auto] .auto 0 files ∧ st.inCfg = autoCfg (some z.fromLocal) ∧
      st.outCfg.delimiter = [','] ∧ st.outCfg.printTimeCol = false ∧ ∀ ts : Nanos, inRange st.range ts = true ↔ Between tb te ts.toNat := by
  obtain ⟨r, hr, hrange⟩ := bounds_range k.ov ho hb he
  have h1 : resolveTimezone k.env.tzParse k.env.tzMap k.env.tzVar (cutArgs files output zone b e).timezone = .ok (some z.zone) := by
    show (Res.unwrap ((k.zones zone).map TzSpans.zone)).bind (fun z => .ok (some z)) = _
    rw [hz]
    rfl
  have h2 : parseInputs (cutArgs files output zone b e) = .ok (assignFormats [.auto] .auto 0 files) := by
    unfold parseInputs cutArgs parseFormats
    simp only [List.getLast?_singleton, if_neg hne]
  exact ⟨_, settings_of (e := k.env) (z := some z.zone) h1 hr h2 rfl rfl, rfl, rfl, rfl, rfl, hrange⟩

theorem cut_table_reads {k : Computer} {files : List Str} {output : Option Str} {zone : Str} {z : TzSpans} {col : TimestampCol} {names : List Str}
    {tables : List (List (List Str))} {time : List Str → Int} {dev : Device} (h : CutRun k files output zone z col names tables time dev) :
    ∀ recs ∈ tables, ReadsTable k.env.csv (autoCfg (some z.fromLocal)) ',' names (fun rec => BitVec.ofInt 64 (time rec)) recs := by
  intro recs hm
  obtain ⟨fmt, htimes⟩ := h.times recs hm
  obtain ⟨first, i, n, v, hfirst, hn, hv, hkind⟩ := h.headed recs hm
  cases recs with
  | nil => cases hfirst
  | cons f rest =>
    obtain rfl := Option.some.inj hfirst
    have hfl : f.length = names.length := h.widths.2 _ hm f (by simp)
    refine reads_table k.env.csv h.contract (autoCfg (some z.fromLocal)) (b := 44) (by decide) (by decide) (by decide) (by decide) (by decide) ?_ (h.plain _ hm)
      (h.widths.2 _ hm) (col := col) (fmt := fmt) ?_ ?_
    · intro inner p hdata hlines
      have := auto_table k.env.csv (some z.fromLocal) (h.plain _ hm) hdata h.widths.1 (by
        intro e
        rw [e] at hfl
        exact h.widths.1 (List.length_eq_zero_iff.1 hfl.symm)) hlines h.nameChars (by rw [hdata]; exact h.twoLines _ hm)
      rw [if_neg] at this
      · exact this
      · intro he
        have he' := congrArg (·[i]?) he
        simp only [List.getElem?_map, hn, hv, Option.map_some, Option.some.injEq] at he'
        exact hkind ((sameKind_iff _ _ _).2 he')
    · obtain ⟨ht, h0, h1⟩ := htimes f (by simp)
      have hd := (tells_read k.ov h.zoneOrder ht h0 h1).1
      have hcol : getTimestampCol k.lower names .auto = .ok (col, none) := (C13_chosen _ _ _ _).2 h.column
      show getTimestampColAndFmt k.lower chrono (some z.fromLocal) names f .auto .auto = _
      unfold getTimestampColAndFmt
      simp only [hcol, Res.bind_ok, hd]
    · intro rec hrec
      obtain ⟨ht, h0, h1⟩ := htimes rec hrec
      obtain ⟨ts, e, hv⟩ := (tells_read k.ov h.zoneOrder ht h0 h1).2
      have : ts = BitVec.ofInt 64 (time rec) := BitVec.eq_of_toNat_eq (by have := nanos_toNat h0 h1; omega)
      rw [← this]
      exact e

theorem cut_reads {k : Computer} {files : List Str} {output : Option Str} {zone : Str} {z : TzSpans} {b e : Option Str} {tb te : Option Int} {col : TimestampCol} {names : List Str}
    {tables : List (List (List Str))} {time : List Str → Int} {dev : Device} (h : CutRun k files output zone z col names tables time dev) (hb : Bound z b tb) (he : Bound z e te) :
    ∃ st, parseSettings k.env (cutArgs files output zone b e) = .ok st ∧ st.outCfg.delimiter = [','] ∧ st.outCfg.printTimeCol = false ∧
      (st.inputs.length = tables.length ∧ ∀ (i : Nat) inp recs, st.inputs[i]? = some inp → tables[i]? = some recs → CsvFileAt k.world inp ',' names recs) ∧
      (∀ recs ∈ tables, ReadsTable k.env.csv st.inCfg ',' names (fun rec => BitVec.ofInt 64 (time rec)) recs) ∧
      ∀ ts : Nanos, inRange st.range ts = true ↔ Between tb te ts.toNat := by
  obtain ⟨st, h1, h2, h3, h4, h5, h6⟩ := cut_settings h.zoneKnown h.zoneOrder files h.here.1 output hb he
  refine ⟨st, h1, h4, h5, ⟨?_, ?_⟩, ?_, h6⟩
  · rw [h2, (assignFormats_get _ _ _ _).1]; exact h.here.2.1
  · intro i inp recs hi ht
    rw [h2] at hi
    have hlen : i < files.length := by
      have := (List.getElem?_eq_some_iff.1 hi).1
      rw [(assignFormats_get _ _ _ _).1] at this
      exact this
    have hf := List.getElem?_eq_getElem hlen
    have := (assignFormats_get [.auto] .auto files 0).2 i _ hf
    rw [this] at hi
    obtain rfl : (⟨.path files[i], .auto⟩ : Input) = inp := by
      cases i <;> exact Option.some.inj hi
    exact h.here.2.2 i _ recs hf ht
  · rw [h3]; exact cut_table_reads h

theorem cut_tables {k : Computer} {files : List Str} {output : Option Str} {zone : Str} {z : TzSpans} {b e : Option Str} {tb te : Option Int} {col : TimestampCol} {names : List Str}
    {tables : List (List (List Str))} {time : List Str → Int} {dev : Device} (h : CutRun k files output zone z col names tables time dev) (hb : Bound z b tb) (he : Bound z e te)
    (hsome : ∀ recs ∈ tables, ∃ rec ∈ recs, Between tb te (time rec)) :
    ∃ st, TablesRun k.env (cutArgs files output zone b e) st names tables (fun rec => BitVec.ofInt 64 (time rec)) dev ∧
      ∀ ts : Nanos, inRange st.range ts = true ↔ Between tb te ts.toNat := by
  obtain ⟨st, h1, h2, h3, h4, h5, hrange⟩ := cut_reads h hb he
  refine ⟨st, ⟨h1, h2, h3, read_opens ⟨rfl, rfl⟩ h4 h5, ?_, ?_, h.device, h.reliable⟩, hrange⟩
  · intro recs hm
    obtain ⟨fmt, htimes⟩ := h.times recs hm
    refine (h.sorted recs hm).imp_of_mem fun {x y} hx hy hxy => ?_
    obtain ⟨_, a0, a1⟩ := htimes x hx
    obtain ⟨_, b0, b1⟩ := htimes y hy
    exact (nanos_le a0 a1 b0 b1).2 hxy
  · intro recs hm
    obtain ⟨fmt, htimes⟩ := h.times recs hm
    obtain ⟨rec, hrec, hin⟩ := hsome recs hm
    obtain ⟨_, a0, a1⟩ := htimes rec hrec
    exact ⟨rec, hrec, (hrange _).2 (by rw [nanos_toNat a0 a1]; exact hin)⟩

/-- **C111 (merge).** The output has the same column names and consists of the records of the inputs that lie in the period, unchanged: in time order, and at each time those of the inputs, each
input's in its own order, those of later inputs first. -/
theorem C111_merge (k : Computer) (files : List Str) (output : Option Str) (zone : Str) (z : TzSpans) (b e : Option Str) (tb te : Option Int) (col : TimestampCol) (names : List Str)
    (tables : List (List (List Str))) (time : List Str → Int) (dev : Device) (h : CutRun k files output zone z col names tables time dev) (hb : Bound z b tb) (he : Bound z e te)
    (hsome : ∀ recs ∈ tables, ∃ rec ∈ recs, Between tb te (time rec)) :
    ∃ out recs, (chopperCli k.env (cutArgs files output zone b e)).result = .ok () ∧ (chopperCli k.env (cutArgs files output zone b e)).output = some out ∧
      out.taken = dev.taken ++ utf8Encode (csvText ',' (names :: recs)) ∧ recs.Pairwise (fun x y => time x ≤ time y) ∧
      ∀ t, recs.filter (fun rec => time rec = t) = tables.reverse.flatMap fun table => table.filter fun rec => time rec = t ∧ Between tb te (time rec) := by
  obtain ⟨st, hst, hrange⟩ := cut_tables h hb he hsome
  obtain ⟨out, recs, h1, h2, h3, h4, h5⟩ := tables_merge hst
  have hin : ∀ table ∈ tables, ∀ rec ∈ table, 0 ≤ time rec ∧ time rec < 2 ^ 63 := by
    intro table ht rec hr
    obtain ⟨fmt, htimes⟩ := h.times table ht
    exact (htimes rec hr).2
  have hmem : ∀ rec ∈ recs, 0 ≤ time rec ∧ time rec < 2 ^ 63 := by
    intro rec hr
    have : rec ∈ recs.filter (fun x => BitVec.ofInt 64 (time x) == (BitVec.ofInt 64 (time rec) : Nanos)) := List.mem_filter.2 ⟨hr, by simp⟩
    rw [h5, List.mem_flatMap] at this
    obtain ⟨table, ht, hr'⟩ := this
    exact hin table (List.mem_reverse.1 ht) rec (List.mem_filter.1 hr').1
  refine ⟨out, recs, h1, h2, h3, ?_, fun t => ?_⟩
  · exact h4.imp_of_mem fun {x y} hx hy hxy => (nanos_le (hmem x hx).1 (hmem x hx).2 (hmem y hy).1 (hmem y hy).2).1 hxy
  · by_cases ht : 0 ≤ t ∧ t < 2 ^ 63
    · have key : ∀ l : List (List Str), (∀ rec ∈ l, 0 ≤ time rec ∧ time rec < 2 ^ 63) → ∀ rec ∈ l, (decide (time rec = t)) = (BitVec.ofInt 64 (time rec) == (BitVec.ofInt 64 t : Nanos)) := by
        intro l hl rec hr
        rw [Bool.eq_iff_iff]
        simp only [decide_eq_true_eq, beq_iff_eq]
        exact ⟨fun e => by rw [e], fun e => nanos_inj (hl rec hr).1 (hl rec hr).2 ht.1 ht.2 e⟩
      rw [List.filter_congr (key recs hmem), h5]
      rw [List.flatMap_def, List.flatMap_def]
      congr 1
      apply List.map_congr_left
      intro table htab
      have htab' := List.mem_reverse.1 htab
      apply List.filter_congr
      intro rec hr
      rw [← key table (hin table htab') rec hr, Bool.eq_iff_iff]
      simp only [Bool.and_eq_true, decide_eq_true_eq, hrange, nanos_toNat (hin table htab' rec hr).1 (hin table htab' rec hr).2]
    · have key : ∀ l : List (List Str), (∀ rec ∈ l, 0 ≤ time rec ∧ time rec < 2 ^ 63) → ∀ rec ∈ l, time rec ≠ t := by
        rintro l hl rec hr rfl
        exact ht (hl rec hr)
      rw [List.filter_eq_nil_iff.2 (fun rec hr => by simpa using key recs hmem rec hr)]
      symm
      rw [List.flatMap_eq_nil_iff]
      intro table htab
      rw [List.filter_eq_nil_iff]
      intro rec hr
      have := key table (hin table (List.mem_reverse.1 htab)) rec hr
      simp [this]

/-- A run with a single table cuts it. -/
theorem cut_one {e : CliEnv} {a : CliArgs} {st : CliSettings e.csv.lib} {names : List Str} {recs : List (List Str)} {time : List Str → Int} {tb te : Option Int} {dev : Device}
    (hst : TablesRun e a st names [recs] (fun rec => BitVec.ofInt 64 (time rec)) dev) (hrange : ∀ ts : Nanos, inRange st.range ts = true ↔ Between tb te ts.toNat)
    (hin : ∀ rec ∈ recs, 0 ≤ time rec ∧ time rec < 2 ^ 63) :
    ∃ out, (chopperCli e a).result = .ok () ∧ (chopperCli e a).output = some out ∧
      out.taken = dev.taken ++ utf8Encode (csvText ',' (names :: recs.filter fun rec => Between tb te (time rec))) := by
  obtain ⟨out, recs', h1, h2, h3, h4⟩ := tables_run hst
  have hsame : ∀ rec ∈ recs, (decide (Between tb te (time rec))) = inRange st.range (BitVec.ofInt 64 (time rec)) := by
    intro rec hr
    rw [Bool.eq_iff_iff, hrange, nanos_toNat (hin rec hr).1 (hin rec hr).2]
    simp
  have hm : IsMerge st.range ([recs].map fun t => t.map fun rec => (⟨BitVec.ofInt 64 (time rec), rec.map .string⟩ : Row))
      ((recs.filter fun rec => Between tb te (time rec)).map fun rec => ⟨BitVec.ofInt 64 (time rec), rec.map .string⟩) := by
    refine ⟨List.pairwise_map.2 ((hst.sorted recs (by simp)).sublist List.filter_sublist), fun t => ?_⟩
    simp only [List.map_cons, List.map_nil, List.reverse_singleton, List.flatMap_cons, List.flatMap_nil, List.append_nil, List.filter_map, List.filter_filter]
    congr 1
    apply List.filter_congr
    intro rec hr
    rw [hsame rec hr]
    rfl
  have heq := congrArg (List.map textsOf) (C61_merge_unique h4 hm)
  rw [List.map_map, List.map_map, texts_rows (fun rec => BitVec.ofInt 64 (time rec)), texts_rows (fun rec => BitVec.ofInt 64 (time rec))] at heq
  exact ⟨out, h1, h2, by rw [h3, heq]⟩

/-- **C111 (one file).** A single file is cut: what remains are exactly its records in the period, in their order. -/
theorem C111_cut (k : Computer) (file : Str) (output : Option Str) (zone : Str) (z : TzSpans) (b e : Option Str) (tb te : Option Int) (col : TimestampCol) (names : List Str)
    (recs : List (List Str)) (time : List Str → Int) (dev : Device) (h : CutRun k [file] output zone z col names [recs] time dev)
    (hb : Bound z b tb) (he : Bound z e te) (hsome : ∃ rec ∈ recs, Between tb te (time rec)) :
    ∃ out, (chopperCli k.env (cutArgs [file] output zone b e)).result = .ok () ∧ (chopperCli k.env (cutArgs [file] output zone b e)).output = some out ∧
      out.taken = dev.taken ++ utf8Encode (csvText ',' (names :: recs.filter fun rec => Between tb te (time rec))) := by
  obtain ⟨st, hst, hrange⟩ := cut_tables h hb he (by simpa using hsome)
  refine cut_one hst hrange ?_
  intro rec hr
  obtain ⟨fmt, htimes⟩ := h.times recs (by simp)
  exact (htimes rec hr).2

/-- **C21 (tool).** A run in which one of the inputs has no row in the range does not succeed. -/
theorem C21_tool_never_succeeds (e : CliEnv) (a : CliArgs) (st : CliSettings e.csv.lib) (files : List FileSource) (hs : parseSettings e a = .ok st) (ho : Opens e st files)
    (f : FileSource) (hf : f ∈ files) (hn : ∀ r ∈ f.source.rows, inRange st.range r.timestamp = false) : (chopperCli e a).result ≠ .ok () := by
  unfold chopperCli
  rcases hp : parseCliArgs e a with ⟨created, d | x | _ | _⟩
  · have hd : d.sources = files.map (·.source) ∧ d.range = st.range := by
      unfold parseCliArgs at hp
      simp only [hs] at hp
      unfold setupGraph at hp
      rw [(openInputs_iff _ _ _ _).2 ho] at hp
      rcases hh : newHeaderSink e.sink e.out a.output st.outCfg with ⟨c, f | _ | _ | _⟩
      · simp only [hh, Prod.mk.injEq, Res.bind_eq_ok] at hp
        obtain ⟨_, g, _, hg⟩ := hp
        cases hg
        exact ⟨rfl, rfl⟩
      all_goals simp [hh] at hp
    simp only
    unfold CliDriver.drive driveGraph
    apply drive_empty_not_ok
    rw [hd.1, hd.2]
    refine ⟨f.source, List.mem_map.2 ⟨f, hf, rfl⟩, ?_⟩
    unfold selected
    rw [List.filter_eq_nil_iff]
    intro r hr hb
    have h1 := hn r (List.takeWhile_sublist _ |>.mem hr)
    have h2 : beforeEnd st.range r.timestamp = true := List.all_eq_true.1 (List.all_takeWhile (l := f.source.rows)) r hr
    unfold inRange at h1
    rw [hb, h2] at h1
    cases h1
  all_goals simp

/-- **C111 (nothing in the period).** If one of the files has no record in the period, the run does not succeed, however many records the others have there. -/
theorem C111_nothing (k : Computer) (files : List Str) (output : Option Str) (zone : Str) (z : TzSpans) (b e : Option Str) (tb te : Option Int) (col : TimestampCol) (names : List Str)
    (tables : List (List (List Str))) (time : List Str → Int) (dev : Device) (h : CutRun k files output zone z col names tables time dev) (hb : Bound z b tb) (he : Bound z e te)
    (table : List (List Str)) (ht : table ∈ tables) (hn : ∀ rec ∈ table, ¬ Between tb te (time rec)) :
    (chopperCli k.env (cutArgs files output zone b e)).result ≠ .ok () := by
  obtain ⟨st, h1, h2, h3, h4, h5, hrange⟩ := cut_reads h hb he
  refine C21_tool_never_succeeds k.env _ st _ h1 (read_opens ⟨rfl, rfl⟩ h4 h5) _ (List.mem_map.2 ⟨table, ht, rfl⟩) ?_
  intro r hr
  obtain ⟨rec, hrec, rfl⟩ := List.mem_map.1 hr
  obtain ⟨fmt, htimes⟩ := h.times table ht
  obtain ⟨_, a0, a1⟩ := htimes rec hrec
  rw [Bool.eq_false_iff]
  intro hin
  rw [hrange, nanos_toNat a0 a1] at hin
  exact hn rec hrec hin

/-- **C111 (a year).** `--begin YYYY --end` the year after, in universal time: what remains of a file with dates are exactly the records of the year. -/
theorem C111_year (k : Computer) (file : Str) (output : Option Str) (zone : Str) (ty ty' : Str) (y : Nat) (hy : HasDigits 4 y ty) (hy' : HasDigits 4 (y + 1) ty') (hmin : 1970 ≤ y)
    (hmax : y ≤ 2260) (nb ne : Int)
    (hnb : DaysFrom1970 ⟨y, 1, 1⟩ nb) (hne : DaysFrom1970 ⟨(y : Int) + 1, 1, 1⟩ ne) (i : Nat) (names : List Str) (recs : List (List Str)) (date : List Str → Date) (day : List Str → Int)
    (hday : ∀ rec ∈ recs, DaysFrom1970 (date rec) (day rec)) (dev : Device)
    (h : CutRun k [file] output zone utc (.index i) names [recs] (fun rec => day rec * 86400 * 10 ^ 9) dev) (hsome : ∃ rec ∈ recs, (date rec).year = y) :
    ∃ out, (chopperCli k.env (cutArgs [file] output zone (some ty) (some ty'))).result = .ok () ∧
      (chopperCli k.env (cutArgs [file] output zone (some ty) (some ty'))).output = some out ∧
      out.taken = dev.taken ++ utf8Encode (csvText ',' (names :: recs.filter fun rec => (date rec).year = y)) := by
  obtain ⟨_, e1⟩ := (daysFrom1970_iff _ _).1 hnb
  obtain ⟨_, e2⟩ := (daysFrom1970_iff _ _).1 hne
  have b1 := first_bounds (y := y) (m := 1) (by omega) (by omega) hmin (by omega)
  have b2 := first_bounds (y := y + 1) (m := 1) (by omega) (by omega) (by omega) (by omega)
  have e1' : dayNumber (y : Int) 1 1 = nb := e1
  have e2' : dayNumber ((y + 1 : Nat) : Int) 1 1 = ne := e2
  rw [e1'] at b1
  rw [e2'] at b2
  have hsel : ∀ rec ∈ recs, Between (some (nb * 86400 * 10 ^ 9)) (some (ne * 86400 * 10 ^ 9)) (day rec * 86400 * 10 ^ 9) ↔ (date rec).year = y := by
    intro rec hr
    simp only [Between, Option.some.injEq, forall_eq']
    obtain ⟨hreal, hd⟩ := (daysFrom1970_iff _ _).1 (hday rec hr)
    have m1 := month_start_le hreal y (m := 1) (by decide) (by decide)
    have m2 := month_start_le hreal ((y + 1 : Nat) : Int) (m := 1) (by decide) (by decide)
    obtain ⟨hm, _⟩ := (realDate_iff _).1 hreal
    rw [e1', hd] at m1
    rw [e2', hd] at m2
    omega
  obtain ⟨out, h1, h2, h3⟩ := C111_cut k file output zone utc (some ty) (some ty') (some (nb * 86400 * 10 ^ 9)) (some (ne * 86400 * 10 ^ 9)) _ names recs _ dev h
    ⟨.day (.year hy) hnb ((utc_only _ _).2 rfl), by omega, by omega⟩ ⟨.day (.year hy') hne ((utc_only _ _).2 rfl), by omega, by omega⟩ (by
      obtain ⟨rec, hr, hy⟩ := hsome
      exact ⟨rec, hr, (hsel rec hr).2 hy⟩)
  refine ⟨out, h1, h2, ?_⟩
  rw [h3]
  congr 4
  apply List.filter_congr
  intro rec hr
  rw [Bool.eq_iff_iff]
  simp only [decide_eq_true_eq]
  exact hsel rec hr

/-! ### Example: the year 2019 of a file with dates -/
def cutNames : List Str := ["date".toList, "v".toList]
def cutRecs : List (List Str) := [["20181231".toList, "x".toList], ["20190101".toList, "y".toList], ["20191231".toList, []], ["20200101".toList, "z".toList]]
def cutDate (rec : List Str) : Date :=
  ⟨decimalValue ((rec.headD []).take 4), decimalValue (((rec.headD []).drop 4).take 2), decimalValue ((rec.headD []).drop 6)⟩
def cutDay (rec : List Str) : Int := dayNumber (cutDate rec).year (cutDate rec).month (cutDate rec).day
def cutWorld (bytes : List Byte) : World :=
  ⟨fun p => p == utf8Encode "d.csv".toList, fun _ => false, fun p => if p = utf8Encode "d.csv".toList then some ⟨bytes, [.bytes 5], none⟩ else none,
   fun _ => none, fun _ => .err (.io .other), ⟨[], [], none⟩⟩
def cutComputer (bytes : List Byte) : Computer :=
  { ov := .panics, csv := plainEnv.csv, isF64 := fun _ => false, lower := fun s => s.map Char.toLower, ff := plainFloats, ch := ⟨fun bs => [bs], by simp⟩,
    dec := ⟨fun r => r.inner, fun r => r.inner, fun r => r.inner, fun _ => none, fun _ => none⟩, zip := exLib, world := cutWorld bytes,
    out := ⟨fun _ => some exDev, ⟨[], [], 0⟩⟩, zones := fun n => if n = "UTC".toList then some utc else none, tzVar := none }

theorem cut_date_text : ∀ rec ∈ cutRecs, rec[0]? = some (rec.headD []) ∧ DateText (cutDate rec) [] (rec.headD []) ∧ DaysFrom1970 (cutDate rec) (cutDay rec) := by
  have key : ∀ rec ∈ cutRecs, rec[0]? = some (rec.headD []) ∧ ((rec.headD []).take 4).length = 4 ∧ (((rec.headD []).drop 4).take 2).length = 2 ∧ ((rec.headD []).drop 6).length = 2 ∧
      (∀ c ∈ rec.headD [], 48 ≤ c.toNat ∧ c.toNat ≤ 57) ∧ rec.headD [] = (rec.headD []).take 4 ++ [] ++ ((rec.headD []).drop 4).take 2 ++ [] ++ (rec.headD []).drop 6 := by decide +kernel
  have real : ∀ rec ∈ cutRecs, RealDate (cutDate rec) := by
    intro rec hr
    rw [realDate_iff]
    revert rec
    decide +kernel
  intro rec hr
  obtain ⟨h1, h2, h3, h4, h5, h6⟩ := key rec hr
  exact ⟨h1, ⟨_, _, _, _, rfl, ⟨h2, fun c hc => h5 c (List.mem_of_mem_take hc), rfl⟩, ⟨h3, fun c hc => h5 c (List.mem_of_mem_drop (List.mem_of_mem_take hc)), rfl⟩,
    ⟨h4, fun c hc => h5 c (List.mem_of_mem_drop hc), rfl⟩, h6⟩, (daysFrom1970_iff _ _).2 ⟨real rec hr, rfl⟩⟩

theorem cut_example (bytes : List Byte) (hb : bytes = utf8Encode (csvText ',' (cutNames :: cutRecs))) :
    CutRun (cutComputer bytes) ["d.csv".toList] (some "o.csv".toList) "UTC".toList utc (.index 0) cutNames [cutRecs]
      (fun rec => cutDay rec * 86400 * 10 ^ 9) exDev where
  contract := plainCsv_reads
  zoneKnown := rfl
  zoneOrder := utc_ordered
  here := by
    refine ⟨by simp, rfl, ?_⟩
    intro i s recs h1 h2
    match i, h1, h2 with
    | 0, h1, h2 =>
      cases h1; cases h2
      exact ⟨"d.csv".toList, .auto, [.bytes 5], rfl, ⟨rfl, by simp [cutComputer, cutWorld], by simp [cutComputer, cutWorld, hb]⟩, by simp, by decide +kernel, by decide +kernel,
        .inl ⟨['d'], by decide +kernel, rfl⟩⟩
    | _ + 1, h1, h2 => cases h1
  plain := by
    intro recs hr
    obtain rfl : recs = cutRecs := by simpa using hr
    refine ⟨fun l hl t ht => plain_text t ?_, ?_, ?_⟩
    · revert t; revert l; decide +kernel
    · decide +kernel
    · decide +kernel
  widths := ⟨by decide, by decide +kernel⟩
  nameChars := by decide +kernel
  twoLines := by decide +kernel
  headed := by
    intro recs hr
    obtain rfl : recs = cutRecs := by simpa using hr
    refine ⟨_, 0, _, _, rfl, rfl, rfl, ?_⟩
    rw [sameKind_iff]
    have : ¬ guessType (fun _ => false) "date".toList = guessType (fun _ => false) "20181231".toList := by decide +kernel
    exact this
  column := (C13_chosen (fun s => s.map Char.toLower) cutNames _ _).1 (by decide +kernel)
  times := by
    intro recs hr
    obtain rfl : recs = cutRecs := by simpa using hr
    refine ⟨.dateNeedsExternalTz "%Y%m%d".toList, fun rec hrec => ?_⟩
    obtain ⟨h1, h2, h3⟩ := cut_date_text rec hrec
    refine ⟨.date h1 h2 h3 ((utc_only _ _).2 rfl), ?_⟩
    clear h1 h2 h3; revert rec
    decide +kernel
  sorted := by decide +kernel
  device := .inr ⟨"o.csv".toList, rfl, by decide +kernel, rfl⟩
  reliable := by intro k; simp [exDev]

/-- `chopper d.csv --output o.csv --timezone UTC --begin 2019 --end 2020 --csv-out-print-time no`. -/
example : ∃ out, (chopperCli (cutComputer (utf8Encode (csvText ',' (cutNames :: cutRecs)))).env
      (cutArgs ["d.csv".toList] (some "o.csv".toList) "UTC".toList (some "2019".toList) (some "2020".toList))).output = some out ∧
    out.taken = utf8Encode "date,v\n20190101,y\n20191231,\n".toList := by
  obtain ⟨out, _, h2, h3⟩ := C111_year _ "d.csv".toList (some "o.csv".toList) "UTC".toList "2019".toList "2020".toList 2019 (by unfold HasDigits; decide +kernel)
    (by unfold HasDigits; decide +kernel) (by decide) (by decide) 17897 18262 ((daysFrom1970_iff _ _).2 ⟨by rw [realDate_iff]; decide +kernel, by decide +kernel⟩)
    ((daysFrom1970_iff _ _).2 ⟨by rw [realDate_iff]; decide +kernel, by decide +kernel⟩) 0 cutNames cutRecs cutDate cutDay (fun rec hr => (cut_date_text rec hr).2.2) exDev (cut_example _ rfl)
    (by decide +kernel)
  refine ⟨out, h2, ?_⟩
  rw [h3]
  decide +kernel

end Chopper.Props
