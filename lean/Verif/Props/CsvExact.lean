import Verif.Proofs.CsvExact
import Verif.Props.CsvCopy
import Verif.Props.Timestamp2

/-!
# What CSV inputs mean, record by record: C97; and when they grow: C98
-/
namespace Chopper.Props
open Chopper Spec

theorem csvMeaning_run (env : CsvEnv) (tz : ChopperTz env.lib) (hdr : Header) (col : TimestampCol) (fmt : TimestampFmt) (first : List Str) (ts : Nanos) (rest : List (Res (List Str)))
    (ht : TimeOf env.ov env.lib tz col fmt first (.ok ts)) (out : Source) :
    RunsAs (CsvSource.nextRow env tz) ⟨rest, hdr, col, fmt, ⟨ts, first.map .string⟩, true⟩ out ↔ CsvMeaning env.ov env.lib tz col fmt (.ok first :: rest) out := by
  obtain ⟨more, rest', src, h1, h2, h3, h4, h5⟩ := csv_records_run env tz hdr col fmt first.length rest [] first ts _ ht (holds_first first)
  have hm : CsvMeaning env.ov env.lib tz col fmt (.ok first :: rest) src := by
    refine ⟨first, more, rest', by simp [h1], ?_, ?_, ?_⟩
    · intro rec hr
      rcases List.mem_cons.1 hr with rfl | hr
      · exact ⟨Nat.le_refl _, ts, ht⟩
      · exact h2 rec hr
    · intro k row hk
      simpa using h4 k row hk
    · exact h5
  constructor
  · intro hr
    rw [runsAs_unique hr h3]
    exact hm
  · intro hr
    rw [csvMeaning_unique hr hm]
    exact h3

theorem first_row (env : CsvEnv) (tz : ChopperTz env.lib) (first : List Str) (col : TimestampCol) (fmt : TimestampFmt) :
    updateRow env tz col fmt ⟨0, List.replicate first.length .none⟩ first =
      match getTimestamp env.ov env.lib tz first col fmt with
      | .ok ts => (.ok (), ⟨ts, first.map .string⟩)
      | .err e => (.err e, ⟨0, first.map .string⟩)
      | .panic => (.panic, ⟨0, first.map .string⟩)
      | .diverge => (.diverge, ⟨0, first.map .string⟩) := by
  unfold updateRow
  simp only [setValues_eq, List.length_replicate, Nat.le_refl, if_true, overlay_all]
  cases getTimestamp env.ov env.lib tz first col fmt <;> rfl

/-- A source that was opened. -/
theorem csvStart_ok {env : CsvEnv} {cfg : CsvInputConfig env.lib} {hh : Bool} {data : CsvData} {src : CsvSource} : csvStart env cfg hh data = .ok src ↔
    ∃ first rest names col fmt ts, data.records = .ok first :: rest ∧ csvNames hh data.headers first.length = .ok names ∧
      getTimestampColAndFmt env.lower env.lib cfg.tz names first cfg.tsCol cfg.tsFmt = .ok (col, fmt) ∧ TimeOf env.ov env.lib cfg.tz col fmt first (.ok ts) ∧
      src = ⟨rest, ⟨names, List.replicate first.length .string⟩, col, fmt, ⟨ts, first.map .string⟩, true⟩ := by
  obtain ⟨headers, records⟩ := data
  constructor
  · intro h
    cases records with
    | nil => cases h
    | cons x rest =>
      simp only [csvStart, Res.bind_eq_ok] at h
      obtain ⟨first, rfl, names, hn, ⟨col, fmt⟩, hc, h⟩ := h
      simp only [first_row] at h
      cases hg : getTimestamp env.ov env.lib cfg.tz first col fmt with
      | ok ts =>
        simp only [hg, Res.ok.injEq] at h
        obtain ⟨_, _, h⟩ := h
        exact ⟨first, rest, names, col, fmt, ts, rfl, hn, hc, timeOf_iff.2 hg, h.symm⟩
      | err e => simp [hg] at h
      | panic => simp [hg] at h
      | diverge => simp [hg] at h
  · rintro ⟨first, rest, names, col, fmt, ts, hr, hn, hc, ht, rfl⟩
    simp only at hr hn
    subst hr
    simp only [csvStart, Res.bind_ok, hn, hc, first_row, timeOf_iff.1 ht]

/-- **C97 (rows).** The rows of an open CSV input, and its end, are exactly what the records mean. -/
theorem C97_rows (env : CsvEnv) (cfg : CsvInputConfig env.lib) (p : Previewer) (headers : Res (List Str)) (records : List (Res (List Str))) (src : CsvSource)
    (hr : ReadsRecords env cfg p headers records) (ho : csvOpen env cfg p = .ok src) (out : Source) :
    RunsAs (CsvSource.nextRow env cfg.tz) src out ↔ CsvMeaning env.ov env.lib cfg.tz src.tsCol src.tsFmt records out := by
  obtain ⟨d, hd, hparse⟩ := hr
  unfold csvOpen at ho
  simp only [hd, Res.bind_ok, hparse] at ho
  obtain ⟨first, rest, names, col, fmt, ts, hrec, hn, hc, ht, rfl⟩ := csvStart_ok.1 ho
  simp only at hrec
  subst hrec
  exact csvMeaning_run env cfg.tz _ col fmt first ts rest ht out

/-- Every record has exactly one of: a time, an error, a crash. -/
theorem C97_time (ov : Overflow) (lib : DateLib) (tz : ChopperTz lib) (col : TimestampCol) (fmt : TimestampFmt) (record : List Str) (r : Res Nanos) :
    getTimestamp ov lib tz record col fmt = r ↔ TimeOf ov lib tz col fmt record r := timeOf_iff.symm

/-- Explicit settings with times as numbers. -/
structure Explicit {lib : DateLib} (cfg : CsvInputConfig lib) (b : Byte) (header : Bool) (u : TimestampUnits) : Prop where
  delimiter : cfg.delimiter = some b
  header : cfg.hasHeader = if header then .yes else .no
  column : cfg.tsCol ≠ .auto
  format : cfg.tsFmt = .epoch u

theorem explicit_open {env : CsvEnv} {cfg : CsvInputConfig env.lib} {b : Byte} {header : Bool} {u : TimestampUnits} (h : Explicit cfg b header u) (p : Previewer) :
    csvOpen env cfg p = csvStart env cfg header (env.csv.parse b header p.reader) := by
  unfold csvOpen
  simp only [h.delimiter, csvDelimiter, Res.bind_ok, h.header]
  cases header <;> rfl

theorem explicit_col {lower : Str → Str} {lib : DateLib} {tz : ChopperTz lib} {cfg : CsvInputConfig lib} {b : Byte} {header : Bool} {u : TimestampUnits} (h : Explicit cfg b header u)
    (names first : List Str) : getTimestampColAndFmt lower lib tz names first cfg.tsCol cfg.tsFmt = (getTimestampCol lower names cfg.tsCol).bind fun c => .ok (c.1, .units u) := by
  unfold getTimestampColAndFmt
  rw [h.format]
  rfl

theorem csvNames_iff {header : Bool} {data : CsvData} {w : Nat} {names : List Str} : csvNames header data.headers w = .ok names ↔ CsvNames header data w names := by
  unfold csvNames CsvNames
  cases header with
  | true => simp
  | false =>
    simp only [Bool.false_eq_true, if_false, Res.ok.injEq]
    have e : (List.range w).map defaultName = (List.range w).map (fun i => "col_".toList ++ decimal i) :=
      List.map_congr_left fun i _ => by
        show _ ++ natToStr i = _
        rw [natToStr_repr]; rfl
    rw [← e]
    constructor <;> (intro h; subst h; rfl)

theorem explicit_col_iff {lower : Str → Str} {lib : DateLib} {tz : ChopperTz lib} {cfg : CsvInputConfig lib} {b : Byte} {header : Bool} {u : TimestampUnits} (h : Explicit cfg b header u)
    {names first : List Str} {col : TimestampCol} {fmt : TimestampFmt} :
    getTimestampColAndFmt lower lib tz names first cfg.tsCol cfg.tsFmt = .ok (col, fmt) ↔ fmt = .units u ∧ ∃ hint, ColumnFor names cfg.tsCol col hint := by
  rw [explicit_col h]
  simp only [Res.bind_eq_ok, Res.ok.injEq, Prod.mk.injEq]
  constructor
  · rintro ⟨⟨c, hint⟩, h1, rfl, rfl⟩
    exact ⟨rfl, hint, ((C73_column lower names cfg.tsCol h.column).1 c hint).1 h1⟩
  · rintro ⟨rfl, hint, h1⟩
    exact ⟨(col, hint), ((C73_column lower names cfg.tsCol h.column).1 col hint).2 h1, rfl, rfl⟩

/-- **C97 (opening).** With explicit settings a CSV input is opened with this header and gives these rows and this end exactly if that is what it means. -/
theorem C97_open (env : CsvEnv) (cfg : CsvInputConfig env.lib) (b : Byte) (header : Bool) (u : TimestampUnits) (hc : Explicit cfg b header u) (p : Previewer) (h : Header) (out : Source) :
    ((csvOpen env cfg p).bind fun src => .ok (src.toFile env cfg.tz)) = .ok ⟨h, out⟩ ↔
      IsCsvInput env.ov env.lib cfg.tz header cfg.tsCol u (env.csv.parse b header p.reader) h out := by
  rw [explicit_open hc]
  simp only [Res.bind_eq_ok, Res.ok.injEq]
  constructor
  · rintro ⟨src, ho, hf⟩
    obtain ⟨first, rest, names, col, fmt, ts, hrec, hn, hcf, ht, rfl⟩ := csvStart_ok.1 ho
    obtain ⟨rfl, hint, hcol⟩ := (explicit_col_iff hc).1 hcf
    refine ⟨first, rest, names, col, hint, hrec, csvNames_iff.1 hn, hcol, (congrArg FileSource.header hf).symm, ?_⟩
    have hr := csv_toFile_runs env cfg.tz ⟨rest, ⟨names, List.replicate first.length .string⟩, col, .units u, ⟨ts, first.map .string⟩, true⟩
    rw [hf] at hr
    rw [hrec]
    exact (csvMeaning_run env cfg.tz _ col _ first ts rest ht out).1 hr
  · rintro ⟨first, rest, names, col, hint, hrec, hn, hcol, rfl, hm⟩
    have ht : ∃ ts, TimeOf env.ov env.lib cfg.tz col (.units u) first (.ok ts) := by
      obtain ⟨f, g, r, h1, h2, _⟩ := hm
      rw [hrec] at h1
      simp at h1
      obtain ⟨rfl, _⟩ := h1
      exact (h2 _ (by simp)).2
    obtain ⟨ts, ht⟩ := ht
    refine ⟨_, csvStart_ok.2 ⟨first, rest, names, col, .units u, ts, hrec, csvNames_iff.2 hn, (explicit_col_iff hc).2 ⟨rfl, hint, hcol⟩, ht, rfl⟩, ?_⟩
    rw [hrec] at hm
    have hr := csv_toFile_runs env cfg.tz ⟨rest, ⟨names, List.replicate first.length .string⟩, col, .units u, ⟨ts, first.map .string⟩, true⟩
    have := runsAs_unique hr ((csvMeaning_run env cfg.tz _ col _ first ts rest ht out).2 hm)
    unfold CsvSource.toFile at this ⊢
    simp only at this ⊢
    rw [this]

theorem getFieldIndex_cases (names : List Str) (n : Str) : (∃ i, getFieldIndex names n = .ok i) ∨ getFieldIndex names n = .err (.custom "Failed to find column named") := by
  unfold getFieldIndex
  cases names.findIdx? (fun s => s == n) <;> simp [Res.okOr]

theorem getTimestampCol_cases {lower : Str → Str} {names : List Str} {cfg : TimestampColConfig} (hcfg : cfg ≠ .auto) :
    (∃ r, getTimestampCol lower names cfg = .ok r) ∨ getTimestampCol lower names cfg = .err (.custom "Failed to find column named") := by
  cases cfg with
  | auto => exact absurd rfl hcfg
  | index i => exact .inl ⟨_, rfl⟩
  | dateTimeIndex d t => exact .inl ⟨_, rfl⟩
  | name n =>
    rcases getFieldIndex_cases names n with ⟨i, hi⟩ | h
    · exact .inl ⟨_, by simp only [getTimestampCol, hi]; rfl⟩
    · exact .inr (by simp only [getTimestampCol, h]; rfl)
  | dateTimeName d t =>
    rcases getFieldIndex_cases names d with ⟨i, hi⟩ | h
    · rcases getFieldIndex_cases names t with ⟨j, hj⟩ | h
      · exact .inl ⟨_, by simp only [getTimestampCol, hi, hj]; rfl⟩
      · exact .inr (by simp only [getTimestampCol, hi, h]; rfl)
    · exact .inr (by simp only [getTimestampCol, h]; rfl)

theorem getTimestampCol_err {lower : Str → Str} {names : List Str} {cfg : TimestampColConfig} (hcfg : cfg ≠ .auto) {e : Err} (h : getTimestampCol lower names cfg = .err e) :
    e = .custom "Failed to find column named" := by
  rcases getTimestampCol_cases (lower := lower) (names := names) hcfg with ⟨r, hr⟩ | hr <;> rw [hr] at h <;> cases h
  rfl

theorem getTimestampCol_ends {lower : Str → Str} {names : List Str} {cfg : TimestampColConfig} (hcfg : cfg ≠ .auto) :
    getTimestampCol lower names cfg ≠ .panic ∧ getTimestampCol lower names cfg ≠ .diverge := by
  rcases getTimestampCol_cases (lower := lower) (names := names) hcfg with ⟨r, hr⟩ | hr <;> rw [hr] <;> exact ⟨by simp, by simp⟩

/-- The outcome of opening in terms of what is read, one step after the other. -/
theorem explicit_cases {env : CsvEnv} {cfg : CsvInputConfig env.lib} {b : Byte} {header : Bool} {u : TimestampUnits} (h : Explicit cfg b header u) (data : CsvData) :
    match csvStart env cfg header data with
    | .ok _ => (∀ e, ¬ CsvRejected env.ov env.lib cfg.tz header cfg.tsCol u data e) ∧ ¬ CsvCrashes env.ov env.lib cfg.tz header cfg.tsCol u data
    | .err e => (∀ e', CsvRejected env.ov env.lib cfg.tz header cfg.tsCol u data e' ↔ e' = e) ∧ ¬ CsvCrashes env.ov env.lib cfg.tz header cfg.tsCol u data
    | .panic => (∀ e, ¬ CsvRejected env.ov env.lib cfg.tz header cfg.tsCol u data e) ∧ CsvCrashes env.ov env.lib cfg.tz header cfg.tsCol u data
    | .diverge => (∀ e, ¬ CsvRejected env.ov env.lib cfg.tz header cfg.tsCol u data e) ∧ ¬ CsvCrashes env.ov env.lib cfg.tz header cfg.tsCol u data := by
  obtain ⟨headers, records⟩ := data
  cases records with
  | nil =>
    refine ⟨fun e he => ?_, .empty rfl⟩
    cases he with
    | record h => cases h
    | header h => cases h
    | column h => cases h
    | time h => cases h
  | cons x rest =>
    cases x with
    | err e =>
      refine ⟨fun e' => ⟨fun he => ?_, fun he => he ▸ .record rfl⟩, fun hc => ?_⟩
      · cases he with
        | record h => cases h; rfl
        | header h => cases h
        | column h => cases h
        | time h => cases h
      · cases hc with
        | empty h => cases h
        | record h => cases h
        | header h => cases h
        | time h => cases h
    | panic =>
      refine ⟨fun e he => ?_, .record rfl⟩
      cases he with
      | record h => cases h
      | header h => cases h
      | column h => cases h
      | time h => cases h
    | diverge =>
      refine ⟨fun e he => ?_, fun hc => ?_⟩
      · cases he with
        | record h => cases h
        | header h => cases h
        | column h => cases h
        | time h => cases h
      · cases hc with
        | empty h => cases h
        | record h => cases h
        | header h => cases h
        | time h => cases h
    | ok first =>
      have hnames : ∀ names, csvNames header headers first.length = .ok names ↔ CsvNames header ⟨headers, .ok first :: rest⟩ first.length names := fun names =>
        csvNames_iff (data := ⟨headers, .ok first :: rest⟩)
      simp only [csvStart, Res.bind_ok]
      cases hn : csvNames header headers first.length with
      | ok names =>
        have hnm := (hnames names).1 hn
        have huniq : ∀ names', CsvNames header ⟨headers, .ok first :: rest⟩ first.length names' → names' = names := by
          intro names' h'
          rw [← hnames, hn] at h'
          exact (Res.ok.inj h').symm
        have hok : header = true → headers = .ok names := by
          rintro rfl
          simpa [csvNames] using hn
        simp only [Res.bind_ok, explicit_col h]
        cases hc : getTimestampCol env.lower names cfg.tsCol with
        | ok c =>
          obtain ⟨c, hint⟩ := c
          have hcol := ((C73_column env.lower names cfg.tsCol h.column).1 c hint).1 hc
          have hcu : ∀ c' hint', ColumnFor names cfg.tsCol c' hint' → c' = c := by
            intro c' hint' h'
            rw [← (C73_column env.lower names cfg.tsCol h.column).1, hc] at h'
            cases h'; rfl
          have htime := timeOf_get env.ov env.lib cfg.tz c (.units u) first
          simp only [Res.bind_ok, first_row]
          cases hg : getTimestamp env.ov env.lib cfg.tz first c (.units u) with
          | ok ts =>
            rw [hg] at htime
            refine ⟨fun e he => ?_, fun hx => ?_⟩
            · cases he with
              | record h => cases h
              | header h1 h2 h3 => rw [hok h2] at h3; cases h3
              | column h1 h2 h3 => cases h1; cases huniq _ h2; exact h3 _ _ hcol
              | time h1 h2 h3 h4 => cases h1; cases huniq _ h2; cases hcu _ _ h3; cases timeOf_unique h4 htime
            · cases hx with
              | empty h => cases h
              | record h => cases h
              | header h1 h2 h3 => rw [hok h2] at h3; cases h3
              | time h1 h2 h3 h4 => cases h1; cases huniq _ h2; cases hcu _ _ h3; cases timeOf_unique h4 htime
          | err e =>
            rw [hg] at htime
            refine ⟨fun e' => ⟨fun he => ?_, fun he => he ▸ .time rfl hnm hcol htime⟩, fun hx => ?_⟩
            · cases he with
              | record h => cases h
              | header h1 h2 h3 => rw [hok h2] at h3; cases h3
              | column h1 h2 h3 => cases h1; cases huniq _ h2; exact (h3 _ _ hcol).elim
              | time h1 h2 h3 h4 => cases h1; cases huniq _ h2; cases hcu _ _ h3; cases timeOf_unique h4 htime; rfl
            · cases hx with
              | empty h => cases h
              | record h => cases h
              | header h1 h2 h3 => rw [hok h2] at h3; cases h3
              | time h1 h2 h3 h4 => cases h1; cases huniq _ h2; cases hcu _ _ h3; cases timeOf_unique h4 htime
          | panic =>
            rw [hg] at htime
            refine ⟨fun e he => ?_, .time rfl hnm hcol htime⟩
            cases he with
            | record h => cases h
            | header h1 h2 h3 => rw [hok h2] at h3; cases h3
            | column h1 h2 h3 => cases h1; cases huniq _ h2; exact h3 _ _ hcol
            | time h1 h2 h3 h4 => cases h1; cases huniq _ h2; cases hcu _ _ h3; cases timeOf_unique h4 htime
          | diverge => exact absurd hg (getTimestamp_ends _ _ _ _ _ _)
        | err e =>
          have hno : ∀ c hint, ¬ ColumnFor names cfg.tsCol c hint := by
            intro c hint hx
            rw [← (C73_column env.lower names cfg.tsCol h.column).1, hc] at hx
            cases hx
          have hmsg : e = .custom "Failed to find column named" := getTimestampCol_err h.column hc
          subst hmsg
          refine ⟨fun e' => ⟨fun he => ?_, fun he => he ▸ .column rfl hnm hno⟩, fun hx => ?_⟩
          · cases he with
            | record h => cases h
            | header h1 h2 h3 => rw [hok h2] at h3; cases h3
            | column h1 h2 h3 => rfl
            | time h1 h2 h3 h4 => cases h1; cases huniq _ h2; exact (hno _ _ h3).elim
          · cases hx with
            | empty h => cases h
            | record h => cases h
            | header h1 h2 h3 => rw [hok h2] at h3; cases h3
            | time h1 h2 h3 h4 => cases h1; cases huniq _ h2; exact hno _ _ h3
        | panic => exact absurd hc (getTimestampCol_ends h.column).1
        | diverge => exact absurd hc (getTimestampCol_ends h.column).2
      | err e =>
        have hh : header = true ∧ headers = .err e := by
          cases header with
          | true => exact ⟨rfl, hn⟩
          | false => simp [csvNames] at hn
        obtain ⟨rfl, rfl⟩ := hh
        have hno : ∀ names, ¬ CsvNames true ⟨.err e, .ok first :: rest⟩ first.length names := by
          intro names hx
          rw [← hnames] at hx
          cases hx
        refine ⟨fun e' => ⟨fun he => ?_, fun he => he ▸ .header rfl rfl rfl⟩, fun hx => ?_⟩
        · cases he with
          | record h => cases h
          | header h1 h2 h3 => cases h3; rfl
          | column h1 h2 h3 => cases h1; exact (hno _ h2).elim
          | time h1 h2 h3 h4 => cases h1; exact (hno _ h2).elim
        · cases hx with
          | empty h => cases h
          | record h => cases h
          | header h1 h2 h3 => cases h3
          | time h1 h2 h3 h4 => cases h1; exact hno _ h2
      | panic =>
        have hh : header = true ∧ headers = .panic := by
          cases header with
          | true => exact ⟨rfl, hn⟩
          | false => simp [csvNames] at hn
        obtain ⟨rfl, rfl⟩ := hh
        have hno : ∀ names, ¬ CsvNames true ⟨.panic, .ok first :: rest⟩ first.length names := by
          intro names hx
          rw [← hnames] at hx
          cases hx
        refine ⟨fun e he => ?_, .header rfl rfl rfl⟩
        cases he with
        | record h => cases h
        | header h1 h2 h3 => cases h3
        | column h1 h2 h3 => cases h1; exact hno _ h2
        | time h1 h2 h3 h4 => cases h1; exact hno _ h2
      | diverge =>
        have hh : header = true ∧ headers = .diverge := by
          cases header with
          | true => exact ⟨rfl, hn⟩
          | false => simp [csvNames] at hn
        obtain ⟨rfl, rfl⟩ := hh
        have hno : ∀ names, ¬ CsvNames true ⟨.diverge, .ok first :: rest⟩ first.length names := by
          intro names hx
          rw [← hnames] at hx
          cases hx
        refine ⟨fun e he => ?_, fun hx => ?_⟩
        · cases he with
          | record h => cases h
          | header h1 h2 h3 => cases h3
          | column h1 h2 h3 => cases h1; exact hno _ h2
          | time h1 h2 h3 h4 => cases h1; exact hno _ h2
        · cases hx with
          | empty h => cases h
          | record h => cases h
          | header h1 h2 h3 => cases h3
          | time h1 h2 h3 h4 => cases h1; exact hno _ h2

/-- **C97 (rejected inputs).** With explicit settings, opening fails with an error exactly for the inputs described by `CsvRejected`. -/
theorem C97_open_error (env : CsvEnv) (cfg : CsvInputConfig env.lib) (b : Byte) (header : Bool) (u : TimestampUnits) (hc : Explicit cfg b header u) (p : Previewer) (e : Err) :
    csvOpen env cfg p = .err e ↔ CsvRejected env.ov env.lib cfg.tz header cfg.tsCol u (env.csv.parse b header p.reader) e := by
  have := explicit_cases (env := env) hc (env.csv.parse b header p.reader)
  rw [explicit_open hc]
  generalize csvStart env cfg header (env.csv.parse b header p.reader) = r at this
  cases r with
  | ok s => exact ⟨fun h => (by cases h), fun h => absurd h (this.1 e)⟩
  | err e' => rw [this.1 e]; exact ⟨fun h => (by cases h; rfl), fun h => (by rw [h])⟩
  | panic => exact ⟨fun h => (by cases h), fun h => absurd h (this.1 e)⟩
  | diverge => exact ⟨fun h => (by cases h), fun h => absurd h (this.1 e)⟩

/-- **C97 (crashes).** With explicit settings, opening crashes exactly for the inputs described by `CsvCrashes`. -/
theorem C97_open_crash (env : CsvEnv) (cfg : CsvInputConfig env.lib) (b : Byte) (header : Bool) (u : TimestampUnits) (hc : Explicit cfg b header u) (p : Previewer) :
    csvOpen env cfg p = .panic ↔ CsvCrashes env.ov env.lib cfg.tz header cfg.tsCol u (env.csv.parse b header p.reader) := by
  have := explicit_cases (env := env) hc (env.csv.parse b header p.reader)
  rw [explicit_open hc]
  generalize csvStart env cfg header (env.csv.parse b header p.reader) = r at this
  cases r with
  | ok s => exact ⟨fun h => (by cases h), fun h => absurd h this.2⟩
  | err e' => exact ⟨fun h => (by cases h), fun h => absurd h this.2⟩
  | panic => exact ⟨fun _ => this.2, fun _ => rfl⟩
  | diverge => exact ⟨fun h => (by cases h), fun h => absurd h this.2⟩

/-- **C97 (files).** A CSV file opened by its name (or as format "csv") with explicit settings gives exactly the header, rows and end that its records mean. -/
theorem C97_file (env : CsvEnv) (dec : Decoders) (zip : ZipLib) (w : World) (cfg : CsvInputConfig env.lib) (b : Byte) (header : Bool) (u : TimestampUnits) (hc : Explicit cfg b header u)
    (s : Str) (fmt : InputFormat) (inner : Inner) (hf : FileAt w s inner) (hh : ¬ HttpAddress s) (hz : ¬ [0x50, 0x4b, 3, 4] <+: inner.data)
    (hfmt : (∃ base, lastComponent s = some (base ++ ".csv".toList) ∧ fmt = .auto) ∨ fmt = .extension "csv".toList ∨ fmt = .extension ".csv".toList) (h : Header) (out : Source) :
    createFromInput (newInputs env dec zip w (some cfg) [] []) w ⟨.path s, fmt⟩ = .ok ⟨h, out⟩ ↔
      ∃ p, Previewer.new defaultBufSize inner = .ok p ∧ IsCsvInput env.ov env.lib cfg.tz header cfg.tsCol u (env.csv.parse b header p.reader) h out := by
  rw [C66_csv_file env dec zip w cfg s fmt inner hf.notDir hf.here hf.opens hh hz hfmt]
  constructor
  · intro h1
    obtain ⟨p, hp, h2⟩ := Res.bind_eq_ok.1 h1
    exact ⟨p, hp, (C97_open env cfg b header u hc p h out).1 h2⟩
  · rintro ⟨p, hp, h2⟩
    rw [hp, Res.bind_ok]
    exact (C97_open env cfg b header u hc p h out).2 h2

/-- What the csv library makes of plain lines: the first one is the header line, if there is one. -/
def plainData (header : Bool) (lines : List (List Str)) : CsvData :=
  if header then ⟨.ok (lines.headD []), lines.tail.map .ok⟩ else ⟨.ok [], lines.map .ok⟩

theorem plain_parse {csv : CsvLib} (hp : ReadsPlain csv) {d : Char} {b : Byte} {lines : List (List Str)} {inner : Inner} (hd : d.toNat < 128) (hb : b.toNat = d.toNat) (hq : d ≠ '"')
    (hn : d ≠ '\n') (hr : d ≠ '\r') (ht : PlainTable d lines) (hi : NoFail inner) (hdata : inner.data = utf8Encode (csvText d lines)) :
    ∃ p, Previewer.new defaultBufSize inner = .ok p ∧ (csv.parse b false p.reader).records = lines.map .ok ∧ (lines ≠ [] → csv.parse b true p.reader = plainData true lines) := by
  obtain ⟨p, hpn, hinv, hpend, _, _, hnf, _⟩ : ∃ p, Previewer.new defaultBufSize inner = .ok p ∧ p.reader.Inv ∧ p.reader.pending = inner.data ∧ p.trimmed = inner.data.take defaultBufSize ∧
      (∀ pieces rest, IsLines (inner.data.take defaultBufSize) pieces rest →
        p.lines = decodeAll ((pieces ++ if rest = [] ∨ defaultBufSize ≤ inner.data.length then [] else [rest]).map dropCr)) ∧
      (NoFail inner → NoFail p.reader.inner) ∧ p.reader.inner.ending = inner.ending ∧ (inner.data.length < defaultBufSize → inner.ending = none) := by
    rcases previewer_spec defaultBufSize (by decide) inner with h | ⟨e, _, he⟩
    · exact h
    · exact absurd he (hi e)
  have hparse := hp d b lines p.reader hd hb hq hn hr ht hinv.pos hinv.cap (hnf hi) (by rw [← hdata, ← hpend]; rfl)
  refine ⟨p, hpn, hparse.1, fun hne => ?_⟩
  obtain ⟨h, t, rfl⟩ := List.exists_cons_of_ne_nil hne
  exact hparse.2 h t rfl

theorem plain_previewed {env : CsvEnv} (hp : ReadsPlain env.csv) {cfg : CsvInputConfig env.lib} {d : Char} {b : Byte} {header : Bool}
    {u : TimestampUnits} (hc : Explicit cfg b header u) (hd : d.toNat < 128) (hb : b.toNat = d.toNat) (hq : d ≠ '"') (hn : d ≠ '\n') (hr : d ≠ '\r')
    {lines : List (List Str)} (ht : PlainTable d lines) (hne : header = true → lines ≠ []) {inner : Inner} (hdata : inner.data = utf8Encode (csvText d lines)) (hi : NoFail inner)
    (h : Header) (out : Source) :
    ((Previewer.new defaultBufSize inner).bind fun p => (csvOpen env cfg p).bind fun src => .ok (src.toFile env cfg.tz)) = .ok ⟨h, out⟩ ↔
      IsCsvInput env.ov env.lib cfg.tz header cfg.tsCol u (plainData header lines) h out := by
  obtain ⟨p, hpn, h1, h2⟩ := plain_parse (b := b) hp hd hb hq hn hr ht hi hdata
  have key : IsCsvInput env.ov env.lib cfg.tz header cfg.tsCol u (env.csv.parse b header p.reader) h out ↔
      IsCsvInput env.ov env.lib cfg.tz header cfg.tsCol u (plainData header lines) h out := by
    cases header with
    | true => rw [h2 (hne rfl)]
    | false =>
      unfold IsCsvInput CsvNames
      simp only [Bool.false_eq_true, if_false]
      rw [h1]
      rfl
  rw [hpn, Res.bind_ok, C97_open env cfg b header u hc p h out]
  exact key

/-- **C97 (plain files).** The same of files that consist of plain lines: these lines are the records (the first one being the header line, if there is one), whatever the
csv library does with other files. -/
theorem C97_plain_file (env : CsvEnv) (hp : ReadsPlain env.csv) (dec : Decoders) (zip : ZipLib) (w : World) (cfg : CsvInputConfig env.lib) (d : Char) (b : Byte) (header : Bool)
    (u : TimestampUnits) (hc : Explicit cfg b header u) (hd : d.toNat < 128) (hb : b.toNat = d.toNat) (hq : d ≠ '"') (hn : d ≠ '\n') (hr : d ≠ '\r')
    (lines : List (List Str)) (ht : PlainTable d lines) (hne : header = true → lines ≠ [])
    (s : Str) (fmt : InputFormat) (inner : Inner) (hdata : inner.data = utf8Encode (csvText d lines)) (hi : NoFail inner)
    (hf : FileAt w s inner) (hh : ¬ HttpAddress s) (hz : ¬ [0x50, 0x4b, 3, 4] <+: inner.data)
    (hfmt : (∃ base, lastComponent s = some (base ++ ".csv".toList) ∧ fmt = .auto) ∨ fmt = .extension "csv".toList ∨ fmt = .extension ".csv".toList) (h : Header) (out : Source) :
    createFromInput (newInputs env dec zip w (some cfg) [] []) w ⟨.path s, fmt⟩ = .ok ⟨h, out⟩ ↔
      IsCsvInput env.ov env.lib cfg.tz header cfg.tsCol u (plainData header lines) h out := by
  rw [C66_csv_file env dec zip w cfg s fmt inner hf.notDir hf.here hf.opens hh hz hfmt]
  exact plain_previewed hp hc hd hb hq hn hr ht hne hdata hi h out

/-- **C97 (plain answers).** The same of http addresses whose answer consists of plain lines. -/
theorem C97_plain_http (env : CsvEnv) (hp : ReadsPlain env.csv) (dec : Decoders) (zip : ZipLib) (w : World) (cfg : CsvInputConfig env.lib) (d : Char) (b : Byte) (header : Bool)
    (u : TimestampUnits) (hc : Explicit cfg b header u) (hd : d.toNat < 128) (hb : b.toNat = d.toNat) (hq : d ≠ '"') (hn : d ≠ '\n') (hr : d ≠ '\r')
    (lines : List (List Str)) (ht : PlainTable d lines) (hne : header = true → lines ≠ [])
    (s : Str) (fmt : InputFormat) (inner : Inner) (hdata : inner.data = utf8Encode (csvText d lines)) (hi : NoFail inner)
    (hdir : w.isDir (utf8Encode s) = false) (he : w.pathExists (utf8Encode s) = false) (hh : HttpAddress s) (hf : w.http s = .ok inner)
    (hfmt : (∃ base, lastComponent s = some (base ++ ".csv".toList) ∧ fmt = .auto) ∨ fmt = .extension "csv".toList ∨ fmt = .extension ".csv".toList) (h : Header) (out : Source) :
    createFromInput (newInputs env dec zip w (some cfg) [] []) w ⟨.path s, fmt⟩ = .ok ⟨h, out⟩ ↔
      IsCsvInput env.ov env.lib cfg.tz header cfg.tsCol u (plainData header lines) h out := by
  rw [C66_csv_http env dec zip w cfg s fmt inner hdir he hh hf hfmt]
  exact plain_previewed hp hc hd hb hq hn hr ht hne hdata hi h out

/-! ### C98: inputs that grow -/

theorem split_good (ov : Overflow) (lib : DateLib) (tz : ChopperTz lib) (col : TimestampCol) (fmt : TimestampFmt) (width : Nat) : ∀ more : List (Res (List Str)),
    ∃ (g : List (List Str)) (rest : List (Res (List Str))), more = g.map .ok ++ rest ∧ (∀ rec ∈ g, rec.length ≤ width ∧ ∃ ts, TimeOf ov lib tz col fmt rec (.ok ts)) ∧
      (rest = [] ∨ ∃ bad m e, rest = bad :: m ∧ Stop ov lib tz col fmt width bad e)
  | [] => ⟨[], [], rfl, by simp, .inl rfl⟩
  | x :: more => by
    have stop : ∀ e, Stop ov lib tz col fmt width x e → ∃ (g : List (List Str)) (rest : List (Res (List Str))), x :: more = g.map .ok ++ rest ∧
        (∀ rec ∈ g, rec.length ≤ width ∧ ∃ ts, TimeOf ov lib tz col fmt rec (.ok ts)) ∧ (rest = [] ∨ ∃ bad m e, rest = bad :: m ∧ Stop ov lib tz col fmt width bad e) :=
      fun e h => ⟨[], x :: more, rfl, by simp, .inr ⟨x, more, e, rfl, h⟩⟩
    cases x with
    | err e => exact stop _ .library
    | panic => exact stop _ .libraryPanic
    | diverge => exact stop _ .libraryDiverge
    | ok r =>
      by_cases hl : r.length ≤ width
      · have ht := timeOf_get ov lib tz col fmt r
        cases hg : getTimestamp ov lib tz r col fmt with
        | ok ts =>
          rw [hg] at ht
          obtain ⟨g, rest, h1, h2, h3⟩ := split_good ov lib tz col fmt width more
          refine ⟨r :: g, rest, by simp [h1], ?_, h3⟩
          intro rec hr
          rcases List.mem_cons.1 hr with rfl | hr
          · exact ⟨hl, ts, ht⟩
          · exact h2 rec hr
        | err e => rw [hg] at ht; exact stop _ (.noTime hl ht)
        | panic => rw [hg] at ht; exact stop _ (.crashTime hl ht)
        | diverge => exact absurd hg (getTimestamp_ends _ _ _ _ _ _)
      · exact stop _ (.longer (by omega))

theorem latest_some {recs : List (List Str)} {first : List Str} (hm : first ∈ recs) {i : Nat} (hi : i < first.length) : ∃ f, latest recs i = some f := by
  unfold latest
  cases h : recs.reverse.findSome? (·[i]?) with
  | some f => exact ⟨f, rfl⟩
  | none =>
    have := List.findSome?_eq_none_iff.1 h first (by simpa using hm)
    simp at this
    omega

theorem rowOf_exists {ov : Overflow} {lib : DateLib} {tz : ChopperTz lib} {col : TimestampCol} {fmt : TimestampFmt} {first : List Str} {good : List (List Str)} {k : Nat}
    (hk : k < good.length + 1) (hg : ∀ rec ∈ first :: good, ∃ ts, TimeOf ov lib tz col fmt rec (.ok ts)) :
    ∃ row, RowOf ov lib tz col fmt first.length (first :: good) k row := by
  have hlt : k < (first :: good).length := by simpa using hk
  obtain ⟨ts, ht⟩ := hg _ (List.getElem_mem hlt)
  refine ⟨⟨ts, (List.range first.length).map fun i => .string ((latest ((first :: good).take (k + 1)) i).getD [])⟩, by simp, ⟨_, List.getElem?_eq_getElem hlt, ht⟩, ?_⟩
  intro i hi
  obtain ⟨f, hf⟩ := latest_some (recs := (first :: good).take (k + 1)) (first := first) (by simp) hi
  refine ⟨f, hf, ?_⟩
  rw [List.getElem?_map, List.getElem?_range hi]
  simp only [Option.map_some]
  rw [hf]
  rfl

theorem rowOf_append {ov : Overflow} {lib : DateLib} {tz : ChopperTz lib} {col : TimestampCol} {fmt : TimestampFmt} {width : Nat} {recs more : List (List Str)} {k : Nat} {row : Row}
    (hk : k < recs.length) : RowOf ov lib tz col fmt width (recs ++ more) k row ↔ RowOf ov lib tz col fmt width recs k row := by
  unfold RowOf
  rw [List.getElem?_append_left hk, List.take_append_of_le_length (by omega)]

theorem rows_exist {ov : Overflow} {lib : DateLib} {tz : ChopperTz lib} {col : TimestampCol} {fmt : TimestampFmt} {first : List Str} {good : List (List Str)}
    (hg : ∀ rec ∈ first :: good, ∃ ts, TimeOf ov lib tz col fmt rec (.ok ts)) : ∀ n, n ≤ good.length + 1 → ∃ rows : List Row, rows.length = n ∧
      ∀ (k : Nat) row, rows[k]? = some row → RowOf ov lib tz col fmt first.length (first :: good) k row
  | 0, _ => ⟨[], rfl, by simp⟩
  | n + 1, hn => by
    obtain ⟨rows, hl, hr⟩ := rows_exist hg n (by omega)
    obtain ⟨row, hrow⟩ := rowOf_exists (k := n) (by omega) hg
    refine ⟨rows ++ [row], by simp [hl], ?_⟩
    intro k r hk
    by_cases h : k < rows.length
    · rw [List.getElem?_append_left h] at hk; exact hr k r hk
    · rw [List.getElem?_append_right (by omega)] at hk
      cases hx : k - rows.length with
      | zero =>
        rw [hx] at hk; cases hk
        rw [show k = n by omega]
        exact hrow
      | succ m => rw [hx] at hk; simp at hk

theorem rows_prefix {A : Nat → Row → Prop} (hu : ∀ k a b, A k a → A k b → a = b) {xs ys : List Row} (hl : xs.length ≤ ys.length) (hx : ∀ (k : Nat) r, xs[k]? = some r → A k r)
    (hy : ∀ (k : Nat) r, k < xs.length → ys[k]? = some r → A k r) : xs <+: ys := by
  rw [List.prefix_iff_eq_take]
  refine List.ext_getElem? fun k => ?_
  by_cases hk : k < xs.length
  · have h1 : xs[k]? = some xs[k] := by simp [hk]
    have h2 : ys[k]? = some (ys[k]'(by omega)) := by simp [show k < ys.length by omega]
    rw [h1, List.getElem?_take, if_pos hk, h2, hu k _ _ (hx k _ h1) (hy k _ hk h2)]
  · rw [List.getElem?_eq_none (by omega), List.getElem?_eq_none (by simp; omega)]

/-- **C98 (records).** When an input grows by more records: if it ended with an error or a crash, nothing changes. Otherwise all its rows but the last one stay, and the
last one stays exactly if nothing was appended or the first appended record can be read; if that one cannot, the input now ends there. -/
theorem C98_records (ov : Overflow) (lib : DateLib) (tz : ChopperTz lib) (col : TimestampCol) (fmt : TimestampFmt) (first : List Str) (records more : List (Res (List Str))) (src : Source)
    (h : CsvMeaning ov lib tz col fmt (.ok first :: records) src) :
    ∃ src', CsvMeaning ov lib tz col fmt (.ok first :: records ++ more) src' ∧
      (src.ending ≠ .eof → src' = src) ∧
      (src.ending = .eof → src.rows.dropLast <+: src'.rows ∧
        (∀ bad m e, more = bad :: m → Stop ov lib tz col fmt first.length bad e → src' = ⟨src.rows.dropLast, e⟩) ∧
        ((∀ bad m e, more = bad :: m → ¬ Stop ov lib tz col fmt first.length bad e) → src.rows <+: src'.rows)) := by
  obtain ⟨f, good, rest, h1, h2, h3, h4⟩ := h
  have hf : f = first := by simp at h1; exact h1.1.symm
  subst hf
  rcases h4 with ⟨rfl, h5, h6⟩ | ⟨bad, m, rfl, h5, h6⟩
  · obtain ⟨g, rest', e1, e2, e3⟩ := split_good ov lib tz col fmt f.length more
    have hall : ∀ rec ∈ f :: (good ++ g), rec.length ≤ f.length ∧ ∃ ts, TimeOf ov lib tz col fmt rec (.ok ts) := by
      intro rec hr
      rw [← List.cons_append, List.mem_append] at hr
      rcases hr with hr | hr
      · exact h2 rec hr
      · exact e2 rec hr
    have hu : ∀ k a b, RowOf ov lib tz col fmt f.length (f :: (good ++ g)) k a → RowOf ov lib tz col fmt f.length (f :: (good ++ g)) k b → a = b := fun k a b => rowOf_unique
    have hold : ∀ (k : Nat) row, src.rows[k]? = some row → RowOf ov lib tz col fmt f.length (f :: (good ++ g)) k row := by
      intro k row hk
      rw [← List.cons_append]
      refine (rowOf_append ?_).2 (h3 k row hk)
      have := (List.getElem?_eq_some_iff.1 hk).1
      simp only [List.length_cons]; omega
    have hdrop : ∀ (k : Nat) row, src.rows.dropLast[k]? = some row → RowOf ov lib tz col fmt f.length (f :: (good ++ g)) k row := by
      intro k row hk
      refine hold k row ?_
      rw [List.getElem?_dropLast] at hk
      split at hk
      · exact hk
      · cases hk
    rcases e3 with rfl | ⟨bad, m, e, rfl, hs⟩
    · obtain ⟨rows, hl, hr⟩ := rows_exist (fun rec hrec => (hall rec hrec).2) ((good ++ g).length + 1) (Nat.le_refl _)
      refine ⟨⟨rows, .eof⟩, ⟨f, good ++ g, [], ?_, hall, hr, .inl ⟨rfl, hl, rfl⟩⟩, fun hx => absurd h6 hx, fun _ => ⟨?_, ?_, fun _ => ?_⟩⟩
      · simp at h1 e1 ⊢
        rw [h1, e1]
      · exact rows_prefix hu (by simp at hl ⊢; omega) hdrop (fun k r _ hk => hr k r hk)
      · intro bad m e hb hs
        rw [hb] at e1
        cases g with
        | nil => simp at e1
        | cons x g =>
          simp at e1
          rw [e1.1] at hs
          obtain ⟨a1, ts, a2⟩ := e2 x (by simp)
          exact (stop_not_good hs a1 a2).elim
      · exact rows_prefix hu (by simp at hl ⊢; omega) hold (fun k r _ hk => hr k r hk)
    · obtain ⟨rows, hl, hr⟩ := rows_exist (fun rec hrec => (hall rec hrec).2) (good ++ g).length (by omega)
      have hpre : src.rows.dropLast <+: rows := rows_prefix hu (by simp at hl ⊢; omega) hdrop (fun k r _ hk => hr k r hk)
      refine ⟨⟨rows, e⟩, ⟨f, good ++ g, bad :: m, ?_, hall, hr, .inr ⟨bad, m, rfl, hs, hl⟩⟩, fun hx => absurd h6 hx, fun _ => ⟨hpre, ?_, fun hno => ?_⟩⟩
      · simp at h1 e1 ⊢
        rw [h1, e1]
      · intro bad' m' e' hb hs'
        cases g with
        | nil =>
          simp at e1
          rw [hb] at e1
          cases e1
          obtain rfl := stop_unique hs hs'
          rw [hpre.eq_of_length (by simp at hl ⊢; omega)]
        | cons x g =>
          rw [hb] at e1
          simp at e1
          rw [e1.1] at hs'
          obtain ⟨a1, ts, a2⟩ := e2 x (by simp)
          exact (stop_not_good hs' a1 a2).elim
      · cases g with
        | nil => exact (hno bad m e (by simpa using e1) hs).elim
        | cons x g => exact rows_prefix hu (by simp at hl ⊢; omega) hold (fun k r _ hk => hr k r hk)
  · refine ⟨src, ⟨f, good, bad :: m ++ more, ?_, h2, h3, .inr ⟨bad, m ++ more, rfl, h5, h6⟩⟩, fun _ => rfl, fun hx => ?_⟩
    · simp at h1 ⊢
      rw [h1]; simp
    · rw [hx] at h5; cases h5

theorem columnFor_unique {names : List Str} {cfg : TimestampColConfig} (hcfg : cfg ≠ .auto) {c c' : TimestampCol} {x x' : Option TimestampUnits} (h : ColumnFor names cfg c x)
    (h' : ColumnFor names cfg c' x') : c = c' := by
  rw [← (C73_column id names cfg hcfg).1] at h h'
  rw [h] at h'
  cases h'; rfl

/-- A plain CSV file at this path, with these lines. -/
structure PlainCsvAt (w : World) (s : Str) (d : Char) (lines : List (List Str)) : Prop where
  plain : PlainTable d lines
  file : ∃ sched, FileAt w s ⟨utf8Encode (csvText d lines), sched, none⟩ ∧ ∀ k, ReadStep.fail k ∉ sched
  noZip : ¬ [0x50, 0x4b, 3, 4] <+: utf8Encode (csvText d lines)

/-- Opening `s` by its name or as format "csv". -/
def AsCsv (s : Str) (fmt : InputFormat) : Prop :=
  ¬ HttpAddress s ∧ ((∃ base, lastComponent s = some (base ++ ".csv".toList) ∧ fmt = .auto) ∨ fmt = .extension "csv".toList ∨ fmt = .extension ".csv".toList)

/-- What one would rather expect (it is false, see `C98_naive_false`): when complete lines are appended to a plain CSV file, the columns and rows that were read before are still there. -/
def C98_naive : Prop := ∀ (env : CsvEnv) (dec : Decoders) (zip : ZipLib) (w w' : World) (cfg : CsvInputConfig env.lib) (d : Char) (b : Byte) (header : Bool)
    (u : TimestampUnits) (s : Str) (fmt : InputFormat) (lines more : List (List Str)) (h : Header) (src : Source),
    ReadsPlain env.csv → Explicit cfg b header u → d.toNat < 128 → b.toNat = d.toNat → d ≠ '"' → d ≠ '\n' → d ≠ '\r' → AsCsv s fmt → PlainCsvAt w s d lines →
    PlainCsvAt w' s d (lines ++ more) →
    createFromInput (newInputs env dec zip w (some cfg) [] []) w ⟨.path s, fmt⟩ = .ok ⟨h, src⟩ →
    ∃ src', createFromInput (newInputs env dec zip w' (some cfg) [] []) w' ⟨.path s, fmt⟩ = .ok ⟨h, src'⟩ ∧ src.rows <+: src'.rows

theorem plain_file_iff {env : CsvEnv} (hp : ReadsPlain env.csv) (dec : Decoders) (zip : ZipLib) {w : World} {cfg : CsvInputConfig env.lib} {d : Char} {b : Byte} {header : Bool}
    {u : TimestampUnits} (hc : Explicit cfg b header u) (hd : d.toNat < 128) (hb : b.toNat = d.toNat) (hq : d ≠ '"') (hn : d ≠ '\n') (hr : d ≠ '\r')
    {s : Str} {fmt : InputFormat} (hs : AsCsv s fmt) {lines : List (List Str)} (hf : PlainCsvAt w s d lines) (hne : header = true → lines ≠ []) (h : Header) (out : Source) :
    createFromInput (newInputs env dec zip w (some cfg) [] []) w ⟨.path s, fmt⟩ = .ok ⟨h, out⟩ ↔
      IsCsvInput env.ov env.lib cfg.tz header cfg.tsCol u (plainData header lines) h out := by
  obtain ⟨sched, h1, h2⟩ := hf.file
  exact C97_plain_file env hp dec zip w cfg d b header u hc hd hb hq hn hr lines hf.plain hne s fmt _ rfl (by
    rintro k (hk | hk)
    · exact h2 k hk
    · cases hk) h1 hs.1 hf.noZip hs.2 h out

theorem plainData_append {header : Bool} {lines more : List (List Str)} (hne : header = true → lines ≠ []) :
    (plainData header (lines ++ more)).records = (plainData header lines).records ++ more.map .ok ∧
    ∀ w names, CsvNames header (plainData header (lines ++ more)) w names ↔ CsvNames header (plainData header lines) w names := by
  cases header with
  | false => simp [plainData, CsvNames]
  | true =>
    obtain ⟨x, l, rfl⟩ := List.exists_cons_of_ne_nil (hne rfl)
    simp [plainData, CsvNames]

/-- **C98 (files).** When complete lines are appended to a plain CSV file, the columns stay, and the rows stay if the first of these lines can be read: it has no more
fields than the first record, and a time. If that line cannot be read, the last row
disappears and all others stay. -/
theorem C98_file (env : CsvEnv) (hp : ReadsPlain env.csv) (dec : Decoders) (zip : ZipLib) (w w' : World) (cfg : CsvInputConfig env.lib) (d : Char) (b : Byte) (header : Bool)
    (u : TimestampUnits) (hc : Explicit cfg b header u) (hd : d.toNat < 128) (hb : b.toNat = d.toNat) (hq : d ≠ '"') (hn : d ≠ '\n') (hr : d ≠ '\r')
    (s : Str) (fmt : InputFormat) (hs : AsCsv s fmt) (lines more : List (List Str)) (hf : PlainCsvAt w s d lines) (hf' : PlainCsvAt w' s d (lines ++ more)) (h : Header) (src : Source)
    (hne : lines ≠ []) (ho : createFromInput (newInputs env dec zip w (some cfg) [] []) w ⟨.path s, fmt⟩ = .ok ⟨h, src⟩) :
    ∃ src', createFromInput (newInputs env dec zip w' (some cfg) [] []) w' ⟨.path s, fmt⟩ = .ok ⟨h, src'⟩ ∧ src.rows.dropLast <+: src'.rows ∧
      (src.ending ≠ .eof → src' = src) ∧
      ((∀ l m, more = l :: m → l.length ≤ h.types.length ∧ ∃ col hint ts, ColumnFor h.names cfg.tsCol col hint ∧ TimeOf env.ov env.lib cfg.tz col (.units u) l (.ok ts)) →
        src.rows <+: src'.rows) ∧
      (∀ l m, more = l :: m → src.ending = .eof →
        ¬ (l.length ≤ h.types.length ∧ ∃ col hint ts, ColumnFor h.names cfg.tsCol col hint ∧ TimeOf env.ov env.lib cfg.tz col (.units u) l (.ok ts)) →
        src'.rows = src.rows.dropLast ∧ src'.ending ≠ .eof) := by
  obtain ⟨first, rest, names, col, hint, h1, h2, h3, rfl, h5⟩ := (plain_file_iff hp dec zip hc hd hb hq hn hr hs hf (fun _ => hne) h src).1 ho
  obtain ⟨e1, e2⟩ := plainData_append (header := header) (lines := lines) (more := more) (fun _ => hne)
  rw [h1] at h5 e1
  obtain ⟨src', g1, g2, g3⟩ := C98_records env.ov env.lib cfg.tz col (.units u) first rest (more.map .ok) src h5
  refine ⟨src', (plain_file_iff hp dec zip hc hd hb hq hn hr hs hf' (fun _ => by simp [hne]) _ src').2
    ⟨first, rest ++ more.map .ok, names, col, hint, by simpa using e1, (e2 _ _).2 h2, h3, rfl, by rw [e1]; exact g1⟩, ?_, g2, ?_, ?_⟩
  · by_cases he : src.ending = .eof
    · exact (g3 he).1
    · rw [g2 he]; exact List.dropLast_prefix _
  · intro hx
    by_cases he : src.ending = .eof
    · refine (g3 he).2.2 ?_
      intro bad m e hb hstop
      cases more with
      | nil => cases hb
      | cons l more =>
        simp only [List.map_cons, List.cons.injEq] at hb
        obtain ⟨rfl, rfl⟩ := hb
        obtain ⟨a1, c', x', ts, a2, a3⟩ := hx l more rfl
        cases columnFor_unique hc.column h3 a2
        exact stop_not_good hstop (by simpa using a1) a3
    · rw [g2 he]; exact List.prefix_refl _
  · intro l m hm he hx
    subst hm
    have key : ∀ e, Stop env.ov env.lib cfg.tz col (.units u) first.length (.ok l) e → e ≠ .eof → src'.rows = src.rows.dropLast ∧ src'.ending ≠ .eof := by
      intro e hs hne
      rw [(g3 he).2.1 _ _ e rfl hs]
      exact ⟨rfl, hne⟩
    by_cases hl : l.length ≤ first.length
    · have ht := (C97_time env.ov env.lib cfg.tz col (.units u) l _).1 rfl
      rcases hr : getTimestamp env.ov env.lib cfg.tz l col (.units u) with ts | e | _ | _ <;> rw [hr] at ht
      · exact absurd ⟨by simpa using hl, col, hint, ts, h3, ht⟩ hx
      · exact key _ (.noTime hl ht) (by simp)
      · exact key _ (.crashTime hl ht) (by simp)
      · cases ht
    · exact key _ (.longer (by omega)) (by simp)

/-! ### Examples -/

/-- A world with these lines, separated by commas, as `f.csv`. -/
def linesWorld (lines : List (List Str)) : World :=
  ⟨fun p => p == utf8Encode "f.csv".toList, fun _ => false,
   fun p => if p = utf8Encode "f.csv".toList then some ⟨utf8Encode (csvText ',' lines), [.bytes 2], none⟩ else none, fun _ => none, fun _ => .err (.io .other), ⟨[], [], none⟩⟩

def nanosCfg : CsvInputConfig noLib := ⟨some 44, .no, .index 0, .epoch .nanos, none⟩

theorem nanos_explicit : Explicit nanosCfg 44 false .nanos := ⟨rfl, rfl, by decide, rfl⟩

theorem f_asCsv : AsCsv "f.csv".toList .auto := ⟨by decide +kernel, .inl ⟨['f'], by decide +kernel, rfl⟩⟩

theorem lines_at (lines : List (List Str)) (hp : PlainTable ',' lines) (hz : ¬ [0x50, 0x4b, 3, 4] <+: utf8Encode (csvText ',' lines)) :
    PlainCsvAt (linesWorld lines) "f.csv".toList ',' lines :=
  ⟨hp, ⟨[.bytes 2], ⟨rfl, by simp [linesWorld], by simp [linesWorld]⟩, by simp⟩, hz⟩

/-- Two records. -/
def growLines : List (List Str) := [[['1'], ['a']], [['2']]]

theorem grow_meaning : IsCsvInput .panics noLib none false (.index 0) .nanos (plainData false growLines) ⟨["col_0".toList, "col_1".toList], [.string, .string]⟩
    ⟨[⟨1, [.string ['1'], .string ['a']]⟩, ⟨2, [.string ['2'], .string ['a']]⟩], .eof⟩ := by
  refine ⟨[['1'], ['a']], [.ok [['2']]], _, .index 0, none, rfl, rfl, .index (n := "col_0".toList) (by decide +kernel) (by intro u; cases u <;> decide +kernel), by decide +kernel, ?_⟩
  have t1 : TimeOf .panics noLib none (.index 0) (.units .nanos) [['1'], ['a']] (.ok 1) := (C97_time _ _ _ _ _ _ _).1 (by decide +kernel)
  have t2 : TimeOf .panics noLib none (.index 0) (.units .nanos) [['2']] (.ok 2) := (C97_time _ _ _ _ _ _ _).1 (by decide +kernel)
  refine ⟨[['1'], ['a']], [[['2']]], [], rfl, ?_, ?_, .inl ⟨rfl, rfl, rfl⟩⟩
  · intro rec hr
    simp only [List.mem_cons, List.not_mem_nil, or_false] at hr
    rcases hr with rfl | rfl
    · exact ⟨by decide, 1, t1⟩
    · exact ⟨by decide, 2, t2⟩
  · intro k row hk
    match k with
    | 0 =>
      cases hk
      refine ⟨rfl, ⟨_, rfl, t1⟩, ?_⟩
      intro i hi
      match i with
      | 0 => exact ⟨['1'], rfl, rfl⟩
      | 1 => exact ⟨['a'], rfl, rfl⟩
      | i + 2 => simp at hi; omega
    | 1 =>
      cases hk
      refine ⟨rfl, ⟨_, rfl, t2⟩, ?_⟩
      intro i hi
      match i with
      | 0 => exact ⟨['2'], rfl, rfl⟩
      | 1 => exact ⟨['a'], rfl, rfl⟩
      | i + 2 => simp at hi; omega
    | k + 2 => simp at hk

theorem growLines_plain (l : List (List Str)) (h : l = [] ∨ l = [[['x']]] ∨ l = [[['3'], ['b']]]) : PlainTable ',' (growLines ++ l) := by
  refine ⟨?_, ?_, ?_⟩
  · have key : ∀ x ∈ growLines ++ l, ∀ t ∈ x, (List.all t fun c => decide (c ≠ ',' ∧ c ≠ '\"' ∧ c ≠ '\n' ∧ c ≠ '\x0d' ∧ isWhite c = false)) = true := by
      rcases h with rfl | rfl | rfl <;> decide +kernel
    intro x hx t ht
    exact plain_text t (key x hx t ht)
  · rcases h with rfl | rfl | rfl <;> decide +kernel
  · rcases h with rfl | rfl | rfl <;> decide +kernel

theorem growLines_at (l : List (List Str)) (h : l = [] ∨ l = [[['x']]] ∨ l = [[['3'], ['b']]]) :
    PlainCsvAt (linesWorld (growLines ++ l)) "f.csv".toList ',' (growLines ++ l) :=
  lines_at _ (growLines_plain l h) (by rcases h with rfl | rfl | rfl <;> decide +kernel)

def anyDec : Decoders := ⟨fun r => r.inner, fun r => r.inner, fun r => r.inner, fun _ => none, fun _ => none⟩

/-- The file is read: the second record has no second field and gets that of the first. -/
theorem grow_read : createFromInput (newInputs plainEnv anyDec exLib (linesWorld (growLines ++ [])) (some nanosCfg) [] []) (linesWorld (growLines ++ [])) ⟨.path "f.csv".toList, .auto⟩ =
    .ok ⟨⟨["col_0".toList, "col_1".toList], [.string, .string]⟩, ⟨[⟨1, [.string ['1'], .string ['a']]⟩, ⟨2, [.string ['2'], .string ['a']]⟩], .eof⟩⟩ :=
  (plain_file_iff (env := plainEnv) plainCsv_reads anyDec exLib nanos_explicit (d := ',') (by decide) (by decide) (by decide) (by decide) (by decide) f_asCsv
    (growLines_at [] (.inl rfl)) (by simp) _ _).2 grow_meaning

/-- **The last row may be lost**: when the line `x` is appended, the row of the last line before it disappears. -/
theorem C98_naive_false : ¬ C98_naive := by
  intro hfull
  obtain ⟨src', h1, h2⟩ := hfull plainEnv anyDec exLib (linesWorld (growLines ++ [])) (linesWorld (growLines ++ [[['x']]])) nanosCfg ',' 44 false .nanos "f.csv".toList .auto
    (growLines ++ []) [[['x']]] _ _ plainCsv_reads nanos_explicit (by decide) (by decide) (by decide) (by decide) (by decide) f_asCsv (growLines_at [] (.inl rfl))
    (by simpa using growLines_at [[['x']]] (.inr (.inl rfl))) grow_read
  have h3 := (plain_file_iff (env := plainEnv) plainCsv_reads anyDec exLib nanos_explicit (d := ',') (by decide) (by decide) (by decide) (by decide) (by decide) f_asCsv
    (growLines_at [[['x']]] (.inr (.inl rfl))) (by simp) _ _).1 h1
  obtain ⟨first, rest, names, col, hint, g1, g2, g3, g4, g5⟩ := h3
  obtain ⟨first', rest', names', col', hint', k1, k2, k3, k4, k5⟩ := grow_meaning
  cases k1
  cases k3 <;> cases g3
  all_goals
    cases g1
    obtain ⟨s2, a1, _, a3⟩ := C98_records .panics noLib none (.index 0) (.units .nanos) _ _ [.ok [['x']]] _ k5
    have hx := (a3 rfl).2.1 (.ok [['x']]) [] (.fail (.custom "ParseIntError")) rfl (.noTime (by decide) ((C97_time _ _ _ _ _ _ _).1 (by decide +kernel)))
    have := csvMeaning_unique a1 g5
    rw [← this, hx] at h2
    have := h2.length_le
    simp at this

/-- The hypotheses of `C98_file` are met: the appended line `3,b` can be read. -/
example : ∃ src', createFromInput (newInputs plainEnv anyDec exLib (linesWorld (growLines ++ [[['3'], ['b']]])) (some nanosCfg) [] []) (linesWorld (growLines ++ [[['3'], ['b']]]))
      ⟨.path "f.csv".toList, .auto⟩ = .ok ⟨⟨["col_0".toList, "col_1".toList], [.string, .string]⟩, src'⟩ ∧
    [⟨1, [.string ['1'], .string ['a']]⟩, ⟨2, [.string ['2'], .string ['a']]⟩] <+: src'.rows := by
  obtain ⟨src', h1, _, _, h4, _⟩ := C98_file plainEnv plainCsv_reads anyDec exLib (linesWorld (growLines ++ [])) (linesWorld (growLines ++ [[['3'], ['b']]])) nanosCfg ',' 44 false .nanos
    nanos_explicit (by decide) (by decide) (by decide) (by decide) (by decide) "f.csv".toList .auto f_asCsv (growLines ++ []) [[['3'], ['b']]] (growLines_at [] (.inl rfl))
    (by simpa using growLines_at [[['3'], ['b']]] (.inr (.inr rfl))) _ _ (by decide) grow_read
  refine ⟨src', h1, h4 ?_⟩
  intro l m hm
  cases hm
  exact ⟨by decide, .index 0, none, 3, .index (n := "col_0".toList) (by decide +kernel) (by intro u; cases u <;> decide +kernel), (C97_time _ _ _ _ _ _ _).1 (by decide +kernel)⟩

/-- An input without records crashes; one whose first time is no number is rejected. -/
example : CsvCrashes .panics noLib none false (.index 0) .nanos (plainData false []) ∧
    CsvRejected .panics noLib none false (.index 0) .nanos (plainData false [[['x']]]) (.custom "ParseIntError") :=
  ⟨.empty rfl, .time (names := ["col_0".toList]) (col := .index 0) (hint := none) rfl (by simp only [CsvNames]; decide +kernel) (.index (n := "col_0".toList) (by decide +kernel) (by intro u; cases u <;> decide +kernel))
    ((C97_time _ _ _ _ _ _ _).1 (by decide +kernel))⟩

end Chopper.Props
