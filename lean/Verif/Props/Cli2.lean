import Verif.Props.Cli
import Verif.Proofs.Timestamp
import Verif.Props.CsvUtil

/-!
# Properties of the command line tool (C63, C64, C68 - C72), examples for C61, C62, C67
-/
namespace Chopper.Props
open Chopper Chopper.Spec

/-! ### Examples: two DC files are merged into a CSV and into a DC file -/

/-- Two DC files. -/
def exA : List Byte := (dcWriteFile .panics ⟨["a".toList, "b".toList], [.int, .string]⟩ [⟨5, [.int 1, .none]⟩, ⟨7, [.int 2, .string ['x']]⟩]).out
def exB : List Byte := (dcWriteFile .panics ⟨["a".toList, "b".toList], [.int, .string]⟩ [⟨5, [.int 3, .none]⟩, ⟨6, [.none, .none]⟩]).out

def exCliWorld : World :=
  ⟨fun p => p == utf8Encode "x.dc".toList || p == utf8Encode "y.dc".toList, fun _ => false,
   fun p => if p = utf8Encode "x.dc".toList then some ⟨exA, [.bytes 3], none⟩ else if p = utf8Encode "y.dc".toList then some ⟨exB, [], none⟩ else none,
   fun _ => none, fun _ => .err (.io .other), ⟨[], [], none⟩⟩

/-- An output file that takes four bytes at first, then everything. -/
def exDev : Device := ⟨[], [.take 3], 0⟩

/-- A world in which every output file can be created. -/
def exEnv : CliEnv :=
  { csv := recordsEnv [], ff := plainFloats, ch := ⟨fun bs => [bs], by simp⟩,
    dec := ⟨fun r => r.inner, fun r => r.inner, fun r => r.inner, fun _ => none, fun _ => none⟩, zip := exLib, world := exCliWorld,
    out := ⟨fun _ => some exDev, ⟨[], [], 0⟩⟩, tzParse := fun _ => none, tzVar := none, tzMap := none, userFactories := [], userTransports := [] }

def exArgs (output : Str) : CliArgs := { inputs := some ["x.dc".toList, "y.dc".toList], output := some output, outEpoch := true }

def exSettings : CliSettings noLib :=
  ⟨[⟨.path "x.dc".toList, .auto⟩, ⟨.path "y.dc".toList, .auto⟩], ⟨none, none⟩, ⟨none, .auto, .auto, .auto, none⟩, .new [','] true none .epoch .nanos none⟩

def exFileA : FileSource := ⟨⟨["a".toList, "b".toList], [.int, .string]⟩, ⟨[⟨5, [.int 1, .none]⟩, ⟨7, [.int 2, .string ['x']]⟩], .eof⟩⟩
def exFileB : FileSource := ⟨⟨["a".toList, "b".toList], [.int, .string]⟩, ⟨[⟨5, [.int 3, .none]⟩, ⟨6, [.none, .none]⟩], .eof⟩⟩

/-! ### C63: choice of the output format -/

/-- **C63, stated in full**: `.csv` (or no name) gives CSV, `.dc` gives DC, every other name is an error without any file being created. -/
def C63_full : Prop := ∀ (e : SinkEnv) (o : OutWorld) (cfg : CsvOutputConfig),
  (newHeaderSink e o none cfg = ([], .ok (csvSinkHeader e cfg o.stdout))) ∧
  (∀ base d, o.create (utf8Encode (base ++ ".csv".toList)) = some d →
    newHeaderSink e o (some (base ++ ".csv".toList)) cfg = ([utf8Encode (base ++ ".csv".toList)], .ok (csvSinkHeader e cfg d))) ∧
  (∀ base d, o.create (utf8Encode (base ++ ".dc".toList)) = some d →
    newHeaderSink e o (some (base ++ ".dc".toList)) cfg = ([utf8Encode (base ++ ".dc".toList)], .ok (dcSinkHeader e d))) ∧
  (∀ p, (∀ base, p ≠ base ++ ".csv".toList ∧ p ≠ base ++ ".dc".toList) → ∃ x, newHeaderSink e o (some p) cfg = ([], .err x))

theorem sink_csv (e : SinkEnv) (o : OutWorld) (cfg : CsvOutputConfig) (p : Str) (h : "csv".toList <:+ p) :
    newHeaderSink e o (some p) cfg = match o.create (utf8Encode p) with | some d => ([utf8Encode p], .ok (csvSinkHeader e cfg d)) | none => ([], .err (.io .other)) := by
  unfold newHeaderSink
  simp only [endsWith_suffix (s := ['c', 's', 'v']) h, if_true]
  cases o.create (utf8Encode p) <;> rfl

theorem sink_dc (e : SinkEnv) (o : OutWorld) (cfg : CsvOutputConfig) (p : Str) (h : "dc".toList <:+ p) :
    newHeaderSink e o (some p) cfg = match o.create (utf8Encode p) with | some d => ([utf8Encode p], .ok (dcSinkHeader e d)) | none => ([], .err (.io .other)) := by
  unfold newHeaderSink
  simp only [not_both h, endsWith_suffix (s := ['d', 'c']) h, if_true, Bool.false_eq_true, if_false]
  cases o.create (utf8Encode p) <;> rfl

/-- **C63 (partial).** Everything but the last part holds; the last part holds for names that end neither in `csv` nor in `dc`, with or without a dot.
Missing, since false (`C63_counterexample`): names that end in these letters without a dot. -/
theorem C63_partial (e : SinkEnv) (o : OutWorld) (cfg : CsvOutputConfig) :
    (newHeaderSink e o none cfg = ([], .ok (csvSinkHeader e cfg o.stdout))) ∧
    (∀ base d, o.create (utf8Encode (base ++ ".csv".toList)) = some d →
      newHeaderSink e o (some (base ++ ".csv".toList)) cfg = ([utf8Encode (base ++ ".csv".toList)], .ok (csvSinkHeader e cfg d))) ∧
    (∀ base d, o.create (utf8Encode (base ++ ".dc".toList)) = some d →
      newHeaderSink e o (some (base ++ ".dc".toList)) cfg = ([utf8Encode (base ++ ".dc".toList)], .ok (dcSinkHeader e d))) ∧
    (∀ p, o.create (utf8Encode p) = none → ∃ x, newHeaderSink e o (some p) cfg = ([], .err x)) ∧
    (∀ p, ¬ "csv".toList <:+ p → ¬ "dc".toList <:+ p → ∃ x, newHeaderSink e o (some p) cfg = ([], .err x)) := by
  refine ⟨rfl, ?_, ?_, ?_, ?_⟩
  · intro base d hd
    rw [sink_csv e o cfg _ ⟨base ++ ['.'], by simp⟩, hd]
  · intro base d hd
    rw [sink_dc e o cfg _ ⟨base ++ ['.'], by simp⟩, hd]
  · intro p hp
    unfold newHeaderSink
    simp only [hp]
    split
    · exact ⟨_, rfl⟩
    · split
      · exact ⟨_, rfl⟩
      · exact ⟨_, rfl⟩
  · intro p h1 h2
    have e1 : endsWith p ['c', 's', 'v'] = false := by
      rw [Bool.eq_false_iff]; intro h; exact h1 (List.isSuffixOf_iff_suffix.1 h)
    have e2 : endsWith p ['d', 'c'] = false := by
      rw [Bool.eq_false_iff]; intro h; exact h2 (List.isSuffixOf_iff_suffix.1 h)
    unfold newHeaderSink
    simp only [e1, e2, Bool.false_eq_true, if_false]
    exact ⟨_, rfl⟩

/-- **C63 is false**: a file named `tcsv`, which has no extension, is created and written as CSV. -/
theorem C63_counterexample : ¬ C63_full := by
  intro h
  obtain ⟨x, hx⟩ := (h exEnv.sink exEnv.out exSettings.outCfg).2.2.2 "tcsv".toList (by
    intro base
    constructor <;> intro hb
    · have := congrArg List.length hb
      have hl : base = [] := by
        cases base with
        | nil => rfl
        | cons b base => simp at this
      subst hl
      revert hb; decide
    · have := congrArg List.getLast? hb
      simp at this)
  rw [sink_csv _ _ _ "tcsv".toList ⟨['t'], rfl⟩] at hx
  simp [exEnv] at hx

example : ¬ "csv".toList <:+ "data.txt".toList ∧ ¬ "dc".toList <:+ "data.txt".toList := by decide

/-! ### C64: exit status -/

/-- **C64, stated in full** for the process run by `main`: status 0 exactly on success; a broken pipe prints nothing and gives another status. -/
def C64_full : Prop := ∀ (text : Err → Str) (r : Res Unit) (x : Exit), handleDriveError text r = some x →
  (x.status = 0 ↔ r = .ok ()) ∧ (r = .err (.io .brokenPipe) → x.stderr = [])

/-- **C64 (partial).** Status 0 exactly on success, for every result; 1 on an error, 101 on a crash. A broken pipe prints no message; missing, since
false (`C64_counterexample`): that nothing at all is printed. -/
theorem C64_status_partial (text : Err → Str) (r : Res Unit) (x : Exit) (h : handleDriveError text r = some x) :
    (x.status = 0 ↔ r = .ok ()) ∧ ((∃ e, r = .err e) ↔ x.status = 1) ∧ (r = .err (.io .brokenPipe) → x.status ≠ 0 ∧ x.stderr = ['\n']) ∧ (r = .ok () → x.stderr = []) := by
  cases r with
  | ok u => simp only [handleDriveError, Option.some.injEq] at h; subst h; simp
  | err e =>
    simp only [handleDriveError, Option.some.injEq] at h
    subst h
    refine ⟨by simp, by simp, ?_, by simp⟩
    intro he
    simp only [Res.err.injEq] at he
    subst he
    simp
  | panic => simp only [handleDriveError, Option.some.injEq] at h; subst h; simp
  | diverge => simp [handleDriveError] at h

/-- A process that ends has a status exactly if the run ended. -/
theorem C64_ends (text : Err → Str) (r : Res Unit) : (∃ x, handleDriveError text r = some x) ↔ r ≠ .diverge := by
  cases r <;> simp [handleDriveError]

/-- **C64 is false** in so far as a broken pipe prints an empty line. -/
theorem C64_counterexample : ¬ C64_full := by
  intro h
  have := (h (fun _ => []) (.err (.io .brokenPipe)) _ rfl).2 rfl
  simp at this

/-- The other way out, `Error::exit`: status 1 for every error, and nothing printed exactly for a broken pipe (or a foreign error with an empty text:
never, a line end is printed). -/
theorem C64_error_exit (text : Err → Str) (e : Err) : (errorExit text e).status = 1 ∧ ((errorExit text e).stderr = [] ↔ e = .io .brokenPipe) := by
  refine ⟨rfl, ?_⟩
  constructor
  · intro h
    unfold errorExit at h
    simp only at h
    split at h
    · rfl
    · simp at h
    · simp at h
  · rintro rfl; rfl

/-! ### C68: the time zone -/

/-- The name of the time zone to use: the option's value, otherwise that of `CHOPPER_TZ`. -/
def ZoneName (arg envVar : Option Str) (name : Option Str) : Prop :=
  (∃ s, arg = some s ∧ name = some s) ∨ (arg = none ∧ name = envVar)

/-- **C68.** The zone is named by the option or else by `CHOPPER_TZ`; the caller's map of names comes before the standard names; without a name there is
no zone; an unknown name crashes the program. -/
theorem C68_zone {ζ : Type} (parse : Str → Option ζ) (map : Option (Str → Option ζ)) (envVar arg name : Option Str) (hn : ZoneName arg envVar name) :
    (name = none → resolveTimezone parse map envVar arg = .ok none) ∧
    (∀ s m z, name = some s → map = some m → m s = some z → resolveTimezone parse map envVar arg = .ok (some z)) ∧
    (∀ s z, name = some s → (∀ m, map = some m → m s = none) → parse s = some z → resolveTimezone parse map envVar arg = .ok (some z)) ∧
    (∀ s, name = some s → (∀ m, map = some m → m s = none) → parse s = none → resolveTimezone parse map envVar arg = .panic) := by
  have hname : ∃ name', name' = name ∧ resolveTimezone parse map envVar arg = resolveTimezone parse map name' none := by
    rcases hn with ⟨s, rfl, rfl⟩ | ⟨rfl, rfl⟩ <;> exact ⟨_, rfl, rfl⟩
  obtain ⟨_, rfl, hname⟩ := hname
  rw [hname]
  refine ⟨?_, ?_, ?_, ?_⟩
  · rintro rfl; rfl
  · rintro s m z rfl rfl h; simp only [resolveTimezone, h]
  · rintro s z rfl hm h
    cases map with
    | none => simp only [resolveTimezone, h]; rfl
    | some m => simp only [resolveTimezone, hm m rfl, h]; rfl
  · rintro s rfl hm h
    cases map with
    | none => simp only [resolveTimezone, h]; rfl
    | some m => simp only [resolveTimezone, hm m rfl, h]; rfl

/-- One and the same zone is used for the range, for reading and for writing CSV. -/
theorem C68_one_zone (e : CliEnv) (a : CliArgs) (st : CliSettings e.csv.lib) (h : parseSettings e a = .ok st) :
    ∃ z, resolveTimezone e.tzParse e.tzMap e.tzVar a.timezone = .ok z ∧ st.inCfg.tz = z.map (·.fromLocal) ∧ st.outCfg.zone = z.map (·.render) ∧
      (∀ t, a.beginTs = some t → ∃ n, parseDatetimeRangeElement e.csv.ov e.csv.lib (z.map (·.fromLocal)) t = .ok n ∧ st.range.beginTs = some n) ∧
      (∀ t, a.endTs = some t → ∃ n, parseDatetimeRangeElement e.csv.ov e.csv.lib (z.map (·.fromLocal)) t = .ok n ∧ st.range.endTs = some n) ∧
      (a.beginTs = none → st.range.beginTs = none) ∧ (a.endTs = none → st.range.endTs = none) := by
  unfold parseSettings at h
  simp only [Res.bind_eq_ok, Res.ok.injEq] at h
  obtain ⟨z, hz, range, hr, is, his, inCfg, hin, outCfg, hout, rfl⟩ := h
  refine ⟨z, hz, ?_, ?_, ?_⟩
  · unfold parseCsvInputConfig at hin
    simp only [Res.bind_eq_ok] at hin
    obtain ⟨fmt, _, col, _, hnew⟩ := hin
    unfold CsvInputConfig.new at hnew
    split at hnew
    · simp only [Res.ok.injEq] at hnew; rw [← hnew]
    · simp only [Res.bind_eq_ok, Res.ok.injEq] at hnew
      obtain ⟨d, _, hd⟩ := hnew
      rw [← hd]
  · unfold parseCsvOutputConfig at hout
    simp only [Res.bind_eq_ok, Res.ok.injEq] at hout
    obtain ⟨p, _, u, _, hd⟩ := hout
    rw [← hd]; rfl
  · unfold TimestampRange.new at hr
    simp only [Res.bind_eq_ok, Res.ok.injEq] at hr
    obtain ⟨b, hb, x, hx, rfl⟩ := hr
    have one : ∀ (o : Option Str) (r : Option Nanos), rangeElement e.csv.ov e.csv.lib (z.map (·.fromLocal)) o = .ok r →
        (∀ t, o = some t → ∃ n, parseDatetimeRangeElement e.csv.ov e.csv.lib (z.map (·.fromLocal)) t = .ok n ∧ r = some n) ∧ (o = none → r = none) := by
      intro o r h
      cases o with
      | none => simp only [rangeElement, Res.ok.injEq] at h; subst h; exact ⟨by simp, fun _ => rfl⟩
      | some t =>
        simp only [rangeElement, Res.bind_eq_ok, Res.ok.injEq] at h
        obtain ⟨n, hn, rfl⟩ := h
        refine ⟨?_, by simp⟩
        intro t' ht
        simp only [Option.some.injEq] at ht
        subst ht
        exact ⟨n, hn, rfl⟩
    exact ⟨(one _ _ hb).1, (one _ _ hx).1, (one _ _ hb).2, (one _ _ hx).2⟩

example : resolveTimezone (ζ := Nat) (fun s => if s = ['U'] then some 1 else none) (some fun s => if s = ['n', 'y'] then some 2 else none) (some ['U']) (some ['n', 'y']) = .ok (some 2) := by
  decide +kernel

/-! ### C69: settings for CSV input -/

/-- A text that is a whole number (with an optional plus sign) below 2^64. -/
def WholeNumber (s : Str) (i : Nat) : Prop := ∃ t, (s = t ∨ s = '+' :: t) ∧ Digits t ∧ decimalValue t = i ∧ i < 2 ^ 64

/-- Which column holds the time: a pair of columns for date and time comes before a single column; whole numbers are positions, other texts are names;
a pair is a pair of positions only if both are whole numbers. -/
inductive ColumnChoice (a : CliArgs) : TimestampColConfig → Prop
  | auto : a.tsColDate = none → a.tsCol = none → ColumnChoice a .auto
  | index {s i} : a.tsColDate = none → a.tsCol = some s → WholeNumber s i → ColumnChoice a (.index i)
  | name {s} : a.tsColDate = none → a.tsCol = some s → (¬ ∃ i, WholeNumber s i) → ColumnChoice a (.name s)
  | dateTimeIndex {d t i j} : a.tsColDate = some d → a.tsColTime = some t → WholeNumber d i → WholeNumber t j → ColumnChoice a (.dateTimeIndex i j)
  | dateTimeName {d t} : a.tsColDate = some d → a.tsColTime = some t → ¬ ((∃ i, WholeNumber d i) ∧ ∃ j, WholeNumber t j) → ColumnChoice a (.dateTimeName d t)

/-- How the time is written: a pair of formats, else a format, else a number in the given units, else detection. -/
inductive FormatChoice (a : CliArgs) : TimestampFmtConfig → Prop
  | dateTime {d t} : a.tsFmtDate = some d → a.tsFmtTime = some t → FormatChoice a (.dateTimeExplicit d t)
  | explicit {f} : a.tsFmtDate = none → a.tsFmt = some f → FormatChoice a (.explicit f)
  | seconds : a.tsFmtDate = none → a.tsFmt = none → a.inEpoch = some "s".toList → FormatChoice a (.epoch .seconds)
  | millis : a.tsFmtDate = none → a.tsFmt = none → a.inEpoch = some "ms".toList → FormatChoice a (.epoch .millis)
  | micros : a.tsFmtDate = none → a.tsFmt = none → a.inEpoch = some "us".toList → FormatChoice a (.epoch .micros)
  | nanos : a.tsFmtDate = none → a.tsFmt = none → a.inEpoch = some "ns".toList → FormatChoice a (.epoch .nanos)
  | auto : a.tsFmtDate = none → a.tsFmt = none → a.inEpoch = none → FormatChoice a .auto

theorem parseUsize_iff (s : Str) (i : Nat) : parseUsize s = some i ↔ WholeNumber s i := by
  unfold parseUsize WholeNumber
  rw [Option.map_eq_some_iff]
  constructor
  · rintro ⟨n, hn, rfl⟩
    obtain ⟨t, h1, h2, h3, h4⟩ := (parseU64_iff s n).1 hn
    refine ⟨t, h1, h2, ?_, n.isLt⟩
    rw [h4]
  · rintro ⟨t, h1, h2, rfl, h4⟩
    exact ⟨BitVec.ofNat 64 (decimalValue t), (parseU64_iff s _).2 ⟨t, h1, h2, h4, by rw [BitVec.toNat_ofNat, Nat.mod_eq_of_lt h4]⟩, by rw [BitVec.toNat_ofNat, Nat.mod_eq_of_lt h4]⟩

theorem parseUsize_none (s : Str) : parseUsize s = none ↔ ¬ ∃ i, WholeNumber s i := by
  constructor
  · rintro h ⟨i, hi⟩
    rw [(parseUsize_iff s i).2 hi] at h; cases h
  · intro h
    cases hp : parseUsize s with
    | none => rfl
    | some i => exact absurd ⟨i, (parseUsize_iff s i).1 hp⟩ h

/-- **C69 (column).** On every command line that clap accepts the time column is chosen as `ColumnChoice` says. -/
theorem C69_column (lower : Str → Str) (a : CliArgs) (ha : a.Accepted lower) (c : TimestampColConfig) : parseTsCol a = .ok c ↔ ColumnChoice a c := by
  unfold parseTsCol
  constructor
  · intro h
    cases hd : a.tsColDate with
    | none =>
      rw [hd] at h
      simp only at h
      cases hc : a.tsCol with
      | none => rw [hc] at h; simp only [Res.ok.injEq] at h; subst h; exact .auto hd hc
      | some s =>
        rw [hc] at h
        simp only at h
        cases hp : parseUsize s with
        | none => rw [hp] at h; simp only [Res.ok.injEq] at h; subst h; exact .name hd hc ((parseUsize_none s).1 hp)
        | some i => rw [hp] at h; simp only [Res.ok.injEq] at h; subst h; exact .index hd hc ((parseUsize_iff s i).1 hp)
    | some d =>
      rw [hd] at h
      simp only [Res.bind_eq_ok] at h
      obtain ⟨t, ht, h⟩ := h
      have ht : a.tsColTime = some t := by
        cases hx : a.tsColTime with
        | none => rw [hx] at ht; simp [Res.unwrap] at ht
        | some y => rw [hx] at ht; simp [Res.unwrap] at ht; rw [ht]
      cases hp : parseUsize d with
      | none =>
        rw [hp] at h; simp only [Res.ok.injEq] at h; subst h
        exact .dateTimeName hd ht (fun hx => (parseUsize_none d).1 hp hx.1)
      | some i =>
        cases hq : parseUsize t with
        | none =>
          rw [hp, hq] at h; simp only [Res.ok.injEq] at h; subst h
          exact .dateTimeName hd ht (fun hx => (parseUsize_none t).1 hq hx.2)
        | some j =>
          rw [hp, hq] at h; simp only [Res.ok.injEq] at h; subst h
          exact .dateTimeIndex hd ht ((parseUsize_iff d i).1 hp) ((parseUsize_iff t j).1 hq)
  · intro h
    cases h with
    | auto h1 h2 => simp only [h1, h2]
    | index h1 h2 h3 => simp only [h1, h2, (parseUsize_iff _ _).2 h3]
    | name h1 h2 h3 => simp only [h1, h2, (parseUsize_none _).2 h3]
    | dateTimeIndex h1 h2 h3 h4 => simp only [h1, h2, Res.unwrap, Res.bind_ok, (parseUsize_iff _ _).2 h3, (parseUsize_iff _ _).2 h4]
    | @dateTimeName d t h1 h2 h3 =>
      simp only [h1, h2, Res.unwrap, Res.bind_ok]
      cases hp : parseUsize d with
      | none => rfl
      | some i =>
        cases hq : parseUsize t with
        | none => rfl
        | some j => exact absurd ⟨⟨i, (parseUsize_iff _ _).1 hp⟩, ⟨j, (parseUsize_iff _ _).1 hq⟩⟩ h3

theorem units_names : unitsFromStr "s".toList = .ok .seconds ∧ unitsFromStr "ms".toList = .ok .millis ∧ unitsFromStr "us".toList = .ok .micros ∧
    unitsFromStr "ns".toList = .ok .nanos := by decide +kernel

/-- **C69 (format).** And the format as `FormatChoice` says; every accepted command line has a choice. -/
theorem C69_format (lower : Str → Str) (a : CliArgs) (ha : a.Accepted lower) (c : TimestampFmtConfig) : parseTsFmt a = .ok c ↔ FormatChoice a c := by
  obtain ⟨u1, u2, u3, u4⟩ := units_names
  unfold parseTsFmt
  constructor
  · intro h
    cases hd : a.tsFmtDate with
    | some d =>
      rw [hd] at h
      simp only [Res.bind_eq_ok, Res.ok.injEq] at h
      obtain ⟨t, ht, rfl⟩ := h
      cases hx : a.tsFmtTime with
      | none => rw [hx] at ht; simp [Res.unwrap] at ht
      | some y => rw [hx] at ht; simp [Res.unwrap] at ht; subst ht; exact .dateTime hd hx
    | none =>
      rw [hd] at h
      simp only at h
      cases hf : a.tsFmt with
      | some f => rw [hf] at h; simp only [Res.ok.injEq] at h; subst h; exact .explicit hd hf
      | none =>
        rw [hf] at h
        simp only at h
        cases hu : a.inEpoch with
        | none => rw [hu] at h; simp only [Res.ok.injEq] at h; subst h; exact .auto hd hf hu
        | some u =>
          rw [hu] at h
          simp only [Res.bind_eq_ok, Res.ok.injEq] at h
          obtain ⟨v, hv, rfl⟩ := h
          have := ha.inEpoch u hu
          simp only [unitNames, List.mem_cons, List.not_mem_nil, or_false] at this
          rcases this with rfl | rfl | rfl | rfl
          · rw [show unitsFromStr ['s'] = .ok .seconds from u1] at hv; cases hv; exact .seconds hd hf hu
          · rw [show unitsFromStr ['m', 's'] = .ok .millis from u2] at hv; cases hv; exact .millis hd hf hu
          · rw [show unitsFromStr ['u', 's'] = .ok .micros from u3] at hv; cases hv; exact .micros hd hf hu
          · rw [show unitsFromStr ['n', 's'] = .ok .nanos from u4] at hv; cases hv; exact .nanos hd hf hu
  · intro h
    cases h with
    | dateTime h1 h2 => simp only [h1, h2]; rfl
    | explicit h1 h2 => simp only [h1, h2]
    | seconds h1 h2 h3 => simp only [h1, h2, h3, u1]; rfl
    | millis h1 h2 h3 => simp only [h1, h2, h3, u2]; rfl
    | micros h1 h2 h3 => simp only [h1, h2, h3, u3]; rfl
    | nanos h1 h2 h3 => simp only [h1, h2, h3, u4]; rfl
    | auto h1 h2 h3 => simp only [h1, h2, h3]

/-- A number for the date and a name for the time: both are taken as names. -/
example : ColumnChoice { tsColDate := some ['0'], tsColTime := some ['t'] } (.dateTimeName ['0'] ['t']) ∧
    ColumnChoice { tsColDate := some ['0'], tsColTime := some ['1'] } (.dateTimeIndex 0 1) := by
  have w0 : parseUsize ['0'] = some 0 := by decide +kernel
  have w1 : parseUsize ['1'] = some 1 := by decide +kernel
  have wt : parseUsize ['t'] = none := by decide +kernel
  exact ⟨.dateTimeName rfl rfl fun h => (parseUsize_none _).1 wt h.2, .dateTimeIndex rfl rfl ((parseUsize_iff _ _).1 w0) ((parseUsize_iff _ _).1 w1)⟩

/-! ### C70: no output file without need -/

/-- **C70.** The only file a run creates is the one named as output, and only after all arguments have been understood and all inputs have been opened. -/
theorem C70_created (e : CliEnv) (a : CliArgs) (p : Path) (h : p ∈ (chopperCli e a).created) :
    (chopperCli e a).created = [p] ∧ (∃ o, a.output = some o ∧ p = utf8Encode o) ∧ ∃ st files, parseSettings e a = .ok st ∧ Opens e st files := by
  have hc : (chopperCli e a).created = (parseCliArgs e a).1 := by
    unfold chopperCli
    rcases parseCliArgs e a with ⟨c, _ | _ | _ | _⟩ <;> rfl
  rw [hc] at h ⊢
  unfold parseCliArgs at h ⊢
  cases hs : parseSettings e a with
  | err x => rw [hs] at h; cases h
  | panic => rw [hs] at h; cases h
  | diverge => rw [hs] at h; cases h
  | ok st =>
    rw [hs] at h
    simp only at h ⊢
    unfold setupGraph at h ⊢
    cases ho : openInputs (newInputs e.csv e.dec e.zip e.world (some st.inCfg) e.userFactories e.userTransports) e.world st.inputs with
    | err x => rw [ho] at h; cases h
    | panic => rw [ho] at h; cases h
    | diverge => rw [ho] at h; cases h
    | ok files =>
      rw [ho] at h
      simp only at h ⊢
      have hone : ∀ c r, newHeaderSink e.sink e.out a.output st.outCfg = (c, r) → p ∈ c → c = [p] ∧ ∃ o, a.output = some o ∧ p = utf8Encode o := by
        intro c r hr hp
        unfold newHeaderSink at hr
        split at hr
        · rename_i o ho'
          split at hr
          · split at hr
            · cases hr; simp only [List.mem_cons, List.not_mem_nil, or_false] at hp; subst hp; exact ⟨rfl, o, ho', rfl⟩
            · cases hr; cases hp
          · split at hr
            · split at hr
              · cases hr; simp only [List.mem_cons, List.not_mem_nil, or_false] at hp; subst hp; exact ⟨rfl, o, ho', rfl⟩
              · cases hr; cases hp
            · cases hr; cases hp
        · cases hr; cases hp
      rcases hk : newHeaderSink e.sink e.out a.output st.outCfg with ⟨c, _ | _ | _ | _⟩ <;> simp only [hk] at h ⊢ <;>
        exact ⟨(hone _ _ hk h).1, (hone _ _ hk h).2, st, files, rfl, (openInputs_iff _ _ _ _).1 ho⟩

/-! ### C71: accepted arguments -/

/-- **C71, stated in full**: no command line that clap accepts crashes the program while it is being read, if the time zone is known and the range can be
converted. -/
def C71_full : Prop := ∀ (lower : Str → Str) (e : CliEnv) (a : CliArgs), a.Accepted lower →
  resolveTimezone e.tzParse e.tzMap e.tzVar a.timezone ≠ .panic → (∀ z, TimestampRange.new e.csv.ov e.csv.lib z a.beginTs a.endTs ≠ .panic) →
  parseSettings e a ≠ .panic

theorem parseIntoDelimiter_ne_panic (s : Str) : parseIntoDelimiter s ≠ .panic := by
  rcases (C08_delimiter s).2 with ⟨b, h⟩ | ⟨b, h⟩ <;> rw [h] <;> simp

/-- **C71 (partial).** True if `--print-time` is given in lower case. -/
theorem C71_no_crash_partial (lower : Str → Str) (e : CliEnv) (a : CliArgs) (ha : a.Accepted lower)
    (hz : resolveTimezone e.tzParse e.tzMap e.tzVar a.timezone ≠ .panic) (hr : ∀ z, TimestampRange.new e.csv.ov e.csv.lib z a.beginTs a.endTs ≠ .panic)
    (hp : a.printTime = "yes".toList ∨ a.printTime = "no".toList) : parseSettings e a ≠ .panic := by
  have bind_ne : ∀ {α β : Type} {x : Res α} {f : α → Res β}, x ≠ .panic → (∀ y, x = .ok y → f y ≠ .panic) → x.bind f ≠ .panic := by
    intro α β x f h1 h2
    cases x with
    | ok y => exact h2 y rfl
    | err e => simp [Res.bind]
    | panic => exact absurd rfl h1
    | diverge => simp [Res.bind]
  have hunits : ∀ u, u ∈ unitNames → unitsFromStr u ≠ .panic := by
    intro u hu
    simp only [unitNames, List.mem_cons, List.not_mem_nil, or_false] at hu
    rcases hu with rfl | rfl | rfl | rfl <;> decide
  unfold parseSettings
  refine bind_ne hz fun z _ => bind_ne (hr _) fun range _ => bind_ne ?_ fun is _ => bind_ne ?_ fun inCfg _ => bind_ne ?_ fun outCfg _ => by simp
  · cases hi : a.inputs with
    | none => obtain ⟨f, hf, _⟩ := C60_stdin a hi ha.formats; rw [hf]; simp
    | some names =>
      obtain ⟨f, hf, _⟩ := C60_formats a names hi (fun h => ha.inputs (by rw [hi, h])) ha.formats; rw [hf]; simp
  · unfold parseCsvInputConfig
    refine bind_ne ?_ fun fmt _ => bind_ne ?_ fun col _ => ?_
    · unfold parseTsFmt
      cases hd : a.tsFmtDate with
      | some d =>
        have := ha.fmtTime (by rw [hd]; rfl)
        cases ht : a.tsFmtTime with
        | none => rw [ht] at this; cases this
        | some t => simp [Res.unwrap, Res.bind]
      | none =>
        simp only
        cases a.tsFmt with
        | some f => simp
        | none =>
          simp only
          cases hu : a.inEpoch with
          | none => simp
          | some u => exact bind_ne (hunits u (ha.inEpoch u hu)) fun _ _ => by simp
    · unfold parseTsCol
      cases hd : a.tsColDate with
      | none =>
        simp only
        cases a.tsCol with
        | none => simp
        | some s => simp only; cases parseUsize s <;> simp
      | some d =>
        have := ha.colTime (by rw [hd]; rfl)
        cases ht : a.tsColTime with
        | none => rw [ht] at this; cases this
        | some t =>
          simp only [Res.unwrap, Res.bind_ok]
          cases parseUsize d <;> cases parseUsize t <;> simp
    · unfold CsvInputConfig.new
      split
      · simp
      · exact bind_ne (parseIntoDelimiter_ne_panic _) fun _ _ => by simp
  · unfold parseCsvOutputConfig
    refine bind_ne ?_ fun p _ => bind_ne ?_ fun u _ => by simp
    · rcases hp with hp | hp <;> rw [hp] <;> decide
    · cases hu : a.units with
      | none => simp [parseOutUnits]
      | some u => exact hunits u (ha.units u hu)

/-- **C71 is false**: `--print-time YES` is accepted and crashes. -/
theorem C71_counterexample : ¬ C71_full := by
  intro h
  refine h (fun s => if s = "YES".toList then "yes".toList else s) exEnv { printTime := "YES".toList } ?_ (by simp [resolveTimezone, exEnv]) (by intro z; simp [TimestampRange.new, rangeElement, Res.bind]) rfl
  exact ⟨by simp, by simp, by simp, by simp, by simp, by simp [unitNames], by decide⟩

/-! ### C72: rows from DC fit their header -/

/-- **C72.** Every row a DC source delivers has exactly one value per column, each of the column's type or null, whatever bytes the input has; and the
header has one name per column, none of them empty. -/
theorem C72_rows_fit (ov : Overflow) (s : Stream) (src fin : DcSource) (rows : List Row) (ho : dcOpen ov s = .ok src) (hd : Delivers src rows fin) :
    (∀ r ∈ rows, RowFits src.header.types r) ∧ src.header.names.length = src.header.types.length ∧ ∀ n ∈ src.header.names, n ≠ [] := by
  obtain ⟨c, _, hc⟩ := dcOpen_iff.1 ho
  obtain ⟨h1, _, h3⟩ := dc_header_facts hc
  exact ⟨delivers_fits hd, h1, fun n hn => (h3 n hn).2⟩

end Chopper.Props
