import Verif.Props.Chopping
import Verif.Props.Gzip
import Verif.Model.CsvCrate
import Verif.Model.Compressed

/-!
# C119: compressed inputs of the tool; C120: the example program `compressed`
-/
namespace Chopper.Props
open Chopper Chopper.Spec

/-- `i` in the world `w` is an intact gzip file, and `i'` in the world `w'` is a plain file with its content, under the name or format without `.gz` (or, if it is recognised by
its first bytes, under the same). -/
def Unpacked (lib : GzCrate) (w w' : World) (i i' : Input) : Prop :=
  ∃ (s s' : Str) (fmt fmt' : InputFormat) (m : GzMember) (content : List Byte) (sched sched' : List ReadStep), i = ⟨.path s, fmt⟩ ∧ i' = ⟨.path s', fmt'⟩ ∧
    m.Holds lib content ∧ m.Intact content ∧ FileAt w s ⟨m.bytes, sched, none⟩ ∧ FileAt w' s' ⟨content, sched', none⟩ ∧
    (∀ k, ReadStep.fail k ∉ sched) ∧ (∀ k, ReadStep.fail k ∉ sched') ∧ ¬ HttpAddress s ∧ ¬ HttpAddress s' ∧
    GivenAsGz m.bytes content (lastComponent s) fmt (lastComponent s') fmt' ∧ ¬ [0x50, 0x4b, 3, 4] <+: content

/-- `i` and `i'` are the same plain file. -/
def SameFile (w w' : World) (i i' : Input) : Prop :=
  ∃ (s s' : Str) (fmt : InputFormat) (r r' : Inner), i = ⟨.path s, fmt⟩ ∧ i' = ⟨.path s', fmt⟩ ∧ FileAt w s r ∧ FileAt w' s' r' ∧ SameContent r r' ∧
    lastComponent s = lastComponent s' ∧ ¬ HttpAddress s ∧ ¬ HttpAddress s' ∧ ¬ [0x50, 0x4b, 3, 4] <+: r.data

variable {env : CsvEnv} {dec : Decoders} {zip : ZipLib} {w w' : World}

theorem default_content (env : CsvEnv) (hc : CsvByContent env.csv) (cfg : CsvInputConfig env.lib) : ∀ f ∈ defaultFactories env (some cfg), FactoryByContent f := by
  intro f hf
  have : f = csvFactory env cfg ∨ f = dcFactory env.ov := by simpa [defaultFactories] using hf
  rcases this with rfl | rfl
  · exact csvFactory_content _ hc _
  · exact dcFactory_content _

/-- The csv crate, as transcribed, looks at the content only. -/
theorem C92_csv_crate : CsvByContent csvCrate := by
  intro d hh r r' h
  have h1 : crateRecords d r = crateRecords d r' := by
    unfold crateRecords
    rw [h.stream]
    have : dropBom r (streamOf r') = dropBom r' (streamOf r') := by
      unfold dropBom
      rw [h.ahead]
    rw [this]
  unfold csvCrate
  simp only [h1]

/-- So does the gzip decoder, as transcribed. -/
theorem C92_gz_crate (lib : GzCrate) (hs : ∀ file k, ReadStep.fail k ∉ lib.sched file) (r r' : BufReader) (h : SameReader r r') :
    SameContent (gzReader lib r) (gzReader lib r') := by
  have hd : (r.buf.drop r.pos).take (r.cap - r.pos) ++ r.inner.data = (r'.buf.drop r'.pos).take (r'.cap - r'.pos) ++ r'.inner.data := h.bytes
  have : gzReader lib r = gzReader lib r' := by
    unfold gzReader
    simp only [hd, h.ending]
  rw [this]
  exact ⟨rfl, rfl, hs _, hs _⟩

theorem openInputs_pairs {inp inp' : Inputs FileSource} {w w' : World} : ∀ (is is' : List Input), is.length = is'.length →
    (∀ (k : Nat) i i', is[k]? = some i → is'[k]? = some i' → createFromInput inp w i = createFromInput inp' w' i') → openInputs inp w is = openInputs inp' w' is'
  | [], [], _, _ => rfl
  | i :: is, i' :: is', hl, h => by
    unfold openInputs
    rw [h 0 i i' rfl rfl, openInputs_pairs is is' (by simpa using hl) fun k j j' hj hj' => h (k + 1) j j' (by simpa using hj) (by simpa using hj')]

theorem setupGraph_same {e : CliEnv} {w' : World} {is is' : List Input} (hl : is.length = is'.length) (output : Option Str) (range : TimestampRange)
    (inCfg : CsvInputConfig e.csv.lib) (outCfg : CsvOutputConfig)
    (h : openInputs (newInputs e.csv e.dec e.zip e.world (some inCfg) e.userFactories e.userTransports) e.world is =
      openInputs (newInputs e.csv e.dec e.zip w' (some inCfg) e.userFactories e.userTransports) w' is') :
    setupGraph e is output range inCfg outCfg = setupGraph { e with world := w' } is' output range inCfg outCfg := by
  unfold setupGraph
  rw [h, hl]
  rfl

/-- **C119 (one input).** An intact gzip file is opened and read like the plain file with its content, however the bytes of either are handed over. -/
theorem C119_open (env : CsvEnv) (dec : Decoders) (lib : GzCrate) (zip : ZipLib) (w w' : World) (cfg : CsvInputConfig env.lib) (i i' : Input) (hcsv : CsvByContent env.csv)
    (hd : DecodeByContent dec) (hg : dec.gz = gzReader lib) (hs : ∀ file k, ReadStep.fail k ∉ lib.sched file) (h : Unpacked lib w w' i i') :
    createFromInput (newInputs env dec zip w (some cfg) [] []) w i = createFromInput (newInputs env dec zip w' (some cfg) [] []) w' i' := by
  obtain ⟨s, s', fmt, fmt', m, content, sched, sched', rfl, rfl, hm, hi, hf, hf', h1, h2, h3, h4, h5, h6⟩ := h
  have hd' : gzDecode lib m.bytes = (content, none) := by
    have := (gzDecode_member hm []).1 hi
    rwa [List.append_nil] at this
  rw [gz_input hg cfg hf h1 h3 (by have := gz_not_zip (m := m) (tail := []) (file := m.bytes) (by simp); exact this) hd' h5,
    C66_plain_file env dec zip w' (some cfg) s' fmt' _ hf'.notDir hf'.here hf'.opens h4 h6]
  exact (SameContent.preview (i1 := ⟨content, lib.sched m.bytes, none⟩) (i2 := ⟨content, sched', none⟩) ⟨rfl, rfl, hs _, h2⟩ _ (by decide)).bind_eq fun p p' hp =>
    hp.create hd (default_content env hcsv cfg) _ _

theorem sameFile_open (cfg : CsvInputConfig env.lib) {i i' : Input} (hcsv : CsvByContent env.csv) (hd : DecodeByContent dec) (h : SameFile w w' i i') :
    createFromInput (newInputs env dec zip w (some cfg) [] []) w i = createFromInput (newInputs env dec zip w' (some cfg) [] []) w' i' := by
  obtain ⟨s, s', fmt, r, r', rfl, rfl, hf, hf', hr, hn, h3, h4, h6⟩ := h
  rw [C66_plain_file env dec zip w (some cfg) s fmt _ hf.notDir hf.here hf.opens h3 h6,
    C66_plain_file env dec zip w' (some cfg) s' fmt _ hf'.notDir hf'.here hf'.opens h4 (by rw [← hr.data]; exact h6), hn]
  exact (hr.preview _ (by decide)).bind_eq fun p p' hp => hp.create hd (default_content env hcsv cfg) _ _

theorem settings_other {e : CliEnv} {w' : World} {a : CliArgs} {inputs' formats' : Option (List Str)} {is is' : List Input} (hi : parseInputs a = .ok is)
    (hi' : parseInputs { a with inputs := inputs', formats := formats' } = .ok is') :
    parseSettings { e with world := w' } { a with inputs := inputs', formats := formats' } =
      (parseSettings e a).bind fun st => .ok ({ st with inputs := is' } : CliSettings e.csv.lib) := by
  unfold parseSettings
  rw [hi, hi']
  dsimp only
  cases resolveTimezone e.tzParse e.tzMap e.tzVar a.timezone with
  | err x => rfl
  | panic => rfl
  | diverge => rfl
  | ok z =>
    simp only [Res.bind_ok]
    cases TimestampRange.new e.csv.ov e.csv.lib (z.map (·.fromLocal)) a.beginTs a.endTs with
    | err x => rfl
    | panic => rfl
    | diverge => rfl
    | ok range =>
      simp only [Res.bind_ok]
      have h1 : parseCsvInputConfig { a with inputs := inputs', formats := formats' } (z.map (·.fromLocal)) = parseCsvInputConfig a (z.map (·.fromLocal)) := rfl
      have h2 : parseCsvOutputConfig { a with inputs := inputs', formats := formats' } (z.map (·.render)) = parseCsvOutputConfig a (z.map (·.render)) := rfl
      rw [h1, h2]
      cases parseCsvInputConfig a (z.map (·.fromLocal)) with
      | err x => rfl
      | panic => rfl
      | diverge => rfl
      | ok inCfg =>
        simp only [Res.bind_ok]
        cases parseCsvOutputConfig a (z.map (·.render)) with
        | err x => rfl
        | panic => rfl
        | diverge => rfl
        | ok outCfg => rfl

theorem settings_inputs {e : CliEnv} {a : CliArgs} {is : List Input} {st : CliSettings e.csv.lib} (hi : parseInputs a = .ok is) (h : parseSettings e a = .ok st) :
    st.inputs = is := by
  unfold parseSettings at h
  obtain ⟨_, _, h⟩ := Res.bind_eq_ok.1 h
  obtain ⟨_, _, h⟩ := Res.bind_eq_ok.1 h
  obtain ⟨_, h1, h⟩ := Res.bind_eq_ok.1 h
  obtain ⟨_, _, h⟩ := Res.bind_eq_ok.1 h
  obtain ⟨_, _, h⟩ := Res.bind_eq_ok.1 h
  cases h
  rw [hi] at h1
  cases h1
  rfl

/-- **C119 (the tool).** A run of the tool does exactly what it does if any of its inputs that are intact gzip files are unpacked first (and given with the name or format without
`.gz`): the same files are created, the same is handed to the output, and the result is the same. -/
theorem C119_tool (e : CliEnv) (w' : World) (lib : GzCrate) (a : CliArgs) (inputs' formats' : Option (List Str)) (is is' : List Input)
    (hu : e.userFactories = [] ∧ e.userTransports = []) (hcsv : CsvByContent e.csv.csv) (hd : DecodeByContent e.dec) (hg : e.dec.gz = gzReader lib)
    (hs : ∀ file k, ReadStep.fail k ∉ lib.sched file) (hi : parseInputs a = .ok is) (hi' : parseInputs { a with inputs := inputs', formats := formats' } = .ok is')
    (hl : is.length = is'.length)
    (h : ∀ (k : Nat) i i', is[k]? = some i → is'[k]? = some i' → Unpacked lib e.world w' i i' ∨ SameFile e.world w' i i') :
    chopperCli e a = chopperCli { e with world := w' } { a with inputs := inputs', formats := formats' } := by
  have hp : parseCliArgs e a = parseCliArgs { e with world := w' } { a with inputs := inputs', formats := formats' } := by
    unfold parseCliArgs
    rw [settings_other hi hi']
    cases hst : parseSettings e a with
    | err x => rfl
    | panic => rfl
    | diverge => rfl
    | ok st =>
      simp only [Res.bind_ok]
      have hin := settings_inputs hi hst
      refine setupGraph_same (by rw [hin]; exact hl) _ _ _ _ (openInputs_pairs _ _ (by rw [hin]; exact hl) ?_)
      intro k i i' h1 h2
      rw [hin] at h1
      rw [hu.1, hu.2]
      rcases h k i i' h1 h2 with hk | hk
      · exact C119_open _ _ lib _ _ _ _ _ _ hcsv hd hg hs hk
      · exact sameFile_open _ hcsv hd hk
  unfold chopperCli
  rw [hp]
  rfl

/-- **C119 (tables).** If the unpacked inputs are CSV tables (C88), the output file has their column names and their records in the range, merged by time. -/
theorem C119_tables (e : CliEnv) (w' : World) (lib : GzCrate) (a : CliArgs) (inputs' formats' : Option (List Str)) (is is' : List Input)
    (st : CliSettings e.csv.lib) (d : Char) (c : Nat) (u : TimestampUnits) (names : List Str) (tables : List (List (List Str))) (time : List Str → Nanos) (dev : Device)
    (h88 : CopyRun { e with world := w' } { a with inputs := inputs', formats := formats' } st d c u names tables time dev)
    (hcsv : CsvByContent e.csv.csv) (hd : DecodeByContent e.dec) (hg : e.dec.gz = gzReader lib)
    (hs : ∀ file k, ReadStep.fail k ∉ lib.sched file) (hi : parseInputs a = .ok is) (hi' : parseInputs { a with inputs := inputs', formats := formats' } = .ok is')
    (hl : is.length = is'.length)
    (h : ∀ (k : Nat) i i', is[k]? = some i → is'[k]? = some i' → Unpacked lib e.world w' i i' ∨ SameFile e.world w' i i') :
    ∃ out recs, (chopperCli e a).result = .ok () ∧ (chopperCli e a).output = some out ∧ out.taken = dev.taken ++ utf8Encode (csvText ',' (names :: recs)) ∧
      recs.Pairwise (fun x y => time x ≤ time y) ∧
      ∀ t, recs.filter (fun rec => time rec == t) = tables.reverse.flatMap fun table => table.filter fun rec => time rec == t && inRange st.range (time rec) := by
  rw [C119_tool e w' lib a inputs' formats' is is' h88.noUser hcsv hd hg hs hi hi' hl h]
  exact C88_merge _ _ _ d c u names tables time dev h88

/-! A case: of two tables the first is compressed. -/

def gzText : List Byte := utf8Encode (csvText ',' (copyNames :: copyA))
def gzMember : GzMember := storedMember gzText (Spec.crc32 gzText)
/-- A disk with two files. -/
def twoWorld (s1 s2 : Str) (r1 r2 : Inner) : World :=
  ⟨fun p => p == utf8Encode s1 || p == utf8Encode s2, fun _ => false, fun p => if p = utf8Encode s1 then some r1 else if p = utf8Encode s2 then some r2 else none,
   fun _ => none, fun _ => .err (.io .other), ⟨[], [], none⟩⟩
theorem twoWorld_first (s1 s2 : Str) (r1 r2 : Inner) : FileAt (twoWorld s1 s2 r1 r2) s1 r1 := ⟨rfl, by simp [twoWorld], if_pos rfl⟩
theorem twoWorld_second (s1 s2 : Str) (r1 r2 : Inner) (h : utf8Encode s2 ≠ utf8Encode s1) : FileAt (twoWorld s1 s2 r1 r2) s2 r2 :=
  ⟨rfl, by simp [twoWorld], (if_neg h).trans (if_pos rfl)⟩
def gzWorld : World := twoWorld "a.csv.gz".toList "b.csv".toList ⟨gzMember.bytes, [.bytes 3], none⟩ ⟨utf8Encode (csvText ',' (copyNames :: copyB)), [], none⟩
theorem copyWorld_two : copyWorld = twoWorld "a.csv".toList "b.csv".toList ⟨gzText, [.bytes 3], none⟩ ⟨utf8Encode (csvText ',' (copyNames :: copyB)), [], none⟩ := rfl
def gzEnv : CliEnv := { copyEnv with dec := { wholeDecoders with gz := gzReader storedLib }, world := gzWorld }
def gzArgs : CliArgs := { copyArgs with inputs := some ["a.csv.gz".toList, "b.csv".toList] }

theorem gzText_short : gzText.length < 65536 := by decide +kernel
theorem gzText_not_zip : ¬ [0x50, 0x4b, 3, 4] <+: gzText := by decide +kernel
theorem gzOther_not_zip : ¬ [0x50, 0x4b, 3, 4] <+: utf8Encode (csvText ',' (copyNames :: copyB)) := by decide +kernel
theorem gz_intact : gzMember.Intact gzText := ⟨rfl, rfl⟩

theorem gz_case : ∃ is is', CopyRun { gzEnv with world := copyWorld } { gzArgs with inputs := some ["a.csv".toList, "b.csv".toList], formats := none } copySettings ',' 0 .seconds copyNames
      [copyA, copyB] copyTime exDev ∧ CsvByContent gzEnv.csv.csv ∧ DecodeByContent gzEnv.dec ∧ gzEnv.dec.gz = gzReader storedLib ∧
    parseInputs gzArgs = .ok is ∧ parseInputs { gzArgs with inputs := some ["a.csv".toList, "b.csv".toList], formats := none } = .ok is' ∧ is.length = is'.length ∧
    ∀ (k : Nat) i i', is[k]? = some i → is'[k]? = some i' → Unpacked storedLib gzEnv.world copyWorld i i' ∨ SameFile gzEnv.world copyWorld i i' := by
  refine ⟨[⟨.path "a.csv.gz".toList, .auto⟩, ⟨.path "b.csv".toList, .auto⟩], [⟨.path "a.csv".toList, .auto⟩, ⟨.path "b.csv".toList, .auto⟩], ?_, ?_, ?_, rfl, rfl, rfl, rfl, ?_⟩
  · exact ⟨copy_example.settings, copy_example.contract, copy_example.noUser, copy_example.delimiter, copy_example.header, copy_example.column, copy_example.format,
       copy_example.outDelimiter, copy_example.outTime, copy_example.inputs, copy_example.plain, copy_example.widths, copy_example.times, copy_example.sorted, copy_example.some,
       copy_example.device, copy_example.reliable⟩
  · intro d hh r1 r2 h
    show plainCsv.parse d hh r1 = plainCsv.parse d hh r2
    unfold plainCsv
    simp only [h.bytes]
  · exact ⟨fun r1 r2 h => C92_gz_crate storedLib storedLib_sched r1 r2 h,
      fun r1 r2 h => ⟨h.bytes, h.ending, by simp [gzEnv, wholeDecoders], by simp [gzEnv, wholeDecoders]⟩,
      fun r1 r2 h => ⟨h.bytes, h.ending, by simp [gzEnv, wholeDecoders], by simp [gzEnv, wholeDecoders]⟩, fun _ _ _ => .none,
      fun r1 r2 h => .some ⟨h.bytes, h.ending, by simp, by simp⟩⟩
  · intro k i i' h1 h2
    match k, h1, h2 with
    | 0, h1, h2 =>
      cases h1; cases h2
      rw [copyWorld_two]
      refine .inl ⟨"a.csv.gz".toList, "a.csv".toList, .auto, .auto, gzMember, gzText, [.bytes 3], [.bytes 3], rfl, rfl, stored_holds gzText_short _, gz_intact,
        twoWorld_first _ _ _ _, twoWorld_first _ _ _ _, by simp, by simp, by decide +kernel, by decide +kernel, ?_, gzText_not_zip⟩
      have e1 : lastComponent "a.csv.gz".toList = some ("a.csv".toList ++ ".gz".toList) := by decide +kernel
      have e2 : lastComponent "a.csv".toList = some "a.csv".toList := by decide +kernel
      rw [e1, e2]
      exact .name _ (plain_csv ['a']) (.inl (.inl ⟨['a'], rfl⟩))
    | 1, h1, h2 =>
      cases h1; cases h2
      rw [copyWorld_two]
      exact .inr ⟨"b.csv".toList, "b.csv".toList, .auto, _, _, rfl, rfl, twoWorld_second _ _ _ _ (by decide +kernel), twoWorld_second _ _ _ _ (by decide +kernel),
        ⟨rfl, rfl, by simp, by simp⟩, rfl, by decide +kernel, by decide +kernel, gzOther_not_zip⟩
    | n + 2, h1, h2 => cases h1

/-- It is merged. -/
example : ∃ out recs, (chopperCli gzEnv gzArgs).result = .ok () ∧ (chopperCli gzEnv gzArgs).output = some out ∧
    out.taken = utf8Encode (csvText ',' (copyNames :: recs)) ∧ recs.Pairwise fun x y => copyTime x ≤ copyTime y := by
  obtain ⟨is, is', h1, h2, h3, h4, h5, h6, h7, h8⟩ := gz_case
  obtain ⟨out, recs, g1, g2, g3, g4, _⟩ := C119_tables gzEnv copyWorld storedLib gzArgs _ _ is is' copySettings ',' 0 .seconds copyNames _ copyTime exDev h1 h2 h3 h4 storedLib_sched
    h5 h6 h7 h8
  exact ⟨out, recs, g1, g2, by rw [g3]; rfl, g4⟩

/-! ## The example program -/

/-- The arguments `-c 0 --out-epoch` and a path. -/
def compressedArgs (path : Str) : CliArgs := { inputs := some [path], tsCol := some ['0'], outEpoch := true }

/-- **C120 (what the example is).** The example program, given any path instead of its own, is the tool called with that path as its only input, the first column as time column
and times printed as nanoseconds since 1970, without time zone and without user supplied parts. -/
theorem C120_is_tool (e : CliEnv) (path : Str) :
    compressedExample e path = chopperCli { e with tzVar := none, userFactories := [], userTransports := [] } (compressedArgs path) := by
  have hs : parseSettings { e with tzVar := none, userFactories := [], userTransports := [] } (compressedArgs path) =
      .ok ⟨[⟨.path path, .auto⟩], ⟨none, none⟩, ⟨none, .auto, .index 0, .auto, none⟩, .newDefault⟩ := rfl
  unfold chopperCli parseCliArgs
  rw [hs]
  unfold compressedExample compressedSetup setupGraph openInputs openInputs
  have hc : CsvInputConfig.new (lib := e.csv.lib) none .auto (.index 0) .auto none = .ok ⟨none, .auto, .index 0, .auto, none⟩ := rfl
  rw [hc]
  simp only [Res.bind_ok]
  cases createFromInput (newInputs e.csv e.dec e.zip e.world (some ⟨none, .auto, .index 0, .auto, none⟩) [] []) e.world ⟨.path path, .auto⟩ with
  | err x => rfl
  | panic => rfl
  | diverge => rfl
  | ok s =>
    simp only [Res.bind_ok]
    have hk : (compressedArgs path).output = none := rfl
    rw [hk]
    unfold newHeaderSink
    simp only [Res.bind_ok]
    have key : ∀ x : Res (DGraph CliSink),
        (match x.bind fun g => Res.ok (CliDriver.mk [s.source] g ⟨none, none⟩) with
          | .ok d => CliRun.mk [] (some (d.drive e.sink).1) (d.drive e.sink).2
          | .err x => ⟨[], none, .err x⟩
          | .panic => ⟨[], none, .panic⟩
          | .diverge => ⟨[], none, .diverge⟩) =
        (match (([], x.bind fun g => Res.ok (CliDriver.mk [s.source] g ⟨none, none⟩)) : List Path × Res CliDriver) with
          | (created, .ok d) => CliRun.mk created (some (d.drive e.sink).1) (d.drive e.sink).2
          | (created, .err x) => ⟨created, none, .err x⟩
          | (created, .panic) => ⟨created, none, .panic⟩
          | (created, .diverge) => ⟨created, none, .diverge⟩) := by
      intro x
      cases x <;> rfl
    exact key (newDriver e.csv.ov.checks .mergeJoin 4 1 [[.sink (csvSinkHeader e.sink .newDefault e.out.stdout)]] [s.header])

/-- **C120 (compressed input).** Given an intact gzip file, it does what the tool does with the unpacked file. -/
theorem C120_unpacked (e : CliEnv) (w' : World) (lib : GzCrate) (path path' : Str) (hcsv : CsvByContent e.csv.csv) (hd : DecodeByContent e.dec) (hg : e.dec.gz = gzReader lib)
    (hs : ∀ file k, ReadStep.fail k ∉ lib.sched file) (h : Unpacked lib e.world w' ⟨.path path, .auto⟩ ⟨.path path', .auto⟩) :
    compressedExample e path = chopperCli { e with world := w', tzVar := none, userFactories := [], userTransports := [] } (compressedArgs path') := by
  rw [C120_is_tool]
  refine C119_tool { e with tzVar := none, userFactories := [], userTransports := [] } w' lib (compressedArgs path) (some [path']) none [⟨.path path, .auto⟩] [⟨.path path', .auto⟩]
    ⟨rfl, rfl⟩ hcsv hd hg hs rfl rfl rfl ?_
  intro k i i' h1 h2
  match k, h1, h2 with
  | 0, h1, h2 => cases h1; cases h2; exact .inl h
  | n + 1, h1, h2 => cases h1

/-- The first input of the case above. -/
example : compressedExample gzEnv "a.csv.gz".toList =
    chopperCli { gzEnv with world := copyWorld, tzVar := none, userFactories := [], userTransports := [] } (compressedArgs "a.csv".toList) := by
  obtain ⟨is, is', _, h2, h3, h4, h5, h6, _, h8⟩ := gz_case
  cases h5; cases h6
  refine C120_unpacked gzEnv copyWorld storedLib _ _ h2 h3 h4 storedLib_sched ((h8 0 _ _ rfl rfl).resolve_right ?_)
  rintro ⟨s, s', fmt, r, r', h1, h2, _, _, _, h3, _⟩
  cases h1; cases h2
  revert h3
  decide +kernel

end Chopper.Props
