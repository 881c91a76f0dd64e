import Verif.Props.CsvBroken
import Verif.Spec.ZipBroken
import Verif.Proofs.InputCrc
import Verif.Props.Received

/-!
# C148: zip archives as inputs whose entry cannot be unpacked completely
-/
namespace Chopper.Props
open Chopper Chopper.Spec

variable {env : CsvEnv} {dec : Decoders} {zip : ZipLib} {w w' : World}

/-- A zip archive whose entry cannot be unpacked completely: what can be unpacked, and then the error, is opened under the entry's name. -/
theorem zip_damaged {csv : Option (CsvInputConfig env.lib)} {s name : Str} {part : List Byte} {sched : List ReadStep} {k : IoKind} (h : ZipDamaged zip w s name part sched k) (fmt : InputFormat) :
    createFromInput (newInputs env dec zip w csv [] []) w ⟨.path s, fmt⟩ =
      (Previewer.new defaultBufSize ⟨part, sched, some k⟩).bind fun p => createFromPreviewer dec (defaultFactories env csv) p (some name) fmt := by
  obtain ⟨⟨inner, L, packed, usize, hf, hz, hs, hlast, hextra, hm⟩⟩ := h
  have hop : ∀ pos, ∃ q, openZip zip inner.data pos = .ok ((CrcReader.new ⟨part, sched, some k⟩ L.ch.crc, name), q) := by
    intro pos
    have := openZip_single zip hs (by rcases hm with h | h <;> simp [h.1]) hlast (stops_of_layout hs (.inl hextra)) pos
    rw [show unpacked zip L.ch.method packed = ⟨part, sched, some k⟩ from ?_] at this
    · exact this
    · unfold unpacked
      rcases hm with ⟨h1, h2⟩ | ⟨h1, h2⟩
      · rw [if_neg (by omega), if_pos h1, h2]
      · rw [if_neg (by omega), if_neg (by omega), h2]
  rw [C66_zip_file env dec zip w csv s fmt inner hf.notDir hf.here hf.opens hz _ name hop]
  rfl

/-- **C148 (the entry cannot be unpacked).** A zip archive with a compressed entry which breaks off with an error is read, in any format, exactly like a plain file of the entry's name that holds
what can be unpacked and whose reading then fails with that error - never as if this were all, and whatever the checksum is. -/
theorem C148_unpack (env : CsvEnv) (dec : Decoders) (zip : ZipLib) (w : World) (csv : Option (CsvInputConfig env.lib)) (s name : Str) (fmt : InputFormat) (part : List Byte)
    (sched : List ReadStep) (k : IoKind) (h : ZipDamaged zip w s name part sched k) (w' : World) (s' : Str) (hp : FileAt w' s' ⟨part, sched, some k⟩) (hname : lastComponent s' = some name)
    (hh : ¬ HttpAddress s') (hz : ¬ [0x50, 0x4b, 3, 4] <+: part) :
    createFromInput (newInputs env dec zip w csv [] []) w ⟨.path s, fmt⟩ = createFromInput (newInputs env dec zip w' csv [] []) w' ⟨.path s', fmt⟩ := by
  rw [zip_damaged h, C66_plain_file env dec zip w' csv s' fmt _ hp.notDir hp.here hp.opens hh hz, hname]

/-- **C148 (the checksum is wrong).** A zip archive whose entry does not have the stored checksum is read, in any format, exactly like a plain file of the entry's name with its content whose reading
fails with "invalid data" at the end. -/
theorem C148_checksum (env : CsvEnv) (dec : Decoders) (zip : ZipLib) (w : World) (csv : Option (CsvInputConfig env.lib)) (s name : Str) (fmt : InputFormat) (content : List Byte)
    (sched : List ReadStep) (sum : BitVec 32) (h : ZipAt zip w s name content sched sum) (hbad : crc32 content ≠ sum) (w' : World) (s' : Str)
    (hp : FileAt w' s' ⟨content, sched, some .invalidData⟩) (hname : lastComponent s' = some name) (hh : ¬ HttpAddress s') (hz : ¬ [0x50, 0x4b, 3, 4] <+: content) :
    createFromInput (newInputs env dec zip w csv [] []) w ⟨.path s, fmt⟩ = createFromInput (newInputs env dec zip w' csv [] []) w' ⟨.path s', fmt⟩ := by
  rw [zip_input h, if_neg hbad, C66_plain_file env dec zip w' csv s' fmt _ hp.notDir hp.here hp.opens hh hz, hname]

/-- **C148 (small entries).** If less than the preview (8192 bytes) can be unpacked, the error is reported when the input is opened, whatever the format. -/
theorem C148_small (env : CsvEnv) (dec : Decoders) (zip : ZipLib) (w : World) (csv : Option (CsvInputConfig env.lib)) (s name : Str) (fmt : InputFormat) (part : List Byte)
    (sched : List ReadStep) (k : IoKind) (h : ZipDamaged zip w s name part sched k) (hl : part.length < defaultBufSize) (hn : ∀ e, ReadStep.fail e ∉ sched) :
    createFromInput (newInputs env dec zip w csv [] []) w ⟨.path s, fmt⟩ = .err (.io k) := by
  rw [zip_damaged h]
  rcases previewer_spec defaultBufSize (by decide) ⟨part, sched, some k⟩ with ⟨p, _, _, _, _, _, _, _, h8⟩ | ⟨e, h1, h2⟩
  · have := h8 hl; simp at this
  · rw [h1]
    rcases h2 with h2 | h2
    · exact absurd h2 (hn e)
    · simp only [Option.some.injEq] at h2
      subst h2
      rfl

/-- **C148 (the reader of an entry).** The checksum reader put around an entry's data answers any sequence of reads, of any sizes, exactly like a plain reader of the same data that is chopped up in
the same way and fails at the end: with the error of the data, if they end with one; with "invalid data", if they do not and their checksum is not the stored one; and not at all otherwise. -/
theorem C148_reader (data : List Byte) (sched : List ReadStep) (ending : Option IoKind) (sum : BitVec 32) (sizes : List Nat) :
    answers CrcReader.read sizes (CrcReader.new ⟨data, sched, ending⟩ sum) =
      answers Inner.read sizes ⟨data, sched, match ending with | some k => some k | none => if crc32 data = sum then none else some .invalidData⟩ := by
  have key : ∀ (sizes : List Nat) (r : CrcReader), answers CrcReader.read sizes r = answers Inner.read sizes r.asInner := by
    intro sizes
    induction sizes with
    | nil => intro r; rfl
    | cons n sizes ih =>
      intro r
      obtain ⟨h1, h2⟩ := asInner_read r n
      simp only [answers]
      rw [h1, h2, ih]
  rw [key]
  congr 1
  have := C52_incremental [data]
  simp only [List.foldl_cons, List.foldl_nil, List.flatten_cons, List.flatten_nil, List.append_nil] at this
  unfold CrcReader.asInner CrcReader.new
  simp only [this]
  cases ending <;> rfl

/-- A broken input that can be opened is opened like a reader of a part of its content that fails at its end. -/
theorem brokenZip_opened {lib : GzCrate} (hd : dec.gz = gzReader lib) {cfg : CsvInputConfig env.lib} {i : Input} {content : List Byte} (hi : BrokenOrZip lib zip w i content) {f : FileSource}
    (ho : createFromInput (newInputs env dec zip w (some cfg) [] []) w i = .ok f) : ∃ r n fmt, r.ending ≠ none ∧ r.data <+: content ∧ SaysCsv n fmt ∧
      ((Previewer.new defaultBufSize r).bind fun p => createFromPreviewer dec (defaultFactories env (some cfg)) p n fmt) = .ok f := by
  cases hi with
  | broken h => exact broken_opened hd h ho
  | unpack s name fmt part sched k h1 h2 h3 h4 =>
    subst h1
    rw [zip_damaged h2] at ho
    exact ⟨_, some name, fmt, by simp, h3, h4, ho⟩

/-- **C148 (CSV).** CSV in a zip archive whose entry cannot be unpacked completely (or that is broken in another way, C145): if it is opened at all, then the intact input is opened too, with the
same header, and begins with all the rows that are read; and the end of these rows is always an error. -/
theorem C148_input (env : CsvEnv) (hcrate : env.csv = csvCrate) (dec : Decoders) (lib : GzCrate) (hd : dec.gz = gzReader lib) (hls : ∀ file e, ReadStep.fail e ∉ lib.sched file) (zip : ZipLib)
    (w w' : World) (cfg : CsvInputConfig env.lib) (b : Byte) (header : Bool) (u : TimestampUnits) (hc : Explicit cfg b header u) (hb : b.toNat < 128) (i i' : Input) (content : List Byte)
    (hi : BrokenOrZip lib zip w i content) (hi' : CompleteCsv lib zip w' i' content) (f : FileSource)
    (ho : createFromInput (newInputs env dec zip w (some cfg) [] []) w i = .ok f) :
    ∃ f', createFromInput (newInputs env dec zip w' (some cfg) [] []) w' i' = .ok f' ∧ f'.header = f.header ∧ f.source.rows <+: f'.source.rows ∧ f.source.ending ≠ .eof := by
  obtain ⟨r, n, fmt, h1, h2, h3, h4⟩ := brokenZip_opened hd hi ho
  obtain ⟨r', n', fmt', g1, g2, g3, g4⟩ := complete_opened hd hls cfg hi'
  obtain ⟨h, out⟩ := f
  obtain ⟨p, hp, hin⟩ := (csv_previewed hc h3 h out).1 h4
  obtain ⟨p', hp', _⟩ := preview_ok g1
  obtain ⟨out', m1, m2, _⟩ := csv_parts hcrate hc hb hp hp' (by rw [g2]; exact h2) g1 hin (.inl h1)
  exact ⟨⟨h, out'⟩, by rw [g4]; exact (csv_previewed hc g3 h out').2 ⟨p', hp', m1⟩, rfl, (m2 h1).1, (m2 h1).2⟩

/-- **C148 (the tool).** A run of the tool over any number of inputs of which some are zip archives that cannot be unpacked completely (or are broken in another way, C145), against the run over the
same inputs unbroken, where that succeeds: the output file holds a beginning of the complete one; if the run reports success, all of it. -/
theorem C148_tool (e : CliEnv) (hcrate : e.csv.csv = csvCrate) (lib : GzCrate) (hg : e.dec.gz = gzReader lib) (hls : ∀ file k, ReadStep.fail k ∉ lib.sched file) (w' : World) (a : CliArgs)
    (st : CliSettings e.csv.lib) (wholes : List FileSource) (h : Header) (d : Device) (b : Byte) (header : Bool) (u : TimestampUnits) (hs : parseSettings e a = .ok st)
    (hc : Explicit st.inCfg b header u) (hb : b.toNat < 128) (hp : e.userFactories = [] ∧ e.userTransports = [])
    (hi : ∀ i ∈ st.inputs, ArrivesOrBreaksZip lib e.zip e.world w' i) (ho : Opens e st wholes) (hh : ∀ f ∈ wholes, f.header = h) (hd : CsvTo e.out a.output d ∨ DcTo e.out a.output d)
    (hok : (chopperCli e a).result = .ok ()) (out out' : Device) (hout : (chopperCli e a).output = some out) (hout' : (chopperCli { e with world := w' } a).output = some out') :
    out'.taken <+: out.taken ∧ ((chopperCli { e with world := w' } a).result = .ok () → out'.taken = out.taken) := by
  obtain ⟨parts, ho'⟩ := opens_of_output (e := { e with world := w' }) (st := st) hs hout'
  refine tool_parts e w' a st parts wholes h d hs ho ho' hh ?_ hd hok out out' hout hout'
  intro i hin f f' h1 h2
  rw [hp.1, hp.2] at h1 h2
  rcases hi i hin with ⟨r, n, k1, k2⟩ | ⟨content, k1, k2⟩
  · rw [k1.opens (some st.inCfg)] at h1
    rw [k2.opens (some st.inCfg), h1] at h2
    cases h2
    exact ⟨rfl, .inl rfl⟩
  · obtain ⟨g, g1, g2, g3, g4⟩ := C148_input e.csv hcrate e.dec lib hg hls e.zip w' e.world st.inCfg b header u hc hb i i content k2 k1 f' h2
    rw [h1] at g1
    cases g1
    exact ⟨g2.symm, .inr ⟨g3, g4⟩⟩

/-- **C148 (DC).** DC in a zip archive whose entry cannot be unpacked completely: if it is opened at all, its header is the one of the whole file, its rows are first rows of the whole file, and if that
ends well, so does this one unless there is an I/O error. -/
theorem C148_dc (env : CsvEnv) (dec : Decoders) (zip : ZipLib) (w : World) (cfg : Option (CsvInputConfig env.lib)) (s name : Str) (fmt : InputFormat) (part : List Byte) (sched : List ReadStep)
    (k : IoKind) (hi : ZipDamaged zip w s name part sched k) (hn : SaysDc (some name) fmt) (whole : List Byte) (h : Header) (src : Source) (hw : IsDcFile whole h src) (hp : part <+: whole)
    (f : FileSource) (ho : createFromInput (newInputs env dec zip w cfg [] []) w ⟨.path s, fmt⟩ = .ok f) : PartOf f h src := by
  rw [zip_damaged hi] at ho
  obtain ⟨p, hp', ho⟩ := bind_ok_inv ho
  rw [says_dc hn] at ho
  exact dc_created hw ((received_previewed hp').trans hp) ho

/-- **C148 (DC, wrong checksum).** DC in a zip archive with a wrong checksum: if it is opened at all, no row is wrong, doubled or moved (but nothing need be reported: C83). -/
theorem C148_dc_checksum (env : CsvEnv) (dec : Decoders) (zip : ZipLib) (w : World) (cfg : Option (CsvInputConfig env.lib)) (s name : Str) (fmt : InputFormat) (content : List Byte)
    (sched : List ReadStep) (sum : BitVec 32) (hi : ZipAt zip w s name content sched sum) (hbad : crc32 content ≠ sum) (hn : SaysDc (some name) fmt) (h : Header) (src : Source)
    (hw : IsDcFile content h src) (f : FileSource) (ho : createFromInput (newInputs env dec zip w cfg [] []) w ⟨.path s, fmt⟩ = .ok f) : PartOf f h src := by
  rw [zip_input hi, if_neg hbad] at ho
  obtain ⟨p, hp', ho⟩ := bind_ok_inv ho
  rw [says_dc hn] at ho
  exact dc_created hw (received_previewed hp') ho

/-! ### Cases that meet the hypotheses -/

/-- Inflating delivers `part` and then an error, whatever the packed data. -/
def cutLib (part : List Byte) : ZipLib := ⟨fun _ => [], fun _ => ⟨part, [], some .other⟩, id, []⟩
def deflatedLocal : LocalHeader := ⟨List.replicate 22 0, asciiBytes ".csv", []⟩
def deflatedCentral : CentralHeader := ⟨[0, 0, 0, 0], 0, 8, [0, 0, 0, 0], 77, 3, 20000, 0, [0, 0, 0, 0, 0, 0], 0, asciiBytes ".csv", [], []⟩
/-- A zip archive with a deflated file `.csv`, three bytes packed and 20000 bytes not, checksum 77. -/
def deflatedZip : List Byte := deflatedLocal.bytes ++ [1, 2, 3] ++ deflatedCentral.bytes ++ eocdBytes 0 0 1 1 50 37 []
def deflatedLayout : Layout := ⟨0, deflatedLocal, 37, deflatedCentral, 87, 50, 37, []⟩

theorem deflated_single : SingleFile deflatedZip deflatedLayout ".csv".toList 20000 [1, 2, 3] where
  localOk := ⟨by decide, by decide, by decide⟩
  localAt := by unfold At; decide +kernel
  inside := by decide +kernel
  centralOk := ⟨by decide, by decide, by decide, by decide, by decide, by decide, by decide, by decide, by decide, by decide, by decide, by simp [deflatedLayout, deflatedCentral], by decide⟩
  centralAt := by unfold At; decide +kernel
  plain := by decide
  oneDisk := .inl rfl
  sizes := ⟨by intro pre s post h; simp [deflatedLayout, deflatedCentral] at h, fun _ => ⟨rfl, rfl, rfl⟩, by intro s h; simp [deflatedLayout, deflatedCentral] at h, by decide⟩
  named := by unfold NameIs; decide +kernel
  cdSize := by decide
  cdOff32 := by decide
  comment := by decide
  endAt := by unfold At; decide +kernel
  endLast := by decide +kernel
  order := by decide +kernel
  central := .inl ⟨by unfold At; decide +kernel, rfl⟩
  size := by decide +kernel

theorem deflated_last : LastEnd deflatedZip deflatedLayout.eo := by
  intro p hp ha
  have hl : deflatedZip.length = 109 := by decide +kernel
  have h1 := at_len ha (by simp)
  rw [hl] at h1
  simp only [List.length_cons, List.length_nil, deflatedLayout] at h1 hp
  have key : ∀ q : Nat, q < 19 → ¬ At deflatedZip (87 + (q + 1)) [0x50, 0x4b, 5, 6] := by unfold At; decide +kernel
  obtain ⟨q, rfl⟩ : ∃ q, p = 87 + (q + 1) := ⟨p - 88, by omega⟩
  exact key q (by omega) ha

theorem deflated_damaged (part : List Byte) : ZipDamaged (cutLib part) (oneWorld ['z'] deflatedZip) ['z'] ".csv".toList part [] .other :=
  ⟨⟨deflatedZip, [], none⟩, deflatedLayout, [1, 2, 3], 20000, ⟨rfl, by simp [oneWorld], by simp [oneWorld]⟩, by decide +kernel, deflated_single, deflated_last, rfl, .inl ⟨rfl, rfl⟩⟩

theorem deflated_says : SaysCsv (some ".csv".toList) .auto := .inl ⟨[], rfl, rfl⟩

/-- The archive that breaks off is opened, and its rows but the last are read. -/
theorem deflated_read (n : Nat) (hn : defaultBufSize ≤ 2 * n) (hn2 : 0 < n) :
    ∃ f, createFromInput (newInputs crateEnv (gzDecoders storedLib) (cutLib (ones n)) (oneWorld ['z'] deflatedZip) (some nanosCfg) [] []) (oneWorld ['z'] deflatedZip) ⟨.path ['z'], .auto⟩ = .ok f ∧
      f.source.rows.length = n - 1 := by
  obtain ⟨f, h1, h2, _⟩ := ones_read (dec := gzDecoders storedLib) n hn hn2
  refine ⟨f, ?_, h2⟩
  replace h1 := ((piped_delivered ⟨ones n, [], some .other⟩).opens (env := crateEnv) (dec := gzDecoders storedLib) (some nanosCfg)).symm.trans h1
  have key : ∀ (r : Inner) (m m' : Option Str) (fmt fmt' : InputFormat), SaysCsv m fmt → SaysCsv m' fmt' →
      ((Previewer.new defaultBufSize r).bind fun p => createFromPreviewer (gzDecoders storedLib) (defaultFactories crateEnv (some nanosCfg)) p m fmt) =
      (Previewer.new defaultBufSize r).bind fun p => createFromPreviewer (gzDecoders storedLib) (defaultFactories crateEnv (some nanosCfg)) p m' fmt' := by
    intro r m m' fmt fmt' h h'
    exact congrArg (fun k : Previewer → Res FileSource => (Previewer.new defaultBufSize r).bind k) (funext fun p => (says_csv h).trans (says_csv h').symm)
  exact (zip_damaged (env := crateEnv) (dec := gzDecoders storedLib) (deflated_damaged (ones n)) .auto).trans ((key _ _ _ _ _ deflated_says piped_says).trans h1)

/-- Everything `C148_unpack` asks for: the archive and a plain file `.csv` that cannot be read to its end. -/
example (part : List Byte) (hz : ¬ [0x50, 0x4b, 3, 4] <+: part) (dec : Decoders) :
    createFromInput (newInputs crateEnv dec (cutLib part) (oneWorld ['z'] deflatedZip) (some nanosCfg) [] []) (oneWorld ['z'] deflatedZip) ⟨.path ['z'], .auto⟩ =
      createFromInput (newInputs crateEnv dec (cutLib part) { oneWorld ".csv".toList [] with file := fun _ => some ⟨part, [], some .other⟩ } (some nanosCfg) [] [])
        { oneWorld ".csv".toList [] with file := fun _ => some ⟨part, [], some .other⟩ } ⟨.path ".csv".toList, .auto⟩ :=
  C148_unpack crateEnv dec (cutLib part) _ (some nanosCfg) ['z'] ".csv".toList .auto part [] .other (deflated_damaged part) _ ".csv".toList
    ⟨rfl, by simp [oneWorld], rfl⟩ (by decide +kernel) (by decide +kernel) hz

/-- Everything `C148_checksum` asks for. -/
example (dec : Decoders) (content : List Byte) (hl : content.length < 2 ^ 20) (hz : ¬ [0x50, 0x4b, 3, 4] <+: content) :
    createFromInput (newInputs crateEnv dec exLib (oneWorld ['z'] (oneZip (asciiBytes ".csv") content (crc32 content + 1#32))) (some nanosCfg) [] [])
        (oneWorld ['z'] (oneZip (asciiBytes ".csv") content (crc32 content + 1#32))) ⟨.path ['z'], .auto⟩ =
      createFromInput (newInputs crateEnv dec exLib { oneWorld ".csv".toList [] with file := fun _ => some ⟨content, [], some .invalidData⟩ } (some nanosCfg) [] [])
        { oneWorld ".csv".toList [] with file := fun _ => some ⟨content, [], some .invalidData⟩ } ⟨.path ".csv".toList, .auto⟩ :=
  C148_checksum crateEnv dec exLib _ (some nanosCfg) ['z'] ".csv".toList .auto content [] _ (oneZip_at _ _ _ _ (by decide) (by unfold NameIs; decide) hl) (Ne.symm (bumped _)) _ ".csv".toList
    ⟨rfl, by simp [oneWorld], rfl⟩ (by decide +kernel) (by decide +kernel) hz

/-- Everything `C148_small` asks for. -/
example (dec : Decoders) : createFromInput (newInputs crateEnv dec (cutLib (ones 5)) (oneWorld ['z'] deflatedZip) (some nanosCfg) [] []) (oneWorld ['z'] deflatedZip) ⟨.path ['z'], .auto⟩ =
    .err (.io .other) :=
  C148_small crateEnv dec (cutLib (ones 5)) _ (some nanosCfg) ['z'] ".csv".toList .auto (ones 5) [] .other (deflated_damaged _) (by rw [ones_length]; simp [defaultBufSize]) (by simp)

/-- Everything `C148_input` asks for, and so what it says: of 25000 lines, 10000 can be unpacked. -/
example : ∃ f f', createFromInput (newInputs crateEnv (gzDecoders storedLib) (cutLib (ones 10000)) (oneWorld ['z'] deflatedZip) (some nanosCfg) [] []) (oneWorld ['z'] deflatedZip) ⟨.path ['z'], .auto⟩ =
      .ok f ∧
    createFromInput (newInputs crateEnv (gzDecoders storedLib) (cutLib (ones 10000)) (pipedWorld ⟨ones 25000, [], none⟩) (some nanosCfg) [] []) (pipedWorld ⟨ones 25000, [], none⟩) pipedCsv = .ok f' ∧
    f.source.rows <+: f'.source.rows ∧ f.source.rows.length = 9999 ∧ f.source.ending ≠ .eof := by
  obtain ⟨f, h1, h2⟩ := deflated_read 10000 (by simp [defaultBufSize]) (by omega)
  have hpre : ∀ a b : Nat, a ≤ b → ones a <+: ones b := by
    intro a b h
    obtain ⟨c, rfl⟩ := Nat.le.dest h
    exact ⟨ones c, by simp only [ones, ← List.replicate_append_replicate, List.flatten_append]⟩
  have hgood : ∀ n, CompleteCsv storedLib (cutLib (ones 10000)) (pipedWorld ⟨ones n, [], none⟩) pipedCsv (ones n) := fun n =>
    .plain _ none (.standardInput (w := pipedWorld ⟨ones n, [], none⟩) _) (noFail_none (by simp)) rfl piped_says
  obtain ⟨f', h3, _, h4, h5⟩ := C148_input crateEnv rfl (gzDecoders storedLib) storedLib rfl storedLib_sched (cutLib (ones 10000)) _ _ nanosCfg 44 false .nanos nanos_explicit (by decide)
    ⟨.path ['z'], .auto⟩ pipedCsv (ones 25000) (.unpack ['z'] _ .auto _ [] .other rfl (deflated_damaged _) (hpre _ _ (by omega)) deflated_says) (hgood _) f h1
  exact ⟨f, f', h1, h3, h4, h2, h5⟩

/-- What `C148_tool` asks of an input: an intact archive before, one that breaks off after. -/
example (n m : Nat) (h : m ≤ n) (hn : n < 2 ^ 19) (lib : GzCrate) :
    ArrivesOrBreaksZip lib (cutLib (ones m)) (oneWorld ['z'] (oneZip (asciiBytes ".csv") (ones n) (crc32 (ones n)))) (oneWorld ['z'] deflatedZip) ⟨.path ['z'], .auto⟩ := by
  refine .inr ⟨ones n, .plain _ _ (.archive ['z'] ".csv".toList .auto (ones n) [] ?_) (noFail_none (by simp)) rfl deflated_says, .unpack ['z'] _ .auto _ [] .other rfl (deflated_damaged _) ?_ deflated_says⟩
  · obtain ⟨b1, b2, b3⟩ := oneZip_single (asciiBytes ".csv") (ones n) (crc32 (ones n)) ".csv".toList (by decide) (by unfold NameIs; decide) (by rw [ones_length]; omega)
    exact ⟨⟨⟨oneZip (asciiBytes ".csv") (ones n) (crc32 (ones n)), [], none⟩, oneLayout (asciiBytes ".csv") (ones n) (crc32 (ones n)), ones n, ⟨rfl, by simp [oneWorld], by simp [oneWorld]⟩, b3, b1, rfl, b2, rfl, .inl ⟨rfl, rfl, rfl⟩⟩, by simp⟩
  · obtain ⟨c, rfl⟩ := Nat.le.dest h
    exact ⟨ones c, by simp only [ones, ← List.replicate_append_replicate, List.flatten_append]⟩

theorem big_file : IsDcFile bigDc ⟨[['a']], [.int]⟩ ⟨[], .eof⟩ := by
  rw [isDcFile_iff strictEnv.ov]
  exact ⟨_, bigDc_opens, rfl, ⟨_, .nil _, rfl⟩⟩

/-- Everything `C148_dc` asks for, and so what it says: of a DC file (here 9032 bytes, a header alone) everything can be unpacked before the error. -/
example : ∃ f, createFromInput (newInputs strictEnv plainDecoders (cutLib bigDc) (oneWorld ['z'] deflatedZip) none [] []) (oneWorld ['z'] deflatedZip) ⟨.path ['z'], .extension "dc".toList⟩ = .ok f ∧
    PartOf f ⟨[['a']], [.int]⟩ ⟨[], .eof⟩ := by
  have hs : SaysDc (some ".csv".toList) (.extension "dc".toList) := .inr (.inl rfl)
  obtain ⟨f, hf⟩ : ∃ f, createFromInput (newInputs strictEnv plainDecoders (cutLib bigDc) (oneWorld ['z'] deflatedZip) none [] []) (oneWorld ['z'] deflatedZip)
      ⟨.path ['z'], .extension "dc".toList⟩ = .ok f := by
    rw [zip_damaged (deflated_damaged bigDc)]
    obtain ⟨p, h1, h3, h7⟩ := previewer_large (capacity := defaultBufSize) (by decide) (inner := ⟨bigDc, [], some .other⟩) (by rw [bigDc_length]; decide) (by simp)
    rw [h1, Res.bind_ok, says_dc hs]
    have hst : streamOf p.reader = ofBytes bigDc ++ Item.fail IoKind.other :: [] := by
      rw [streamOf_eq _ (fun e he => by have := previewer_sched h1 _ he; simp at this), h3, h7]
      rfl
    obtain ⟨d, hd, _⟩ := C139_complete strictEnv.ov (streamOf p.reader) bigDc _ _ big_file (by rw [hst, received_append]; simp [received])
    refine ⟨d.toFile, ?_⟩
    show (dcOpen strictEnv.ov (streamOf p.reader)).bind (fun src => .ok src.toFile) = _
    rw [hd, Res.bind_ok]
  exact ⟨f, hf, C148_dc strictEnv plainDecoders (cutLib bigDc) _ none ['z'] _ _ bigDc [] .other (deflated_damaged _) hs bigDc _ _ big_file (List.prefix_refl _) f hf⟩

/-- Everything `C148_dc_checksum` asks for, and so what it says. -/
example : ∃ f, createFromInput (newInputs strictEnv plainDecoders exLib (oneWorld ['z'] (oneZip (asciiBytes "a.dc") bigDc (crc32 bigDc + 1#32))) none [] [])
      (oneWorld ['z'] (oneZip (asciiBytes "a.dc") bigDc (crc32 bigDc + 1#32))) ⟨.path ['z'], .auto⟩ = .ok f ∧ PartOf f ⟨[['a']], [.int]⟩ ⟨[], .eof⟩ := by
  have hz := oneZip_at (asciiBytes "a.dc") bigDc (crc32 bigDc + 1#32) "a.dc".toList (by decide) (by unfold NameIs; decide) (by rw [bigDc_length]; decide)
  have hs : SaysDc (some "a.dc".toList) .auto := .inl ⟨['a'], rfl, rfl⟩
  have hf := C83_dc_never strictEnv plainDecoders exLib _ none ['z'] _ .auto bigDc [] _ hz (Ne.symm (bumped _)) hs (by rw [bigDc_length]; decide) _ _ [] bigDc_opens (.nil _) rfl
  exact ⟨_, hf, C148_dc_checksum strictEnv plainDecoders exLib _ none ['z'] _ .auto bigDc [] _ hz (Ne.symm (bumped _)) hs _ _ big_file _ hf⟩

end Chopper.Props
