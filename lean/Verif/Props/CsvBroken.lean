import Verif.Props.CsvReceived3
import Verif.Props.Gzip
import Verif.Spec.BrokenCsv

/-!
# C145: CSV inputs that are broken in any way that is noticed
-/
namespace Chopper.Props
open Chopper Chopper.Spec

variable {env : CsvEnv} {dec : Decoders} {zip : ZipLib} {w w' : World}

/-- What a previewer of a CSV reader opens. -/
theorem csv_previewed {cfg : CsvInputConfig env.lib} {b : Byte} {header : Bool} {u : TimestampUnits} (hc : Explicit cfg b header u) {r : Inner} {n : Option Str} {fmt : InputFormat}
    (hn : SaysCsv n fmt) (h : Header) (out : Source) :
    ((Previewer.new defaultBufSize r).bind fun p => createFromPreviewer dec (defaultFactories env (some cfg)) p n fmt) = .ok ⟨h, out⟩ ↔
      ∃ p, Previewer.new defaultBufSize r = .ok p ∧ IsCsvInput env.ov env.lib cfg.tz header cfg.tsCol u (env.csv.parse b header p.reader) h out := by
  constructor
  · intro h1
    obtain ⟨p, hp, h2⟩ := Res.bind_eq_ok.1 h1
    rw [says_csv hn] at h2
    exact ⟨p, hp, (C97_open env cfg b header u hc p h out).1 h2⟩
  · rintro ⟨p, hp, h2⟩
    rw [hp, Res.bind_ok, says_csv hn]
    exact (C97_open env cfg b header u hc p h out).2 h2

/-- What is delivered as a gzip file: the decoder's bytes are opened. -/
theorem gz_delivered {lib : GzCrate} (hd : dec.gz = gzReader lib) (cfg : CsvInputConfig env.lib) {i : Input} {r : Inner} {n n' : Option Str} {fmt' : InputFormat} {content : List Byte}
    {ending : Option IoKind} (hi : Delivered zip w i r n) (hg : gzDecode lib r.data = (content, ending)) (h : GivenAsGz r.data content n i.format n' fmt') :
    createFromInput (newInputs env dec zip w (some cfg) [] []) w i = (Previewer.new defaultBufSize r).bind fun _ =>
      (Previewer.new defaultBufSize ⟨content, lib.sched r.data, if ending = some .unexpectedEof then some (r.ending.getD .unexpectedEof) else ending⟩).bind fun p =>
        createFromPreviewer dec (defaultFactories env (some cfg)) p n' fmt' := by
  rw [hi.opens (some cfg)]
  rcases previewer_spec defaultBufSize (by decide) r with ⟨p, h1, _, h3, _, _, _, h7, _⟩ | ⟨e, h1, _⟩
  · have hr : dec.gz p.reader = ⟨content, lib.sched r.data, if ending = some .unexpectedEof then some (r.ending.getD .unexpectedEof) else ending⟩ := by
      rw [hd]
      unfold gzReader
      have h3' : (p.reader.buf.drop p.reader.pos).take (p.reader.cap - p.reader.pos) ++ p.reader.inner.data = r.data := h3
      simp only [h3', hg, h7]
    rw [h1, Res.bind_ok, Res.bind_ok, gz_previewer cfg h1 (by rw [hr]; exact h), hr]
  · generalize Previewer.new defaultBufSize r = x at h1 ⊢
    subst h1
    simp only [Res.bind]

/-- A complete input is opened like a reader of its content. -/
theorem complete_opened {lib : GzCrate} (hd : dec.gz = gzReader lib) (hls : ∀ file e, ReadStep.fail e ∉ lib.sched file) (cfg : CsvInputConfig env.lib) {i : Input} {content : List Byte}
    (hi : CompleteCsv lib zip w i content) : ∃ r n fmt, NoFail r ∧ r.data = content ∧ SaysCsv n fmt ∧
      createFromInput (newInputs env dec zip w (some cfg) [] []) w i = (Previewer.new defaultBufSize r).bind fun p => createFromPreviewer dec (defaultFactories env (some cfg)) p n fmt := by
  cases hi with
  | plain r n h1 h2 h3 h4 => exact ⟨r, n, i.format, h2, h3, h4, h1.opens (some cfg)⟩
  | gzip r n n' fmt' m tail h1 h2 h3 h4 h5 h6 h7 =>
    have hg := (gzDecode_member h4 tail).1 h5
    rw [← h3] at hg
    obtain ⟨p, hp, _⟩ := preview_ok h2
    refine ⟨⟨content, lib.sched r.data, none⟩, n', fmt', noFail_none (hls _), rfl, h7, ?_⟩
    rw [gz_delivered hd cfg h1 hg h6, hp, Res.bind_ok, if_neg (by simp)]

/-- A broken input that can be opened is opened like a reader of a part of its content that fails at its end. -/
theorem broken_opened {lib : GzCrate} (hd : dec.gz = gzReader lib) {cfg : CsvInputConfig env.lib} {i : Input} {content : List Byte} (hi : BrokenCsv lib zip w i content) {f : FileSource}
    (ho : createFromInput (newInputs env dec zip w (some cfg) [] []) w i = .ok f) : ∃ r n fmt, r.ending ≠ none ∧ r.data <+: content ∧ SaysCsv n fmt ∧
      ((Previewer.new defaultBufSize r).bind fun p => createFromPreviewer dec (defaultFactories env (some cfg)) p n fmt) = .ok f := by
  cases hi with
  | fails r n k h1 h2 h3 h4 => exact ⟨r, n, i.format, by rw [h3]; simp, h2, h4, by rw [← h1.opens (some cfg)]; exact ho⟩
  | gzip r n n' fmt' h1 h2 h3 h4 h5 =>
    obtain ⟨part, k, hp, hg, _⟩ := damaged_decodes h3
    rw [gz_delivered hd cfg h1 hg (given_mono h4 hp)] at ho
    obtain ⟨_, _, ho⟩ := bind_ok_inv ho
    refine ⟨_, n', fmt', ?_, hp, h5, ho⟩
    dsimp only
    split <;> simp
  | checksum s name fmt sched sum h1 h2 h3 h4 =>
    subst h1
    rw [zip_input h2, if_neg h3] at ho
    exact ⟨_, some name, fmt, by simp, List.prefix_refl _, h4, ho⟩

/-- **C145 (inputs).** A CSV input whose reading fails, or which is in a damaged gzip file or in a zip archive with a wrong checksum: if it is opened at all, then the intact input is opened too,
with the same header, and begins with all the rows that are read; and the end of these rows is always an error. -/
theorem C145_input (env : CsvEnv) (hcrate : env.csv = csvCrate) (dec : Decoders) (lib : GzCrate) (hd : dec.gz = gzReader lib) (hls : ∀ file e, ReadStep.fail e ∉ lib.sched file) (zip : ZipLib)
    (w w' : World) (cfg : CsvInputConfig env.lib) (b : Byte) (header : Bool) (u : TimestampUnits) (hc : Explicit cfg b header u) (hb : b.toNat < 128) (i i' : Input) (content : List Byte)
    (hi : BrokenCsv lib zip w i content) (hi' : CompleteCsv lib zip w' i' content) (f : FileSource)
    (ho : createFromInput (newInputs env dec zip w (some cfg) [] []) w i = .ok f) :
    ∃ f', createFromInput (newInputs env dec zip w' (some cfg) [] []) w' i' = .ok f' ∧ f'.header = f.header ∧ f.source.rows <+: f'.source.rows ∧ f.source.ending ≠ .eof := by
  obtain ⟨r, n, fmt, h1, h2, h3, h4⟩ := broken_opened hd hi ho
  obtain ⟨r', n', fmt', g1, g2, g3, g4⟩ := complete_opened hd hls cfg hi'
  obtain ⟨h, out⟩ := f
  obtain ⟨p, hp, hin⟩ := (csv_previewed hc h3 h out).1 h4
  obtain ⟨p', hp', _⟩ := preview_ok g1
  obtain ⟨out', m1, m2, _⟩ := csv_parts hcrate hc hb hp hp' (by rw [g2]; exact h2) g1 hin (.inl h1)
  exact ⟨⟨h, out'⟩, by rw [g4]; exact (csv_previewed hc g3 h out').2 ⟨p', hp', m1⟩, rfl, (m2 h1).1, (m2 h1).2⟩

/-- **C145 (the tool).** A run of the tool over any number of inputs of which some are broken in such a way, against the run over the same inputs unbroken, where that succeeds: the output file
holds a beginning of the complete one; if the run reports success, all of it. -/
theorem C145_tool (e : CliEnv) (hcrate : e.csv.csv = csvCrate) (lib : GzCrate) (hg : e.dec.gz = gzReader lib) (hls : ∀ file k, ReadStep.fail k ∉ lib.sched file) (w' : World) (a : CliArgs)
    (st : CliSettings e.csv.lib) (wholes : List FileSource) (h : Header) (d : Device) (b : Byte) (header : Bool) (u : TimestampUnits) (hs : parseSettings e a = .ok st)
    (hc : Explicit st.inCfg b header u) (hb : b.toNat < 128) (hp : e.userFactories = [] ∧ e.userTransports = [])
    (hi : ∀ i ∈ st.inputs, ArrivesOrBreaks lib e.zip e.world w' i) (ho : Opens e st wholes) (hh : ∀ f ∈ wholes, f.header = h) (hd : CsvTo e.out a.output d ∨ DcTo e.out a.output d)
    (hok : (chopperCli e a).result = .ok ()) (out out' : Device) (hout : (chopperCli e a).output = some out) (hout' : (chopperCli { e with world := w' } a).output = some out') :
    out'.taken <+: out.taken ∧ ((chopperCli { e with world := w' } a).result = .ok () → out'.taken = out.taken) := by
  obtain ⟨parts, ho'⟩ := opens_of_output (e := { e with world := w' }) (st := st) hs hout'
  refine tool_parts e w' a st parts wholes h d hs ho ho' hh ?_ hd hok out out' hout hout'
  intro i hin f f' h1 h2
  rw [hp.1, hp.2] at h1 h2
  cases hi i hin with
  | same r n k1 k2 =>
    rw [k1.opens (some st.inCfg)] at h1
    rw [k2.opens (some st.inCfg), h1] at h2
    cases h2
    exact ⟨rfl, .inl rfl⟩
  | breaks content k1 k2 =>
    obtain ⟨g, g1, g2, g3, g4⟩ := C145_input e.csv hcrate e.dec lib hg hls e.zip w' e.world st.inCfg b header u hc hb i i content k2 k1 f' h2
    rw [h1] at g1
    cases g1
    exact ⟨g2.symm, .inr ⟨g3, g4⟩⟩

/-! ### Cases that meet the hypotheses -/

/-- `-f csv.gz`, from standard input. -/
def packedCsv : Input := ⟨.stdIn, .extension ("csv".toList ++ ".gz".toList)⟩
/-- The lines `1` in a gzip file, with this checksum. -/
def packedOnes (n : Nat) (sum : BitVec 32) : List Byte := (storedMember (ones n) sum).bytes

theorem packed_given (file content : List Byte) : GivenAsGz file content none packedCsv.format none pipedCsv.format :=
  .format "csv".toList none none (by simp) (plain_csv [])

theorem packed_delivered (r : Inner) : Delivered exLib (pipedWorld r) packedCsv r none := .standardInput (w := pipedWorld r) _

theorem bumped (x : BitVec 32) : x + 1#32 ≠ x := by
  intro he
  have := congrArg BitVec.toNat he
  rw [BitVec.toNat_add] at this
  have := x.isLt
  simp at *

theorem ones_complete (n : Nat) (h : 2 * n < 65536) :
    CompleteCsv storedLib exLib (pipedWorld ⟨packedOnes n (Spec.crc32 (ones n)), [.bytes 3], none⟩) packedCsv (ones n) :=
  .gzip _ none none _ (storedMember (ones n) (Spec.crc32 (ones n))) [] (packed_delivered ⟨_, [.bytes 3], none⟩) (noFail_none (by simp)) (by simp [packedOnes]) (stored_holds (by rw [ones_length]; exact h) _)
    ⟨rfl, rfl⟩ (packed_given _ _) piped_says

theorem ones_damaged (n : Nat) (h : 2 * n < 65536) :
    BrokenCsv storedLib exLib (pipedWorld ⟨packedOnes n (Spec.crc32 (ones n) + 1#32), [.bytes 3], none⟩) packedCsv (ones n) :=
  .gzip _ none none _ (packed_delivered ⟨_, [.bytes 3], none⟩) (by simp) ⟨storedMember (ones n) (Spec.crc32 (ones n) + 1#32), stored_holds (by rw [ones_length]; exact h) _, .inl ⟨rfl, fun hi => bumped _ hi.1⟩⟩
    (packed_given _ _) piped_says

/-- A gzip file that is cut within the data is broken too. -/
example (n : Nat) (h : 2 * n < 65536) (file : List Byte) (hf : file <+: packedOnes n (Spec.crc32 (ones n))) (hne : file ≠ packedOnes n (Spec.crc32 (ones n))) :
    BrokenCsv storedLib exLib (pipedWorld ⟨file, [], none⟩) packedCsv (ones n) :=
  .gzip _ none none _ (packed_delivered ⟨_, [], none⟩) (by simp) ⟨storedMember (ones n) (Spec.crc32 (ones n)), stored_holds (by rw [ones_length]; exact h) _, .inr ⟨hf, hne, stored_cut (by rw [ones_length]; exact h)⟩⟩
    (packed_given _ _) piped_says

/-- And so is a zip archive with a wrong checksum. -/
example : BrokenCsv storedLib exLib (oneWorld ['z'] (oneZip (asciiBytes ".csv") (ones 10000) (Spec.crc32 (ones 10000) + 1#32))) ⟨.path ['z'], .auto⟩ (ones 10000) :=
  .checksum ['z'] ".csv".toList .auto [] _ rfl (oneZip_at _ _ _ _ (by decide) (by unfold NameIs; decide) (by rw [ones_length]; omega)) (Ne.symm (bumped _)) (.inl ⟨[], rfl, rfl⟩)

/-- The damaged file is opened, and its rows but the last are read. -/
theorem damaged_read (n : Nat) (hn : defaultBufSize ≤ 2 * n) (hn2 : 0 < n) (h : 2 * n < 65536) :
    ∃ f, createFromInput (newInputs crateEnv (gzDecoders storedLib) exLib (pipedWorld ⟨packedOnes n (Spec.crc32 (ones n) + 1#32), [.bytes 3], none⟩) (some nanosCfg) [] [])
      (pipedWorld ⟨packedOnes n (Spec.crc32 (ones n) + 1#32), [.bytes 3], none⟩) packedCsv = .ok f ∧ f.source.rows.length = n - 1 := by
  obtain ⟨f, h1, h2, _⟩ := ones_read (dec := gzDecoders storedLib) n hn hn2
  refine ⟨f, ?_, h2⟩
  replace h1 := ((piped_delivered ⟨ones n, [], some .other⟩).opens (env := crateEnv) (dec := gzDecoders storedLib) (some nanosCfg)).symm.trans h1
  have hg := (gzDecode_member (stored_holds (content := ones n) (by rw [ones_length]; exact h) (Spec.crc32 (ones n) + 1#32)) []).2 (fun hi => bumped _ hi.1)
  rw [List.append_nil] at hg
  replace hg : gzDecode storedLib (packedOnes n (Spec.crc32 (ones n) + 1#32)) = _ := hg
  obtain ⟨p, hp, _⟩ := preview_ok (inner := ⟨packedOnes n (Spec.crc32 (ones n) + 1#32), [.bytes 3], none⟩) (noFail_none (by simp))
  refine (gz_delivered (env := crateEnv) (dec := gzDecoders storedLib) (lib := storedLib) rfl nanosCfg (packed_delivered ⟨packedOnes n (Spec.crc32 (ones n) + 1#32), [.bytes 3], none⟩) hg (packed_given _ _)).trans ?_
  have hs : storedLib.sched (packedOnes n (Spec.crc32 (ones n) + 1#32)) = [] := rfl
  have key : ∀ k : Previewer → Res FileSource, ((Previewer.new defaultBufSize ⟨packedOnes n (Spec.crc32 (ones n) + 1#32), [.bytes 3], none⟩).bind fun _ =>
      (Previewer.new defaultBufSize ⟨ones n, storedLib.sched (packedOnes n (Spec.crc32 (ones n) + 1#32)), if some IoKind.other = some .unexpectedEof then some ((none : Option IoKind).getD .unexpectedEof)
        else some .other⟩).bind k) = (Previewer.new defaultBufSize ⟨ones n, [], some .other⟩).bind k := by
    intro k
    rw [hp, Res.bind_ok, if_neg (by simp), hs]
  exact (key _).trans h1

/-- The intact one is opened, and all its rows are read. -/
theorem packed_full (n : Nat) (hn : 0 < n) (h : 2 * n < 65536) : ∃ rows : List Row, rows.length = n ∧ (∀ r ∈ rows, r.timestamp = 1 ∧ ∀ v ∈ r.values, ∃ s, v = .string s) ∧
    createFromInput (newInputs crateEnv (gzDecoders storedLib) exLib (pipedWorld ⟨packedOnes n (Spec.crc32 (ones n)), [.bytes 3], none⟩) (some nanosCfg) [] [])
      (pipedWorld ⟨packedOnes n (Spec.crc32 (ones n)), [.bytes 3], none⟩) packedCsv = .ok ⟨⟨["col_0".toList], [.string]⟩, ⟨rows, .eof⟩⟩ := by
  obtain ⟨rows, h1, h2, h3⟩ := ones_full (dec := gzDecoders storedLib) n hn
  refine ⟨rows, h1, h2, ?_⟩
  replace h3 := ((piped_delivered ⟨ones n, [], none⟩).opens (env := crateEnv) (dec := gzDecoders storedLib) (some nanosCfg)).symm.trans h3
  have hg := (gzDecode_member (stored_holds (content := ones n) (by rw [ones_length]; exact h) (Spec.crc32 (ones n))) []).1 ⟨rfl, rfl⟩
  rw [List.append_nil] at hg
  replace hg : gzDecode storedLib (packedOnes n (Spec.crc32 (ones n))) = _ := hg
  obtain ⟨p, hp, _⟩ := preview_ok (inner := ⟨packedOnes n (Spec.crc32 (ones n)), [.bytes 3], none⟩) (noFail_none (by simp))
  refine (gz_delivered (env := crateEnv) (dec := gzDecoders storedLib) (lib := storedLib) rfl nanosCfg (packed_delivered ⟨packedOnes n (Spec.crc32 (ones n)), [.bytes 3], none⟩) hg (packed_given _ _)).trans ?_
  have hs : storedLib.sched (packedOnes n (Spec.crc32 (ones n))) = [] := rfl
  have key : ∀ k : Previewer → Res FileSource, ((Previewer.new defaultBufSize ⟨packedOnes n (Spec.crc32 (ones n)), [.bytes 3], none⟩).bind fun _ =>
      (Previewer.new defaultBufSize ⟨ones n, storedLib.sched (packedOnes n (Spec.crc32 (ones n))), if none = some IoKind.unexpectedEof then some ((none : Option IoKind).getD .unexpectedEof)
        else none⟩).bind k) = (Previewer.new defaultBufSize ⟨ones n, [], none⟩).bind k := by
    intro k
    rw [hp, Res.bind_ok, if_neg (by simp), hs]
  exact (key _).trans h3

/-- `chopper -f csv.gz --csv-in-delim , --csv-in-header no --csv-in-ts-col 0 --csv-in-epoch ns -E`, from standard input to standard output. -/
def packedArgs : CliArgs := { pipedArgs with formats := some ["csv.gz".toList] }
def packedSettings : CliSettings noLib := ⟨[packedCsv], ⟨none, none⟩, nanosCfg, .new [','] true none .epoch .nanos none⟩
def packedEnv (r : Inner) : CliEnv := { pipedEnv r with dec := gzDecoders storedLib }

theorem packed_settings (r : Inner) : parseSettings (packedEnv r) packedArgs = .ok packedSettings := rfl

theorem packed_opens {r : Inner} {f : FileSource}
    (h : createFromInput (newInputs crateEnv (gzDecoders storedLib) exLib (pipedWorld r) (some nanosCfg) [] []) (pipedWorld r) packedCsv = .ok f) : Opens (packedEnv r) packedSettings [f] := by
  refine ⟨rfl, ?_⟩
  intro i inp g hi hg
  match i with
  | 0 => cases hi; cases hg; exact h
  | i + 1 => simp at hg

/-- Standard input with a gzip file of the wrong checksum, and the intact one: both runs get to the output. -/
theorem packed_runs : ∃ f out out', Opens (packedEnv ⟨packedOnes 10000 (Spec.crc32 (ones 10000)), [.bytes 3], none⟩) packedSettings [f] ∧ f.header = ⟨["col_0".toList], [.string]⟩ ∧
    (chopperCli (packedEnv ⟨packedOnes 10000 (Spec.crc32 (ones 10000)), [.bytes 3], none⟩) packedArgs).result = .ok () ∧
    (chopperCli (packedEnv ⟨packedOnes 10000 (Spec.crc32 (ones 10000)), [.bytes 3], none⟩) packedArgs).output = some out ∧
    (chopperCli (packedEnv ⟨packedOnes 10000 (Spec.crc32 (ones 10000) + 1#32), [.bytes 3], none⟩) packedArgs).output = some out' := by
  obtain ⟨rows, hl, ht, hf⟩ := packed_full 10000 (by omega) (by omega)
  obtain ⟨f', hf', _⟩ := damaged_read 10000 (by simp [defaultBufSize]) (by omega) (by omega)
  generalize hw : packedOnes 10000 (Spec.crc32 (ones 10000)) = good at *
  generalize hb : packedOnes 10000 (Spec.crc32 (ones 10000) + 1#32) = bad at *
  have hd : CsvTo (packedEnv ⟨good, [.bytes 3], none⟩).out packedArgs.output ⟨[], [.take 3], 0⟩ := .inl ⟨rfl, rfl⟩
  have hgood : GoodInputs (⟨none, none⟩ : TimestampRange) ⟨["col_0".toList], [.string]⟩ [⟨⟨["col_0".toList], [.string]⟩, ⟨rows, .eof⟩⟩] := by
    refine ⟨by simp, ?_, ?_, ?_⟩
    · intro f hf
      rw [List.mem_singleton] at hf
      subst hf
      refine List.pairwise_iff_forall_sublist.2 ?_
      intro a b hab
      rw [(ht a (hab.subset (by simp))).1, (ht b (hab.subset (by simp))).1]
      exact Nat.le_refl _
    · intro f hf
      rw [List.mem_singleton] at hf
      subst hf
      match rows, hl with
      | r :: _, _ => exact ⟨r, .head _, rfl⟩
    · intro f hf
      rw [List.mem_singleton] at hf
      subst hf
      unfold endingWithin
      split <;> rfl
  obtain ⟨out, _, _, h1, h2, _⟩ := C61_csv (packedEnv ⟨good, [.bytes 3], none⟩) packedArgs packedSettings _ _ _ (packed_settings _) (packed_opens hf) hgood hd
    (by intro k hk; simp at hk) (by intro _ h; cases h) (by
      intro f hf r hr _ v hv
      rw [List.mem_singleton] at hf
      subst hf
      obtain ⟨s, rfl⟩ := (ht r hr).2 v hv
      rintro (⟨b, hb⟩ | ⟨b, hb⟩) <;> cases hb)
  rcases csv_run (packedEnv ⟨bad, [.bytes 3], none⟩) packedArgs packedSettings [f'] f'.header ⟨[], [.take 3], 0⟩ (packed_settings _) (packed_opens hf') (by simp) (.inl ⟨rfl, rfl⟩) with
    ⟨k, hk, _⟩ | ⟨out', _, _, _, h3, _⟩
  · simp [CanFail] at hk
  exact ⟨_, out, out', packed_opens hf, rfl, h1, h2, h3⟩

/-- Everything `C145_tool` asks for, and so what it says. -/
example : ∃ out out', (chopperCli (packedEnv ⟨packedOnes 10000 (Spec.crc32 (ones 10000)), [.bytes 3], none⟩) packedArgs).output = some out ∧
    (chopperCli (packedEnv ⟨packedOnes 10000 (Spec.crc32 (ones 10000) + 1#32), [.bytes 3], none⟩) packedArgs).output = some out' ∧ out'.taken <+: out.taken := by
  have hcomp := ones_complete 10000 (by omega)
  have hdam := ones_damaged 10000 (by omega)
  obtain ⟨f, out, out', ho, hh, h1, h2, h3⟩ := packed_runs
  generalize hw : packedOnes 10000 (Spec.crc32 (ones 10000)) = good at *
  generalize hb : packedOnes 10000 (Spec.crc32 (ones 10000) + 1#32) = bad at *
  refine ⟨out, out', h2, h3, ?_⟩
  refine (C145_tool (packedEnv ⟨good, [.bytes 3], none⟩) rfl storedLib rfl storedLib_sched (pipedWorld ⟨bad, [.bytes 3], none⟩) packedArgs packedSettings [f] ⟨["col_0".toList], [.string]⟩
    ⟨[], [.take 3], 0⟩ 44 false .nanos (packed_settings _) nanos_explicit (by decide) ⟨rfl, rfl⟩ ?_ ho (by simpa using hh) (.inl (.inl ⟨rfl, rfl⟩)) h1 out out' h2 h3).1
  intro i hi
  replace hi : i ∈ [packedCsv] := hi
  rw [List.mem_singleton] at hi
  subst hi
  exact .breaks _ hcomp hdam

/-- Twenty thousand bytes in a gzip file with a wrong checksum, and in an intact one: everything `C145_input` asks for, and so what it says. -/
example : ∃ f f', createFromInput (newInputs crateEnv (gzDecoders storedLib) exLib (pipedWorld ⟨packedOnes 10000 (Spec.crc32 (ones 10000) + 1#32), [.bytes 3], none⟩) (some nanosCfg) [] [])
      (pipedWorld ⟨packedOnes 10000 (Spec.crc32 (ones 10000) + 1#32), [.bytes 3], none⟩) packedCsv = .ok f ∧
    createFromInput (newInputs crateEnv (gzDecoders storedLib) exLib (pipedWorld ⟨packedOnes 10000 (Spec.crc32 (ones 10000)), [.bytes 3], none⟩) (some nanosCfg) [] [])
      (pipedWorld ⟨packedOnes 10000 (Spec.crc32 (ones 10000)), [.bytes 3], none⟩) packedCsv = .ok f' ∧ f.source.rows <+: f'.source.rows ∧ f.source.rows.length = 9999 ∧ f.source.ending ≠ .eof := by
  obtain ⟨f, h1, h2⟩ := damaged_read 10000 (by simp [defaultBufSize]) (by omega) (by omega)
  obtain ⟨f', h3, _, h4, h5⟩ := C145_input crateEnv rfl (gzDecoders storedLib) storedLib rfl storedLib_sched exLib _ _ nanosCfg 44 false .nanos nanos_explicit (by decide) packedCsv packedCsv (ones 10000)
    (ones_damaged 10000 (by omega)) (ones_complete 10000 (by omega)) f h1
  exact ⟨f, f', h1, h3, h4, h2, h5⟩

end Chopper.Props
