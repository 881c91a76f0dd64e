import Verif.Props.CsvBroken
import Verif.Props.Packed
import Verif.Props.Zst
import Verif.Spec.BrokenPacked

/-!
# C146: CSV inputs in damaged compressed files of any format
-/
namespace Chopper.Props
open Chopper Chopper.Spec

variable {env : CsvEnv} {dec : Decoders} {zip : ZipLib} {w w' : World}

theorem damaged_decoded {f : CompFormat} {file content : List Byte} (hu : DamageNoticed dec f file content) {p : Previewer} (hr : ReadsFile p.reader file)
    (ht : p.trimmed = file.take defaultBufSize) : ∃ i : Inner, i.data <+: content ∧ i.ending ≠ none ∧ decoded dec (some f) p = Previewer.new defaultBufSize i := by
  obtain ⟨i, h0, h1, h2⟩ := hu _ hr
  refine ⟨i, h0, h1, ?_⟩
  cases f with
  | gz => simp only at h2; simp only [decoded, h2]
  | lzf => simp only at h2; simp only [decoded, h2]
  | zip => exact h2.elim
  | zst => simp only at h2; simp only [decoded, h2]
  | lz4 =>
    have hk : ∀ m : List Byte, m.length = 8 → (m <+: file.take defaultBufSize ↔ m <+: file) := by
      intro m hm
      constructor
      · intro h; exact h.trans (List.take_prefix _ _)
      · intro h
        rw [List.prefix_iff_eq_take] at h ⊢
        rw [List.take_take, Nat.min_eq_left (by rw [hm]; decide), ← h]
    simp only [decoded, ht]
    rcases h2 with ⟨h2, h3⟩ | ⟨h2, h3⟩
    · rw [if_pos ((hk _ rfl).2 h2), h3]
    · rw [if_neg (fun h => h2 ((hk _ rfl).1 h)), h3]

theorem givenAs_mono {f : CompFormat} {file content part : List Byte} {a c : Option Str} {b d : InputFormat} (h : GivenAs f file content a b c d) (hp : part <+: content) :
    GivenAs f file part a b c d := by
  have mono : ContentIs content none → ContentIs part none := fun h f m hm hx => h f m hm (hx.trans hp)
  cases h with
  | name n h1 h2 => exact .name n h1 (h2.imp id mono)
  | format e _ _ h1 h2 => exact .format e _ _ h1 h2
  | magic n h1 h2 h3 h4 => exact .magic n h1 h2 h3 (mono h4)
  | unnamed h1 h2 => exact .unnamed h1 (mono h2)

theorem same_plain {r : Inner} {file : List Byte} (h : SameContent r (plainReader file)) : ∃ sched, r = ⟨file, sched, none⟩ ∧ ∀ k, ReadStep.fail k ∉ sched := by
  obtain ⟨data, sched, ending⟩ := r
  obtain ⟨h1, h2, h3, _⟩ := h
  exact ⟨sched, by simp only [plainReader] at h1 h2; rw [h1, h2], h3⟩

/-- A complete input is opened like a reader of its content. -/
theorem completeInput_opened (cfg : CsvInputConfig env.lib) {i : Input} {content : List Byte} (hi : CompleteInput dec zip w i content) : ∃ r n fmt, NoFail r ∧ r.data = content ∧ SaysCsv n fmt ∧
    createFromInput (newInputs env dec zip w (some cfg) [] []) w i = (Previewer.new defaultBufSize r).bind fun p => createFromPreviewer dec (defaultFactories env (some cfg)) p n fmt := by
  rcases hi with ⟨r, n, h1, h2, h3, h4⟩ | ⟨f, file, r, n, n', fmt', h⟩
  · exact ⟨r, n, i.format, h2, h3, h4, h1.opens (some cfg)⟩
  · obtain ⟨sched, rfl, hs⟩ := same_plain h.same
    obtain ⟨p, hp, hr, ht⟩ := preview_reads hs
    obtain ⟨j, hj, hd⟩ := unpacks_decoded h.intact hr ht
    refine ⟨j, n', fmt', ?_, hj.data, h.csv, ?_⟩
    · rintro k (hk | hk)
      · exact hj.noFail1 k hk
      · rw [hj.ending] at hk; simp [plainReader] at hk
    · rw [h.arrives.opens (some cfg), hp, Res.bind_ok, packed_previewer cfg hp hj.data hd h.given]

/-- A damaged compressed input that can be opened is opened like a reader of a part of its content that fails at its end. -/
theorem damagedPacked_opened {cfg : CsvInputConfig env.lib} {i : Input} {content : List Byte} {cf : CompFormat} {file : List Byte} {r : Inner} {n n' : Option Str} {fmt' : InputFormat}
    (h : DamagedPacked dec zip w i content cf file r n n' fmt') {f : FileSource} (ho : createFromInput (newInputs env dec zip w (some cfg) [] []) w i = .ok f) :
    ∃ r n fmt, r.ending ≠ none ∧ r.data <+: content ∧ SaysCsv n fmt ∧
      ((Previewer.new defaultBufSize r).bind fun p => createFromPreviewer dec (defaultFactories env (some cfg)) p n fmt) = .ok f := by
  obtain ⟨sched, rfl, hs⟩ := same_plain h.same
  obtain ⟨p, hp, hr, ht⟩ := preview_reads hs
  obtain ⟨j, hj, he, hd⟩ := damaged_decoded h.damaged hr ht
  rw [h.arrives.opens (some cfg), hp, Res.bind_ok, packed_previewer cfg hp rfl hd (givenAs_mono h.given hj)] at ho
  exact ⟨j, n', fmt', he, hj, h.csv, ho⟩

/-- **C146 (inputs).** A CSV input in a damaged compressed file of any format, whose decoder notices the damage: if it is opened at all, then the complete input - compressed in any way, or plain - is
opened too, with the same header, and begins with all the rows that are read; and the end of these rows is always an error. -/
theorem C146_input (env : CsvEnv) (hcrate : env.csv = csvCrate) (dec : Decoders) (zip : ZipLib) (w w' : World) (cfg : CsvInputConfig env.lib) (b : Byte) (header : Bool) (u : TimestampUnits)
    (hc : Explicit cfg b header u) (hb : b.toNat < 128) (i i' : Input) (content : List Byte) (cf : CompFormat) (file : List Byte) (r : Inner) (n n' : Option Str) (fmt' : InputFormat)
    (hi : DamagedPacked dec zip w i content cf file r n n' fmt') (hi' : CompleteInput dec zip w' i' content) (f : FileSource)
    (ho : createFromInput (newInputs env dec zip w (some cfg) [] []) w i = .ok f) :
    ∃ f', createFromInput (newInputs env dec zip w' (some cfg) [] []) w' i' = .ok f' ∧ f'.header = f.header ∧ f.source.rows <+: f'.source.rows ∧ f.source.ending ≠ .eof := by
  obtain ⟨r, n, fmt, h1, h2, h3, h4⟩ := damagedPacked_opened hi ho
  obtain ⟨r', n', fmt', g1, g2, g3, g4⟩ := completeInput_opened (env := env) (dec := dec) cfg hi'
  obtain ⟨h, out⟩ := f
  obtain ⟨p, hp, hin⟩ := (csv_previewed hc h3 h out).1 h4
  obtain ⟨p', hp', _⟩ := preview_ok g1
  obtain ⟨out', m1, m2, _⟩ := csv_parts hcrate hc hb hp hp' (by rw [g2]; exact h2) g1 hin (.inl h1)
  exact ⟨⟨h, out'⟩, by rw [g4]; exact (csv_previewed hc g3 h out').2 ⟨p', hp', m1⟩, rfl, (m2 h1).1, (m2 h1).2⟩

/-- **C146 (the tool).** A run of the tool over any number of inputs of which some are in damaged compressed files, against the run over the same inputs complete, where that succeeds: the output
file holds a beginning of the complete one; if the run reports success, all of it. -/
theorem C146_tool (e : CliEnv) (hcrate : e.csv.csv = csvCrate) (w' : World) (a : CliArgs) (st : CliSettings e.csv.lib) (wholes : List FileSource) (h : Header) (d : Device) (b : Byte)
    (header : Bool) (u : TimestampUnits) (hs : parseSettings e a = .ok st) (hc : Explicit st.inCfg b header u) (hb : b.toNat < 128) (hp : e.userFactories = [] ∧ e.userTransports = [])
    (hi : ∀ i ∈ st.inputs, ArrivesOrDamaged e.dec e.zip e.world w' i) (ho : Opens e st wholes) (hh : ∀ f ∈ wholes, f.header = h) (hd : CsvTo e.out a.output d ∨ DcTo e.out a.output d)
    (hok : (chopperCli e a).result = .ok ()) (out out' : Device) (hout : (chopperCli e a).output = some out) (hout' : (chopperCli { e with world := w' } a).output = some out') :
    out'.taken <+: out.taken ∧ ((chopperCli { e with world := w' } a).result = .ok () → out'.taken = out.taken) := by
  obtain ⟨parts, ho'⟩ := opens_of_output (e := { e with world := w' }) (st := st) hs hout'
  refine tool_parts e w' a st parts wholes h d hs ho ho' hh ?_ hd hok out out' hout hout'
  intro i hin f f' h1 h2
  rw [hp.1, hp.2] at h1 h2
  rcases hi i hin with ⟨r, n, k1, k2⟩ | ⟨content, cf, file, r, n, n', fmt', k1, k2⟩
  · rw [k1.opens (some st.inCfg)] at h1
    rw [k2.opens (some st.inCfg), h1] at h2
    cases h2
    exact ⟨rfl, .inl rfl⟩
  · obtain ⟨g, g1, g2, g3, g4⟩ := C146_input e.csv hcrate e.dec e.zip w' e.world st.inCfg b header u hc hb i i content cf file r n n' fmt' k2 k1 f' h2
    rw [h1] at g1
    cases g1
    exact ⟨g2.symm, .inr ⟨g3, g4⟩⟩

/-! ### Decoders that notice -/

/-- **C146 (gzip).** The gzip decoder as transcribed (C117) notices a wrong checksum or length, and that a file is cut if inflating does. -/
theorem C146_gz (dec : Decoders) (lib : GzCrate) (file content : List Byte) (hd : dec.gz = gzReader lib) (h : DamagedGz lib file content) : DamageNoticed dec .gz file content := by
  intro r hr
  obtain ⟨part, k, hp, hg, _⟩ := damaged_decodes h
  refine ⟨⟨part, lib.sched file, if some k = some .unexpectedEof then some (r.inner.ending.getD .unexpectedEof) else some k⟩, hp, by dsimp only; split <;> simp, ?_⟩
  show dec.gz r = _
  have hb : (r.buf.drop r.pos).take (r.cap - r.pos) ++ r.inner.data = file := hr.bytes
  rw [hd]
  unfold gzReader
  simp only [hb, hg]

/-- What a reader holds can be read from it; and so can the end of the data. -/
theorem all_delivered (i : Inner) : ∃ sizes, (∀ n ∈ sizes, 0 < n) ∧ deliveredBytes (answers Inner.read sizes i) = i.data ∧ (i.ending = none → Res.ok [] ∈ answers Inner.read sizes i) := by
  obtain ⟨data, sched, ending⟩ := i
  induction sched generalizing data with
  | nil =>
    refine ⟨[data.length + 1, 1], by simp, ?_, ?_⟩
    · cases ending with
      | none => simp [answers, Inner.read, Inner.deliver, deliveredBytes, List.take_of_length_le, List.drop_of_length_le]
      | some k =>
        by_cases hd : data = []
        · subst hd; simp [answers, Inner.read, Inner.deliver, deliveredBytes]
        · simp [answers, Inner.read, Inner.deliver, deliveredBytes, hd, List.take_of_length_le, List.drop_of_length_le]
    · intro he
      simp only at he
      subst he
      simp [answers, Inner.read, Inner.deliver, List.drop_of_length_le]
  | cons st sched ih =>
    cases st with
    | fail k =>
      obtain ⟨sizes, h1, h2, h3⟩ := ih data
      refine ⟨1 :: sizes, by simpa using h1, ?_, fun he => .tail _ (h3 he)⟩
      simp only [answers, Inner.read, deliveredBytes]
      exact h2
    | bytes k =>
      by_cases hd : data = [] ∧ ending ≠ none
      · obtain ⟨rfl, he⟩ := hd
        obtain ⟨e, rfl⟩ := Option.ne_none_iff_exists'.1 he
        obtain ⟨sizes, h1, h2, h3⟩ := ih []
        refine ⟨1 :: sizes, by simpa using h1, ?_, fun h => by simp at h⟩
        have hm : min 1 (max 1 k) ≠ 0 := by omega
        simp only [answers, Inner.read, Inner.deliver, deliveredBytes, hm, ne_eq, not_false_eq_true, and_self, if_true]
        exact h2
      · have hr : Inner.read ⟨data, .bytes k :: sched, ending⟩ 1 = (.ok (data.take 1), ⟨data.drop 1, sched, ending⟩) := by
          have hm : min 1 (max 1 k) = 1 := by omega
          simp only [Inner.read, hm, Inner.deliver]
          cases ending with
          | none => rfl
          | some e => exact if_neg (fun h => hd ⟨h.1, by simp⟩)
        obtain ⟨sizes, h1, h2, h3⟩ := ih (data.drop 1)
        refine ⟨1 :: sizes, by simpa using h1, ?_, fun he => ?_⟩
        · simp only [answers, hr, deliveredBytes, h2]
          exact List.take_append_drop 1 data
        · simp only [answers, hr]
          exact .tail _ (h3 he)

/-- **C146 (zstd).** The program's own zstd reader notices that the first frame is damaged. -/
theorem C146_zst (dec : Decoders) (frames : List Byte → List ZstFrame) (file : List Byte) (f : ZstFrame) (fs : List ZstFrame) (hd : ZstDelivers dec frames) (hf : frames file = f :: fs)
    (hg : f.damaged = true) : DamageNoticed dec .zst file (ZstFrame.content f) := by
  intro r hr
  obtain ⟨i, sizes, h1, h2, h3, h4⟩ := hd r file hr ⟨f, []⟩ (by rw [hf]; rfl)
  obtain ⟨g1, _, g3⟩ := C78_damaged f hg sizes
  exact ⟨i, by rw [h3]; exact g1, fun he => g3 h2 (h4 he), h1⟩

/-! ### Cases that meet the hypotheses -/

/-- A zstd library that sees one damaged frame in every file, and the decoder with it, whose buffer is as large as the content. -/
def brokenFrames (content : List Byte) (_ : List Byte) : List ZstFrame := [⟨[content], true, 0⟩]
def zstBroken (content : List Byte) : Decoders := { wholeDecoders with zst := fun _ => some ⟨content, [], some .other⟩ }

theorem broken_delivers (content : List Byte) (h : content ≠ []) : ZstDelivers (zstBroken content) (brokenFrames content) := by
  intro r file _ d hd
  cases hd
  have hl : 0 < content.length := List.length_pos_iff.2 h
  refine ⟨_, [content.length], rfl, by simpa using hl, ?_, fun he => by cases he⟩
  simp [answers, zstRead, zstLoop, FrameDecoder.isFinished, FrameDecoder.canCollect, FrameDecoder.decodeBlocks, decodeLoop, FrameDecoder.read, deliveredBytes, h]

/-- `-f csv.zst`, from standard input. -/
def zstCsv : Input := ⟨.stdIn, .extension ("csv".toList ++ ".zst".toList)⟩

theorem zst_damaged (n : Nat) (hn : 0 < n) : DamagedPacked (zstBroken (ones n)) exLib (pipedWorld ⟨[1, 2, 3], [.bytes 2], none⟩) zstCsv (ones n) .zst [1, 2, 3] ⟨[1, 2, 3], [.bytes 2], none⟩ none none
    pipedCsv.format := by
  have hne : ones n ≠ [] := by
    intro he
    have := congrArg List.length he
    rw [ones_length] at this
    simp at this
    omega
  refine ⟨.standardInput (w := pipedWorld ⟨[1, 2, 3], [.bytes 2], none⟩) _, ⟨rfl, rfl, by simp, by simp [plainReader]⟩, ?_, .format "csv".toList none none (by simp) (plain_csv []), piped_says⟩
  have := C146_zst (zstBroken (ones n)) (brokenFrames (ones n)) [1, 2, 3] ⟨[ones n], true, 0⟩ [] (broken_delivers _ hne) rfl rfl
  simpa [ZstFrame.content] using this

theorem zst_read (n : Nat) (hn : defaultBufSize ≤ 2 * n) (hn2 : 0 < n) :
    ∃ f, createFromInput (newInputs crateEnv (zstBroken (ones n)) exLib (pipedWorld ⟨[1, 2, 3], [.bytes 2], none⟩) (some nanosCfg) [] []) (pipedWorld ⟨[1, 2, 3], [.bytes 2], none⟩) zstCsv = .ok f ∧
      f.source.rows.length = n - 1 := by
  obtain ⟨f, h1, h2, _⟩ := ones_read (dec := zstBroken (ones n)) n hn hn2
  refine ⟨f, ?_, h2⟩
  have hd := zst_damaged n hn2
  replace h1 := ((piped_delivered ⟨ones n, [], some .other⟩).opens (env := crateEnv) (dec := zstBroken (ones n)) (some nanosCfg)).symm.trans h1
  obtain ⟨p, hp, _⟩ := preview_ok (inner := ⟨[1, 2, 3], [.bytes 2], none⟩) (noFail_none (by simp))
  refine (hd.arrives.opens (env := crateEnv) (some nanosCfg)).trans ?_
  have key := packed_previewer (env := crateEnv) (dec := zstBroken (ones n)) nanosCfg hp (content := ones n) rfl
    (show decoded (zstBroken (ones n)) (some .zst) p = Previewer.new defaultBufSize ⟨ones n, [], some .other⟩ by simp only [decoded, zstBroken]) hd.given
  rw [hp]
  refine (Res.bind_ok _ _).trans ?_
  exact key.trans h1

/-- A damaged zstd file with twenty thousand bytes, and a plain file with them: everything `C146_input` asks for, and so what it says. -/
example : ∃ f f', createFromInput (newInputs crateEnv (zstBroken (ones 10000)) exLib (pipedWorld ⟨[1, 2, 3], [.bytes 2], none⟩) (some nanosCfg) [] []) (pipedWorld ⟨[1, 2, 3], [.bytes 2], none⟩) zstCsv = .ok f ∧
    createFromInput (newInputs crateEnv (zstBroken (ones 10000)) exLib (pipedWorld ⟨ones 10000, [], none⟩) (some nanosCfg) [] []) (pipedWorld ⟨ones 10000, [], none⟩) pipedCsv = .ok f' ∧
    f.source.rows <+: f'.source.rows ∧ f.source.rows.length = 9999 ∧ f.source.ending ≠ .eof := by
  have hd := zst_damaged 10000 (by omega)
  obtain ⟨f, ho, h2⟩ := zst_read 10000 (by simp [defaultBufSize]) (by omega)
  obtain ⟨f', h3, _, h4, h5⟩ := C146_input crateEnv rfl (zstBroken (ones 10000)) exLib _ _ nanosCfg 44 false .nanos nanos_explicit (by decide) zstCsv pipedCsv (ones 10000) _ _ _ _ _ _ hd
    (.inl ⟨_, none, piped_delivered ⟨ones 10000, [], none⟩, noFail_none (by simp), rfl, piped_says⟩) f ho
  exact ⟨f, f', ho, h3, h4, h2, h5⟩

theorem packed_unpacks (n : Nat) (h : 2 * n < 65536) : Unpacks (gzDecoders storedLib) .gz (packedOnes n (Spec.crc32 (ones n))) (ones n) := by
  have hi := C123_gz (gzDecoders storedLib) storedLib _ (ones n) [] rfl storedLib_sched (stored_holds (by rw [ones_length]; exact h) (Spec.crc32 (ones n))) ⟨rfl, rfl⟩
  rw [List.append_nil] at hi
  exact hi

theorem packed_noticed (n : Nat) (h : 2 * n < 65536) : DamageNoticed (gzDecoders storedLib) .gz (packedOnes n (Spec.crc32 (ones n) + 1#32)) (ones n) :=
  C146_gz (gzDecoders storedLib) storedLib _ (ones n) rfl ⟨_, stored_holds (by rw [ones_length]; exact h) (Spec.crc32 (ones n) + 1#32), .inl ⟨rfl, fun hi => bumped _ hi.1⟩⟩

/-- The gzip file of `Props/CsvBroken` with a wrong checksum, for the tool: everything `C146_tool` asks for, and so what it says. -/
example : ∃ out out', (chopperCli (packedEnv ⟨packedOnes 10000 (Spec.crc32 (ones 10000)), [.bytes 3], none⟩) packedArgs).output = some out ∧
    (chopperCli (packedEnv ⟨packedOnes 10000 (Spec.crc32 (ones 10000) + 1#32), [.bytes 3], none⟩) packedArgs).output = some out' ∧ out'.taken <+: out.taken := by
  have hi := packed_unpacks 10000 (by omega)
  have hdm := packed_noticed 10000 (by omega)
  obtain ⟨f, out, out', ho, hh, h1, h2, h3⟩ := packed_runs
  generalize hw : packedOnes 10000 (Spec.crc32 (ones 10000)) = good at *
  generalize hb : packedOnes 10000 (Spec.crc32 (ones 10000) + 1#32) = bad at *
  refine ⟨out, out', h2, h3, ?_⟩
  refine (C146_tool (packedEnv ⟨good, [.bytes 3], none⟩) rfl (pipedWorld ⟨bad, [.bytes 3], none⟩) packedArgs packedSettings [f] ⟨["col_0".toList], [.string]⟩
    ⟨[], [.take 3], 0⟩ 44 false .nanos (packed_settings _) nanos_explicit (by decide) ⟨rfl, rfl⟩ ?_ ho (by simpa using hh) (.inl (.inl ⟨rfl, rfl⟩)) h1 out out' h2 h3).1
  intro i hin
  replace hin : i ∈ [packedCsv] := hin
  rw [List.mem_singleton] at hin
  subst hin
  have hg : ∀ file, GivenAs .gz file (ones 10000) none packedCsv.format none pipedCsv.format := fun file => .format "csv".toList none none (by simp) (plain_csv [])
  refine .inr ⟨ones 10000, .gz, bad, ⟨bad, [.bytes 3], none⟩, none, none, pipedCsv.format, .inr ⟨.gz, good, ⟨good, [.bytes 3], none⟩, none, none, pipedCsv.format, ?_⟩, ?_⟩
  · exact ⟨packed_delivered ⟨good, [.bytes 3], none⟩, ⟨rfl, rfl, by simp, by simp [plainReader]⟩, hi, hg _, piped_says⟩
  · exact ⟨packed_delivered ⟨bad, [.bytes 3], none⟩, ⟨rfl, rfl, by simp, by simp [plainReader]⟩, hdm, hg _, piped_says⟩

end Chopper.Props
