import Verif.Spec.Packed
import Verif.Props.GzTool
import Verif.Props.Zst

/-!
# C123, C124: compressed inputs of every format
-/
namespace Chopper.Props
open Chopper Chopper.Spec

/-- `i` in the world `w` is an intact compressed file, and `i'` in the world `w'` is a plain file with its content, under the name or format without the extension (or, if it is
recognised by its first bytes, under the same). -/
def UnpackedFile (dec : Decoders) (w w' : World) (i i' : Input) : Prop :=
  ∃ (f : CompFormat) (s s' : Str) (fmt fmt' : InputFormat) (file content : List Byte) (sched sched' : List ReadStep), i = ⟨.path s, fmt⟩ ∧ i' = ⟨.path s', fmt'⟩ ∧
    Unpacks dec f file content ∧ FileAt w s ⟨file, sched, none⟩ ∧ FileAt w' s' ⟨content, sched', none⟩ ∧
    (∀ k, ReadStep.fail k ∉ sched) ∧ (∀ k, ReadStep.fail k ∉ sched') ∧ ¬ HttpAddress s ∧ ¬ HttpAddress s' ∧
    GivenAs f file content (lastComponent s) fmt (lastComponent s') fmt' ∧ ¬ [0x50, 0x4b, 3, 4] <+: file ∧ ¬ [0x50, 0x4b, 3, 4] <+: content

variable {env : CsvEnv} {dec : Decoders} {zip : ZipLib} {w w' : World}

theorem preview_reads {file : List Byte} {sched : List ReadStep} (hs : ∀ k, ReadStep.fail k ∉ sched) :
    ∃ p, Previewer.new defaultBufSize ⟨file, sched, none⟩ = .ok p ∧ ReadsFile p.reader file ∧ p.trimmed = file.take defaultBufSize := by
  rcases previewer_spec defaultBufSize (by decide) ⟨file, sched, none⟩ with ⟨p, h1, h2, h3, h4, _, _, h7, _⟩ | ⟨e, _, h2⟩
  · exact ⟨p, h1, ⟨h3, h7, fun e he => hs e (previewer_sched h1 _ he), h2.pos, h2.cap⟩, h4⟩
  · exfalso
    rcases h2 with h2 | h2
    · exact hs e h2
    · simp at h2

theorem unpacks_decoded {f : CompFormat} {file content : List Byte} (hu : Unpacks dec f file content) {p : Previewer} (hr : ReadsFile p.reader file)
    (ht : p.trimmed = file.take defaultBufSize) :
    ∃ i, SameContent i (plainReader content) ∧ decoded dec (some f) p = Previewer.new defaultBufSize i := by
  obtain ⟨i, h1, h2⟩ := hu _ hr
  refine ⟨i, h1, ?_⟩
  cases f with
  | gz => simp only at h2; simp only [decoded, h2]
  | lzf => simp only at h2; simp only [decoded, h2]
  | zip => exact h2.elim
  | zst => simp only at h2; simp only [decoded, h2]
  | lz4 =>
    have hk : ∀ m : List Byte, m.length = 8 → (m <+: file.take defaultBufSize ↔ m <+: file) := by
      intro m hm
      constructor
      · intro h; exact h.trans (List.take_prefix _ _)
      · intro h
        rw [List.prefix_iff_eq_take] at h ⊢
        rw [List.take_take, Nat.min_eq_left (by rw [hm]; decide), ← h]
    simp only [decoded, ht]
    rcases h2 with ⟨h2, h3⟩ | ⟨h2, h3⟩
    · rw [if_pos ((hk _ rfl).2 h2), h3]
    · rw [if_neg (fun h => h2 ((hk _ rfl).1 h)), h3]

/-- Opening what is given as compressed: the decoder's bytes are opened under the name and format of the content. -/
theorem packed_previewer (cfg : CsvInputConfig env.lib) {f : CompFormat} {file content : List Byte} {p : Previewer} {i : Inner}
    {sched : List ReadStep} (hp : Previewer.new defaultBufSize ⟨file, sched, none⟩ = .ok p)
    (hi : i.data = content) (hde : decoded dec (some f) p = Previewer.new defaultBufSize i)
    {name name' : Option Str} {fmt fmt' : InputFormat} (h : GivenAs f file content name fmt name' fmt') :
    createFromPreviewer dec (defaultFactories env (some cfg)) p name fmt =
      (Previewer.new defaultBufSize i).bind fun p' => createFromPreviewer dec (defaultFactories env (some cfg)) p' name' fmt' := by
  have hby : ∀ n : Str, decompressByName dec p (n ++ (extension f).toList) = (Previewer.new defaultBufSize i).bind fun p' => .ok (true, p', n) := by
    intro n
    rw [decompressByName_eq (c := some f) (base := n) (show _ = _ from rfl), hde]
    rfl
  have hdata : i.data = content := hi
  cases h with
  | name n hn hk =>
    unfold createFromPreviewer
    simp only
    rw [hby]
    cases hp' : Previewer.new defaultBufSize i with
    | ok p' =>
      simp only [Res.bind_ok, decByName_plain _ _ _ hn, if_true, Bool.false_eq_true, if_false]
      rcases hk with hk | hk
      · obtain ⟨f, hf⟩ := known_first env cfg hk
        rw [createByName_first hf, createByName_first hf]
      · have : compressionOfContent p'.trimmed = none := (C55_preview _ _ hp' none).2 (by rw [hdata]; exact hk)
        unfold decompressByContent
        rw [this, Res.bind_ok]
    | err e => rfl
    | panic => rfl
    | diverge => rfl
  | format e _ _ he hn =>
    unfold createFromPreviewer
    simp only
    have hd : withDot (e ++ (extension f).toList) = withDot e ++ (extension f).toList := by
      cases e with
      | nil => exact absurd rfl he
      | cons a e =>
        by_cases ha : a = '.'
        · subst ha; rfl
        · simp [withDot, ha]
    have hn' : PlainName (withDot e) := by
      rcases (dotted_iff e (withDot e)).2 rfl with ⟨h1, r, hr⟩ | ⟨h1, _⟩
      · intro f b hb
        rw [h1] at hb
        exact hn f ('.' :: b) (by rw [hb]; rfl)
      · rw [h1]; exact hn
    rw [hd, hby]
    cases hp' : Previewer.new defaultBufSize i with
    | ok p' => simp only [Res.bind_ok, decByName_plain _ _ _ hn']
    | err e => rfl
    | panic => rfl
    | diverge => rfl
  | magic n hn hk hf hc =>
    unfold createFromPreviewer
    simp only [decByName_plain _ _ _ hn, Res.bind_ok, Bool.false_eq_true, if_false]
    rw [createByName_none (unknown_none env cfg hk)]
    have h1 : compressionOfContent p.trimmed = some f := (C55_preview _ _ hp (some f)).2 hf
    have e1 : decompressByContent dec p = Previewer.new defaultBufSize i := by
      unfold decompressByContent
      rw [h1, ← hde]
      exact decompressPreview_eq dec f p
    rw [e1]
    cases hp' : Previewer.new defaultBufSize i with
    | ok p' =>
      simp only [Res.bind_ok, createByName_none (unknown_none env cfg hk)]
      have : compressionOfContent p'.trimmed = none := (C55_preview _ _ hp' none).2 (by rw [hdata]; exact hc)
      unfold decompressByContent
      rw [this, Res.bind_ok]
    | err e => rfl
    | panic => rfl
    | diverge => rfl
  | unnamed hf hc =>
    unfold createFromPreviewer
    simp only
    have h1 : compressionOfContent p.trimmed = some f := (C55_preview _ _ hp (some f)).2 hf
    have e1 : decompressByContent dec p = Previewer.new defaultBufSize i := by
      unfold decompressByContent
      rw [h1, ← hde]
      exact decompressPreview_eq dec f p
    rw [e1]
    cases hp' : Previewer.new defaultBufSize i with
    | ok p' =>
      simp only [Res.bind_ok]
      have : compressionOfContent p'.trimmed = none := (C55_preview _ _ hp' none).2 (by rw [hdata]; exact hc)
      unfold decompressByContent
      rw [this, Res.bind_ok]
    | err e => rfl
    | panic => rfl
    | diverge => rfl

/-- **C123 (one input).** An intact compressed file, of whichever format, is opened and read like the plain file with its content, however the bytes of either are handed over. -/
theorem C123_open (env : CsvEnv) (dec : Decoders) (zip : ZipLib) (w w' : World) (cfg : CsvInputConfig env.lib) (i i' : Input) (hcsv : CsvByContent env.csv)
    (hd : DecodeByContent dec) (h : UnpackedFile dec w w' i i') :
    createFromInput (newInputs env dec zip w (some cfg) [] []) w i = createFromInput (newInputs env dec zip w' (some cfg) [] []) w' i' := by
  obtain ⟨f, s, s', fmt, fmt', file, content, sched, sched', rfl, rfl, hu, hf, hf', h1, h2, h3, h4, h5, h6, h7⟩ := h
  rw [C66_plain_file env dec zip w (some cfg) s fmt _ hf.notDir hf.here hf.opens h3 h6,
    C66_plain_file env dec zip w' (some cfg) s' fmt' _ hf'.notDir hf'.here hf'.opens h4 h7]
  obtain ⟨p, hp, hr, ht⟩ := preview_reads (file := file) h1
  obtain ⟨inner, hi, hde⟩ := unpacks_decoded hu hr ht
  rw [hp, Res.bind_ok, packed_previewer cfg hp hi.data hde h5]
  exact (SameContent.preview (i1 := inner) (i2 := ⟨content, sched', none⟩) ⟨hi.data, hi.ending, hi.noFail1, h2⟩ _ (by decide)).bind_eq fun p p' hp =>
    hp.create hd (default_content env hcsv cfg) _ _

/-- **C123 (the tool).** A run of the tool does exactly what it does if any of its inputs that are intact compressed files are unpacked first (and given with the name or format
without the extension): the same files are created, the same is handed to the output, and the result is the same. -/
theorem C123_tool (e : CliEnv) (w' : World) (a : CliArgs) (inputs' formats' : Option (List Str)) (is is' : List Input)
    (hu : e.userFactories = [] ∧ e.userTransports = []) (hcsv : CsvByContent e.csv.csv) (hd : DecodeByContent e.dec)
    (hi : parseInputs a = .ok is) (hi' : parseInputs { a with inputs := inputs', formats := formats' } = .ok is') (hl : is.length = is'.length)
    (h : ∀ (k : Nat) i i', is[k]? = some i → is'[k]? = some i' → UnpackedFile e.dec e.world w' i i' ∨ SameFile e.world w' i i') :
    chopperCli e a = chopperCli { e with world := w' } { a with inputs := inputs', formats := formats' } := by
  have hp : parseCliArgs e a = parseCliArgs { e with world := w' } { a with inputs := inputs', formats := formats' } := by
    unfold parseCliArgs
    rw [settings_other hi hi']
    cases hst : parseSettings e a with
    | err x => rfl
    | panic => rfl
    | diverge => rfl
    | ok st =>
      simp only [Res.bind_ok]
      have hin := settings_inputs hi hst
      refine setupGraph_same (by rw [hin]; exact hl) _ _ _ _ (openInputs_pairs _ _ (by rw [hin]; exact hl) ?_)
      intro k i i' h1 h2
      rw [hin] at h1
      rw [hu.1, hu.2]
      rcases h k i i' h1 h2 with hk | hk
      · exact C123_open _ _ _ _ _ _ _ _ hcsv hd hk
      · exact sameFile_open _ hcsv hd hk
  unfold chopperCli
  rw [hp]
  rfl

/-! ## zstd -/

/-- A reader that answers like the plain one has the same content. -/
theorem answers_same {i : Inner} {content : List Byte} (h : ∀ sizes, answers Inner.read sizes i = answers Inner.read sizes (plainReader content)) :
    SameContent i (plainReader content) := by
  obtain ⟨data, sched, ending⟩ := i
  induction sched generalizing data content with
  | nil =>
    have h1 := h [data.length + content.length + 1]
    have h2 := h [data.length + content.length + 1, 1]
    cases ending with
    | none =>
      simp only [answers, Inner.read, Inner.deliver, plainReader, List.cons.injEq, Res.ok.injEq, and_true] at h1
      rw [List.take_of_length_le (by omega), List.take_of_length_le (by omega)] at h1
      exact ⟨h1, rfl, by simp, by simp [plainReader]⟩
    | some k =>
      exfalso
      by_cases hd : data = []
      · subst hd
        simp [answers, Inner.read, Inner.deliver, plainReader] at h1
      · simp only [answers, Inner.read, Inner.deliver, plainReader, hd, false_and, if_false] at h2
        rw [List.drop_of_length_le (l := data) (by omega)] at h2
        simp at h2
  | cons st sched ih =>
    have hstep : ∀ n sizes, answers Inner.read (n :: sizes) ⟨data, st :: sched, ending⟩ = answers Inner.read (n :: sizes) (plainReader content) := fun n sizes => h _
    cases st with
    | fail k =>
      exfalso
      have := hstep 1 []
      simp [answers, Inner.read, Inner.deliver, plainReader] at this
    | bytes k =>
      have hz := fun sizes => hstep 0 sizes
      have h0 : ∀ x : List Byte, ∀ o s, (Inner.deliver ⟨x, .bytes k :: sched, o⟩ 0 s) = (.ok [], ⟨x, s, o⟩) := by
        intro x o s
        cases o <;> simp [Inner.deliver]
      have := ih data (content := content) (fun sizes => by
        have := hz sizes
        simp only [answers, Inner.read, Nat.zero_min, h0, List.cons.injEq, plainReader] at this
        exact this.2)
      exact ⟨this.data, this.ending, by simpa using this.noFail1, this.noFail2⟩

/-- **C123 (zstd).** With the program's own zstd reader, a file is an intact compressed file in the above sense whenever its first frame is undamaged: its content is that of the
first frame. -/
theorem C123_zst (dec : Decoders) (frames : List Byte → List ZstFrame) (file : List Byte) (f : ZstFrame) (fs : List ZstFrame) (hd : ZstDecoder dec frames)
    (hf : frames file = f :: fs) (hg : f.damaged = false) : Unpacks dec .zst file (ZstFrame.content f) := by
  intro r hr
  have := hd r file hr
  rw [hf] at this
  obtain ⟨i, h1, h2⟩ := this hg
  exact ⟨i, answers_same fun sizes => by rw [h2, C78_exact f hg], h1⟩

/-- **C123 (gzip).** With the gzip decoder as transcribed (C117), an intact member is an intact compressed file in this sense, whatever follows it. -/
theorem C123_gz (dec : Decoders) (lib : GzCrate) (m : GzMember) (content tail : List Byte) (hd : dec.gz = gzReader lib) (hs : ∀ file k, ReadStep.fail k ∉ lib.sched file)
    (hm : m.Holds lib content) (hi : m.Intact content) : Unpacks dec .gz (m.bytes ++ tail) content := by
  intro r hr
  refine ⟨⟨content, lib.sched (m.bytes ++ tail), none⟩, ⟨rfl, rfl, hs _, by simp [plainReader]⟩, ?_⟩
  show dec.gz r = _
  have hb : (r.buf.drop r.pos).take (r.cap - r.pos) ++ r.inner.data = m.bytes ++ tail := hr.bytes
  rw [hd]
  unfold gzReader
  simp only [hb, (gzDecode_member hm tail).1 hi, hr.ending]
  rw [if_neg (by simp)]

/-- **C124, stated in full.** A zstd file of several undamaged frames (what appending to a compressed file, `cat` of two compressed files and parallel compressors produce) is read
like a plain file with the contents of all of them. False: `C124_refuted`. -/
def C124_full : Prop :=
  ∀ (env : CsvEnv) (dec : Decoders) (zip : ZipLib) (w w' : World) (cfg : CsvInputConfig env.lib) (frames : List Byte → List ZstFrame) (s s' : Str) (fmt fmt' : InputFormat)
    (file content : List Byte) (sched sched' : List ReadStep), CsvByContent env.csv → DecodeByContent dec → ZstDecoder dec frames →
    frames file ≠ [] → (∀ f ∈ frames file, f.damaged = false) → content = (frames file).flatMap ZstFrame.content →
    FileAt w s ⟨file, sched, none⟩ → FileAt w' s' ⟨content, sched', none⟩ → (∀ k, ReadStep.fail k ∉ sched) → (∀ k, ReadStep.fail k ∉ sched') →
    ¬ HttpAddress s → ¬ HttpAddress s' → GivenAs .zst file content (lastComponent s) fmt (lastComponent s') fmt' →
    ¬ [0x50, 0x4b, 3, 4] <+: file → ¬ [0x50, 0x4b, 3, 4] <+: content →
      createFromInput (newInputs env dec zip w (some cfg) [] []) w ⟨.path s, fmt⟩ = createFromInput (newInputs env dec zip w' (some cfg) [] []) w' ⟨.path s', fmt'⟩

/-- **C124 (what is true).** Only the first frame is read: whatever follows it, undamaged or not, the file is read exactly like a plain file with the content of the first frame.
Nothing is reported. -/
theorem C124_first_partial (env : CsvEnv) (dec : Decoders) (zip : ZipLib) (w w' : World) (cfg : CsvInputConfig env.lib) (frames : List Byte → List ZstFrame) (s s' : Str)
    (fmt fmt' : InputFormat) (file : List Byte) (f : ZstFrame) (fs : List ZstFrame) (sched sched' : List ReadStep) (hcsv : CsvByContent env.csv) (hd : DecodeByContent dec)
    (hz : ZstDecoder dec frames) (hf : frames file = f :: fs) (hg : f.damaged = false)
    (h1 : FileAt w s ⟨file, sched, none⟩) (h2 : FileAt w' s' ⟨ZstFrame.content f, sched', none⟩) (h3 : ∀ k, ReadStep.fail k ∉ sched) (h4 : ∀ k, ReadStep.fail k ∉ sched')
    (h5 : ¬ HttpAddress s) (h6 : ¬ HttpAddress s') (h7 : GivenAs .zst file (ZstFrame.content f) (lastComponent s) fmt (lastComponent s') fmt')
    (h8 : ¬ [0x50, 0x4b, 3, 4] <+: file) (h9 : ¬ [0x50, 0x4b, 3, 4] <+: ZstFrame.content f) :
    createFromInput (newInputs env dec zip w (some cfg) [] []) w ⟨.path s, fmt⟩ = createFromInput (newInputs env dec zip w' (some cfg) [] []) w' ⟨.path s', fmt'⟩ :=
  C123_open env dec zip w w' cfg _ _ hcsv hd ⟨.zst, s, s', fmt, fmt', file, _, sched, sched', rfl, rfl, C123_zst dec frames file f fs hz hf hg, h1, h2, h3, h4, h5, h6, h7, h8, h9⟩

/-! ## Cases -/

/-- A zstd library that knows one file. -/
def oneZst (file : List Byte) (fs : List ZstFrame) (x : List Byte) : List ZstFrame := if x = file then fs else []
/-- Decoders with the zstd reader on top of such a library. -/
def zstWhole (frames : List Byte → List ZstFrame) : Decoders :=
  { wholeDecoders with zst := fun r => match frames (stillToCome r) with | f :: _ => some (plainReader (ZstFrame.content f)) | [] => none }

theorem zstWhole_decoder (frames : List Byte → List ZstFrame) : ZstDecoder (zstWhole frames) frames := by
  intro r file hr
  have hz : (zstWhole frames).zst r = match frames file with | f :: _ => some (plainReader (ZstFrame.content f)) | [] => none := by
    show (match frames (stillToCome r) with | f :: _ => some (plainReader (ZstFrame.content f)) | [] => none) = _
    rw [hr.bytes]
  rw [hz]
  cases hf : frames file with
  | nil => rfl
  | cons f fs => exact fun hg => ⟨_, rfl, fun sizes => (C78_exact f hg sizes).symm⟩

theorem zstWhole_content (frames : List Byte → List ZstFrame) : DecodeByContent (zstWhole frames) := by
  refine ⟨fun r1 r2 h => ⟨h.bytes, h.ending, by simp [zstWhole, wholeDecoders], by simp [zstWhole, wholeDecoders]⟩,
    fun r1 r2 h => ⟨h.bytes, h.ending, by simp [zstWhole, wholeDecoders], by simp [zstWhole, wholeDecoders]⟩,
    fun r1 r2 h => ⟨h.bytes, h.ending, by simp [zstWhole, wholeDecoders], by simp [zstWhole, wholeDecoders]⟩, fun _ _ _ => .none, fun r1 r2 h => ?_⟩
  simp only [zstWhole, h.bytes]
  cases frames (stillToCome r2) with
  | nil => exact .none
  | cons f fs => exact .some ⟨rfl, rfl, by simp [plainReader], by simp [plainReader]⟩

/-- Two frames: a DC file without rows, and a row for it. -/
def zstFrames : List ZstFrame := [⟨[noRowsDc], false, 3⟩, ⟨[rowDc], false, 0⟩]
def zstFile : List Byte := [0x28, 0xB5, 0x2F, 0xFD, 1, 2, 3]

theorem zst_undamaged : ∀ x, ∀ f ∈ oneZst zstFile zstFrames x, f.damaged = false := by
  intro x f hf
  unfold oneZst at hf
  split at hf
  · simp only [zstFrames, List.mem_cons, List.not_mem_nil, or_false] at hf
    rcases hf with rfl | rfl <;> rfl
  · simp at hf

theorem zst_name (c : List Byte) : GivenAs .zst zstFile c (lastComponent "a.dc.zst".toList) .auto (lastComponent "a.dc".toList) .auto := by
  have hl : lastComponent "a.dc.zst".toList = some ("a.dc".toList ++ (extension .zst).toList) := by decide +kernel
  have hl' : lastComponent "a.dc".toList = some "a.dc".toList := by decide +kernel
  rw [hl, hl']
  exact .name _ (plain_dc ['a']) (.inl (.inr ⟨['a'], rfl⟩))

/-- **C124 is false**: of the two frames the row in the second is not read. -/
theorem C124_refuted : ¬ C124_full := by
  intro h
  have hfr : oneZst zstFile zstFrames zstFile = zstFrames := if_pos rfl
  have hh : ¬ HttpAddress "a.dc.zst".toList := by decide +kernel
  have hh' : ¬ HttpAddress "a.dc".toList := by decide +kernel
  have hz0 : ¬ [0x50, 0x4b, 3, 4] <+: zstFile := by decide +kernel
  have hz1 : ¬ [0x50, 0x4b, 3, 4] <+: ZstFrame.content ⟨[noRowsDc], false, 3⟩ := by decide +kernel
  have hz2 : ¬ [0x50, 0x4b, 3, 4] <+: zstFrames.flatMap ZstFrame.content := by decide +kernel
  have hcsv : CsvByContent strictEnv.csv := by
    intro d hh r1 r2 h
    show strictCsv.parse d hh r1 = strictCsv.parse d hh r2
    unfold strictCsv
    simp only [h.ending]
  have r1 := h strictEnv _ exLib _ _ secondsCfg _ _ _ .auto .auto zstFile _ [] [] hcsv (zstWhole_content _) (zstWhole_decoder _) (by rw [hfr]; simp [zstFrames])
    (zst_undamaged _) rfl (oneWorld_at "a.dc.zst".toList zstFile) (oneWorld_at "a.dc".toList _) (by simp) (by simp) hh hh' (zst_name _) hz0 (by rw [hfr]; exact hz2)
  have r2 := C124_first_partial strictEnv _ exLib _ _ secondsCfg _ _ _ .auto .auto zstFile _ _ [] [] hcsv (zstWhole_content _) (zstWhole_decoder _) hfr rfl
    (oneWorld_at "a.dc.zst".toList zstFile) (oneWorld_at "a.dc".toList _) (by simp) (by simp) hh hh' (zst_name _) hz0 hz1
  have hd : ∀ data, ¬ [0x50, 0x4b, 3, 4] <+: data → createFromInput (newInputs strictEnv (zstWhole (oneZst zstFile zstFrames)) exLib (oneWorld "a.dc".toList data) (some secondsCfg) [] [])
      (oneWorld "a.dc".toList data) ⟨.path "a.dc".toList, .auto⟩ = (dcOpen strictEnv.ov (ofBytes data)).bind fun src => .ok src.toFile := by
    intro data hz
    have hf := oneWorld_at "a.dc".toList data
    exact C66_dc_file strictEnv _ exLib _ (some secondsCfg) _ .auto _ hf.notDir hf.here hf.opens hh' hz
      (by rintro e (h | h) <;> simp at h) (.inl ⟨['a'], by decide +kernel, rfl⟩)
  rw [r1, hfr, hd _ hz2, hd _ hz1] at r2
  have hcount := congrArg (fun r : Res FileSource => r.bind fun f => .ok f.source.rows.length) r2
  revert hcount
  decide +kernel

/-- Of two tables the first is a zstd file, of two blocks. -/
def zstTable : List ZstFrame := [⟨[gzText.take 5, gzText.drop 5], false, 3⟩]
def packWorld : World := twoWorld "a.csv.zst".toList "b.csv".toList ⟨zstFile, [.bytes 3], none⟩ ⟨utf8Encode (csvText ',' (copyNames :: copyB)), [], none⟩
def packEnv : CliEnv := { copyEnv with dec := zstWhole (oneZst zstFile zstTable), world := packWorld }
def packArgs : CliArgs := { copyArgs with inputs := some ["a.csv.zst".toList, "b.csv".toList] }

theorem zstTable_undamaged : ∀ x, ∀ f ∈ oneZst zstFile zstTable x, f.damaged = false := by
  intro x f hf
  unfold oneZst at hf
  split at hf
  · simp only [zstTable, List.mem_cons, List.not_mem_nil, or_false] at hf
    rw [hf]
  · simp at hf

theorem pack_unpacks : Unpacks packEnv.dec .zst zstFile gzText := by
  have h := C123_zst packEnv.dec (oneZst zstFile zstTable) zstFile _ _ (zstWhole_decoder _) (if_pos rfl) rfl
  have : ZstFrame.content ⟨[gzText.take 5, gzText.drop 5], false, 3⟩ = gzText := by simp [ZstFrame.content]
  rwa [this] at h

theorem plainCsv_content : CsvByContent plainCsv := by
  intro d hh r1 r2 h
  unfold plainCsv
  simp only [h.bytes]

/-- The tool does with it what it does with the plain tables. -/
example : chopperCli packEnv packArgs = chopperCli { packEnv with world := copyWorld } { packArgs with inputs := some ["a.csv".toList, "b.csv".toList], formats := none } := by
  refine C123_tool packEnv copyWorld packArgs _ _ [⟨.path "a.csv.zst".toList, .auto⟩, ⟨.path "b.csv".toList, .auto⟩] [⟨.path "a.csv".toList, .auto⟩, ⟨.path "b.csv".toList, .auto⟩]
    ⟨rfl, rfl⟩ plainCsv_content (zstWhole_content _) rfl rfl rfl ?_
  intro k i i' h1 h2
  match k, h1, h2 with
  | 0, h1, h2 =>
    cases h1; cases h2
    rw [copyWorld_two]
    refine .inl ⟨.zst, "a.csv.zst".toList, "a.csv".toList, .auto, .auto, zstFile, gzText, [.bytes 3], [.bytes 3], rfl, rfl, pack_unpacks,
      twoWorld_first _ _ _ _, twoWorld_first _ _ _ _, by simp, by simp, by decide +kernel, by decide +kernel, ?_, by decide +kernel, gzText_not_zip⟩
    have e1 : lastComponent "a.csv.zst".toList = some ("a.csv".toList ++ (extension .zst).toList) := by decide +kernel
    have e2 : lastComponent "a.csv".toList = some "a.csv".toList := by decide +kernel
    rw [e1, e2]
    exact .name _ (plain_csv ['a']) (.inl (.inl ⟨['a'], rfl⟩))
  | 1, h1, h2 =>
    cases h1; cases h2
    rw [copyWorld_two]
    exact .inr ⟨"b.csv".toList, "b.csv".toList, .auto, _, _, rfl, rfl, twoWorld_second _ _ _ _ (by decide +kernel), twoWorld_second _ _ _ _ (by decide +kernel),
      ⟨rfl, rfl, by simp, by simp⟩, rfl, by decide +kernel, by decide +kernel, gzOther_not_zip⟩
  | n + 2, h1, h2 => cases h1

end Chopper.Props
