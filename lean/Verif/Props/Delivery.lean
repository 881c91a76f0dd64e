import Verif.Props.Packed
import Verif.Props.Input3
import Verif.Props.DcDetect

/-!
# C125: where an input comes from
-/
namespace Chopper.Props
open Chopper Chopper.Spec

/-- The input delivers these bytes under this name: it is a plain file, a page on a server, standard input (which has no name), or a zip archive with this as its only entry. -/
inductive Delivered (zip : ZipLib) (w : World) : Input → Inner → Option Str → Prop
  | file (s : Str) (fmt : InputFormat) (inner : Inner) : FileAt w s inner → ¬ HttpAddress s → ¬ [0x50, 0x4b, 3, 4] <+: inner.data →
      Delivered zip w ⟨.path s, fmt⟩ inner (lastComponent s)
  | page (s : Str) (fmt : InputFormat) (inner : Inner) : HttpAddress s → w.isDir (utf8Encode s) = false → w.pathExists (utf8Encode s) = false → w.http s = .ok inner →
      Delivered zip w ⟨.path s, fmt⟩ inner (lastComponent s)
  | standardInput (fmt : InputFormat) : Delivered zip w ⟨.stdIn, fmt⟩ w.stdin none
  | archive (s name : Str) (fmt : InputFormat) (content : List Byte) (sched : List ReadStep) : ZipAt zip w s name content sched (Spec.crc32 content) →
      Delivered zip w ⟨.path s, fmt⟩ ⟨content, sched, none⟩ (some name)

/-- `i` and `i'` deliver the same bytes under the same name, or are given with the same explicit format. -/
def SameInput (zip : ZipLib) (w w' : World) (i i' : Input) : Prop :=
  ∃ (r r' : Inner) (n n' : Option Str), Delivered zip w i r n ∧ Delivered zip w' i' r' n' ∧ SameContent r r' ∧ i.format = i'.format ∧ (n = n' ∨ ∃ e, i.format = .extension e)

/-- `i` delivers an intact compressed file, `i'` its content, under the name or format without the extension (or, if it is recognised by its first bytes, under the same). -/
def UnpackedInput (dec : Decoders) (zip : ZipLib) (w w' : World) (i i' : Input) : Prop :=
  ∃ (f : CompFormat) (file content : List Byte) (r r' : Inner) (n n' : Option Str), Unpacks dec f file content ∧ Delivered zip w i r n ∧ Delivered zip w' i' r' n' ∧
    SameContent r (plainReader file) ∧ SameContent r' (plainReader content) ∧ GivenAs f file content n i.format n' i'.format

/-- The name says nothing about the format, or there is none. -/
def NameSilent (n : Option Str) : Prop := ∀ m, n = some m → PlainName m ∧ ¬ KnownName m

/-- `i'` delivers the same bytes as `i`, where only with `i'` the name or format says what they are - CSV or DC: text (in UTF-8, not beginning like a compressed file) is CSV; what
begins like a DC file and is not text as far as the preview goes is DC. -/
def SaidInput (zip : ZipLib) (w w' : World) (i i' : Input) : Prop :=
  ∃ (r r' : Inner) (n n' : Option Str), Delivered zip w i r n ∧ Delivered zip w' i' r' n' ∧ SameContent r r' ∧ i.format = .auto ∧ NameSilent n ∧
    ((IsUtf8 r.data ∧ ContentIs r.data none ∧ SaysCsv n' i'.format) ∨ (dcStart <+: r.data ∧ (∀ head, Inspected r.data head → ¬ IsUtf8 head) ∧ SaysDc n' i'.format))

variable {env : CsvEnv} {dec : Decoders} {zip : ZipLib} {w w' : World}

theorem Delivered.opens (cfg : Option (CsvInputConfig env.lib)) {i : Input} {r : Inner} {n : Option Str} (h : Delivered zip w i r n) :
    createFromInput (newInputs env dec zip w cfg [] []) w i = (Previewer.new defaultBufSize r).bind fun p => createFromPreviewer dec (defaultFactories env cfg) p n i.format := by
  cases h with
  | file s fmt inner hf hh hz => exact C66_plain_file env dec zip w cfg s fmt _ hf.notDir hf.here hf.opens hh hz
  | page s fmt inner hh hd he ho => rw [C66_http env dec zip w cfg s fmt hd he hh, ho, Res.bind_ok]
  | standardInput fmt => rfl
  | archive s name fmt content sched hz => rw [zip_input hz, if_pos rfl]

theorem extension_name {dec : Decoders} {sfs : List (Factory FileSource)} (p : Previewer) (e : Str) (n n' : Option Str) :
    createFromPreviewer dec sfs p n (.extension e) = createFromPreviewer dec sfs p n' (.extension e) := rfl

/-- **C125 (the same bytes).** An input is opened and read in the same way wherever its bytes come from: a file, a page on a server, standard input or the only entry of a zip
archive - provided the name is the same (that of the entry, for an archive; standard input has none) or an explicit format is given. -/
theorem C125_same (env : CsvEnv) (dec : Decoders) (zip : ZipLib) (w w' : World) (cfg : CsvInputConfig env.lib) (i i' : Input) (hcsv : CsvByContent env.csv)
    (hd : DecodeByContent dec) (h : SameInput zip w w' i i') :
    createFromInput (newInputs env dec zip w (some cfg) [] []) w i = createFromInput (newInputs env dec zip w' (some cfg) [] []) w' i' := by
  obtain ⟨r, r', n, n', h1, h2, h3, h4, h5⟩ := h
  rw [h1.opens, h2.opens, ← h4]
  refine (h3.preview _ (by decide)).bind_eq fun p p' hp => ?_
  rw [hp.create hd (default_content env hcsv cfg)]
  rcases h5 with rfl | ⟨e, he⟩
  · rfl
  · rw [he]; exact extension_name _ _ _ _

/-- **C125 (compressed or not).** An intact compressed file of any format is opened and read like its content, wherever either comes from. -/
theorem C125_unpacked (env : CsvEnv) (dec : Decoders) (zip : ZipLib) (w w' : World) (cfg : CsvInputConfig env.lib) (i i' : Input) (hcsv : CsvByContent env.csv)
    (hd : DecodeByContent dec) (h : UnpackedInput dec zip w w' i i') :
    createFromInput (newInputs env dec zip w (some cfg) [] []) w i = createFromInput (newInputs env dec zip w' (some cfg) [] []) w' i' := by
  obtain ⟨f, file, content, r, r', n, n', hu, h1, h2, h3, h4, h5⟩ := h
  rw [h1.opens, h2.opens]
  obtain ⟨data, sched, ending⟩ := r
  have e1 : data = file := h3.data
  have e2 : ending = none := h3.ending
  subst e1 e2
  obtain ⟨p, hp, hr, ht⟩ := preview_reads (file := data) h3.noFail1
  obtain ⟨inner, hi, hde⟩ := unpacks_decoded hu hr ht
  rw [hp, Res.bind_ok, packed_previewer cfg hp hi.data hde h5]
  exact (SameContent.preview (i1 := inner) (i2 := r') ⟨hi.data.trans h4.data.symm, hi.ending.trans h4.ending.symm, hi.noFail1, h4.noFail1⟩ _ (by decide)).bind_eq fun p p' hp =>
    hp.create hd (default_content env hcsv cfg) _ _

theorem utf8_inspected {data head : List Byte} (h : IsUtf8 data) (hh : Inspected data head) : IsUtf8 head := by
  unfold Inspected at hh
  split at hh
  · rw [hh]; exact h
  · obtain ⟨tail, h1, _, h2⟩ := hh
    rcases h2 with rfl | ⟨b, rfl⟩
    · exact isUtf8_nil
    · have e : data = b ++ 10 :: (tail ++ data.drop 8192) := by
        have := List.take_append_drop 8192 data
        rw [h1] at this
        simpa using this.symm
      rw [e] at h
      have hb := ((isUtf8_cut (c := '\n') (by decide) (by decide) _ _).1 h).1
      exact (isUtf8_cut (c := '\n') (by decide) (by decide) b []).2 ⟨hb, isUtf8_nil⟩

theorem silent_auto {cfg : CsvInputConfig env.lib} {p : Previewer} {n : Option Str} (hn : NameSilent n) :
    createFromPreviewer dec (defaultFactories env (some cfg)) p n .auto = createFromPreviewer dec (defaultFactories env (some cfg)) p none .auto := by
  cases n with
  | none => rfl
  | some m =>
    obtain ⟨h1, h2⟩ := hn m rfl
    unfold createFromPreviewer
    simp only [decByName_plain _ _ _ h1, Res.bind_ok, Bool.false_eq_true, if_false]
    rw [createByName_none (unknown_none env cfg h2)]

/-- **C125 (without a name).** An input whose name does not say what it is, or that has none, is opened and read as if it did: text as CSV, and what begins like a DC file and is
no text as DC. -/
theorem C125_said (env : CsvEnv) (dec : Decoders) (zip : ZipLib) (w w' : World) (cfg : CsvInputConfig env.lib) (i i' : Input) (hcsv : CsvByContent env.csv)
    (hd : DecodeByContent dec) (h : SaidInput zip w w' i i') :
    createFromInput (newInputs env dec zip w (some cfg) [] []) w i = createFromInput (newInputs env dec zip w' (some cfg) [] []) w' i' := by
  obtain ⟨r, r', n, n', h1, h2, h3, h4, hn, h5⟩ := h
  rw [h1.opens, h2.opens, h4]
  have key : ∀ p, Previewer.new defaultBufSize r = .ok p →
      createFromPreviewer dec (defaultFactories env (some cfg)) p n .auto = createFromPreviewer dec (defaultFactories env (some cfg)) p n' i'.format := by
    intro p hp
    rw [silent_auto hn]
    rcases h5 with ⟨g1, g2, g3⟩ | ⟨g1, g2, g3⟩
    · rw [says_csv g3]
      obtain ⟨head, hh⟩ := C58_inspected r.data
      have hl := (preview_iff r p hp head hh).2 (utf8_inspected g1 hh)
      have hc : compressionOfContent p.trimmed = none := (C55_preview _ _ hp none).2 g2
      unfold createFromPreviewer decompressByContent
      simp only [hc, Res.bind_ok]
      show (if p.lines.isSome = true then _ else _) = _
      rw [if_pos hl]
    · rw [says_dc g3]
      obtain ⟨head, hh⟩ := C58_inspected r.data
      exact (C58_exact env dec cfg r p hp g1 head hh).1 (g2 head hh)
  have e1 : ((Previewer.new defaultBufSize r).bind fun p => createFromPreviewer dec (defaultFactories env (some cfg)) p n .auto) =
      (Previewer.new defaultBufSize r).bind fun p => createFromPreviewer dec (defaultFactories env (some cfg)) p n' i'.format := by
    cases hp : Previewer.new defaultBufSize r with
    | ok p => exact key p hp
    | err x => rfl
    | panic => rfl
    | diverge => rfl
  rw [e1]
  exact (h3.preview _ (by decide)).bind_eq fun p p' hp => hp.create hd (default_content env hcsv cfg) _ _

/-- **C125 (the tool).** So a run of the tool does the same if any of its inputs are unpacked first, put into a zip archive or taken out of one, downloaded first, or piped into it:
the same files are created, the same is handed to the output, and the result is the same. -/
theorem C125_tool (e : CliEnv) (w' : World) (a : CliArgs) (inputs' formats' : Option (List Str)) (is is' : List Input)
    (hu : e.userFactories = [] ∧ e.userTransports = []) (hcsv : CsvByContent e.csv.csv) (hd : DecodeByContent e.dec)
    (hi : parseInputs a = .ok is) (hi' : parseInputs { a with inputs := inputs', formats := formats' } = .ok is') (hl : is.length = is'.length)
    (h : ∀ (k : Nat) i i', is[k]? = some i → is'[k]? = some i' →
      UnpackedInput e.dec e.zip e.world w' i i' ∨ UnpackedInput e.dec e.zip w' e.world i' i ∨ SaidInput e.zip e.world w' i i' ∨ SaidInput e.zip w' e.world i' i ∨
        SameInput e.zip e.world w' i i') :
    chopperCli e a = chopperCli { e with world := w' } { a with inputs := inputs', formats := formats' } := by
  have hp : parseCliArgs e a = parseCliArgs { e with world := w' } { a with inputs := inputs', formats := formats' } := by
    unfold parseCliArgs
    rw [settings_other hi hi']
    cases hst : parseSettings e a with
    | err x => rfl
    | panic => rfl
    | diverge => rfl
    | ok st =>
      simp only [Res.bind_ok]
      have hin := settings_inputs hi hst
      refine setupGraph_same (by rw [hin]; exact hl) _ _ _ _ (openInputs_pairs _ _ (by rw [hin]; exact hl) ?_)
      intro k i i' h1 h2
      rw [hin] at h1
      rw [hu.1, hu.2]
      rcases h k i i' h1 h2 with hk | hk | hk | hk | hk
      · exact C125_unpacked _ _ _ _ _ _ _ _ hcsv hd hk
      · exact (C125_unpacked _ _ _ _ _ _ _ _ hcsv hd hk).symm
      · exact C125_said _ _ _ _ _ _ _ _ hcsv hd hk
      · exact (C125_said _ _ _ _ _ _ _ _ hcsv hd hk).symm
      · exact C125_same _ _ _ _ _ _ _ _ hcsv hd hk
  unfold chopperCli
  rw [hp]
  rfl

/-- **C125 (piping).** In particular `chopper < file.zst` does the same as `chopper` with the unpacked file piped into it. -/
theorem C125_piped (e : CliEnv) (stdin : Inner) (a : CliArgs) (f : CompFormat) (file content : List Byte)
    (hu : e.userFactories = [] ∧ e.userTransports = []) (hcsv : CsvByContent e.csv.csv) (hd : DecodeByContent e.dec) (hin : a.inputs = none) (hf : a.formats = none)
    (hun : Unpacks e.dec f file content) (h1 : SameContent e.world.stdin (plainReader file)) (h2 : SameContent stdin (plainReader content))
    (hc1 : ContentIs file (some f)) (hc2 : ContentIs content none) :
    chopperCli e a = chopperCli { e with world := { e.world with stdin := stdin } } a := by
  have hp : parseInputs a = .ok [⟨.stdIn, .auto⟩] := by
    unfold parseInputs
    rw [hf, hin]
    rfl
  have := C125_tool e { e.world with stdin := stdin } a a.inputs a.formats [⟨.stdIn, .auto⟩] [⟨.stdIn, .auto⟩] hu hcsv hd hp hp rfl ?_
  · exact this
  · intro k i i' g1 g2
    match k, g1, g2 with
    | 0, g1, g2 =>
      cases g1; cases g2
      exact .inl ⟨f, file, content, e.world.stdin, stdin, none, none, hun, .standardInput .auto, Delivered.standardInput (w := { e.world with stdin := stdin }) .auto, h1, h2,
        .unnamed hc1 hc2⟩
    | n + 1, g1, g2 => cases g1

/-- **C125 (piping a table).** `chopper < file.csv` does the same as `chopper file.csv`. -/
theorem C125_redirected (e : CliEnv) (stdin : Inner) (a : CliArgs) (s b : Str) (text : Str) (sched : List ReadStep)
    (hu : e.userFactories = [] ∧ e.userTransports = []) (hcsv : CsvByContent e.csv.csv) (hd : DecodeByContent e.dec) (hin : a.inputs = some [s]) (hf : a.formats = none)
    (hs : FileAt e.world s ⟨utf8Encode text, sched, none⟩) (hns : ∀ k, ReadStep.fail k ∉ sched) (hn : lastComponent s = some (b ++ ".csv".toList)) (hh : ¬ HttpAddress s)
    (hc : ContentIs (utf8Encode text) none) (h1 : SameContent stdin (plainReader (utf8Encode text))) :
    chopperCli e a = chopperCli { e with world := { e.world with stdin := stdin } } { a with inputs := none } := by
  have hp : parseInputs a = .ok [⟨.path s, .auto⟩] := by
    unfold parseInputs
    rw [hf, hin]
    rfl
  have hp' : parseInputs { a with inputs := none, formats := a.formats } = .ok [⟨.stdIn, .auto⟩] := by
    unfold parseInputs
    simp only [hf]
    rfl
  refine C125_tool e { e.world with stdin := stdin } a none a.formats [⟨.path s, .auto⟩] [⟨.stdIn, .auto⟩] hu hcsv hd hp hp' rfl ?_
  intro k i i' g1 g2
  match k, g1, g2 with
  | 0, g1, g2 =>
    cases g1; cases g2
    have e1 : stdin.data = utf8Encode text := h1.data
    refine .inr (.inr (.inr (.inl ⟨stdin, ⟨utf8Encode text, sched, none⟩, none, lastComponent s, Delivered.standardInput (w := { e.world with stdin := stdin }) .auto,
      .file s .auto _ hs hh (hc .zip _ .zip), ⟨h1.data, h1.ending, h1.noFail1, hns⟩, rfl, (by intro m hm; cases hm), .inl ⟨⟨text, e1⟩, ?_, .inl ⟨b, hn, rfl⟩⟩⟩)))
    rw [e1]; exact hc
  | n + 1, g1, g2 => cases g1

/-! ## Cases -/

theorem gzText_plain : ContentIs gzText none := by
  intro f m hm ⟨t, ht⟩
  have h1 : gzText.head? = some 0x74 := by decide +kernel
  rw [← ht] at h1
  cases hm <;> exact absurd h1 (by simp)

/-- The table of `zstTable` piped into the tool, and the unpacked table. -/
example : chopperCli { packEnv with world := { packWorld with stdin := ⟨zstFile, [.bytes 1], none⟩ } } { copyArgs with inputs := none } =
    chopperCli { packEnv with world := { packWorld with stdin := ⟨gzText, [.bytes 4, .bytes 1], none⟩ } } { copyArgs with inputs := none } :=
  C125_piped { packEnv with world := { packWorld with stdin := ⟨zstFile, [.bytes 1], none⟩ } } ⟨gzText, [.bytes 4, .bytes 1], none⟩ { copyArgs with inputs := none } .zst zstFile gzText
    ⟨rfl, rfl⟩ plainCsv_content (zstWhole_content _) rfl rfl pack_unpacks ⟨rfl, rfl, by simp, by simp [plainReader]⟩ ⟨rfl, rfl, by simp, by simp [plainReader]⟩
    ⟨_, .zst, by decide +kernel⟩ gzText_plain

/-- A world that has a file, a zip archive with the same content, and a server that has it too; it is also on standard input. -/
def anyWorld : World :=
  { oneWorld ['z'] (oneZip (asciiBytes ".csv") exZipContent (Spec.crc32 exZipContent)) with
    http := fun _ => .ok ⟨exZipContent, [.bytes 1], none⟩, stdin := ⟨exZipContent, [.bytes 2, .bytes 3], none⟩ }

theorem any_archive (fmt : InputFormat) : Delivered exLib anyWorld ⟨.path ['z'], fmt⟩ ⟨exZipContent, [], none⟩ (some ".csv".toList) := by
  have h := oneZip_at (asciiBytes ".csv") exZipContent (Spec.crc32 exZipContent) ".csv".toList (by decide) (by unfold NameIs; decide) (by decide)
  obtain ⟨⟨inner, L, packed, g1, g2⟩, g3⟩ := h
  exact .archive ['z'] _ fmt _ _ ⟨⟨inner, L, packed, ⟨g1.notDir, g1.here, g1.opens⟩, g2⟩, g3⟩

/-- The entry of the archive and the page of the same name; the page and standard input, given as `csv`. -/
example : SameInput exLib anyWorld anyWorld ⟨.path ['z'], .auto⟩ ⟨.path "http://x/.csv".toList, .auto⟩ ∧
    SameInput exLib anyWorld anyWorld ⟨.path "http://x/.csv".toList, .extension "csv".toList⟩ ⟨.stdIn, .extension "csv".toList⟩ := by
  have hp : ∀ fmt, Delivered exLib anyWorld ⟨.path "http://x/.csv".toList, fmt⟩ ⟨exZipContent, [.bytes 1], none⟩ (lastComponent "http://x/.csv".toList) :=
    fun fmt => .page _ fmt _ (by decide +kernel) rfl (by decide +kernel) rfl
  have hl : lastComponent "http://x/.csv".toList = some ".csv".toList := by decide +kernel
  refine ⟨⟨_, _, _, _, any_archive _, hp _, ⟨rfl, rfl, by simp, by simp⟩, rfl, .inl hl.symm⟩, ⟨_, _, _, _, hp _, .standardInput _, ⟨rfl, rfl, by simp, ?_⟩, rfl, .inr ⟨_, rfl⟩⟩⟩
  show ∀ e, ReadStep.fail e ∉ [.bytes 2, .bytes 3]
  simp

/-- The tool reads a table from a file or from standard input. -/
example : chopperCli { packEnv with world := copyWorld } { copyArgs with inputs := some ["a.csv".toList] } =
    chopperCli { packEnv with world := { copyWorld with stdin := ⟨gzText, [.bytes 1], none⟩ } } { copyArgs with inputs := none } :=
  C125_redirected { packEnv with world := copyWorld } ⟨gzText, [.bytes 1], none⟩ { copyArgs with inputs := some ["a.csv".toList] } "a.csv".toList ['a'] _ [.bytes 3]
    ⟨rfl, rfl⟩ plainCsv_content (zstWhole_content _) rfl rfl (twoWorld_first _ _ _ _) (by simp) (by decide +kernel) (by decide +kernel) gzText_plain
    ⟨rfl, rfl, by simp, by simp [plainReader]⟩

/-- DC data on standard input and in a file with a telling name. -/
example : SaidInput exLib { oneWorld "a.dc".toList (dcStart ++ [0xFF]) with stdin := ⟨dcStart ++ [0xFF], [.bytes 3], none⟩ } (oneWorld "a.dc".toList (dcStart ++ [0xFF]))
    ⟨.stdIn, .auto⟩ ⟨.path "a.dc".toList, .auto⟩ := by
  refine ⟨⟨dcStart ++ [0xFF], [.bytes 3], none⟩, ⟨dcStart ++ [0xFF], [], none⟩, none, _,
    Delivered.standardInput (w := { oneWorld "a.dc".toList (dcStart ++ [0xFF]) with stdin := ⟨dcStart ++ [0xFF], [.bytes 3], none⟩ }) .auto,
    .file _ .auto _ (oneWorld_at _ _) (by decide +kernel) (by decide), ⟨rfl, rfl, by simp, by simp⟩, rfl, (by intro m hm; cases hm), .inr ⟨⟨[0xFF], rfl⟩, ?_,
    .inl ⟨['a'], by decide +kernel, rfl⟩⟩⟩
  intro head hh
  unfold Inspected at hh
  rw [if_pos (by decide)] at hh
  subst hh
  rintro ⟨s, hs⟩
  have := utf8Decode_iff.2 hs
  rw [show utf8Decode (dcStart ++ [0xFF]) = none by decide] at this
  cases this

end Chopper.Props
