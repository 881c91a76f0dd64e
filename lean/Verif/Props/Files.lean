import Verif.Model.Files
import Verif.Props.ZipFaults
import Verif.Props.PackedDir

/-!
# C127, C128: I/O errors while inputs are tested for being archives; paths that cannot be positioned
-/
namespace Chopper.Props
open Chopper Chopper.Spec

/-- The file at the path, if there is one, is no zip archive, or one without zip64 records (see C107 for what is wrong with those). -/
def NoZip64 (w : World) (path : Path) : Prop :=
  ∀ inner, w.file path = some inner → ¬ [0x50, 0x4b, 3, 4] <+: inner.data ∨ ∀ p, ¬ At inner.data p [0x50, 0x4b, 6, 7]

/-- One of the failures was reported. -/
def Failed (fl : Path → Faults) {β : Type} (r : Res β) : Prop := ∃ p k, some k ∈ fl p ∧ r = .err (.io k)

variable {α : Type}

theorem answer_bind {β σ : Type} (r : Res (α × σ)) (f : α → Res β) : (r.bind fun x => f x.1) = (answer r).bind f := by
  cases r <;> rfl

/-- What follows the test of a file. -/
theorem zipF_cases (inp : Inputs α) (fl : Path → Faults) (path : Path) (fmt : InputFormat)
    (hp : ∀ file, createSeekable inp.seekable path = .ok (some file) → ¬ [0x50, 0x4b, 3, 4] <+: file ∨ ∀ p, ¬ At file p [0x50, 0x4b, 6, 7]) :
    Failed fl (createFromZipF inp fl path fmt) ∨ createFromZipF inp fl path fmt = createFromZip inp path fmt := by
  unfold createFromZipF createFromZip
  cases ho : createSeekable inp.seekable path with
  | err e => exact .inr rfl
  | panic => exact .inr rfl
  | diverge => exact .inr rfl
  | ok o =>
    cases o with
    | none => exact .inr rfl
    | some file =>
      simp only [Res.bind_ok]
      rcases sim_isZip file 0 (fl path) with ⟨k, hk, h⟩ | ⟨fs', hsuf, h⟩
      · exact .inl ⟨path, k, hk, by rw [h]; rfl⟩
      · rw [h]
        obtain ⟨q, hq⟩ := C55_isZip file 0
        rw [hq]
        simp only [Res.bind_ok]
        by_cases hz : [0x50, 0x4b, 3, 4] <+: file
        · rw [if_pos (by simpa using hz), if_pos (by simpa using hz)]
          rcases hp file ho with hn | hn
          · exact absurd hz hn
          rcases C107_no_zip64 inp.zip file q fs' hn with ⟨k, hk, h1⟩ | h1
          · exact .inl ⟨path, k, hsuf.subset hk, by rw [h1]; rfl⟩
          · right
            have e1 := answer_bind (openZipF inp.zip file (q, fs')) fun x => (Previewer.new defaultBufSize x.1.asInner).bind fun p =>
              (createFromPreviewer inp.dec inp.factories p (some x.2) fmt).bind fun s => .ok (some s)
            have e2 := answer_bind (openZip inp.zip file q) fun x => (Previewer.new defaultBufSize x.1.asInner).bind fun p =>
              (createFromPreviewer inp.dec inp.factories p (some x.2) fmt).bind fun s => .ok (some s)
            rw [h1] at e1
            exact e1.trans e2.symm
        · rw [if_neg (by simpa using hz), if_neg (by simpa using hz)]
          exact .inr rfl

theorem pathF_cases (inp : Inputs α) (fl : Path → Faults) (path : Path) (fmt : InputFormat)
    (hp : ∀ file, createSeekable inp.seekable path = .ok (some file) → ¬ [0x50, 0x4b, 3, 4] <+: file ∨ ∀ p, ¬ At file p [0x50, 0x4b, 6, 7]) :
    Failed fl (createFromPathF inp fl path fmt) ∨ createFromPathF inp fl path fmt = createFromPath inp path fmt := by
  unfold createFromPathF createFromPath
  rcases zipF_cases inp fl path fmt hp with ⟨p, k, hk, h⟩ | h
  · exact .inl ⟨p, k, hk, by rw [h]; rfl⟩
  · exact .inr (by rw [h]; rfl)

variable {env : CsvEnv} {dec : Decoders} {zip : ZipLib} {w : World}

theorem seekable_file (cfg : Option (CsvInputConfig env.lib)) (ufs : List (Factory FileSource)) (uts : List (Transport Inner)) (path : Path) :
    createSeekable (newInputs env dec zip w cfg ufs uts).seekable path =
      if w.pathExists path then (Res.okOr (.io .other) (w.file path)).bind fun i => .ok (some i.data) else .ok none := by
  have h1 : createSeekable (newInputs env dec zip w cfg ufs uts).seekable path =
      if w.pathExists path then (Res.okOr (.io .other) ((w.file path).map (·.data))).bind fun r => .ok (some r) else .ok none := rfl
  rw [h1]
  by_cases h : w.pathExists path = true
  · rw [if_pos h, if_pos h]; cases w.file path <;> rfl
  · rw [if_neg h, if_neg h]

theorem seekable_plain (cfg : Option (CsvInputConfig env.lib)) (ufs : List (Factory FileSource)) (uts : List (Transport Inner)) (path : Path) (h : NoZip64 w path) (file : List Byte)
    (ho : createSeekable (newInputs env dec zip w cfg ufs uts).seekable path = .ok (some file)) : ¬ [0x50, 0x4b, 3, 4] <+: file ∨ ∀ p, ¬ At file p [0x50, 0x4b, 6, 7] := by
  rw [seekable_file] at ho
  cases he : w.pathExists path with
  | false => rw [he] at ho; cases ho
  | true =>
    rw [he] at ho
    simp only [if_true] at ho
    cases hf : w.file path with
    | none => rw [hf] at ho; cases ho
    | some inner => rw [hf] at ho; cases ho; exact h inner hf

theorem runs_cut {σ : Type} (next nextF : σ → Res (Option Row) × σ) (I : σ → Prop) (K : IoKind → Prop)
    (h : ∀ s, I s → (nextF s = next s ∧ I (next s).2) ∨ ∃ k, K k ∧ (nextF s).1 = .err (.io k)) : ∀ (rows : List Row) (s : σ) (e : Ending) (b : Source), I s →
    RunsAs nextF s ⟨rows, e⟩ → RunsAs next s b → (⟨rows, e⟩ : Source) = b ∨ (rows <+: b.rows ∧ ∃ k, K k ∧ e = .fail (.io k))
  | [], s, e, ⟨brows, be⟩, hI, ⟨s1, ha, ha'⟩, ⟨s2, hb, hb'⟩ => by
    cases ha
    rcases h s hI with ⟨h1, _⟩ | ⟨k, hk, h1⟩
    · left
      rw [h1] at ha'
      cases hb with
      | nil =>
        rw [Source.mk.injEq]
        refine ⟨rfl, ?_⟩
        cases hn : (next s).1 with
        | ok o => cases o with
          | none => rw [hn] at ha' hb'; exact ha'.trans hb'.symm
          | some r => rw [hn] at ha'; exact ha'.elim
        | err x => rw [hn] at ha' hb'; exact ha'.trans hb'.symm
        | panic => rw [hn] at ha' hb'; exact ha'.trans hb'.symm
        | diverge => rw [hn] at ha' hb'; exact ha'.trans hb'.symm
      | cons hn _ => rw [hn] at ha'; exact ha'.elim
    · right
      rw [h1] at ha'
      exact ⟨List.nil_prefix, k, hk, ha'⟩
  | r :: rows, s, e, ⟨brows, be⟩, hI, ⟨s1, ha, ha'⟩, ⟨s2, hb, hb'⟩ => by
    cases ha with
    | cons hn hrest =>
      rcases h s hI with ⟨h1, h2⟩ | ⟨k, hk, h1⟩
      · rw [h1] at hn
        cases hb with
        | nil => rw [hn] at hb'; exact hb'.elim
        | cons hn' hrest' =>
          rw [hn] at hn' h2
          cases hn'
          rcases runs_cut next nextF I K h rows _ e ⟨_, be⟩ h2 ⟨s1, hrest, ha'⟩ ⟨s2, hrest', hb'⟩ with heq | ⟨g1, g2⟩
          · left
            rw [Source.mk.injEq] at heq ⊢
            exact ⟨by rw [heq.1], heq.2⟩
          · right
            refine ⟨?_, g2⟩
            obtain ⟨t, ht⟩ := g1
            exact ⟨t, congrArg (r :: ·) ht⟩
      · rw [hn] at h1; cases h1

theorem multiNext_cut {P : Type} (o oF : P → Res (Option FileSource)) (K : IoKind → Prop) (h : Header) : ∀ (zs : List P) (m : List Nat) (cur : Option FileSource),
    (∀ z ∈ zs, openPath oF z = openPath o z ∨ ∃ k, K k ∧ openPath oF z = .err (.io k)) →
    (multiNext oF h zs m cur = multiNext o h zs m cur ∧ ∀ z ∈ (multiNext o h zs m cur).2.paths, z ∈ zs) ∨ ∃ k, K k ∧ (multiNext oF h zs m cur).1 = .err (.io k)
  | zs, m, none, _ => by
    unfold multiNext
    exact .inl ⟨rfl, fun z hz => hz⟩
  | [], m, some g, _ => by
    unfold multiNext
    rcases hn : g.source.nextRow with ⟨r, s'⟩
    left
    cases r with
    | ok r =>
      cases r with
      | some row =>
        cases ha : alignRow m row <;> simp only [ha] <;> exact ⟨trivial, fun z hz => hz⟩
      | none => exact ⟨rfl, fun z hz => hz⟩
    | err e => exact ⟨rfl, fun z hz => hz⟩
    | panic => exact ⟨rfl, fun z hz => hz⟩
    | diverge => exact ⟨rfl, fun z hz => hz⟩
  | z :: zs, m, some g, hz => by
    unfold multiNext
    rcases hn : g.source.nextRow with ⟨r, s'⟩
    cases r with
    | ok r =>
      cases r with
      | some row =>
        left
        cases ha : alignRow m row <;> simp only [ha] <;> exact ⟨trivial, fun z hz => hz⟩
      | none =>
        simp only
        rcases hz z (by simp) with ho | ⟨k, hk, ho⟩
        · rw [ho]
          cases openPath o z with
          | ok g' =>
            simp only
            cases swapMap h g'.header with
            | ok m' =>
              rcases multiNext_cut o oF K h zs m' (some g') fun y hy => hz y (by simp [hy]) with ⟨h1, h2⟩ | h1
              · exact .inl ⟨h1, fun y hy => List.mem_cons_of_mem _ (h2 y hy)⟩
              · exact .inr h1
            | err e => exact .inl ⟨rfl, fun y hy => List.mem_cons_of_mem _ hy⟩
            | panic => exact .inl ⟨rfl, fun y hy => List.mem_cons_of_mem _ hy⟩
            | diverge => exact .inl ⟨rfl, fun y hy => List.mem_cons_of_mem _ hy⟩
          | err e => exact .inl ⟨rfl, fun y hy => List.mem_cons_of_mem _ hy⟩
          | panic => exact .inl ⟨rfl, fun y hy => List.mem_cons_of_mem _ hy⟩
          | diverge => exact .inl ⟨rfl, fun y hy => List.mem_cons_of_mem _ hy⟩
        · rw [ho]
          exact .inr ⟨k, hk, rfl⟩
    | err e => exact .inl ⟨rfl, fun z hz => hz⟩
    | panic => exact .inl ⟨rfl, fun z hz => hz⟩
    | diverge => exact .inl ⟨rfl, fun z hz => hz⟩

/-- A source that is the other one, or its beginning and then one of the failures. -/
def CutShort (fl : Path → Faults) (f f' : FileSource) : Prop :=
  f.header = f'.header ∧ (f.source = f'.source ∨ (f.source.rows <+: f'.source.rows ∧ ∃ p k, some k ∈ fl p ∧ f.source.ending = .fail (.io k)))

theorem dirF_cases (o oF : Path → Res (Option FileSource)) (fl : Path → Faults) (h : ∀ z, openPath oF z = openPath o z ∨ Failed fl (openPath oF z)) (paths : List Path) :
    Failed fl ((MultiFile.new oF paths none).bind fun m => Res.ok (m.toFile oF)) ∨
    ((MultiFile.new oF paths none).bind fun m => Res.ok (m.toFile oF)) = ((MultiFile.new o paths none).bind fun m => Res.ok (m.toFile o)) ∨
    ∃ f f', ((MultiFile.new oF paths none).bind fun m => Res.ok (m.toFile oF)) = .ok f ∧ ((MultiFile.new o paths none).bind fun m => Res.ok (m.toFile o)) = .ok f' ∧ CutShort fl f f' := by
  have key : ∀ m : MultiFile Path, CutShort fl (m.toFile oF) (m.toFile o) := by
    intro m
    refine ⟨rfl, ?_⟩
    have := runs_cut (MultiFile.nextRow o) (MultiFile.nextRow oF) (fun _ => True) (fun k => ∃ p, some k ∈ fl p) (by
      intro s _
      rcases multiNext_cut o oF (fun k => ∃ p, some k ∈ fl p) s.header s.paths s.map s.current (fun z _ => by
        rcases h z with h | ⟨p, k, h1, h2⟩
        · exact .inl h
        · exact .inr ⟨k, ⟨p, h1⟩, h2⟩) with ⟨h1, _⟩ | h1
      · exact .inl ⟨h1, trivial⟩
      · exact .inr h1) _ m _ _ trivial (multi_toFile_runs oF m) (multi_toFile_runs o m)
    rcases this with h1 | ⟨h1, k, ⟨p, hk⟩, h2⟩
    · exact .inl h1
    · exact .inr ⟨h1, p, k, hk, h2⟩
  cases paths with
  | nil => exact .inr (.inr ⟨_, _, rfl, rfl, key _⟩)
  | cons z zs =>
    unfold MultiFile.new
    simp only
    rcases h z with ho | ⟨p, k, hk, ho⟩
    · rw [ho]
      cases openPath o z with
      | ok f => exact .inr (.inr ⟨_, _, rfl, rfl, key _⟩)
      | err e => exact .inr (.inl rfl)
      | panic => exact .inr (.inl rfl)
      | diverge => exact .inr (.inl rfl)
    · exact .inl ⟨p, k, hk, by rw [ho]; rfl⟩

/-- **C127 (opening).** If seeks or reads fail while an input, or any file in a directory, is tested for being a zip archive or opened as one: a failure is reported at once; or (in a
directory) the rows of the files before are delivered and then the failure; or the failure made no difference. (For archives without zip64 records, see C107.) -/
theorem C127_open (env : CsvEnv) (dec : Decoders) (zip : ZipLib) (w : World) (cfg : Option (CsvInputConfig env.lib)) (ufs : List (Factory FileSource)) (uts : List (Transport Inner))
    (fl : Path → Faults) (i : Input) (hz : ∀ p, NoZip64 w p) :
    Failed fl (createFromInputF (newInputs env dec zip w cfg ufs uts) w fl i) ∨
    createFromInputF (newInputs env dec zip w cfg ufs uts) w fl i = createFromInput (newInputs env dec zip w cfg ufs uts) w i ∨
    ∃ f f', createFromInputF (newInputs env dec zip w cfg ufs uts) w fl i = .ok f ∧ createFromInput (newInputs env dec zip w cfg ufs uts) w i = .ok f' ∧ CutShort fl f f' := by
  have hpath : ∀ p, Failed fl (createFromPathF (newInputs env dec zip w cfg ufs uts) fl p i.format) ∨
      createFromPathF (newInputs env dec zip w cfg ufs uts) fl p i.format = createFromPath (newInputs env dec zip w cfg ufs uts) p i.format :=
    fun p => pathF_cases _ fl p i.format (seekable_plain cfg ufs uts p (hz p))
  unfold createFromInputF createFromInput
  cases hi : i.input with
  | stdIn => exact .inr (.inl rfl)
  | path s =>
    simp only
    unfold createFromPathInputF createFromPathInput
    by_cases hd : w.isDir (utf8Encode s) = true
    · rw [if_pos hd, if_pos hd]
      unfold openDir
      cases filesInDir w.isDir (w.listing (utf8Encode s)) with
      | err e => exact .inr (.inl rfl)
      | panic => exact .inr (.inl rfl)
      | diverge => exact .inr (.inl rfl)
      | ok paths =>
        simp only [Res.bind_ok]
        refine dirF_cases _ _ fl (fun z => ?_) paths
        unfold openPath
        simp only
        rcases hpath z with ⟨p, k, hk, h⟩ | h
        · exact .inr ⟨p, k, hk, by rw [h]; rfl⟩
        · exact .inl (by rw [h])
    · rw [if_neg hd, if_neg hd]
      rcases hpath (utf8Encode s) with ⟨p, k, hk, h⟩ | h
      · exact .inl ⟨p, k, hk, by rw [h]; rfl⟩
      · exact .inr (.inl (by rw [h]; rfl))

/-- **C127 (the tool).** If seeks or reads fail while the inputs of a run (files, not directories) are tested for being zip archives or opened as such, the run does what it does without the
failures, or it reports one of them, and then it has not created or written anything. -/
theorem C127_tool (e : CliEnv) (fl : Path → Faults) (a : CliArgs) (hz : ∀ p, NoZip64 e.world p) (is : List Input) (hi : parseInputs a = .ok is)
    (hd : ∀ s fmt, (⟨.path s, fmt⟩ : Input) ∈ is → e.world.isDir (utf8Encode s) = false) :
    chopperCliF e fl a = chopperCli e a ∨ ∃ p k, some k ∈ fl p ∧ chopperCliF e fl a = ⟨[], none, .err (.io k)⟩ := by
  have hopen : ∀ (cfg : CsvInputConfig e.csv.lib) (is : List Input), (∀ s fmt, (⟨.path s, fmt⟩ : Input) ∈ is → e.world.isDir (utf8Encode s) = false) →
      Failed fl (openInputsF (newInputs e.csv e.dec e.zip e.world (some cfg) e.userFactories e.userTransports) e.world fl is) ∨
      openInputsF (newInputs e.csv e.dec e.zip e.world (some cfg) e.userFactories e.userTransports) e.world fl is =
        openInputs (newInputs e.csv e.dec e.zip e.world (some cfg) e.userFactories e.userTransports) e.world is := by
    intro cfg is
    induction is with
    | nil => intro _; exact .inr rfl
    | cons i is ih =>
      intro hd
      have hone : Failed fl (createFromInputF (newInputs e.csv e.dec e.zip e.world (some cfg) e.userFactories e.userTransports) e.world fl i) ∨
          createFromInputF (newInputs e.csv e.dec e.zip e.world (some cfg) e.userFactories e.userTransports) e.world fl i =
            createFromInput (newInputs e.csv e.dec e.zip e.world (some cfg) e.userFactories e.userTransports) e.world i := by
        obtain ⟨it, fmt⟩ := i
        cases it with
        | stdIn => exact .inr rfl
        | path s =>
          have hs := hd s fmt (by simp)
          unfold createFromInputF createFromInput
          simp only
          unfold createFromPathInputF createFromPathInput
          rw [hs]
          simp only [Bool.false_eq_true, if_false]
          rcases pathF_cases _ fl (utf8Encode s) fmt (seekable_plain (zip := e.zip) (dec := e.dec) (some cfg) e.userFactories e.userTransports (utf8Encode s) (hz _)) with ⟨p, k, hk, h⟩ | h
          · exact .inl ⟨p, k, hk, by rw [h]; rfl⟩
          · exact .inr (by rw [h]; rfl)
      unfold openInputsF openInputs
      rcases hone with ⟨p, k, hk, h⟩ | h
      · exact .inl ⟨p, k, hk, by rw [h]; rfl⟩
      · rw [h]
        cases createFromInput (newInputs e.csv e.dec e.zip e.world (some cfg) e.userFactories e.userTransports) e.world i with
        | err x => exact .inr rfl
        | panic => exact .inr rfl
        | diverge => exact .inr rfl
        | ok f =>
          simp only [Res.bind_ok]
          rcases ih fun s fmt hm => hd s fmt (List.mem_cons_of_mem _ hm) with ⟨p, k, hk, h⟩ | h
          · exact .inl ⟨p, k, hk, by rw [h]; rfl⟩
          · exact .inr (by rw [h])
  have hp : parseCliArgsF e fl a = parseCliArgs e a ∨ ∃ p k, some k ∈ fl p ∧ parseCliArgsF e fl a = ([], .err (.io k)) := by
    unfold parseCliArgsF parseCliArgs
    cases hst : parseSettings e a with
    | err x => exact .inl rfl
    | panic => exact .inl rfl
    | diverge => exact .inl rfl
    | ok st =>
      simp only
      unfold setupGraphF setupGraph
      rw [settings_inputs hi hst]
      rcases hopen st.inCfg is hd with ⟨p, k, hk, h⟩ | h
      · exact .inr ⟨p, k, hk, by rw [h]⟩
      · exact .inl (by rw [h]; rfl)
  unfold chopperCliF chopperCli
  rcases hp with h | ⟨p, k, hk, h⟩
  · exact .inl (by rw [h]; rfl)
  · exact .inr ⟨p, k, hk, by rw [h]⟩

/-- The file can be opened and read, but not positioned: a named pipe, `/dev/fd/63` of a process substitution, a terminal. -/
def Unseekable (w : World) (fl : Path → Faults) (s : Str) (inner : Inner) (k : IoKind) : Prop := FileAt w s inner ∧ ∃ fs, fl (utf8Encode s) = some k :: fs

/-- The full claim of C128: such an input is read as a file with the same name and bytes. -/
def C128_full : Prop :=
  ∀ (env : CsvEnv) (dec : Decoders) (zip : ZipLib) (w w' : World) (cfg : CsvInputConfig env.lib) (fl : Path → Faults) (s : Str) (fmt : InputFormat) (inner : Inner) (k : IoKind),
    Unseekable w fl s inner k → FileAt w' s inner → ¬ HttpAddress s → ¬ [0x50, 0x4b, 3, 4] <+: inner.data →
    createFromInputF (newInputs env dec zip w (some cfg) [] []) w fl ⟨.path s, fmt⟩ = createFromInput (newInputs env dec zip w' (some cfg) [] []) w' ⟨.path s, fmt⟩

/-- **C128 (never).** A path that cannot be positioned can never be an input, whatever it delivers: the test for zip archives, which begins with a seek, fails and this is reported. -/
theorem C128_never (env : CsvEnv) (dec : Decoders) (zip : ZipLib) (w : World) (cfg : Option (CsvInputConfig env.lib)) (ufs : List (Factory FileSource)) (uts : List (Transport Inner))
    (fl : Path → Faults) (s : Str) (fmt : InputFormat) (inner : Inner) (k : IoKind) (h : Unseekable w fl s inner k) :
    createFromInputF (newInputs env dec zip w cfg ufs uts) w fl ⟨.path s, fmt⟩ = .err (.io k) := by
  obtain ⟨hf, fs, hfl⟩ := h
  show createFromPathInputF _ w fl (utf8Encode s) fmt = _
  unfold createFromPathInputF createFromPathF createFromZipF
  rw [hf.notDir, seekable_file, hf.here, hf.opens, hfl]
  rfl

/-- **C128 (the tool).** A run with such an input among its inputs never starts: nothing is created or written, and it does not succeed. -/
theorem C128_tool_never (e : CliEnv) (fl : Path → Faults) (a : CliArgs) (is : List Input) (hi : parseInputs a = .ok is) (s : Str) (fmt : InputFormat) (hs : (⟨.path s, fmt⟩ : Input) ∈ is)
    (inner : Inner) (k : IoKind) (h : Unseekable e.world fl s inner k) :
    (chopperCliF e fl a).created = [] ∧ (chopperCliF e fl a).output = none ∧ (chopperCliF e fl a).result ≠ .ok () := by
  have hopen : ∀ (cfg : CsvInputConfig e.csv.lib) (is : List Input), (⟨.path s, fmt⟩ : Input) ∈ is →
      ∀ ss, openInputsF (newInputs e.csv e.dec e.zip e.world (some cfg) e.userFactories e.userTransports) e.world fl is ≠ .ok ss := by
    intro cfg is
    induction is with
    | nil => intro h; cases h
    | cons i is ih =>
      intro hm ss hss
      unfold openInputsF at hss
      obtain ⟨f, h1, h2⟩ := Res.bind_eq_ok.1 hss
      obtain ⟨ss', h3, _⟩ := Res.bind_eq_ok.1 h2
      rcases List.mem_cons.1 hm with rfl | hm
      · rw [C128_never _ _ _ _ _ _ _ _ _ _ _ _ h] at h1; cases h1
      · exact ih hm ss' h3
  unfold chopperCliF parseCliArgsF
  cases hst : parseSettings e a with
  | err x => exact ⟨rfl, rfl, by simp⟩
  | panic => exact ⟨rfl, rfl, by simp⟩
  | diverge => exact ⟨rfl, rfl, by simp⟩
  | ok st =>
    simp only
    unfold setupGraphF
    rw [settings_inputs hi hst]
    cases ho : openInputsF (newInputs e.csv e.dec e.zip e.world (some st.inCfg) e.userFactories e.userTransports) e.world fl is with
    | ok ss => exact absurd ho (hopen _ _ hs ss)
    | err x => exact ⟨rfl, rfl, by simp⟩
    | panic => exact ⟨rfl, rfl, by simp⟩
    | diverge => exact ⟨rfl, rfl, by simp⟩

/-- **C128 (what holds).** Standard input need not be positioned: the same bytes given there, with the format said explicitly, are read like a file. -/
theorem C128_stdin_partial (env : CsvEnv) (dec : Decoders) (zip : ZipLib) (w w' : World) (cfg : CsvInputConfig env.lib) (fl : Path → Faults) (s ext : Str) (inner : Inner)
    (hcsv : CsvByContent env.csv) (hd : DecodeByContent dec) (hin : SameContent w.stdin inner) (hf : FileAt w' s inner) (hh : ¬ HttpAddress s) (hz : ¬ [0x50, 0x4b, 3, 4] <+: inner.data) :
    createFromInputF (newInputs env dec zip w (some cfg) [] []) w fl ⟨.stdIn, .extension ext⟩ =
      createFromInput (newInputs env dec zip w' (some cfg) [] []) w' ⟨.path s, .extension ext⟩ :=
  C125_same env dec zip w w' cfg ⟨.stdIn, .extension ext⟩ ⟨.path s, .extension ext⟩ hcsv hd ⟨_, _, _, _, .standardInput _, .file s _ inner hf hh hz, hin, rfl, .inr ⟨ext, rfl⟩⟩

/-- **C128 is false**: a small DC file through a pipe. -/
theorem C128_refuted : ¬ C128_full := by
  intro h
  have hf := oneWorld_at "a.dc".toList noRowsDc
  have hh : ¬ HttpAddress "a.dc".toList := by decide +kernel
  have hz : ¬ [0x50, 0x4b, 3, 4] <+: noRowsDc := by decide +kernel
  have hu : Unseekable (oneWorld "a.dc".toList noRowsDc) (fun _ => [some .other]) "a.dc".toList ⟨noRowsDc, [], none⟩ .other := ⟨hf, [], rfl⟩
  have h1 := h strictEnv wholeDecoders exLib _ _ secondsCfg _ _ .auto _ _ hu hf hh hz
  rw [C128_never _ _ _ _ _ _ _ _ _ _ _ _ hu] at h1
  rw [C66_dc_file strictEnv _ exLib _ (some secondsCfg) _ .auto _ hf.notDir hf.here hf.opens hh hz (by rintro e (h | h) <;> simp at h) (.inl ⟨['a'], by decide +kernel, rfl⟩)] at h1
  revert h1
  decide +kernel

/-! ### Examples -/

/-- Of two tables the second cannot be read while it is tested. -/
example : chopperCliF { packEnv with world := copyWorld } (fun p => if p = utf8Encode "b.csv".toList then [none, none, some .other] else []) copyArgs =
      chopperCli { packEnv with world := copyWorld } copyArgs ∨
    ∃ p k, some k ∈ (if p = utf8Encode "b.csv".toList then [none, none, some .other] else []) ∧
      chopperCliF { packEnv with world := copyWorld } (fun p => if p = utf8Encode "b.csv".toList then [none, none, some .other] else []) copyArgs = ⟨[], none, .err (.io k)⟩ := by
  refine C127_tool { packEnv with world := copyWorld } _ copyArgs ?_ [⟨.path "a.csv".toList, .auto⟩, ⟨.path "b.csv".toList, .auto⟩] rfl (fun _ _ _ => rfl)
  intro p inner hin
  left
  rw [copyWorld_two] at hin
  unfold twoWorld at hin
  simp only at hin
  split at hin
  · cases hin; exact gzText_not_zip
  · split at hin
    · cases hin; exact gzOther_not_zip
    · cases hin

/-- `chopper <(cat a.csv) b.csv`. -/
example : (chopperCliF { packEnv with world := copyWorld } (fun p => if p = utf8Encode "a.csv".toList then [some .other] else []) copyArgs).result ≠ .ok () :=
  (C128_tool_never { packEnv with world := copyWorld } _ copyArgs [⟨.path "a.csv".toList, .auto⟩, ⟨.path "b.csv".toList, .auto⟩] rfl "a.csv".toList .auto (by simp) _ .other
    ⟨twoWorld_first _ _ _ _, [], if_pos rfl⟩).2.2

end Chopper.Props
