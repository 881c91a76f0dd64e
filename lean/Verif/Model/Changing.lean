import Verif.Model.Cli

/-!
# Inputs that change while the program runs

`Model/Input` and `Model/Cli` look at one `World` that never changes. Here every look at the file system sees the world of its own moment: `hist n` is the world at the `n`-th look that is taken
for one input. As `hist` is any sequence of worlds, nothing is said about how much time passes between two looks, or what happens in between.

A path is looked at to see whether it is a directory (moment 0); a directory is listed, and the entries are looked at to leave out directories (moment 1; simplification: one moment for all
of this); then each file is opened twice, as a seekable file for the zip test (moment 2, 4, ...), and, if it is no zip archive, as a stream (moment 3, 5, ...). Files of a directory are opened
one after the other, when the one before has been read. Simplification: asking whether a path exists and opening it happen at one moment; and what is read from an open file is decided when it is
opened (`Inner`: content and how reads chop it up).
-/
namespace Chopper

/-- The worlds seen by the successive looks. -/
abbrev History := Nat → World

/-- `SingleFileInputFactory::create_source_from_path` (`/repo/src/input/single_file.rs:49-83`), the zip test in one world, the streaming transports in another; `mk` makes the
transports and factories (`InputFactory::new`), which are the same throughout but look at the world when used. -/
def createFromPathC {α : Type} (mk : World → Inputs α) (check stream : World) (path : Path) (fmt : InputFormat) : Res (Option α) :=
  (createFromZip (mk check) path fmt).bind fun
    | some s => .ok (some s)
    | none => createFromStream (mk stream) path fmt

/-- The files of a directory, each with its number: the `k`-th is opened as the `k`-th. -/
def openNumbered (mk : World → Inputs FileSource) (hist : History) (fmt : InputFormat) (x : Path × Nat) : Res (Option FileSource) :=
  createFromPathC mk (hist (2 + 2 * x.2)) (hist (3 + 2 * x.2)) x.1 fmt

/-- Number of rows of a file, as far as it can be opened (as `fileRows`). -/
def numberedRows (open' : Path × Nat → Res (Option FileSource)) (x : Path × Nat) : Nat :=
  match open' x with
  | .ok (some f) => f.source.rows.length
  | _ => 0

/-- A multi-file source as rows (as `MultiFile.toFile`). -/
def MultiFile.toFileC (open' : Path × Nat → Res (Option FileSource)) (m : MultiFile (Path × Nat)) : FileSource :=
  ⟨m.header, toSource (MultiFile.nextRow open') ((match m.current with | some f => f.source.rows.length | none => 0) + (m.paths.map (numberedRows open')).sum + 1) m⟩

/-- A path as an input (`/repo/src/input/input_factory.rs:120-148`). -/
def createFromPathInputC (mk : World → Inputs FileSource) (hist : History) (path : Path) (fmt : InputFormat) : Res FileSource :=
  if (hist 0).isDir path then
    (filesInDir (hist 1).isDir ((hist 1).listing path)).bind fun paths =>
    (MultiFile.new (openNumbered mk hist fmt) paths.zipIdx none).bind fun m => .ok (m.toFileC (openNumbered mk hist fmt))
  else
    (createFromPathC mk (hist 2) (hist 3) path fmt).bind fun
      | some s => .ok s
      | none => .err (.io .other)

/-- `create_source_from_input` (`/repo/src/input/input_factory.rs:105-149`). -/
def createFromInputC (mk : World → Inputs FileSource) (hist : History) (i : Input) : Res FileSource :=
  match i.input with
  | .stdIn => (Previewer.new defaultBufSize (hist 0).stdin).bind fun p => createFromPreviewer (mk (hist 0)).dec (mk (hist 0)).factories p none i.format
  | .path p => createFromPathInputC mk hist (utf8Encode p) i.format

/-- The loop over the inputs in `setup_graph` (`/repo/src/chopper_cli.rs:128-131`); `hists` has the moments of each input. -/
def openInputsC (mk : World → Inputs FileSource) : (Nat → History) → List Input → Res (List FileSource)
  | _, [] => .ok []
  | hists, i :: is => (createFromInputC mk (hists 0) i).bind fun s => (openInputsC mk (fun k => hists (k + 1)) is).bind fun ss => .ok (s :: ss)

/-- `setup_graph` (`/repo/src/chopper_cli.rs:110-165`). -/
def setupGraphC (e : CliEnv) (hists : Nat → History) (inputs : List Input) (output : Option Str) (range : TimestampRange) (inCfg : CsvInputConfig e.csv.lib)
    (outCfg : CsvOutputConfig) : List Path × Res CliDriver :=
  match openInputsC (fun w => newInputs e.csv e.dec e.zip w (some inCfg) e.userFactories e.userTransports) hists inputs with
  | .ok ss =>
    match newHeaderSink e.sink e.out output outCfg with
    | (created, .ok f) =>
      (created, (newDriver e.csv.ov.checks .mergeJoin (inputs.length + 3) ss.length (cliChains inputs.length f) (ss.map (·.header))).bind fun g =>
        .ok ⟨ss.map (·.source), g, range⟩)
    | (created, .err x) => (created, .err x)
    | (created, .panic) => (created, .panic)
    | (created, .diverge) => (created, .diverge)
  | .err x => ([], .err x)
  | .panic => ([], .panic)
  | .diverge => ([], .diverge)

/-- `parse_cli_args` (`/repo/src/chopper_cli.rs:34-108`). -/
def parseCliArgsC (e : CliEnv) (hists : Nat → History) (a : CliArgs) : List Path × Res CliDriver :=
  match parseSettings e a with
  | .ok s => setupGraphC e hists s.inputs a.output s.range s.inCfg s.outCfg
  | .err x => ([], .err x)
  | .panic => ([], .panic)
  | .diverge => ([], .diverge)

/-- `chopper_cli` (`/repo/src/chopper_cli.rs:25-32`) while the inputs change. `e.world` is not used. -/
def chopperCliC (e : CliEnv) (hists : Nat → History) (a : CliArgs) : CliRun :=
  match parseCliArgsC e hists a with
  | (created, .ok d) => let r := d.drive e.sink; ⟨created, some r.1, r.2⟩
  | (created, .err x) => ⟨created, none, .err x⟩
  | (created, .panic) => ⟨created, none, .panic⟩
  | (created, .diverge) => ⟨created, none, .diverge⟩

end Chopper
