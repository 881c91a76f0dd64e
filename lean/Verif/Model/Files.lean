import Verif.Model.ZipFaults
import Verif.Model.Cli

/-!
# Inputs on files whose seeks and reads can fail while they are tested for being zip archives

The functions on the way from the command line to `is_zip` as in `Model/Input` and `Model/Cli`, with the operations on the seekable file of `Model/ZipFaults`: `fl p` says what
happens to the operations after the file at `p` has been opened by the seekable transport (each time it is opened). The streaming transports open the file for themselves; what their
reads do is part of `World`.
-/
namespace Chopper

variable {α : Type}

/-- `create_source_from_path`, the zip part (`/repo/src/input/single_file.rs:55-68`). -/
def createFromZipF (inp : Inputs α) (fl : Path → Faults) (path : Path) (fmt : InputFormat) : Res (Option α) :=
  (createSeekable inp.seekable path).bind fun
    | none => .ok none
    | some file =>
      (isZipF file (0, fl path)).bind fun (z, s) =>
        if z then
          (openZipF inp.zip file s).bind fun ((r, name), _) =>
          (Previewer.new defaultBufSize r.asInner).bind fun p =>
          (createFromPreviewer inp.dec inp.factories p (some name) fmt).bind fun s => .ok (some s)
        else .ok none

/-- `SingleFileInputFactory::create_source_from_path` (`/repo/src/input/single_file.rs:49-83`). -/
def createFromPathF (inp : Inputs α) (fl : Path → Faults) (path : Path) (fmt : InputFormat) : Res (Option α) :=
  (createFromZipF inp fl path fmt).bind fun
    | some s => .ok (some s)
    | none => createFromStream inp path fmt

/-- A path as an input (`/repo/src/input/input_factory.rs:120-148`). -/
def createFromPathInputF (inp : Inputs FileSource) (w : World) (fl : Path → Faults) (path : Path) (fmt : InputFormat) : Res FileSource :=
  if w.isDir path then
    (openDir (fun p => createFromPathF inp fl p fmt) w.isDir (w.listing path)).bind fun m => .ok (m.toFile fun p => createFromPathF inp fl p fmt)
  else
    (createFromPathF inp fl path fmt).bind fun
      | some s => .ok s
      | none => .err (.io .other)

/-- `create_source_from_input` (`/repo/src/input/input_factory.rs:105-149`). -/
def createFromInputF (inp : Inputs FileSource) (w : World) (fl : Path → Faults) (i : Input) : Res FileSource :=
  match i.input with
  | .stdIn => (Previewer.new defaultBufSize w.stdin).bind fun p => createFromPreviewer inp.dec inp.factories p none i.format
  | .path p => createFromPathInputF inp w fl (utf8Encode p) i.format

/-- The loop over the inputs in `setup_graph` (`/repo/src/chopper_cli.rs:128-131`). -/
def openInputsF (inp : Inputs FileSource) (w : World) (fl : Path → Faults) : List Input → Res (List FileSource)
  | [] => .ok []
  | i :: is => (createFromInputF inp w fl i).bind fun s => (openInputsF inp w fl is).bind fun ss => .ok (s :: ss)

/-- `setup_graph` (`/repo/src/chopper_cli.rs:110-165`). -/
def setupGraphF (e : CliEnv) (fl : Path → Faults) (inputs : List Input) (output : Option Str) (range : TimestampRange) (inCfg : CsvInputConfig e.csv.lib)
    (outCfg : CsvOutputConfig) : List Path × Res CliDriver :=
  match openInputsF (newInputs e.csv e.dec e.zip e.world (some inCfg) e.userFactories e.userTransports) e.world fl inputs with
  | .ok ss =>
    match newHeaderSink e.sink e.out output outCfg with
    | (created, .ok f) =>
      (created, (newDriver e.csv.ov.checks .mergeJoin (inputs.length + 3) ss.length (cliChains inputs.length f) (ss.map (·.header))).bind fun g =>
        .ok ⟨ss.map (·.source), g, range⟩)
    | (created, .err x) => (created, .err x)
    | (created, .panic) => (created, .panic)
    | (created, .diverge) => (created, .diverge)
  | .err x => ([], .err x)
  | .panic => ([], .panic)
  | .diverge => ([], .diverge)

/-- `parse_cli_args` (`/repo/src/chopper_cli.rs:34-108`). -/
def parseCliArgsF (e : CliEnv) (fl : Path → Faults) (a : CliArgs) : List Path × Res CliDriver :=
  match parseSettings e a with
  | .ok s => setupGraphF e fl s.inputs a.output s.range s.inCfg s.outCfg
  | .err x => ([], .err x)
  | .panic => ([], .panic)
  | .diverge => ([], .diverge)

/-- `chopper_cli` (`/repo/src/chopper_cli.rs:25-32`). -/
def chopperCliF (e : CliEnv) (fl : Path → Faults) (a : CliArgs) : CliRun :=
  match parseCliArgsF e fl a with
  | (created, .ok d) => let r := d.drive e.sink; ⟨created, some r.1, r.2⟩
  | (created, .err x) => ⟨created, none, .err x⟩
  | (created, .panic) => ⟨created, none, .panic⟩
  | (created, .diverge) => ⟨created, none, .diverge⟩

end Chopper
