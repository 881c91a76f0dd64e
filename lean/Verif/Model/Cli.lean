import Verif.Model.Writer

/-!
# The command line tool (`/repo/src/chopper_cli.rs`, `/repo/src/error.rs`, `/repo/src/util/tz.rs`, `/repo/chop/src/main.rs`)
-/
namespace Chopper

/-! ## Arguments -/

/-- `chrono_tz::Tz`, as far as used: conversion of local times, and rendering of seconds and nanoseconds since 1970 with a format. -/
structure Zone (lib : DateLib) where
  fromLocal : lib.Naive → Option Instant
  render : Int → Nat → Str → Str

/-- The arguments as clap hands them over (`/repo/src/cli_app.rs`); `inputs` and `formats` are non-empty if present (`values_of`).
Simplification: clap's own parsing is not modelled; it exits by itself if it rejects the command line. -/
structure CliArgs where
  inputs : Option (List Str) := none
  formats : Option (List Str) := none
  output : Option Str := none
  timezone : Option Str := none
  beginTs : Option Str := none
  endTs : Option Str := none
  inDelimiter : Option Str := none
  /-- `value_t!` of a value that clap has checked -/
  hasHeader : YesNoAuto := .auto
  tsFmtDate : Option Str := none
  tsFmtTime : Option Str := none
  tsFmt : Option Str := none
  inEpoch : Option Str := none
  tsColDate : Option Str := none
  tsColTime : Option Str := none
  tsCol : Option Str := none
  outDelimiter : Str := [',']
  printTime : Str := ['y', 'e', 's']
  timeColName : Option Str := none
  outEpoch : Bool := false
  units : Option Str := some ['n', 's']

/-- The units clap lets through (`/repo/src/cli_app.rs:111,212`). -/
def unitNames : List Str := [['s'], ['m', 's'], ['u', 's'], ['n', 's']]

/-- What clap guarantees (`/repo/src/cli_app.rs`): `requires` (lines 165, 177, 193, 205), `possible_values` with and without `case_insensitive`
(lines 111, 145-146, 212), non-empty lists. `lower` is lower-casing. -/
structure CliArgs.Accepted (lower : Str → Str) (a : CliArgs) : Prop where
  inputs : a.inputs ≠ some []
  formats : a.formats ≠ some []
  fmtTime : a.tsFmtDate.isSome → a.tsFmtTime.isSome
  colTime : a.tsColDate.isSome → a.tsColTime.isSome
  inEpoch : ∀ u, a.inEpoch = some u → u ∈ unitNames
  units : ∀ u, a.units = some u → u ∈ unitNames
  printTime : lower a.printTime ∈ [['y', 'e', 's'], ['n', 'o']]

/-- `TimestampUnits::from_str` (`/repo/src/source/csv_timestamp.rs:37-45`). -/
def unitsFromStr (s : Str) : Res TimestampUnits :=
  if s = ['s'] then .ok .seconds
  else if s = ['m', 's'] then .ok .millis
  else if s = ['u', 's'] then .ok .micros
  else if s = ['n', 's'] then .ok .nanos
  else .panic

/-- `resolve_timezone` (`/repo/src/util/tz.rs:28-48`): `envVar` is `CHOPPER_TZ`, `map` the caller's names, `parse` the names `chrono_tz` knows. -/
def resolveTimezone {ζ : Type} (parse : Str → Option ζ) (map : Option (Str → Option ζ)) (envVar arg : Option Str) : Res (Option ζ) :=
  match (match arg with | some s => some s | none => envVar) with
  | none => .ok none
  | some name =>
    match map with
    | none => (Res.unwrap (parse name)).bind fun z => .ok (some z)
    | some m =>
      match m name with
      | some z => .ok (some z)
      | none => (Res.unwrap (parse name)).bind fun z => .ok (some z)

/-- One end of `TimestampRange::new` (`/repo/src/chopper/types.rs:26-33`). -/
def rangeElement (ov : Overflow) (lib : DateLib) (tz : ChopperTz lib) : Option Str → Res (Option Nanos)
  | none => .ok none
  | some t => (parseDatetimeRangeElement ov lib tz t).bind fun n => .ok (some n)

/-- `TimestampRange::new` (`/repo/src/chopper/types.rs:25-35`). -/
def TimestampRange.new (ov : Overflow) (lib : DateLib) (tz : ChopperTz lib) (b e : Option Str) : Res TimestampRange :=
  (rangeElement ov lib tz b).bind fun b => (rangeElement ov lib tz e).bind fun e => .ok ⟨b, e⟩

/-- One format (`/repo/src/chopper_cli.rs:57-61`). -/
def parseFormat (f : Str) : InputFormat := if f = ['a', 'u', 't', 'o'] then .auto else .extension f

/-- The formats (`/repo/src/chopper_cli.rs:52-64`). -/
def parseFormats : Option (List Str) → List InputFormat
  | none => [.auto]
  | some fs => fs.map parseFormat

/-- The loop over the inputs (`/repo/src/chopper_cli.rs:79-88`), from number `i` on; `last` is the last format. -/
def assignFormats (formats : List InputFormat) (last : InputFormat) : Nat → List Str → List Input
  | _, [] => []
  | i, p :: ps => ⟨.path p, match formats[i]? with | some f => f | none => last⟩ :: assignFormats formats last (i + 1) ps

/-- The inputs (`/repo/src/chopper_cli.rs:65-92`); an empty list fails one of the `assert!`s. -/
def parseInputs (a : CliArgs) : Res (List Input) :=
  let formats := parseFormats a.formats
  match formats.getLast?, a.inputs with
  | none, _ => .panic
  | some _, none => (Res.unwrap formats[0]?).bind fun f => .ok [⟨.stdIn, f⟩]
  | some last, some ps => if ps = [] then .panic else .ok (assignFormats formats last 0 ps)

/-- The timestamp format (`/repo/src/chopper_cli.rs:171-184`). -/
def parseTsFmt (a : CliArgs) : Res TimestampFmtConfig :=
  match a.tsFmtDate with
  | some d => (Res.unwrap a.tsFmtTime).bind fun t => .ok (.dateTimeExplicit d t)
  | none =>
    match a.tsFmt with
    | some f => .ok (.explicit f)
    | none =>
      match a.inEpoch with
      | some u => (unitsFromStr u).bind fun u => .ok (.epoch u)
      | none => .ok .auto

/-- `str::parse::<usize>().ok()`. -/
def parseUsize (s : Str) : Option Nat := (parseU64 s).map BitVec.toNat

/-- The timestamp column (`/repo/src/chopper_cli.rs:186-209`). -/
def parseTsCol (a : CliArgs) : Res TimestampColConfig :=
  match a.tsColDate with
  | none =>
    match a.tsCol with
    | none => .ok .auto
    | some s =>
      match parseUsize s with
      | some i => .ok (.index i)
      | none => .ok (.name s)
  | some d =>
    (Res.unwrap a.tsColTime).bind fun t =>
      match parseUsize d, parseUsize t with
      | some di, some ti => .ok (.dateTimeIndex di ti)
      | _, _ => .ok (.dateTimeName d t)

/-- `parse_csv_input_config` (`/repo/src/chopper_cli.rs:167-213`). -/
def parseCsvInputConfig {lib : DateLib} (a : CliArgs) (tz : ChopperTz lib) : Res (CsvInputConfig lib) :=
  (parseTsFmt a).bind fun fmt => (parseTsCol a).bind fun col => CsvInputConfig.new a.inDelimiter a.hasHeader col fmt tz

/-- `yes` or `no`, anything else is `unreachable!` (`/repo/src/chopper_cli.rs:217-221`). -/
def parsePrintTime (s : Str) : Res Bool :=
  if s = ['y', 'e', 's'] then .ok true else if s = ['n', 'o'] then .ok false else .panic

/-- The units of the output time column (`/repo/src/chopper_cli.rs:234-237`). -/
def parseOutUnits : Option Str → Res TimestampUnits
  | none => .ok .nanos
  | some u => unitsFromStr u

/-- `parse_csv_output_config` (`/repo/src/chopper_cli.rs:215-247`). -/
def parseCsvOutputConfig (a : CliArgs) (zone : Option (Int → Nat → Str → Str)) : Res CsvOutputConfig :=
  (parsePrintTime a.printTime).bind fun p =>
  (parseOutUnits a.units).bind fun u =>
    .ok (.new a.outDelimiter p a.timeColName (if a.outEpoch then .epoch else .humanReadable) u zone)

/-! ## Running -/

/-- Everything outside the tool. -/
structure CliEnv where
  csv : CsvEnv
  ff : FloatFmt
  ch : Chunking
  dec : Decoders
  zip : ZipLib
  world : World
  out : OutWorld
  /-- `Tz::from_str` -/
  tzParse : Str → Option (Zone csv.lib)
  /-- `CHOPPER_TZ` -/
  tzVar : Option Str
  /-- the arguments of `chopper_cli` -/
  tzMap : Option (Str → Option (Zone csv.lib))
  userFactories : List (Factory FileSource)
  userTransports : List (Transport Inner)

/-- What the sinks use of it. -/
def CliEnv.sink (e : CliEnv) : SinkEnv := ⟨e.ff, e.ch, e.csv.ov⟩

/-- Are overflow checks on? -/
def Overflow.checks : Overflow → Bool
  | .panics => true
  | .wraps => false

/-- The loop over the inputs in `setup_graph` (`/repo/src/chopper_cli.rs:128-131`). -/
def openInputs (inp : Inputs FileSource) (w : World) : List Input → Res (List FileSource)
  | [] => .ok []
  | i :: is => (createFromInput inp w i).bind fun s => (openInputs inp w is).bind fun ss => .ok (s :: ss)

/-- A driver that is set up (`Driver`, `/repo/src/driver/driver.rs:8-13`). -/
structure CliDriver where
  sources : List Source
  graph : DGraph CliSink
  range : TimestampRange

/-- `setup_graph` (`/repo/src/chopper_cli.rs:110-165`): the files created and the driver. The recursion depth `Driver::new` needs is at most the number of
chains plus one (C28). -/
def setupGraph (e : CliEnv) (inputs : List Input) (output : Option Str) (range : TimestampRange) (inCfg : CsvInputConfig e.csv.lib)
    (outCfg : CsvOutputConfig) : List Path × Res CliDriver :=
  match openInputs (newInputs e.csv e.dec e.zip e.world (some inCfg) e.userFactories e.userTransports) e.world inputs with
  | .ok ss =>
    match newHeaderSink e.sink e.out output outCfg with
    | (created, .ok f) =>
      (created, (newDriver e.csv.ov.checks .mergeJoin (inputs.length + 3) ss.length (cliChains inputs.length f) (ss.map (·.header))).bind fun g =>
        .ok ⟨ss.map (·.source), g, range⟩)
    | (created, .err x) => (created, .err x)
    | (created, .panic) => (created, .panic)
    | (created, .diverge) => (created, .diverge)
  | .err x => ([], .err x)
  | .panic => ([], .panic)
  | .diverge => ([], .diverge)

/-- The settings computed from the arguments before anything is opened. -/
structure CliSettings (lib : DateLib) where
  inputs : List Input
  range : TimestampRange
  inCfg : CsvInputConfig lib
  outCfg : CsvOutputConfig

/-- `parse_cli_args` up to the call of `setup_graph` (`/repo/src/chopper_cli.rs:39-97`). -/
def parseSettings (e : CliEnv) (a : CliArgs) : Res (CliSettings e.csv.lib) :=
  (resolveTimezone e.tzParse e.tzMap e.tzVar a.timezone).bind fun z =>
  (TimestampRange.new e.csv.ov e.csv.lib (z.map (·.fromLocal)) a.beginTs a.endTs).bind fun range =>
  (parseInputs a).bind fun inputs =>
  (parseCsvInputConfig a (z.map (·.fromLocal))).bind fun inCfg =>
  (parseCsvOutputConfig a (z.map (·.render))).bind fun outCfg => .ok ⟨inputs, range, inCfg, outCfg⟩

/-- `parse_cli_args` (`/repo/src/chopper_cli.rs:34-108`): the files created and the driver. -/
def parseCliArgs (e : CliEnv) (a : CliArgs) : List Path × Res CliDriver :=
  match parseSettings e a with
  | .ok s => setupGraph e s.inputs a.output s.range s.inCfg s.outCfg
  | .err x => ([], .err x)
  | .panic => ([], .panic)
  | .diverge => ([], .diverge)

/-- `drive` on the driver. The graph is at most five steps deep; the number of iterations is bounded by the rows and inputs (C24). -/
def CliDriver.drive (e : SinkEnv) (d : CliDriver) : DGraph CliSink × Res Unit :=
  driveGraph (cliOps e) d.range 5 ((d.sources.map fun s => s.rows.length).sum + d.sources.length) d.sources d.graph

/-- What a run leaves behind: the files created, the graph at the end if the driver was started, the result. -/
structure CliRun where
  created : List Path
  graph : Option (DGraph CliSink)
  result : Res Unit

/-- `chopper_cli` (`/repo/src/chopper_cli.rs:25-32`). -/
def chopperCli (e : CliEnv) (a : CliArgs) : CliRun :=
  match parseCliArgs e a with
  | (created, .ok d) => let r := d.drive e.sink; ⟨created, some r.1, r.2⟩
  | (created, .err x) => ⟨created, none, .err x⟩
  | (created, .panic) => ⟨created, none, .panic⟩
  | (created, .diverge) => ⟨created, none, .diverge⟩

/-- The file or standard output when the sinks have been dropped. -/
def CliSink.device : CliSink → Option Device
  | .mergeJoin => none
  | .csv _ w => some w.close
  | .dc _ w => some w.close

/-- The output device after the run, if the driver was started: the last sink of the last chain holds it. -/
def CliRun.output (r : CliRun) : Option Device :=
  r.graph.bind fun g => g.chains.getLast?.bind fun ch => ch.getLast?.bind fun
    | .sink s => s.device
    | _ => none

/-! ## Exit status -/

/-- The end of the process: status and what was written to standard error. -/
structure Exit where
  status : Nat
  stderr : Str
deriving DecidableEq, Repr

/-- `handle_drive_error` (`/repo/src/error.rs:104-120`); `text` renders foreign errors. A panic ends the process with status 101; what it prints is left out. -/
def handleDriveError (text : Err → Str) : Res Unit → Option Exit
  | .ok () => some ⟨0, []⟩
  | .err e =>
    some ⟨1, ['\n'] ++
      match e with
      | .io .brokenPipe => []
      | .custom s => ['E', 'r', 'r', 'o', 'r', ':', ' '] ++ s.toList ++ [' ', '\n']
      | e => text e ++ ['\n']⟩
  | .panic => some ⟨101, []⟩
  | .diverge => none

/-- `Error::exit` (`/repo/src/error.rs:31-41`); `clap::Error::exit` ends the process with status 1 (clap 2), after printing the message. -/
def errorExit (text : Err → Str) (e : Err) : Exit :=
  ⟨1,
    match e with
    | .io .brokenPipe => []
    | .custom s => ['E', 'r', 'r', 'o', 'r', ':', ' '] ++ s.toList ++ ['\n']
    | e => text e ++ ['\n']⟩

end Chopper
