import Verif.Model.Cli

/-!
# The example program `compressed` (`/repo/examples/compressed.rs`)
-/
namespace Chopper

/-- `CSVOutputConfig::new_default` (`/repo/src/source/csv_configs.rs:147-156`). -/
def CsvOutputConfig.newDefault : CsvOutputConfig := .new [','] true none .epoch .nanos none

/-- `setup_graph` (`/repo/examples/compressed.rs:24-56`), for any path instead of the one built in. The configuration of the CSV input is
`CSVInputConfig::new(None, Auto, TimestampConfig(Index(0), Auto, no zone))`; there are no user supplied parts; the graph is one chain with the output, which is standard
output; the range is `TIMESTAMP_RANGE_ALL`. -/
def compressedSetup (e : CliEnv) (path : Str) : Res CliDriver :=
  (CsvInputConfig.new (lib := e.csv.lib) none .auto (.index 0) .auto none).bind fun cfg =>
  (createFromInput (newInputs e.csv e.dec e.zip e.world (some cfg) [] []) e.world ⟨.path path, .auto⟩).bind fun s =>
  (newHeaderSink e.sink e.out none .newDefault).2.bind fun f =>
  (newDriver e.csv.ov.checks .mergeJoin 4 1 [[.sink f]] [s.header]).bind fun g => .ok ⟨[s.source], g, ⟨none, none⟩⟩

/-- `compressed_example` (`/repo/examples/compressed.rs:20-22`). -/
def compressedExample (e : CliEnv) (path : Str) : CliRun :=
  match compressedSetup e path with
  | .ok d => let r := d.drive e.sink; ⟨[], some r.1, r.2⟩
  | .err x => ⟨[], none, .err x⟩
  | .panic => ⟨[], none, .panic⟩
  | .diverge => ⟨[], none, .diverge⟩

end Chopper
