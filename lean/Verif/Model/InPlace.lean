import Verif.Model.Live
import Verif.Model.Cli

/-!
# Runs whose output file is one of the inputs (`/repo/src/chopper_cli.rs`, `/repo/src/write/factory.rs`, `/repo/src/util/reader.rs`)

Inputs are opened, and the first bytes of them read, before the output is created (`/repo/src/chopper_cli.rs:126-130,152`); creating it empties the file
(`File::create` in `CSVSink::new` and `DCSink::new`, `/repo/src/write/factory.rs:17-24`).  The program goes on reading the same file, which then holds what has been written to it.
-/
namespace Chopper

variable {G : Type}

/-- The bytes that have reached the file of an output. -/
def sinkNow : CliSink → List Byte
  | .mergeJoin => []
  | .csv _ w => w.dev.taken
  | .dc _ w => w.dev.taken

/-- The bytes that have reached the output file of the tool: the last sink of the last chain (`/repo/src/chopper_cli.rs:144-157`). -/
def outputNow (g : DGraph CliSink) : List Byte :=
  match g.chains.getLast?.bind (·.getLast?) with
  | some (.sink s) => sinkNow s
  | _ => []

/-- What a source says after it has been asked `n` times (`Source::next_row`, `/repo/src/chopper/chopper.rs:13`). -/
def Source.later (s : Source) : Nat → Source
  | 0 => s
  | n + 1 => Source.later s.nextRow.2 n

/-- An opened input: one that has nothing to do with the output, or one that reads the output file.  Of the latter: what the rows of a file with given bytes are, the bytes
fetched from the file so far (they are in the buffers of the program or have been used, `/repo/src/util/reader.rs:11-16`), and how many rows it has been asked for. -/
inductive Reading where
  | fixed (s : Source)
  | inPlace (meaning : List Byte → Source) (seen : List Byte) (asked : Nat)

/-- `Source::next_row` (`/repo/src/chopper/chopper.rs:13`).  A source that reads the output file goes on at the place where it stopped: for it the file consists of the bytes
it has fetched and of those that stand behind that place now.  `fetch` says how many of these it takes into its buffers: any policy (the code asks for 8192 bytes at a time,
more if a single value is longer).  Simplification: reading the file in place does not fail. -/
def Reading.next (fetch : List Byte → Nat → List Byte → Nat) (content : G → List Byte) : Next Reading G
  | .fixed s, _ => (s.nextRow.1, .fixed s.nextRow.2)
  | .inPlace meaning seen n, g =>
    let behind := (content g).drop seen.length
    (((meaning (seen ++ behind)).later n).nextRow.1, .inPlace meaning (seen ++ behind.take (fetch seen n behind)) (n + 1))

/-- An input that is the output file too: what the rows of a file with given bytes are, and the bytes fetched when the output is created. -/
structure InPlaceFile where
  meaning : List Byte → Source
  seen : List Byte

/-- The inputs of a run, `none` for those that are not the output file. -/
def readings : List Source → List (Option InPlaceFile) → List Reading
  | [], _ => []
  | s :: ss, [] => .fixed s :: readings ss []
  | s :: ss, none :: ps => .fixed s :: readings ss ps
  | _ :: ss, some p :: ps => .inPlace p.meaning p.seen 0 :: readings ss ps

/-- `chopper_cli` (`/repo/src/chopper_cli.rs:25-32`) when some of the inputs are the output file: everything up to the start of the driver is as in `chopperCli` (it happens before
the output is created, or does not read the inputs any more); then the driver runs on sources that read the file as it is. -/
def chopperCliInPlace (e : CliEnv) (a : CliArgs) (fetch : List Byte → Nat → List Byte → Nat) (places : List (Option InPlaceFile)) (sfuel fuel : Nat) : CliRun :=
  match parseCliArgs e a with
  | (created, .ok d) =>
    let r := liveGraph (Reading.next fetch outputNow) (cliOps e.sink) d.range 5 sfuel fuel (readings d.sources places) d.graph
    ⟨created, some r.1, r.2⟩
  | (created, .err x) => ⟨created, none, .err x⟩
  | (created, .panic) => ⟨created, none, .panic⟩
  | (created, .diverge) => ⟨created, none, .diverge⟩

end Chopper
