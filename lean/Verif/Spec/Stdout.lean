import Verif.Model.Stdout
import Verif.Spec.Driver

/-!
# Specification: runs that write CSV as sequences of operations on a writer
-/
namespace Chopper.Spec
open Chopper

/-- The bytes written. -/
def opBytes : List Op → List Byte
  | [] => []
  | .write bs :: ops => bs ++ opBytes ops
  | .flush :: ops => opBytes ops

/-- What a CSV sink does with its writer when the driver makes these calls (`CSVSink::write_row`, `flush`, `/repo/src/write/csv_sink.rs:65-137`), and how it ends. -/
def csvOps (e : SinkEnv) (cfg : CsvOutputConfig) : List Call → Res Unit → List Op × Res Unit
  | [], out => ([], out)
  | .feed _ r :: cs, out =>
    let row := (e.ch.cut (utf8Encode (csvRowText e.ff cfg r).1)).map Op.write
    match (csvRowText e.ff cfg r).2 with
    | .ok () => (row ++ (csvOps e cfg cs out).1, (csvOps e cfg cs out).2)
    | x => (row, x)
  | .flush _ :: cs, out => (.flush :: (csvOps e cfg cs out).1, (csvOps e cfg cs out).2)

/-- The header line (`CSVSink::process_header`, `/repo/src/write/csv_sink.rs:57-61`). -/
def headerOps (e : SinkEnv) (cfg : CsvOutputConfig) (h : Header) : List Op := (e.ch.cut (utf8Encode (csvHeaderText cfg h.names))).map Op.write

/-- A run that writes CSV to standard output, with the line buffer: header line, then the calls of the driver; the descriptor at the end of the process, and the result. -/
def stdoutRun (e : SinkEnv) (cfg : CsvOutputConfig) (h : Header) (cs : List Call) (out : Res Unit) (fd : Device) : StdoutWriter × Res Unit :=
  (StdoutWriter.new fd).runOps (headerOps e cfg h ++ (csvOps e cfg cs out).1) (csvOps e cfg cs out).2

end Chopper.Spec
