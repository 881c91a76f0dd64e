import Verif.Model.Filter
import Verif.Model.Writer

/-!
# Graphs a library user builds: filters together with real output files
(`/repo/src/filter/*.rs`, `/repo/src/driver/merge_join.rs`, `/repo/src/write/csv_sink.rs`, `/repo/src/write/dc_sink.rs`)
-/
namespace Chopper

/-- The data sinks of such a graph: `Box<dyn DataSink>` (`/repo/src/chopper/chopper.rs:27-43`) is any of the built-in nodes, or an output with its file. -/
inductive LibSink where
  | node (b : BSink)
  | out (s : CliSink)

/-- `write_row`, dispatched to the sink. -/
def LibSink.write (e : SinkEnv) : LibSink → Row → LibSink × Res (List Row)
  | .node b, r => (.node (b.write r).1, (b.write r).2)
  | .out s, r => (.out (s.write e r).1, (s.write e r).2)

/-- `flush`, dispatched to the sink; the built-in nodes have the default one (`/repo/src/chopper/chopper.rs:40-42`). -/
def LibSink.flush : LibSink → LibSink × Res Unit
  | .node b => (.node b, .ok ())
  | .out s => (.out s.flush.1, s.flush.2)

/-- The sinks as actions. -/
def libOps (e : SinkEnv) : SinkOps LibSink := ⟨LibSink.write e, LibSink.flush⟩

/-- Header sinks of the built-in nodes, in such a graph (`Box<dyn HeaderSink>`, `/repo/src/chopper/chopper.rs:23-25`). -/
def nodeHeader (f : Header → Res (BSink × Header)) (h : Header) : Res (LibSink × Header) := (f h).map fun p => (.node p.1, p.2)

/-- Header sinks of the outputs, in such a graph. -/
def outHeader (f : Header → Res (CliSink × Header)) (h : Header) : Res (LibSink × Header) := (f h).map fun p => (.out p.1, p.2)

end Chopper
