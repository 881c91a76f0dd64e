import Verif.Model.Cli
import Verif.Model.Compressed
import Verif.Model.LibGraph

/-!
# The example program `filter_and_merge` (`/repo/examples/filter_and_merge.rs`)
-/
namespace Chopper

/-- The header chains (`/repo/examples/filter_and_merge.rs:43-64`), for any columns and values instead of those built in: two filters in front of a merge in front of the output `f`.
(`MergeJoin::new(2)` does not fail, `/repo/src/driver/merge_join.rs:12-24`.) -/
def filterMergeHeaderChains (colGt : Str) (vGt : FieldValue) (colEq : Str) (vEq : FieldValue) (f : Header → Res (CliSink × Header)) : List (HChain LibSink) :=
  [[.sink (nodeHeader (greaterHeader colGt vGt)), .merge 2],
   [.sink (nodeHeader (equalHeader colEq vEq)), .merge 2],
   [.mergeSink none 2, .sink (outHeader f)]]

/-- `setup_graph` (`/repo/examples/filter_and_merge.rs:23-69`), for any two paths, columns and values instead of those built in: the two inputs are opened (without CSV settings), the
output is standard output with the default CSV configuration. -/
def filterMergeSetup (e : CliEnv) (p1 p2 colGt : Str) (vGt : FieldValue) (colEq : Str) (vEq : FieldValue) : Res (List Source × DGraph LibSink) :=
  (openInputs (newInputs e.csv e.dec e.zip e.world none [] []) e.world [⟨.path p1, .auto⟩, ⟨.path p2, .auto⟩]).bind fun ss =>
  (newHeaderSink e.sink e.out none .newDefault).2.bind fun f =>
  (newDriver e.csv.ov.checks (.node .mergeJoin) 5 ss.length (filterMergeHeaderChains colGt vGt colEq vEq f) (ss.map (·.header))).bind fun g =>
  .ok (ss.map (·.source), g)

/-- What a run of such a program leaves behind: the graph at the end if the driver was started, and the result. -/
structure LibRun where
  graph : Option (DGraph LibSink)
  result : Res Unit

/-- `filter_and_merge` (`/repo/examples/filter_and_merge.rs:19-21`): the driver is run over the whole time (`TIMESTAMP_RANGE_ALL`, `/repo/src/chopper/types.rs:19-22`). -/
def filterMergeExample (e : CliEnv) (p1 p2 colGt : Str) (vGt : FieldValue) (colEq : Str) (vEq : FieldValue) : LibRun :=
  match filterMergeSetup e p1 p2 colGt vGt colEq vEq with
  | .ok (ss, g) =>
    let r := driveGraph (libOps e.sink) ⟨none, none⟩ 7 ((ss.map fun s => s.rows.length).sum + ss.length) ss g
    ⟨some r.1, r.2⟩
  | .err x => ⟨none, .err x⟩
  | .panic => ⟨none, .panic⟩
  | .diverge => ⟨none, .diverge⟩

/-- What standard output has received when the process is gone, if the driver was started. With `Ok` or `Err` the sinks are dropped, which writes out their buffers (`Drop for BufWriter`);
a comparison of unsuitable values ends the process at once (`process::exit`, `/repo/src/chopper/types.rs:108-156`). -/
def LibRun.stdout (r : LibRun) : Option Device :=
  match r.graph with
  | some g =>
    match (g.chains.getLast?.bind fun c => c.getLast?) with
    | some (.sink (.out (.csv _ w))) => if r.result = .panic then some w.dev else some w.close
    | _ => none
  | none => none

end Chopper
