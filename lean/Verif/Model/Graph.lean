import Verif.Model.Types

/-!
# Data graph and row/flush traversal (`/repo/src/chopper/data_graph.rs`, `/repo/src/driver/driver.rs`)
-/
namespace Chopper

/-- `trait DataSink` (`/repo/src/chopper/chopper.rs:27-45`): any behaviour of a sink with state `S`.
`write` models `write_row`, called with exactly one row; its result is the content of `io_rows` afterwards. -/
structure SinkOps (S : Type) where
  write : S → Row → S × Res (List Row)
  flush : S → S × Res Unit

/-- `enum DataNode` (`/repo/src/chopper/data_graph.rs:5-9`). -/
inductive DNode (S : Type) where
  | sink (s : S)
  | merge (next : ChainId)
  | split (next : List ChainId)
deriving DecidableEq, Repr

/-- `DataChain` (`/repo/src/chopper/data_graph.rs:11-13`). -/
abbrev DChain (S : Type) := List (DNode S)

/-- What happens at a sink, in order (ghost: the code keeps no such log). -/
inductive Event where
  | write (chain : ChainId) (node : NodeId) (row : Row)
  | flush (chain : ChainId) (node : NodeId)
deriving DecidableEq, Repr

/-- `DataGraph` (`/repo/src/chopper/data_graph.rs:15-17`), extended by a ghost log of sink calls. -/
structure DGraph (S : Type) where
  chains : List (DChain S)
  log : List Event := []
deriving Repr

variable {S : Type}

/-- Replace the state of the sink at `(c, i)`; models mutation through `get_chain_node_mut`
(`/repo/src/chopper/data_graph.rs:56-58`). -/
def DGraph.setSink (g : DGraph S) (c : ChainId) (i : NodeId) (s : S) (e : Event) : DGraph S :=
  { chains := g.chains.modify c (fun ch => ch.set i (.sink s)), log := g.log ++ [e] }

/-- Run `f` on each element in order, threading the graph, stopping at the first failure
(`?` inside the loops of `/repo/src/driver/driver.rs:95-99,109-111,132-134`). -/
def runAll {α G : Type} (f : α → G → G × Res Unit) : List α → G → G × Res Unit
  | [], g => (g, .ok ())
  | a :: as, g =>
    match f a g with
    | (g', .ok ()) => runAll f as g'
    | (g', r) => (g', r)

/-- `Driver::process_row` (`/repo/src/driver/driver.rs:82-117`), from node `i` of chain `c` on.
One unit of fuel is used per step to the next node or chain; `diverge` = out of fuel.
The loop `for node_id in node_id..chain_node_count` is the recursion on `i + 1`; "all but the last row recursively, the last
iteratively" (lines 95-99) is `runAll` over all rows, which performs the same calls in the same order. -/
def processRow (ops : SinkOps S) : Nat → ChainId → NodeId → Row → DGraph S → DGraph S × Res Unit
  | 0, _, _, _, g => (g, .diverge)
  | fuel + 1, c, i, row, g =>
    match g.chains[c]? with
    | none => (g, .panic)
    | some ch =>
      match ch[i]? with
      | none => (g, .ok ())
      | some (.sink s) =>
        let (s', r) := ops.write s row
        let g' := g.setSink c i s' (.write c i row)
        match r with
        | .ok rows => runAll (fun r g => processRow ops fuel c (i + 1) r g) rows g'
        | .err e => (g', .err e)
        | .panic => (g', .panic)
        | .diverge => (g', .diverge)
      | some (.merge d) =>
        match processRow ops fuel d 0 row g with
        | (g', .ok ()) => processRow ops fuel c (i + 1) row g'
        | (g', r) => (g', r)
      | some (.split ds) =>
        match runAll (fun d g => processRow ops fuel d 0 row g) ds g with
        | (g', .ok ()) => processRow ops fuel c (i + 1) row g'
        | (g', r) => (g', r)

/-- `Driver::flush` (`/repo/src/driver/driver.rs:119-140`), from node `i` of chain `c` on. -/
def flushFrom (ops : SinkOps S) : Nat → ChainId → NodeId → DGraph S → DGraph S × Res Unit
  | 0, _, _, g => (g, .diverge)
  | fuel + 1, c, i, g =>
    match g.chains[c]? with
    | none => (g, .panic)
    | some ch =>
      match ch[i]? with
      | none => (g, .ok ())
      | some (.sink s) =>
        let (s', r) := ops.flush s
        let g' := g.setSink c i s' (.flush c i)
        match r with
        | .ok () => flushFrom ops fuel c (i + 1) g'
        | .err e => (g', .err e)
        | .panic => (g', .panic)
        | .diverge => (g', .diverge)
      | some (.merge d) =>
        match flushFrom ops fuel d 0 g with
        | (g', .ok ()) => flushFrom ops fuel c (i + 1) g'
        | (g', r) => (g', r)
      | some (.split ds) =>
        match runAll (fun d g => flushFrom ops fuel d 0 g) ds g with
        | (g', .ok ()) => flushFrom ops fuel c (i + 1) g'
        | (g', r) => (g', r)

end Chopper
