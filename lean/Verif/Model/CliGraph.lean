import Verif.Model.HeaderGraph

/-!
# The graph of the command line tool (`/repo/src/chopper_cli.rs:110-165`)
-/
namespace Chopper

variable {D : Type}

/-- The header chains `setup_graph` builds for `k` inputs and the output header sink `f` (`/repo/src/chopper_cli.rs:125-157`): with
several inputs, one chain `[Merge(k)]` per input and a last chain `[MergeHeaderSink, HeaderSink]`; with one input just `[HeaderSink]`. -/
def cliChains (k : Nat) (f : Header → Res (D × Header)) : List (HChain D) :=
  if 1 < k then List.replicate k [.merge k] ++ [[.mergeSink none k, .sink f]] else [[.sink f]]

end Chopper
