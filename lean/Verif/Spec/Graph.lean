import Verif.Model.Graph

/-!
# Specification vocabulary for row delivery in a graph
-/
namespace Chopper.Spec
open Chopper

variable {S : Type}

/-! ## One sink, a chain of sinks -/

/-- A sink fed with a sequence of rows, one after the other: its final state and everything it emitted, in order;
`none` if some write fails. -/
def runSink (ops : SinkOps S) : S → List Row → Option (S × List Row)
  | s, [] => some (s, [])
  | s, r :: rs =>
    match ops.write s r with
    | (s', .ok out) => (runSink ops s' rs).map (fun p => (p.1, out ++ p.2))
    | _ => none

/-- Composition of sinks, stage by stage: the first sink gets all the rows, the second sink gets everything the first one
emitted, and so on.  For each sink: its final state and the rows it received.  `none` if some write fails. -/
def stages (ops : SinkOps S) : List S → List Row → Option (List (S × List Row))
  | [], _ => some []
  | s :: ss, rows =>
    match runSink ops s rows with
    | some (s', out) => (stages ops ss out).map (fun l => (s', rows) :: l)
    | none => none

/-- Rows written to sink `(c, i)` according to a log. -/
def written (c i : Nat) (log : List Event) : List Row :=
  log.filterMap (fun e => match e with
    | .write c' i' r => if c' = c ∧ i' = i then some r else none
    | .flush _ _ => none)

/-! ## Delivery in a graph, as a to-do list -/

/-- `(c, i, row)`: `row` is to be delivered to node `i` of chain `c` and onwards. -/
abbrev Job := Nat × Nat × Row

/-- Replace the state of sink `(c, i)`. -/
def putSink (chains : List (DChain S)) (c i : Nat) (s : S) : List (DChain S) :=
  chains.modify c (fun ch => ch.set i (.sink s))

/-- `Deliver ops todo chains chains' events`: working off the to-do list (first entry first) successfully turns the sink
states `chains` into `chains'` and calls the sinks as recorded in `events`.

* past the end of a chain nothing happens;
* at a sink the row is written, then every emitted row is carried through the rest of the chain, one completely after the
  other, before anything else on the list;
* at a merge the row goes to the merged chain and then on along the own chain;
* at a split the row goes to every listed chain in order and then on along the own chain. -/
inductive Deliver (ops : SinkOps S) : List Job → List (DChain S) → List (DChain S) → List Event → Prop
  | nil {gs} : Deliver ops [] gs gs []
  | done {c i row todo gs gs' ev ch} : gs[c]? = some ch → ch[i]? = none →
      Deliver ops todo gs gs' ev → Deliver ops ((c, i, row) :: todo) gs gs' ev
  | sink {c i row todo gs gs' ev ch s s' rows} : gs[c]? = some ch → ch[i]? = some (.sink s) →
      ops.write s row = (s', .ok rows) →
      Deliver ops (rows.map (fun r => (c, i + 1, r)) ++ todo) (putSink gs c i s') gs' ev →
      Deliver ops ((c, i, row) :: todo) gs gs' (.write c i row :: ev)
  | merge {c i row todo gs gs' ev ch d} : gs[c]? = some ch → ch[i]? = some (.merge d) →
      Deliver ops ((d, 0, row) :: (c, i + 1, row) :: todo) gs gs' ev → Deliver ops ((c, i, row) :: todo) gs gs' ev
  | split {c i row todo gs gs' ev ch ds} : gs[c]? = some ch → ch[i]? = some (.split ds) →
      Deliver ops (ds.map (fun d => (d, 0, row)) ++ (c, i + 1, row) :: todo) gs gs' ev →
      Deliver ops ((c, i, row) :: todo) gs gs' ev

/-- Sink `(c', i')` lies on a path starting at node `i` of chain `c`. -/
inductive OnPath (chains : List (DChain S)) : Nat → Nat → Nat → Nat → Prop
  | here {c i ch s} : chains[c]? = some ch → ch[i]? = some (.sink s) → OnPath chains c i c i
  | next {c i c' i' ch n} : chains[c]? = some ch → ch[i]? = some n → OnPath chains c (i + 1) c' i' →
      OnPath chains c i c' i'
  | merge {c i c' i' ch d} : chains[c]? = some ch → ch[i]? = some (.merge d) → OnPath chains d 0 c' i' →
      OnPath chains c i c' i'
  | split {c i c' i' ch ds d} : chains[c]? = some ch → ch[i]? = some (.split ds) → d ∈ ds → OnPath chains d 0 c' i' →
      OnPath chains c i c' i'

/-- No cycle: chains can be ranked so that every merge and split leads to a chain of smaller rank. -/
def Acyclic (chains : List (DChain S)) (rank : Nat → Nat) : Prop :=
  ∀ (c : Nat) (ch : DChain S), chains[c]? = some ch →
    (∀ d, DNode.merge d ∈ ch → rank d < rank c) ∧ (∀ ds, DNode.split ds ∈ ch → ∀ d ∈ ds, rank d < rank c)

/-- The state of sink `(c, i)`, if there is one. -/
def sinkAt (chains : List (DChain S)) (c i : Nat) : Option S :=
  match chains[c]? with
  | some ch => match ch[i]? with
    | some (.sink s) => some s
    | _ => none
  | none => none

end Chopper.Spec
