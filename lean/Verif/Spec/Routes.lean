import Verif.Spec.Graph
import Verif.Spec.Driver

/-!
# Specification vocabulary: the routes of a graph
-/
namespace Chopper.Spec
open Chopper

variable {S : Type}

/-- A place in a graph: chain and node. -/
abbrev Place := Nat × Nat

/-- `Routes chains t c i rs`: `rs` lists every way a row can take from node `i` of chain `c` to the place `t`, each given by the sinks it passes before `t`.
A chain that is split or merged into several times is listed as often. The order is the order of the graph: targets first, then the rest of the chain. -/
inductive Routes (chains : List (DChain S)) (t : Place) : Nat → Nat → List (List Place) → Prop
  | done {c i ch} : chains[c]? = some ch → ch[i]? = none → Routes chains t c i []
  | sink {c i ch s rs} : chains[c]? = some ch → ch[i]? = some (.sink s) → Routes chains t c (i + 1) rs →
      Routes chains t c i ((if (c, i) = t then [[]] else []) ++ rs.map ((c, i) :: ·))
  | merge {c i ch d rs rs'} : chains[c]? = some ch → ch[i]? = some (.merge d) → Routes chains t d 0 rs → Routes chains t c (i + 1) rs' →
      Routes chains t c i (rs ++ rs')
  | split {c i : Nat} {ch : DChain S} {ds : List Nat} {rss : List (List (List Place))} {rs' : List (List Place)} : chains[c]? = some ch → ch[i]? = some (.split ds) → rss.length = ds.length →
      (∀ (j : Nat) (d : Nat) (rs : List (List Place)), ds[j]? = some d → rss[j]? = some rs → Routes chains t d 0 rs) → Routes chains t c (i + 1) rs' →
      Routes chains t c i (rss.flatten ++ rs')

/-- A row sent through the sinks of a route, `f p row` being what the sink at `p` makes of a row. -/
def along (f : Place → Row → List Row) : List Place → Row → List Row
  | [], row => [row]
  | p :: ps, row => (f p row).flatMap (along f ps)

/-- `Took ops s rows s'`: a sink in state `s` that is given these rows one after the other, and flushed any number of times in between and after, is in state `s'`. -/
inductive Took (ops : SinkOps S) : S → List Row → S → Prop
  | start (s : S) : Took ops s [] s
  | write {s s1 s2 rows r out} : Took ops s rows s1 → ops.write s1 r = (s2, .ok out) → Took ops s (rows ++ [r]) s2
  | flush {s s1 s2 rows} : Took ops s rows s1 → ops.flush s1 = (s2, .ok ()) → Took ops s rows s2

/-- What the sinks do is described by `f`: whenever the sink at `p`, in a state it can be in (`inv`), accepts a row, it passes on `f p row`. -/
structure Acts (ops : SinkOps S) (inv : Place → S → Prop) (f : Place → Row → List Row) : Prop where
  write : ∀ p s row s' rows, inv p s → ops.write s row = (s', .ok rows) → rows = f p row ∧ inv p s'
  flush : ∀ p s s', inv p s → ops.flush s = (s', .ok ()) → inv p s'

end Chopper.Spec
