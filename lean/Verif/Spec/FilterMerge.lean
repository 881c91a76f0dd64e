import Verif.Spec.Filter
import Verif.Spec.Driver
import Verif.Spec.Graph

/-!
# Specification vocabulary: several filtered inputs merged towards one output
-/
namespace Chopper.Spec
open Chopper

/-- A built-in filter as the user asks for it. -/
inductive Filter where
  | equal (name : Str) (v : FieldValue)
  | greater (name : Str) (v : FieldValue)
  | delete (name : Str)

/-- The node a filter is put into a graph as. -/
def Filter.node : Filter → HNode BSink
  | .equal name v => .sink (equalHeader name v)
  | .greater name v => .sink (greaterHeader name v)
  | .delete name => .sink (deleteHeader name)

/-- `Passes f h row out`: a filter for a table with header `h` turns `row` into `out` (`none`: the row is dropped). Rows that cannot be
compared (or have no such column) are not related to anything. -/
inductive Passes : Filter → Header → Row → Option Row → Prop
  | equalKeep {name v h row i x} : FirstCol name h.names i → row.values[i]? = some x → EqualValues x v →
      Passes (.equal name v) h row (some row)
  | equalDrop {name v h row i x} : FirstCol name h.names i → row.values[i]? = some x → ¬ EqualValues x v →
      (kindOf x ≠ kindOf v ∨ Supported x) → Passes (.equal name v) h row none
  | greaterKeep {name v h row i x} : FirstCol name h.names i → row.values[i]? = some x → LessThan v x →
      Passes (.greater name v) h row (some row)
  | greaterDrop {name v h row i x} : FirstCol name h.names i → row.values[i]? = some x → ¬ LessThan v x →
      kindOf x = kindOf v → Supported x → Passes (.greater name v) h row none
  | delete {name h row i} : FirstCol name h.names i → i < row.values.length →
      Passes (.delete name) h row (some ⟨row.timestamp, row.values.eraseIdx i⟩)

/-- The header behind a filter. -/
inductive HeaderAfter : Filter → Header → Header → Prop
  | equal {name v h} : HeaderAfter (.equal name v) h h
  | greater {name v h} : HeaderAfter (.greater name v) h h
  | delete {name h i} : FirstCol name h.names i → HeaderAfter (.delete name) h ⟨h.names.eraseIdx i, h.types.eraseIdx i⟩

/-- A row sent through filters one after the other, for a table with header `h`. -/
inductive Through : List Filter → Header → Row → Option Row → Prop
  | done {h row} : Through [] h row (some row)
  | dropped {f fs h row} : Passes f h row none → Through (f :: fs) h row none
  | next {f fs h h' row row' out} : Passes f h row (some row') → HeaderAfter f h h' → Through fs h' row' out →
      Through (f :: fs) h row out

/-- Chain `c` holds the filters `fss[c]` and leads to the last chain, which holds a merge and an output. -/
def filterMergeChains (fss : List (List Filter)) : List (HChain BSink) :=
  fss.map (fun fs => fs.map Filter.node ++ [.merge fss.length]) ++ [[.mergeSink none fss.length, .sink writerHeader]]

end Chopper.Spec
