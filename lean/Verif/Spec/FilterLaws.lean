import Verif.Spec.FilterMerge
import Verif.Model.Driver

/-!
# Specification vocabulary for the order of filters (C106)
-/
namespace Chopper.Spec
open Chopper

/-- The column a filter asks for. -/
def Filter.name : Filter → Str
  | .equal n _ => n
  | .greater n _ => n
  | .delete n => n

/-- Does it delete its column? -/
def Filter.deletes : Filter → Bool
  | .delete _ => true
  | _ => false

/-- Neither filter deletes the column the other one asks for. -/
def Independent (a b : Filter) : Prop := (a.deletes = true ∨ b.deletes = true) → ¬ SameName a.name b.name

/-- A run of the graph that filters each input by its own filters and merges what is left (`examples/filter_and_merge.rs`; chain `c` has the filters `fss[c]` and the
header `headers[c]`): setup accepts it, and it ends with `res`, leaving the graph `g'`. -/
structure FilterRun (fss : List (List Filter)) (headers : List Header) (range : TimestampRange) (sources : List Source) (g' : DGraph BSink) (res : Res Unit) : Prop where
  nonempty : fss ≠ []
  perHeader : headers.length = fss.length
  perSource : sources.length = fss.length
  run : ∃ dbg fuel g gfuel dfuel, processHeader dbg .mergeJoin fuel (filterMergeChains fss) headers = .ok g ∧
    (∀ fs ∈ fss, fs.length + 4 ≤ gfuel) ∧ totalRows sources + sources.length ≤ dfuel ∧ driveGraph builtinOps range gfuel dfuel sources g = (g', res)

/-- The rows the output got. -/
def Wrote (fss : List (List Filter)) (g' : DGraph BSink) (rows : List Row) : Prop := sinkAt g'.chains fss.length 1 = some (.writer rows)

end Chopper.Spec
