import Verif.Spec.FilterMerge

/-!
# Specification vocabulary: one input split to several filtered outputs
-/
namespace Chopper.Spec
open Chopper

/-- A sequence of rows sent through filters: what comes out, in order. -/
inductive ThroughAll (fs : List Filter) (h : Header) : List Row → List Row → Prop
  | nil : ThroughAll fs h [] []
  | keep {row row' rows out} : Through fs h row (some row') → ThroughAll fs h rows out → ThroughAll fs h (row :: rows) (row' :: out)
  | drop {row rows out} : Through fs h row none → ThroughAll fs h rows out → ThroughAll fs h (row :: rows) out

/-- Chain 0 is a split to the chains `1 … n`; chain `k + 1` holds the filters `fss[k]` and an output. -/
def splitChains (fss : List (List Filter)) : List (HChain BSink) :=
  [.splitSink (List.range' 1 fss.length) fss.length] :: fss.map (fun fs => fs.map Filter.node ++ [.sink writerHeader])

end Chopper.Spec
