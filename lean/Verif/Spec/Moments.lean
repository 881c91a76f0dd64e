import Verif.Spec.Routes

/-!
# Specification vocabulary: what a sink has been asked to do so far
-/
namespace Chopper.Spec
open Chopper

variable {S : Type}

/-- What the sink at node `i` of chain `c` was asked to do, in order, according to a log: `some row` for a row written to it, `none` for a flush. -/
def turns (c i : Nat) (log : List Event) : List (Option Row) :=
  log.filterMap (fun e => match e with
    | .write c' i' r => if c' = c ∧ i' = i then some (some r) else none
    | .flush c' i' => if c' = c ∧ i' = i then some none else none)

/-- The rows among them. -/
def rowTurns (ts : List (Option Row)) : List Row := ts.filterMap id

/-- `Did ops s ts s'`: a sink in state `s` did all this without a failure and is then in state `s'`. -/
inductive Did (ops : SinkOps S) : S → List (Option Row) → S → Prop
  | start (s : S) : Did ops s [] s
  | write {s s1 s2 ts r out} : Did ops s ts s1 → ops.write s1 r = (s2, .ok out) → Did ops s (ts ++ [some r]) s2
  | flush {s s1 s2 ts} : Did ops s ts s1 → ops.flush s1 = (s2, .ok ()) → Did ops s (ts ++ [none]) s2

/-- The same, but the last thing may have failed in any way. -/
inductive Tried (ops : SinkOps S) : S → List (Option Row) → S → Prop
  | did {s s' ts} : Did ops s ts s' → Tried ops s ts s'
  | write {s s1 s2 ts r x} : Did ops s ts s1 → ops.write s1 r = (s2, x) → Tried ops s (ts ++ [some r]) s2
  | flush {s s1 s2 ts x} : Did ops s ts s1 → ops.flush s1 = (s2, x) → Tried ops s (ts ++ [none]) s2

end Chopper.Spec
