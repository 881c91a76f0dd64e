import Verif.Model.LibGraph
import Verif.Spec.Routes

/-!
# Specification vocabulary: output files in any graph
-/
namespace Chopper.Spec
open Chopper

/-- `Writes e s d text`: `s` is an output, made for a header, that writes to the device `d`; given rows, its file is to have the text `text rows` (with the result of
turning them into text). -/
inductive Writes (e : SinkEnv) : CliSink → Device → (List Row → List Byte × Res Unit) → Prop
  | csv {cfg d h s h'} : csvSinkHeader e cfg d h = .ok (s, h') →
      Writes e s d (fun rows => (utf8Encode (csvFile e.ff cfg h rows).1, (csvFile e.ff cfg h rows).2))
  | dc {d h s h'} : dcSinkHeader e d h = .ok (s, h') → Writes e s d (fun rows => ((dcWriteFile e.ov h rows).out, (dcWriteFile e.ov h rows).res))

/-- The device of an output as it is now (what is still in the buffer has not reached it). -/
def deviceNow : CliSink → Option Device
  | .mergeJoin => none
  | .csv _ w => some w.dev
  | .dc _ w => some w.dev

/-- What the sink at a place makes of a row it accepts: filters what they let through, outputs the row itself. -/
def libAt (chains : List (DChain LibSink)) (p : Place) (row : Row) : List Row :=
  match sinkAt chains p.1 p.2 with
  | some (.node b) => match (b.write row).2 with
    | .ok rows => rows
    | _ => []
  | some (.out _) => [row]
  | none => []

/-- The rows that the routes `R` lead to a place, for the rows read, in the order in which they were read. -/
def routed (chains : List (DChain LibSink)) (R : Nat → List (List Place)) (cs : List Call) : List Row :=
  (fed cs).flatMap fun p => (R p.1).flatMap fun q => along (libAt chains) q p.2

/-- The graph after the first calls a run makes (`k` of them, fewer if one failed). -/
def after {S : Type} (ops : SinkOps S) (gfuel : Nat) (cs : List Call) (k : Nat) (g : DGraph S) : DGraph S :=
  (perform (fun c r g => processRow ops gfuel c 0 r g) (fun c g => flushFrom ops gfuel c 0 g) (cs.take k) (.ok ()) g).1

end Chopper.Spec
