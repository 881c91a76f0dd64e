import Verif.Model.Driver

/-!
# Specification vocabulary for the driver: ranges, calls, order

Nothing here refers to buffers, indices or loops.
-/
namespace Chopper.Spec

open Chopper

/-- `ts` is not before the begin of the range. -/
def notBefore (range : TimestampRange) (ts : Nanos) : Bool :=
  match range.beginTs with
  | none => true
  | some b => decide (b ≤ ts)

/-- `ts` is before the (exclusive) end of the range. -/
def beforeEnd (range : TimestampRange) (ts : Nanos) : Bool :=
  match range.endTs with
  | none => true
  | some e => decide (ts < e)

/-- `begin ≤ ts < end`. -/
def inRange (range : TimestampRange) (ts : Nanos) : Bool := notBefore range ts && beforeEnd range ts

/-- Rows taken from an arbitrary (possibly unsorted) input: those not before begin, among the rows that precede the
first row at or after the end. -/
def selected (range : TimestampRange) (rows : List Row) : List Row :=
  (rows.takeWhile (fun r => beforeEnd range r.timestamp)).filter (fun r => notBefore range r.timestamp)

/-- How an input ends, seen through the range: if a row at or after the end occurs, reading stops there, normally. -/
def endingWithin (range : TimestampRange) (s : Source) : Ending :=
  if s.rows.all (fun r => beforeEnd range r.timestamp) then s.ending else .eof

/-- Time order of rows. -/
def tsLe (a b : Row) : Bool := decide (a.timestamp ≤ b.timestamp)

/-- Non-decreasing in time. -/
def Sorted (rows : List Row) : Prop := rows.Pairwise (fun a b => a.timestamp ≤ b.timestamp)

/-- What the driver asks the graph to do. -/
inductive Call where
  | feed (chain : ChainId) (row : Row)
  | flush (chain : ChainId)
deriving DecidableEq, Repr

/-- The row fed by a call, with its chain. -/
def Call.fed? : Call → Option (ChainId × Row)
  | .feed c r => some (c, r)
  | .flush _ => none

/-- All rows fed, in order, with their chain. -/
def fed (calls : List Call) : List (ChainId × Row) := calls.filterMap Call.fed?

/-- The rows fed to chain `c`, in order. -/
def fedTo (c : ChainId) (calls : List Call) : List Row :=
  (fed calls).filterMap (fun p => if p.1 = c then some p.2 else none)

/-- Perform the calls one after the other, stopping at the first failure; if none fails, the outcome is `out`. -/
def perform {G : Type} (process : ChainId → Row → G → G × Res Unit) (flush : ChainId → G → G × Res Unit) :
    List Call → Res Unit → G → G × Res Unit
  | [], out, g => (g, out)
  | .feed c r :: cs, out, g =>
    match process c r g with
    | (g', .ok ()) => perform process flush cs out g'
    | (g', r) => (g', r)
  | .flush c :: cs, out, g =>
    match flush c g with
    | (g', .ok ()) => perform process flush cs out g'
    | (g', r) => (g', r)

/-- The calls the driver makes, observed by a graph that accepts everything and records the calls: the model's driver run with
the recording actions.  `fuel` bounds the number of loop iterations. -/
def calls (range : TimestampRange) (fuel : Nat) (sources : List Source) : List Call × Res Unit :=
  drive (fun c r l => (l ++ [.feed c r], .ok ())) (fun c l => (l ++ [.flush c], .ok ())) range fuel sources []

/-- Number of rows held by all inputs. -/
def totalRows (sources : List Source) : Nat := (sources.map (fun s => s.rows.length)).sum

/-- The rows selected from each input, in the order in which the driver takes the inputs (last input first), each tagged with
the chain it is processed by. -/
def selectedInputs (range : TimestampRange) (sources : List Source) : List (List (ChainId × Row)) :=
  sources.reverse.zipIdx.map (fun (s, i) => (selected range s.rows).map (fun r => (i, r)))

/-- Stable insertion by time: `x` goes before the first element whose time is not earlier. -/
def insertByTime (x : ChainId × Row) : List (ChainId × Row) → List (ChainId × Row)
  | [] => [x]
  | y :: ys => if x.2.timestamp ≤ y.2.timestamp then x :: y :: ys else y :: insertByTime x ys

/-- Stable sort by time (insertion sort from the right: elements with equal time keep their order). -/
def stableSort : List (ChainId × Row) → List (ChainId × Row)
  | [] => []
  | x :: xs => insertByTime x (stableSort xs)

end Chopper.Spec
