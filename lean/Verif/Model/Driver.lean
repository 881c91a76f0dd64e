import Verif.Model.Graph

/-!
# Sources, row buffers and the driver loop
(`/repo/src/driver/source_row_buffer.rs`, `/repo/src/driver/driver.rs`)
-/
namespace Chopper

/-- How a source ends once its rows are exhausted. -/
inductive Ending where
  | eof
  | fail (e : Err)
  | crash
deriving DecidableEq, Repr

/-- `trait Source` (`/repo/src/chopper/chopper.rs:11-14`): any finite source is determined by the rows it will
still deliver and by how it ends.  (Infinite sources: `Model/Live`.) -/
structure Source where
  rows : List Row
  ending : Ending := .eof
deriving DecidableEq, Repr

/-- `Source::next_row` (`/repo/src/chopper/chopper.rs:13`). -/
def Source.nextRow (s : Source) : Res (Option Row) × Source :=
  match s.rows with
  | r :: rs => (.ok (some r), { s with rows := rs })
  | [] =>
    match s.ending with
    | .eof => (.ok none, s)
    | .fail e => (.err e, s)
    | .crash => (.panic, s)

/-- `enum Action` (`/repo/src/driver/source_row_buffer.rs:60-65`). -/
inductive Action where
  | stop | write | skip
deriving DecidableEq, Repr

/-- `filter_data_range` (`/repo/src/driver/source_row_buffer.rs:67-75`). -/
def filterDataRange (range : TimestampRange) (ts : Nanos) : Action :=
  match range.endTs with
  | some e =>
    if e ≤ ts then .stop
    else match range.beginTs with
      | none => .write
      | some b => if b ≤ ts then .write else .skip
  | none =>
    match range.beginTs with
    | none => .write
    | some b => if b ≤ ts then .write else .skip

/-- `match_next_row` (`/repo/src/driver/source_row_buffer.rs:77-96`), by recursion on the rows still to come
(each `Skip` consumes one). -/
def matchNextRow (range : TimestampRange) : List Row → Ending → Res (Option Row) × Source
  | [], .eof => (.ok none, ⟨[], .eof⟩)
  | [], .fail e => (.err e, ⟨[], .fail e⟩)
  | [], .crash => (.panic, ⟨[], .crash⟩)
  | r :: rs, e =>
    match filterDataRange range r.timestamp with
    | .stop => (.ok none, ⟨rs, e⟩)
    | .write => (.ok (some r), ⟨rs, e⟩)
    | .skip => matchNextRow range rs e

/-- `SourceRowBuffer` (`/repo/src/driver/source_row_buffer.rs:5-10`). -/
structure RowBuffer where
  source : Source
  chain : ChainId
  timestamp : Nanos
  row : Option Row
deriving Repr

/-- `SourceRowBuffer::new` (`/repo/src/driver/source_row_buffer.rs:13-29`): note timestamp 0 when there is no row. -/
def RowBuffer.new (s : Source) (chain : ChainId) (range : TimestampRange) : Res RowBuffer :=
  match matchNextRow range s.rows s.ending with
  | (.ok (some r), s') => .ok ⟨s', chain, r.timestamp, some r⟩
  | (.ok none, s') => .ok ⟨s', chain, 0, none⟩
  | (.err e, _) => .err e
  | (.panic, _) => .panic
  | (.diverge, _) => .diverge

/-- `SourceRowBuffer::has_next` (`/repo/src/driver/source_row_buffer.rs:48-57`). -/
def RowBuffer.hasNext (b : RowBuffer) (range : TimestampRange) : Res Bool × RowBuffer :=
  match matchNextRow range b.source.rows b.source.ending with
  | (.ok (some r), s') => (.ok true, { b with source := s', timestamp := r.timestamp, row := some r })
  | (.ok none, s') => (.ok false, { b with source := s' })
  | (.err e, s') => (.err e, { b with source := s' })
  | (.panic, s') => (.panic, { b with source := s' })
  | (.diverge, s') => (.diverge, { b with source := s' })

/-- `Driver::get_row_buffers` (`/repo/src/driver/driver.rs:63-70`): sources are popped from the END of the vector
while chain ids are counted up from 0.  `popped` is the vector in popping order, i.e. reversed. -/
def getRowBuffersFrom (range : TimestampRange) : ChainId → List Source → Res (List RowBuffer)
  | _, [] => .ok []
  | i, s :: popped => do
    let b ← RowBuffer.new s i range
    let bs ← getRowBuffersFrom range (i + 1) popped
    pure (b :: bs)

/-- `Driver::get_row_buffers` (`/repo/src/driver/driver.rs:63-70`). -/
def getRowBuffers (range : TimestampRange) (sources : List Source) : Res (List RowBuffer) :=
  getRowBuffersFrom range 0 sources.reverse

/-- Scan for the minimum: `idx`/`best` is the best so far, `j` the index of the head of the list.
`Iterator::min_by` keeps the earlier element on ties. -/
def minIndexFrom (idx : Nat) (best : Nanos) (j : Nat) : List RowBuffer → Nat
  | [] => idx
  | b :: bs =>
    if b.timestamp < best then minIndexFrom j b.timestamp (j + 1) bs
    else minIndexFrom idx best (j + 1) bs

/-- `Driver::get_next_buffer_index` (`/repo/src/driver/driver.rs:73-80`); `none` = `unwrap` of an empty minimum. -/
def nextBufferIndex : List RowBuffer → Option Nat
  | [] => none
  | b :: bs => some (minIndexFrom 0 b.timestamp 1 bs)

/-- The body of the `while` loop of `Driver::drive` (`/repo/src/driver/driver.rs:41-59`), for arbitrary
`process` (= `process_row(chain, 0, row)`) and `flush` (= `flush(chain, 0)`) actions on a state `G`.
One unit of fuel per iteration. -/
def driveLoop {G : Type} (process : ChainId → Row → G → G × Res Unit) (flush : ChainId → G → G × Res Unit)
    (range : TimestampRange) : Nat → List RowBuffer → G → G × Res Unit
  | 0, [], g => (g, .ok ())
  | 0, _ :: _, g => (g, .diverge)
  | fuel + 1, bufs, g =>
    match nextBufferIndex bufs with
    | none => (g, .ok ())                       -- buffer_len == 0: loop ends
    | some i =>
      match bufs[i]? with
      | none => (g, .panic)
      | some b =>
        match b.row with
        | none => (g, .panic)                   -- `row().clone().unwrap()`
        | some row =>
          match process b.chain row g with
          | (g', .ok ()) =>
            match b.hasNext range with
            | (.ok true, b') => driveLoop process flush range fuel (bufs.set i b') g'
            | (.ok false, _) =>
              match flush b.chain g' with
              | (g'', .ok ()) => driveLoop process flush range fuel (bufs.eraseIdx i) g''
              | (g'', r) => (g'', r)
            | (.err e, _) => (g', .err e)
            | (.panic, _) => (g', .panic)
            | (.diverge, _) => (g', .diverge)
          | (g', r) => (g', r)

/-- `Driver::drive` (`/repo/src/driver/driver.rs:35-61`). -/
def drive {G : Type} (process : ChainId → Row → G → G × Res Unit) (flush : ChainId → G → G × Res Unit)
    (range : TimestampRange) (fuel : Nat) (sources : List Source) (g : G) : G × Res Unit :=
  match getRowBuffers range sources with
  | .ok bufs => driveLoop process flush range fuel bufs g
  | .err e => (g, .err e)
  | .panic => (g, .panic)
  | .diverge => (g, .diverge)

/-- `Driver::drive` on a data graph: `process_row` and `flush` of `/repo/src/driver/driver.rs:82-140` as actions. -/
def driveGraph {S : Type} (ops : SinkOps S) (range : TimestampRange) (gfuel fuel : Nat)
    (sources : List Source) (g : DGraph S) : DGraph S × Res Unit :=
  drive (fun c r g => processRow ops gfuel c 0 r g) (fun c g => flushFrom ops gfuel c 0 g) range fuel sources g

end Chopper
