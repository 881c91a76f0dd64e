import Verif.Model.Driver

/-!
# The driver on sources of any kind (`/repo/src/driver/driver.rs`, `/repo/src/driver/source_row_buffer.rs`)

`Model/Driver` takes a source to be the list of rows it will deliver.  Here a source is what the code knows about it, `trait Source`: something that is asked for
the next row and answers.  It may go on for ever, and its answers may depend on what the program has done meanwhile (an input file that the program itself is writing to).
-/
namespace Chopper

/-- `Source::next_row` (`/repo/src/chopper/chopper.rs:11-14`) of sources with states `σ`, when the rest of the world (the graph with its files) is in state `G`. -/
abbrev Next (σ G : Type) := σ → G → Res (Option Row) × σ

variable {σ G : Type}

/-- `match_next_row` (`/repo/src/driver/source_row_buffer.rs:77-96`).  One unit of fuel per row: the loop does not end if all the rows of an endless input are before the range. -/
def liveMatch (next : Next σ G) (range : TimestampRange) : Nat → σ → G → Res (Option Row) × σ
  | 0, s, _ => (.diverge, s)
  | fuel + 1, s, g =>
    match next s g with
    | (.ok none, s') => (.ok none, s')
    | (.ok (some r), s') =>
      match filterDataRange range r.timestamp with
      | .stop => (.ok none, s')
      | .write => (.ok (some r), s')
      | .skip => liveMatch next range fuel s' g
    | (.err e, s') => (.err e, s')
    | (.panic, s') => (.panic, s')
    | (.diverge, s') => (.diverge, s')

/-- `SourceRowBuffer` (`/repo/src/driver/source_row_buffer.rs:5-10`). -/
structure LiveBuffer (σ : Type) where
  source : σ
  chain : ChainId
  timestamp : Nanos
  row : Option Row

/-- `SourceRowBuffer::new` (`/repo/src/driver/source_row_buffer.rs:13-29`). -/
def LiveBuffer.new (next : Next σ G) (range : TimestampRange) (sfuel : Nat) (s : σ) (chain : ChainId) (g : G) : Res (LiveBuffer σ) :=
  match liveMatch next range sfuel s g with
  | (.ok (some r), s') => .ok ⟨s', chain, r.timestamp, some r⟩
  | (.ok none, s') => .ok ⟨s', chain, 0, none⟩
  | (.err e, _) => .err e
  | (.panic, _) => .panic
  | (.diverge, _) => .diverge

/-- `SourceRowBuffer::has_next` (`/repo/src/driver/source_row_buffer.rs:48-57`). -/
def LiveBuffer.hasNext (next : Next σ G) (range : TimestampRange) (sfuel : Nat) (b : LiveBuffer σ) (g : G) : Res Bool × LiveBuffer σ :=
  match liveMatch next range sfuel b.source g with
  | (.ok (some r), s') => (.ok true, ⟨s', b.chain, r.timestamp, some r⟩)
  | (.ok none, s') => (.ok false, ⟨s', b.chain, b.timestamp, b.row⟩)
  | (.err e, s') => (.err e, ⟨s', b.chain, b.timestamp, b.row⟩)
  | (.panic, s') => (.panic, ⟨s', b.chain, b.timestamp, b.row⟩)
  | (.diverge, s') => (.diverge, ⟨s', b.chain, b.timestamp, b.row⟩)

/-- `Driver::get_row_buffers` (`/repo/src/driver/driver.rs:63-70`); the list is the vector in popping order. -/
def liveRowBuffersFrom (next : Next σ G) (range : TimestampRange) (sfuel : Nat) (g : G) : ChainId → List σ → Res (List (LiveBuffer σ))
  | _, [] => .ok []
  | i, s :: popped =>
    (LiveBuffer.new next range sfuel s i g).bind fun b => (liveRowBuffersFrom next range sfuel g (i + 1) popped).bind fun bs => .ok (b :: bs)

/-- The loop of `Iterator::min_by` as in `minIndexFrom`. -/
def liveMinFrom (idx : Nat) (best : Nanos) (j : Nat) : List (LiveBuffer σ) → Nat
  | [] => idx
  | b :: bs => if b.timestamp < best then liveMinFrom j b.timestamp (j + 1) bs else liveMinFrom idx best (j + 1) bs

/-- `Driver::get_next_buffer_index` (`/repo/src/driver/driver.rs:73-80`). -/
def liveNextIndex : List (LiveBuffer σ) → Option Nat
  | [] => none
  | b :: bs => some (liveMinFrom 0 b.timestamp 1 bs)

/-- The `while` loop of `Driver::drive` (`/repo/src/driver/driver.rs:41-59`), one unit of fuel per iteration: the next row of a source is asked for after its last one has been
processed. -/
def liveLoop (next : Next σ G) (process : ChainId → Row → G → G × Res Unit) (flush : ChainId → G → G × Res Unit) (range : TimestampRange) (sfuel : Nat) :
    Nat → List (LiveBuffer σ) → G → G × Res Unit
  | 0, [], g => (g, .ok ())
  | 0, _ :: _, g => (g, .diverge)
  | fuel + 1, bufs, g =>
    match liveNextIndex bufs with
    | none => (g, .ok ())
    | some i =>
      match bufs[i]? with
      | none => (g, .panic)
      | some b =>
        match b.row with
        | none => (g, .panic)
        | some row =>
          match process b.chain row g with
          | (g', .ok ()) =>
            match b.hasNext next range sfuel g' with
            | (.ok true, b') => liveLoop next process flush range sfuel fuel (bufs.set i b') g'
            | (.ok false, _) =>
              match flush b.chain g' with
              | (g'', .ok ()) => liveLoop next process flush range sfuel fuel (bufs.eraseIdx i) g''
              | (g'', r) => (g'', r)
            | (.err e, _) => (g', .err e)
            | (.panic, _) => (g', .panic)
            | (.diverge, _) => (g', .diverge)
          | (g', r) => (g', r)

/-- `Driver::drive` (`/repo/src/driver/driver.rs:35-61`). -/
def liveDrive (next : Next σ G) (process : ChainId → Row → G → G × Res Unit) (flush : ChainId → G → G × Res Unit) (range : TimestampRange) (sfuel fuel : Nat)
    (sources : List σ) (g : G) : G × Res Unit :=
  match liveRowBuffersFrom next range sfuel g 0 sources.reverse with
  | .ok bufs => liveLoop next process flush range sfuel fuel bufs g
  | .err e => (g, .err e)
  | .panic => (g, .panic)
  | .diverge => (g, .diverge)

/-- `Driver::drive` on a data graph. -/
def liveGraph {S : Type} (next : Next σ (DGraph S)) (ops : SinkOps S) (range : TimestampRange) (gfuel sfuel fuel : Nat) (sources : List σ) (g : DGraph S) : DGraph S × Res Unit :=
  liveDrive next (fun c r g => processRow ops gfuel c 0 r g) (fun c g => flushFrom ops gfuel c 0 g) range sfuel fuel sources g

/-! ## Endless inputs -/

/-- A source without an end: its `n`-th row, and how many have been delivered. -/
structure Endless where
  row : Nat → Row
  pos : Nat := 0

/-- Its `next_row`. -/
def Endless.next : Next Endless G := fun s _ => (.ok (some (s.row s.pos)), { s with pos := s.pos + 1 })

end Chopper
