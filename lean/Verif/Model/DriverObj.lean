import Verif.Model.Driver

/-!
# The driver as an object that is called more than once (`/repo/src/driver/driver.rs`)

`drive` takes `&mut self`: it removes the sources from the driver and leaves the graph in it, so that a second call starts from what
the first one left.
-/
namespace Chopper

/-- `struct Driver` (`/repo/src/driver/driver.rs:8-12`). -/
structure DriverObj (S : Type) where
  sources : List Source
  graph : DGraph S
  range : TimestampRange

/-- `Driver::get_row_buffers` (`/repo/src/driver/driver.rs:63-70`), with the sources that are still in the driver afterwards.  The first list is
the vector in popping order, i.e. reversed; the number of rounds is fixed before the first `pop`, so that every round finds a source to pop. -/
def popRowBuffers (range : TimestampRange) : ChainId → List Source → List Source × Res (List RowBuffer)
  | _, [] => ([], .ok [])
  | i, s :: popped =>
    match RowBuffer.new s i range with
    | .ok b =>
      match popRowBuffers range (i + 1) popped with
      | (left, .ok bs) => (left, .ok (b :: bs))
      | (left, .err e) => (left, .err e)
      | (left, .panic) => (left, .panic)
      | (left, .diverge) => (left, .diverge)
    | .err e => (popped, .err e)
    | .panic => (popped, .panic)
    | .diverge => (popped, .diverge)

/-- `Driver::drive` (`/repo/src/driver/driver.rs:35-61`) with the driver it leaves behind.  The row buffers, and with them the sources that were
popped, are dropped when the call returns. -/
def DriverObj.drive {S : Type} (ops : SinkOps S) (gfuel fuel : Nat) (d : DriverObj S) : DriverObj S × Res Unit :=
  match popRowBuffers d.range 0 d.sources.reverse with
  | (left, .ok bufs) =>
    match driveLoop (fun c r g => processRow ops gfuel c 0 r g) (fun c g => flushFrom ops gfuel c 0 g) d.range fuel bufs d.graph with
    | (g', r) => (⟨left.reverse, g', d.range⟩, r)
  | (left, .err e) => (⟨left.reverse, d.graph, d.range⟩, .err e)
  | (left, .panic) => (⟨left.reverse, d.graph, d.range⟩, .panic)
  | (left, .diverge) => (⟨left.reverse, d.graph, d.range⟩, .diverge)

/-- The driver after it has been called `n` times, whatever the calls returned. -/
def DriverObj.after {S : Type} (ops : SinkOps S) (gfuel fuel : Nat) : Nat → DriverObj S → DriverObj S
  | 0, d => d
  | n + 1, d => DriverObj.after ops gfuel fuel n (d.drive ops gfuel fuel).1

end Chopper
