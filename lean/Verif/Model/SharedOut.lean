import Verif.Model.Writer
import Verif.Model.Cli

/-!
# Outputs that share standard output (`/repo/examples/split.rs`)

In `Model/Graph` every sink has a state of its own.  Here the sinks also share something: the device that is standard output.  The traversal of the graph is that of `Model/Graph` with the
shared part passed along (`processRowIO_pure` in `Proofs/SharedOut` shows that it is the same one if nothing is shared).
-/
namespace Chopper

/-- Sinks that share a state `σ` besides their own state `S` (`trait DataSink`, `/repo/src/chopper/chopper.rs:27-45`). -/
structure IoOps (S σ : Type) where
  write : S → Row → σ → S × σ × Res (List Row)
  flush : S → σ → S × σ × Res Unit

variable {S σ : Type}

/-- `Driver::process_row` (`/repo/src/driver/driver.rs:82-117`), as `processRow`, with a shared state. -/
def processRowIO (ops : IoOps S σ) : Nat → ChainId → NodeId → Row → DGraph S × σ → (DGraph S × σ) × Res Unit
  | 0, _, _, _, g => (g, .diverge)
  | fuel + 1, c, i, row, g =>
    match g.1.chains[c]? with
    | none => (g, .panic)
    | some ch =>
      match ch[i]? with
      | none => (g, .ok ())
      | some (.sink s) =>
        let o := ops.write s row g.2
        let g' := (g.1.setSink c i o.1 (.write c i row), o.2.1)
        match o.2.2 with
        | .ok rows => runAll (fun r g => processRowIO ops fuel c (i + 1) r g) rows g'
        | .err e => (g', .err e)
        | .panic => (g', .panic)
        | .diverge => (g', .diverge)
      | some (.merge d) =>
        match processRowIO ops fuel d 0 row g with
        | (g', .ok ()) => processRowIO ops fuel c (i + 1) row g'
        | (g', r) => (g', r)
      | some (.split ds) =>
        match runAll (fun d g => processRowIO ops fuel d 0 row g) ds g with
        | (g', .ok ()) => processRowIO ops fuel c (i + 1) row g'
        | (g', r) => (g', r)

/-- `Driver::flush` (`/repo/src/driver/driver.rs:119-140`), as `flushFrom`, with a shared state. -/
def flushFromIO (ops : IoOps S σ) : Nat → ChainId → NodeId → DGraph S × σ → (DGraph S × σ) × Res Unit
  | 0, _, _, g => (g, .diverge)
  | fuel + 1, c, i, g =>
    match g.1.chains[c]? with
    | none => (g, .panic)
    | some ch =>
      match ch[i]? with
      | none => (g, .ok ())
      | some (.sink s) =>
        let o := ops.flush s g.2
        let g' := (g.1.setSink c i o.1 (.flush c i), o.2.1)
        match o.2.2 with
        | .ok () => flushFromIO ops fuel c (i + 1) g'
        | .err e => (g', .err e)
        | .panic => (g', .panic)
        | .diverge => (g', .diverge)
      | some (.merge d) =>
        match flushFromIO ops fuel d 0 g with
        | (g', .ok ()) => flushFromIO ops fuel c (i + 1) g'
        | (g', r) => (g', r)
      | some (.split ds) =>
        match runAll (fun d g => flushFromIO ops fuel d 0 g) ds g with
        | (g', .ok ()) => flushFromIO ops fuel c (i + 1) g'
        | (g', r) => (g', r)

/-- `Driver::drive` (`/repo/src/driver/driver.rs:35-61`) on a graph with a shared state. -/
def driveGraphIO (ops : IoOps S σ) (range : TimestampRange) (gfuel fuel : Nat) (sources : List Source) (g : DGraph S × σ) : (DGraph S × σ) × Res Unit :=
  drive (fun c r g => processRowIO ops gfuel c 0 r g) (fun c g => flushFromIO ops gfuel c 0 g) range fuel sources g

/-- The sinks of a graph whose outputs all go to standard output: each `CSVSink` (`/repo/src/write/csv_sink.rs:11-14`) has a `BufWriter` with a buffer of its own around the common device. -/
inductive StdoutSink where
  | mergeJoin
  | csv (cfg : CsvOutputConfig) (buf : List Byte)

/-- `write_row`: as `CliSink.write`, the device being the shared one. -/
def StdoutSink.write (e : SinkEnv) : StdoutSink → Row → Device → StdoutSink × Device × Res (List Row)
  | .mergeJoin, r, d => (.mergeJoin, d, .ok [r])
  | .csv cfg buf, r, d =>
    let t := csvRowText e.ff cfg r
    let o := (⟨defaultBufSize, buf, d⟩ : BufWriter).emit e.ch (utf8Encode t.1) (t.2.map fun _ => [r])
    (.csv cfg o.1.buf, o.1.dev, o.2)

/-- `flush`: as `CliSink.flush`, the device being the shared one. -/
def StdoutSink.flush : StdoutSink → Device → StdoutSink × Device × Res Unit
  | .mergeJoin, d => (.mergeJoin, d, .ok ())
  | .csv cfg buf, d => let o := (⟨defaultBufSize, buf, d⟩ : BufWriter).flush; (.csv cfg o.1.buf, o.1.dev, o.2)

/-- The sinks as actions. -/
def stdoutOps (e : SinkEnv) : IoOps StdoutSink Device := ⟨StdoutSink.write e, StdoutSink.flush⟩

/-- `CSVSink::process_header` (`/repo/src/write/csv_sink.rs:57-61`) on standard output, first part: the header line the sink is going to write. It is written by `writeHeaderNodes`. -/
def stdoutHeader (cfg : CsvOutputConfig) (h : Header) : Res (StdoutSink × Header) := .ok (.csv cfg (utf8Encode (csvHeaderText cfg h.names)), h)

/-- A sink whose header was not processed has written nothing. -/
def unwritten : DNode StdoutSink → DNode StdoutSink
  | .sink (.csv cfg _) => .sink (.csv cfg [])
  | n => n

/-- `CSVSink::process_header`, second part (`write_csv_header`, `/repo/src/write/csv_sink.rs:36-53`): the header line goes to the (still empty) buffer, and on to the common device if it does not fit.
The first failure stops the construction of the driver. -/
def writeHeaderNodes (e : SinkEnv) : List (DNode StdoutSink) → Device → List (DNode StdoutSink) × Device × Res Unit
  | [], d => ([], d, .ok ())
  | .sink (.csv cfg text) :: ns, d =>
    let o := (BufWriter.new d).emit e.ch text (.ok ())
    match o.2 with
    | .ok () => let r := writeHeaderNodes e ns o.1.dev; (.sink (.csv cfg o.1.buf) :: r.1, r.2)
    | x => (.sink (.csv cfg o.1.buf) :: ns.map unwritten, o.1.dev, x)
  | n :: ns, d => let r := writeHeaderNodes e ns d; (n :: r.1, r.2)

/-- The header lines of all chains. Simplification: chain by chain; in the example this is the order in which the driver processes the headers. -/
def writeHeaders (e : SinkEnv) : List (DChain StdoutSink) → Device → List (DChain StdoutSink) × Device × Res Unit
  | [], d => ([], d, .ok ())
  | c :: cs, d =>
    let r := writeHeaderNodes e c d
    match r.2.2 with
    | .ok () => let q := writeHeaders e cs r.2.1; (r.1 :: q.1, q.2)
    | x => (r.1 :: cs.map (·.map unwritten), r.2.1, x)

/-- The header chains of `/repo/examples/split.rs:33-48` (with any two output configurations instead of the default one): a split to two outputs. -/
def splitExampleChains (cfg1 cfg2 : CsvOutputConfig) : List (HChain StdoutSink) :=
  [[.splitSink [1, 2] 2], [.sink (stdoutHeader cfg1)], [.sink (stdoutHeader cfg2)]]

/-- `Drop for BufWriter` on the shared device: one last `flush_buf`, its result ignored. -/
def StdoutSink.close : StdoutSink → Device → Device
  | .mergeJoin, d => d
  | .csv _ buf, d => (⟨defaultBufSize, buf, d⟩ : BufWriter).close

/-- The sinks of a graph are dropped, chain by chain. -/
def closeAll (chains : List (DChain StdoutSink)) (d : Device) : Device :=
  chains.flatten.foldl (fun d n => match n with
    | .sink s => s.close d
    | _ => d) d

/-- `/repo/examples/split.rs:33-57` behind the opening of the input, for any input and any two output configurations: standard output at the end, and the result. The range is
`TIMESTAMP_RANGE_ALL` (`/repo/src/chopper/types.rs:19-22`). -/
def splitOutputs (e : SinkEnv) (cfg1 cfg2 : CsvOutputConfig) (f : FileSource) (stdout : Device) : Device × Res Unit :=
  match newDriver e.ov.checks .mergeJoin 3 1 (splitExampleChains cfg1 cfg2) [f.header] with
  | .ok g =>
    let q := writeHeaders e g.chains stdout
    match q.2.2 with
    | .ok () =>
      let r := driveGraphIO (stdoutOps e) .all 4 (f.source.rows.length + 1) [f.source] ({ g with chains := q.1 }, q.2.1)
      (closeAll r.1.1.chains r.1.2, r.2)
    | x => (closeAll q.1 q.2.1, x)
  | .err x => (stdout, .err x)
  | .panic => (stdout, .panic)
  | .diverge => (stdout, .diverge)

/-- `examples/split.rs` (`/repo/examples/split.rs:9-57`), for any input path and any two output configurations. -/
def splitExample (env : CsvEnv) (dec : Decoders) (zip : ZipLib) (w : World) (e : SinkEnv) (path : Str) (cfg1 cfg2 : CsvOutputConfig) (stdout : Device) : Device × Res Unit :=
  match createFromInput (newInputs env dec zip w none [] []) w ⟨.path path, .auto⟩ with
  | .ok f => splitOutputs e cfg1 cfg2 f stdout
  | .err x => (stdout, .err x)
  | .panic => (stdout, .panic)
  | .diverge => (stdout, .diverge)

end Chopper
