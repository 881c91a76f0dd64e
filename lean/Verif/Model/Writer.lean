import Verif.Model.Input
import Verif.Model.CliGraph

/-!
# Output: a device that may fail, `BufWriter`, the two output sinks
(`/repo/src/write/csv_sink.rs`, `/repo/src/write/dc_sink.rs`, `/repo/src/write/factory.rs`, `std::io::BufWriter`)
-/
namespace Chopper

/-! ## Devices and `BufWriter` -/

/-- What the next call to the device (a file, standard output) does: take up to `n + 1` bytes (a flush succeeds), or fail. -/
inductive WriteStep where
  | take (n : Nat)
  | fail (k : IoKind)
deriving DecidableEq, Repr

/-- A file or standard output: the bytes it has taken, and what the next calls will do. After the schedule is used up every call succeeds and takes
everything. (`Interrupted` is retried by `write_all` and therefore left out; a call that takes nothing is reported by `write_all` as an error.) -/
structure Device where
  taken : List Byte := []
  sched : List WriteStep := []
  /-- how many of the bytes taken have been flushed (only recorded, nothing depends on it) -/
  flushed : Nat := 0
deriving DecidableEq, Repr

/-- `Write::write_all` of the device: the bytes it takes, the rest of its schedule, the error if any. -/
def devWrite : List WriteStep → List Byte → List Byte × List WriteStep × Option IoKind
  | ss, [] => ([], ss, none)
  | [], b :: bs => (b :: bs, [], none)
  | .take n :: ss, b :: bs =>
    let r := devWrite ss (bs.drop n)
    (b :: bs.take n ++ r.1, r.2.1, r.2.2)
  | .fail k :: ss, _ :: _ => ([], ss, some k)

/-- An optional I/O error as a result. -/
def ioRes : Option IoKind → Res Unit
  | none => .ok ()
  | some k => .err (.io k)

/-- `write_all`: the device afterwards, the bytes it did not take, the result. -/
def Device.writeAll (d : Device) (bs : List Byte) : Device × List Byte × Res Unit :=
  let r := devWrite d.sched bs
  ({ d with taken := d.taken ++ r.1, sched := r.2.1 }, bs.drop r.1.length, ioRes r.2.2)

/-- `Write::flush` of the device. -/
def Device.flush (d : Device) : Device × Res Unit :=
  match d.sched with
  | .fail k :: ss => ({ d with sched := ss }, .err (.io k))
  | .take _ :: ss => ({ d with sched := ss, flushed := d.taken.length }, .ok ())
  | [] => ({ d with flushed := d.taken.length }, .ok ())

/-- `std::io::BufWriter` (used in `/repo/src/write/csv_sink.rs:12`, `/repo/src/write/dc_sink.rs:13`). -/
structure BufWriter where
  cap : Nat
  buf : List Byte
  dev : Device
deriving DecidableEq, Repr

/-- `BufWriter::new`. -/
def BufWriter.new (d : Device) : BufWriter := ⟨defaultBufSize, [], d⟩

/-- `BufWriter::flush_buf`: bytes the device did not take stay in the buffer. -/
def BufWriter.flushBuf (w : BufWriter) : BufWriter × Res Unit :=
  let r := w.dev.writeAll w.buf
  (⟨w.cap, r.2.1, r.1⟩, r.2.2)

/-- The last part of `BufWriter::write_all`: big pieces go directly to the device. -/
def BufWriter.put (w : BufWriter) (bs : List Byte) : BufWriter × Res Unit :=
  if w.cap ≤ bs.length then
    let r := w.dev.writeAll bs
    (⟨w.cap, w.buf, r.1⟩, r.2.2)
  else (⟨w.cap, w.buf ++ bs, w.dev⟩, .ok ())

/-- `BufWriter::write_all`. -/
def BufWriter.writeAll (w : BufWriter) (bs : List Byte) : BufWriter × Res Unit :=
  if w.cap < w.buf.length + bs.length then
    match w.flushBuf with
    | (w', .ok ()) => w'.put bs
    | (w', r) => (w', r)
  else w.put bs

/-- `BufWriter::flush`. -/
def BufWriter.flush (w : BufWriter) : BufWriter × Res Unit :=
  match w.flushBuf with
  | (w', .ok ()) => let r := w'.dev.flush; (⟨w'.cap, w'.buf, r.1⟩, r.2)
  | (w', r) => (w', r)

/-- `Drop for BufWriter`: one last `flush_buf`, its result ignored. -/
def BufWriter.close (w : BufWriter) : Device := w.flushBuf.1.dev

/-- Several `write_all` calls, stopping at the first failure. -/
def BufWriter.writeChunks (w : BufWriter) : List (List Byte) → BufWriter × Res Unit
  | [] => (w, .ok ())
  | c :: cs =>
    match w.writeAll c with
    | (w', .ok ()) => w'.writeChunks cs
    | (w', r) => (w', r)

/-- How the output of one call is cut up into `write_all` calls (`write!`, `dtoa::write`, `write_u64`, ...): the model leaves it open. -/
structure Chunking where
  cut : List Byte → List (List Byte)
  flat : ∀ bs, (cut bs).flatten = bs

/-- Write the bytes; then the outcome is `res`, unless writing failed. -/
def BufWriter.emit {α : Type} (ch : Chunking) (w : BufWriter) (bs : List Byte) (res : Res α) : BufWriter × Res α :=
  match w.writeChunks (ch.cut bs) with
  | (w', .ok ()) => (w', res)
  | (w', .err e) => (w', .err e)
  | (w', .panic) => (w', .panic)
  | (w', .diverge) => (w', .diverge)

/-! ## The sinks of the command line tool -/

/-- The data sinks in the graph of the command line tool: `MergeJoin` (`/repo/src/driver/merge_join.rs:6-9`), `CSVSink`
(`/repo/src/write/csv_sink.rs:11-14`), `DCSink` (`/repo/src/write/dc_sink.rs:12-15`). -/
inductive CliSink where
  | mergeJoin
  | csv (cfg : CsvOutputConfig) (w : BufWriter)
  | dc (bitsetBytes : Nat) (w : BufWriter)

/-- What the sinks need from outside. -/
structure SinkEnv where
  ff : FloatFmt
  ch : Chunking
  ov : Overflow

/-- `write_row`: `MergeJoin` has the default implementation (`/repo/src/chopper/chopper.rs:36-38`), the other two are
`/repo/src/write/csv_sink.rs:65-132` and `/repo/src/write/dc_sink.rs:138-190`; all leave the row as it is. -/
def CliSink.write (e : SinkEnv) : CliSink → Row → CliSink × Res (List Row)
  | .mergeJoin, r => (.mergeJoin, .ok [r])
  | .csv cfg w, r =>
    let t := csvRowText e.ff cfg r
    let o := w.emit e.ch (utf8Encode t.1) (t.2.map fun _ => [r])
    (.csv cfg o.1, o.2)
  | .dc k w, r =>
    let t := dcWriteRow k r
    let o := w.emit e.ch t.out (t.res.map fun _ => [r])
    (.dc k o.1, o.2)

/-- `flush` (`/repo/src/chopper/chopper.rs:40-42`, `/repo/src/write/csv_sink.rs:134-137`, `/repo/src/write/dc_sink.rs:192-195`). -/
def CliSink.flush : CliSink → CliSink × Res Unit
  | .mergeJoin => (.mergeJoin, .ok ())
  | .csv cfg w => let o := w.flush; (.csv cfg o.1, o.2)
  | .dc k w => let o := w.flush; (.dc k o.1, o.2)

/-- The sinks as actions. -/
def cliOps (e : SinkEnv) : SinkOps CliSink := ⟨CliSink.write e, CliSink.flush⟩

/-- `CSVSink::process_header` (`/repo/src/write/csv_sink.rs:57-61`). -/
def csvSinkHeader (e : SinkEnv) (cfg : CsvOutputConfig) (d : Device) (h : Header) : Res (CliSink × Header) :=
  let o := (BufWriter.new d).emit e.ch (utf8Encode (csvHeaderText cfg h.names)) (.ok ())
  o.2.bind fun _ => .ok (.csv cfg o.1, h)

/-- `DCSink::process_header` (`/repo/src/write/dc_sink.rs:129-134`). -/
def dcSinkHeader (e : SinkEnv) (d : Device) (h : Header) : Res (CliSink × Header) :=
  let t := dcProcessHeader e.ov h
  let o := (BufWriter.new d).emit e.ch t.out t.res
  o.2.bind fun k => .ok (.dc k o.1, h)

/-- Where output can go: `File::create` (`none` = it fails) and standard output. -/
structure OutWorld where
  create : Path → Option Device
  stdout : Device

/-- `new_header_sink` (`/repo/src/write/factory.rs:7-33`): the files created and the header sink. -/
def newHeaderSink (e : SinkEnv) (o : OutWorld) (output : Option Str) (cfg : CsvOutputConfig) :
    List Path × Res (Header → Res (CliSink × Header)) :=
  match output with
  | some p =>
    if endsWith p ['c', 's', 'v'] then
      match o.create (utf8Encode p) with
      | some d => ([utf8Encode p], .ok (csvSinkHeader e cfg d))
      | none => ([], .err (.io .other))
    else if endsWith p ['d', 'c'] then
      match o.create (utf8Encode p) with
      | some d => ([utf8Encode p], .ok (dcSinkHeader e d))
      | none => ([], .err (.io .other))
    else ([], .err (.custom "file type is not supported"))
  | none => ([], .ok (csvSinkHeader e cfg o.stdout))

end Chopper
