import Verif.Model.Cli

/-!
# Standard output: a line buffer between the tool and the system

`CSVSink::new` without a path wraps `io::stdout()` in a `BufWriter` (`/repo/src/write/csv_sink.rs:18-32`).  The standard library's `Stdout` is a `LineWriter` around the file descriptor:
it has a second buffer (of 1024 bytes), passes on complete lines, and is emptied once more when the process ends.  The rest of the model treats standard output as a device that is
written to directly; here the second buffer is there.  It is transcribed from the standard library (`LineWriterShim`), which is not part of `/repo`.
-/
namespace Chopper

/-- One call of `write` of the system for some bytes: it takes some of them (at least one), or fails. -/
def Device.write (d : Device) (bs : List Byte) : Device × Res Nat :=
  match bs, d.sched with
  | [], _ => (d, .ok 0)
  | b :: bs, [] => ({ d with taken := d.taken ++ b :: bs }, .ok (bs.length + 1))
  | b :: bs, .take n :: ss => ({ d with taken := d.taken ++ b :: bs.take n, sched := ss }, .ok ((bs.take n).length + 1))
  | _ :: _, .fail k :: ss => ({ d with sched := ss }, .err (.io k))

/-- `BufWriter::write`: like `write_all`, but a big piece is handed on with a single call, which may take only a part of it. -/
def BufWriter.write (w : BufWriter) (bs : List Byte) : BufWriter × Res Nat :=
  let put (w : BufWriter) : BufWriter × Res Nat :=
    if w.cap ≤ bs.length then
      let r := w.dev.write bs
      (⟨w.cap, w.buf, r.1⟩, r.2)
    else (⟨w.cap, w.buf ++ bs, w.dev⟩, .ok bs.length)
  if w.cap < w.buf.length + bs.length then
    match w.flushBuf with
    | (w', .ok ()) => put w'
    | (w', .err e) => (w', .err e)
    | (w', .panic) => (w', .panic)
    | (w', .diverge) => (w', .diverge)
  else put w

/-- How many bytes there are up to and including the last line break, 0 if there is none (`memrchr(b'\n', buf) + 1`). -/
def linesLength (bs : List Byte) : Nat := bs.length - (bs.reverse.takeWhile (· != 10)).length

/-- `LineWriterShim::flush_if_completed_line`: the buffer is emptied if it ends with a line break. -/
def flushCompleted (w : BufWriter) : BufWriter × Res Unit :=
  if w.buf.getLast? = some 10 then w.flushBuf else (w, .ok ())

/-- What `LineWriterShim::write` buffers of `bs` after `n` bytes of its first `idx`, the complete lines, have been taken. -/
def lineTail (cap idx n : Nat) (bs : List Byte) : List Byte :=
  if idx ≤ n then bs.drop n
  else if idx - n ≤ cap then (bs.take idx).drop n
  else
    let scan := (bs.drop n).take cap
    if linesLength scan = 0 then scan else scan.take (linesLength scan)

/-- `LineWriterShim::write`; the `BufWriter` is that of the `LineWriter`. -/
def lineWrite (w : BufWriter) (bs : List Byte) : BufWriter × Res Nat :=
  let idx := linesLength bs
  if idx = 0 then
    match flushCompleted w with
    | (w', .ok ()) => w'.write bs
    | (w', .err e) => (w', .err e)
    | (w', .panic) => (w', .panic)
    | (w', .diverge) => (w', .diverge)
  else
    match w.flushBuf with
    | (w', .ok ()) =>
      match w'.dev.write (bs.take idx) with
      | (d, .ok n) =>
        if n = 0 then (⟨w'.cap, w'.buf, d⟩, .ok 0)
        else
          let tail := (lineTail w'.cap idx n bs).take (w'.cap - w'.buf.length)
          (⟨w'.cap, w'.buf ++ tail, d⟩, .ok (n + tail.length))
      | (d, .err e) => (⟨w'.cap, w'.buf, d⟩, .err e)
      | (d, .panic) => (⟨w'.cap, w'.buf, d⟩, .panic)
      | (d, .diverge) => (⟨w'.cap, w'.buf, d⟩, .diverge)
    | (w', .err e) => (w', .err e)
    | (w', .panic) => (w', .panic)
    | (w', .diverge) => (w', .diverge)

/-- `LineWriterShim::write_all`. -/
def lineWriteAll (w : BufWriter) (bs : List Byte) : BufWriter × Res Unit :=
  let idx := linesLength bs
  if idx = 0 then
    match flushCompleted w with
    | (w', .ok ()) => w'.writeAll bs
    | r => r
  else
    let lines : BufWriter × Res Unit :=
      if w.buf = [] then
        let r := w.dev.writeAll (bs.take idx)
        (⟨w.cap, w.buf, r.1⟩, r.2.2)
      else
        match w.writeAll (bs.take idx) with
        | (w', .ok ()) => w'.flushBuf
        | r => r
    match lines with
    | (w', .ok ()) => w'.writeAll (bs.drop idx)
    | r => r

/-- The `BufWriter` of the sink around standard output: its buffer, and the `LineWriter` below. -/
structure StdoutWriter where
  cap : Nat
  buf : List Byte
  line : BufWriter
deriving DecidableEq, Repr

/-- `BufWriter::new(Box::new(io::stdout()))` (`/repo/src/write/csv_sink.rs:18-25`); the buffer of standard output has 1024 bytes. -/
def StdoutWriter.new (fd : Device) : StdoutWriter := ⟨defaultBufSize, [], ⟨1024, [], fd⟩⟩

/-- The loop of `BufWriter::flush_buf`: `write` until everything is taken.  A call that takes nothing is an error (it does not happen). -/
def lineLoop : Nat → BufWriter → List Byte → BufWriter × List Byte × Res Unit
  | _, l, [] => (l, [], .ok ())
  | 0, l, bs => (l, bs, .diverge)
  | fuel + 1, l, bs =>
    match lineWrite l bs with
    | (l', .ok 0) => (l', bs, .err (.io .other))
    | (l', .ok n) => lineLoop fuel l' (bs.drop n)
    | (l', .err e) => (l', bs, .err e)
    | (l', .panic) => (l', bs, .panic)
    | (l', .diverge) => (l', bs, .diverge)

/-- `BufWriter::flush_buf`: bytes that were not taken stay in the buffer. -/
def StdoutWriter.flushBuf (w : StdoutWriter) : StdoutWriter × Res Unit :=
  let r := lineLoop w.buf.length w.line w.buf
  (⟨w.cap, r.2.1, r.1⟩, r.2.2)

/-- The last part of `BufWriter::write_all`. -/
def StdoutWriter.put (w : StdoutWriter) (bs : List Byte) : StdoutWriter × Res Unit :=
  if w.cap ≤ bs.length then
    let r := lineWriteAll w.line bs
    (⟨w.cap, w.buf, r.1⟩, r.2)
  else (⟨w.cap, w.buf ++ bs, w.line⟩, .ok ())

/-- `BufWriter::write_all`. -/
def StdoutWriter.writeAll (w : StdoutWriter) (bs : List Byte) : StdoutWriter × Res Unit :=
  if w.cap < w.buf.length + bs.length then
    match w.flushBuf with
    | (w', .ok ()) => w'.put bs
    | r => r
  else w.put bs

/-- `BufWriter::flush`: then `flush` of the `LineWriter`, which empties its buffer and flushes the descriptor. -/
def StdoutWriter.flush (w : StdoutWriter) : StdoutWriter × Res Unit :=
  match w.flushBuf with
  | (w', .ok ()) => let r := w'.line.flush; (⟨w'.cap, w'.buf, r.1⟩, r.2)
  | r => r

/-- The end of the process: the sink is dropped (`flush_buf`, the result ignored), then standard output's own buffer is written out (`std::rt::cleanup`, the result ignored). -/
def StdoutWriter.exit (w : StdoutWriter) : Device := w.flushBuf.1.line.flushBuf.1.dev

/-! ## Programs that write -/

/-- What a sink does with its writer: `write_all` and `flush`. -/
inductive Op where
  | write (bs : List Byte)
  | flush
deriving DecidableEq, Repr

/-- A sequence of operations on a `BufWriter` around a device; the first failure ends it, otherwise the outcome is `out`. -/
def BufWriter.runOps : List Op → Res Unit → BufWriter → BufWriter × Res Unit
  | [], out, w => (w, out)
  | .write bs :: ops, out, w =>
    match w.writeAll bs with
    | (w', .ok ()) => BufWriter.runOps ops out w'
    | r => r
  | .flush :: ops, out, w =>
    match w.flush with
    | (w', .ok ()) => BufWriter.runOps ops out w'
    | r => r

/-- The same on standard output. -/
def StdoutWriter.runOps : List Op → Res Unit → StdoutWriter → StdoutWriter × Res Unit
  | [], out, w => (w, out)
  | .write bs :: ops, out, w =>
    match w.writeAll bs with
    | (w', .ok ()) => StdoutWriter.runOps ops out w'
    | r => r
  | .flush :: ops, out, w =>
    match w.flush with
    | (w', .ok ()) => StdoutWriter.runOps ops out w'
    | r => r

end Chopper
