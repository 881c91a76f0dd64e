import Verif.Model.Utf8

/-!
# Readers: the underlying `Read`, `ChopperBufReader`, `ChopperBufPreviewer` (`/repo/src/util/reader.rs`),
`are_contents_same` (`/repo/src/util/file.rs`)
-/
namespace Chopper

/-- How the underlying reader answers one `read` call. -/
inductive ReadStep where
  | bytes (k : Nat)      -- deliver up to `max 1 k` bytes (as many as are left and fit)
  | fail (e : IoKind)    -- report an error; nothing is lost
deriving DecidableEq, Repr

/-- An underlying reader (`impl Read`: a file, a socket, a decompressor): the bytes it still holds, how it will chop them up, and the error it
reports instead of the end of file, if any (a decompressor of truncated data, a failed checksum, a lost connection). After the
schedule is used up every call delivers as much as fits. Any terminating reader over fixed data behaves like this for some schedule: a call
with a non-empty buffer yields an error, or at least one byte while there are bytes, or 0 at the end (the `Read` contract). -/
structure Inner where
  data : List Byte
  sched : List ReadStep := []
  ending : Option IoKind := none
deriving DecidableEq, Repr

/-- Deliver up to `m` bytes, the schedule afterwards being `s`. -/
def Inner.deliver (r : Inner) (m : Nat) (s : List ReadStep) : Res (List Byte) × Inner :=
  match r.ending with
  | some e =>
    if r.data = [] ∧ m ≠ 0 then (.err (.io e), { r with sched := s })
    else (.ok (r.data.take m), ⟨r.data.drop m, s, some e⟩)
  | none => (.ok (r.data.take m), ⟨r.data.drop m, s, none⟩)

/-- `Read::read` with a buffer of `n` bytes. -/
def Inner.read (r : Inner) (n : Nat) : Res (List Byte) × Inner :=
  match r.sched with
  | .fail e :: s => (.err (.io e), { r with sched := s })
  | .bytes k :: s => r.deliver (min n (max 1 k)) s
  | [] => r.deliver n []

/-- `ChopperBufReader` (`/repo/src/util/reader.rs:11-16`). `buf.length` is the capacity. -/
structure BufReader where
  inner : Inner
  buf : List Byte
  pos : Nat
  cap : Nat
deriving DecidableEq, Repr

/-- `ChopperBufReader::with_capacity` (`/repo/src/util/reader.rs:182-193`). -/
def BufReader.withCapacity (capacity : Nat) (inner : Inner) : BufReader := ⟨inner, List.replicate capacity 0, 0, 0⟩

/-- `&buf[a..b]`: panics unless `a ≤ b ≤ len`. -/
def slice {α : Type} (l : List α) (a b : Nat) : Res (List α) :=
  if a ≤ b ∧ b ≤ l.length then .ok ((l.drop a).take (b - a)) else .panic

/-- Bytes `bs` written into `buf` from position `i` on. -/
def overwrite (buf : List Byte) (i : Nat) (bs : List Byte) : List Byte := buf.take i ++ bs ++ buf.drop (i + bs.length)

/-- `fill_buffer_one_shot` (`/repo/src/util/reader.rs:219-231`). -/
def BufReader.oneShot (r : BufReader) : Res Nat × BufReader :=
  if r.cap = r.buf.length then (.err (.io .other), r)
  else match r.inner.read (r.buf.length - r.cap) with
    | (.ok bs, inner) => (.ok bs.length, { r with inner := inner, buf := overwrite r.buf r.cap bs, cap := r.cap + bs.length })
    | (.err e, inner) => (.err e, { r with inner := inner })
    | (.panic, inner) => (.panic, { r with inner := inner })
    | (.diverge, inner) => (.diverge, { r with inner := inner })

/-- The loop of `fill_buffer` (`/repo/src/util/reader.rs:209-214`); one unit of fuel per iteration. -/
def BufReader.fillLoop : Nat → BufReader → Res Unit × BufReader
  | 0, r => (.diverge, r)
  | fuel + 1, r =>
    match r.oneShot with
    | (.ok n, r') => if n = 0 ∨ r'.cap = r'.buf.length then (.ok (), r') else fillLoop fuel r'
    | (.err e, r') => (.err e, r')
    | (.panic, r') => (.panic, r')
    | (.diverge, r') => (.diverge, r')

/-- `fill_buffer` (`/repo/src/util/reader.rs:205-217`) with its debug assertions. -/
def BufReader.fillBuffer (r : BufReader) : Res Unit × BufReader :=
  if r.pos ≠ 0 ∨ r.cap ≠ 0 then (.panic, r) else r.fillLoop (r.buf.length + 1)

/-- `BufRead::fill_buf` (`/repo/src/util/reader.rs:253-262`) with its debug assertion. -/
def BufReader.fillBuf (r : BufReader) : Res (List Byte) × BufReader :=
  if r.pos ≥ r.cap then
    if r.pos ≠ r.cap then (.panic, r)
    else match r.inner.read r.buf.length with
      | (.ok bs, inner) =>
        let r' : BufReader := ⟨inner, overwrite r.buf 0 bs, 0, bs.length⟩
        (slice r'.buf r'.pos r'.cap, r')
      | (.err e, inner) => (.err e, { r with inner := inner })
      | (.panic, inner) => (.panic, { r with inner := inner })
      | (.diverge, inner) => (.diverge, { r with inner := inner })
  else (slice r.buf r.pos r.cap, r)

/-- `BufRead::consume` (`/repo/src/util/reader.rs:264-266`). -/
def BufReader.consume (r : BufReader) (amt : Nat) : BufReader := { r with pos := min (r.pos + amt) r.cap }

/-- `Read::read` (`/repo/src/util/reader.rs:234-249`) with a buffer of `n` bytes. -/
def BufReader.read (r : BufReader) (n : Nat) : Res (List Byte) × BufReader :=
  if r.pos = r.cap ∧ n ≥ r.buf.length then
    let r := { r with pos := 0, cap := 0 }              -- `discard_buffer`
    let (res, inner) := r.inner.read n
    (res, { r with inner := inner })
  else
    match r.fillBuf with
    | (.ok rem, r') => let out := rem.take n; (.ok out, r'.consume out.length)
    | (.err e, r') => (.err e, r')
    | (.panic, r') => (.panic, r')
    | (.diverge, r') => (.diverge, r')

/-! ## Preview -/

/-- `make_string_no_cr` (`/repo/src/util/reader.rs:158-173`); `none` = `Utf8Error`. -/
def makeStringNoCr (sl : List Byte) : Option Str :=
  if sl.length = 0 then some []
  else
    let e := if sl[sl.length - 1]? = some 13 then sl.length - 1 else sl.length
    utf8Decode (sl.take e)

/-- `get_line` (`/repo/src/util/reader.rs:120-155`): `ok none` = ran out of buffer, `ok (some none)` = `Utf8Error`. -/
def getLine (buf : List Byte) (start cap : Nat) : Res (Option (Option (Str × Nat))) :=
  (slice buf start cap).bind fun sl =>
    let fin (e : Nat) : Res (Option (Option (Str × Nat))) :=
      (slice buf start e).bind fun line => .ok (some ((makeStringNoCr line).map fun s => (s, e + 1)))
    match sl.findIdx? (· == 10) with
    | none => if cap ≥ buf.length then .ok none else fin cap
    | some p => fin (start + p)

/-- The loop of `get_lines_from_reader` (`/repo/src/util/reader.rs:81-101`) with `add_next_line_to_lines` (`103-119`); `ok none` = `Utf8Error`. -/
def getLinesLoop (buf : List Byte) (cap : Nat) : Nat → Nat → List Str → Res (Option (List Str))
  | 0, _, _ => .diverge
  | fuel + 1, start, lines =>
    if start ≥ cap then .ok (some lines)
    else (getLine buf start cap).bind fun x =>
      match x with
      | none => .ok (some lines)
      | some none => .ok none
      | some (some (line, next)) => getLinesLoop buf cap fuel next (lines ++ [line])

/-- `ChopperBufPreviewer` (`/repo/src/util/reader.rs:18-26`). -/
structure Previewer where
  reader : BufReader
  trimmed : List Byte
  lines : Option (List Str)
deriving DecidableEq, Repr

/-- `ChopperBufPreviewer::new` (`/repo/src/util/reader.rs:29-50`), for any buffer size (the code uses 8192). -/
def Previewer.new (capacity : Nat) (inner : Inner) : Res Previewer :=
  match (BufReader.withCapacity capacity inner).fillBuffer with
  | (.ok (), r) =>
    (slice r.buf 0 r.cap).bind fun trimmed =>
      (getLinesLoop r.buf r.cap (r.cap + 1) 0 []).bind fun lines => .ok ⟨r, trimmed, lines⟩
  | (.err e, _) => .err e
  | (.panic, _) => .panic
  | (.diverge, _) => .diverge

/-- `DEFAULT_BUF_SIZE` (`/repo/src/util/reader.rs:6`). -/
def defaultBufSize : Nat := 8 * 1024

/-! ## `are_contents_same` -/

/-- `Read::read_exact` of the standard library into a buffer of `n` bytes, the bytes read so far being `acc`.
(`Interrupted`, which it retries, is not among the modelled error kinds.) -/
def readExactLoop : Nat → Inner → Nat → List Byte → Res (List Byte) × Inner
  | 0, r, _, _ => (.diverge, r)
  | fuel + 1, r, n, acc =>
    if n = 0 then (.ok acc, r)
    else match r.read n with
      | (.ok [], r') => (.err (.io .unexpectedEof), r')
      | (.ok bs, r') => readExactLoop fuel r' (n - bs.length) (acc ++ bs)
      | (.err e, r') => (.err e, r')
      | (.panic, r') => (.panic, r')
      | (.diverge, r') => (.diverge, r')

/-- `Read::read_exact`. -/
def Inner.readExact (r : Inner) (n : Nat) : Res (List Byte) × Inner := readExactLoop (n + 1) r n []

/-- The loop of `are_contents_same` (`/repo/src/util/file.rs:19-39`) with buffers of `bufSize` bytes. -/
def sameLoop (bufSize : Nat) : Nat → Inner → Inner → Res Bool
  | 0, _, _ => .diverge
  | fuel + 1, f1, f2 =>
    match f1.read bufSize with
    | (.ok [], _) =>
      match f2.read bufSize with
      | (.ok b2, _) => .ok (b2.length == 0)
      | (.err e, _) => .err e
      | (.panic, _) => .panic
      | (.diverge, _) => .diverge
    | (.ok b1, f1') =>
      match f2.readExact b1.length with
      | (.ok b2, f2') => if b1 ≠ b2 then .ok false else sameLoop bufSize fuel f1' f2'
      | (.err e, _) => if e = .io .unexpectedEof then .ok false else .err e
      | (.panic, _) => .panic
      | (.diverge, _) => .diverge
    | (.err e, _) => .err e
    | (.panic, _) => .panic
    | (.diverge, _) => .diverge

/-- `are_contents_same` (`/repo/src/util/file.rs:9-40`) on opened files. Simplification: opening the paths is left out. -/
def areContentsSame (fuel : Nat) (f1 f2 : Inner) : Res Bool := sameLoop defaultBufSize fuel f1 f2

end Chopper
