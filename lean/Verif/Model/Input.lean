import Verif.Model.Csv
import Verif.Model.MultiFile
import Verif.Model.Zip

/-!
# Inputs: compression and format detection, transports, source factories
(`/repo/src/decompress/decompress.rs`, `/repo/src/input/single_file.rs`, `/repo/src/input/input_factory.rs`, `/repo/src/transport/**`,
`/repo/src/source/csv_factory.rs`, `/repo/src/source/dc_factory.rs`)
-/
namespace Chopper

/-! ## Compression -/

/-- `DecompressionFormat` (`/repo/src/decompress/decompress.rs:21-27`). -/
inductive CompFormat where
  | gz | lz4 | lzf | zip | zst
deriving DecidableEq, Repr

/-- `str::ends_with`. -/
def endsWith (s suffix : Str) : Bool := suffix.isSuffixOf s

/-- `s[..(s.len() - suffix.len())]`; all suffixes used are ASCII. -/
def cutSuffix (s suffix : Str) : Str := s.take (s.length - suffix.length)

/-- `is_compressed_using_format` (`/repo/src/decompress/decompress.rs:29-61`). -/
def compressionOfName (format : Str) : Option (CompFormat × Str) :=
  if endsWith format ['.', 'g', 'z'] then some (.gz, cutSuffix format ['.', 'g', 'z'])
  else if endsWith format ['.', 'l', 'z', '4'] then some (.lz4, cutSuffix format ['.', 'l', 'z', '4'])
  else if endsWith format ['.', 'l', 'z', 'f'] then some (.lzf, cutSuffix format ['.', 'l', 'z', 'f'])
  else if endsWith format ['.', 'z', 'i', 'p'] then some (.zip, cutSuffix format ['.', 'z', 'i', 'p'])
  else if endsWith format ['.', 'z', 's', 't'] then some (.zst, cutSuffix format ['.', 'z', 's', 't'])
  else none

/-- Whether the next four bytes are "lock" (`/repo/src/decompress/decompress.rs:82-87`). -/
def nextIsLock (s : Stream) : Bool :=
  match readU 4 s with
  | (.ok n, _) => n == 0x6C6F636B
  | _ => false

/-- `is_compressed_using_previewer` (`/repo/src/decompress/decompress.rs:63-101`) on the preview buffer. -/
def compressionOfContent (buf : List Byte) : Option CompFormat :=
  match readU 4 (ofBytes buf) with
  | (.ok header, rest) =>
    let header24 := header &&& 0xFFFFFF00
    if header24 = 0x1F8B0800 then some .gz
    else if header = 0x04224D18 then some .lz4
    else if header = 0x4C5A3442 ∧ nextIsLock rest = true then some .lz4
    else if header24 = 0x5A560100 ∨ header24 = 0x5A560000 then some .lzf
    else if header = 0x504B0304 then some .zip
    else if header = 0x28B52FFD then some .zst
    else none
  | _ => none

/-- The decoder crates: a reader (`ChopperBufReader`) in, a reader of decoded bytes out. `none` = the constructor fails. -/
structure Decoders where
  gz : BufReader → Inner
  lzf : BufReader → Inner
  lz4Block : BufReader → Inner
  lz4Frame : BufReader → Option Inner
  zst : BufReader → Option Inner

/-- `b"LZ4Block"`. -/
def lz4BlockMagic : List Byte := [0x4C, 0x5A, 0x34, 0x42, 0x6C, 0x6F, 0x63, 0x6B]

/-- `decompress_lz4` (`/repo/src/decompress/decompress.rs:123-145`). -/
def decompressLz4 (dec : Decoders) (p : Previewer) : Res Inner :=
  if 8 ≤ p.trimmed.length ∧ p.trimmed.take 8 = lz4BlockMagic then .ok (dec.lz4Block p.reader)
  else Res.okOr (.io .other) (dec.lz4Frame p.reader)

/-- `decompress` (`/repo/src/decompress/decompress.rs:103-155`). -/
def decompressReader (dec : Decoders) (f : CompFormat) (p : Previewer) : Res Inner :=
  match f with
  | .gz => .ok (dec.gz p.reader)
  | .lz4 => decompressLz4 dec p
  | .lzf => .ok (dec.lzf p.reader)
  | .zip => .err (.io .other)
  | .zst => Res.okOr (.io .other) (dec.zst p.reader)

/-- `SingleFileInputFactory::decompress` (`/repo/src/input/single_file.rs:180-186`). -/
def decompressPreview (dec : Decoders) (f : CompFormat) (p : Previewer) : Res Previewer :=
  (decompressReader dec f p).bind (Previewer.new defaultBufSize)

/-- `decompress_using_format` (`/repo/src/input/single_file.rs:151-166`): whether a format was detected, the previewer, the rest of the name. -/
def decompressByName (dec : Decoders) (p : Previewer) (format : Str) : Res (Bool × Previewer × Str) :=
  match compressionOfName format with
  | some (f, base) => (decompressPreview dec f p).bind fun p' => .ok (true, p', base)
  | none => .ok (false, p, format)

/-- `decompress_by_autodetecting_format` (`/repo/src/input/single_file.rs:168-178`). -/
def decompressByContent (dec : Decoders) (p : Previewer) : Res Previewer :=
  match compressionOfContent p.trimmed with
  | some f => decompressPreview dec f p
  | none => .ok p

/-! ## Source factories -/

/-- `trait SourceFactory` (`/repo/src/source/source_factory.rs`); `α` is what an opened source is. -/
structure Factory (α : Type) where
  canFormat : Str → Bool
  canPreview : Previewer → Bool
  create : Previewer → Res α

variable {α : Type}

/-- `create_source_from_format` (`/repo/src/input/single_file.rs:188-204`). -/
def createFromFormat (p : Previewer) (format : Str) : List (Factory α) → Res α
  | [] => .err (.custom "Cannot find source factory for file format")
  | sf :: sfs => if sf.canFormat format then sf.create p else createFromFormat p format sfs

/-- `create_source_by_autodetecting_format` (`/repo/src/input/single_file.rs:206-219`). -/
def createFromContent (p : Previewer) : List (Factory α) → Res α
  | [] => .err (.custom "Failed to autodetect file format by peeking at file contents.")
  | sf :: sfs => if sf.canPreview p then sf.create p else createFromContent p sfs

/-- The loop over the factories by name, going on with `otherwise` if none fits (`/repo/src/input/single_file.rs:121-125`). -/
def createByName (p : Previewer) (format : Str) (otherwise : Res α) : List (Factory α) → Res α
  | [] => otherwise
  | sf :: sfs => if sf.canFormat format then sf.create p else createByName p format otherwise sfs

/-- `InputFormat` (`/repo/src/input/input.rs:7-11`). -/
inductive InputFormat where
  | extension (e : Str)
  | auto
deriving DecidableEq, Repr

/-- The dot added in front of an extension (`/repo/src/input/single_file.rs:93-97`). -/
def withDot (e : Str) : Str :=
  match e with
  | '.' :: _ => e
  | _ => '.' :: e

/-- `create_source_from_previewer` (`/repo/src/input/single_file.rs:85-149`). -/
def createFromPreviewer (dec : Decoders) (sfs : List (Factory α)) (p : Previewer) (name : Option Str) (fmt : InputFormat) : Res α :=
  match fmt with
  | .extension e => (decompressByName dec p (withDot e)).bind fun (_, p', format) => createFromFormat p' format sfs
  | .auto =>
    match name with
    | some name =>
      (decompressByName dec p name).bind fun (detected, p', format) =>
        createByName p' format ((if detected then .ok p' else decompressByContent dec p').bind fun p'' => createFromContent p'' sfs) sfs
    | none => (decompressByContent dec p).bind fun p' => createFromContent p' sfs

/-! ## Transports -/

/-- A path: bytes, as on Unix. -/
abbrev Path := List Byte

/-- `trait StreamingTransport`, `trait SeekableTransport` (`/repo/src/transport/streaming/streaming_transport.rs`,
`/repo/src/transport/seekable/seekable_transport.rs`): `β` is what an opened path is. -/
structure Transport (β : Type) where
  canOpen : Path → Bool
  openPath : Path → Res β

/-- The loop of `create_previewer` (`/repo/src/transport/streaming/previewer_factory.rs:22-28`) and `create_seekable`
(`/repo/src/transport/seekable/seekable_factory.rs:22-28`). -/
def openLoop {β : Type} (path : Path) : List (Transport β) → Option β → Res (Option β)
  | [], acc => .ok acc
  | t :: ts, acc => if t.canOpen path then (t.openPath path).bind fun r => openLoop path ts (some r) else openLoop path ts acc

/-- `PreviewerTransportFactory::create_previewer` (`/repo/src/transport/streaming/previewer_factory.rs:18-33`). -/
def createPreviewer (ts : List (Transport Inner)) (path : Path) : Res (Option Previewer) :=
  (openLoop path ts none).bind fun
    | none => .ok none
    | some r => (Previewer.new defaultBufSize r).bind fun p => .ok (some p)

/-- `SeekableTransportFactory::create_seekable` (`/repo/src/transport/seekable/seekable_factory.rs:18-33`). -/
def createSeekable (ts : List (Transport (List Byte))) (path : Path) : Res (Option (List Byte)) := openLoop path ts none

/-- The world outside. -/
structure World where
  /-- `Path::exists` -/
  pathExists : Path → Bool
  /-- `Path::is_dir` -/
  isDir : Path → Bool
  /-- `fs::File::open`: the content and how reads will chop it up -/
  file : Path → Option Inner
  /-- `Path::read_dir`; see `readDir` -/
  listing : Path → Option (List (Option Path))
  /-- `ureq::get` -/
  http : Str → Res Inner
  /-- `io::stdin` -/
  stdin : Inner

/-- `FileTransport` (`/repo/src/transport/streaming/file.rs:10-20`). -/
def fileTransport (w : World) : Transport Inner := ⟨w.pathExists, fun p => Res.okOr (.io .other) (w.file p)⟩

/-- `SeekableFileTransport` (`/repo/src/transport/seekable/file.rs:11-21`). Simplification: seeking and reading through it do not fail. -/
def seekableFileTransport (w : World) : Transport (List Byte) := ⟨w.pathExists, fun p => Res.okOr (.io .other) ((w.file p).map (·.data))⟩

/-- The part of a path before the first slash. -/
def firstPiece (p : Path) : Path := p.takeWhile (· != 47)

/-- `HttpTransport` (`/repo/src/transport/streaming/http.rs:10-31`). `Path::starts_with("http://")` compares components: the first one must be
`http:`. -/
def httpTransport (w : World) : Transport Inner :=
  ⟨fun p => firstPiece p == utf8Encode ['h', 't', 't', 'p', ':'] || firstPiece p == utf8Encode ['h', 't', 't', 'p', 's', ':'],
   fun p => (Res.unwrap (utf8Decode p)).bind w.http⟩

/-- The pieces of a path between slashes. -/
def splitSlash : Path → List Path
  | [] => [[]]
  | c :: cs =>
    if c = 47 then [] :: splitSlash cs
    else match splitSlash cs with
      | [] => [[c]]
      | p :: ps => (c :: p) :: ps

/-- `Path::file_name`: the last component unless it is `..`; empty components and `.` do not count. -/
def osFileName (p : Path) : Option Path :=
  match ((splitSlash p).filter fun c => !(c == [] || c == [46])).getLast? with
  | some c => if c = [46, 46] then none else some c
  | none => none

/-- `get_file_name` (`/repo/src/util/path.rs:3-11`). -/
def getFileName (p : Path) : Res (Option Str) :=
  match osFileName p with
  | some f => (Res.unwrap (utf8Decode f)).bind fun s => .ok (some s)
  | none => .ok none

/-- What a `Crc32Reader` delivers, as a reader: the bytes of the inner one, and `InvalidData` instead of the end of file if the checksum of
everything is wrong (it answers every call in the same way: `Chopper.asInner_read` in `Verif.Proofs.InputCrc`). -/
def CrcReader.asInner (r : CrcReader) : Inner :=
  { r.inner with ending :=
      match r.inner.ending with
      | some e => some e
      | none => if (r.hasher.update r.inner.data).finish = r.crc32 then none else some .invalidData }

/-- What an `InputFactory` is made of (`/repo/src/input/input_factory.rs:25-28`, `/repo/src/input/single_file.rs:30-34`). -/
structure Inputs (α : Type) where
  dec : Decoders
  zip : ZipLib
  factories : List (Factory α)
  streaming : List (Transport Inner)
  seekable : List (Transport (List Byte))

/-- The zip part of `create_source_from_path` (`/repo/src/input/single_file.rs:55-68`): `none` if it is no zip archive. -/
def createFromZip (inp : Inputs α) (path : Path) (fmt : InputFormat) : Res (Option α) :=
  (createSeekable inp.seekable path).bind fun
    | none => .ok none
    | some file =>
      (isZip file 0).bind fun (z, pos) =>
        if z then
          (openZip inp.zip file pos).bind fun ((r, name), _) =>
          (Previewer.new defaultBufSize r.asInner).bind fun p =>
          (createFromPreviewer inp.dec inp.factories p (some name) fmt).bind fun s => .ok (some s)
        else .ok none

/-- The streaming part of `create_source_from_path` (`/repo/src/input/single_file.rs:70-82`). -/
def createFromStream (inp : Inputs α) (path : Path) (fmt : InputFormat) : Res (Option α) :=
  (createPreviewer inp.streaming path).bind fun
    | none => .ok none
    | some p =>
      (getFileName path).bind fun name =>
      (createFromPreviewer inp.dec inp.factories p name fmt).bind fun s => .ok (some s)

/-- `SingleFileInputFactory::create_source_from_path` (`/repo/src/input/single_file.rs:49-83`). -/
def createFromPath (inp : Inputs α) (path : Path) (fmt : InputFormat) : Res (Option α) :=
  (createFromZip inp path fmt).bind fun
    | some s => .ok (some s)
    | none => createFromStream inp path fmt

/-! ## The default factories -/

/-- All rows a source will deliver and how it will end (`trait Source`); one unit of fuel per call. -/
def toSource {σ : Type} (next : σ → Res (Option Row) × σ) : Nat → σ → Source
  | 0, _ => ⟨[], .crash⟩
  | fuel + 1, s =>
    match next s with
    | (.ok (some r), s') => let t := toSource next fuel s'; ⟨r :: t.rows, t.ending⟩
    | (.ok none, _) => ⟨[], .eof⟩
    | (.err e, _) => ⟨[], .fail e⟩
    | (.panic, _) => ⟨[], .crash⟩
    | (.diverge, _) => ⟨[], .crash⟩

/-- What is seen at the end of a reader: the end of file, or the error reported in its place. -/
def endItems : Option IoKind → Stream
  | some e => [.fail e]
  | none => []

/-- What `read` calls with a buffer of `size` bytes will see: failing calls stand where they happen. -/
def chunks (size : Nat) : List ReadStep → List Byte → Option IoKind → Stream
  | [], data, ending => ofBytes data ++ endItems ending
  | .fail e :: s, data, ending => .fail e :: chunks size s data ending
  | .bytes k :: s, data, ending =>
    if data = [] then endItems ending
    else ofBytes (data.take (min size (max 1 k))) ++ chunks size s (data.drop (min size (max 1 k))) ending

/-- What a buffered reader (`/repo/src/util/reader.rs:234-262`) will deliver to `read_exact`: what is buffered, then what refilling its buffer sees. Exact for
requests smaller than the buffer (`Chopper.bufReadExact_small`) and if no call fails before the end (`Chopper.bufReadExact_spec`).
Simplification: a request of 8192 bytes or more on an empty buffer goes to the underlying reader directly; a failing call after it
may then stand up to that many bytes later than here. -/
def streamOf (r : BufReader) : Stream :=
  ofBytes ((r.buf.drop r.pos).take (r.cap - r.pos)) ++ chunks r.buf.length r.inner.sched r.inner.data r.inner.ending

/-- `DCFactory` (`/repo/src/source/dc_factory.rs:14-55`), opening into rows. -/
def dcCanPreview (buf : List Byte) : Bool :=
  match readU 8 (ofBytes buf) with
  | (.ok magic, rest) =>
    if magic ≠ dcMagic then false
    else match readU 2 rest with
      | (.ok version, _) => version == dcVersion
      | _ => false
  | _ => false

/-- A DC source as rows; every row uses up at least one byte, so the fuel is enough. -/
def DcSource.toFile (src : DcSource) : FileSource := ⟨src.header, toSource DcSource.nextRow (src.stream.length + 1) src⟩

/-- `DCFactory` (`/repo/src/source/dc_factory.rs:14-55`). -/
def dcFactory (ov : Overflow) : Factory FileSource :=
  ⟨fun format => endsWith format ['.', 'd', 'c'], fun p => dcCanPreview p.trimmed,
   fun p => (dcOpen ov (streamOf p.reader)).bind fun src => .ok src.toFile⟩

/-- A CSV source as rows; every call but the last uses up a record, so the fuel is enough. -/
def CsvSource.toFile (env : CsvEnv) (tz : ChopperTz env.lib) (src : CsvSource) : FileSource :=
  ⟨src.header, toSource (CsvSource.nextRow env tz) (src.records.length + 2) src⟩

/-- `CSVFactory` (`/repo/src/source/csv_factory.rs:21-44`). -/
def csvFactory (env : CsvEnv) (cfg : CsvInputConfig env.lib) : Factory FileSource :=
  ⟨fun format => endsWith format ['.', 'c', 's', 'v'], fun p => p.lines.isSome,
   fun p => (csvOpen env cfg p).bind fun src => .ok (src.toFile env cfg.tz)⟩

/-- `create_default_source_factories` (`/repo/src/input/input_factory.rs:152-161`). -/
def defaultFactories (env : CsvEnv) (csv : Option (CsvInputConfig env.lib)) : List (Factory FileSource) :=
  match csv with
  | some cfg => [csvFactory env cfg, dcFactory env.ov]
  | none => [dcFactory env.ov]

/-- `InputFactory::new_with_optional_csv` (`/repo/src/input/input_factory.rs:50-94`); without user supplied parts the lists are empty. -/
def newInputs (env : CsvEnv) (dec : Decoders) (zip : ZipLib) (w : World) (csv : Option (CsvInputConfig env.lib))
    (userFactories : List (Factory FileSource)) (userTransports : List (Transport Inner)) : Inputs FileSource :=
  ⟨dec, zip, userFactories ++ defaultFactories env csv, userTransports ++ [fileTransport w, httpTransport w], [seekableFileTransport w]⟩

/-- `InputType` (`/repo/src/input/input.rs:1-5`). -/
inductive InputType where
  | path (p : Str)
  | stdIn
deriving DecidableEq, Repr

/-- `Input` (`/repo/src/input/input.rs:13-17`). -/
structure Input where
  input : InputType
  format : InputFormat
deriving DecidableEq, Repr

/-- Number of rows of a file, as far as it can be opened. -/
def fileRows (openFile : Path → Res (Option FileSource)) (p : Path) : Nat :=
  match openFile p with
  | .ok (some f) => f.source.rows.length
  | _ => 0

/-- Number of rows the current file of a multi-file source has left. -/
def currentRows (m : MultiFile Path) : Nat :=
  match m.current with
  | some f => f.source.rows.length
  | none => 0

/-- A multi-file source as rows; the fuel is one more than the number of rows in all files. -/
def MultiFile.toFile (openFile : Path → Res (Option FileSource)) (m : MultiFile Path) : FileSource :=
  ⟨m.header, toSource (MultiFile.nextRow openFile) (currentRows m + (m.paths.map (fileRows openFile)).sum + 1) m⟩

/-- A path as an input (`/repo/src/input/input_factory.rs:120-148`). -/
def createFromPathInput (inp : Inputs FileSource) (w : World) (path : Path) (fmt : InputFormat) : Res FileSource :=
  if w.isDir path then
    (openDir (fun p => createFromPath inp p fmt) w.isDir (w.listing path)).bind fun m => .ok (m.toFile fun p => createFromPath inp p fmt)
  else
    (createFromPath inp path fmt).bind fun
      | some s => .ok s
      | none => .err (.io .other)

/-- `create_source_from_input` (`/repo/src/input/input_factory.rs:105-149`). -/
def createFromInput (inp : Inputs FileSource) (w : World) (i : Input) : Res FileSource :=
  match i.input with
  | .stdIn => (Previewer.new defaultBufSize w.stdin).bind fun p => createFromPreviewer inp.dec inp.factories p none i.format
  | .path p => createFromPathInput inp w (utf8Encode p) i.format

end Chopper
