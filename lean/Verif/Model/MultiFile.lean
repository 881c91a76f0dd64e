import Verif.Model.Driver

/-!
# Several files read as one input (`/repo/src/source/multi_file_source.rs`, `/repo/src/input/files_in_dir_provider.rs`)
-/
namespace Chopper

/-- An opened file: `Box<dyn Source>` (`/repo/src/chopper/chopper.rs:11-14`) with its header. -/
structure FileSource where
  header : Header
  source : Source
deriving DecidableEq, Repr

/-- `[T]::swap`: panics out of bounds. -/
def swapAt {α : Type} (l : List α) (i j : Nat) : Res (List α) :=
  match l[i]?, l[j]? with
  | some a, some b => .ok ((l.set i b).set j a)
  | _, _ => .panic

/-- The loop of `check_headers_match_and_return_swap_map` (`/repo/src/source/multi_file_source.rs:117-154`) from reference index `idx` on;
`names`, `types` are the (already partly permuted) fields of the new header.  The answer is the rest of the swap map and whether it is the identity. -/
def swapLoop (refTypes : List FieldType) : Nat → List Str → List Str → List FieldType → Res (List Nat × Bool)
  | _, [], _, _ => .ok ([], true)
  | idx, name :: rest, names, types =>
    match (names.drop idx).findIdx? (· == name) with
    | none => .err (.custom "next file in a multi-file input is missing at least one expected column")
    | some off =>
      let newIdx := idx + off
      (Res.unwrap refTypes[idx]?).bind fun refType =>
      (Res.unwrap types[newIdx]?).bind fun newType =>
      if refType ≠ newType then .err (.custom "next file in a multi-file input has unexpected column type")
      else if idx ≠ newIdx then
        (swapAt names idx newIdx).bind fun names' =>
        (swapAt types idx newIdx).bind fun types' =>
        (swapLoop refTypes (idx + 1) rest names' types').bind fun (m, _) => .ok (newIdx :: m, false)
      else (swapLoop refTypes (idx + 1) rest names types).bind fun (m, ident) => .ok (newIdx :: m, ident)

/-- `check_headers_match_and_return_swap_map` (`/repo/src/source/multi_file_source.rs:100-161`). -/
def swapMap (ref new : Header) : Res (List Nat) :=
  if new.names.length < ref.names.length then
    .err (.custom "next file in a multi-file input has less columns than expected")
  else
    (swapLoop ref.types 0 ref.names new.names new.types).bind fun (m, ident) => .ok (if ident then [] else m)

/-- The swaps applied to a row (`/repo/src/source/multi_file_source.rs:182-184`) from reference index `idx` on. -/
def applySwaps {α : Type} : Nat → List Nat → List α → Res (List α)
  | _, [], l => .ok l
  | idx, j :: m, l => (swapAt l idx j).bind (applySwaps (idx + 1) m)

/-- What is done to a row of the current file (`/repo/src/source/multi_file_source.rs:181-187`). -/
def alignRow (m : List Nat) (row : Row) : Res Row :=
  if m.isEmpty then .ok row
  else (applySwaps 0 m row.values).bind fun vs => .ok ⟨row.timestamp, vs.take m.length⟩

/-- `SerialMultiFileSource` (`/repo/src/source/multi_file_source.rs:11-18`); `paths` are the answers `get_next_path` has not given yet. -/
structure MultiFile (P : Type) where
  paths : List P
  header : Header
  map : List Nat
  current : Option FileSource
deriving DecidableEq, Repr

/-- `create_source_from_path` (`/repo/src/source/multi_file_source.rs:83-98`); `openFile` is `SingleFileInputFactory::create_source_from_path`. -/
def openPath {P : Type} (openFile : P → Res (Option FileSource)) (p : P) : Res FileSource :=
  (openFile p).bind fun
    | none => .err (.io .other)
    | some f => .ok f

/-- `SerialMultiFileSource::new` (`/repo/src/source/multi_file_source.rs:21-56`). -/
def MultiFile.new {P : Type} (openFile : P → Res (Option FileSource)) (paths : List P) (external : Option Header) : Res (MultiFile P) :=
  match paths with
  | [] => .ok ⟨[], ⟨[], []⟩, [], none⟩
  | p :: ps =>
    (openPath openFile p).bind fun f =>
    match external with
    | none => .ok ⟨ps, f.header, [], some f⟩
    | some h => (swapMap h f.header).bind fun m => .ok ⟨ps, h, m, some f⟩

/-- `next_row` with `update_to_next_source` (`/repo/src/source/multi_file_source.rs:58-81,169-193`): a loop that takes one path per turn. -/
def multiNext {P : Type} (openFile : P → Res (Option FileSource)) (header : Header) : List P → List Nat → Option FileSource → Res (Option Row) × MultiFile P
  | paths, m, none => (.ok none, ⟨paths, header, m, none⟩)
  | paths, m, some f =>
    match f.source.nextRow with
    | (.ok (some row), s') =>
      match alignRow m row with
      | .ok row' => (.ok (some row'), ⟨paths, header, m, some ⟨f.header, s'⟩⟩)
      | .err e => (.err e, ⟨paths, header, m, some ⟨f.header, s'⟩⟩)
      | .panic => (.panic, ⟨paths, header, m, some ⟨f.header, s'⟩⟩)
      | .diverge => (.diverge, ⟨paths, header, m, some ⟨f.header, s'⟩⟩)
    | (.ok none, s') =>
      match paths with
      | [] => (.ok none, ⟨[], header, [], none⟩)
      | p :: ps =>
        match openPath openFile p with
        | .ok f' =>
          match swapMap header f'.header with
          | .ok m' => multiNext openFile header ps m' (some f')
          | .err e => (.err e, ⟨ps, header, m, some ⟨f.header, s'⟩⟩)
          | .panic => (.panic, ⟨ps, header, m, some ⟨f.header, s'⟩⟩)
          | .diverge => (.diverge, ⟨ps, header, m, some ⟨f.header, s'⟩⟩)
        | .err e => (.err e, ⟨ps, header, m, some ⟨f.header, s'⟩⟩)
        | .panic => (.panic, ⟨ps, header, m, some ⟨f.header, s'⟩⟩)
        | .diverge => (.diverge, ⟨ps, header, m, some ⟨f.header, s'⟩⟩)
    | (.err e, s') => (.err e, ⟨paths, header, m, some ⟨f.header, s'⟩⟩)
    | (.panic, s') => (.panic, ⟨paths, header, m, some ⟨f.header, s'⟩⟩)
    | (.diverge, s') => (.diverge, ⟨paths, header, m, some ⟨f.header, s'⟩⟩)

def MultiFile.nextRow {P : Type} (openFile : P → Res (Option FileSource)) (s : MultiFile P) : Res (Option Row) × MultiFile P :=
  multiNext openFile s.header s.paths s.map s.current

/-! ## The paths of a directory -/

/-- `Path` comparison of entries of one directory: the last components are compared as byte sequences. -/
def pathLe : List Byte → List Byte → Bool
  | [], _ => true
  | _ :: _, [] => false
  | a :: as, b :: bs => if a = b then pathLe as bs else a < b

/-- `DirFileTransport::read_dir` (`/repo/src/transport/dir/file.rs:18-26`): entries that cannot be read are dropped. -/
def readDir (listing : Option (List (Option (List Byte)))) : Res (List (List Byte)) :=
  match listing with
  | none => .err (.io .other)
  | some entries => .ok (entries.filterMap id)

/-- `FilesInDirPathProvider::new` (`/repo/src/input/files_in_dir_provider.rs:16-37`) on the answers of `read_dir` and `is_dir`, and the successive
`get_next_path` (lines 40-44): the files sorted descending, taken from the end.  `none` as a listing stands for a `read_dir` that fails. -/
def filesInDir (isDir : List Byte → Bool) (listing : Option (List (Option (List Byte)))) : Res (List (List Byte)) :=
  (readDir listing).bind fun entries => .ok (((entries.filter (fun e => !isDir e)).mergeSort (fun a b => pathLe b a)).reverse)

/-- A directory as an input (`/repo/src/input/input_factory.rs:122-135`): `FilesInDirPathProvider::new(…)?` then `SerialMultiFileSource::new` without
an external header. -/
def openDir (openFile : List Byte → Res (Option FileSource)) (isDir : List Byte → Bool) (listing : Option (List (Option (List Byte)))) : Res (MultiFile (List Byte)) :=
  (filesInDir isDir listing).bind fun paths => MultiFile.new openFile paths none

end Chopper
