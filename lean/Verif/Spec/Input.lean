import Verif.Model.Input
import Verif.Spec.Reader
import Verif.Spec.Csv
import Verif.Spec.Dc

/-!
# Specification vocabulary for inputs: magic numbers, extensions, choice of a factory
-/
namespace Chopper.Spec
open Chopper

/-- The bytes among the items of a stream, in order. -/
def bytesIn (s : Stream) : List Byte := s.filterMap fun | .byte b => some b | .fail _ => none

/-- The magic bytes of the compression formats (RFC 1952 with deflate; LZ4 frame format and the block format of lz4-java; LZF; zip; Zstandard). -/
inductive Magic : CompFormat → List Byte → Prop
  | gz (x : Byte) : Magic .gz [0x1F, 0x8B, 0x08, x]
  | lz4Frame : Magic .lz4 [0x04, 0x22, 0x4D, 0x18]
  | lz4Block : Magic .lz4 [0x4C, 0x5A, 0x34, 0x42, 0x6C, 0x6F, 0x63, 0x6B]
  | lzf0 (x : Byte) : Magic .lzf [0x5A, 0x56, 0x00, x]
  | lzf1 (x : Byte) : Magic .lzf [0x5A, 0x56, 0x01, x]
  | zip : Magic .zip [0x50, 0x4B, 0x03, 0x04]
  | zst : Magic .zst [0x28, 0xB5, 0x2F, 0xFD]

/-- The file name extensions. -/
def extension : CompFormat → String
  | .gz => ".gz"
  | .lz4 => ".lz4"
  | .lzf => ".lzf"
  | .zip => ".zip"
  | .zst => ".zst"

/-- The name is `base` plus the extension of `c`; with `c = none` it has none of the extensions. -/
def NameSplits (name : Str) (c : Option CompFormat) (base : Str) : Prop :=
  match c with
  | some f => name = base ++ (extension f).toList
  | none => base = name ∧ ∀ f b, name ≠ b ++ (extension f).toList

/-- The content starts with the magic bytes of `c`; with `c = none` with none of them. -/
def ContentIs (content : List Byte) (c : Option CompFormat) : Prop :=
  match c with
  | some f => ∃ m, Magic f m ∧ m <+: content
  | none => ∀ f m, Magic f m → ¬ m <+: content

/-- `f` is the first factory in the list that passes the test. -/
def FirstOf {α : Type} (fs : List (Factory α)) (test : Factory α → Bool) (f : Factory α) : Prop :=
  ∃ before after, fs = before ++ f :: after ∧ test f = true ∧ ∀ g ∈ before, test g = false

/-- Some error of the kind `Custom`. -/
def IsCustomError {α : Type} (r : Res α) : Prop := ∃ m, r = .err (.custom m)

/-- The input is taken through the decoder for `c` and previewed again; without `c` it is left alone. -/
def decoded (dec : Decoders) (c : Option CompFormat) (p : Previewer) : Res Previewer :=
  match c with
  | none => .ok p
  | some .gz => Previewer.new defaultBufSize (dec.gz p.reader)
  | some .lzf => Previewer.new defaultBufSize (dec.lzf p.reader)
  | some .zip => .err (.io .other)
  | some .zst =>
    match dec.zst p.reader with
    | some r => Previewer.new defaultBufSize r
    | none => .err (.io .other)
  | some .lz4 =>
    if [0x4C, 0x5A, 0x34, 0x42, 0x6C, 0x6F, 0x63, 0x6B] <+: p.trimmed then Previewer.new defaultBufSize (dec.lz4Block p.reader)
    else match dec.lz4Frame p.reader with
      | some r => Previewer.new defaultBufSize r
      | none => .err (.io .other)

/-- A path that is taken for an http address: its first component is `http:` or `https:`. -/
def HttpAddress (s : Str) : Prop := ∃ scheme ∈ ["http:".toList, "https:".toList], s = scheme ∨ scheme ++ ['/'] <+: s

instance (s : Str) : Decidable (HttpAddress s) := by unfold HttpAddress; infer_instance

/-- The source delivers exactly these rows one call after the other and then ends this way. -/
def RunsAs {σ : Type} (next : σ → Res (Option Row) × σ) (s : σ) (src : Source) : Prop :=
  ∃ s', Yields next s src.rows s' ∧
    match (next s').1 with
    | .ok none => src.ending = .eof
    | .err e => src.ending = .fail e
    | .panic => src.ending = .crash
    | .diverge => src.ending = .crash
    | .ok (some _) => False

end Chopper.Spec
