import Verif.Model.Reader

/-!
# `ZstReader` (`/repo/src/decompress/zst.rs`) on top of the frame decoder of the `ruzstd` crate
-/
namespace Chopper

/-- A zstd frame as the `ruzstd` decoder sees it: the decoded contents of its blocks; whether decoding fails after them (damaged or missing data)
instead of finishing; the window size, that many decoded bytes are held back until the frame is finished. -/
structure ZstFrame where
  blocks : List (List Byte)
  damaged : Bool
  window : Nat
deriving DecidableEq, Repr

/-- `ruzstd::FrameDecoder` after `init`: the blocks not yet decoded, and the decoded bytes not yet read.
The crate is not part of the code; this is its documented behaviour. -/
structure FrameDecoder where
  frame : ZstFrame
  decoded : List Byte := []
deriving DecidableEq, Repr

/-- `FrameDecoder::is_finished`. -/
def FrameDecoder.isFinished (d : FrameDecoder) : Bool := d.frame.blocks.isEmpty && !d.frame.damaged

/-- `FrameDecoder::can_collect`: everything if finished, otherwise what exceeds the window. -/
def FrameDecoder.canCollect (d : FrameDecoder) : Nat := if d.isFinished then d.decoded.length else d.decoded.length - d.frame.window

/-- The block loop of `decode_blocks`: stops when the frame is finished, or at least `n` bytes have been added. -/
def decodeLoop (damaged : Bool) : Nat → List (List Byte) → List Byte → Res Unit × List (List Byte) × List Byte
  | _, [], acc => (if damaged then .err (.io .other) else .ok (), [], acc)
  | n, b :: bs, acc => if n ≤ b.length ∨ (bs = [] ∧ damaged = false) then (.ok (), bs, acc ++ b) else decodeLoop damaged (n - b.length) bs (acc ++ b)

/-- `FrameDecoder::decode_blocks(_, UptoBytes(n))`. -/
def FrameDecoder.decodeBlocks (d : FrameDecoder) (n : Nat) : Res Unit × FrameDecoder :=
  let r := decodeLoop d.frame.damaged n d.frame.blocks d.decoded
  (r.1, ⟨{ d.frame with blocks := r.2.1 }, r.2.2⟩)

/-- `Read for FrameDecoder` with a buffer of `n` bytes. -/
def FrameDecoder.read (d : FrameDecoder) (n : Nat) : List Byte × FrameDecoder :=
  let k := min n d.canCollect
  (d.decoded.take k, { d with decoded := d.decoded.drop k })

/-- The loop of `ZstReader::read` (`/repo/src/decompress/zst.rs:32-46`); one unit of fuel per iteration. -/
def zstLoop : Nat → Nat → FrameDecoder → Res Unit × FrameDecoder
  | 0, _, d => (.diverge, d)
  | fuel + 1, n, d =>
    if d.isFinished then (.ok (), d)
    else if n ≤ d.canCollect then (.ok (), d)
    else
      match d.decodeBlocks (n - d.canCollect) with
      | (.ok (), d') => zstLoop fuel n d'
      | (_, d') => (.err (.io .other), d')

/-- `ZstReader::read` (`/repo/src/decompress/zst.rs:31-48`) with a buffer of `n` bytes. Every iteration decodes a block or fails, so the fuel is enough. -/
def zstRead (d : FrameDecoder) (n : Nat) : Res (List Byte) × FrameDecoder :=
  match zstLoop (d.frame.blocks.length + 2) n d with
  | (.ok (), d') => let r := d'.read n; (.ok r.1, r.2)
  | (.err e, d') => (.err e, d')
  | (.panic, d') => (.panic, d')
  | (.diverge, d') => (.diverge, d')

/-- `ZstReader::new` (`/repo/src/decompress/zst.rs:10-25`) on a file that consists of the given frames: `FrameDecoder::init` reads the first frame's
header; the others are never looked at. No frame: `init` fails. -/
def zstNew : List ZstFrame → Res FrameDecoder
  | [] => .err (.io .other)
  | f :: _ => .ok ⟨f, []⟩

end Chopper
