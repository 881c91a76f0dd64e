import Verif.Model.Text
import Verif.Model.Timestamp
import Verif.Model.Utf8

/-!
# The test server of endless CSV streams (`/repo/util/infistream`)

Only the two streams are modelled. The web server that asks them for the next chunk and sends it (`/repo/util/infistream/src/main.rs`) is not: it is assumed to send the
chunks in the order in which it gets them.
-/
namespace Chopper

/-- `InfiCSV` (`/repo/util/infistream/src/inficsv.rs:7-17`). -/
structure InfiCsv where
  timestamp : BitVec 64

/-- `InfiCSV::new` (`/repo/util/infistream/src/inficsv.rs:12-16`). -/
def InfiCsv.new : InfiCsv := ⟨0⟩

/-- `+= 1` on `u64`: with overflow checks it panics at the largest number. -/
def incU64 (ov : Overflow) (n : BitVec 64) : Res (BitVec 64) :=
  match ov with
  | .panics => if n.toNat + 1 < 2 ^ 64 then .ok (n + 1) else .panic
  | .wraps => .ok (n + 1)

/-- `format!("{},a{},b{},c{},d{},e{},f{}\n", v, v, v, v, v, v, v)` (`/repo/util/infistream/src/inficsv.rs:27`, `/repo/util/infistream/src/inficsvgz.rs:34`). -/
def infiRow (v : BitVec 64) : Str :=
  natToStr v.toNat ++ (",a".toList ++ natToStr v.toNat) ++ (",b".toList ++ natToStr v.toNat) ++ (",c".toList ++ natToStr v.toNat) ++
    (",d".toList ++ natToStr v.toNat) ++ (",e".toList ++ natToStr v.toNat) ++ (",f".toList ++ natToStr v.toNat) ++ ['\n']

/-- `InfiCSV::poll` (`/repo/util/infistream/src/inficsv.rs:23-29`): always a next chunk, unless the counter overflows. -/
def InfiCsv.poll (ov : Overflow) (s : InfiCsv) : Res (List Byte × InfiCsv) :=
  (incU64 ov s.timestamp).bind fun t => .ok (utf8Encode (infiRow s.timestamp), ⟨t⟩)

/-- The gzip encoder (flate2) with state `σ`: `write` takes some of the bytes (a number of them), and puts some compressed bytes into the vector it writes to; or it
fails. -/
structure GzLib (σ : Type) where
  init : σ
  write : σ → List Byte → Option (Nat × σ × List Byte)

/-- `InfiCSVGZ` (`/repo/util/infistream/src/inficsvgz.rs:10-22`); `vec` is the vector inside of the encoder. -/
structure InfiCsvGz (σ : Type) where
  timestamp : BitVec 64
  encoder : σ
  vec : List Byte

/-- `InfiCSVGZ::new` (`/repo/util/infistream/src/inficsvgz.rs:16-21`). -/
def InfiCsvGz.new {σ : Type} (gz : GzLib σ) : InfiCsvGz σ := ⟨0, gz.init, []⟩

/-- `InfiCSVGZ::poll` (`/repo/util/infistream/src/inficsvgz.rs:29-42`): the number of bytes taken by `write` is ignored, an error is unwrapped; the vector is copied and
cleared. -/
def InfiCsvGz.poll {σ : Type} (gz : GzLib σ) (ov : Overflow) (s : InfiCsvGz σ) : Res (List Byte × InfiCsvGz σ) :=
  (incU64 ov s.timestamp).bind fun t =>
    match gz.write s.encoder (utf8Encode (infiRow s.timestamp)) with
    | none => .panic
    | some (_, enc, out) => .ok (s.vec ++ out, ⟨t, enc, []⟩)

end Chopper
