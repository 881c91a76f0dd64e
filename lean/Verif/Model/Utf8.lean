import Verif.Model.Types

/-!
# UTF-8

`String`/`&str` are modelled as sequences of scalar values (`Str`); this is how they are stored as bytes.
`std::str::from_utf8`/`String::from_utf8` accept exactly the UTF-8 encodings of such sequences (trusted, standard library);
`utf8Decode` is proved to do so in `Verif.Proofs.Utf8`.  Used for `/repo/src/util/reader.rs:168`, `/repo/src/source/dc_factory.rs`,
`/repo/src/source/dc_source.rs`, `/repo/src/write/dc_sink.rs`, `/repo/src/decompress/zip.rs`.
-/
namespace Chopper

/-- UTF-8 encoding of one scalar value. -/
def encodeChar (c : Char) : List Byte :=
  let n := c.toNat
  if n < 0x80 then [BitVec.ofNat 8 n]
  else if n < 0x800 then [BitVec.ofNat 8 (0xC0 + n / 64), BitVec.ofNat 8 (0x80 + n % 64)]
  else if n < 0x10000 then
    [BitVec.ofNat 8 (0xE0 + n / 4096), BitVec.ofNat 8 (0x80 + n / 64 % 64), BitVec.ofNat 8 (0x80 + n % 64)]
  else
    [BitVec.ofNat 8 (0xF0 + n / 262144), BitVec.ofNat 8 (0x80 + n / 4096 % 64), BitVec.ofNat 8 (0x80 + n / 64 % 64),
     BitVec.ofNat 8 (0x80 + n % 64)]

/-- UTF-8 encoding: `str::as_bytes`. -/
def utf8Encode (s : Str) : List Byte := s.flatMap encodeChar

/-- Payload of a continuation byte. -/
def contByte (b : Byte) : Option Nat := if 0x80 ≤ b.toNat ∧ b.toNat < 0xC0 then some (b.toNat - 0x80) else none

/-- The scalar value `n`, if it is one and needs the number of bytes it came in (`lo` is the least such value). -/
def mkChar (lo n : Nat) : Option Char := if h : lo ≤ n ∧ n.isValidChar then some ⟨n.toUInt32, by
  have : n < 4294967296 := by rcases h.2 with h | h <;> omega
  simpa [UInt32.isValidChar, Nat.mod_eq_of_lt this] using h.2⟩ else none

/-- Decode the first scalar value. -/
def decodeOne : List Byte → Option (Char × List Byte)
  | [] => none
  | b0 :: rest =>
    if b0.toNat < 0x80 then (mkChar 0 b0.toNat).map (fun c => (c, rest))
    else if b0.toNat < 0xC0 then none
    else if b0.toNat < 0xE0 then
      match rest with
      | b1 :: rest => do
        let x1 ← contByte b1
        let c ← mkChar 0x80 ((b0.toNat - 0xC0) * 64 + x1)
        pure (c, rest)
      | _ => none
    else if b0.toNat < 0xF0 then
      match rest with
      | b1 :: b2 :: rest => do
        let x1 ← contByte b1
        let x2 ← contByte b2
        let c ← mkChar 0x800 ((b0.toNat - 0xE0) * 4096 + x1 * 64 + x2)
        pure (c, rest)
      | _ => none
    else if b0.toNat < 0xF8 then
      match rest with
      | b1 :: b2 :: b3 :: rest => do
        let x1 ← contByte b1
        let x2 ← contByte b2
        let x3 ← contByte b3
        let c ← mkChar 0x10000 ((b0.toNat - 0xF0) * 262144 + x1 * 4096 + x2 * 64 + x3)
        pure (c, rest)
      | _ => none
    else none

/-- `utf8Decode` with a bound on the number of scalar values. -/
def utf8DecodeAux : Nat → List Byte → Option Str
  | _, [] => some []
  | 0, _ :: _ => none
  | n + 1, bs =>
    match decodeOne bs with
    | some (c, rest) => (utf8DecodeAux n rest).map (c :: ·)
    | none => none

/-- `std::str::from_utf8(..).ok()`. -/
def utf8Decode (bs : List Byte) : Option Str := utf8DecodeAux bs.length bs

/-- `str::len()`: length in bytes. -/
def utf8Len (s : Str) : Nat := (utf8Encode s).length

/-- Lexicographic comparison of bytes, which is how `str::cmp` and `str::partial_cmp` are defined. -/
def bytesCmp : List Byte → List Byte → Ordering
  | [], [] => .eq
  | [], _ :: _ => .lt
  | _ :: _, [] => .gt
  | a :: as, b :: bs =>
    match compare a.toNat b.toNat with
    | .eq => bytesCmp as bs
    | o => o

end Chopper
