import Verif.Model.Basic

/-!
# Core data types (`/repo/src/chopper/types.rs`)
-/
namespace Chopper

/- `pub type ChainId = usize` (`/repo/src/chopper/types.rs:8`). -/
macro "ChainId" : term => `(Nat)
/- `pub type NodeId = usize` (`/repo/src/chopper/types.rs:9`). -/
macro "NodeId" : term => `(Nat)
/-- `pub type Nanos = u64` (`/repo/src/chopper/types.rs:11`). -/
abbrev Nanos := BitVec 64

/-- `TimestampRange` (`/repo/src/chopper/types.rs:13-17`). -/
structure TimestampRange where
  beginTs : Option Nanos
  endTs : Option Nanos
deriving DecidableEq, Repr

/-- `TIMESTAMP_RANGE_ALL` (`/repo/src/chopper/types.rs:19-22`). -/
def TimestampRange.all : TimestampRange := ⟨none, none⟩

/-- `FieldType` (`/repo/src/chopper/types.rs:180-192`). -/
inductive FieldType where
  | boolean | byte | byteBuf | char | double | float | int | long | short | string
deriving DecidableEq, Repr

/-- `FieldValue` (`/repo/src/chopper/types.rs:93-106`).  Integers are bit vectors (interpreted signed
where Rust has `i32/i64/i16`), floats are their IEEE-754 bit patterns. -/
inductive FieldValue where
  | boolean (b : Bool)
  | byte (x : BitVec 8)
  | byteBuf (x : List Byte)
  | char (x : BitVec 16)
  | double (bits : BitVec 64)
  | float (bits : BitVec 32)
  | int (x : BitVec 32)
  | long (x : BitVec 64)
  | short (x : BitVec 16)
  | string (s : Str)
  | none
deriving DecidableEq, Repr

/-- `Row` (`/repo/src/chopper/types.rs:194-198`). -/
structure Row where
  timestamp : Nanos
  values : List FieldValue
deriving DecidableEq, Repr

/-- `Header` (`/repo/src/chopper/types.rs:38-42`).  The derived equality is the one of
`/repo/src/chopper/types.rs:44-48`: same names and same types in the same order. -/
structure Header where
  names : List Str
  types : List FieldType
deriving DecidableEq, Repr

/-! ## Floating point comparison on bit patterns

`f64`/`f32` `==` and `partial_cmp` (used in `/repo/src/chopper/types.rs:119-120,146-147`) are IEEE-754
comparisons.  They are modelled on the bit patterns: a pattern is NaN when its exponent is all ones and its
mantissa non-zero; otherwise its place in the order is sign-magnitude. -/

/-- Magnitude bits (everything but the sign bit) of a `w`-bit IEEE number. -/
def fmag (w : Nat) (b : BitVec w) : Nat := b.toNat % 2 ^ (w - 1)

/-- Sign bit set? -/
def fneg (w : Nat) (b : BitVec w) : Bool := decide (2 ^ (w - 1) ≤ b.toNat)

/-- NaN test: magnitude greater than that of infinity, which has exponent all ones and mantissa 0; `m` is the number of
mantissa bits (52 for `f64`, 23 for `f32`). -/
def fnan (w m : Nat) (b : BitVec w) : Bool := decide (2 ^ (w - 1) - 2 ^ m < fmag w b)

/-- Position of a non-NaN number in the order: sign-magnitude integer (so +0 and -0 coincide). -/
def fkey (w : Nat) (b : BitVec w) : Int := if fneg w b then - (fmag w b : Int) else (fmag w b : Int)

/-- `partial_cmp` of IEEE numbers. -/
def fcmp (w m : Nat) (a b : BitVec w) : Option Ordering :=
  if fnan w m a || fnan w m b then none else some (compare (fkey w a) (fkey w b))

/-- `==` of IEEE numbers. -/
def feq (w m : Nat) (a b : BitVec w) : Bool :=
  !(fnan w m a) && !(fnan w m b) && fkey w a == fkey w b

/-- Lexicographic comparison of code points.  `str::cmp` compares UTF-8 bytes, which orders exactly as
the code points do (proved: `Chopper.bytesCmp_utf8` in `Verif.Proofs.Utf8`). -/
def strCmp : Str → Str → Ordering
  | [], [] => .eq
  | [], _ :: _ => .lt
  | _ :: _, [] => .gt
  | a :: as, b :: bs =>
    match compare a.toNat b.toNat with
    | .eq => strCmp as bs
    | o => o

/-- `impl PartialEq for FieldValue` (`/repo/src/chopper/types.rs:135-156`).  `panic` stands for the
`process::exit` of the unsupported types. -/
def FieldValue.eq : FieldValue → FieldValue → Res Bool
  | .boolean _, .boolean _ => .panic
  | .byte x, .byte y => .ok (x == y)
  | .byteBuf _, .byteBuf _ => .panic
  | .char x, .char y => .ok (x == y)
  | .double x, .double y => .ok (feq 64 52 x y)
  | .float x, .float y => .ok (feq 32 23 x y)
  | .int x, .int y => .ok (x == y)
  | .long x, .long y => .ok (x == y)
  | .short x, .short y => .ok (x == y)
  | .string x, .string y => .ok (x == y)
  | .none, .none => .ok true
  | _, _ => .ok false

/-- `impl PartialOrd for FieldValue` (`/repo/src/chopper/types.rs:108-133`).  `panic` stands for the
`process::exit` of unsupported or different types. -/
def FieldValue.partialCmp : FieldValue → FieldValue → Res (Option Ordering)
  | .boolean _, .boolean _ => .panic
  | .byte x, .byte y => .ok (some (compare x.toNat y.toNat))
  | .byteBuf _, .byteBuf _ => .panic
  | .char x, .char y => .ok (some (compare x.toNat y.toNat))
  | .double x, .double y => .ok (fcmp 64 52 x y)
  | .float x, .float y => .ok (fcmp 32 23 x y)
  | .int x, .int y => .ok (some (compare x.toInt y.toInt))
  | .long x, .long y => .ok (some (compare x.toInt y.toInt))
  | .short x, .short y => .ok (some (compare x.toInt y.toInt))
  | .string x, .string y => .ok (some (strCmp x y))
  | .none, .none => .ok (some .eq)
  | _, _ => .panic

end Chopper
