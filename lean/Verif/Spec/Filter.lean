import Verif.Model.Filter

/-!
# Specification vocabulary for the built-in filters
-/
namespace Chopper.Spec
open Chopper

/-- The same character up to the case of the 26 ASCII letters. -/
def SameLetter (a b : Char) : Prop :=
  a = b ∨ ∃ k, k < 26 ∧ ((a.toNat = 65 + k ∧ b.toNat = 97 + k) ∨ (a.toNat = 97 + k ∧ b.toNat = 65 + k))

/-- Names equal up to ASCII case. -/
inductive SameName : Str → Str → Prop
  | nil : SameName [] []
  | cons {a b as bs} : SameLetter a b → SameName as bs → SameName (a :: as) (b :: bs)

/-- `i` is the position of the first column called `name`. -/
def FirstCol (name : Str) (names : List Str) (i : Nat) : Prop :=
  (∃ n, names[i]? = some n ∧ SameName n name) ∧ ∀ (j : Nat) m, j < i → names[j]? = some m → ¬ SameName m name

/-- No column is called `name`. -/
def NoCol (name : Str) (names : List Str) : Prop := ∀ n ∈ names, ¬ SameName n name

/-- The types of values, `none` being the value without type. -/
def kindOf : FieldValue → Option FieldType
  | .boolean _ => some .boolean
  | .byte _ => some .byte
  | .byteBuf _ => some .byteBuf
  | .char _ => some .char
  | .double _ => some .double
  | .float _ => some .float
  | .int _ => some .int
  | .long _ => some .long
  | .short _ => some .short
  | .string _ => some .string
  | .none => none

/-- Values of types for which comparison is implemented. -/
def Supported (x : FieldValue) : Prop := kindOf x ≠ some .boolean ∧ kindOf x ≠ some .byteBuf

/-- Not-a-number. -/
def IsNaN : FieldValue → Prop
  | .double b => 0x7FF0000000000000 < b.toNat % 2 ^ 63
  | .float b => 0x7F800000 < b.toNat % 2 ^ 31
  | _ => False

/-- The number denoted by the magnitude part of an IEEE-754 pattern with `m` mantissa bits, in units of the smallest
positive number of the format: subnormal when the exponent field is zero, otherwise with the hidden bit.  (Infinity,
whose exponent field is all ones, gets a number larger than every finite one.) -/
def ieeeMag (m mag : Nat) : Nat :=
  if mag / 2 ^ m = 0 then mag % 2 ^ m else (2 ^ m + mag % 2 ^ m) * 2 ^ (mag / 2 ^ m - 1)

/-- The number denoted by a `w`-bit pattern, top bit = sign, in units of the smallest positive number of the format. -/
def ieeeVal (w m : Nat) (b : BitVec w) : Int :=
  if 2 ^ (w - 1) ≤ b.toNat then - (ieeeMag m (b.toNat % 2 ^ (w - 1)) : Int) else (ieeeMag m (b.toNat % 2 ^ (w - 1)) : Int)

/-- Equality of values: same type and same content; for floating point, two numbers (not NaN) denoting the same number. -/
inductive EqualValues : FieldValue → FieldValue → Prop
  | byte (x) : EqualValues (.byte x) (.byte x)
  | char (x) : EqualValues (.char x) (.char x)
  | int (x) : EqualValues (.int x) (.int x)
  | long (x) : EqualValues (.long x) (.long x)
  | short (x) : EqualValues (.short x) (.short x)
  | string (x) : EqualValues (.string x) (.string x)
  | none : EqualValues .none .none
  | double (x y) : ¬ IsNaN (.double x) → ¬ IsNaN (.double y) → ieeeVal 64 52 x = ieeeVal 64 52 y → EqualValues (.double x) (.double y)
  | float (x y) : ¬ IsNaN (.float x) → ¬ IsNaN (.float y) → ieeeVal 32 23 x = ieeeVal 32 23 y → EqualValues (.float x) (.float y)

/-- Order of values of the same type: bytes and chars unsigned, integers signed, text by its characters, floating point by the
numbers denoted (NaN is not ordered). -/
inductive LessThan : FieldValue → FieldValue → Prop
  | byte {x y} : x.toNat < y.toNat → LessThan (.byte x) (.byte y)
  | char {x y} : x.toNat < y.toNat → LessThan (.char x) (.char y)
  | int {x y} : x.toInt < y.toInt → LessThan (.int x) (.int y)
  | long {x y} : x.toInt < y.toInt → LessThan (.long x) (.long y)
  | short {x y} : x.toInt < y.toInt → LessThan (.short x) (.short y)
  | string {x y : Str} : x < y → LessThan (.string x) (.string y)
  | double {x y} : ¬ IsNaN (.double x) → ¬ IsNaN (.double y) → ieeeVal 64 52 x < ieeeVal 64 52 y → LessThan (.double x) (.double y)
  | float {x y} : ¬ IsNaN (.float x) → ¬ IsNaN (.float y) → ieeeVal 32 23 x < ieeeVal 32 23 y → LessThan (.float x) (.float y)

/-- The header sinks of the built-in filters, and of an output. -/
inductive BuiltinSink : (Header → Res (BSink × Header)) → Prop
  | equal (name v) : BuiltinSink (equalHeader name v)
  | greater (name v) : BuiltinSink (greaterHeader name v)
  | delete (name) : BuiltinSink (deleteHeader name)
  | output : BuiltinSink writerHeader

/-- Nodes of chains made of built-in filters, outputs and merges (no splits). -/
inductive BuiltinNode : HNode BSink → Prop
  | sink {f} : BuiltinSink f → BuiltinNode (.sink f)
  | mergeSink (s n) : BuiltinNode (.mergeSink s n)
  | merge (m) : BuiltinNode (.merge m)

/-- The targets of a split node. -/
def splitIds {D : Type} : HNode D → List Nat
  | .splitSink ids _ => ids
  | _ => []

/-- The targets of all split nodes, one entry for each mention. -/
def splitTargets {D : Type} (chains : List (HChain D)) : List Nat := chains.flatMap fun ch => ch.flatMap splitIds

end Chopper.Spec
