import Verif.Model.Text

/-!
# CSV guessing (`/repo/src/util/csv_util.rs`)
-/
namespace Chopper

/-- `parse_into_delimiter` (`/repo/src/util/csv_util.rs:5-27`). -/
def parseIntoDelimiter (s : Str) : Res Byte :=
  if s = ['\\', 't'] then .ok 9
  else if utf8Len s ≠ 1 then .err (.custom "Error: specified delimiter is not a single ASCII character.")
  else match s with
    | [] => .panic                                          -- `next().unwrap()`
    | c :: _ =>
      if c.toNat < 128 then .ok (BitVec.ofNat 8 c.toNat)
      else .err (.custom "Error: specified delimiter is not an ASCII character.")

/-- How often `c as u8` - the low 8 bits of the scalar value - is `d` (`/repo/src/util/csv_util.rs:38-40`).
Simplification: the counters are unbounded (`u32` in the code; a previewed line has less than 2³² characters). -/
def countAsU8 (row : Str) (d : Byte) : Nat := row.countP (fun c => BitVec.ofNat 8 c.toNat == d)

/-- Insertion into a list sorted with `sort_by(|a, b| counts[b].cmp(&counts[a]))`, keeping the order of equal elements. -/
def insertByCount (count : Byte → Nat) (x : Byte) : List Byte → List Byte
  | [] => [x]
  | y :: ys => if count y ≤ count x then x :: y :: ys else y :: insertByCount count x ys

/-- `sort_by`: a stable sort (any stable sort gives the same list). -/
def sortByCount (count : Byte → Nat) : List Byte → List Byte
  | [] => []
  | x :: xs => insertByCount count x (sortByCount count xs)

/-- `guess_delimiter` (`/repo/src/util/csv_util.rs:29-46`). -/
def guessDelimiter (row : Str) (candidates : List Byte) : Res Byte :=
  if candidates.length = 0 then .panic                      -- `assert_ne!`
  else Res.unwrap (sortByCount (countAsU8 row) candidates)[0]?

/-- `guess_type` (`/repo/src/util/csv_util.rs:110-118`); `isF64` stands for `parse::<f64>().is_ok()` of the standard library. -/
def guessType (isF64 : Str → Bool) (s : Str) : FieldType :=
  if (parseI64 s).isSome then .long
  else if isF64 s then .double
  else .string

/-- The types of the trimmed fields of a line (`/repo/src/util/csv_util.rs:62-69`); `delimiter as char` is the character with that number. -/
def lineTypes (isF64 : Str → Bool) (delimiter : Byte) (line : Str) : List FieldType :=
  (splitChar (Char.ofNat delimiter.toNat) line).map (fun f => guessType isF64 (trim f))

/-- `guess_has_header` (`/repo/src/util/csv_util.rs:52-72`). -/
def guessHasHeader (isF64 : Str → Bool) (line1 line2 : Option Str) (delimiter : Byte) : Bool :=
  match line1 with
  | none => false
  | some l1 =>
    match line2 with
    | none => false
    | some l2 => lineTypes isF64 delimiter l1 != lineTypes isF64 delimiter l2

/-- `type_upconvert` (`/repo/src/util/csv_util.rs:97-107`). -/
def typeUpconvert : FieldType → FieldType
  | .boolean => .string
  | .byteBuf => .string
  | .string => .string
  | .byte | .char | .short | .int | .long => .long
  | .float | .double => .double

/-- The loop of `guess_common_type` (`/repo/src/util/csv_util.rs:81-92`). -/
def commonTypeLoop (guess : FieldType) : List FieldType → FieldType
  | [] => guess
  | t :: ts =>
    if guess = .string then guess
    else match typeUpconvert t with
      | .double => commonTypeLoop .double ts
      | .long => commonTypeLoop guess ts
      | _ => .string

/-- `guess_common_type` (`/repo/src/util/csv_util.rs:74-95`). -/
def guessCommonType (types : List FieldType) : FieldType :=
  match types with
  | [] => .string
  | t :: _ => commonTypeLoop (typeUpconvert t) types

end Chopper
