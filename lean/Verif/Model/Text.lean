import Verif.Model.Utf8

/-!
# Text functions of the standard library used by the code
-/
namespace Chopper

/-- `char::is_whitespace`: the Unicode property White_Space. -/
def isWhite (c : Char) : Bool :=
  let n := c.toNat
  (9 ≤ n && n ≤ 13) || n == 0x20 || n == 0x85 || n == 0xA0 || n == 0x1680 || (0x2000 ≤ n && n ≤ 0x200A) || n == 0x2028 || n == 0x2029 ||
    n == 0x202F || n == 0x205F || n == 0x3000

/-- `str::trim`. -/
def trim (s : Str) : Str := ((s.dropWhile isWhite).reverse.dropWhile isWhite).reverse

/-- `str::split(char)`: always at least one piece. -/
def splitChar (d : Char) : Str → List Str
  | [] => [[]]
  | c :: cs =>
    if c = d then [] :: splitChar d cs
    else match splitChar d cs with
      | [] => [[c]]
      | p :: ps => (c :: p) :: ps

/-- ASCII digit (`char::is_digit(10)`, `char::is_ascii_digit`). -/
def isDigit (c : Char) : Bool := 48 ≤ c.toNat && c.toNat ≤ 57

/-- Value of a digit. -/
def digitVal (c : Char) : Nat := c.toNat - 48

/-- Value of a sequence of digits, the digits so far having value `acc`. -/
def digitsVal (acc : Nat) : Str → Nat
  | [] => acc
  | c :: cs => digitsVal (acc * 10 + digitVal c) cs

/-- Non-empty and digits only: their value. -/
def parseDigits (s : Str) : Option Nat :=
  if s ≠ [] ∧ s.all isDigit then some (digitsVal 0 s) else none

/-- A leading `+` is skipped by `parse`. -/
def stripPlus (s : Str) : Str :=
  match s with
  | '+' :: t => t
  | _ => s

/-- `str::parse::<u64>().ok()`: an optional `+`, then digits, no overflow. -/
def parseU64 (s : Str) : Option (BitVec 64) :=
  (parseDigits (stripPlus s)).bind (fun n => if n < 2 ^ 64 then some (BitVec.ofNat 64 n) else none)

/-- Digits of a number below 2⁶³. -/
def parsePos63 (s : Str) : Option Int := (parseDigits s).bind (fun n => if n < 2 ^ 63 then some (n : Int) else none)

/-- Digits of the absolute value of a number not below -2⁶³. -/
def parseNeg63 (s : Str) : Option Int := (parseDigits s).bind (fun n => if n ≤ 2 ^ 63 then some (- (n : Int)) else none)

/-- `str::parse::<i64>().ok()`: an optional sign, then digits, in range. -/
def parseI64 (s : Str) : Option Int :=
  match s with
  | '-' :: t => parseNeg63 t
  | '+' :: t => parsePos63 t
  | _ => parsePos63 s

/-- Decimal digits of a number, most significant first, `fuel` bounding their number (`Display` of unsigned integers). -/
def natDigitsAux : Nat → Nat → Str → Str
  | 0, _, acc => acc
  | fuel + 1, n, acc =>
    let acc := Char.ofNat (48 + n % 10) :: acc
    if n / 10 = 0 then acc else natDigitsAux fuel (n / 10) acc

/-- `u64::to_string`. -/
def natToStr (n : Nat) : Str := natDigitsAux (n + 1) n []

/-- `i64::to_string`. -/
def intToStr : Int → Str
  | .ofNat n => natToStr n
  | .negSucc n => '-' :: natToStr (n + 1)

end Chopper
