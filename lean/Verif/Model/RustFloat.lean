import Verif.Model.Filter

/-!
# Which texts `str::parse::<f64>` accepts

`guess_type` (`/repo/src/util/csv_util.rs:110-118`) asks `str.parse::<f64>().is_ok()`.  In the rest of the model this is a parameter (`CsvEnv.isF64`); here it is a concrete function, a
transcription of the part of the standard library's `core::num::dec2flt` that decides whether a text is accepted (`dec2flt`, `parse_number`, `parse_partial_number`, `parse_scientific`,
`parse_inf_nan`).  The standard library is not part of `/repo`, so this rests on our reading of it.  The library works on the bytes of the text; all bytes it looks for are ASCII, so that working on
characters makes no difference.  The value that is computed is left out.
-/
namespace Chopper

/-- `u8::is_ascii_digit`. -/
def isDigit10 (c : Char) : Bool := decide (48 ≤ c.toNat ∧ c.toNat ≤ 57)

/-- `try_parse_digits`: what is left after the digits at the beginning. -/
def skipDigits : Str → Str
  | [] => []
  | c :: s => if isDigit10 c then skipDigits s else c :: s

/-- The part of `parse_scientific` after the sign: at least one digit; what is left after the digits. -/
def someDigits (s : Str) : Option Str :=
  match s with
  | c :: t => if isDigit10 c then some (skipDigits t) else none
  | [] => none

/-- `parse_scientific`: the exponent after `e`: an optional sign and at least one digit; what is left after it. -/
def parseScientific (s : Str) : Option Str :=
  match s with
  | c :: t => if c = '-' ∨ c = '+' then someDigits t else someDigits s
  | [] => someDigits s

/-- `parse_partial_number` after the digits and the point: the exponent, if there is one. -/
def parseExponent (s : Str) : Option Str :=
  match s with
  | c :: t => if c = 'e' ∨ c = 'E' then parseScientific t else some s
  | [] => some s

/-- `parse_partial_number`: digits, a point and digits (at least one digit in all), an exponent; what is left after it. -/
def parsePartialNumber (s : Str) : Option Str :=
  let s1 := skipDigits s
  let nDigits := s.length - s1.length
  match s1 with
  | '.' :: s2 =>
    let s3 := skipDigits s2
    if nDigits + (s2.length - s3.length) = 0 then none else parseExponent s3
  | _ => if nDigits = 0 then none else parseExponent s1

/-- `parse_inf_nan`: `inf`, `nan` or `infinity` in any case. -/
def isInfNan (s : Str) : Bool := eqIgnoreAsciiCase s "inf".toList || eqIgnoreAsciiCase s "nan".toList || eqIgnoreAsciiCase s "infinity".toList

/-- `dec2flt`: an optional sign and then a number that takes up the whole text, or `inf`, `nan`, `infinity`. -/
def rustIsF64 (s : Str) : Bool :=
  match s with
  | [] => false
  | c :: t =>
    let s := if c = '-' ∨ c = '+' then t else s
    if s = [] then false else parsePartialNumber s == some [] || isInfNan s

end Chopper
