import Verif.Spec.CsvUtil
import Verif.Spec.Filter

/-!
# Specification: texts of numbers (C115)
-/
namespace Chopper.Spec
open Chopper

/-- Any number of digits, possibly none. -/
def OnlyDigits (s : Str) : Prop := ∀ c ∈ s, 48 ≤ c.toNat ∧ c.toNat ≤ 57

/-- At most one of the characters `+` and `-`. -/
def OptionalSign (s : Str) : Prop := s = [] ∨ s = ['+'] ∨ s = ['-']

/-- A decimal number with at least one digit: `12`, `12.`, `12.5`, `.5`. -/
inductive Mantissa : Str → Prop
  | whole {i} : Digits i → Mantissa i
  | fraction {i f} : OnlyDigits i → OnlyDigits f → (i ≠ [] ∨ f ≠ []) → Mantissa (i ++ '.' :: f)

/-- An exponent: `e5`, `E-05`. -/
def Exponent (s : Str) : Prop := ∃ e sign digits, (e = 'e' ∨ e = 'E') ∧ OptionalSign sign ∧ Digits digits ∧ s = e :: sign ++ digits

/-- The texts that count as floating point numbers: an optional sign, then a decimal number, possibly with exponent, or one of the words
`inf`, `infinity`, `nan` in any mixture of upper and lower case. -/
inductive FloatText : Str → Prop
  | number {sign m} : OptionalSign sign → Mantissa m → FloatText (sign ++ m)
  | scientific {sign m e} : OptionalSign sign → Mantissa m → Exponent e → FloatText (sign ++ m ++ e)
  | word {sign w} : OptionalSign sign → SameName w "inf".toList ∨ SameName w "infinity".toList ∨ SameName w "nan".toList → FloatText (sign ++ w)

/-- The kinds of cells that are told apart: whole numbers (of 64 bits), other numbers, texts. -/
inductive CellKind
  | whole | number | text
  deriving DecidableEq, Repr

/-- The kind of a cell. -/
def OfKind (s : Str) : CellKind → Prop
  | .whole => DenotesI64 s
  | .number => ¬ DenotesI64 s ∧ FloatText s
  | .text => ¬ DenotesI64 s ∧ ¬ FloatText s

end Chopper.Spec
