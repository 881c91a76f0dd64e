import Verif.Model.CsvUtil

/-!
# Specification vocabulary for CSV guessing
-/
namespace Chopper.Spec
open Chopper

/-- Number of occurrences of the character with number `d`. -/
def occurrences (d : Byte) (row : Str) : Nat := row.count (Char.ofNat d.toNat)

/-- Pieces joined by a separator character. -/
def joinChar (d : Char) : List Str → Str
  | [] => []
  | [p] => p
  | p :: q :: ps => p ++ d :: joinChar d (q :: ps)

/-- `fields` are the fields of the line: joined by the delimiter they give the line, and none contains the delimiter. -/
def IsFields (d : Char) (line : Str) (fields : List Str) : Prop :=
  fields ≠ [] ∧ joinChar d fields = line ∧ ∀ f ∈ fields, d ∉ f

/-- The 25 characters with the Unicode property White_Space: tab to carriage return, space, next line, no-break space, ogham space, the spaces from en quad to hair space,
line and paragraph separator, narrow no-break space, medium mathematical space, ideographic space. -/
def spaceCodes : List Nat :=
  [9, 10, 11, 12, 13, 32, 0x85, 0xA0, 0x1680, 0x2000, 0x2001, 0x2002, 0x2003, 0x2004, 0x2005, 0x2006, 0x2007, 0x2008, 0x2009, 0x200A, 0x2028, 0x2029, 0x202F, 0x205F, 0x3000]

def IsSpace (c : Char) : Prop := c.toNat ∈ spaceCodes

/-- `t` is `s` without surrounding white space. -/
def IsTrimmed (s t : Str) : Prop :=
  ∃ a b, s = a ++ t ++ b ∧ (∀ c ∈ a, IsSpace c) ∧ (∀ c ∈ b, IsSpace c) ∧
    (∀ c, t.head? = some c → ¬ IsSpace c) ∧ (∀ c, t.getLast? = some c → ¬ IsSpace c)

/-- The value of a digit sequence: `d₁…dₖ ↦ Σ dᵢ·10^(k-i)`. -/
def decimalValue : Str → Nat
  | [] => 0
  | c :: cs => (c.toNat - 48) * 10 ^ cs.length + decimalValue cs

/-- Digits only, at least one. -/
def Digits (s : Str) : Prop := s ≠ [] ∧ ∀ c ∈ s, 48 ≤ c.toNat ∧ c.toNat ≤ 57

/-- The number in decimal. -/
def decimal (n : Nat) : Str := (toString n).toList

/-- The text denotes an integer of 64 bits: an optional sign and digits. -/
def DenotesI64 (s : Str) : Prop :=
  (∃ t, (s = t ∨ s = '+' :: t) ∧ Digits t ∧ decimalValue t < 2 ^ 63) ∨ (∃ t, s = '-' :: t ∧ Digits t ∧ decimalValue t ≤ 2 ^ 63)

/-- The type that counts for a text, given which texts the standard library reads as floating point. -/
def TypeOfText (isF64 : Str → Bool) (s : Str) : FieldType → Prop
  | .long => DenotesI64 s
  | .double => ¬ DenotesI64 s ∧ isF64 s = true
  | .string => ¬ DenotesI64 s ∧ isF64 s = false
  | _ => False

/-- The sequence of types of the trimmed fields of a line: `parts` lists for each field its text, its trimmed text and its type. -/
def TypesOfLine (isF64 : Str → Bool) (d : Char) (line : Str) (types : List FieldType) : Prop :=
  ∃ parts : List (Str × Str × FieldType), IsFields d line (parts.map (·.1)) ∧ types = parts.map (·.2.2) ∧
    ∀ f t ty, (f, t, ty) ∈ parts → IsTrimmed f t ∧ TypeOfText isF64 t ty

end Chopper.Spec
