import Verif.Spec.Cli

/-!
# Specification: texts mixed on one output (C116)
-/
namespace Chopper.Spec

/-- `whole` consists of the elements of `xs` and those of `ys`, each in their order. -/
inductive Interleaved {α : Type} : List α → List α → List α → Prop
  | done : Interleaved [] [] []
  | left {x xs ys whole} : Interleaved xs ys whole → Interleaved (x :: xs) ys (x :: whole)
  | right {y xs ys whole} : Interleaved xs ys whole → Interleaved xs (y :: ys) (y :: whole)

/-- The lines of the rows of a CSV file, one by one. -/
inductive RowLines (ff : FloatFmt) (cfg : CsvOutputConfig) : List Row → List Str → Prop
  | nil : RowLines ff cfg [] []
  | cons {r : Row} {rs : List Row} {line : Str} {lines : List Str} : CsvLines ff cfg [r] line → RowLines ff cfg rs lines → RowLines ff cfg (r :: rs) (line :: lines)

end Chopper.Spec
