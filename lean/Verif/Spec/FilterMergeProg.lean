import Verif.Model.FilterMergeProg
import Verif.Spec.FilterMerge
import Verif.Spec.SplitGraph
import Verif.Spec.Cli

/-!
# Specification vocabulary: the example program `filter_and_merge`
-/
namespace Chopper.Spec
open Chopper

/-- What the user of the program wants to see, of two tables with header `h`: the rows of the first with a value greater than `vGt` in column `colGt`, together with the rows of the second with
the value `vEq` in column `colEq`, in the order of time. -/
def WantedRows (h : Header) (colGt : Str) (vGt : FieldValue) (colEq : Str) (vEq : FieldValue) (rows1 rows2 rows : List Row) : Prop :=
  ∃ a b, ThroughAll [.greater colGt vGt] h rows1 a ∧ ThroughAll [.equal colEq vEq] h rows2 b ∧ Sorted rows ∧ rows.Perm (a ++ b)

/-- The text of the program's output: default CSV settings. -/
def ExampleText (ff : FloatFmt) (h : Header) (rows : List Row) (text : List Byte) : Prop :=
  ∃ body, CsvLines ff .newDefault rows body ∧ text = utf8Encode (csvHeaderText .newDefault h.names ++ body)

/-- The two inputs of the program can be opened. -/
def ExampleOpens (e : CliEnv) (p1 p2 : Str) (f1 f2 : FileSource) : Prop :=
  createFromInput (newInputs e.csv e.dec e.zip e.world none [] []) e.world ⟨.path p1, .auto⟩ = .ok f1 ∧
  createFromInput (newInputs e.csv e.dec e.zip e.world none [] []) e.world ⟨.path p2, .auto⟩ = .ok f2

end Chopper.Spec
