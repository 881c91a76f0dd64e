import Verif.Model.MultiFile
import Verif.Spec.Csv

/-!
# Specification vocabulary for multi-file inputs
-/
namespace Chopper.Spec
open Chopper

/-- A header gives every name a type. -/
def WellFormed (h : Header) : Prop := h.types.length = h.names.length

/-- The file has every expected column, with the expected type. -/
def Compatible (ref file : Header) : Prop :=
  ∀ (i : Nat) name ty, ref.names[i]? = some name → ref.types[i]? = some ty → ∃ j : Nat, file.names[j]? = some name ∧ file.types[j]? = some ty

/-- The row delivered for a row of the file has the file's values under the expected names. -/
def Aligned (ref file : Header) (row row' : Row) : Prop :=
  row'.timestamp = row.timestamp ∧
  ∀ (i : Nat) name, ref.names[i]? = some name → ∃ (j : Nat) (v : FieldValue), file.names[j]? = some name ∧ ref.types[i]? = file.types[j]? ∧
    row.values[j]? = some v ∧ row'.values[i]? = some v

/-- Row by row. -/
def AlignedRows (ref file : Header) (rows rows' : List Row) : Prop :=
  rows'.length = rows.length ∧ ∀ (k : Nat) row row', rows[k]? = some row → rows'[k]? = some row' → Aligned ref file row row'

/-- A file that can be read to its end and whose rows are as wide as its header. -/
def GoodFile (f : FileSource) : Prop :=
  f.source.ending = .eof ∧ WellFormed f.header ∧ ∀ row ∈ f.source.rows, row.values.length = f.header.names.length

/-- The concatenation of the files in the given order, aligned to the common header. -/
inductive Concatenation {P : Type} (openFile : P → Res (Option FileSource)) (ref : Header) : List P → List Row → Prop
  | nil : Concatenation openFile ref [] []
  | cons {p ps f rows rest} : openFile p = .ok (some f) → AlignedRows ref f.header f.source.rows rows → Concatenation openFile ref ps rest →
      Concatenation openFile ref (p :: ps) (rows ++ rest)

/-- Byte-wise lexicographic order of names: a proper prefix comes first, otherwise the first difference decides. -/
def PathBefore (a b : List Byte) : Prop :=
  (∃ c, b = a ++ c) ∨ ∃ common x y as bs, a = common ++ x :: as ∧ b = common ++ y :: bs ∧ x.toNat < y.toNat

end Chopper.Spec
