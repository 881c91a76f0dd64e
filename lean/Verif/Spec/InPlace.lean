import Verif.Model.InPlace
import Verif.Spec.DcRow
import Verif.Spec.Cli
import Verif.Spec.Input
import Verif.Spec.Reader

/-!
# Specification: runs whose output file is one of the inputs
-/
namespace Chopper.Spec
open Chopper

/-- The inputs of a run, those that are the output file replaced by what had been fetched from them when the output was created. -/
def cutSources : List Source → List (Option InPlaceFile) → List Source
  | [], _ => []
  | s :: ss, [] => s :: cutSources ss []
  | s :: ss, none :: ps => s :: cutSources ss ps
  | _ :: ss, some p :: ps => p.meaning p.seen :: cutSources ss ps

/-- The function gives the rows and the end of every DC file (there is one answer, C94). -/
def DcMeaning (meaning : List Byte → Source) : Prop := ∀ bytes h src, IsDcFile bytes h src → meaning bytes = src

/-- The same world, but for the bytes of one file. -/
def withFile (w : World) (p : Path) (bytes : List Byte) : World := { w with file := fun q => if q = p then some ⟨bytes, [], none⟩ else w.file q }

end Chopper.Spec
